import Verif.Model.Wiki
import Verif.Proof.SegFind
/-
wiki_sort.h 61-167: the searches.
-/
set_option autoImplicit false

namespace CppSort
variable {α : Type} {lt : α → α → Bool}

theorem seg_sub {c : Nat → Cell α} {f : Nat} {xs : List α} (h : Seg c f xs) (k t : Nat) : Seg c (f + k) ((xs.drop k).take t) := by
  intro i hi
  rw [List.length_take, List.length_drop] at hi
  have := h (k + i) (by omega)
  rw [List.getElem_take, List.getElem_drop, ← this]
  congr 1
  omega

theorem mem_left_of_lt {P Q : List α} {i : Nat} (h : i < P.length) : (P ++ Q)[i]'(by rw [List.length_append]; omega) ∈ P := by
  rw [List.getElem_append_left h]; exact List.getElem_mem h

theorem mem_right_of_le {P Q : List α} {i : Nat} (h : P.length ≤ i) (h' : i < (P ++ Q).length) : (P ++ Q)[i] ∈ Q := by
  rw [List.getElem_append_right h]; exact List.getElem_mem _

/-- What the search with `p` needs of its parts. -/
structure FindParts (p : α → Bool) (go : α → M α Bool) (b : Bool) (bound : Nat → Nat → M α Nat) : Prop where
  go : ∀ (x : α) (s : St α), wp (go x) (fun r s' => r = (p x == b) ∧ ∃ k, s' = { s with cmps := k }) s
  bound : ∀ (P Q : List α) (f n : Nat) (s : St α), n = (P ++ Q).length → Seg s.cell f (P ++ Q) → (∀ x ∈ P, p x = true) →
    (∀ x ∈ Q, p x = false) → wp (bound f n) (fun r s' => r = f + P.length ∧ ∃ k, s' = { s with cmps := k }) s

theorem FindParts.sub {p : α → Bool} {go : α → M α Bool} {b : Bool} {bound : Nat → Nat → M α Nat} (h : FindParts p go b bound)
    {P Q : List α} {first f n : Nat} {s : St α} (hs : Seg s.cell first (P ++ Q)) (hP : ∀ x ∈ P, p x = true)
    (hQ : ∀ x ∈ Q, p x = false) (h1 : first ≤ f) (h2 : f ≤ first + P.length) (h3 : first + P.length ≤ f + n)
    (h4 : f + n ≤ first + (P.length + Q.length)) :
    wp (bound f n) (fun r s' => r = first + P.length ∧ ∃ k, s' = { s with cmps := k }) s := by
  have hsub := seg_sub hs (f - first) n
  rw [List.drop_append_of_le_length (by omega), List.take_append, List.length_drop, List.take_of_length_le (by simp; omega)] at hsub
  refine wp_mono (h.bound (P.drop (f - first)) (Q.take (n - (P.length - (f - first)))) f n s ?_ ?_ ?_ ?_) ?_
  · simp; omega
  · rw [show f = first + (f - first) by omega]
    rw [show first + (f - first) - first = f - first by omega]; exact hsub
  · exact fun x hx => hP x (List.mem_of_mem_drop hx)
  · exact fun x hx => hQ x (List.mem_of_mem_take hx)
  · rintro r s' ⟨rfl, h⟩
    exact ⟨by rw [List.length_drop]; omega, h⟩

theorem findFwdLoop_spec {p : α → Bool} {go : α → M α Bool} {bound : Nat → Nat → M α Nat} (h : FindParts p go true bound)
    {P Q : List α} {first last skip : Nat} (hl : last = first + (P.length + Q.length)) (hP : ∀ x ∈ P, p x = true)
    (hQ : ∀ x ∈ Q, p x = false) (hk : 0 < skip) (n : Nat) : ∀ (j : Nat) (s : St α), last - j = n → first + skip ≤ j → j ≤ last →
    j ≤ first + P.length + skip → Seg s.cell first (P ++ Q) →
    wp (findFwdLoop go bound skip last j) (fun r s' => r = first + P.length ∧ ∃ k, s' = { s with cmps := k }) s := by
  induction n using Nat.strongRecOn with
  | _ n ih =>
    intro j s hn h1 h2 h3 hs
    have hlen : (P ++ Q).length = P.length + Q.length := List.length_append
    rw [findFwdLoop]
    apply wp_bind
    have hv := hs (j - 1 - first) (by omega)
    rw [show first + (j - 1 - first) = j - 1 by omega] at hv
    refine wp_read' hv ?_
    apply wp_bind
    refine wp_mono (h.go _ s) ?_
    rintro r s1 ⟨rfl, k, rfl⟩
    by_cases hj : j - 1 - first < P.length
    · have hm := hP _ (mem_left_of_lt (Q := Q) hj)
      rw [if_pos (by rw [hm]; rfl)]
      split
      · exact wp_mono (h.sub (s := { s with cmps := k }) hs hP hQ (by omega) (by omega) (by omega) (by omega))
          fun r s' ⟨a, k', b⟩ => ⟨a, k', by rw [b]⟩
      · refine wp_mono (ih (last - (j + skip)) (by omega) (j + skip) { s with cmps := k } rfl (by omega) (by omega) (by omega) hs)
          fun r s' ⟨a, k', b⟩ => ⟨a, k', by rw [b]⟩
    · have hm := hQ _ (mem_right_of_le (P := P) (Q := Q) (i := j - 1 - first) (by omega) (by omega))
      rw [if_neg (by rw [hm]; decide)]
      exact wp_mono (h.sub (s := { s with cmps := k }) hs hP hQ (by omega) (by omega) (by omega) (by omega))
          fun r s' ⟨a, k', b⟩ => ⟨a, k', by rw [b]⟩

theorem findBwdLoop_spec {p : α → Bool} {go : α → M α Bool} {bound : Nat → Nat → M α Nat} (h : FindParts p go false bound)
    {P Q : List α} {first last skip : Nat} (hl : last = first + (P.length + Q.length)) (hP : ∀ x ∈ P, p x = true)
    (hQ : ∀ x ∈ Q, p x = false) (hk : 0 < skip) (n : Nat) : ∀ (j : Nat) (s : St α), j = n → first ≤ j → j + skip ≤ last →
    first + P.length ≤ j + skip → Seg s.cell first (P ++ Q) →
    wp (findBwdLoop go bound skip first j) (fun r s' => r = first + P.length ∧ ∃ k, s' = { s with cmps := k }) s := by
  induction n using Nat.strongRecOn with
  | _ n ih =>
    intro j s hn h1 h2 h3 hs
    have hlen : (P ++ Q).length = P.length + Q.length := List.length_append
    rw [findBwdLoop]
    split
    · rename_i hj0
      apply wp_bind
      have hv := hs (j - 1 - first) (by omega)
      rw [show first + (j - 1 - first) = j - 1 by omega] at hv
      refine wp_read' hv ?_
      apply wp_bind
      refine wp_mono (h.go _ s) ?_
      rintro r s1 ⟨rfl, k, rfl⟩
      by_cases hj : j - 1 - first < P.length
      · have hm := hP _ (mem_left_of_lt (Q := Q) hj)
        rw [if_neg (by rw [hm]; decide)]
        exact wp_mono (h.sub (s := { s with cmps := k }) hs hP hQ (by omega) (by omega) (by omega) (by omega))
            fun r s' ⟨a, k', b⟩ => ⟨a, k', by rw [b]⟩
      · have hm := hQ _ (mem_right_of_le (P := P) (Q := Q) (i := j - 1 - first) (by omega) (by omega))
        rw [if_pos (by rw [hm]; rfl)]
        split
        · exact wp_mono (h.sub (s := { s with cmps := k }) hs hP hQ (by omega) (by omega) (by omega) (by omega))
            fun r s' ⟨a, k', b⟩ => ⟨a, k', by rw [b]⟩
        · refine wp_mono (ih (j - skip) (by omega) (j - skip) { s with cmps := k } rfl (by omega) (by omega) (by omega) hs)
            fun r s' ⟨a, k', b⟩ => ⟨a, k', by rw [b]⟩
    · exact h.sub hs hP hQ (by omega) (by omega) (by omega) (by omega)

theorem getD_get {xs : List α} {i : Nat} (h : i < xs.length) (d : α) : xs.getD i d = xs[i] := by simp [List.getD, h]

theorem lowerBoundN_parts {cmp : α → α → M α Bool} {value : α} {p : α → Bool} (hd : Decides cmp value p) (P Q : List α) (f n : Nat)
    (s : St α) (hn : n = (P ++ Q).length) (hs : Seg s.cell f (P ++ Q)) (hP : ∀ x ∈ P, p x = true) (hQ : ∀ x ∈ Q, p x = false) :
    wp (lowerBoundN cmp f n value) (fun r s' => r = f + P.length ∧ ∃ k, s' = { s with cmps := k }) s := by
  have hlen : (P ++ Q).length = P.length + Q.length := List.length_append
  have hv : ∀ i, (g : f ≤ i) → (h : i < f + n) → s.cell i = .val ((P ++ Q)[i - f]'(by omega)) := fun i h1 h2 => by
    have := hs (i - f) (by omega)
    rwa [show f + (i - f) = i by omega] at this
  have hv1 : ∀ i, f ≤ i → i < f + P.length → p ((P ++ Q).getD (i - f) value) = true := fun i h1 h2 => by
    rw [getD_get (by omega)]
    exact hP _ (mem_left_of_lt (by omega))
  have hv2 : ∀ i, f + P.length ≤ i → i < f + n → p ((P ++ Q).getD (i - f) value) = false := fun i h1 h2 => by
    rw [getD_get (by omega)]
    exact hQ _ (mem_right_of_le (by omega) _)
  refine wp_mono (lowerBoundN_spec (v := fun i => (P ++ Q).getD (i - f) value) hd n f n s (Nat.le_refl _) (Nat.le_refl _) (Nat.le_refl _) ?_ ?_) ?_
  · intro i h1 h2
    show s.cell i = .val ((P ++ Q).getD (i - f) value)
    rw [getD_get (by omega)]
    exact hv i h1 h2
  · intro i j h1 h2 h3 h4
    by_cases hj : i < f + P.length
    · exact hv1 i h1 hj
    · rw [hv2 j (by omega) h3] at h4
      cases h4
  · rintro r s' ⟨h1, h2, h3, h4, k, h5, -⟩
    refine ⟨?_, k, h5⟩
    by_contra hc
    rcases Nat.lt_or_gt_of_ne hc with hc | hc
    · have := h4 r (Nat.le_refl _) (by omega)
      rw [hv1 r h1 hc] at this
      cases this
    · have := h3 (f + P.length) (by omega) hc
      rw [hv2 _ (Nat.le_refl _) (by omega)] at this
      cases this

theorem wp_notC_tick {x y : α} {s : St α} {Q : Bool → St α → Prop} (h : Q (!lt x y) { s with cmps := s.cmps + 1 }) :
    wp (notC (tick lt) x y) Q s := by
  rw [notC_tick]
  exact wp_tick h

theorem wp_divC {a b : Nat} {s : St α} {Q : Nat → St α → Prop} (hb : 0 < b) (h : Q (a / b) s) : wp (divC a b) Q s := by
  unfold divC
  rw [if_neg (by omega)]
  exact wp_pure h

theorem sorted_split (hlt : StrictWeak lt) {p : α → Bool} (hp : ∀ x y, lt y x = false → p y = true → p x = true) : ∀ {xs : List α},
    SortedList lt xs → ∃ P Q : List α, xs = P ++ Q ∧ (∀ x ∈ P, p x = true) ∧ ∀ x ∈ Q, p x = false
  | [], _ => ⟨[], [], rfl, by simp, by simp⟩
  | x :: xs, h => by
    obtain ⟨h1, h2⟩ := sortedList_cons.1 h
    by_cases hx : p x = true
    · obtain ⟨P, Q, e, hP, hQ⟩ := sorted_split hlt hp h2
      exact ⟨x :: P, Q, by rw [e]; rfl, by simpa using ⟨hx, hP⟩, hQ⟩
    · refine ⟨[], x :: xs, rfl, by simp, fun y hy => ?_⟩
      rcases List.mem_cons.1 hy with rfl | hy
      · simpa using hx
      · by_contra hc
        exact hx (hp x y (h1 y hy) (by simpa using hc))

theorem max_skip {q n : Nat} (h : q ≤ n) (hn : 0 < n) : 0 < max q 1 ∧ max q 1 ≤ n := ⟨by omega, by omega⟩

section
variable (hlt : StrictWeak lt) {xs : List α} {a l unique : Nat} {s : St α} (value : α)
  (hl : l = a + xs.length) (hs : Seg s.cell a xs) (ho : SortedList lt xs) (hu : 0 < unique)
include hlt hl hs ho hu

theorem findFirstForward_spec :
    wp (findFirstForward (tick lt) a l value unique) (fun q s' => ∃ us vs k, xs = (us ++ vs : List α) ∧ q = a + us.length ∧
      (∀ u ∈ us, lt u value = true) ∧ (∀ w ∈ vs, lt w value = false) ∧ s' = { s with cmps := k }) s := by
  obtain ⟨P, Q, rfl, hP, hQ⟩ := sorted_split hlt (p := fun x => lt x value) (fun x y h1 h2 => hlt.lt_of_le_of_lt h1 h2) ho
  rw [List.length_append] at hl
  unfold findFirstForward
  split
  · exact wp_pure ⟨P, Q, s.cmps, rfl, by omega, hP, hQ, rfl⟩
  · apply wp_bind
    refine wp_divC hu ?_
    obtain ⟨k1, k2⟩ := max_skip (Nat.div_le_self (l - a) unique) (by omega)
    refine wp_mono (findFwdLoop_spec (p := fun x => lt x value) ⟨fun x s => wp_tick ⟨by simp, _, rfl⟩,
      fun P Q f n s => lowerBoundN_parts (decides_tick value) P Q f n s⟩ (by omega) hP hQ k1 _ (a + max ((l - a) / unique) 1) s
      rfl (by omega) (by omega) (by omega) hs) ?_
    rintro r s' ⟨rfl, k, rfl⟩
    exact ⟨P, Q, k, rfl, rfl, hP, hQ, rfl⟩

theorem findFirstBackward_spec :
    wp (findFirstBackward (tick lt) a l value unique) (fun q s' => ∃ us vs k, xs = (us ++ vs : List α) ∧ q = a + us.length ∧
      (∀ u ∈ us, lt u value = true) ∧ (∀ w ∈ vs, lt w value = false) ∧ s' = { s with cmps := k }) s := by
  obtain ⟨P, Q, rfl, hP, hQ⟩ := sorted_split hlt (p := fun x => lt x value) (fun x y h1 h2 => hlt.lt_of_le_of_lt h1 h2) ho
  rw [List.length_append] at hl
  unfold findFirstBackward
  split
  · exact wp_pure ⟨P, Q, s.cmps, rfl, by omega, hP, hQ, rfl⟩
  · apply wp_bind
    refine wp_divC hu ?_
    obtain ⟨k1, k2⟩ := max_skip (Nat.div_le_self (l - a) unique) (by omega)
    refine wp_mono (findBwdLoop_spec (p := fun x => lt x value) ⟨fun x s => wp_notC_tick ⟨by simp, _, rfl⟩,
      fun P Q f n s => lowerBoundN_parts (decides_tick value) P Q f n s⟩ (by omega) hP hQ k1 _ (l - max ((l - a) / unique) 1) s
      rfl (by omega) (by omega) (by omega) hs) ?_
    rintro r s' ⟨rfl, k, rfl⟩
    exact ⟨P, Q, k, rfl, rfl, hP, hQ, rfl⟩

theorem findLastForward_spec :
    wp (findLastForward (tick lt) a l value unique) (fun q s' => ∃ us vs k, xs = (us ++ vs : List α) ∧ q = a + us.length ∧
      (∀ u ∈ us, lt value u = false) ∧ (∀ w ∈ vs, lt value w = true) ∧ s' = { s with cmps := k }) s := by
  obtain ⟨P, Q, rfl, hP, hQ⟩ := sorted_split hlt (p := fun x => !lt value x) (fun x y h1 h2 => by
    simp only [Bool.not_eq_true'] at h2 ⊢; exact hlt.le_trans h1 h2) ho
  simp only [Bool.not_eq_true', Bool.not_eq_false'] at hP hQ
  rw [List.length_append] at hl
  unfold findLastForward
  split
  · exact wp_pure ⟨P, Q, s.cmps, rfl, by omega, hP, hQ, rfl⟩
  · apply wp_bind
    refine wp_divC hu ?_
    obtain ⟨k1, k2⟩ := max_skip (Nat.div_le_self (l - a) unique) (by omega)
    refine wp_mono (findFwdLoop_spec (p := fun x => !lt value x) ⟨fun x s => wp_notC_tick ⟨by simp, _, rfl⟩,
      fun P Q f n s => lowerBoundN_parts (decides_notFlip value) P Q f n s⟩ (by omega) (by simpa using hP) (by simpa using hQ) k1 _
      (a + max ((l - a) / unique) 1) s rfl (by omega) (by omega) (by omega) hs) ?_
    rintro r s' ⟨rfl, k, rfl⟩
    exact ⟨P, Q, k, rfl, rfl, hP, hQ, rfl⟩

theorem findLastBackward_spec :
    wp (findLastBackward (tick lt) a l value unique) (fun q s' => ∃ us vs k, xs = (us ++ vs : List α) ∧ q = a + us.length ∧
      (∀ u ∈ us, lt value u = false) ∧ (∀ w ∈ vs, lt value w = true) ∧ s' = { s with cmps := k }) s := by
  obtain ⟨P, Q, rfl, hP, hQ⟩ := sorted_split hlt (p := fun x => !lt value x) (fun x y h1 h2 => by
    simp only [Bool.not_eq_true'] at h2 ⊢; exact hlt.le_trans h1 h2) ho
  simp only [Bool.not_eq_true', Bool.not_eq_false'] at hP hQ
  rw [List.length_append] at hl
  unfold findLastBackward
  split
  · exact wp_pure ⟨P, Q, s.cmps, rfl, by omega, hP, hQ, rfl⟩
  · apply wp_bind
    refine wp_divC hu ?_
    obtain ⟨k1, k2⟩ := max_skip (Nat.div_le_self (l - a) unique) (by omega)
    refine wp_mono (findBwdLoop_spec (p := fun x => !lt value x) ⟨fun x s => wp_tick ⟨by simp, _, rfl⟩,
      fun P Q f n s => lowerBoundN_parts (decides_notFlip value) P Q f n s⟩ (by omega) (by simpa using hP) (by simpa using hQ) k1 _
      (l - max ((l - a) / unique) 1) s rfl (by omega) (by omega) (by omega) hs) ?_
    rintro r s' ⟨rfl, k, rfl⟩
    exact ⟨P, Q, k, rfl, rfl, hP, hQ, rfl⟩

end

theorem wp_wikiLt {i j : Nat} {x y : α} {s : St α} {Q : Bool → St α → Prop} (hi : s.cell i = .val x) (hj : s.cell j = .val y)
    (h : Q (lt x y) { s with cmps := s.cmps + 1 }) : wp (wikiLt (tick lt) i j) Q s := by
  unfold wikiLt
  apply wp_bind
  refine wp_read' hi ?_
  apply wp_bind
  refine wp_read' hj ?_
  exact wp_tick h

end CppSort
