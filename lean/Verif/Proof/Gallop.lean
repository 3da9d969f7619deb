import Verif.Proof.SegRuns
/-
`gallopLeft` and `gallopRight` of timsort.h.
-/
set_option autoImplicit false

namespace CppSort
variable {α : Type} {lt : α → α → Bool}

theorem gallopLoop_spec {T : Nat → Bool} {test : Nat → M α Bool} {maxOfs : Nat} {s : St α}
    (ht : ∀ o k, o < maxOfs → wp (test o) (fun r s' => r = T o ∧ ∃ k', s' = { s with cmps := k' }) { s with cmps := k })
    (n : Nat) : ∀ lastOfs ofs k, maxOfs - ofs = n → lastOfs < ofs → lastOfs < maxOfs →
    wp (gallopLoop test maxOfs lastOfs ofs) (fun r s' => r.1 < r.2 ∧ r.1 < maxOfs ∧ (r.1 = lastOfs ∨ T r.1 = true) ∧
      (r.2 < maxOfs → T r.2 = false) ∧ ∃ k', s' = { s with cmps := k' }) { s with cmps := k } := by
  induction n using Nat.strongRecOn with
  | _ n ih =>
    intro lastOfs ofs k hn h1 h2
    rw [gallopLoop]
    split
    · rename_i hlt
      apply wp_bind
      refine wp_mono (ht ofs k hlt) ?_
      rintro r _ ⟨rfl, k', rfl⟩
      split
      · rename_i hT
        refine wp_mono (ih (maxOfs - (2 * ofs + 1)) (by omega) ofs (2 * ofs + 1) k' rfl (by omega) hlt) ?_
        rintro ⟨r1, r2⟩ s' ⟨g1, g2, g3, g4, g5⟩
        refine ⟨g1, g2, ?_, g4, g5⟩
        rcases g3 with g3 | g3
        · right; simp only at g3 ⊢; rw [g3]; exact hT
        · exact .inr g3
      · rename_i hT
        exact wp_pure ⟨h1, h2, .inl rfl, fun _ => by simpa using hT, k', rfl⟩
    · rename_i hge
      exact wp_pure ⟨h1, h2, .inl rfl, fun h => absurd h hge, k, rfl⟩

/-- `P` holds on a prefix of every sorted list. -/
def PrefixP (lt : α → α → Bool) (P : α → Bool) : Prop := ∀ x y, lt y x = false → P y = true → P x = true

theorem PrefixP.take {P : α → Bool} (hP : PrefixP lt P) {xs : List α} (ho : SortedList lt xs) (hlt : StrictWeak lt) {j : Nat}
    (hj : j < xs.length) (h : P xs[j] = true) : ∀ a ∈ xs.take (j + 1), P a = true := by
  intro a ha
  obtain ⟨i, hi, rfl⟩ := List.mem_iff_getElem.1 ha
  rw [List.length_take] at hi
  rw [List.getElem_take]
  by_cases e : i = j
  · subst e; exact h
  · exact hP _ _ (List.pairwise_iff_getElem.1 ho i j (by omega) hj (by omega)) h

theorem PrefixP.drop {P : α → Bool} (hP : PrefixP lt P) {xs : List α} (ho : SortedList lt xs) {j : Nat}
    (hj : j < xs.length) (h : P xs[j] = false) : ∀ a ∈ xs.drop j, P a = false := by
  intro a ha
  obtain ⟨i, hi, rfl⟩ := List.mem_iff_getElem.1 ha
  rw [List.length_drop] at hi
  rw [List.getElem_drop]
  by_cases e : i = 0
  · subst e; exact h
  · by_contra hc
    rw [Bool.not_eq_false] at hc
    have := hP _ _ (List.pairwise_iff_getElem.1 ho j (j + i) hj (by omega) (by omega)) hc
    rw [h] at this; cases this

/-- A list in three parts. -/
theorem three_parts {β : Type} (xs : List β) {p q : Nat} (h : p ≤ q) :
    xs = xs.take p ++ ((xs.drop p).take (q - p) ++ xs.drop q) := by
  have : xs.drop q = (xs.drop p).drop (q - p) := by rw [List.drop_drop]; congr 1; omega
  rw [this, List.take_append_drop, List.take_append_drop]

/-- The position found by a binary search in the middle part is that of the whole list. -/
theorem search_mid {P : α → Bool} {search : Nat → Nat → M α Nat} {xs : List α} {base p q : Nat} {s : St α}
    (hf : ∀ (ys : List α) a l, l = a + ys.length → Seg s.cell a ys → SortedList lt ys →
      wp (search a l) (fun r s' => ∃ us vs k, ys = (us ++ vs : List α) ∧ r = a + us.length ∧
        (∀ u ∈ us, P u = true) ∧ (∀ w ∈ vs, P w = false) ∧ s' = { s with cmps := k }) s)
    (hpq : p ≤ q) (hq : q ≤ xs.length) (hs : Seg s.cell base xs) (ho : SortedList lt xs)
    (h1 : ∀ a ∈ xs.take p, P a = true) (h2 : ∀ a ∈ xs.drop q, P a = false) :
    wp (do let r ← search (base + p) (base + q); pure (r - base)) (fun r s' => ∃ us vs k, xs = (us ++ vs : List α) ∧
      r = us.length ∧ (∀ u ∈ us, P u = true) ∧ (∀ w ∈ vs, P w = false) ∧ s' = { s with cmps := k }) s := by
  have e := three_parts xs hpq
  have l1 : (xs.take p).length = p := by rw [List.length_take]; omega
  have l2 : ((xs.drop p).take (q - p)).length = q - p := by rw [List.length_take, List.length_drop]; omega
  have hs' := hs
  rw [e] at hs'
  obtain ⟨s1, s2⟩ := seg_append.1 hs'
  obtain ⟨s2, s3⟩ := seg_append.1 s2
  rw [l1] at s2
  apply wp_bind
  refine wp_mono (hf ((xs.drop p).take (q - p)) _ _ (by omega) s2 ?_) ?_
  · exact (ho.sublist (List.drop_sublist _ _)).sublist (List.take_sublist _ _)
  rintro r _ ⟨us, vs, k, e2, rfl, g1, g2, rfl⟩
  refine wp_pure ⟨xs.take p ++ us, vs ++ xs.drop q, k, ?_, ?_, ?_, ?_, rfl⟩
  · rw [e2] at e
    conv => lhs; rw [e]
    simp only [List.append_assoc]
  · rw [List.length_append, l1]; omega
  · intro u hu
    rcases List.mem_append.1 hu with hu | hu
    · exact h1 u hu
    · exact g1 u hu
  · intro u hu
    rcases List.mem_append.1 hu with hu | hu
    · exact g2 u hu
    · exact h2 u hu

theorem gallopLeft_seg (hlt : StrictWeak lt) {xs : List α} {base len hint : Nat} {s : St α} (key : α)
    (hl : len = xs.length) (hh : hint < len) (hs : Seg s.cell base xs) (ho : SortedList lt xs) :
    wp (gallopLeft (tick lt) key base len hint) (fun r s' => ∃ us vs k, xs = (us ++ vs : List α) ∧ r = us.length ∧
      (∀ u ∈ us, lt u key = true) ∧ (∀ w ∈ vs, lt w key = false) ∧ s' = { s with cmps := k }) s := by
  subst hl
  have hP : PrefixP lt (fun x => lt x key) := fun x y h1 h2 => hlt.lt_of_le_of_lt h1 h2
  have hf : ∀ k0 (ys : List α) a l, l = a + ys.length → Seg s.cell a ys → SortedList lt ys →
      wp (lowerBound (tick lt) a l key) (fun r s' => ∃ us vs k, ys = (us ++ vs : List α) ∧ r = a + us.length ∧
        (∀ u ∈ us, lt u key = true) ∧ (∀ w ∈ vs, lt w key = false) ∧ s' = { s with cmps := k }) { s with cmps := k0 } :=
    fun k0 ys a l h1 h2 h3 => lowerBound_seg (s := { s with cmps := k0 }) hlt key h1 h2 h3
  unfold gallopLeft
  apply wp_bind
  refine wp_read' (hs hint hh) ?_
  apply wp_bind
  refine wp_tick ?_
  split
  · rename_i hc
    apply wp_bind
    refine wp_mono (gallopLoop_spec (T := fun o => if h : hint + o < xs.length then lt xs[hint + o] key else true)
      (maxOfs := xs.length - hint) (s := s) ?_ _ 0 1 _ rfl (by omega) (by omega)) ?_
    · intro o k ho
      apply wp_bind
      refine wp_read' (hs (hint + o) (by omega)) ?_
      refine wp_tick ?_
      exact ⟨by rw [dif_pos (by omega)], _, rfl⟩
    rintro ⟨lastOfs, ofs⟩ _ ⟨g1, g2, g3, g4, k, rfl⟩
    simp only at g1 g2 g3 g4
    refine search_mid (s := { s with cmps := k }) (P := fun x => lt x key) (search := fun a l => lowerBound (tick lt) a l key)
      (hf k) (by omega) (by omega) hs ho ?_ ?_
    · refine hP.take ho hlt (by omega) ?_
      rcases g3 with rfl | g3
      · simpa using hc
      · rw [dif_pos (by omega)] at g3
        simpa [Nat.add_comm] using g3
    · by_cases hm : ofs < xs.length - hint
      · have := g4 hm
        rw [dif_pos (by omega)] at this
        rw [show min ofs (xs.length - hint) + hint = hint + ofs by omega]
        exact hP.drop ho (by omega) this
      · rw [show min ofs (xs.length - hint) + hint = xs.length by omega, List.drop_length]
        simp
  · rename_i hc
    rw [Bool.not_eq_true] at hc
    apply wp_bind
    refine wp_mono (gallopLoop_spec (T := fun o => if h : hint - o < xs.length then !lt xs[hint - o] key else true)
      (maxOfs := hint + 1) (s := s) ?_ _ 0 1 _ rfl (by omega) (by omega)) ?_
    · intro o k ho
      apply wp_bind
      refine wp_read' (hs (hint - o) (by omega)) ?_
      apply wp_bind
      refine wp_tick ?_
      refine wp_pure ⟨by rw [dif_pos (by omega)], _, rfl⟩
    rintro ⟨lastOfs, ofs⟩ _ ⟨g1, g2, g3, g4, k, rfl⟩
    simp only at g1 g2 g3 g4
    refine search_mid (s := { s with cmps := k }) (P := fun x => lt x key) (search := fun a l => lowerBound (tick lt) a l key)
      (hf k) (by omega) (by omega) hs ho ?_ ?_
    · by_cases hm : ofs < hint + 1
      · have := g4 hm
        rw [dif_pos (by omega)] at this
        rw [show hint + 1 - min ofs (hint + 1) = hint - ofs + 1 by omega]
        exact hP.take ho hlt (by omega) (by simpa using this)
      · rw [show hint + 1 - min ofs (hint + 1) = 0 by omega]
        simp
    · refine hP.drop ho (by omega) ?_
      rcases g3 with rfl | g3
      · simpa using hc
      · rw [dif_pos (by omega)] at g3
        simpa using g3

theorem gallopRight_seg (hlt : StrictWeak lt) {xs : List α} {base len hint : Nat} {s : St α} (key : α)
    (hl : len = xs.length) (hh : hint < len) (hs : Seg s.cell base xs) (ho : SortedList lt xs) :
    wp (gallopRight (tick lt) key base len hint) (fun r s' => ∃ us vs k, xs = (us ++ vs : List α) ∧ r = us.length ∧
      (∀ u ∈ us, lt key u = false) ∧ (∀ w ∈ vs, lt key w = true) ∧ s' = { s with cmps := k }) s := by
  subst hl
  have hP : PrefixP lt (fun x => !lt key x) := fun x y h1 h2 => by
    simp only [Bool.not_eq_true'] at h2 ⊢
    exact hlt.le_trans h1 h2
  have hf : ∀ k0 (ys : List α) a l, l = a + ys.length → Seg s.cell a ys → SortedList lt ys →
      wp (upperBound (tick lt) a l key) (fun r s' => ∃ us vs k, ys = (us ++ vs : List α) ∧ r = a + us.length ∧
        (∀ u ∈ us, (!lt key u) = true) ∧ (∀ w ∈ vs, (!lt key w) = false) ∧ s' = { s with cmps := k })
        { s with cmps := k0 } :=
    fun k0 ys a l h1 h2 h3 => by
      simpa using upperBound_seg (s := { s with cmps := k0 }) hlt key h1 h2 h3
  have hfin : ∀ {m : M α Nat} {s1 : St α}, wp m (fun r s' => ∃ us vs k, xs = (us ++ vs : List α) ∧ r = us.length ∧
      (∀ u ∈ us, (!lt key u) = true) ∧ (∀ w ∈ vs, (!lt key w) = false) ∧ s' = { s with cmps := k }) s1 →
      wp m (fun r s' => ∃ us vs k, xs = (us ++ vs : List α) ∧ r = us.length ∧
      (∀ u ∈ us, lt key u = false) ∧ (∀ w ∈ vs, lt key w = true) ∧ s' = { s with cmps := k }) s1 := by
    intro m s1 h
    simpa using h
  unfold gallopRight
  apply wp_bind
  refine wp_read' (hs hint hh) ?_
  apply wp_bind
  refine wp_tick ?_
  split
  · rename_i hc
    apply wp_bind
    refine wp_mono (gallopLoop_spec (T := fun o => if h : hint - o < xs.length then lt key xs[hint - o] else true)
      (maxOfs := hint + 1) (s := s) ?_ _ 0 1 _ rfl (by omega) (by omega)) ?_
    · intro o k ho
      apply wp_bind
      refine wp_read' (hs (hint - o) (by omega)) ?_
      refine wp_tick ?_
      exact ⟨by rw [dif_pos (by omega)], _, rfl⟩
    rintro ⟨lastOfs, ofs⟩ _ ⟨g1, g2, g3, g4, k, rfl⟩
    simp only at g1 g2 g3 g4
    refine hfin (search_mid (s := { s with cmps := k }) (P := fun x => !lt key x)
      (search := fun a l => upperBound (tick lt) a l key) (hf k) (by omega) (by omega) hs ho ?_ ?_)
    · by_cases hm : ofs < hint + 1
      · have := g4 hm
        rw [dif_pos (by omega)] at this
        rw [show hint + 1 - min ofs (hint + 1) = hint - ofs + 1 by omega]
        exact hP.take ho hlt (by omega) (by simpa using this)
      · rw [show hint + 1 - min ofs (hint + 1) = 0 by omega]
        simp
    · refine hP.drop ho (by omega) ?_
      rcases g3 with rfl | g3
      · simpa using hc
      · rw [dif_pos (by omega)] at g3
        simpa using g3
  · rename_i hc
    rw [Bool.not_eq_true] at hc
    apply wp_bind
    refine wp_mono (gallopLoop_spec (T := fun o => if h : hint + o < xs.length then !lt key xs[hint + o] else true)
      (maxOfs := xs.length - hint) (s := s) ?_ _ 0 1 _ rfl (by omega) (by omega)) ?_
    · intro o k ho
      apply wp_bind
      refine wp_read' (hs (hint + o) (by omega)) ?_
      apply wp_bind
      refine wp_tick ?_
      exact wp_pure ⟨by rw [dif_pos (by omega)], _, rfl⟩
    rintro ⟨lastOfs, ofs⟩ _ ⟨g1, g2, g3, g4, k, rfl⟩
    simp only at g1 g2 g3 g4
    refine hfin (search_mid (s := { s with cmps := k }) (P := fun x => !lt key x)
      (search := fun a l => upperBound (tick lt) a l key) (hf k) (by omega) (by omega) hs ho ?_ ?_)
    · refine hP.take ho hlt (by omega) ?_
      rcases g3 with rfl | g3
      · simpa using hc
      · rw [dif_pos (by omega)] at g3
        simpa [Nat.add_comm] using g3
    · by_cases hm : ofs < xs.length - hint
      · have := g4 hm
        rw [dif_pos (by omega)] at this
        rw [show min ofs (xs.length - hint) + hint = hint + ofs by omega]
        exact hP.drop ho (by omega) (by simpa using this)
      · rw [show min ofs (xs.length - hint) + hint = xs.length by omega, List.drop_length]
        simp

end CppSort
