import Verif.Proof.Encroach
/-
melsort.h.
-/
set_option autoImplicit false

namespace CppSort
variable {α β γ : Type} {lt : α → α → Bool}

/-! ### The merge of the lists -/

theorem fslTake_runs {x : α} : ∀ (ys : List α),
    Runs (fslTake (tick lt) x ys) (fun r => ys = r.1 ++ r.2 ∧ (∀ y ∈ r.1, lt y x = true)) := by
  intro ys
  induction ys with
  | nil => exact Runs.pure ⟨rfl, by simp⟩
  | cons y ys ih =>
    rw [fslTake]
    refine Runs.tickBind ?_
    split
    · rename_i h
      refine ih.bind fun r ⟨h1, h2⟩ => Runs.pure ⟨by rw [h1]; rfl, fun z hz => ?_⟩
      rcases List.mem_cons.1 hz with e | e
      · rw [e]; exact h
      · exact h2 z e
    · exact Runs.pure ⟨rfl, by simp⟩

theorem mergeL_take {x : α} {xs : List α} : ∀ (t r : List α), (∀ y ∈ t, lt y x = true) →
    mergeL lt (x :: xs) (t ++ r) = t ++ mergeL lt (x :: xs) r := by
  intro t r h
  induction t with
  | nil => rfl
  | cons y t ih =>
    rw [List.cons_append, mergeL_cons, if_pos (h y (by simp)), ih fun z hz => h z (by simp [hz])]
    rfl

theorem fslMerge_runs : ∀ (n : Nat) (xs ys : List α), xs.length + ys.length = n →
    Runs (fslMerge (tick lt) xs ys) (fun r => r = mergeL lt xs ys) := by
  intro n
  induction n using Nat.strongRecOn with
  | _ n ih =>
    intro xs ys hn
    rw [fslMerge.eq_def]
    match xs, ys, hn with
    | [], ys, _ => exact Runs.pure (by simp)
    | x :: xs, [], _ => exact Runs.pure (by simp)
    | x :: xs, y :: ys, hn =>
      simp only [List.length_cons] at hn
      refine Runs.tickBind ?_
      split
      · rename_i h
        refine (fslTake_runs ys).bind fun r ⟨h1, h2⟩ => ?_
        have hl := congrArg List.length h1
        rw [List.length_append] at hl
        refine (ih _ ?_ (x :: xs) r.2 rfl).bind fun q hq => Runs.pure ?_
        · simp only [List.length_cons]; omega
        · rw [hq, mergeL_cons, if_pos h, h1, mergeL_take _ _ h2]; rfl
      · rename_i h
        refine (ih _ ?_ xs (y :: ys) rfl).bind fun q hq => Runs.pure ?_
        · simp only [List.length_cons]; omega
        · rw [hq, mergeL_cons, if_neg h]

theorem fslMerge_merges (hlt : StrictWeak lt) : MergesLists lt (fslMerge (tick lt)) :=
  fun xs ys h1 h2 => (fslMerge_runs _ xs ys rfl).mono fun r hr => by
    have := mergeL_ssorted hlt xs ys h1 h2
    rw [hr]; exact ⟨this.1, this.2.1⟩

theorem melMergeLists_runs (hlt : StrictWeak lt) : ∀ (n : Nat) (L : List (List α)), L.length = n →
    (∀ l ∈ L, SortedList lt l) →
    Runs (melMergeLists (tick lt) L) (fun L' => L'.length ≤ 2 ∧ (∀ l ∈ L', SortedList lt l) ∧
      L'.flatten.Perm L.flatten) := by
  intro n
  induction n using Nat.strongRecOn with
  | _ n ih =>
    intro L hn hs
    rw [melMergeLists]
    split
    · rename_i h1
      refine (mergeOdd_runs (fslMerge_merges hlt) (by omega) hs).bind fun L1 ⟨a1, a2, a3⟩ => ?_
      have hh := mergeHalves_runs (fslMerge_merges hlt) (h := L.length / 2) (L.length / 2) 0 L1
        (by omega) a1 a2 (fun i _ _ => by omega)
      rw [Nat.add_zero] at hh
      rw [show L1.length / 2 = L.length / 2 by omega]
      refine hh.bind fun L2 ⟨b1, b2, b3, b4⟩ => ?_
      rw [show L2.length / 2 = L.length / 2 by omega]
      refine (ih (L.length / 2) (by omega) _ (by simp; omega)
        (fun l hl => b2 l (List.mem_of_mem_take hl))).mono ?_
      rintro L3 ⟨c1, c2, c3⟩
      refine ⟨c1, c2, c3.trans ?_⟩
      have e : L2.flatten = (L2.take (L.length / 2)).flatten := by
        conv_lhs => rw [← List.take_append_drop (L.length / 2) L2]
        rw [List.flatten_append]
        have : (L2.drop (L.length / 2)).flatten = [] := by
          rw [List.flatten_eq_nil_iff]
          intro l hl
          obtain ⟨i, hi1, hi2⟩ := List.mem_iff_getElem.1 hl
          rw [List.getElem_drop] at hi2
          simp only [List.length_drop] at hi1
          have := b4 (L.length / 2 + i) (by omega) (by omega)
          rw [List.getElem?_eq_getElem (by omega)] at this
          simp only [Option.some.injEq] at this
          rw [← hi2, this]
        rw [this, List.append_nil]
      rw [← e]
      exact b3.trans a3
    · exact Runs.pure ⟨by omega, hs, List.Perm.refl _⟩

/-! ### The edges -/

theorem extractFronts_runs : ∀ (L : List (List α)), (∀ l ∈ L, l ≠ []) →
    Runs (extractFronts L) (fun r => r.1.map some = L.map List.head? ∧ r.2 = L.map List.tail) := by
  intro L
  induction L with
  | nil => intro _; exact Runs.pure ⟨rfl, rfl⟩
  | cons l L ih =>
    intro h
    rw [extractFronts]
    refine Runs.nthBind (head_nth (h l (by simp))) ?_
    refine (ih fun l hl => h l (by simp [hl])).bind fun r ⟨h1, h2⟩ => Runs.pure ⟨?_, ?_⟩
    · rw [List.map_cons, List.map_cons, h1, List.head?_eq_some_head (h l (by simp))]
    · rw [List.map_cons, h2, List.drop_one]

theorem extractBacks_runs : ∀ (L : List (List α)), (∀ l ∈ L, l ≠ []) →
    Runs (extractBacks L) (fun r => r.1.map some = (L.map List.getLast?).reverse ∧
      r.2 = L.map List.dropLast) := by
  intro L
  induction L with
  | nil => intro _; exact Runs.pure ⟨rfl, rfl⟩
  | cons l L ih =>
    intro h
    have hl := h l (by simp)
    have hp := List.length_pos_iff.2 hl
    rw [extractBacks]
    refine (ih fun l hl => h l (by simp [hl])).bind fun r ⟨h1, h2⟩ => ?_
    refine Runs.nthBind (last_nth hl (by omega)) (Runs.pure ⟨?_, ?_⟩)
    · rw [List.map_append, h1, List.map_cons (l := L), List.reverse_cons, List.getLast?_eq_some_getLast hl]
      rfl
    · rw [List.map_cons, h2]

/-- The edges of encroaching lists, and what is left of the lists. -/
inductive Edges (lt : α → α → Bool) : List (List α) → List α → List (List α) → Prop
  | one (x : α) : Edges lt [[x]] [x] []
  | last (x : α) (m : List α) (y : α) : Edges lt [x :: m ++ [y]] [x, y] [m]
  | cons (x : α) (m : List α) (y : α) (L : List (List α)) (e : List α) (R : List (List α)) :
      Edges lt L e R → Edges lt ((x :: m ++ [y]) :: L) (x :: e ++ [y]) (m :: R)

theorem two_split {l : List α} (h : 2 ≤ l.length) : ∃ x m y, l = x :: m ++ [y] := by
  cases l with
  | nil => simp at h
  | cons x l =>
    have hl : l ≠ [] := by rintro rfl; simp at h
    exact ⟨x, l.dropLast, l.getLast hl, by rw [List.cons_append, List.dropLast_append_getLast]⟩

theorem map_some_inj {l l' : List α} (h : l.map some = l'.map some) : l = l' :=
  List.map_injective_iff.2 (Option.some_injective α) h

/-- Everything `extractEdges` computes before the empty lists are removed. -/
theorem edges_of_enc : ∀ {L : List (List α)}, Enc lt L →
    ∃ (e1 e2 : List α) (R P : List (List α)),
    e1.map some = L.map List.head? ∧
    P = (if (L.map List.tail).getLast?.elim false List.isEmpty then (L.map List.tail).dropLast
      else L.map List.tail) ∧
    (∀ l ∈ P, l ≠ []) ∧
    e2.map some = (P.map List.getLast?).reverse ∧ R = P.map List.dropLast ∧ Edges lt L (e1 ++ e2) R := by
  intro L
  induction L with
  | nil => intro h; exact absurd rfl h.ne
  | cons l L ih =>
    intro h
    by_cases hL : L = []
    · subst hL
      obtain ⟨hne, hs⟩ := h.all l (by simp)
      match l, hne with
      | [x], _ => exact ⟨[x], [], [], [], rfl, rfl, by simp, rfl, rfl, Edges.one x⟩
      | x :: z :: m, _ =>
        obtain ⟨x', m', y, e⟩ := two_split (l := x :: z :: m) (by simp)
        rw [e]
        refine ⟨[x'], [y], [m'], [m' ++ [y]], rfl, ?_, by simp, by simp, by simp, Edges.last x' m' y⟩
        simp
    · have hc := List.pairwise_cons.1 h.nested
      obtain ⟨b, hb⟩ : ∃ b, b ∈ L := List.exists_mem_of_ne_nil L hL
      obtain ⟨x, m, y, e⟩ := two_split (hc.1 b hb).1
      obtain ⟨e1, e2, R, P, h1, h2, h3, h4, h5, h6⟩ :=
        ih ⟨hL, fun l hl => h.all l (by simp [hl]), hc.2⟩
      have hmt : L.map List.tail ≠ [] := by simpa using hL
      rw [e]
      refine ⟨x :: e1, e2 ++ [y], m :: R, (m ++ [y]) :: P, ?_, ?_, ?_, ?_, ?_, ?_⟩
      · rw [List.map_cons, List.map_cons, h1]; rfl
      · rw [h2, List.map_cons, List.getLast?_cons_of_ne_nil hmt, List.dropLast_cons_of_ne_nil hmt]
        split <;> rfl
      · intro l hl
        rcases List.mem_cons.1 hl with e | e
        · rw [e]; simp
        · exact h3 l e
      · rw [List.map_append, h4]; simp
      · rw [h5, List.map_cons]; simp
      · have := Edges.cons (lt := lt) x m y L (e1 ++ e2) R h6
        simpa using this

theorem Edges.mem {L : List (List α)} {e : List α} {R : List (List α)} (h : Edges lt L e R) :
    ∀ x ∈ e, ∃ l ∈ L, l.head? = some x ∨ l.getLast? = some x := by
  induction h with
  | one x =>
    intro z hz
    exact ⟨[x], by simp, .inl (by rw [List.mem_singleton.1 hz]; rfl)⟩
  | last x m y =>
    intro z hz
    refine ⟨_, List.mem_singleton.2 rfl, ?_⟩
    rcases List.mem_cons.1 hz with e | e
    · left; rw [e]; rfl
    · right; rw [List.mem_singleton.1 e]; exact List.getLast?_concat
  | cons x m y L e R h ih =>
    intro z hz
    rw [List.cons_append] at hz
    rcases List.mem_cons.1 hz with e | e
    · exact ⟨_, List.mem_cons_self, .inl (by rw [e]; rfl)⟩
    · rcases List.mem_append.1 e with e | e
      · obtain ⟨l, h1, h2⟩ := ih z e
        exact ⟨l, by simp [h1], h2⟩
      · exact ⟨_, List.mem_cons_self, .inr (by rw [List.mem_singleton.1 e]; exact List.getLast?_concat)⟩

theorem Edges.perm {L : List (List α)} {e : List α} {R : List (List α)} (h : Edges lt L e R) :
    (e ++ R.flatten).Perm L.flatten := by
  induction h with
  | one x => simp
  | last x m y =>
    simp only [List.flatten_cons, List.flatten_nil, List.append_nil, List.cons_append, List.nil_append]
    refine List.Perm.cons _ ?_
    exact (List.perm_append_comm (l₁ := [y]) (l₂ := m))
  | cons x m y L e R h ih =>
    simp only [List.flatten_cons, List.cons_append, List.append_assoc, List.nil_append]
    refine List.Perm.cons _ ?_
    refine List.Perm.trans ?_ ((List.Perm.append_left (m ++ [y]) ih).trans (by simp))
    have : (e ++ (y :: (m ++ R.flatten))).Perm (e ++ ((m ++ [y]) ++ R.flatten)) := by
      refine List.Perm.append_left _ ?_
      refine List.Perm.trans ?_ (List.Perm.append_right _ (List.perm_append_comm (l₁ := [y]) (l₂ := m)))
      simp
    refine this.trans ?_
    rw [← List.append_assoc, ← List.append_assoc (m ++ [y])]
    exact List.Perm.append_right _ List.perm_append_comm

theorem Edges.rest {L : List (List α)} {e : List α} {R : List (List α)} (h : Edges lt L e R)
    (hs : ∀ l ∈ L, SortedList lt l) : ∀ l ∈ R, SortedList lt l := by
  have key : ∀ {x y : α} {m : List α}, SortedList lt (x :: m ++ [y]) → SortedList lt m := by
    intro x y m h
    exact (sortedList_append.1 (sortedList_cons.1 h).2).1
  induction h with
  | one x => intro l hl; cases hl
  | last x m y =>
    intro l hl
    rw [List.mem_singleton.1 hl]
    exact key (hs _ (List.mem_singleton.2 rfl))
  | cons x m y L e R h ih =>
    intro l hl
    rcases List.mem_cons.1 hl with e | e
    · rw [e]; exact key (hs _ List.mem_cons_self)
    · exact ih (fun l hl => hs l (by simp [hl])) l e

theorem Edges.sorted (hlt : StrictWeak lt) {L : List (List α)} {e : List α} {R : List (List α)}
    (h : Edges lt L e R) (he : ∀ l ∈ L, l ≠ [] ∧ SortedList lt l) (hn : L.Pairwise (Within lt)) :
    SortedList lt e := by
  induction h with
  | one x => exact List.pairwise_singleton _ _
  | last x m y =>
    have := (he _ (List.mem_singleton.2 rfl)).2
    rw [List.cons_append, sortedList_cons] at this
    rw [sortedList_cons]
    exact ⟨fun z hz => by rw [List.mem_singleton.1 hz]; exact this.1 y (by simp), List.pairwise_singleton _ _⟩
  | cons x m y L e R h ih =>
    obtain ⟨n1, n2⟩ := List.pairwise_cons.1 hn
    have ih := ih (fun l hl => he l (by simp [hl])) n2
    have hx : (x :: m ++ [y]).head? = some x := rfl
    have hy : (x :: m ++ [y]).getLast? = some y := List.getLast?_concat
    have hxy : lt y x = false :=
      sorted_first hlt (he _ List.mem_cons_self).2 hx (by simp)
    have bd : ∀ z ∈ e, lt z x = false ∧ lt y z = false := by
      intro z hz
      obtain ⟨l, hl, hz⟩ := h.mem z hz
      have hl' := he l (by simp [hl])
      have w := n1 l hl
      obtain ⟨u, hu⟩ := exists_head hl'.1
      obtain ⟨t, ht⟩ := exists_last hl'.1
      have mu := List.mem_of_head? hu
      have mt := List.mem_of_getLast? ht
      have a := w.2.1 x u hx hu
      have c := w.2.2 y t hy ht
      rcases hz with hz | hz
      · rw [hu] at hz; injection hz with hz; subst hz
        exact ⟨a, hlt.le_trans (sorted_last hlt hl'.2 ht mu) c⟩
      · rw [ht] at hz; injection hz with hz; subst hz
        exact ⟨hlt.le_trans a (sorted_first hlt hl'.2 hu mt), c⟩
    rw [List.cons_append, sortedList_cons, sortedList_append]
    refine ⟨fun z hz => ?_, ih, List.pairwise_singleton _ _, fun z hz w hw => ?_⟩
    · rcases List.mem_append.1 hz with e | e
      · exact (bd z e).1
      · rw [List.mem_singleton.1 e]; exact hxy
    · rw [List.mem_singleton.1 hw]; exact (bd z hz).2

theorem flatten_filter (L : List (List α)) : (L.filter (!·.isEmpty)).flatten = L.flatten := by
  induction L with
  | nil => rfl
  | cons l L ih =>
    cases l with
    | nil => simpa using ih
    | cons x l =>
      rw [List.filter_cons_of_pos (by simp), List.flatten_cons, List.flatten_cons, ih]

theorem extractEdges_runs (hlt : StrictWeak lt) {L : List (List α)} (h : Enc lt L) :
    Runs (extractEdges L) (fun r => SortedList lt r.1 ∧ (∀ l ∈ r.2, SortedList lt l) ∧
      (r.1 ++ r.2.flatten).Perm L.flatten) := by
  obtain ⟨e1, e2, R, P, h1, h2, h3, h4, h5, h6⟩ := edges_of_enc h
  have hp := List.length_pos_iff.2 h.ne
  unfold extractEdges
  refine (extractFronts_runs L fun l hl => (h.all l hl).1).bind fun r ⟨a1, a2⟩ => ?_
  obtain ⟨f1, T⟩ := r
  dsimp only at a1 a2 ⊢
  rw [← h1] at a1
  obtain rfl := map_some_inj a1
  have hT : T ≠ [] := by rw [a2]; simpa using h.ne
  have hpop : Runs (popEmpty T) (fun r => r = P) := by
    unfold popEmpty
    have hTp := List.length_pos_iff.2 hT
    refine Runs.nthBind (last_nth hT (by omega)) (Runs.pure ?_)
    rw [h2, ← a2, List.getLast?_eq_some_getLast hT]
    rfl
  refine hpop.bind ?_
  rintro _ rfl
  refine (extractBacks_runs _ h3).bind fun r ⟨b1, b2⟩ => ?_
  obtain ⟨f2, R'⟩ := r
  dsimp only at b1 b2 ⊢
  rw [← h4] at b1
  obtain rfl := map_some_inj b1
  rw [← h5] at b2
  subst b2
  refine Runs.pure ⟨h6.sorted hlt h.all h.nested, fun l hl => ?_, ?_⟩
  · exact h6.rest (fun l hl => (h.all l hl).2) l (List.mem_of_mem_filter hl)
  · show (f1 ++ f2 ++ (R'.filter (!·.isEmpty)).flatten).Perm L.flatten
    rw [flatten_filter]; exact h6.perm

/-! ### Back to the range -/

theorem moveList_spec : ∀ (ys : List α) (f : Nat) (s : St α),
    (∀ i, f ≤ i → i < f + ys.length → Live s.cell i) →
    wp (moveList f ys) (fun _ s' => Seg s'.cell f ys ∧ s'.env = s.env ∧
      (∀ i, i < f ∨ f + ys.length ≤ i → s'.cell i = s.cell i)) s := by
  intro ys
  induction ys with
  | nil => intro f s _; exact wp_pure ⟨Seg.nil, rfl, fun _ _ => rfl⟩
  | cons y ys ih =>
    intro f s h
    simp only [List.length_cons] at h
    rw [moveList]
    apply wp_bind
    refine wp_assign' (h f (by omega) (by omega)) fun s1 e1 e2 _ _ => ?_
    refine wp_mono (ih (f + 1) s1 fun i h1 h2 => ?_) ?_
    · rw [e1]; exact (h i (by omega) (by omega)).out (by omega)
    · rintro _ s' ⟨g1, g2, g3⟩
      refine ⟨seg_cons.2 ⟨?_, g1⟩, g2.trans e2, fun i hi => ?_⟩
      · rw [g3 f (by omega), e1]; exact sc_eq rfl
      · simp only [List.length_cons] at hi
        rw [g3 i (by omega), e1]; exact sc_ne (by omega)

theorem mergeMoveLists_spec : ∀ (n : Nat) (xs ys : List α) (f : Nat) (s : St α), xs.length + ys.length = n →
    (∀ i, f ≤ i → i < f + n → Live s.cell i) →
    wp (mergeMoveLists (tick lt) f xs ys) (fun _ s' => Seg s'.cell f (mergeL lt xs ys) ∧ s'.env = s.env ∧
      (∀ i, i < f ∨ f + n ≤ i → s'.cell i = s.cell i)) s := by
  intro n
  induction n with
  | zero =>
    intro xs ys f s hn h
    obtain rfl : xs = [] := List.length_eq_zero_iff.1 (by omega)
    obtain rfl : ys = [] := List.length_eq_zero_iff.1 (by omega)
    rw [mergeMoveLists.eq_def]
    exact wp_pure ⟨by simpa using Seg.nil, rfl, fun _ _ => rfl⟩
  | succ n ih =>
    intro xs ys f s hn h
    rw [mergeMoveLists.eq_def]
    have step : ∀ (z : α) (xs' ys' : List α) (k : Nat), xs'.length + ys'.length = n →
        wp (assign f z >>= fun _ => mergeMoveLists (tick lt) (f + 1) xs' ys')
          (fun _ s' => Seg s'.cell f (z :: mergeL lt xs' ys') ∧ s'.env = s.env ∧
            (∀ i, i < f ∨ f + (n + 1) ≤ i → s'.cell i = s.cell i)) { s with cmps := k } := by
      intro z xs' ys' k hn'
      apply wp_bind
      refine wp_assign' (h f (by omega) (by omega)) fun s1 e1 e2 _ _ => ?_
      refine wp_mono (ih xs' ys' (f + 1) s1 hn' fun i h1 h2 => ?_) ?_
      · rw [e1]; exact (h i (by omega) (by omega)).out (by omega)
      · rintro _ s' ⟨g1, g2, g3⟩
        refine ⟨seg_cons.2 ⟨?_, g1⟩, g2.trans e2, fun i hi => ?_⟩
        · rw [g3 f (by omega), e1]; exact sc_eq rfl
        · rw [g3 i (by omega), e1]; exact sc_ne (by omega)
    match xs, ys, hn with
    | [], ys, hn =>
      have hn : ys.length = n + 1 := by simpa using hn
      rw [mergeL_nil_left]
      refine wp_mono (moveList_spec ys f s (by rw [hn]; exact h)) ?_
      rintro _ s' ⟨g1, g2, g3⟩
      exact ⟨g1, g2, fun i hi => g3 i (by omega)⟩
    | x :: xs, [], hn =>
      have hn : (x :: xs).length = n + 1 := by simpa using hn
      rw [mergeL_nil_right]
      refine wp_mono (moveList_spec (x :: xs) f s (by rw [hn]; exact h)) ?_
      rintro _ s' ⟨g1, g2, g3⟩
      exact ⟨g1, g2, fun i hi => g3 i (by omega)⟩
    | x :: xs, y :: ys, hn =>
      simp only [List.length_cons] at hn
      rw [mergeL_cons]
      apply wp_bind
      apply wp_tick
      split
      · refine wp_mono (step y (x :: xs) ys _ (by simp only [List.length_cons]; omega)) ?_
        exact fun _ s' g => g
      · refine wp_mono (step x xs (y :: ys) _ (by simp only [List.length_cons]; omega)) ?_
        exact fun _ s' g => g

/-- The lists are moved back into the range. -/
def Restores (s s' : St α) (f : Nat) (lt : α → α → Bool) (xs : List α) : Prop :=
  ∃ ys, ys.Perm xs ∧ SortedList lt ys ∧ Seg s'.cell f ys ∧ s'.env = s.env ∧
    (∀ i, i < f ∨ f + xs.length ≤ i → s'.cell i = s.cell i)

theorem moveLists_spec (hlt : StrictWeak lt) {L : List (List α)} {f : Nat} {s : St α}
    (hl : L.length ≤ 2) (hs : ∀ l ∈ L, SortedList lt l)
    (h : ∀ i, f ≤ i → i < f + L.flatten.length → Live s.cell i) :
    wp (moveLists (tick lt) f L) (fun _ s' => Restores s s' f lt L.flatten) s := by
  match L, hl with
  | [], _ => exact wp_pure ⟨[], by simp, List.Pairwise.nil, Seg.nil, rfl, fun _ _ => rfl⟩
  | [l], _ =>
    have e : [l].flatten = l := by simp
    rw [e] at h ⊢
    refine wp_mono (moveList_spec l f s h) ?_
    rintro _ s' ⟨g1, g2, g3⟩
    exact ⟨l, List.Perm.refl _, hs l (by simp), g1, g2, g3⟩
  | [l, l'], _ =>
    have e : [l, l'].flatten = l ++ l' := by simp
    rw [e] at h ⊢
    rw [List.length_append] at h
    refine wp_mono (mergeMoveLists_spec _ l l' f s rfl h) ?_
    rintro _ s' ⟨g1, g2, g3⟩
    have m := mergeL_ssorted hlt l l' (hs l (by simp)) (hs l' (by simp))
    exact ⟨_, m.1, m.2.1, g1, g2, by rw [List.length_append]; exact g3⟩
  | _ :: _ :: _ :: _, hl => simp at hl

theorem addEdges_runs (hlt : StrictWeak lt) {L : List (List α)} {e : List α} (hl : L.length ≤ 2)
    (hs : ∀ l ∈ L, SortedList lt l) (he : SortedList lt e) :
    Runs (addEdges (tick lt) L e) (fun L' => L'.length ≤ 2 ∧ (∀ l ∈ L', SortedList lt l) ∧
      L'.flatten.Perm (e ++ L.flatten)) := by
  unfold addEdges
  split
  · rename_i h0
    rw [List.isEmpty_iff] at h0
    subst h0
    exact Runs.pure ⟨by simp, fun l hl => by rw [List.mem_singleton.1 hl]; exact he, by simp⟩
  · rename_i h0
    rw [List.isEmpty_iff] at h0
    have hp := List.length_pos_iff.2 h0
    have hg := List.getElem?_eq_getElem (show L.length - 1 < L.length by omega)
    refine Runs.nthBind hg ?_
    refine (fslMerge_merges hlt _ _ (hs _ (List.getElem_mem _)) he).bind fun m ⟨m1, m2⟩ => ?_
    refine Runs.pure ⟨by simpa using hl, fun l hl => ?_, (set_grow hg m1).trans List.perm_append_comm⟩
    rcases List.mem_or_eq_of_mem_set hl with e | e
    · exact hs l e
    · rw [e]; exact m2

theorem Restores.congr {s s1 s' : St α} {f : Nat} {xs ys : List α} (h : Restores s1 s' f lt ys)
    (hp : ys.Perm xs) (hc : s1.cell = s.cell) (he : s1.env = s.env) : Restores s s' f lt xs := by
  obtain ⟨zs, h1, h2, h3, h4, h5⟩ := h
  exact ⟨zs, h1.trans hp, h2, h3, h4.trans he, fun i hi => by rw [h5 i (by rw [hp.length_eq]; exact hi), hc]⟩

theorem mergeEncroachingLists_spec (hlt : StrictWeak lt) {L : List (List α)} (edges : Bool) {f : Nat}
    {s : St α} (h : Enc lt L) (hv : ∀ i, f ≤ i → i < f + L.flatten.length → Live s.cell i) :
    wp (mergeEncroachingLists (tick lt) L f edges) (fun _ s' => Restores s s' f lt L.flatten) s := by
  unfold mergeEncroachingLists
  split
  · apply wp_bind
    refine wp_mono ((extractEdges_runs hlt h).wp s) ?_
    rintro ⟨e, R⟩ _ ⟨⟨k1, rfl⟩, a1, a2, a3⟩
    dsimp only at a1 a2 a3 ⊢
    apply wp_bind
    refine wp_mono ((melMergeLists_runs hlt _ R rfl a2).wp _) ?_
    rintro R1 _ ⟨⟨k2, rfl⟩, b1, b2, b3⟩
    apply wp_bind
    refine wp_mono ((addEdges_runs hlt b1 b2 a1).wp _) ?_
    rintro R2 _ ⟨⟨k3, rfl⟩, c1, c2, c3⟩
    have hp : R2.flatten.Perm L.flatten := c3.trans ((List.Perm.append_left _ b3).trans a3)
    refine wp_mono (moveLists_spec hlt c1 c2 (by rw [hp.length_eq]; exact hv)) ?_
    exact fun _ s' g => g.congr hp rfl rfl
  · apply wp_bind
    refine wp_mono ((melMergeLists_runs hlt _ L rfl fun l hl => (h.all l hl).2).wp _) ?_
    rintro R1 _ ⟨⟨k2, rfl⟩, b1, b2, b3⟩
    refine wp_mono (moveLists_spec hlt b1 b2 (by rw [b3.length_eq]; exact hv)) ?_
    exact fun _ s' g => g.congr b3 rfl rfl

/-! ### Creation of the lists -/

theorem melEncroach_spec (hlt : StrictWeak lt) {f l : Nat} : ∀ (zs : List α) (it : Nat) (L : List (List α))
    (s : St α), it + zs.length = l → f ≤ it → Seg s.cell it zs → (∀ i, f ≤ i → i < it → Live s.cell i) →
    Enc lt L →
    wp (melEncroach (tick lt) L it l) (fun L' s' => Enc lt L' ∧ L'.flatten.Perm (L.flatten ++ zs) ∧
      (∀ i, f ≤ i → i < l → Live s'.cell i) ∧ s'.env = s.env ∧
      (∀ i, i < f ∨ l ≤ i → s'.cell i = s.cell i)) s := by
  intro zs
  induction zs with
  | nil =>
    intro it L s hl hf hs hv he
    simp only [List.length_nil] at hl
    rw [melEncroach, if_neg (by omega)]
    exact wp_pure ⟨he, by simp, fun i h1 h2 => hv i h1 (by omega), rfl, fun _ _ => rfl⟩
  | cons z zs ih =>
    intro it L s hl hf hs hv he
    simp only [List.length_cons] at hl
    obtain ⟨hz, hs⟩ := seg_cons.1 hs
    rw [melEncroach, if_pos (by omega)]
    apply wp_bind
    refine wp_read' hz ?_
    apply wp_bind
    refine wp_mono ((encroachPlace_at hlt (val := id) he (fun b _ => RunsAt.pure rfl) z).wp) ?_
    rintro p _ ⟨⟨k, rfl⟩, hp⟩
    apply wp_bind
    refine wp_moveOut' (a := z) hz fun s1 e1 e2 _ _ => ?_
    dsimp only at e1
    apply wp_bind
    refine wp_mono ((encroachPut_runs hlt (val := id) he (b := z) hp).wp s1) ?_
    rintro L1 _ ⟨⟨k1, rfl⟩, g1, g2, -⟩
    refine wp_mono (ih (it + 1) L1 _ (by omega) (by omega) ?_ ?_ g1) ?_
    · show Seg s1.cell (it + 1) zs
      rw [e1]; exact hs.out (by omega)
    · intro i h1 h2
      show Live s1.cell i
      rw [e1]
      by_cases e : i = it
      · exact Live.moved e
      · exact (hv i h1 (by omega)).out e
    · rintro L' s' ⟨q1, q2, q3, q4, q5⟩
      refine ⟨q1, ?_, q3, q4.trans e2, fun i hi => ?_⟩
      · refine q2.trans ((g2.append_right zs).trans ?_)
        rw [List.append_assoc]; rfl
      · rw [q5 i hi]
        show s1.cell i = s.cell i
        rw [e1]; exact sc_ne (by omega)

theorem melsort_sorts (hlt : StrictWeak lt) (bad : Nat → Nat → Bool) : Sorts lt (melsort (tick lt) bad) := by
  intro s f xs hw hs
  have key : wp (melsort (tick lt) bad f (f + xs.length)) (fun _ s' => Restores s s' f lt xs) s := by
    unfold melsort
    split
    · rename_i h
      exact wp_pure ⟨xs, List.Perm.refl _, sortedList_short (by omega), hs, rfl, fun _ _ => rfl⟩
    · rename_i h
      match xs, hs, h with
      | [], _, h => simp at h
      | x :: xs, hs, h =>
        obtain ⟨hx, hs⟩ := seg_cons.1 hs
        apply wp_bind
        refine wp_moveOut' hx fun s1 e1 e2 _ _ => ?_
        apply wp_bind
        refine wp_mono (melEncroach_spec hlt (f := f) xs (f + 1) [[x]] s1
          (by simp only [List.length_cons]; omega) (by omega) ?_ ?_ Enc.one) ?_
        · rw [e1]; exact hs.out (by omega)
        · intro i h1 h2
          rw [e1]; exact Live.moved (by omega)
        · rintro L s2 ⟨g1, g2, g3, g4, g5⟩
          have hp : L.flatten.Perm (x :: xs) := g2
          refine wp_mono (mergeEncroachingLists_spec hlt _ g1 (by rw [hp.length_eq]; exact g3)) ?_
          rintro _ s3 ⟨ys, q1, q2, q3, q4, q5⟩
          refine ⟨ys, q1.trans hp, q2, q3, q4.trans (g4.trans e2), fun i hi => ?_⟩
          rw [q5 i (by rw [hp.length_eq]; exact hi), g5 i hi, e1]
          simp only [List.length_cons] at hi
          exact sc_ne (by omega)
  obtain ⟨_, s', h1, ys, h2, h3, h4, h5, h6⟩ := key
  refine ⟨s', ys, h1, h2.length_eq, h4, ⟨h2, h3⟩, h6, fun i hi => ?_⟩
  rw [St.env_brk h5] at hi
  have := Seg.below hw hs
  by_cases e : xs = []
  · subst e; rw [h6 i (by simp; omega)]; exact hw i hi
  · have hp := List.length_pos_iff.2 e
    rw [h6 i (by have := this hp; omega)]; exact hw i hi

end CppSort
