import Verif.Proof.Lists
set_option autoImplicit false

namespace CppSort
variable {α β γ : Type} {lt : α → α → Bool}

theorem flatten_set : ∀ {L : List (List α)} {i : Nat} {l : List α} (m : List α), L[i]? = some l →
    ((L.set i m).flatten ++ l).Perm (L.flatten ++ m) := by
  intro L
  induction L with
  | nil => intro i l m h; simp at h
  | cons x L ih =>
    intro i l m h
    cases i with
    | zero =>
      simp only [List.getElem?_cons_zero, Option.some.injEq] at h
      subst h
      simp only [List.set_cons_zero, List.flatten_cons, List.append_assoc]
      refine List.perm_append_comm.trans ?_
      rw [← List.append_assoc]
      exact List.perm_append_comm.append_right m
    | succ i =>
      simp only [List.getElem?_cons_succ] at h
      simp only [List.set_cons_succ, List.flatten_cons, List.append_assoc]
      exact List.Perm.append_left x (ih m h)

theorem set_grow {L : List (List α)} {i : Nat} {l : List α} {m d : List α} (h : L[i]? = some l)
    (hm : m.Perm (l ++ d)) : (L.set i m).flatten.Perm (L.flatten ++ d) := by
  have h1 := flatten_set m h
  have h2 : ((L.set i m).flatten ++ l).Perm ((L.flatten ++ d) ++ l) := by
    refine h1.trans ((List.Perm.append_left _ hm).trans ?_)
    rw [List.append_assoc]
    exact List.Perm.append_left _ List.perm_append_comm
  exact (List.perm_append_right_iff l).1 h2

/-- The lists are sorted and not empty. -/
def EncInv (lt : α → α → Bool) (L : List (List α)) : Prop :=
  L ≠ [] ∧ ∀ l ∈ L, l ≠ [] ∧ SortedList lt l

theorem back_runs {l : List α} (h : l ≠ []) : Runs (back l) (fun r => r = l.getLast h) := by
  unfold back
  refine Runs.nth ?_
  rw [List.getLast_eq_getElem, List.getElem?_eq_getElem]

theorem EncInv.mem {L : List (List α)} (h : EncInv lt L) {i : Nat} (hi : i < L.length) :
    L[i] ≠ [] ∧ SortedList lt L[i] := h.2 _ (List.getElem_mem hi)

theorem EncInv.set {L : List (List α)} (h : EncInv lt L) {i : Nat} {m : List α}
    (hm : m ≠ [] ∧ SortedList lt m) : EncInv lt (L.set i m) := by
  refine ⟨by simpa using h.1, fun l hl => ?_⟩
  rcases List.mem_or_eq_of_mem_set hl with h1 | h1
  · exact h.2 l h1
  · rw [h1]; exact hm

theorem SortedList.le_last {l : List α} (hlt : StrictWeak lt) (hs : SortedList lt l) (h : l ≠ [])
    {y : α} (hy : y ∈ l) : lt (l.getLast h) y = false := by
  unfold SortedList at hs
  rw [← List.dropLast_append_getLast h] at hs hy
  rcases List.mem_append.1 hy with h1 | h1
  · exact (List.pairwise_append.1 hs).2.2 y h1 _ (by simp)
  · rw [List.mem_singleton.1 h1]; exact hlt.irrefl _

theorem SortedList.head_le {l : List α} (hlt : StrictWeak lt) (hs : SortedList lt l) (h : l ≠ [])
    {y : α} (hy : y ∈ l) : lt y (l.head h) = false := by
  cases l with
  | nil => exact absurd rfl h
  | cons x l =>
    rcases List.mem_cons.1 hy with h1 | h1
    · rw [h1]; exact hlt.irrefl _
    · exact (List.pairwise_cons.1 hs).1 y h1

theorem sorted_push {l : List α} (hlt : StrictWeak lt) (hs : SortedList lt l) (h : l ≠ []) {x : α}
    (hx : lt x (l.getLast h) = false) : SortedList lt (l ++ [x]) := by
  have := sorted_insert hlt (a := l) (b := []) (x := x) (by simpa using hs)
    (fun y hy => hlt.le_trans (hs.le_last hlt h hy) hx) (by simp)
  simpa using this

theorem sorted_cons {l : List α} (hlt : StrictWeak lt) (hs : SortedList lt l) (h : l ≠ []) {x : α}
    (hx : lt (l.head h) x = false) : SortedList lt (x :: l) :=
  List.pairwise_cons.2 ⟨fun y hy => hlt.le_trans hx (hs.head_le hlt h hy), hs⟩

theorem head_nth {l : List α} (h : l ≠ []) : l[0]? = some (l.head h) := by
  cases l with
  | nil => exact absurd rfl h
  | cons x l => rfl

theorem listEncroach_runs (hlt : StrictWeak lt) : ∀ (coll : List α) (L : List (List α)),
    EncInv lt L → Runs (listEncroach (tick lt) L coll) (fun L' => EncInv lt L' ∧
      L'.flatten.Perm (L.flatten ++ coll)) := by
  intro coll
  induction coll with
  | nil =>
    intro L h
    rw [listEncroach]
    exact Runs.pure ⟨h, by simp⟩
  | cons x coll ih =>
    intro L h
    have hL : 0 < L.length := List.length_pos_iff.2 h.1
    have hlast : L.length - 1 < L.length := by omega
    rw [listEncroach]
    refine Runs.nthBind (List.getElem?_eq_getElem hlast) ?_
    refine (back_runs (h.mem hlast).1).bind fun r hr => ?_
    subst hr
    refine Runs.tickBind ?_
    split
    · rename_i hc
      have hc : lt x ((L[L.length - 1]).getLast (h.mem hlast).1) = false := by simpa using hc
      refine (lowerBoundBy_runs
        (P := fun i => if hi : i < L.length then lt x (L[i].getLast (h.mem hi).1) else false)
        (L.length - 1) 0 (L.length - 1) rfl fun i _ hi => ?_).bind fun p hp => ?_
      · have hi' : i < L.length := by omega
        refine Runs.nthBind (List.getElem?_eq_getElem hi') ?_
        refine (back_runs (h.mem hi').1).bind fun r hr => ?_
        subst hr
        refine Runs.tick.mono fun r hr => ?_
        rw [hr, dif_pos hi']
      · obtain ⟨-, p2, p3, -⟩ := hp
        have hp : p < L.length := by omega
        have hpl : lt x (L[p].getLast (h.mem hp).1) = false := by
          by_cases e : p = L.length - 1
          · subst e; exact hc
          · have := p3 (by omega)
            rwa [dif_pos hp] at this
        refine Runs.nthBind (List.getElem?_eq_getElem hp) ?_
        refine (ih _ (h.set ⟨by simp, sorted_push hlt (h.mem hp).2 (h.mem hp).1 hpl⟩)).mono ?_
        rintro L' ⟨a, b⟩
        refine ⟨a, b.trans ?_⟩
        have := (set_grow (d := [x]) (List.getElem?_eq_getElem hp) (List.Perm.refl _)).append_right coll
        simpa using this
    · refine Runs.nthBind (head_nth (h.mem hlast).1) ?_
      refine Runs.tickBind ?_
      split
      · rename_i hc
        have hc : lt ((L[L.length - 1]).head (h.mem hlast).1) x = false := by simpa using hc
        refine (lowerBoundBy_runs
          (P := fun i => if hi : i < L.length then lt (L[i].head (h.mem hi).1) x else false)
          (L.length - 1) 0 (L.length - 1) rfl fun i _ hi => ?_).bind fun p hp => ?_
        · have hi' : i < L.length := by omega
          refine Runs.nthBind (List.getElem?_eq_getElem hi') ?_
          refine Runs.nthBind (head_nth (h.mem hi').1) ?_
          refine Runs.tick.mono fun r hr => ?_
          rw [hr, dif_pos hi']
        · obtain ⟨-, p2, p3, -⟩ := hp
          have hp : p < L.length := by omega
          have hpl : lt (L[p].head (h.mem hp).1) x = false := by
            by_cases e : p = L.length - 1
            · subst e; exact hc
            · have := p3 (by omega)
              rwa [dif_pos hp] at this
          refine Runs.nthBind (List.getElem?_eq_getElem hp) ?_
          refine (ih _ (h.set ⟨by simp, sorted_cons hlt (h.mem hp).2 (h.mem hp).1 hpl⟩)).mono ?_
          rintro L' ⟨a, b⟩
          refine ⟨a, b.trans ?_⟩
          have := (set_grow (m := x :: L[p]) (d := [x]) (List.getElem?_eq_getElem hp)
            (List.perm_append_singleton x L[p]).symm).append_right coll
          simpa using this
      · refine (ih _ ⟨by simp, fun l hl => ?_⟩).mono ?_
        · rcases List.mem_append.1 hl with h1 | h1
          · exact h.2 l h1
          · rw [List.mem_singleton.1 h1]
            exact ⟨by simp, List.pairwise_singleton _ _⟩
        · rintro L' ⟨a, b⟩
          exact ⟨a, by simpa using b⟩

/-- The position stored with each list is the one of its last node. -/
def FEncInv (lt : α → α → Bool) (L : List (List α × Nat)) : Prop :=
  L ≠ [] ∧ ∀ l ∈ L, (l.1 ≠ [] ∧ SortedList lt l.1) ∧ l.2 + 1 = l.1.length

theorem FEncInv.mem {L : List (List α × Nat)} (h : FEncInv lt L) {i : Nat} (hi : i < L.length) :
    (L[i].1 ≠ [] ∧ SortedList lt L[i].1) ∧ L[i].2 + 1 = L[i].1.length := h.2 _ (List.getElem_mem hi)

theorem FEncInv.set {L : List (List α × Nat)} (h : FEncInv lt L) {i : Nat} {m : List α × Nat}
    (hm : (m.1 ≠ [] ∧ SortedList lt m.1) ∧ m.2 + 1 = m.1.length) : FEncInv lt (L.set i m) := by
  refine ⟨by simpa using h.1, fun l hl => ?_⟩
  rcases List.mem_or_eq_of_mem_set hl with h1 | h1
  · exact h.2 l h1
  · rw [h1]; exact hm

theorem last_nth {l : List α} {k : Nat} (h : l ≠ []) (hk : k + 1 = l.length) :
    l[k]? = some (l.getLast h) := by
  have e : k = l.length - 1 := by omega
  rw [e, List.getLast_eq_getElem, List.getElem?_eq_getElem]

theorem fset_grow {L : List (List α × Nat)} {i : Nat} {l : List α × Nat} {m : List α × Nat}
    {d : List α} (h : L[i]? = some l) (hm : m.1.Perm (l.1 ++ d)) :
    ((L.set i m).map (·.1)).flatten.Perm ((L.map (·.1)).flatten ++ d) := by
  rw [List.map_set]
  exact set_grow (l := l.1) (by rw [List.getElem?_map, h]; rfl) hm

theorem flistEncroach_runs (hlt : StrictWeak lt) : ∀ (coll : List α) (L : List (List α × Nat)),
    FEncInv lt L → Runs (flistEncroach (tick lt) L coll) (fun L' => FEncInv lt L' ∧
      (L'.map (·.1)).flatten.Perm ((L.map (·.1)).flatten ++ coll)) := by
  intro coll
  induction coll with
  | nil =>
    intro L h
    rw [flistEncroach]
    exact Runs.pure ⟨h, by simp⟩
  | cons x coll ih =>
    intro L h
    have hL : 0 < L.length := List.length_pos_iff.2 h.1
    have hlast : L.length - 1 < L.length := by omega
    rw [flistEncroach]
    refine Runs.nthBind (List.getElem?_eq_getElem hlast) ?_
    refine Runs.nthBind (last_nth (h.mem hlast).1.1 (h.mem hlast).2) ?_
    refine Runs.tickBind ?_
    split
    · rename_i hc
      have hc : lt x ((L[L.length - 1]).1.getLast (h.mem hlast).1.1) = false := by simpa using hc
      refine (lowerBoundBy_runs
        (P := fun i => if hi : i < L.length then lt x (L[i].1.getLast (h.mem hi).1.1) else false)
        (L.length - 1) 0 (L.length - 1) rfl fun i _ hi => ?_).bind fun p hp => ?_
      · have hi' : i < L.length := by omega
        refine Runs.nthBind (List.getElem?_eq_getElem hi') ?_
        refine Runs.nthBind (last_nth (h.mem hi').1.1 (h.mem hi').2) ?_
        refine Runs.tick.mono fun r hr => ?_
        rw [hr, dif_pos hi']
      · obtain ⟨-, p2, p3, -⟩ := hp
        have hp : p < L.length := by omega
        have hpl : lt x (L[p].1.getLast (h.mem hp).1.1) = false := by
          by_cases e : p = L.length - 1
          · subst e; exact hc
          · have := p3 (by omega)
            rwa [dif_pos hp] at this
        refine Runs.nthBind (List.getElem?_eq_getElem hp) ?_
        have e : L[p].1.insertIdx (L[p].2 + 1) x = L[p].1 ++ [x] := by
          rw [(h.mem hp).2]
          have := insertIdx_mid L[p].1 [] x
          rwa [List.append_nil] at this
        rw [e]
        refine (ih _ (h.set ⟨⟨by simp, sorted_push hlt (h.mem hp).1.2 (h.mem hp).1.1 hpl⟩,
          by have := (h.mem hp).2; simp; omega⟩)).mono ?_
        rintro L' ⟨a, b⟩
        refine ⟨a, b.trans ?_⟩
        have := (fset_grow (m := (L[p].1 ++ [x], L[p].2 + 1)) (d := [x]) (List.getElem?_eq_getElem hp)
          (List.Perm.refl _)).append_right coll
        simpa using this
    · refine Runs.nthBind (head_nth (h.mem hlast).1.1) ?_
      refine Runs.tickBind ?_
      split
      · rename_i hc
        have hc : lt ((L[L.length - 1]).1.head (h.mem hlast).1.1) x = false := by simpa using hc
        refine (lowerBoundBy_runs
          (P := fun i => if hi : i < L.length then lt (L[i].1.head (h.mem hi).1.1) x else false)
          (L.length - 1) 0 (L.length - 1) rfl fun i _ hi => ?_).bind fun p hp => ?_
        · have hi' : i < L.length := by omega
          refine Runs.nthBind (List.getElem?_eq_getElem hi') ?_
          refine Runs.nthBind (head_nth (h.mem hi').1.1) ?_
          refine Runs.tick.mono fun r hr => ?_
          rw [hr, dif_pos hi']
        · obtain ⟨-, p2, p3, -⟩ := hp
          have hp : p < L.length := by omega
          have hpl : lt (L[p].1.head (h.mem hp).1.1) x = false := by
            by_cases e : p = L.length - 1
            · subst e; exact hc
            · have := p3 (by omega)
              rwa [dif_pos hp] at this
          refine Runs.nthBind (List.getElem?_eq_getElem hp) ?_
          refine (ih _ (h.set ⟨⟨by simp, sorted_cons hlt (h.mem hp).1.2 (h.mem hp).1.1 hpl⟩,
            by have := (h.mem hp).2; simp; omega⟩)).mono ?_
          rintro L' ⟨a, b⟩
          refine ⟨a, b.trans ?_⟩
          have := (fset_grow (m := (x :: L[p].1, L[p].2 + 1)) (d := [x]) (List.getElem?_eq_getElem hp)
            (List.perm_append_singleton x L[p].1).symm).append_right coll
          simpa using this
      · refine (ih _ ⟨by simp, fun l hl => ?_⟩).mono ?_
        · rcases List.mem_append.1 hl with h1 | h1
          · exact h.2 l h1
          · rw [List.mem_singleton.1 h1]
            exact ⟨⟨by simp, List.pairwise_singleton _ _⟩, by simp⟩
        · rintro L' ⟨a, b⟩
          exact ⟨a, by simpa using b⟩

/-! ### merging the lists -/

/-- What the `merge` of a list type does. -/
def MergesLists (lt : α → α → Bool) (merge : List α → List α → M α (List α)) : Prop :=
  ∀ xs ys, SortedList lt xs → SortedList lt ys →
    Runs (merge xs ys) (fun r => r.Perm (xs ++ ys) ∧ SortedList lt r)

theorem listMerge_merges (hlt : StrictWeak lt) : MergesLists lt (listMerge (tick lt)) :=
  fun _ _ h1 h2 => listMerge_sorted hlt h1 h2

theorem mergeHalves_runs {merge : List α → List α → M α (List α)} (hm : MergesLists lt merge) {h : Nat} : ∀ (n f : Nat) (L : List (List α)),
    f + n = h → L.length = 2 * h → (∀ l ∈ L, SortedList lt l) →
    (∀ i, h ≤ i → i < h + f → L[i]? = some []) →
    Runs (mergeHalves merge L f (h + f)) (fun L' => L'.length = 2 * h ∧
      (∀ l ∈ L', SortedList lt l) ∧ L'.flatten.Perm L.flatten ∧
      (∀ i, h ≤ i → i < 2 * h → L'[i]? = some [])) := by
  intro n
  induction n with
  | zero =>
    intro f L h1 h2 h3 h4
    rw [mergeHalves, if_neg (by omega)]
    exact Runs.pure ⟨h2, h3, List.Perm.refl _, fun i a c => h4 i a (by omega)⟩
  | succ n ih =>
    intro f L h1 h2 h3 h4
    rw [mergeHalves, if_pos (by omega)]
    refine Runs.nthBind (List.getElem?_eq_getElem (show f < L.length by omega)) ?_
    refine Runs.nthBind (List.getElem?_eq_getElem (show h + f < L.length by omega)) ?_
    refine (hm _ _ (h3 _ (List.getElem_mem _)) (h3 _ (List.getElem_mem _))).bind
      fun m ⟨m1, m2⟩ => ?_
    refine (ih (f + 1) _ (by omega) (by simpa using h2) ?_ ?_).mono ?_
    · intro l hl
      rcases List.mem_or_eq_of_mem_set hl with e | e
      · rcases List.mem_or_eq_of_mem_set e with e | e
        · exact h3 l e
        · rw [e]; exact m2
      · rw [e]; exact List.Pairwise.nil
    · intro i a c
      rw [List.getElem?_set]
      split
      · simp; omega
      · rw [List.getElem?_set_ne (by omega)]
        exact h4 i a (by omega)
    · rintro L' ⟨a, b, c, d⟩
      refine ⟨a, b, c.trans ?_, d⟩
      have p1 := flatten_set m (List.getElem?_eq_getElem (show f < L.length by omega))
      have p2 := flatten_set (L := L.set f m) (i := h + f) (l := L[h + f]) [] (by
        rw [List.getElem?_set_ne (by omega), List.getElem?_eq_getElem])
      rw [List.append_nil] at p2
      have p3 : (((L.set f m).set (h + f) []).flatten ++ (L[h + f] ++ L[f])).Perm
          (L.flatten ++ (L[h + f] ++ L[f])) := by
        rw [← List.append_assoc]
        refine (p2.append_right _).trans (p1.trans ?_)
        exact List.Perm.append_left _ (m1.trans List.perm_append_comm)
      exact (List.perm_append_right_iff _).1 p3

theorem mergeOdd_runs {merge : List α → List α → M α (List α)} (hm : MergesLists lt merge) {L : List (List α)} (hl : 1 < L.length)
    (hs : ∀ l ∈ L, SortedList lt l) :
    Runs (mergeOdd merge L) (fun L' => L'.length = 2 * (L.length / 2) ∧
      (∀ l ∈ L', SortedList lt l) ∧ L'.flatten.Perm L.flatten) := by
  unfold mergeOdd
  split
  · refine Runs.nthBind (List.getElem?_eq_getElem (show L.length - 2 < L.length by omega)) ?_
    refine Runs.nthBind (List.getElem?_eq_getElem (show L.length - 1 < L.length by omega)) ?_
    refine (hm _ _ (hs _ (List.getElem_mem _)) (hs _ (List.getElem_mem _))).bind
      fun m ⟨m1, m2⟩ => ?_
    refine Runs.pure ⟨by simp; omega, fun l hl => ?_, ?_⟩
    · rcases List.mem_or_eq_of_mem_set (List.mem_of_mem_take hl) with e | e
      · exact hs l e
      · rw [e]; exact m2
    · have p1 := flatten_set m (List.getElem?_eq_getElem (show L.length - 2 < L.length by omega))
      have e : (L.set (L.length - 2) m).flatten =
          ((L.set (L.length - 2) m).take (L.length - 1)).flatten ++ L[L.length - 1] := by
        conv_lhs => rw [← List.take_append_drop (L.length - 1) (L.set (L.length - 2) m)]
        rw [List.flatten_append]
        congr 1
        rw [List.drop_eq_getElem_cons (by simp; omega), List.drop_of_length_le (by simp; omega)]
        rw [List.getElem_set_ne (by omega)]
        simp
      rw [e, List.append_assoc] at p1
      have p2 := p1.trans (List.Perm.append_left _ (m1.trans List.perm_append_comm))
      exact (List.perm_append_right_iff _).1 p2
  · exact Runs.pure ⟨by omega, hs, List.Perm.refl _⟩

theorem mergeLists_runs (hlt : StrictWeak lt) : ∀ (n : Nat) (L : List (List α)), L.length = n →
    0 < n → (∀ l ∈ L, SortedList lt l) →
    Runs (mergeLists (tick lt) L) (fun L' => ∃ l, L' = [l] ∧ SortedList lt l ∧ l.Perm L.flatten) := by
  intro n
  induction n using Nat.strongRecOn with
  | _ n ih =>
    intro L hn h0 hs
    rw [mergeLists]
    split
    · rename_i h1
      refine (mergeOdd_runs (listMerge_merges hlt) h1 hs).bind fun L1 ⟨a1, a2, a3⟩ => ?_
      have hh := mergeHalves_runs (listMerge_merges hlt) (h := L.length / 2) (L.length / 2) 0 L1 (by omega) a1 a2
        (fun i _ _ => by omega)
      rw [Nat.add_zero] at hh
      rw [show L1.length / 2 = L.length / 2 by omega]
      refine hh.bind fun L2 ⟨b1, b2, b3, b4⟩ => ?_
      rw [show L2.length / 2 = L.length / 2 by omega]
      refine (ih (L.length / 2) (by omega) _ (by simp; omega) (by omega)
        (fun l hl => b2 l (List.mem_of_mem_take hl))).mono ?_
      rintro L3 ⟨l, c1, c2, c3⟩
      refine ⟨l, c1, c2, c3.trans ?_⟩
      have e : L2.flatten = (L2.take (L.length / 2)).flatten := by
        conv_lhs => rw [← List.take_append_drop (L.length / 2) L2]
        rw [List.flatten_append]
        have : (L2.drop (L.length / 2)).flatten = [] := by
          rw [List.flatten_eq_nil_iff]
          intro l hl
          obtain ⟨i, hi1, hi2⟩ := List.mem_iff_getElem.1 hl
          rw [List.getElem_drop] at hi2
          simp only [List.length_drop] at hi1
          have := b4 (L.length / 2 + i) (by omega) (by omega)
          rw [List.getElem?_eq_getElem (by omega)] at this
          simp only [Option.some.injEq] at this
          rw [← hi2, this]
        rw [this, List.append_nil]
      rw [← e]
      exact b3.trans a3
    · obtain ⟨l, rfl⟩ : ∃ l, L = [l] := List.length_eq_one_iff.1 (by omega)
      exact Runs.pure ⟨l, rfl, hs l (by simp), by simp⟩

theorem listMelSort_runs (hlt : StrictWeak lt) (xs : List α) :
    Runs (listMelSort (tick lt) xs) (fun ys => ys.Perm xs ∧ SortedList lt ys) := by
  unfold listMelSort
  split
  · exact Runs.pure ⟨List.Perm.refl _, sortedList_short ‹_›⟩
  · match xs with
    | [] => rename_i h; simp at h
    | x :: xs =>
      refine Runs.nthBind rfl ?_
      refine (listEncroach_runs hlt xs [[x]] ⟨by simp, fun l hl => ?_⟩).bind fun L ⟨a1, a2⟩ => ?_
      · rw [List.mem_singleton.1 hl]; exact ⟨by simp, List.pairwise_singleton _ _⟩
      · refine (mergeLists_runs hlt _ L rfl (List.length_pos_iff.2 a1.1)
          (fun l hl => (a1.2 l hl).2)).bind ?_
        rintro _ ⟨l, rfl, c2, c3⟩
        refine (Runs.nth (x := l) rfl).mono ?_
        rintro _ rfl
        exact ⟨c3.trans a2, c2⟩

theorem flistMelSort_runs (hlt : StrictWeak lt) (xs : List α) :
    Runs (flistMelSort (tick lt) xs) (fun ys => ys.Perm xs ∧ SortedList lt ys) := by
  unfold flistMelSort
  split
  · exact Runs.pure ⟨List.Perm.refl _, sortedList_short ‹_›⟩
  · match xs with
    | [] => rename_i h; simp at h
    | x :: xs =>
      refine Runs.nthBind rfl ?_
      refine (flistEncroach_runs hlt xs [([x], 0)] ⟨by simp, fun l hl => ?_⟩).bind fun L ⟨a1, a2⟩ => ?_
      · rw [List.mem_singleton.1 hl]; exact ⟨⟨by simp, List.pairwise_singleton _ _⟩, by simp⟩
      · refine (mergeLists_runs hlt _ (L.map (·.1)) rfl (by simpa using List.length_pos_iff.2 a1.1)
          (fun l hl => ?_)).bind ?_
        · obtain ⟨p, hp, rfl⟩ := List.mem_map.1 hl
          exact (a1.2 p hp).1.2
        · rintro _ ⟨l, rfl, c2, c3⟩
          refine (Runs.nth (x := l) rfl).mono ?_
          rintro _ rfl
          exact ⟨c3.trans a2, c2⟩

end CppSort
