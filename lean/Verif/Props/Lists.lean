import Verif.Proof.ListsMel
import Verif.Props.Demo
/-
C35-C38: container_aware_adapter on std::list and std::forward_list.
-/
set_option autoImplicit false

namespace CppSort
variable {α : Type} {lt : α → α → Bool}

/-- `sort`, given any list of nodes, returns normally, without touching the memory of any element, and
links the nodes in an order related to the original one by `R`. -/
def Relinks (sort : List α → M α (List α)) (R : List α → List α → Prop) : Prop :=
  ∀ (s : St α) (xs : List α), ∃ ys k, sort xs s = some (.ok ys, { s with cmps := k }) ∧ R xs ys

/-- Same nodes, in sorted order. -/
def SortedFrom (lt : α → α → Bool) (xs ys : List α) : Prop := ys.Perm xs ∧ SortedList lt ys

/-- Same nodes, in sorted order, equivalent elements in their original order. -/
def StablySortedFrom (lt : α → α → Bool) (xs ys : List α) : Prop :=
  ys.Perm xs ∧ SortedList lt ys ∧ SameOrder lt xs ys

/-- C35. -/
theorem C35_list_insertion_sort (hlt : StrictWeak lt) :
    Relinks (listInsertionSort (tick lt)) (StablySortedFrom lt) ∧
    Relinks (flistInsertionSort (tick lt)) (StablySortedFrom lt) := by
  have h0 : ∀ xs : List α, xs.length = 0 → StablySortedFrom lt xs xs := fun xs h =>
    ⟨List.Perm.refl _, sortedList_short (by omega), SameOrder.refl _⟩
  constructor
  · intro s xs
    unfold listInsertionSort
    split
    · exact ⟨xs, s.cmps, rfl, h0 xs ‹_›⟩
    · exact listInsertionLoop_runs hlt (xs.length - 1) 1 xs (by omega)
        (sortedList_short (by simp; omega)) (List.Perm.refl _) (SameOrder.refl _) s
  · intro s xs
    unfold flistInsertionSort
    split
    · exact ⟨xs, s.cmps, rfl, h0 xs ‹_›⟩
    · exact flistInsertionLoop_runs hlt (xs.length - 1) 1 xs (by omega)
        (sortedList_short (by simp; omega)) (List.Perm.refl _) (SameOrder.refl _) s

example : ∃ ys k, listInsertionSort (tick Demo.byFst) Demo.pairs (Demo.mem 7 []) =
    some (.ok ys, { Demo.mem 7 [] with cmps := k }) ∧ StablySortedFrom Demo.byFst Demo.pairs ys :=
  (C35_list_insertion_sort Demo.byFst_sw).1 _ _

/-- C36. -/
theorem C36_list_selection_sort (hlt : StrictWeak lt) :
    Relinks (listSelectionSort (tick lt)) (StablySortedFrom lt) ∧
    Relinks (flistSelectionSort (tick lt)) (StablySortedFrom lt) := by
  have h0 : ∀ xs : List α, SelInv lt xs xs 0 := fun xs =>
    ⟨Nat.zero_le _, List.Perm.refl _, SameOrder.refl _, sortedList_short (by simp),
      fun y hy => by simp at hy⟩
  exact ⟨fun s xs => listSelectionLoop_runs hlt xs.length 0 xs (by omega) (h0 xs) s,
    fun s xs => flistSelectionLoop_runs hlt xs.length 0 xs (by omega) (h0 xs) s⟩

example : ∃ ys k, flistSelectionSort (tick Demo.byFst) Demo.pairs (Demo.mem 7 []) =
    some (.ok ys, { Demo.mem 7 [] with cmps := k }) ∧ StablySortedFrom Demo.byFst Demo.pairs ys :=
  (C36_list_selection_sort Demo.byFst_sw).2 _ _

/-- C37, the part that holds: the lists are sorted.  Missing: stability, which is false (below). -/
theorem C37_list_merge_sort_partial (hlt : StrictWeak lt) :
    Relinks (listMergeSort (tick lt)) (SortedFrom lt) ∧
    Relinks (fun xs => flistMergeSort (tick lt) xs xs.length) (SortedFrom lt) :=
  ⟨fun s xs => listMergeSort_runs hlt _ xs rfl s, fun s xs => flistMergeSort_runs hlt _ xs rfl s⟩

example : ∃ ys k, listMergeSort (tick Demo.byFst) Demo.pairs (Demo.mem 7 []) =
    some (.ok ys, { Demo.mem 7 [] with cmps := k }) ∧ SortedFrom Demo.byFst Demo.pairs ys :=
  (C37_list_merge_sort_partial Demo.byFst_sw).1 _ _

/-- C37 is violated by the code: the left half is merged *into* the right half
(container_aware/merge_sort.h 43 and 64: `collection.merge(std::move(left), ...)`), so two equivalent
elements are exchanged. -/
theorem C37_list_merge_sort_false :
    ¬ Relinks (listMergeSort (tick Demo.byFst)) (StablySortedFrom Demo.byFst) ∧
    ¬ Relinks (fun xs => flistMergeSort (tick Demo.byFst) xs xs.length)
      (StablySortedFrom Demo.byFst) := by
  have key : ∀ m : M (Nat × Nat) (List (Nat × Nat)), Runs m (fun r => r = [(1, 1), (1, 0)]) →
      ∀ s : St (Nat × Nat), ¬ ∃ ys k, m s = some (.ok ys, { s with cmps := k }) ∧
        StablySortedFrom Demo.byFst [(1, 0), (1, 1)] ys := by
    rintro m hm s ⟨ys, k, h1, h2⟩
    obtain ⟨r, k', h3, rfl⟩ := hm s
    rw [h3] at h1
    simp only [Option.some.injEq, Prod.mk.injEq, Except.ok.injEq] at h1
    have h4 := h2.2.2 (1, 0)
    rw [← h1.1] at h4
    revert h4
    decide
  have one : ∀ x : Nat × Nat, Runs (listMergeSort (tick Demo.byFst) [x]) (fun r => r = [x]) := by
    intro x
    rw [listMergeSort]
    exact Runs.pure rfl
  have fone : ∀ x : Nat × Nat, Runs (flistMergeSort (tick Demo.byFst) [x] 1) (fun r => r = [x]) := by
    intro x
    rw [flistMergeSort]
    exact Runs.pure rfl
  have mg : Runs (listMerge (tick Demo.byFst) [(1, 1)] [(1, 0)]) (fun r => r = [(1, 1), (1, 0)]) := by
    refine (listMerge_runs _ _).mono ?_
    rintro _ rfl
    rw [mergeL_cons]
    simp [Demo.byFst]
  constructor
  · intro h
    refine key _ ?_ (Demo.mem 7 []) (h (Demo.mem 7 []) [(1, 0), (1, 1)])
    rw [listMergeSort]
    refine (one (1, 0)).bind fun _ e => ?_
    subst e
    refine (one (1, 1)).bind fun _ e => ?_
    subst e
    exact mg
  · intro h
    refine key _ ?_ (Demo.mem 7 []) (h (Demo.mem 7 []) [(1, 0), (1, 1)])
    show Runs (flistMergeSort _ _ 2) _
    rw [flistMergeSort]
    refine (fone (1, 0)).bind fun _ e => ?_
    subst e
    refine (fone (1, 1)).bind fun _ e => ?_
    subst e
    exact mg

/-- C38. -/
theorem C38_list_mel_sort (hlt : StrictWeak lt) :
    Relinks (listMelSort (tick lt)) (SortedFrom lt) ∧
    Relinks (flistMelSort (tick lt)) (SortedFrom lt) :=
  ⟨fun s xs => listMelSort_runs hlt xs s, fun s xs => flistMelSort_runs hlt xs s⟩

example : ∃ ys k, flistMelSort (tick Demo.byFst) Demo.pairs (Demo.mem 7 []) =
    some (.ok ys, { Demo.mem 7 [] with cmps := k }) ∧ SortedFrom Demo.byFst Demo.pairs ys :=
  (C38_list_mel_sort Demo.byFst_sw).2 _ _

end CppSort
