import Verif.Props.Demo
import Verif.Proof.MergeInsertion
import Verif.Model.FuelMergeInsertion
import Mathlib.Data.Nat.Log
/-
C11: merge_insertion_sorter. C69: its number of comparisons.
-/
set_option autoImplicit false

namespace CppSort
variable {α : Type} {lt : α → α → Bool}

/-- C11: `merge_insertion_sorter` sorts every range. -/
theorem C11_merge_insertion_sorter [Inhabited α] (hlt : StrictWeak lt) : Sorts lt (mergeInsertionSort (tick lt)) :=
  mergeInsertionSort_sorts hlt

example : Transforms (mergeInsertionSort (tick Demo.byFst) 7 12) (Demo.mem 7 Demo.pairs) 7 Demo.pairs
    (fun ys => ys.Perm Demo.pairs ∧ SortedList Demo.byFst ys) :=
  C11_merge_insertion_sorter Demo.byFst_sw _ 7 Demo.pairs (Demo.mem_wf _ _) (Demo.mem_seg _ _)

/-- The number of comparisons of the Ford-Johnson algorithm in the worst case: the sum of
`⌈log₂ (3 k / 4)⌉` for `k` from 1 to `n`. -/
def fordJohnson (n : Nat) : Nat := ((List.range' 1 n).map fun k => Nat.clog 2 ((3 * k + 3) / 4)).sum

/-- `sort` compares at most `bound n` times whenever it sorts `n` elements. -/
def ComparesAtMost (sort : Nat → Nat → M α Unit) (s : St α) (first : Nat) (xs : List α) (bound : Nat → Nat) : Prop :=
  ∃ s', sort first (first + xs.length) s = some (.ok (), s') ∧ s'.cmps ≤ s.cmps + bound xs.length

/-- The documentation gives `n log n` comparisons in the worst case: there are at most as many per element as the
number of elements has binary digits. -/
theorem C69_merge_insertion_comparisons [Inhabited α] (hlt : StrictWeak lt) (s : St α) (first : Nat) (xs : List α)
    (hw : s.WF) (hs : Seg s.cell first xs) :
    ComparesAtMost (mergeInsertionSort (tick lt)) s first xs (fun n => n * Nat.size n) := by
  obtain ⟨v, hh, -⟩ := hs.holds
  obtain ⟨_, s', hr, v', -, -, -, -, -, h⟩ :=
    mergeInsertionSort_spec hlt first (first + xs.length) v s (by omega) hw hh
  refine ⟨s', hr, ?_⟩
  rw [Nat.add_sub_cancel_left] at h
  have := mergeInsertionCost_le xs.length xs.length
  exact Nat.le_trans h (Nat.add_le_add_left this _)

example : ComparesAtMost (mergeInsertionSort (tick Demo.byFst)) (Demo.mem 7 Demo.pairs) 7 Demo.pairs
    (fun n => n * Nat.size n) :=
  C69_merge_insertion_comparisons Demo.byFst_sw _ 7 Demo.pairs (Demo.mem_wf _ _) (Demo.mem_seg _ _)

/-- Partial form of C69, up to eight elements: no more comparisons than the Ford-Johnson algorithm. Missing: nine
elements and more, for which the claim is false (`C69_ford_johnson_false`). -/
theorem C69_ford_johnson_partial [Inhabited α] (hlt : StrictWeak lt) (s : St α) (first : Nat) (xs : List α)
    (hw : s.WF) (hs : Seg s.cell first xs) (h8 : xs.length ≤ 8) :
    ComparesAtMost (mergeInsertionSort (tick lt)) s first xs fordJohnson := by
  obtain ⟨v, hh, -⟩ := hs.holds
  obtain ⟨_, s', hr, v', -, -, -, -, -, h⟩ :=
    mergeInsertionSort_spec hlt first (first + xs.length) v s (by omega) hw hh
  refine ⟨s', hr, ?_⟩
  rw [Nat.add_sub_cancel_left] at h
  have key : ∀ n, n < 9 → mergeInsertionCost n n ≤ fordJohnson n := by decide +kernel
  have := key xs.length (by omega)
  omega

example : ComparesAtMost (mergeInsertionSort (tick Demo.byFst)) (Demo.mem 7 Demo.pairs) 7 Demo.pairs fordJohnson :=
  C69_ford_johnson_partial Demo.byFst_sw _ 7 Demo.pairs (Demo.mem_wf _ _) (Demo.mem_seg _ _) (by decide)

/-- Nine numbers on which the sort compares twenty times; nineteen comparisons are always enough. -/
def fjBad : List Nat := [0, 5, 6, 8, 3, 7, 2, 4, 1]

/-- The counters of the model after sorting `fjBad`. -/
def fjCount : Option Nat :=
  match mergeInsertionSortF (tick Demo.natLt) 30 0 9 (Demo.mem 0 fjBad) with
  | some (.ok _, s) => some s.cmps
  | _ => none

/-- C69 is false: `merge_insertion_sorter` makes more comparisons than the Ford-Johnson algorithm, because it does not
insert the pending elements in the order of that algorithm: the sizes of the cycles of insertions
(merge_insertion_sort.h 341-343) are 2, 4, 4, 12, 20, ... where they should be 2, 2, 6, 10, 22, ... -/
theorem C69_ford_johnson_false : ¬ ∀ (s : St Nat) (first : Nat) (xs : List Nat), s.WF → Seg s.cell first xs →
    ComparesAtMost (mergeInsertionSort (tick Demo.natLt)) s first xs fordJohnson := by
  intro h
  obtain ⟨s', h1, h2⟩ := h (Demo.mem 0 fjBad) 0 fjBad (Demo.mem_wf _ _) (Demo.mem_seg _ _)
  have hc : fjCount = some 20 := by decide +kernel
  unfold fjCount at hc
  split at hc
  · rename_i s e
    have e1 := mergeInsertionSortF_le (tick Demo.natLt) 30 0 9 _ _ e
    rw [show (0 : Nat) + fjBad.length = 9 from rfl] at h1
    rw [h1] at e1
    injection e1 with e1
    injection e1 with _ e1
    subst e1
    have hf : fordJohnson fjBad.length = 19 := by decide +kernel
    rw [hf, Option.some.inj hc] at h2
    exact absurd h2 (by decide)
  · cases hc

end CppSort
