import Verif.Props.Demo
import Verif.Props.Pdq
import Verif.Props.Simple
import Verif.Proof.Drop
/-
C19: drop_merge_adapter and drop_merge_sorter; C20: split_adapter and split_sorter.
-/
set_option autoImplicit false

namespace CppSort
variable {α : Type} {lt : α → α → Bool}

/-- C19: `drop_merge_adapter` over any sorter that sorts, for trivially copyable elements and for the
others. -/
theorem C19_drop_merge_adapter (hlt : StrictWeak lt) (triv : Bool) {sorter : Nat → Nat → M α Unit}
    (hs : Sorts lt sorter) : Sorts lt (dropMergeSort (tick lt) triv sorter) :=
  dropMergeSort_sorts hlt triv hs

example : Transforms (dropMergeSort (tick Demo.byFst) false (insertionSort (tick Demo.byFst)) 7 12)
    (Demo.mem 7 Demo.pairs) 7 Demo.pairs (fun ys => ys.Perm Demo.pairs ∧ SortedList Demo.byFst ys) :=
  C19_drop_merge_adapter Demo.byFst_sw false (C01_insertion_sorter Demo.byFst_sw).sorts _ 7 Demo.pairs
    (Demo.mem_wf _ _) (Demo.mem_seg _ _)

variable [Inhabited α]

/-- C19: `drop_merge_sorter` is `drop_merge_adapter<pdq_sorter>`. -/
theorem C19_drop_merge_sorter (hlt : StrictWeak lt) (triv bl : Bool) :
    Sorts lt (dropMergeSort (tick lt) triv (pdqsort (tick lt) bl)) :=
  C19_drop_merge_adapter hlt triv (C10_pdq_sorter hlt bl)

example : Transforms (dropMergeSort (tick Demo.byFst) true (pdqsort (tick Demo.byFst) true) 7 12)
    (Demo.mem 7 Demo.pairs) 7 Demo.pairs (fun ys => ys.Perm Demo.pairs ∧ SortedList Demo.byFst ys) :=
  C19_drop_merge_sorter Demo.byFst_sw true true _ 7 Demo.pairs (Demo.mem_wf _ _) (Demo.mem_seg _ _)

/-- C20: `split_adapter` over any sorter that sorts. -/
theorem C20_split_adapter (hlt : StrictWeak lt) (c : Cfg) (hc : c.cat ≠ .forward)
    {sorter : Nat → Nat → M α Unit} (hs : Sorts lt sorter) : Sorts lt (splitSort (tick lt) c sorter) :=
  splitSort_sorts hlt c hc hs

example : Transforms (splitSort (tick Demo.byFst) ⟨.bidirectional, false⟩ (insertionSort (tick Demo.byFst)) 7 12)
    (Demo.mem 7 Demo.pairs) 7 Demo.pairs (fun ys => ys.Perm Demo.pairs ∧ SortedList Demo.byFst ys) :=
  C20_split_adapter Demo.byFst_sw _ (by simp) (C01_insertion_sorter Demo.byFst_sw).sorts _ 7 Demo.pairs
    (Demo.mem_wf _ _) (Demo.mem_seg _ _)

/-- C20: `split_sorter` is `split_adapter<pdq_sorter>`. -/
theorem C20_split_sorter (hlt : StrictWeak lt) (triv bl : Bool) :
    Sorts lt (splitSort (tick lt) ⟨.random, triv⟩ (pdqsort (tick lt) bl)) :=
  C20_split_adapter hlt _ (by simp) (C10_pdq_sorter hlt bl)

example : Transforms (splitSort (tick Demo.byFst) ⟨.random, false⟩ (pdqsort (tick Demo.byFst) true) 7 12)
    (Demo.mem 7 Demo.pairs) 7 Demo.pairs (fun ys => ys.Perm Demo.pairs ∧ SortedList Demo.byFst ys) :=
  C20_split_sorter Demo.byFst_sw false true _ 7 Demo.pairs (Demo.mem_wf _ _) (Demo.mem_seg _ _)

end CppSort
