import Verif.Proof.Pdq
import Verif.Props.Demo
/-
C10: sorters/pdq_sorter.h.
-/
set_option autoImplicit false

namespace CppSort
variable {α : Type} [Inhabited α] {lt : α → α → Bool}

/-- C10.  `pdq_sorter` sorts every range, whatever its size, with the branchy and with the branchless
partition. -/
theorem C10_pdq_sorter (hlt : StrictWeak lt) (branchless : Bool) :
    Sorts lt (pdqsort (tick lt) branchless) :=
  sorts_of_w fun _ _ _ _ hfl _ hh => pdqsort_spec hlt branchless hfl hh

example : Transforms (pdqsort (tick Demo.byFst) true 7 12) (Demo.mem 7 Demo.pairs) 7 Demo.pairs
    (fun ys => ys.Perm Demo.pairs ∧ SortedList Demo.byFst ys) :=
  C10_pdq_sorter Demo.byFst_sw true _ 7 Demo.pairs (Demo.mem_wf _ _) (Demo.mem_seg _ _)

/-- A range long enough to be partitioned: 200 elements. -/
example : Transforms (pdqsort (tick Demo.natLt) true 7 207)
    (Demo.mem 7 ((List.range 200).map (fun i => i * 77 % 101))) 7
    ((List.range 200).map (fun i => i * 77 % 101))
    (fun ys => ys.Perm ((List.range 200).map (fun i => i * 77 % 101)) ∧
      SortedList Demo.natLt ys) := by
  have := C10_pdq_sorter Demo.natLt_sw true (Demo.mem 7 ((List.range 200).map (fun i => i * 77 % 101)))
    7 ((List.range 200).map (fun i => i * 77 % 101)) (Demo.mem_wf _ _) (Demo.mem_seg _ _)
  simpa using this

end CppSort
