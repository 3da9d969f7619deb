import Verif.Props.Demo
import Verif.Proof.Poplar
/-
C05: poplar_sorter.
-/
set_option autoImplicit false

namespace CppSort
variable {α : Type} {lt : α → α → Bool}

/-- C05: `poplar_sorter` sorts every range. -/
theorem C05_poplar_sorter [Inhabited α] (hlt : StrictWeak lt) : Sorts lt (poplarSort (tick lt)) :=
  sorts_of_w (poplarSort_w hlt)

example : Transforms (poplarSort (tick Demo.byFst) 7 12) (Demo.mem 7 Demo.pairs) 7 Demo.pairs
    (fun ys => ys.Perm Demo.pairs ∧ SortedList Demo.byFst ys) :=
  C05_poplar_sorter Demo.byFst_sw _ 7 Demo.pairs (Demo.mem_wf _ _) (Demo.mem_seg _ _)

end CppSort
