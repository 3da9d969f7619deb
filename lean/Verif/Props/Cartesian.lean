import Verif.Props.Demo
import Verif.Proof.Cartesian
/-
C16: cartesian_tree_sorter.
-/
set_option autoImplicit false

namespace CppSort
variable {α : Type} {lt : α → α → Bool}

/-- C16: `cartesian_tree_sorter` sorts every range.  No null link is followed, the priority queue never compares
the value of a node which was moved to the output, every node is destroyed exactly once. -/
theorem C16_cartesian_tree_sorter [Inhabited α] (hlt : StrictWeak lt) : Sorts lt (cartesianTreeSort lt) :=
  cartesianTreeSort_sorts hlt

example : Transforms (cartesianTreeSort Demo.byFst 7 12) (Demo.mem 7 Demo.pairs) 7 Demo.pairs
    (fun ys => ys.Perm Demo.pairs ∧ SortedList Demo.byFst ys) :=
  C16_cartesian_tree_sorter Demo.byFst_sw _ 7 Demo.pairs (Demo.mem_wf _ _) (Demo.mem_seg _ _)

end CppSort
