import Verif.Props.Demo
import Verif.Proof.Splay
/-
C15: splay_sorter.
-/
set_option autoImplicit false

namespace CppSort
variable {α : Type} {lt : α → α → Bool}

/-- C15: `splay_sorter` sorts every range and keeps the order of equivalent elements.  No null or dangling link
is followed, every node is destroyed exactly once and the node storage is given back. -/
theorem C15_splay_sorter [Inhabited α] (hlt : StrictWeak lt) : SortsStably lt (splaysort (tick lt)) :=
  splaysort_stable hlt

example : Transforms (splaysort (tick Demo.byFst) 7 12) (Demo.mem 7 Demo.pairs) 7 Demo.pairs
    (fun ys => ys.Perm Demo.pairs ∧ SortedList Demo.byFst ys ∧ SameOrder Demo.byFst Demo.pairs ys) :=
  C15_splay_sorter Demo.byFst_sw _ 7 Demo.pairs (Demo.mem_wf _ _) (Demo.mem_seg _ _)

end CppSort
