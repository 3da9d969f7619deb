import Verif.Props.Demo
import Verif.Proof.Mel
/-
C17: mel_sorter.
-/
set_option autoImplicit false

namespace CppSort
variable {α : Type} {lt : α → α → Bool}

/-- C17: `mel_sorter` sorts every range, whether or not the edges of the encroaching lists are extracted
(`bad` is the heuristic that decides it, from the number of lists and the size). -/
theorem C17_mel_sorter (hlt : StrictWeak lt) (bad : Nat → Nat → Bool) :
    Sorts lt (melsort (tick lt) bad) :=
  melsort_sorts hlt bad

example : Transforms (melsort (tick Demo.byFst) (fun _ _ => true) 7 12) (Demo.mem 7 Demo.pairs) 7 Demo.pairs
    (fun ys => ys.Perm Demo.pairs ∧ SortedList Demo.byFst ys) :=
  C17_mel_sorter Demo.byFst_sw _ _ 7 Demo.pairs (Demo.mem_wf _ _) (Demo.mem_seg _ _)

end CppSort
