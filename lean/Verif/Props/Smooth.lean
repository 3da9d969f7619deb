import Verif.Props.Demo
import Verif.Proof.Smooth
/-
C06: smooth_sorter.
-/
set_option autoImplicit false

namespace CppSort
variable {α : Type} {lt : α → α → Bool}

/-- C06: `smooth_sorter` sorts every range whose length a 64 bits difference type represents: the accesses to the
table of Leonardo numbers are in its bounds and no tree is shifted out of the bitset of 92 bits. -/
theorem C06_smooth_sorter [Inhabited α] (hlt : StrictWeak lt) (n : Nat) (hn : n < 2 ^ 63) :
    SortsSized lt n (smoothsort (tick lt)) :=
  sortsSized_of_w fun _ _ _ _ hh => smoothsort_spec hlt (by omega) (by omega) hh

example : Transforms (smoothsort (tick Demo.byFst) 7 12) (Demo.mem 7 Demo.pairs) 7 Demo.pairs
    (fun ys => ys.Perm Demo.pairs ∧ SortedList Demo.byFst ys) :=
  C06_smooth_sorter Demo.byFst_sw 5 (by decide) _ 7 Demo.pairs rfl (Demo.mem_wf _ _) (Demo.mem_seg _ _)

end CppSort
