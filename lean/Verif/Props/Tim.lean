import Verif.Proof.TimSort
import Verif.Props.Spin
/-
C12 and C13: tim_sorter and adaptive_shivers_sorter.
-/
set_option autoImplicit false

namespace CppSort
variable {α : Type} {lt : α → α → Bool}

/-- C12: `tim_sorter` sorts stably: runs found and extended by insertion, merged from a stack with galloping. -/
theorem C12_tim_sorter (hlt : StrictWeak lt) : SortsStably lt (timsort (tick lt)) := timsort_stably hlt

/-- C13: `adaptive_shivers_sorter` sorts stably. -/
theorem C13_adaptive_shivers_sorter (hlt : StrictWeak lt) : SortsStably lt (adaptiveShiversSort (tick lt)) :=
  adaptiveShiversSort_stably hlt

/-- 300 pairs with ties: a descending run, a random part, then ascending runs that do not interleave. -/
def timDemo : List (Nat × Nat) := (List.range 300).map fun i =>
  if i < 60 then (500 - i, i) else if i < 180 then (i * 7 % 31, i) else if i < 240 then (300 + i / 2, i) else (i, i)

example : Transforms (timsort (tick Demo.byFst) 7 307) (Demo.mem 7 timDemo) 7 timDemo
    (fun ys => ys.Perm timDemo ∧ SortedList Demo.byFst ys ∧ SameOrder Demo.byFst timDemo ys) := by
  have := C12_tim_sorter Demo.byFst_sw _ 7 timDemo (Demo.mem_wf _ _) (Demo.mem_seg _ _)
  simpa [timDemo] using this

example : Transforms (adaptiveShiversSort (tick Demo.byFst) 7 307) (Demo.mem 7 timDemo) 7 timDemo
    (fun ys => ys.Perm timDemo ∧ SortedList Demo.byFst ys ∧ SameOrder Demo.byFst timDemo ys) := by
  have := C13_adaptive_shivers_sorter Demo.byFst_sw _ 7 timDemo (Demo.mem_wf _ _) (Demo.mem_seg _ _)
  simpa [timDemo] using this

end CppSort
