import Verif.Proof.TimStack
import Verif.Props.WorstCase
import Verif.Props.Tim
/-
C92: tim_sorter and adaptive_shivers_sorter make at most a constant times n log n comparisons.
-/
set_option autoImplicit false

namespace CppSort
variable {α : Type} [Inhabited α] {lt : α → α → Bool}

/-- C92 for tim_sorter: at most `n (32 log2 n + 51)` comparisons. -/
theorem C92_tim_sorter (hlt : StrictWeak lt) :
    ComparesWithin (timsort (tick lt)) (fun n => n * (32 * n.log2 + 51)) := by
  refine (C12_tim_sorter hlt).sorts.compares fun s f xs s' hw hs hr => ?_
  obtain ⟨c, h1, h2⟩ := (timBase_cost (N := 0) tim_collapses trivial (h := 2 * xs.length.log2 + 2)
    fun R h1 h2 h3 => growing_height h1 h2 (by omega)).run hr
  rw [Nat.add_sub_cancel_left, show 16 * (2 * xs.length.log2 + 2) + 19 = 32 * xs.length.log2 + 51 by omega] at h2
  omega

example : ∃ s', timsort (tick Demo.byFst) 0 300 (Demo.mem 0 timDemo) = some (.ok (), s') ∧
    s'.cmps ≤ 0 + 300 * (32 * 8 + 51) := by
  have hl : timDemo.length = 300 := by simp [timDemo]
  have h := C92_tim_sorter Demo.byFst_sw _ 0 timDemo (Demo.mem_wf _ _) (Demo.mem_seg _ _)
  rw [hl] at h
  exact h

/-- C92 for adaptive_shivers_sorter: at most `n (16 log2 n + 51)` comparisons. -/
theorem C92_adaptive_shivers_sorter (hlt : StrictWeak lt) :
    ComparesWithin (adaptiveShiversSort (tick lt)) (fun n => n * (16 * n.log2 + 51)) := by
  refine (C13_adaptive_shivers_sorter hlt).sorts.compares fun s f xs s' hw hs hr => ?_
  obtain ⟨c, h1, h2⟩ := (timBase_cost (N := 0) shivers_collapses trivial (h := xs.length.log2 + 2)
    fun R h1 _ h3 => growingLog_height h1 (by omega)).run hr
  rw [Nat.add_sub_cancel_left, show 16 * (xs.length.log2 + 2) + 19 = 16 * xs.length.log2 + 51 by omega] at h2
  omega

example : ∃ s', adaptiveShiversSort (tick Demo.byFst) 0 300 (Demo.mem 0 timDemo) = some (.ok (), s') ∧
    s'.cmps ≤ 0 + 300 * (16 * 8 + 51) := by
  have hl : timDemo.length = 300 := by simp [timDemo]
  have h := C92_adaptive_shivers_sorter Demo.byFst_sw _ 0 timDemo (Demo.mem_wf _ _) (Demo.mem_seg _ _)
  rw [hl] at h
  exact h

end CppSort
