import Verif.Props.Demo
import Verif.Proof.GrailMain
import Verif.Model.FuelGrail
import Mathlib.Data.Nat.Sqrt
/-
C61: grail_sorter.
-/
set_option autoImplicit false

namespace CppSort
variable {α : Type} {lt : α → α → Bool}

/-- C61 without the buffers of one element: `grail_sorter` sorts every range stably, whatever the sizes of the buffers are, unless the
buffer for a range of 16 elements or more has exactly one element. Missing: these buffers, for which the claim is false
(`C61_grail_sorter_false`). -/
theorem C61_grail_sorter_partial (hlt : StrictWeak lt) (c : Cfg) {size : Nat → Nat} (h : ∀ n, 16 ≤ n → size n ≠ 1) :
    SortsStably lt (grailSort (tick lt) c size) :=
  grailSort_stable hlt c h

/-- `grail_sort` and `grail_sorter<>`: the buffer is a `fixed_buffer<0>`. -/
theorem C61_grail_sorter_default (hlt : StrictWeak lt) (c : Cfg) : SortsStably lt (grailSort (tick lt) c fun _ => 0) :=
  C61_grail_sorter_partial hlt c fun _ _ => by omega

/-- A `fixed_buffer<N>`, `N` not being one. -/
theorem C61_grail_sorter_fixed_partial (hlt : StrictWeak lt) (c : Cfg) {N : Nat} (h : N ≠ 1) :
    SortsStably lt (grailSort (tick lt) c fun _ => N) :=
  C61_grail_sorter_partial hlt c fun _ _ => h

/-- A `dynamic_buffer` with the policies `half` or `sqrt` of functional.h, or the identity. -/
theorem C61_grail_sorter_dynamic (hlt : StrictWeak lt) (c : Cfg) : SortsStably lt (grailSort (tick lt) c fun n => n / 2) ∧
    SortsStably lt (grailSort (tick lt) c Nat.sqrt) ∧ SortsStably lt (grailSort (tick lt) c id) := by
  refine ⟨C61_grail_sorter_partial hlt c fun n hn => ?_, C61_grail_sorter_partial hlt c fun n hn => ?_,
    C61_grail_sorter_partial hlt c fun n hn => ?_⟩
  · omega
  · have : 4 ≤ Nat.sqrt n := Nat.le_sqrt.2 (by omega)
    omega
  · simp only [id]; omega

/-- A hundred pairs with ties, out of order. -/
def grailDemo : List (Nat × Nat) := (List.range 100).map fun i => (i * 37 % 50, i)

example : Transforms (grailSort (tick Demo.byFst) ⟨.random, false⟩ (fun _ => 8) 7 (7 + grailDemo.length)) (Demo.mem 7 grailDemo) 7 grailDemo
    (fun ys => ys.Perm grailDemo ∧ SortedList Demo.byFst ys ∧ SameOrder Demo.byFst grailDemo ys) :=
  C61_grail_sorter_fixed_partial Demo.byFst_sw _ (by omega) _ 7 grailDemo (Demo.mem_wf _ _) (Demo.mem_seg _ _)

example : Transforms (grailSort (tick Demo.byFst) ⟨.random, false⟩ (fun n => n / 2) 7 (7 + grailDemo.length)) (Demo.mem 7 grailDemo) 7 grailDemo
    (fun ys => ys.Perm grailDemo ∧ SortedList Demo.byFst ys ∧ SameOrder Demo.byFst grailDemo ys) :=
  (C61_grail_sorter_dynamic Demo.byFst_sw _).1 _ 7 grailDemo (Demo.mem_wf _ _) (Demo.mem_seg _ _)

example : SortsStably Demo.byFst (grailSort (tick Demo.byFst) ⟨.random, true⟩ fun n => Nat.log2 n) :=
  C61_grail_sorter_partial Demo.byFst_sw _ fun n hn => by
    have : 4 ≤ Nat.log2 n := (Nat.le_log2 (by omega)).2 (by omega)
    omega

example : Transforms (grailSort (tick Demo.byFst) ⟨.random, false⟩ (fun _ => 0) 7 (7 + grailDemo.length)) (Demo.mem 7 grailDemo) 7 grailDemo
    (fun ys => ys.Perm grailDemo ∧ SortedList Demo.byFst ys ∧ SameOrder Demo.byFst grailDemo ys) :=
  C61_grail_sorter_default Demo.byFst_sw _ _ 7 grailDemo (Demo.mem_wf _ _) (Demo.mem_seg _ _)

/-- Sixteen numbers, in order. -/
def grailBad : List Nat := List.range 16

/-- Whether the run on `grailBad` with a buffer of one element stops on an element without a value. -/
def grailDead : Bool :=
  match grailSortF (tick Demo.natLt) ⟨.random, false⟩ 40 (fun _ => 1) 0 16 (Demo.mem 0 grailBad) with
  | some (.error .deref, _) => true
  | _ => false

/-- C61 is false for a `fixed_buffer<1>`: `build_blocks` saves one element in the buffer (grail_sort.h 481), then moves
pairs of elements two places to the left (487-488), over an element that has not been saved and is lost. -/
theorem C61_grail_sorter_false :
    ¬ ∀ (c : Cfg) (size : Nat → Nat), SortsStably Demo.natLt (grailSort (tick Demo.natLt) c size) := by
  intro h
  obtain ⟨s', _, h1, -⟩ := h ⟨.random, false⟩ (fun _ => 1) (Demo.mem 0 grailBad) 0 grailBad (Demo.mem_wf _ _) (Demo.mem_seg _ _)
  have hc : grailDead = true := by decide +kernel
  unfold grailDead at hc
  split at hc
  · rename_i s e
    have e1 := grailSortF_le (tick Demo.natLt) ⟨.random, false⟩ 40 (fun _ => 1) 0 16 _ _ e
    rw [show (0 : Nat) + grailBad.length = 16 from by simp [grailBad]] at h1
    rw [h1] at e1
    injection e1 with e1
    cases e1
  · cases hc

end CppSort
