import Verif.Base.Order
/-
A concrete strict weak order with ties and a concrete memory, used beside the theorems to show that
their hypotheses are met by non-trivial cases.
-/
set_option autoImplicit false

namespace CppSort.Demo
open CppSort

/-- Compare pairs by their first component only: distinct elements may be equivalent. -/
def byFst (x y : Nat × Nat) : Bool := decide (x.1 < y.1)

theorem byFst_sw : StrictWeak byFst := by
  constructor
  · simp [byFst]
  · intro x y z; simp only [byFst, decide_eq_true_eq]; omega
  · intro x y z; simp only [byFst, decide_eq_false_iff_not]; omega

/-- The usual order of the naturals. -/
def natLt (x y : Nat) : Bool := decide (x < y)

theorem natLt_sw : StrictWeak natLt := by
  constructor
  · simp [natLt]
  · intro x y z; simp only [natLt, decide_eq_true_eq]; omega
  · intro x y z; simp only [natLt, decide_eq_false_iff_not]; omega

/-- A memory holding `xs` at address `first`, surrounded by unallocated cells. -/
def mem {α : Type} (first : Nat) (xs : List α) : St α :=
  { cell := fun k => if h : first ≤ k ∧ k - first < xs.length then .val xs[k - first] else .unalloc
    brk := first + xs.length, grant := fun _ => 0, cmps := 0, movs := 0 }

theorem mem_wf {α : Type} (first : Nat) (xs : List α) : (mem first xs).WF := by
  intro i hi
  simp only [mem] at hi ⊢
  rw [dif_neg (by omega)]

theorem mem_seg {α : Type} (first : Nat) (xs : List α) : Seg (mem first xs).cell first xs := by
  intro i hi
  simp only [mem]
  rw [dif_pos (by omega)]
  simp

/-- A range with ties, out of order. -/
def pairs : List (Nat × Nat) := [(3, 0), (1, 0), (3, 1), (2, 0), (1, 1)]

end CppSort.Demo
