import Verif.Model.SwapIf
import Verif.Props.Comparators
/-
C66: swap_if on arithmetic types.
-/
set_option autoImplicit false

namespace CppSort

/-- C66, the part that holds for integers: with `std::less<>` or `std::greater<>`, `swap_if` leaves
the two values in order, whatever the width, the signedness and the values. -/
theorem C66_swap_if_integers_partial {w : Nat} {lt : BitVec w → BitVec w → Bool}
    (p : IdKind) (x y : BitVec w) :
    swapIfInt lt .less p x y = some (if lt y x then (y, x) else (x, y)) ∧
    swapIfInt lt .greater p x y = some (if lt x y then (y, x) else (x, y)) := by
  have h1 : swapIfInt lt .less .utilityIdentity x y = some (if lt y x then (y, x) else (x, y)) := by
    rw [swapIfInt]
    simp only [stdMin]
    split
    · congr 2
      rw [BitVec.xor_comm x y, ← BitVec.xor_assoc, BitVec.xor_self, BitVec.zero_xor]
    · rw [BitVec.xor_self, BitVec.xor_zero]
  have h2 : swapIfInt lt .greater .utilityIdentity x y =
      some (if lt x y then (y, x) else (x, y)) := by
    rw [swapIfInt]
    simp only [stdMax]
    split
    · congr 2
      rw [BitVec.xor_comm x y, ← BitVec.xor_assoc, BitVec.xor_self, BitVec.zero_xor]
    · rw [BitVec.xor_self, BitVec.xor_zero]
  cases p
  · exact ⟨h1, h2⟩
  · constructor
    · rw [swapIfInt]; exact h1
    · rw [swapIfInt]; exact h2

example : swapIfInt (w := 8) BitVec.slt .less .stdIdentity 5 (-3) = some (-3, 5) := by
  rw [(C66_swap_if_integers_partial .stdIdentity 5 (-3)).1]; decide

/-- C66, the part that holds for floating point values: with `std::less<>`, `swap_if` leaves the two
values in order if neither is a NaN and they are not two zeros of different signs. -/
theorem C66_swap_if_floats_partial {ew mw : Nat} (p : IdKind) (x y : Flt ew mw)
    (h : x.lt y = true ∨ y.lt x = true ∨ x = y) :
    swapIfFlt .less p x y = some (if y.lt x then (y, x) else (x, y)) ∧
    swapIfFlt .greater p x y = some (if x.lt y then (y, x) else (x, y)) := by
  have hasym : x.lt y = true → y.lt x = false := by
    have h := (C54_weak_less ew mw).1
    have hc := (C54_weak_less ew mw).2.1
    intro hl
    have hn : x.isNaN = false ∧ y.isNaN = false := by
      unfold Flt.lt at hl
      cases hx : x.isNaN <;> cases hy : y.isNaN <;> simp [hx, hy] at hl ⊢
    rw [← hc x y hn.1 hn.2] at hl
    rw [← hc y x hn.2 hn.1]
    exact h.asymm hl
  have h1 : swapIfFlt .less .utilityIdentity x y = some (if y.lt x then (y, x) else (x, y)) := by
    rw [swapIfFlt]
    simp only [stdMin, stdMax]
    rcases h with h | h | h
    · simp [h, hasym h]
    · have : x.lt y = false := by
        cases hl : x.lt y
        · rfl
        · rw [hasym hl] at h; cases h
      simp [h, this]
    · subst h; simp
  have h2 : swapIfFlt .greater .utilityIdentity x y = some (if x.lt y then (y, x) else (x, y)) := by
    rw [swapIfFlt]
    simp only [stdMin, stdMax]
    rcases h with h | h | h
    · simp [h, hasym h]
    · have : x.lt y = false := by
        cases hl : x.lt y
        · rfl
        · rw [hasym hl] at h; cases h
      simp [h, this]
    · subst h; simp
  cases p
  · exact ⟨h1, h2⟩
  · constructor
    · rw [swapIfFlt]; exact h1
    · rw [swapIfFlt]; exact h2

example : swapIfFlt .less .utilityIdentity Demo.dOne Demo.dNegInf =
    some (Demo.dNegInf, Demo.dOne) := by
  rw [(C66_swap_if_floats_partial .utilityIdentity Demo.dOne Demo.dNegInf
    (Or.inr (Or.inl (by decide +kernel)))).1]
  decide +kernel

/-- C66 does not hold for floating point values: on (+0, -0) `swap_if` writes +0 twice, the result
is not a permutation of the operands. -/
theorem C66_swap_if_zeros_false :
    swapIfFlt .less .utilityIdentity Demo.dZero Demo.dNegZero = some (Demo.dZero, Demo.dZero) ∧
    Demo.dZero ≠ Demo.dNegZero := by
  constructor
  · rw [swapIfFlt]
    decide +kernel
  · decide +kernel

theorem swapIfInt_ranges {w : Nat} (lt : BitVec w → BitVec w → Bool) (x y : BitVec w) :
    swapIfInt lt .rangesLess .utilityIdentity x y = none ∧
    swapIfInt lt .rangesGreater .utilityIdentity x y = none := by
  have key : ∀ (c : CmpKind) (p : IdKind) r, swapIfInt lt c p x y = some r →
      c = CmpKind.less ∨ c = CmpKind.greater := by
    refine swapIfInt.partial_correctness lt x y
      (fun c _ _ => c = CmpKind.less ∨ c = CmpKind.greater) ?_
    intro f ih c p r h
    cases c <;> cases p <;> simp at h ⊢
    all_goals
      have := ih _ _ _ h
      simp at this
  constructor
  · cases h : swapIfInt lt .rangesLess .utilityIdentity x y
    · rfl
    · have := key _ _ _ h; simp at this
  · cases h : swapIfInt lt .rangesGreater .utilityIdentity x y
    · rfl
    · have := key _ _ _ h; simp at this

/-- C66 does not hold for `std::ranges::less`/`std::ranges::greater`: these overloads call
themselves and never return. -/
theorem C66_swap_if_ranges_diverges {w : Nat} (lt : BitVec w → BitVec w → Bool) (p : IdKind)
    (x y : BitVec w) :
    swapIfInt lt .rangesLess p x y = none ∧ swapIfInt lt .rangesGreater p x y = none := by
  cases p
  · exact swapIfInt_ranges lt x y
  · constructor
    · rw [swapIfInt]; exact (swapIfInt_ranges lt x y).1
    · rw [swapIfInt]; exact (swapIfInt_ranges lt x y).2

example : swapIfInt (w := 32) BitVec.slt .rangesLess .stdIdentity 2 1 = none :=
  (C66_swap_if_ranges_diverges _ _ _ _).1

end CppSort
