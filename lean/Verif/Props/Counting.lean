import Verif.Proof.Counting
import Verif.Props.Demo
/-
C23: counting_sorter.
-/
set_option autoImplicit false

namespace CppSort

/-- The order of the integers. -/
def intLt (x y : Int) : Bool := decide (x < y)

/-- The order of `std::greater<>`. -/
def intGt (x y : Int) : Bool := decide (y < x)

/-- C23, the part that holds: for every built-in integer type, `counting_sorter` sorts every range that is sorted
already, or in which the span `max - min + 1` is a value of the type the subtraction is done in and of
`std::ptrdiff_t`, and, for a signed type at least as wide as `int`, the greatest value of the type does not appear.
(For the others see `C23_counting_sorter_range_overflow` and `C23_counting_sorter_limit_overflow`.) -/
theorem C23_counting_sorter_partial {t : IntTy} (ht : t.Builtin) (s : St Int) (f : Nat) (xs : List Int) (hw : s.WF)
    (hs : Seg s.cell f xs) (hx : ∀ x ∈ xs, t.Has x)
    (hfit : SortedList intLt xs ∨ (∀ x ∈ xs, ∀ y ∈ xs, y - x + 1 ≤ t.promote.hi ∧ y - x + 1 < 2 ^ 63) ∧
      (t.signed = true → 32 ≤ t.bits → ∀ x ∈ xs, x ≠ t.hi)) :
    Transforms (countingSort t f (f + xs.length)) s f xs (fun ys => ys.Perm xs ∧ SortedList intLt ys) := by
  obtain ⟨_, s', h1, ys, h2, h3, h4⟩ := countingSort_seg ht hw hs hx fun hn => by
    rcases hfit with h | ⟨h1, h2⟩
    · exact absurd h hn
    · exact ⟨h1, fun a b x hm => ⟨by have := (hx x hm).1; omega, by have := (hx x hm).2; have := h2 a b x hm; omega⟩⟩
  exact ⟨s', ys, h1, h4.len, h4.out, ⟨h2, h3⟩, h4.rest, h4.wf⟩

/-- C23, the part that holds, with `std::greater<>`: the same with the smallest value of the type. -/
theorem C23_counting_sorter_greater_partial {t : IntTy} (ht : t.Builtin) (s : St Int) (f : Nat) (xs : List Int)
    (hw : s.WF) (hs : Seg s.cell f xs) (hx : ∀ x ∈ xs, t.Has x)
    (hfit : SortedList intGt xs ∨ (∀ x ∈ xs, ∀ y ∈ xs, y - x + 1 ≤ t.promote.hi ∧ y - x + 1 < 2 ^ 63) ∧
      (t.signed = true → 32 ≤ t.bits → ∀ x ∈ xs, x ≠ t.lo)) :
    Transforms (reverseCountingSort t f (f + xs.length)) s f xs (fun ys => ys.Perm xs ∧ SortedList intGt ys) := by
  obtain ⟨_, s', h1, ys, h2, h3, h4⟩ := reverseCountingSort_seg ht hw hs hx fun hn => by
    rcases hfit with h | ⟨h1, h2⟩
    · exact absurd h hn
    · exact ⟨h1, fun a b x hm => ⟨by have := (hx x hm).1; have := h2 a b x hm; omega, by have := (hx x hm).2; omega⟩⟩
  exact ⟨s', ys, h1, h4.len, h4.out, ⟨h2, h3⟩, h4.rest, h4.wf⟩

/-- `int`. -/
def int32 : IntTy := ⟨32, true⟩

/-- `signed char`. -/
def int8 : IntTy := ⟨8, true⟩

/-- `unsigned long`. -/
def uint64 : IntTy := ⟨64, false⟩

example : Transforms (countingSort int32 7 12) (Demo.mem 7 [3, -1000000, 3, 8, 0]) 7 [3, -1000000, 3, 8, 0]
    (fun ys => ys.Perm [3, -1000000, 3, 8, 0] ∧ SortedList intLt ys) :=
  C23_counting_sorter_partial (t := int32) (by simp [IntTy.Builtin, int32]) _ 7 [3, -1000000, 3, 8, 0] (Demo.mem_wf _ _)
    (Demo.mem_seg _ _) (by simp [IntTy.Has, int32, IntTy.lo, IntTy.hi])
    (.inr ⟨by simp [int32, IntTy.hi, IntTy.promote], by simp [int32, IntTy.hi]⟩)

/-- All the values of a narrow type, the limits included. -/
example : Transforms (reverseCountingSort int8 7 10) (Demo.mem 7 [-128, 127, 5]) 7 [-128, 127, 5]
    (fun ys => ys.Perm [-128, 127, 5] ∧ SortedList intGt ys) :=
  C23_counting_sorter_greater_partial (t := int8) (by simp [IntTy.Builtin, int8]) _ 7 [-128, 127, 5] (Demo.mem_wf _ _)
    (Demo.mem_seg _ _) (by simp [IntTy.Has, int8, IntTy.lo, IntTy.hi])
    (.inr ⟨by simp [int8, IntTy.hi, IntTy.promote], by simp [int8]⟩)

/-- The greatest values of an unsigned type. -/
example : Transforms (countingSort uint64 7 9) (Demo.mem 7 [18446744073709551615, 18446744073709551614]) 7
    [18446744073709551615, 18446744073709551614]
    (fun ys => ys.Perm [18446744073709551615, 18446744073709551614] ∧ SortedList intLt ys) :=
  C23_counting_sorter_partial (t := uint64) (by simp [IntTy.Builtin, uint64]) _ 7
    [18446744073709551615, 18446744073709551614] (Demo.mem_wf _ _) (Demo.mem_seg _ _)
    (by simp [IntTy.Has, uint64, IntTy.lo, IntTy.hi])
    (.inr ⟨by simp [uint64, IntTy.hi, IntTy.promote], by simp [uint64]⟩)

/-- Signed types at least as wide as `int`: when the range is not sorted and its span is not a value of the type,
the computation of the span overflows. -/
theorem C23_counting_sorter_range_overflow {t : IntTy} (hsg : t.signed = true) (hb : 32 ≤ t.bits) (s : St Int) (f : Nat)
    (xs : List Int) (hs : Seg s.cell f xs) (hns : ¬ SortedList intLt xs)
    (hbig : ∃ x ∈ xs, ∃ y ∈ xs, t.hi < y - x + 1) :
    ∃ s', countingSort t f (f + xs.length) s = some (.error .overflow, s') :=
  countingSort_range_overflow hsg hb hs hns hbig

example : ∃ s', countingSort int32 7 10 (Demo.mem 7 [0, 2147483646, -1]) = some (.error .overflow, s') :=
  C23_counting_sorter_range_overflow (t := int32) rfl (by simp [int32]) _ 7 [0, 2147483646, -1] (Demo.mem_seg _ _)
    (by unfold SortedList; decide) ⟨-1, by simp, 2147483646, by simp, by simp [int32, IntTy.hi]⟩

/-- Signed types at least as wide as `int`: when the range is not sorted, has a small enough span, and contains the
greatest value of the type, the increment after the last value overflows. -/
theorem C23_counting_sorter_limit_overflow {t : IntTy} (ht : t.Builtin) (hsg : t.signed = true) (hb : 32 ≤ t.bits)
    (s : St Int) (f : Nat) (xs : List Int) (hs : Seg s.cell f xs) (hx : ∀ x ∈ xs, t.Has x)
    (hns : ¬ SortedList intLt xs) (hr : ∀ x ∈ xs, ∀ y ∈ xs, y - x + 1 ≤ t.hi ∧ y - x + 1 < 2 ^ 63)
    (hlim : t.hi ∈ xs) : ∃ s', countingSort t f (f + xs.length) s = some (.error .overflow, s') :=
  countingSort_limit_overflow ht hsg hb hs hx hns hr hlim

/-- C23 is false: sorting the two greatest values of `int` overflows. -/
theorem C23_counting_sorter_false : ¬ ∀ (t : IntTy), t.Builtin → ∀ (s : St Int) (f : Nat) (xs : List Int), s.WF →
    Seg s.cell f xs → (∀ x ∈ xs, t.Has x) →
    Transforms (countingSort t f (f + xs.length)) s f xs (fun ys => ys.Perm xs ∧ SortedList intLt ys) := by
  intro h
  have hx : ∀ x ∈ [2147483647, 2147483646], int32.Has x := by simp [IntTy.Has, int32, IntTy.lo, IntTy.hi]
  obtain ⟨s', ys, h1, -⟩ := h int32 (by simp [IntTy.Builtin, int32]) (Demo.mem 0 [2147483647, 2147483646]) 0 _
    (Demo.mem_wf _ _) (Demo.mem_seg _ _) hx
  obtain ⟨s'', h2⟩ := C23_counting_sorter_limit_overflow (t := int32) (by simp [IntTy.Builtin, int32]) rfl
    (by simp [int32]) (Demo.mem 0 [2147483647, 2147483646]) 0 _ (Demo.mem_seg _ _) hx (by unfold SortedList; decide)
    (by simp [int32, IntTy.hi]) (by simp [int32, IntTy.hi])
  rw [h2] at h1
  cases h1

end CppSort
