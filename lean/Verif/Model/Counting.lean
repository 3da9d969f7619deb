import Verif.Model.FixedSize
/-
detail/minmax_element.h, detail/minmax_element_and_is_sorted.h, detail/counting_sort.h
-/
set_option autoImplicit false

namespace CppSort
variable {α : Type}

/-- A built-in integer type. `int` has 32 bits, `std::ptrdiff_t` 64. -/
structure IntTy where
  bits : Nat
  signed : Bool

namespace IntTy

/-- The smallest value. -/
def lo (t : IntTy) : Int := if t.signed then -2 ^ (t.bits - 1) else 0

/-- The greatest value. -/
def hi (t : IntTy) : Int := if t.signed then 2 ^ (t.bits - 1) - 1 else 2 ^ t.bits - 1

/-- The values of the type. -/
def Has (t : IntTy) (x : Int) : Prop := t.lo ≤ x ∧ x ≤ t.hi

/-- Conversion to the type. -/
def wrap (t : IntTy) (x : Int) : Int := (x - t.lo) % 2 ^ t.bits + t.lo

/-- The type operations on values of the type are done in. -/
def promote (t : IntTy) : IntTy := if t.bits < 32 then ⟨32, true⟩ else t

/-- The value of an arithmetic operation whose mathematical result is `x`. -/
def arith (t : IntTy) (x : Int) : M Int Int :=
  if t.signed then if t.lo ≤ x ∧ x ≤ t.hi then pure x else fail .overflow
  else pure (t.wrap x)

/-- `++x` and `--x` (`x` is the mathematical result): the operation on the promoted value, then the conversion. -/
def step (t : IntTy) (x : Int) : M Int Int := do
  let y ← t.promote.arith x
  pure (t.wrap y)

end IntTy

/-- `std::ptrdiff_t`, the difference type of the iterators. -/
def ptrdiff : IntTy := ⟨64, true⟩

/-- minmax_element.h 77-90. -/
def minmaxElement (cmp : α → α → M α Bool) (first last : Nat) : M α (Nat × Nat) :=
  if first = last ∨ first + 1 = last then pure (first, first)
  else uncheckedMinmax cmp first last

/-- minmax_element_and_is_sorted.h 48-60: the loop over the sorted beginning, from `current` (`next` is
`current + 1`). It returns the position before the first descent, and whether there was none. -/
def sortedStart (cmp : α → α → M α Bool) (last current : Nat) : M α (Nat × Bool) := do
  if ← cmp (← read (current + 1)) (← read current) then pure (current, false)
  else if current + 2 = last then pure (current + 1, true)
  else sortedStart cmp last (current + 1)
partial_fixpoint

/-- minmax_element_and_is_sorted.h 21-77: `min`, `max`, `is_sorted`. -/
def minmaxAndIsSorted (cmp : α → α → M α Bool) (first last : Nat) : M α (Nat × Nat × Bool) := do
  if first = last ∨ first + 1 = last then pure (first, first, true)
  else
    let (current, sorted) ← sortedStart cmp last first
    if sorted then pure (first, current, true)
    else
      let (tmin, tmax) ← minmaxElement cmp (current + 1) last
      let mn ← (do if ← cmp (← read tmin) (← read first) then pure tmin else pure first)
      let mx ← (do if ← cmp (← read tmax) (← read current) then pure current else pure tmax)
      pure (mn, mx, false)

/-- counting_sort.h 33, 60: `difference_type value_range = max - min + 1`. -/
def valueRange (t : IntTy) (mx mn : Int) : M Int Int := do
  let d ← t.promote.arith (mx - mn)
  let r ← t.promote.arith (d + 1)
  pure (ptrdiff.wrap r)

/-- counting_sort.h 35-38, 62-65: the counters, in an `immovable_vector` that is a list here. A negative size makes
the allocation fail. The allocation of a vector of a valid size succeeds. -/
def newCounts (n : Int) : M Int (List Nat) :=
  if n < 0 then fail .exn else pure (List.replicate n.toNat 0)

/-- counting_sort.h 40-42, 67-69: counting. -/
def countLoop (t : IntTy) (mn : Int) (last first : Nat) (counts : List Nat) : M Int (List Nat) := do
  if first ≠ last then
    let d ← t.promote.arith ((← read first) - mn)
    let i := ptrdiff.wrap d
    if 0 ≤ i ∧ i < counts.length then countLoop t mn last (first + 1) (counts.modify i.toNat (· + 1))
    else fail .deref
  else pure counts
partial_fixpoint

/-- `std::fill_n`. -/
def fillN (first count : Nat) (x : α) : M α Nat :=
  match count with
  | 0 => pure first
  | count + 1 => do
    assign first x
    fillN (first + 1) count x

/-- counting_sort.h 44-46 (`d = 1`), 71-74 (`d = -1`): writing the values. -/
def countOut (t : IntTy) (d : Int) (first : Nat) (x : Int) : List Nat → M Int Unit
  | [] => pure ()
  | count :: counts => do
    let next ← t.step (x + d)
    let first ← fillN first count x
    countOut t d first next counts

/-- counting_sort.h 22-47. -/
def countingSort (t : IntTy) (first last : Nat) : M Int Unit := do
  let (pmin, pmax, sorted) ← minmaxAndIsSorted (tick fun x y => decide (x < y)) first last
  if sorted then pure ()
  else
    let mn ← read pmin
    let mx ← read pmax
    let counts ← newCounts (← valueRange t mx mn)
    let counts ← countLoop t mn last first counts
    countOut t 1 first mn counts

/-- counting_sort.h 49-75. -/
def reverseCountingSort (t : IntTy) (first last : Nat) : M Int Unit := do
  let (pmin, pmax, sorted) ← minmaxAndIsSorted (tick fun x y => decide (y < x)) first last
  if sorted then pure ()
  else
    let mn ← read pmax
    let mx ← read pmin
    let counts ← newCounts (← valueRange t mx mn)
    let counts ← countLoop t mn last first counts
    countOut t (-1) first mx counts.reverse

end CppSort
