import Verif.Base.Monad
/-
detail/insertion_sort.h, detail/min_element.h, detail/selection_sort.h
-/
set_option autoImplicit false

namespace CppSort
variable {α : Type} (cmp : α → α → M α Bool)

/-- insertion_sort.h 62-64: the `do ... while` loop shifting elements up; returns the final `sift`
(the invariant `sift_1 = sift - 1` at the top of the body is built in). -/
def insertionShift (first : Nat) (tmp : α) (sift : Nat) : M α Nat := do
  moveTo sift (sift - 1)
  let sift := sift - 1
  if sift ≠ first then
    if ← cmp tmp (← read (sift - 1)) then
      insertionShift first tmp sift
    else
      pure sift
  else
    pure sift
partial_fixpoint

/-- insertion_sort.h 53-66: body of the `for` loop. -/
def insertOne (first cur : Nat) : M α Unit := do
  if ← cmp (← read cur) (← read (cur - 1)) then
    let tmp ← moveOut cur
    let sift ← insertionShift cmp first tmp cur
    assign sift tmp
  else
    pure ()

/-- insertion_sort.h 52-67: the `for` loop. -/
def insertionLoop (first last cur : Nat) : M α Unit := do
  if cur ≠ last then
    insertOne cmp first cur
    insertionLoop first last (cur + 1)
  else
    pure ()
partial_fixpoint

/-- insertion_sort.h 41-68. -/
def insertionSort (first last : Nat) : M α Unit :=
  if first = last then pure ()
  else insertionLoop cmp first last (first + 1)

/-- min_element.h 31-37: `first` is the already incremented iterator. -/
def minElementLoop (first last min : Nat) : M α Nat := do
  if first ≠ last then
    if ← cmp (← read first) (← read min) then
      minElementLoop (first + 1) last first
    else
      minElementLoop (first + 1) last min
  else
    pure min
partial_fixpoint

/-- min_element.h 19-38 (`CPPSORT_ASSUME(first != last)` is the caller's obligation). -/
def uncheckedMinElement (first last : Nat) : M α Nat :=
  minElementLoop cmp (first + 1) last first

/-- selection_sort.h 18-27. -/
def selectionSortLoop (last it : Nat) : M α Unit := do
  if it ≠ last then
    let m ← uncheckedMinElement cmp it last
    swap it m
    selectionSortLoop last (it + 1)
  else
    pure ()
partial_fixpoint

/-- selection_sort.h 18-27. -/
def selectionSort (first last : Nat) : M α Unit := selectionSortLoop cmp last first

end CppSort
