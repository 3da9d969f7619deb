import Verif.Model.Insertion
import Verif.Model.Merge
/-
detail/partition.h, detail/iter_sort3.h, detail/introselect.h, detail/quicksort.h
-/
set_option autoImplicit false

namespace CppSort
variable {α : Type} (cmp : α → α → M α Bool)

/-! ### partition.h; a predicate gets the address of the element it is applied to -/

/-- partition.h 32-40: skip the elements satisfying the predicate; `none`: all of them do. -/
def partSkip (pred : Nat → M α Bool) (first last : Nat) : M α (Option Nat) := do
  if first = last then
    pure none
  else
    if ← pred first then partSkip pred (first + 1) last else pure (some first)
partial_fixpoint

/-- partition.h 41-48. -/
def partFwdLoop (pred : Nat → M α Bool) (first p last : Nat) : M α Nat := do
  let p := p + 1
  if p ≠ last then
    if ← pred p then
      swap first p
      partFwdLoop pred (first + 1) p last
    else
      partFwdLoop pred first p last
  else
    pure first
partial_fixpoint

/-- partition.h 27-49: forward iterators. -/
def partitionFwd (pred : Nat → M α Bool) (first last : Nat) : M α Nat := do
  match ← partSkip pred first last with
  | none => pure last
  | some first => partFwdLoop pred first first last

/-- partition.h 66-70: `do { if (first == --last) return first; } while (not pred(*last))`. -/
def partBack (pred : Nat → M α Bool) (first last : Nat) : M α (Option Nat) := do
  let last := last - 1
  if first = last then
    pure none
  else
    if ← pred last then pure (some last) else partBack pred first last
partial_fixpoint

/-- partition.h 51-75: bidirectional iterators. -/
def partitionBi (pred : Nat → M α Bool) (first last : Nat) : M α Nat := do
  match ← partSkip pred first last with
  | none => pure last
  | some first =>
    match ← partBack pred first last with
    | none => pure first
    | some last =>
      swap first last
      partitionBi pred (first + 1) last
partial_fixpoint

/-- partition.h 77-85. -/
def partition (cat : Cat) (pred : Nat → M α Bool) (first last : Nat) : M α Nat :=
  match cat with
  | .forward => partitionFwd pred first last
  | _ => partitionBi pred first last

/-! ### iter_sort3.h, introselect.h -/

/-- iter_sort3.h 18-27. -/
def iterSort3 (a b c : Nat) : M α Nat := do
  iterSwapIf cmp b c
  iterSwapIf cmp a c
  iterSwapIf cmp a b
  pure b

/-- introselect.h 28-57. -/
def smallSort (cat : Cat) (first last : Nat) : M α Unit :=
  match cat with
  | .forward => selectionSort cmp first last
  | _ => insertionSort cmp first last

/-- introselect.h 59-92. -/
def iterMedian5 (it1 it2 it3 it4 it5 : Nat) : M α Nat := do
  iterSwapIf cmp it1 it2
  iterSwapIf cmp it3 it4
  if ← cmp (← read it1) (← read it3) then
    swap it1 it5
    iterSwapIf cmp it1 it2
  else
    swap it3 it5
    iterSwapIf cmp it3 it4
  if ← cmp (← read it1) (← read it3) then
    if ← cmp (← read it2) (← read it3) then pure it3 else pure it2
  else
    if ← cmp (← read it4) (← read it1) then pure it1 else pure it4

/-- introselect.h 94-141; other sizes are `CPPSORT_UNREACHABLE`. -/
def iterMedianRest (first size : Nat) : M α Nat :=
  match size with
  | 0 | 1 | 2 => pure first
  | 3 => do
    iterSwapIf cmp first (first + 1)
    iterSwapIf cmp (first + 1) (first + 2)
    iterSwapIf cmp first (first + 1)
    pure (first + 1)
  | 4 => do
    iterSwapIf cmp first (first + 1)
    iterSwapIf cmp (first + 2) (first + 3)
    iterSwapIf cmp first (first + 2)
    iterSwapIf cmp (first + 1) (first + 3)
    iterSwapIf cmp (first + 1) (first + 2)
    pure (first + 1)
  | 5 => iterMedian5 cmp first (first + 1) (first + 2) (first + 3) (first + 4)
  | _ => fail .deref

/-- introselect.h 170-182: the groups of five; `i` groups remain. -/
def mediansLoop (i it mediansIt : Nat) : M α (Nat × Nat) :=
  match i with
  | 0 => pure (it, mediansIt)
  | i + 1 => do
    let median ← iterMedian5 cmp it (it + 1) (it + 2) (it + 3) (it + 4)
    swap mediansIt median
    mediansLoop i (it + 5) (mediansIt + 1)

/-- introselect.h 184-189: the remaining elements. -/
def mediansRest (roundedSize size it mediansIt : Nat) : M α Nat :=
  if roundedSize ≠ size then do
    let lastMedian ← iterMedianRest cmp it (size - roundedSize)
    swap lastMedian mediansIt
    pure (mediansIt + 1)
  else
    pure mediansIt

/-- introselect.h 234-247: pseudomedian of nine; `last_it` (204-228) is `last - 1` here, for forward
iterators `next(it6, size - size/2 - 3*(size/8) - 1)`, which is the same position. -/
def pickPivotGood (first last size : Nat) : M α (Nat × Nat) := do
  let it1 := first + size / 8
  let it2 := it1 + size / 8
  let it3 := it2 + size / 8
  let middle := it3 + (size / 2 - 3 * (size / 8))
  let it4 := middle + size / 8
  let it5 := it4 + size / 8
  let it6 := it5 + size / 8
  let last1 := last - 1
  let _ ← iterSort3 cmp first it1 it2
  let _ ← iterSort3 cmp it3 middle it4
  let _ ← iterSort3 cmp it5 it6 last1
  let medianIt ← iterSort3 cmp it1 middle it6
  pure (medianIt, last1)

/-- introselect.h 272-291, quicksort.h 77-95: put the pivot at the end, partition twice. -/
def threeWay (cat : Cat) (first last medianIt last1 : Nat) : M α (Nat × Nat) := do
  swap medianIt last1
  let middle1 ← partition cat (fun p => do cmp (← read p) (← read last1)) first last1
  swap middle1 last1
  let middle2 ← partition cat
    (fun p => do return ! (← cmp (← read middle1) (← read p))) (middle1 + 1) last
  pure (middle1, middle2)

mutual

/-- introselect.h 150-198. -/
def medianOfMedians (cat : Cat) (first last size : Nat) : M α Nat := do
  if size ≤ 5 then
    iterMedianRest cmp first size
  else
    let roundedSize := (size / 5) * 5
    let (it, mediansIt) ← mediansLoop cmp (roundedSize / 5) first first
    let mediansIt ← mediansRest cmp roundedSize size it mediansIt
    let last := mediansIt
    let size := if roundedSize = size then size / 5 else size / 5 + 1
    introselect cat first last (size / 2) size
partial_fixpoint

/-- introselect.h 254-317. -/
def introselect (cat : Cat) (first last nthPos size : Nat) : M α Nat :=
  introselectLoop cat first last nthPos size (size.log2 : Int)
partial_fixpoint

/-- introselect.h 232-252. -/
def pickPivot (cat : Cat) (first last size : Nat) (badAllowed : Int) : M α (Nat × Nat) := do
  if 0 < badAllowed then
    pickPivotGood cmp first last size
  else
    let m ← medianOfMedians cat first last size
    pure (m, last - 1)
partial_fixpoint

/-- introselect.h 266-316: the `while` loop and the fallback. -/
def introselectLoop (cat : Cat) (first last nthPos size : Nat) (badAllowed : Int) : M α Nat := do
  if 32 < size then
    let (medianIt, last1) ← pickPivot cat first last size badAllowed
    let (middle1, middle2) ← threeWay cmp cat first last medianIt last1
    let sizeLeft := middle1 - first
    let sizeMiddle := middle2 - middle1
    let sizeRight := size - sizeLeft - sizeMiddle
    if nthPos < sizeLeft then
      introselectLoop cat first middle1 nthPos sizeLeft (badAllowed - 1)
    else if sizeLeft + sizeMiddle < nthPos then
      introselectLoop cat middle2 last (nthPos - (sizeLeft + sizeMiddle)) sizeRight (badAllowed - 1)
    else
      pure (middle1 + (nthPos - sizeLeft))
  else
    smallSort cmp cat first last
    pure (first + nthPos)
partial_fixpoint

end

/-! ### quicksort.h -/

/-- quicksort.h 28-57. -/
def quicksortFallback (cat : Cat) (first last size : Nat) : M α Bool :=
  match cat with
  | .forward => do
    if size < 10 then
      bubbleSort cmp first size
      pure true
    else
      pure false
  | _ => do
    if size < 42 then
      insertionSort cmp first last
      pure true
    else
      pure false

/-- quicksort.h 59-118. -/
def quicksortLoop (cat : Cat) (first last size : Nat) (badAllowed : Int) : M α Unit := do
  if ← quicksortFallback cmp cat first last size then
    pure ()
  else
    let (medianIt, last1) ← pickPivot cmp cat first last size badAllowed
    let (middle1, middle2) ← threeWay cmp cat first last medianIt last1
    let sizeLeft := middle1 - first
    let sizeMiddle := middle2 - middle1
    let sizeRight := size - sizeLeft - sizeMiddle
    if sizeRight < sizeLeft then
      quicksortLoop cat middle2 last sizeRight (badAllowed - 1)
      quicksortLoop cat first middle1 sizeLeft (badAllowed - 1)
    else
      quicksortLoop cat first middle1 sizeLeft (badAllowed - 1)
      quicksortLoop cat middle2 last sizeRight (badAllowed - 1)
partial_fixpoint

/-- quicksort.h 120-128 and quick_sorter.h 62-82 (`std::distance` gives the size). -/
def quicksort (cat : Cat) (first last : Nat) : M α Unit :=
  quicksortLoop cmp cat first last (last - first) (2 * ((last - first).log2 : Int))

end CppSort
