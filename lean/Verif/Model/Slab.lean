import Verif.Model.Mel
import Verif.Model.Merge
import Verif.Model.QuickMerge
import Verif.Model.Adapters
/-
stable_partition.h and slabsort.h.

A predicate takes the iterator whose element it tests.  Assertions are not part of the code that is
modelled.
-/
set_option autoImplicit false

namespace CppSort
variable {α : Type}

/-! ### stable_partition.h -/

/-- stable_partition.h 73-82: the trues to the front of the line, the falses to the buffer. -/
def spMoveLoop (pred : Nat → M α Bool) (first it last ptr : Nat) : M α (Nat × Nat) := do
  if it ≠ last then
    if ← pred it then
      moveTo first it
      spMoveLoop pred (first + 1) (it + 1) last ptr
    else
      constructFrom ptr it
      spMoveLoop pred first (it + 1) last (ptr + 1)
  else
    pure (first, ptr)
partial_fixpoint

/-- stable_partition.h 88-89. -/
def spMoveBack (t2 ptr it : Nat) : M α Unit := do
  if t2 < ptr then
    moveTo it t2
    spMoveBack (t2 + 1) ptr (it + 1)
  else
    pure ()
partial_fixpoint

/-- stable_partition.h 62-92: the buffer is big enough.  The destructor of `h` destroys the elements of the
buffer. -/
def spBuffered (pred : Nat → M α Bool) (first last buf : Nat) : M α Nat := do
  constructFrom buf first
  let (first, ptr) ← spMoveLoop pred first (first + 1) last (buf + 1)
  moveTo first last
  let first := first + 1
  spMoveBack buf ptr first
  destroyN buf (ptr - buf)
  pure first

/-- stable_partition.h 104-109: `m1` moves left while it points to a false. -/
def spScanLeft (pred : Nat → M α Bool) (first m1 lenHalf : Nat) : M α (Option (Nat × Nat)) := do
  let m1 := m1 - 1
  if !(← pred m1) then
    if m1 = first then
      pure none
    else
      spScanLeft pred first m1 (lenHalf - 1)
  else
    pure (some (m1, lenHalf))
partial_fixpoint

/-- stable_partition.h 121-126: `m1` moves right while it points to a true. -/
def spScanRight (pred : Nat → M α Bool) (m1 last lenHalf : Nat) : M α (Option (Nat × Nat)) := do
  if ← pred m1 then
    let m1 := m1 + 1
    if m1 = last then
      pure none
    else
      spScanRight pred m1 last (lenHalf - 1)
  else
    pure (some (m1, lenHalf))
partial_fixpoint

/-- stable_partition.h 34-136: the range `[first, last]` is closed. -/
def stablePartitionBuf (c : Cfg) (pred : Nat → M α Bool) (first last len : Nat) (buffer : Buf) :
    M α Nat := do
  if len = 2 then
    swap first last
    pure last
  else if len = 3 then
    let m := first + 1
    if ← pred m then
      swap first m
      swap m last
      pure last
    else
      swap m last
      swap first m
      pure m
  else if len ≤ buffer.size then
    spBuffered pred first last buffer.ptr
  else
    let len2 := len / 2
    let m := first + len2
    let firstFalse ← (do
      match ← spScanLeft pred first m len2 with
      | none => pure first
      | some (m1, lenHalf) => stablePartitionBuf c pred first m1 lenHalf buffer)
    let secondFalse ← (do
      match ← spScanRight pred m last (len - len2) with
      | none => pure (last + 1)
      | some (m1, lenHalf) => stablePartitionBuf c pred m1 last lenHalf buffer)
    rotate c firstFalse m secondFalse
partial_fixpoint

/-- stable_partition.h 150-160: the first element that is false. -/
def spSkipTrue (pred : Nat → M α Bool) (first last size : Nat) : M α (Option (Nat × Nat)) := do
  if first = last then
    pure none
  else
    if !(← pred first) then
      pure (some (first, size))
    else
      spSkipTrue pred (first + 1) last (size - 1)
partial_fixpoint

/-- stable_partition.h 163-168: the last element that is true. -/
def spSkipFalse (pred : Nat → M α Bool) (first last size : Nat) : M α (Option (Nat × Nat)) := do
  let size := size - 1
  let last := last - 1
  if first = last then
    pure none
  else
    if !(← pred last) then
      spSkipFalse pred first last size
    else
      pure (some (last, size))
partial_fixpoint

/-- stable_partition.h 138-179; the buffer is released by its destructor. -/
def stablePartition (c : Cfg) (pred : Nat → M α Bool) (first last size : Nat) : M α Nat := do
  match ← spSkipTrue pred first last size with
  | none => pure last
  | some (first, size) =>
    match ← spSkipFalse pred first last size with
    | none => pure first
    | some (last, size) =>
      let len := size + 1
      let buffer ← (if 4 ≤ len then Buf.null.tryGrow len else pure Buf.null)
      let r ← stablePartitionBuf c pred first last len buffer
      buffer.release
      pure r

/-! ### slabsort.h -/

section
variable (lt : α → α → Bool)

/-- slabsort.h 64-90.  An iterator of the buffer is a pair (element, position); the buffer is a contiguous array,
whatever the iterators it holds. -/
def slabGetMedian (first size : Nat) : M α Nat := do
  let xs ← readRange first size
  let (i, its) ← embed (xs.zipIdx first) (nthElement (tick (indirectLt lt)) .random 0 size (size / 2) size)
  let p ← nth its i
  return p.2

/-- slabsort.h 92-123. -/
def slabPartition (c : Cfg) (first last size : Nat) : M α Nat := do
  let medianIt ← slabGetMedian lt first size
  let last1 := last - 1
  swap medianIt last1
  let middle ← stablePartition c (fun i => do tick lt (← read i) (← read last1)) first last1 (size - 1)
  swap middle last1
  pure middle

/-- slabsort.h 154-196: creation of the encroaching lists of iterators; `none` when there are too many. -/
def slabEncroach (p : Nat) (lists : List (List Nat)) (it last : Nat) : M α (Option (List (List Nat))) := do
  if it ≠ last then
    let value ← read it
    let place ← encroachPlace (tick lt) read lists value
    let lists ← encroachPut lists it place
    if p ≤ lists.length then
      pure none
    else
      slabEncroach p lists (it + 1) last
  else
    pure (some lists)
partial_fixpoint

/-- slabsort.h 203-208: the elements of a list of iterators. -/
def slabReifyList : List Nat → M α (List α)
  | [] => pure []
  | i :: is => do
    let x ← moveOut i
    let xs ← slabReifyList is
    return x :: xs

/-- slabsort.h 201-210. -/
def slabReify : List (List Nat) → M α (List (List α))
  | [] => pure []
  | l :: ls => do
    let xs ← slabReifyList l
    let xss ← slabReify ls
    return xs :: xss

/-- slabsort.h 125-220.  The node pool is not represented. -/
def tryMelsort (first last size p : Nat) : M α Bool := do
  if size < 32 then
    insertionSort (tick lt) first last
    pure true
  else
    match ← slabEncroach lt p [[first]] (first + 1) last with
    | none => pure false
    | some lists =>
      let lists ← slabReify lists
      mergeEncroachingLists (tick lt) lists first false
      pure true

/-- slabsort.h 222-263.  `original_p * original_p` is computed in unbounded integers. -/
def slabsortImpl (c : Cfg) (first last size originalP currentP : Nat) : M α Unit := do
  if size < 2 then
    pure ()
  else
    let middle ← slabPartition lt c first last size
    let sizeLeft := middle - first
    let sizeRight := size - sizeLeft
    if 2 < currentP then
      slabsortImpl c first middle sizeLeft originalP (currentP / 2)
      slabsortImpl c middle last sizeRight originalP (currentP / 2)
    else
      (do
        let done ← tryMelsort lt first middle sizeLeft originalP
        if !done then
          slabsortImpl c first middle sizeLeft (originalP * originalP) (originalP * originalP)
        else pure ())
      (do
        let done ← tryMelsort lt middle last sizeRight originalP
        if !done then
          slabsortImpl c middle last sizeRight (originalP * originalP) (originalP * originalP)
        else pure ())
partial_fixpoint

/-- slabsort.h 265-297. -/
def slabsort (c : Cfg) (first last : Nat) : M α Unit := do
  let size := last - first
  if size < 2 then
    pure ()
  else
    let done ← tryMelsort lt first last size (2 * size.log2)
    if done then
      pure ()
    else
      slabsortImpl lt c first last size 2 2

end

end CppSort
