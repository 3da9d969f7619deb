import Verif.Model.Insertion
import Verif.Model.Heap
import Verif.Model.Quick
/-
detail/pdqsort.h, sorters/pdq_sorter.h
-/
set_option autoImplicit false

namespace CppSort
variable {α : Type} (cmp : α → α → M α Bool)

/-- pdqsort.h 94-97: the `do ... while` loop of the unguarded insertion sort; returns `sift`. -/
def unguardedShift (tmp : α) (sift : Nat) : M α Nat := do
  moveTo sift (sift - 1)
  let sift := sift - 1
  if ← cmp tmp (← read (sift - 1)) then
    unguardedShift tmp sift
  else
    pure sift
partial_fixpoint

/-- pdqsort.h 85-101. -/
def unguardedLoop (cur last : Nat) : M α Unit := do
  if cur ≠ last then
    if ← cmp (← read cur) (← read (cur - 1)) then
      let tmp ← moveOut cur
      let sift ← unguardedShift cmp tmp cur
      assign sift tmp
      unguardedLoop (cur + 1) last
    else
      unguardedLoop (cur + 1) last
  else
    pure ()
partial_fixpoint

/-- pdqsort.h 74-102. -/
def unguardedInsertionSort (first last : Nat) : M α Unit :=
  if first = last then pure ()
  else unguardedLoop cmp (first + 1) last

/-- pdqsort.h 118-140: the loop of `partial_insertion_sort`.  The `do ... while` loop (128-130) is the
one of insertion_sort.h. -/
def partialLoop (first last cur limit : Nat) : M α Bool := do
  if cur ≠ last then
    if ← cmp (← read cur) (← read (cur - 1)) then
      let tmp ← moveOut cur
      let sift ← insertionShift cmp first tmp cur
      assign sift tmp
      if 8 < limit + (cur - sift) then pure false
      else partialLoop first last (cur + 1) (limit + (cur - sift))
    else
      if 8 < limit then pure false
      else partialLoop first last (cur + 1) limit
  else
    pure true
partial_fixpoint

/-- pdqsort.h 107-141. -/
def partialInsertionSort (first last : Nat) : M α Bool :=
  if first = last then pure true
  else partialLoop cmp first last (first + 1) 0

/-- `while (test(*++first));` of pdqsort.h 211, 361, 377, 409, 414: `p` is the incremented
iterator. -/
def scanUp (test : Nat → M α Bool) (p : Nat) : M α Nat := do
  if ← test p then scanUp test (p + 1) else pure p
partial_fixpoint

/-- `while (test(*--last));` of pdqsort.h 216, 366, 378, 406, 413. -/
def scanDown (test : Nat → M α Bool) (last : Nat) : M α Nat := do
  if ← test (last - 1) then scanDown test (last - 1) else pure (last - 1)
partial_fixpoint

/-- `while (first < last && test(*--last));` of pdqsort.h 215, 365. -/
def scanDownGuarded (test : Nat → M α Bool) (first last : Nat) : M α Nat := do
  if first < last then
    if ← test (last - 1) then scanDownGuarded test first (last - 1) else pure (last - 1)
  else
    pure last
partial_fixpoint

/-- `while (first < last && test(*++first));` of pdqsort.h 408. -/
def scanUpGuarded (test : Nat → M α Bool) (first last : Nat) : M α Nat := do
  if first < last then
    if ← test (first + 1) then scanUpGuarded test (first + 1) last else pure (first + 1)
  else
    pure first
partial_fixpoint

/-- `comp(proj(*p), pivot_proj)`. -/
def belowPivot (pivot : α) (p : Nat) : M α Bool := do cmp (← read p) pivot

/-- `not comp(proj(*p), pivot_proj)`. -/
def notBelowPivot (pivot : α) (p : Nat) : M α Bool := do return ! (← cmp (← read p) pivot)

/-- `comp(pivot_proj, proj(*p))`. -/
def abovePivot (pivot : α) (p : Nat) : M α Bool := do cmp pivot (← read p)

/-- `not comp(pivot_proj, proj(*p))`. -/
def notAbovePivot (pivot : α) (p : Nat) : M α Bool := do return ! (← cmp pivot (← read p))

/-- pdqsort.h 206-216 and 356-366. -/
def prScan (pivot : α) (first last : Nat) : M α (Nat × Nat) := do
  let p ← scanUp (belowPivot cmp pivot) (first + 1)
  let q ← if p - 1 = first then scanDownGuarded (notBelowPivot cmp pivot) p last
    else scanDown (notBelowPivot cmp pivot) last
  pure (p, q)

/-- pdqsort.h 375-379: returns `first`. -/
def prLoop (pivot : α) (first last : Nat) : M α Nat := do
  if first < last then
    swap first last
    let first ← scanUp (belowPivot cmp pivot) (first + 1)
    let last ← scanDown (notBelowPivot cmp pivot) last
    prLoop pivot first last
  else
    pure first
partial_fixpoint

/-- pdqsort.h 342-387. -/
def partitionRight (first last : Nat) : M α (Nat × Bool) := do
  let pivot ← moveOut first
  let (p, q) ← prScan cmp pivot first last
  let p' ← prLoop cmp pivot p q
  moveTo first (p' - 1)
  assign (p' - 1) pivot
  pure (p' - 1, decide (q ≤ p))

/-- The arrays `offsets_l` and `offsets_r` (pdqsort.h 227-237, `block_size` is 64): `none` is an
element not written yet. -/
abbrev Offsets := Nat → Option Nat

/-- `offsets[k] = i`: writing outside of the array is an error. -/
def setOffset (o : Offsets) (k i : Nat) : M α Offsets :=
  if k < 64 then pure (fun j => if j = k then some i else o j) else fail .deref

/-- Reading `offsets[k]`: reading outside of the array or an element not written is an error. -/
def getOffset (o : Offsets) (k : Nat) : M α Nat :=
  match o k with
  | some i => if k < 64 then pure i else fail .deref
  | none => fail .deref

/-- pdqsort.h 166-171. -/
def swapOffsetsSwap (first last startL startR : Nat) (offL offR : Offsets) : Nat → Nat → M α Unit
  | 0, _ => pure ()
  | n + 1, i => do
    let a ← getOffset offL (startL + i)
    let b ← getOffset offR (startR + i)
    swap (first + a) (last - b)
    swapOffsetsSwap first last startL startR offL offR n (i + 1)

/-- pdqsort.h 177-182: returns `r`. -/
def swapOffsetsCycle (first last startL startR : Nat) (offL offR : Offsets) :
    Nat → Nat → Nat → M α Nat
  | 0, _, r => pure r
  | n + 1, i, r => do
    let a ← getOffset offL (startL + i)
    moveTo r (first + a)
    let b ← getOffset offR (startR + i)
    moveTo (first + a) (last - b)
    swapOffsetsCycle first last startL startR offL offR n (i + 1) (last - b)

/-- pdqsort.h 157-185: the pointers `offsets_l`, `offsets_r` are an array and a start index. -/
def swapOffsets (first last startL startR : Nat) (offL offR : Offsets) (num : Nat)
    (useSwaps : Bool) : M α Unit := do
  if useSwaps then
    swapOffsetsSwap first last startL startR offL offR num 0
  else if 0 < num then
    let a ← getOffset offL startL
    let b ← getOffset offR startR
    let tmp ← moveOut (first + a)
    moveTo (first + a) (last - b)
    let r ← swapOffsetsCycle first last startL startR offL offR (num - 1) 1 (last - b)
    assign r tmp
  else
    pure ()

/-- pdqsort.h 252-270: `n` more elements to look at; returns the array, `num_l` and `first`. -/
def fillLeft (pivot : α) : Nat → Nat → Offsets → Nat → Nat → M α (Offsets × Nat × Nat)
  | 0, _, o, num, first => pure (o, num, first)
  | n + 1, i, o, num, first => do
    let o ← setOffset o num i
    let b ← notBelowPivot cmp pivot first
    fillLeft pivot n (i + 1) o (if b then num + 1 else num) (first + 1)

/-- pdqsort.h 272-288: returns the array, `num_r` and `last`. -/
def fillRight (pivot : α) : Nat → Nat → Offsets → Nat → Nat → M α (Offsets × Nat × Nat)
  | 0, _, o, num, last => pure (o, num, last)
  | n + 1, i, o, num, last => do
    let o ← setOffset o num (i + 1)
    let b ← belowPivot cmp pivot (last - 1)
    fillRight pivot n (i + 1) o (if b then num + 1 else num) (last - 1)

/-- The variables of the block loop (pdqsort.h 240-243). -/
structure Blk where
  first : Nat
  last : Nat
  baseL : Nat
  baseR : Nat
  numL : Nat
  numR : Nat
  startL : Nat
  startR : Nat
  offL : Offsets
  offR : Offsets

/-- pdqsort.h 246-250: sizes of the parts to classify, cut to the block size. -/
def splitSizes (b : Blk) : Nat × Nat :=
  let unknown := b.last - b.first
  let left := if b.numL = 0 then (if b.numR = 0 then unknown / 2 else unknown) else 0
  let right := if b.numR = 0 then unknown - left else 0
  (if 64 ≤ left then 64 else left, if 64 ≤ right then 64 else right)

/-- pdqsort.h 290-308. -/
def blkSwap (b : Blk) : M α Blk := do
  let num := min b.numL b.numR
  swapOffsets b.baseL b.baseR b.startL b.startR b.offL b.offR num (b.numL == b.numR)
  pure { b with
    numL := b.numL - num, numR := b.numR - num
    startL := if b.numL - num = 0 then 0 else b.startL + num
    baseL := if b.numL - num = 0 then b.first else b.baseL
    startR := if b.numR - num = 0 then 0 else b.startR + num
    baseR := if b.numR - num = 0 then b.last else b.baseR }

/-- pdqsort.h 245-309: the `while (first < last)` loop. -/
def blkLoop (pivot : α) (b : Blk) : M α Blk := do
  if b.first < b.last then
    let (offL, numL, first) ← fillLeft cmp pivot (splitSizes b).1 0 b.offL b.numL b.first
    let (offR, numR, last) ← fillRight cmp pivot (splitSizes b).2 0 b.offR b.numR b.last
    let b ← blkSwap { b with first, last, numL, numR, offL, offR }
    blkLoop pivot b
  else
    pure b
partial_fixpoint

/-- pdqsort.h 312-318 (with `offsets_l` advanced by `start_l`): returns `last`. -/
def drainLeft (base start : Nat) (o : Offsets) : Nat → Nat → M α Nat
  | 0, last => pure last
  | n + 1, last => do
    let a ← getOffset o (start + n)
    swap (base + a) (last - 1)
    drainLeft base start o n (last - 1)

/-- pdqsort.h 319-326: returns `first`. -/
def drainRight (base start : Nat) (o : Offsets) : Nat → Nat → M α Nat
  | 0, first => pure first
  | n + 1, first => do
    let a ← getOffset o (start + n)
    swap (base - a) first
    drainRight base start o n (first + 1)

/-- pdqsort.h 311-326: when both counts are zero `first` is left alone.  After `num_l` elements were
moved, `num_r` is zero. -/
def blkDrain (b : Blk) : M α Nat := do
  let first ← if b.numL ≠ 0 then drainLeft b.baseL b.startL b.offL b.numL b.last else pure b.first
  if b.numR ≠ 0 then drainRight b.baseR b.startR b.offR b.numR first else pure first

/-- pdqsort.h 218-327. -/
def branchlessLoop (pivot : α) (first last : Nat) : M α Nat := do
  if first < last then
    swap first last
    let b ← blkLoop cmp pivot ⟨first + 1, last, first + 1, last, 0, 0, 0, 0, fun _ => none,
      fun _ => none⟩
    blkDrain b
  else
    pure first

/-- pdqsort.h 192-335. -/
def partitionRightBranchless (first last : Nat) : M α (Nat × Bool) := do
  let pivot ← moveOut first
  let (p, q) ← prScan cmp pivot first last
  let p' ← branchlessLoop cmp pivot p q
  moveTo first (p' - 1)
  assign (p' - 1) pivot
  pure (p' - 1, decide (q ≤ p))

/-- pdqsort.h 411-415: returns `last`. -/
def plLoop (pivot : α) (first last : Nat) : M α Nat := do
  if first < last then
    swap first last
    let last ← scanDown (abovePivot cmp pivot) last
    let first ← scanUp (notAbovePivot cmp pivot) (first + 1)
    plLoop pivot first last
  else
    pure last
partial_fixpoint

/-- pdqsort.h 403-409. -/
def plScan (pivot : α) (first last : Nat) : M α (Nat × Nat) := do
  let q ← scanDown (abovePivot cmp pivot) last
  let p ← if q + 1 = last then scanUpGuarded (notAbovePivot cmp pivot) first q
    else scanUp (notAbovePivot cmp pivot) (first + 1)
  pure (p, q)

/-- pdqsort.h 391-422. -/
def partitionLeft (first last : Nat) : M α Nat := do
  let pivot ← moveOut first
  let (p, q) ← plScan cmp pivot first last
  let q ← plLoop cmp pivot p q
  moveTo first q
  assign q pivot
  pure q

/-- pdqsort.h 458-468: choice of the pivot. -/
def pdqPivot (first last : Nat) : M α Unit := do
  let size := last - first
  let s2 := size / 2
  if 128 < size then
    let _ ← iterSort3 cmp first (first + s2) (last - 1)
    let _ ← iterSort3 cmp (first + 1) (first + (s2 - 1)) (last - 2)
    let _ ← iterSort3 cmp (first + 2) (first + (s2 + 1)) (last - 3)
    let _ ← iterSort3 cmp (first + (s2 - 1)) (first + s2) (first + (s2 + 1))
    swap first (first + s2)
  else
    let _ ← iterSort3 cmp (first + s2) first (last - 1)
    pure ()

/-- pdqsort.h 501-511: shuffle of the left part. -/
def pdqBreakLeft (first pivotPos : Nat) : M α Unit := do
  let lSize := pivotPos - first
  if 24 ≤ lSize then
    swap first (first + lSize / 4)
    swap (pivotPos - 1) (pivotPos - lSize / 4)
    if 128 < lSize then
      swap (first + 1) (first + (lSize / 4 + 1))
      swap (first + 2) (first + (lSize / 4 + 2))
      swap (pivotPos - 2) (pivotPos - (lSize / 4 + 1))
      swap (pivotPos - 3) (pivotPos - (lSize / 4 + 2))
    else
      pure ()
  else
    pure ()

/-- pdqsort.h 513-523: shuffle of the right part. -/
def pdqBreakRight (pivotPos last : Nat) : M α Unit := do
  let rSize := last - (pivotPos + 1)
  if 24 ≤ rSize then
    swap (pivotPos + 1) (pivotPos + (1 + rSize / 4))
    swap (last - 1) (last - rSize / 4)
    if 128 < rSize then
      swap (pivotPos + 2) (pivotPos + (2 + rSize / 4))
      swap (pivotPos + 3) (pivotPos + (3 + rSize / 4))
      swap (last - 2) (last - (1 + rSize / 4))
      swap (last - 3) (last - (2 + rSize / 4))
    else
      pure ()
  else
    pure ()

/-- pdqsort.h 527-531: `already_partitioned && partial_insertion_sort(..) &&
partial_insertion_sort(..)`. -/
def pdqTryInsertion (already : Bool) (first pivotPos last : Nat) : M α Bool := do
  if already then
    if ← partialInsertionSort cmp first pivotPos then
      partialInsertionSort cmp (pivotPos + 1) last
    else pure false
  else pure false

/-- pdqsort.h 480-485: the choice between the two partition functions. -/
def pdqPartition (branchless : Bool) (first last : Nat) : M α (Nat × Bool) :=
  if branchless then partitionRightBranchless cmp first last else partitionRight cmp first last

/-- pdqsort.h 475: `!leftmost && !comp(proj(*(begin - 1)), proj(*begin))`. -/
def pdqEqualPivot (leftmost : Bool) (first : Nat) : M α Bool := do
  if leftmost then pure false
  else
    return ! (← cmp (← read (first - 1)) (← read first))

/-- pdqsort.h 425-540.  `bad_allowed` is an `int`; it starts at `log2(size)`, decreases by one at a
time, and the function returns when it reaches zero. -/
def pdqsortLoop (branchless : Bool) (first last : Nat) (badAllowed : Int) (leftmost : Bool) :
    M α Unit := do
  if last - first < 24 then
    if leftmost then insertionSort cmp first last
    else unguardedInsertionSort cmp first last
  else
    pdqPivot cmp first last
    if ← pdqEqualPivot cmp leftmost first then
      let p ← partitionLeft cmp first last
      pdqsortLoop branchless (p + 1) last badAllowed leftmost
    else
      let (pivotPos, already) ← pdqPartition cmp branchless first last
      if pivotPos - first < (last - first) / 8 ∨ last - (pivotPos + 1) < (last - first) / 8 then
        if badAllowed - 1 = 0 then
          heapsort cmp first last
        else
          pdqBreakLeft first pivotPos
          pdqBreakRight pivotPos last
          pdqsortLoop branchless first pivotPos (badAllowed - 1) leftmost
          pdqsortLoop branchless (pivotPos + 1) last (badAllowed - 1) false
      else
        if ← pdqTryInsertion cmp already first pivotPos last then
          pure ()
        else
          pdqsortLoop branchless first pivotPos badAllowed leftmost
          pdqsortLoop branchless (pivotPos + 1) last badAllowed false
partial_fixpoint

/-- pdqsort.h 543-555.  `branchless` is `is_branchless` (436-438). -/
def pdqsort (branchless : Bool) (first last : Nat) : M α Unit :=
  if last - first < 2 then pure ()
  else pdqsortLoop cmp branchless first last (Nat.log2 (last - first)) true

end CppSort
