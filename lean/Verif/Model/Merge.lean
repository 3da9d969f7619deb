import Verif.Model.Insertion
import Verif.Model.Rotate
/-
detail/lower_bound.h, detail/upper_bound.h, detail/merge_move.h, detail/buffered_inplace_merge.h,
detail/recmerge_bidirectional.h, detail/recmerge_forward.h, detail/symmerge.h, detail/memory.h
(temporary_buffer), detail/inplace_merge.h, detail/bubble_sort.h, detail/merge_sort.h
-/
set_option autoImplicit false

namespace CppSort
variable {α : Type} (cmp : α → α → M α Bool)

/-- comparators/flip.h: `flip(compare)`. -/
def flipC (cmp : α → α → M α Bool) : α → α → M α Bool := fun x y => cmp y x

/-- comparators/not_fn.h: `not_fn(compare)`. -/
def notC (cmp : α → α → M α Bool) : α → α → M α Bool := fun x y => do
  let b ← cmp x y
  pure (!b)

/-- lower_bound.h 23-40. -/
def lowerBoundN (first size : Nat) (value : α) : M α Nat := do
  if size > 0 then
    let it := first + size / 2
    if ← cmp (← read it) value then
      lowerBoundN (it + 1) (size - (size / 2 + 1)) value
    else
      lowerBoundN first (size / 2) value
  else
    pure first
partial_fixpoint

/-- upper_bound.h 24-34. -/
def upperBoundN (first size : Nat) (value : α) : M α Nat :=
  lowerBoundN (notC (flipC cmp)) first size value

/-- lower_bound.h 44-51. -/
def lowerBound (first last : Nat) (value : α) : M α Nat :=
  lowerBoundN cmp first (last - first) value

/-- upper_bound.h 38-48. -/
def upperBound (first last : Nat) (value : α) : M α Nat :=
  upperBoundN cmp first (last - first) value

/-- lower_bound.h 66-72: the loop of `lower_monobound_n`. -/
def lowerMonoboundLoop (first size : Nat) (value : α) : M α Nat := do
  if size > 1 then
    let it := first + size / 2
    if ← cmp (← read it) value then
      lowerMonoboundLoop it (size - size / 2) value
    else
      lowerMonoboundLoop first (size - size / 2) value
  else
    pure first
partial_fixpoint

/-- lower_bound.h 55-78. -/
def lowerMonoboundN (first size : Nat) (value : α) : M α Nat := do
  if size = 0 then pure first
  else
    let first ← lowerMonoboundLoop cmp first size value
    if ← cmp (← read first) value then pure (first + 1) else pure first

/-- merge_move.h 46-64: the loop; positions of the three iterators denote the addresses `d1 k`,
`d2 k` and `dr k`. -/
def mergeMoveLoop (d1 d2 dr : Nat → Nat) (first1 last1 first2 last2 result : Nat) : M α Nat := do
  if ← cmp (← read (d2 first2)) (← read (d1 first1)) then
    moveTo (dr result) (d2 first2)
    if first2 + 1 = last2 then moveRange d1 dr first1 last1 (result + 1)
    else mergeMoveLoop d1 d2 dr first1 last1 (first2 + 1) last2 (result + 1)
  else
    moveTo (dr result) (d1 first1)
    if first1 + 1 = last1 then moveRange d2 dr first2 last2 (result + 1)
    else mergeMoveLoop d1 d2 dr (first1 + 1) last1 first2 last2 (result + 1)
partial_fixpoint

/-- merge_move.h 24-65. -/
def mergeMove (d1 d2 dr : Nat → Nat) (first1 last1 first2 last2 result : Nat) : M α Nat :=
  if first1 = last1 then moveRange d2 dr first2 last2 result
  else if first2 = last2 then moveRange d1 dr first1 last1 result
  else mergeMoveLoop cmp d1 d2 dr first1 last1 first2 last2 result

/-- buffered_inplace_merge.h 52-63: the first loop, returning `first1`, `first2`, `result`.  The
second source and the result are iterators of the same kind (`d`). -/
def halfMergeBlind (d1 d : Nat → Nat) (first1 first2 result minLen : Nat) :
    M α (Nat × Nat × Nat) := do
  if minLen ≠ 0 then
    if ← cmp (← read (d first2)) (← read (d1 first1)) then
      moveTo (d result) (d first2)
      halfMergeBlind d1 d first1 (first2 + 1) (result + 1) (minLen - 1)
    else
      moveTo (d result) (d1 first1)
      halfMergeBlind d1 d (first1 + 1) first2 (result + 1) (minLen - 1)
  else
    pure (first1, first2, result)
partial_fixpoint

/-- buffered_inplace_merge.h 75-95: the second loop. -/
def halfMergeLoop (d1 d : Nat → Nat) (first1 last1 first2 last2 result : Nat) : M α Unit := do
  if ← cmp (← read (d first2)) (← read (d1 first1)) then
    moveTo (d result) (d first2)
    if first2 + 1 = last2 then
      let _ ← moveRange d1 d first1 last1 (result + 1)
      pure ()
    else halfMergeLoop d1 d first1 last1 (first2 + 1) last2 (result + 1)
  else
    moveTo (d result) (d1 first1)
    if first1 + 1 = last1 then pure ()
    else halfMergeLoop d1 d (first1 + 1) last1 first2 last2 (result + 1)
partial_fixpoint

/-- buffered_inplace_merge.h 42-96. -/
def halfInplaceMerge (d1 d : Nat → Nat) (first1 last1 first2 last2 result minLen : Nat) :
    M α Unit := do
  let (first1, first2, result) ← halfMergeBlind cmp d1 d first1 first2 result minLen
  if first1 = last1 then pure ()
  else if first2 = last2 then
    let _ ← moveRange d1 d first1 last1 result
    pure ()
  else halfMergeLoop cmp d1 d first1 last1 first2 last2 result

/-- buffered_inplace_merge.h 103-128, for element types that are not trivial (the trivial case
assigns instead of constructing and omits the destructor calls); `destroyN` is the destructor of
the guard `h2`.  Reverse iterators are positions counted from the end (`rev`). -/
def bufferedInplaceMerge (first middle last len1 len2 buff : Nat) : M α Unit := do
  if len1 ≤ len2 then
    let ptr ← uninitMove first middle buff
    halfInplaceMerge cmp id id buff ptr middle last first len1
    destroyN buff (ptr - buff)
  else
    let ptr ← uninitMove middle last buff
    halfInplaceMerge (flipC cmp) (rev ptr) (rev last) 0 (ptr - buff) (last - middle) (last - first)
      0 len2
    destroyN buff (ptr - buff)

/-- recmerge_bidirectional.h 64-69: shrinking `[first, middle)`; `none` when it shrinks to 0. -/
def recShrink (first middle len1 : Nat) : M α (Option (Nat × Nat)) := do
  if len1 = 0 then pure none
  else if ← cmp (← read middle) (← read first) then pure (some (first, len1))
  else recShrink (first + 1) middle (len1 - 1)
partial_fixpoint

/-- recmerge_bidirectional.h 83-104: where to cut, as `(m1, m2, len11, len21)`; `none` after the
exchange of two single elements. -/
def recCut (first middle last len1 len2 : Nat) : M α (Option (Nat × Nat × Nat × Nat)) := do
  if len1 < len2 then
    let len21 := len2 / 2
    let m2 := middle + len21
    let m1 ← upperBound cmp first middle (← read m2)
    pure (some (m1, m2, m1 - first, len21))
  else if len1 = 1 then
    swap first middle
    pure none
  else
    let len11 := len1 / 2
    let m1 := first + len11
    let m2 ← lowerBound cmp middle last (← read m1)
    pure (some (m1, m2, len11, m2 - middle))

/-- recmerge_bidirectional.h 40-132. -/
def recmergeBi (c : Cfg) (first middle last len1 len2 buff buffSize : Nat) : M α Unit := do
  if len2 = 0 then pure ()
  else if len1 ≤ buffSize ∨ len2 ≤ buffSize then
    bufferedInplaceMerge cmp first middle last len1 len2 buff
  else
    match ← recShrink cmp first middle len1 with
    | none => pure ()
    | some (first, len1) =>
      match ← recCut cmp first middle last len1 len2 with
      | none => pure ()
      | some (m1, m2, len11, len21) =>
        let len12 := len1 - len11
        let len22 := len2 - len21
        let middle ← rotate c m1 middle m2
        if len11 + len21 < len12 + len22 then
          recmergeBi c first m1 middle len11 len21 buff buffSize
          recmergeBi c middle m2 last len12 len22 buff buffSize
        else
          recmergeBi c middle m2 last len12 len22 buff buffSize
          recmergeBi c first m1 middle len11 len21 buff buffSize
partial_fixpoint

/-- recmerge_forward.h 50-70: `(f0_1, n0_0, n0_1, f1_0, n1_0, f1_1, n1_1)`; `f0_0` is `f0`. -/
def mergeStep0 (c : Cfg) (f0 n0 f1 n1 : Nat) : M α (Nat × Nat × Nat × Nat × Nat × Nat × Nat) := do
  let n00 := n0 / 2
  let f01 := f0 + n00
  let f11 ← lowerBoundN cmp f1 n1 (← read f01)
  let f10 ← rotate c f01 f1 f11
  let n01 := f10 - f01
  pure (f01, n00, n01, f10 + 1, n0 - n00 - 1, f11, n1 - n01)

/-- recmerge_forward.h 73-93, same result. -/
def mergeStep1 (c : Cfg) (f0 n0 f1 n1 : Nat) : M α (Nat × Nat × Nat × Nat × Nat × Nat × Nat) := do
  let n01 := n1 / 2
  let f11 := f1 + n01
  let f01 ← upperBoundN cmp f0 n0 (← read f11)
  let f11 := f11 + 1
  let f10 ← rotate c f01 f1 f11
  let n00 := f01 - f0
  pure (f01, n00, n01, f10, n0 - n00, f11, n1 - n01 - 1)

/-- recmerge_forward.h 97-147. -/
def recmergeFwd (c : Cfg) (f0 n0 f1 n1 buff buffSize : Nat) : M α Unit := do
  if n0 = 0 ∨ n1 = 0 then pure ()
  else if n0 ≤ buffSize then
    let ptr ← uninitMove f0 f1 buff
    halfInplaceMerge cmp id id buff ptr f1 (f1 + n1) f0 n0
    destroyN buff (ptr - buff)
  else
    let (f01, n00, n01, f10, n10, f11, n11) ←
      if n0 < n1 then mergeStep0 cmp c f0 n0 f1 n1 else mergeStep1 cmp c f0 n0 f1 n1
    recmergeFwd c f0 n00 f01 n01 buff buffSize
    recmergeFwd c f10 n10 f11 n11 buff buffSize
partial_fixpoint

/-- symmerge.h 27-46. -/
def symmergeBsearch (arr l r p : Nat) : M α Nat := do
  if l < r then
    let m := l + (r - l) / 2
    if !(← cmp (← read (arr + (p - m))) (← read (arr + m))) then
      symmergeBsearch arr (m + 1) r p
    else
      symmergeBsearch arr l m p
  else
    pure l
partial_fixpoint

/-- symmerge.h 50-86. -/
def symmerge (c : Cfg) (arr first middle last len1 len2 buff buffSize : Nat) : M α Unit := do
  if len1 > 0 ∧ len2 > 0 then
    if len1 ≤ buffSize ∨ len2 ≤ buffSize then
      bufferedInplaceMerge cmp (arr + first) (arr + middle) (arr + last) len1 len2 buff
    else
      let m := first + (last - first) / 2
      let n := m + middle
      let start ←
        if middle > m then symmergeBsearch cmp arr (n - last) m (n - 1)
        else symmergeBsearch cmp arr first middle (n - 1)
      let e := n - start
      let _ ← rotate c (arr + start) (arr + middle) (arr + e)
      symmerge c arr first start m (start - first) (m - start) buff buffSize
      symmerge c arr m e last (e - m) (last - e) buff buffSize
  else
    pure ()
partial_fixpoint

/-- memory.h 194-283: `temporary_buffer` (pointer and size). -/
structure Buf where
  ptr : Nat
  size : Nat

/-- A null `temporary_buffer`. -/
def Buf.null : Buf := ⟨0, 0⟩

/-- memory.h 154-176: the allocation loop; the environment decides (`askGrant`) how many elements
the no-throw allocation can currently provide.  The clamping of `count` to `PTRDIFF_MAX` bytes is
not modelled. -/
def getTemporaryBuffer (count minCount : Nat) : M α (Option Buf) := do
  if count > minCount then
    let g ← askGrant
    if count ≤ g then
      let p ← alloc count
      pure (some ⟨p, count⟩)
    else
      getTemporaryBuffer (count / 2) minCount
  else
    pure none
partial_fixpoint

/-- memory.h 226-231: `temporary_buffer(count)`. -/
def newBuf (count : Nat) : M α Buf := do
  match ← getTemporaryBuffer count 0 with
  | some b => pure b
  | none => pure Buf.null

/-- memory.h 233-236, 178-189: the destructor. -/
def Buf.release (b : Buf) : M α Unit := free b.ptr b.size

/-- memory.h 264-277: `try_grow`. -/
def Buf.tryGrow (b : Buf) (count : Nat) : M α Buf := do
  match ← getTemporaryBuffer count b.size with
  | none => pure b
  | some nb =>
    free b.ptr b.size
    pure nb

/-- inplace_merge.h 34-90: the overloads taking a buffer.  The forward overload calls `recmerge`
without a tag (45-47). -/
def inplaceMergeBuf (c : Cfg) (first middle last len1 len2 buff buffSize : Nat) : M α Unit :=
  match c.cat with
  | .forward => recmergeFwd cmp c first len1 middle len2 buff buffSize
  | .bidirectional => recmergeBi cmp c first middle last len1 len2 buff buffSize
  | .random => symmerge cmp c first 0 (middle - first) (last - first) len1 len2 buff buffSize

/-- inplace_merge.h 107-109, 150-152, merge_sort.h 57-60, 109-112: skipping the elements of the left
part that are already in place. -/
def skipLeft (first middle : Nat) : M α Nat := do
  if first ≠ middle then
    if !(← cmp (← read middle) (← read first)) then skipLeft (first + 1) middle
    else pure first
  else
    pure first
partial_fixpoint

/-- inplace_merge.h 96-164: the overloads allocating the buffer. -/
def inplaceMerge (c : Cfg) (first middle last : Nat) : M α Unit := do
  let first ← skipLeft cmp first middle
  if first = middle then pure ()
  else
    let len1 := middle - first
    let len2 := last - middle
    let b ← newBuf (match c.cat with
      | .forward => max len1 len2
      | _ => min len1 len2)
    inplaceMergeBuf cmp c first middle last len1 len2 b.ptr b.size
    b.release

/-- bubble_sort.h 39-43: the inner loop (`i` runs up to `size`, `current = first + i`). -/
def bubblePass (current i size : Nat) : M α Unit := do
  if i < size then
    iterSwapIf cmp current (current + 1)
    bubblePass (current + 1) (i + 1) size
  else
    pure ()
partial_fixpoint

/-- bubble_sort.h 36-44: the outer loop. -/
def bubbleLoop (first size : Nat) : M α Unit := do
  let size := size - 1
  if size ≠ 0 then
    bubblePass cmp first 0 size
    bubbleLoop first size
  else
    pure ()
partial_fixpoint

/-- bubble_sort.h 30-45. -/
def bubbleSort (first size : Nat) : M α Unit :=
  if size < 2 then pure () else bubbleLoop cmp first size

/-- merge_sort.h 26-74 (forward iterators). -/
def mergeSortFwd (c : Cfg) (first size : Nat) (buffer : Buf) : M α Buf := do
  if size < 14 then
    bubbleSort cmp first size
    pure buffer
  else
    let sizeLeft := size / 2
    let middle := first + sizeLeft
    let buffer ← mergeSortFwd c first sizeLeft buffer
    let buffer ← mergeSortFwd c middle (size - sizeLeft) buffer
    let first' ← skipLeft cmp first middle
    if first' = middle then pure buffer
    else
      let sizeLeft := sizeLeft - (first' - first)
      let buffer ← buffer.tryGrow (size - size / 2)
      recmergeFwd cmp c first' sizeLeft middle (size - size / 2) buffer.ptr buffer.size
      pure buffer
partial_fixpoint

/-- merge_sort.h 77-127 (bidirectional and random-access iterators). -/
def mergeSortBi (c : Cfg) (first last size : Nat) (buffer : Buf) : M α Buf := do
  if size < 40 then
    insertionSort cmp first last
    pure buffer
  else
    let sizeLeft := size / 2
    let middle := first + sizeLeft
    let buffer ← mergeSortBi c first middle sizeLeft buffer
    let buffer ← mergeSortBi c middle last (size - sizeLeft) buffer
    let first' ← skipLeft cmp first middle
    if first' = middle then pure buffer
    else
      let sizeLeft := sizeLeft - (first' - first)
      let buffer ← buffer.tryGrow sizeLeft
      inplaceMergeBuf cmp c first' middle last sizeLeft (size - size / 2) buffer.ptr buffer.size
      pure buffer
partial_fixpoint

/-- merge_sort.h 130-175; the buffer is released by its destructor. -/
def mergeSort (c : Cfg) (first last : Nat) : M α Unit := do
  let size := last - first
  match c.cat with
  | .forward =>
    if size < 14 then bubbleSort cmp first size
    else
      let b ← mergeSortFwd cmp c first size Buf.null
      b.release
  | _ =>
    if size < 40 then insertionSort cmp first last
    else
      let b ← mergeSortBi cmp c first last size Buf.null
      b.release

end CppSort
