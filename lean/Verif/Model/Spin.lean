import Verif.Model.Merge
import Verif.Model.Insertion
/-
detail/is_sorted_until.h, boost_common/range.h, boost_common/util/merge.h and detail/spinsort.h.
-/
set_option autoImplicit false

namespace CppSort
variable {α : Type} (cmp : α → α → M α Bool)

/-- is_sorted_until.h 26-32: the loop; `next` follows `first`. -/
def isSortedUntilLoop (first last : Nat) : M α Nat := do
  let next := first + 1
  if next ≠ last then
    if ← cmp (← read next) (← read first) then pure next
    else isSortedUntilLoop next last
  else pure last
partial_fixpoint

/-- is_sorted_until.h 18-35. -/
def isSortedUntil (first last : Nat) : M α Nat :=
  if first ≠ last then isSortedUntilLoop cmp first last else pure last

/-- boost_common/util/merge.h 53-85, range.h 174-183 (`merge`). -/
def spinMerge (buf1 end1 buf2 end2 out : Nat) : M α Unit := do
  let done ← (do
    if (end1 - buf1) + (end2 - buf2) ≥ 1024 then
      if buf1 = end1 then
        let _ ← moveRange id id buf2 end2 out
        pure true
      else if buf2 = end2 then
        let _ ← moveRange id id buf1 end1 out
        pure true
      else if !(← cmp (← read buf2) (← read (end1 - 1))) then
        let mid ← moveRange id id buf1 end1 out
        let _ ← moveRange id id buf2 end2 mid
        pure true
      else if ← cmp (← read (end2 - 1)) (← read buf1) then
        let mid ← moveRange id id buf2 end2 out
        let _ ← moveRange id id buf1 end1 mid
        pure true
      else pure false
    else pure false : M α Bool)
  if done then pure ()
  else
    let _ ← mergeMove cmp id id id buf1 end1 buf2 end2 out
    pure ()

/-- boost_common/util/merge.h 105-139, range.h 198-207 (`merge_half`).  The last argument of
`half_inplace_merge` is the size of the first buffer. -/
def spinMergeHalf (buf1 end1 buf2 end2 out : Nat) : M α Unit := do
  let done ← (do
    if (end1 - buf1) + (end2 - buf2) ≥ 1024 then
      if buf1 = end1 then pure true
      else if buf2 = end2 then
        let _ ← moveRange id id buf1 end1 out
        pure true
      else if !(← cmp (← read buf2) (← read (end1 - 1))) then
        let _ ← moveRange id id buf1 end1 out
        pure true
      else if ← cmp (← read (end2 - 1)) (← read buf1) then
        let mid ← moveRange id id buf2 end2 out
        let _ ← moveRange id id buf1 end1 mid
        pure true
      else pure false
    else pure false : M α Bool)
  if done then pure ()
  else halfInplaceMerge cmp id id buf1 end1 buf2 end2 out (end1 - buf1)

/-- spinsort.h 95-99: the positions `viter[i]`, ... of the elements `data + i`, ... -/
def insertBounds (linf lsup data i ndata : Nat) : M α (List Nat) := do
  if i < ndata then
    let it1 ← upperBound cmp linf lsup (← read (data + i))
    let rest ← insertBounds it1 lsup data (i + 1) ndata
    pure (it1 :: rest)
  else pure []
partial_fixpoint

/-- spinsort.h 103-111.  The inner loop is that of `move_backward`. -/
def insertShift (viter : List Nat) (data : Nat) : Nat → M α Unit
  | 0 => pure ()
  | i + 1 => do
    match viter[i + 1]?, viter[i]? with
    | some src, some limit =>
      let _ ← moveBackward limit src (src + (i + 1))
      moveTo (limit + i) (data + i)
      insertShift viter data i
    | _, _ => fail .deref

/-- spinsort.h 67-112.  The `immovable_vector` of iterators is a list. -/
def insertPartialSort (first mid last aux : Nat) : M α Unit := do
  if mid = last ∨ first = mid then pure ()
  else
    let _ ← moveRange id id mid last aux
    let ndata := last - mid
    let viter ← insertBounds cmp first mid aux 0 ndata
    insertShift (viter ++ [mid]) aux ndata

/-- swap_ranges.h 32-44, for a second range of reverse iterators: `first2` is the base. -/
def swapRangesRev (first1 last1 first2 : Nat) : M α Unit := do
  if first1 ≠ last1 then
    swap first1 (first2 - 1)
    swapRangesRev (first1 + 1) last1 (first2 - 1)
  else pure ()
partial_fixpoint

mutual

/-- spinsort.h 131-177: the range `[first, last)` of data and the auxiliary range from `aux` on. -/
def checkStableSort (first last aux auxLast : Nat) : M α Bool := do
  let ndata := last - first
  if ndata < 32 then
    insertionSort cmp first last
    pure true
  else
    let minInsert := if ndata / 8 < 33 then 32 else ndata / 8
    let it ← isSortedUntil cmp first last
    if it = last then pure true
    else if last - it < minInsert then
      sortRangeSort it last aux auxLast
      insertPartialSort cmp first it last aux
      pure true
    else if it ≠ first + 1 then pure false
    else
      let it ← isSortedUntil (notC cmp) first last
      if last - it ≥ minInsert then pure false
      else
        let nreverse := it - first
        let mid := first + nreverse / 2
        swapRangesRev first mid it
        if it ≠ last then
          sortRangeSort it last aux auxLast
          insertPartialSort cmp first it last aux
          pure true
        else pure true
partial_fixpoint

/-- spinsort.h 196-238. -/
def rangeSort (first1 last1 first2 last2 level : Nat) : M α Unit := do
  let done ← (do
    if last1 - first1 > 1024 then
      if level % 2 = 0 then checkStableSort first2 last2 first1 last1
      else
        if ← checkStableSort first1 last1 first2 last2 then
          let _ ← moveRange id id first1 last1 first2
          pure true
        else pure false
    else pure false : M α Bool)
  if done then pure ()
  else
    let nelem1 := (last1 - first1 + 1) / 2
    if level < 2 then
      insertionSort cmp first1 (first1 + nelem1)
      insertionSort cmp (first1 + nelem1) last1
    else
      rangeSort first2 (first2 + nelem1) first1 (first1 + nelem1) (level - 1)
      rangeSort (first2 + nelem1) last2 (first1 + nelem1) last1 (level - 1)
    spinMerge cmp first1 (first1 + nelem1) (first1 + nelem1) last1 first2
partial_fixpoint

/-- spinsort.h 249-276. -/
def sortRangeSort (first last aux auxLast : Nat) : M α Unit := do
  let size := last - first
  if size ≤ 32 then insertionSort cmp first last
  else
    let nlevel1 := (size + 31) / 32 - 1
    let nlevel := Nat.log2 nlevel1 + 1
    if nlevel % 2 = 0 then rangeSort aux (aux + size) first last nlevel
    else
      rangeSort first last aux (aux + size) nlevel
      let _ ← moveRange id id aux (aux + size) first
      pure ()
partial_fixpoint

end

/-- spinsort.h 343-344: the number of levels. -/
def spinLevels (size : Nat) : Nat := Nat.log2 ((size + 35) / 36 - 1)

/-- spinsort.h 312-381.  The buffer is given back and its elements destroyed by the destructors of the two
`unique_ptr`s; this is not modelled for the case where an exception leaves the function. -/
def spinsort (first last : Nat) : M α Unit := do
  let size := last - first
  if size ≤ 72 then insertionSort cmp first last
  else
    let nelem1 := (size + 1) / 2
    let nelem2 := size - nelem1
    let buffer ← alloc nelem1
    let nlevel := spinLevels size
    if nlevel % 2 = 1 then
      let _ ← uninitMove (first + nelem2) last buffer
      rangeSort cmp buffer (buffer + nelem1) (first + nelem2) last nlevel
      rangeSort cmp first (first + nelem2) buffer (buffer + nelem2) nlevel
      spinMergeHalf cmp buffer (buffer + nelem2) (first + nelem2) last first
    else
      let _ ← uninitMove first (first + nelem1) buffer
      rangeSort cmp first (first + nelem1) buffer (buffer + nelem1) nlevel
      rangeSort cmp first (first + nelem2) (first + nelem1) last nlevel
      spinMergeHalf cmp buffer (buffer + nelem1) (first + nelem1) last first
    destroyN buffer nelem1
    free buffer nelem1

end CppSort
