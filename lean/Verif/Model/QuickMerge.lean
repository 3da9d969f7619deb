import Verif.Model.Quick
/-
detail/adaptive_quickselect.h, detail/nth_element.h, detail/quick_merge_sort.h
-/
set_option autoImplicit false

namespace CppSort
variable {α : Type} (cmp : α → α → M α Bool)

/-- adaptive_quickselect.h 38-56. -/
def pivotPartition (r k length : Nat) : M α Nat := do
  swap r (r + k)
  let pivotPos ← partition .random
    (fun p => do return ! (← cmp (← read r) (← read p))) r (r + length)
  let pivotPos := pivotPos - 1
  swap r pivotPos
  pure pivotPos

/-- adaptive_quickselect.h 58-79. -/
def medianIndex (r a b c : Nat) : M α Nat := do
  let (a, c) := if ← cmp (← read (r + c)) (← read (r + a)) then (c, a) else (a, c)
  if ← cmp (← read (r + c)) (← read (r + b)) then
    pure c
  else if ← cmp (← read (r + b)) (← read (r + a)) then
    pure a
  else
    pure b

/-- adaptive_quickselect.h 115-166. -/
def ninther (r i1 i2 i3 i4 i5 i6 i7 i8 i9 : Nat) : M α Unit := do
  let i2 ← medianIndex cmp r i1 i2 i3
  let i8 ← medianIndex cmp r i7 i8 i9
  let (i2, i8) := if ← cmp (← read (r + i8)) (← read (r + i2)) then (i8, i2) else (i2, i8)
  let (i4, i6) := if ← cmp (← read (r + i6)) (← read (r + i4)) then (i6, i4) else (i4, i6)
  if ← cmp (← read (r + i5)) (← read (r + i4)) then
    nintherTail r i2 i4 i5 i8
  else if ← cmp (← read (r + i6)) (← read (r + i5)) then
    nintherTail r i2 i6 i5 i8
  else if ← cmp (← read (r + i5)) (← read (r + i2)) then
    swap (r + i5) (r + i2)
  else if ← cmp (← read (r + i8)) (← read (r + i5)) then
    swap (r + i5) (r + i8)
  else
    pure ()
where
  /-- adaptive_quickselect.h 159-165. -/
  nintherTail (r i2 i4 i5 i8 : Nat) : M α Unit := do
    if ← cmp (← read (r + i4)) (← read (r + i2)) then
      swap (r + i5) (r + i2)
    else if ← cmp (← read (r + i8)) (← read (r + i4)) then
      swap (r + i5) (r + i8)
    else
      swap (r + i5) (r + i4)

/-- adaptive_quickselect.h 182-190: first loop of `expand_partition_left`. Result: the pivot position
and, when the loop was not left by `return`, the value of `left`. -/
def epLeft1 (r lo oldPivot left pivot : Nat) : M α (Nat × Option Nat) := do
  if lo < pivot then
    if left = lo then
      swap (r + oldPivot) (r + pivot)
      pure (pivot, none)
    else
      if ← cmp (← read (r + oldPivot)) (← read (r + left)) then
        swap (r + left) (r + (pivot - 1))
        epLeft1 r lo oldPivot (left + 1) (pivot - 1)
      else
        epLeft1 r lo oldPivot (left + 1) pivot
  else
    pure (pivot, some left)
partial_fixpoint

/-- adaptive_quickselect.h 196-206: innermost loop; `none` is the `return`. -/
def epLeftScan (r oldPivot left pivot : Nat) : M α (Nat × Bool) := do
  if left = pivot then
    pure (pivot, false)
  else
    let pivot := pivot - 1
    if ← cmp (← read (r + pivot)) (← read (r + oldPivot)) then
      swap (r + left) (r + pivot)
      pure (pivot, true)
    else
      epLeftScan r oldPivot left pivot
partial_fixpoint

/-- adaptive_quickselect.h 192-210: second loop of `expand_partition_left`, with the final exchange
(which the early `return` performs too). -/
def epLeft2 (r oldPivot left pivot : Nat) : M α Nat := do
  if left = pivot then
    swap (r + oldPivot) (r + pivot)
    pure pivot
  else
    if ← cmp (← read (r + oldPivot)) (← read (r + left)) then
      let (pivot, found) ← epLeftScan cmp r oldPivot left pivot
      if found then
        epLeft2 r oldPivot (left + 1) pivot
      else
        swap (r + oldPivot) (r + pivot)
        pure pivot
    else
      epLeft2 r oldPivot (left + 1) pivot
partial_fixpoint

/-- adaptive_quickselect.h 168-212. -/
def expandPartitionLeft (r lo pivot : Nat) : M α Nat := do
  match ← epLeft1 cmp r lo pivot 0 pivot with
  | (pivot', none) => pure pivot'
  | (pivot', some left) => epLeft2 cmp r pivot left pivot'

/-- adaptive_quickselect.h 229-237: first loop of `expand_partition_right`. -/
def epRight1 (r hi pivot rite : Nat) : M α (Nat × Option Nat) := do
  if pivot < hi then
    if rite = hi then
      swap r (r + pivot)
      pure (pivot, none)
    else
      if ← cmp (← read (r + rite)) (← read r) then
        swap (r + rite) (r + (pivot + 1))
        epRight1 r hi (pivot + 1) (rite - 1)
      else
        epRight1 r hi pivot (rite - 1)
  else
    pure (pivot, some rite)
partial_fixpoint

/-- adaptive_quickselect.h 242-248. -/
def epRightScan (r pivot rite : Nat) : M α Nat := do
  if pivot < rite then
    let pivot := pivot + 1
    if ← cmp (← read r) (← read (r + pivot)) then
      swap (r + rite) (r + pivot)
      pure pivot
    else
      epRightScan r pivot rite
  else
    pure pivot
partial_fixpoint

/-- adaptive_quickselect.h 239-253. -/
def epRight2 (r pivot rite : Nat) : M α Nat := do
  if pivot < rite then
    if ← cmp (← read (r + rite)) (← read r) then
      let pivot ← epRightScan cmp r pivot rite
      epRight2 r pivot (rite - 1)
    else
      epRight2 r pivot (rite - 1)
  else
    swap r (r + pivot)
    pure pivot
partial_fixpoint

/-- adaptive_quickselect.h 214-254. -/
def expandPartitionRight (r hi rite : Nat) : M α Nat := do
  match ← epRight1 cmp r hi 0 rite with
  | (pivot, none) => pure pivot
  | (pivot, some rite) => epRight2 cmp r pivot rite

/-- adaptive_quickselect.h 271-277: `none`: `left` reached `lo`. -/
def epScanLeft (r lo pivot left : Nat) : M α (Option Nat) := do
  if left = lo then
    pure none
  else
    if ← cmp (← read (r + pivot)) (← read (r + left)) then
      pure (some left)
    else
      epScanLeft r lo pivot (left + 1)
partial_fixpoint

/-- adaptive_quickselect.h 278-284: `none`: `length` reached `hi`. -/
def epScanRight (r hi pivot length : Nat) : M α (Option Nat) := do
  if length = hi then
    pure none
  else
    if ← cmp (← read (r + pivot)) (← read (r + length)) then
      epScanRight r hi pivot (length - 1)
    else
      pure (some length)
partial_fixpoint

/-- adaptive_quickselect.h 270-286: `hi` and `length` are already decremented. -/
def epLoop (r lo pivot hi left length : Nat) : M α Nat := do
  match ← epScanLeft cmp r lo pivot left with
  | none => do
    let k ← expandPartitionRight cmp (r + pivot) (hi - pivot) (length - pivot)
    pure (pivot + k)
  | some left =>
    match ← epScanRight cmp r hi pivot length with
    | none => do
      let k ← expandPartitionLeft cmp (r + left) (lo - left) (pivot - left)
      pure (left + k)
    | some length =>
      swap (r + left) (r + length)
      epLoop r lo pivot hi (left + 1) (length - 1)
partial_fixpoint

/-- adaptive_quickselect.h 256-287. -/
def expandPartition (r lo pivot hi length : Nat) : M α Nat :=
  epLoop cmp r lo pivot (hi - 1) 0 (length - 1)

/-- adaptive_quickselect.h 321-325: `while (++j < limit)`. -/
def minIndexLoop (r j limit minIndex : Nat) : M α Nat := do
  let j := j + 1
  if j < limit then
    if ← cmp (← read (r + j)) (← read (r + minIndex)) then
      minIndexLoop r j limit j
    else
      minIndexLoop r j limit minIndex
  else
    pure minIndex
partial_fixpoint

/-- adaptive_quickselect.h 318-331; after the inner loop `j = limit` (`computeMinOver > 0`). -/
def minimaLoop (r over i j subset : Nat) : M α Unit := do
  if i < subset then
    let minIndex ← minIndexLoop cmp r j (j + over) j
    if ← cmp (← read (r + minIndex)) (← read (r + i)) then
      swap (r + i) (r + minIndex)
      minimaLoop r over (i + 1) (j + over) subset
    else
      minimaLoop r over (i + 1) (j + over) subset
  else
    pure ()
partial_fixpoint

/-- adaptive_quickselect.h 359-363. -/
def maxIndexLoop (r j limit maxIndex : Nat) : M α Nat := do
  let j := j + 1
  if j < limit then
    if ← cmp (← read (r + maxIndex)) (← read (r + j)) then
      maxIndexLoop r j limit j
    else
      maxIndexLoop r j limit maxIndex
  else
    pure maxIndex
partial_fixpoint

/-- adaptive_quickselect.h 356-369. -/
def maximaLoop (r over i j length : Nat) : M α Unit := do
  if i < length then
    let maxIndex ← maxIndexLoop cmp r j (j + over) j
    if ← cmp (← read (r + i)) (← read (r + maxIndex)) then
      swap (r + i) (r + maxIndex)
      maximaLoop r over (i + 1) (j + over) length
    else
      maximaLoop r over (i + 1) (j + over) length
  else
    pure ()
partial_fixpoint

/-- adaptive_quickselect.h 394-401. -/
def nintherLoop (r frac i hi a b : Nat) : M α Unit := do
  if i < hi then
    ninther cmp r a (i - frac) b (a + 1) i (b + 1) (a + 2) (i + frac) (b + 2)
    nintherLoop r frac (i + 1) hi (a + 3) (b + 3)
  else
    pure ()
partial_fixpoint

/-- adaptive_quickselect.h 381-383. -/
def nintherFrac (length : Nat) : Nat :=
  if length ≤ 1024 then length / 12
  else if length ≤ 128 * 1024 then length / 64
  else length / 1024

mutual

/-- adaptive_quickselect.h 296-336. -/
def medianOfMinima (r n length : Nat) : M α Nat := do
  let subset := n * 2
  let computeMinOver := (length - subset) / subset
  minimaLoop cmp r computeMinOver 0 subset subset
  adaptiveQuickselect r n subset
  expandPartition cmp r 0 n subset length
partial_fixpoint

/-- adaptive_quickselect.h 338-374. -/
def medianOfMaxima (r n length : Nat) : M α Nat := do
  let subset := (length - n) * 2
  let subsetStart := length - subset
  let computeMaxOver := subsetStart / subset
  maximaLoop cmp r computeMaxOver subsetStart (subsetStart - subset * computeMaxOver) length
  adaptiveQuickselect (r + subsetStart) (length - n) subset
  expandPartition cmp r subsetStart n length length
partial_fixpoint

/-- adaptive_quickselect.h 376-407. -/
def medianOfNinthers (r length : Nat) : M α Nat := do
  let frac := nintherFrac length
  let pivot := frac / 2
  let lo := length / 2 - pivot
  let hi := lo + frac
  let gap := (length - 9 * frac) / 4
  nintherLoop cmp r frac lo hi (lo - 4 * frac - gap) (hi + gap)
  adaptiveQuickselect (r + lo) pivot frac
  expandPartition cmp r lo (lo + pivot) hi length
partial_fixpoint

/-- adaptive_quickselect.h 414-470. The loops looking for an extremum are `minIndexLoop` and
`maxIndexLoop` run over the whole range (429-433 and 442-446 are the same loops). -/
def adaptiveQuickselect (r n length : Nat) : M α Unit := do
  if n = 0 then
    let pivot ← minIndexLoop cmp r 0 length 0
    swap r (r + pivot)
  else if n + 1 = length then
    let pivot ← maxIndexLoop cmp r 0 length 0
    swap (r + pivot) (r + (length - 1))
  else
    let pivot ← quickselectPivot r n length
    if pivot = n then
      pure ()
    else if n < pivot then
      adaptiveQuickselect r n pivot
    else
      let pivot := pivot + 1
      adaptiveQuickselect (r + pivot) (n - pivot) (length - pivot)
partial_fixpoint

/-- adaptive_quickselect.h 449-458: the choice of the partitioning strategy. -/
def quickselectPivot (r n length : Nat) : M α Nat := do
  if length ≤ 16 then
    let p ← pivotPartition cmp r n length
    pure (p - r)
  else if n ≤ length / 6 then
    medianOfMinima r n length
  else if length - n ≤ n / 5 then
    medianOfMaxima r n length
  else
    medianOfNinthers r length
partial_fixpoint

end

/-- adaptive_quickselect.h 472-481. -/
def medianOfNinthersSelect (begin' mid end' : Nat) : M α Nat := do
  if mid ≠ end' then
    adaptiveQuickselect cmp begin' (mid - begin') (end' - begin')
    pure mid
  else
    pure mid

/-- nth_element.h 20-68. -/
def nthElement (cat : Cat) (first last nthPos size : Nat) : M α Nat :=
  match cat with
  | .random => medianOfNinthersSelect cmp first (first + nthPos) last
  | c => introselect cmp c first last nthPos size

/-! ### quick_merge_sort.h -/

/-- quick_merge_sort.h 38-48: the first `size_left` steps. Result: `first1`, `first2`, `result`. -/
def ihMerge1 (sizeLeft first1 first2 result : Nat) : M α (Nat × Nat × Nat) :=
  match sizeLeft with
  | 0 => pure (first1, first2, result)
  | n + 1 => do
    if ← cmp (← read first2) (← read first1) then
      swap result first2
      ihMerge1 n first1 (first2 + 1) (result + 1)
    else
      swap result first1
      ihMerge1 n (first1 + 1) first2 (result + 1)

/-- quick_merge_sort.h 50-63. -/
def ihMerge2 (first1 last1 first2 last2 result : Nat) : M α Unit := do
  if first1 ≠ last1 then
    if first2 = last2 then
      let _ ← swapRanges first1 last1 result
      pure ()
    else
      if ← cmp (← read first2) (← read first1) then
        swap result first2
        ihMerge2 first1 last1 (first2 + 1) last2 (result + 1)
      else
        swap result first1
        ihMerge2 (first1 + 1) last1 first2 last2 (result + 1)
  else
    pure ()
partial_fixpoint

/-- quick_merge_sort.h 26-65. -/
def internalHalfInplaceMerge (first1 last1 first2 last2 result sizeLeft : Nat) : M α Unit := do
  let (first1, first2, result) ← ihMerge1 cmp sizeLeft first1 first2 result
  ihMerge2 cmp first1 last1 first2 last2 result

/-- quick_merge_sort.h 67-78. -/
def internalBufferedInplaceMerge (first middle last sizeLeft buffer : Nat) : M α Unit := do
  let bufferEnd ← swapRanges first middle buffer
  internalHalfInplaceMerge cmp buffer bufferEnd middle last first sizeLeft

/-- quick_merge_sort.h 108-112: returns the new `first` (`size_left` is `middle - first`). -/
def imShrink (middle first sizeLeft : Nat) : M α (Nat × Nat) := do
  if first ≠ middle then
    if ← cmp (← read middle) (← read first) then
      pure (first, sizeLeft)
    else
      imShrink middle (first + 1) (sizeLeft - 1)
  else
    pure (first, sizeLeft)
partial_fixpoint

/-- quick_merge_sort.h 80-117. -/
def internalMergesort (cat : Cat) (first last size buffer : Nat) : M α Unit := do
  if size ≤ 32 then
    smallSort cmp cat first last
  else
    let sizeLeft := size / 2
    let middle := first + sizeLeft
    internalMergesort cat first middle sizeLeft buffer
    internalMergesort cat middle last (size - sizeLeft) buffer
    let (first, sizeLeft) ← imShrink cmp middle first sizeLeft
    if first = middle then
      pure ()
    else
      internalBufferedInplaceMerge cmp first middle last sizeLeft buffer
partial_fixpoint

/-- quick_merge_sort.h 119-149. -/
def quickMergeSortLoop (cat : Cat) (first last size : Nat) : M α Unit := do
  if 32 < size then
    let sizeLeft := 2 * (size / 3) - 2
    let pivot ← nthElement cmp cat first last sizeLeft size
    internalMergesort cmp cat first pivot sizeLeft pivot
    let first := match cat with
      | .random => first + sizeLeft
      | _ => pivot
    quickMergeSortLoop cat first last (size - sizeLeft)
  else
    smallSort cmp cat first last
partial_fixpoint

/-- quick_merge_sorter.h 62-82: the size is `std::distance(first, last)`. -/
def quickMergeSort (cat : Cat) (first last : Nat) : M α Unit :=
  quickMergeSortLoop cmp cat first last (last - first)

end CppSort
