import Verif.Model.Merge
/-
detail/vergesort.h: vergesort, for bidirectional and random-access iterators, with any fallback sorter.
-/
set_option autoImplicit false

namespace CppSort
variable {α : Type}
section
variable (cmp : α → α → M α Bool)

/-- vergesort.h 38-43: `run`. -/
structure VRun where
  stop : Nat
  size : Nat

/-- inplace_merge.h 122-139: the overload taking the lengths, for bidirectional and random-access iterators. -/
def inplaceMergeLen (c : Cfg) (first middle last len1 len2 : Nat) : M α Unit := do
  let b ← newBuf (min len1 len2)
  inplaceMergeBuf cmp c first middle last len1 len2 b.ptr b.size
  b.release

/-- vergesort.h 66-82: merging two consecutive runs. As in the code, a run of one element is rotated from the first
element of the whole range, not from the first element of the run. -/
def vergeMerge (c : Cfg) (first start : Nat) (r r' : VRun) : M α Unit := do
  if r.size = 1 then
    let target ← read start
    if ← cmp (← read r.stop) target then
      let it ← lowerBoundN cmp r.stop r'.size target
      let _ ← rotateLeft first it
      pure ()
    else pure ()
  else if r'.size = 1 then
    let target ← read (r'.stop - 1)
    if ← cmp target (← read (r.stop - 1)) then
      let it ← upperBoundN cmp start r.size target
      let _ ← rotateRight it r'.stop
      pure ()
    else pure ()
  else inplaceMergeLen cmp c start r.stop r'.stop r.size r'.size

/-- vergesort.h 60-90: one pass over the runs; `std::list` is a list. -/
def vergePass (c : Cfg) (first : Nat) (start : Nat) : List VRun → M α (List VRun)
  | r :: r' :: rest => do
    vergeMerge cmp c first start r r'
    let rest ← vergePass c first r'.stop rest
    pure (⟨r'.stop, r'.size + r.size⟩ :: rest)
  | runs => pure runs

/-- vergesort.h 59-91: the `do ... while` loop. -/
def vergeMergeLoop (c : Cfg) (first : Nat) (runs : List VRun) : M α Unit := do
  let runs ← vergePass cmp c first first runs
  if 1 < runs.length then vergeMergeLoop c first runs else pure ()
partial_fixpoint

/-- vergesort.h 48-92. -/
def vergeMergeRuns (c : Cfg) (first : Nat) (runs : List VRun) : M α Unit :=
  if runs.length < 2 then pure () else vergeMergeLoop cmp c first runs

/-- vergesort.h 197, 250, 258, 394, 396, 403, 412, 414, 421, 451, 453, 458: the tests ending a run, on two neighbours. -/
def vergeStop (stable desc : Bool) (x y : α) : M α Bool :=
  if desc then
    if stable then notC cmp y x else cmp x y
  else cmp y x

/-- vergesort.h 391-395, 409-413, 448-452: to the left of `current` (`next` is always `current + 1`). -/
def vergeLeftLoop (stable desc : Bool) (beginRange current : Nat) : M α Nat := do
  let current := current - 1
  if ← vergeStop cmp stable desc (← read current) (← read (current + 1)) then pure current
  else if current ≠ beginRange then vergeLeftLoop stable desc beginRange current
  else pure current
partial_fixpoint

/-- vergesort.h 391-398, 409-416, 448-453. -/
def vergeLeft (stable desc : Bool) (beginRange current : Nat) : M α Nat := do
  let current ← vergeLeftLoop cmp stable desc beginRange current
  if ← vergeStop cmp stable desc (← read current) (← read (current + 1)) then pure (current + 1)
  else pure current

/-- vergesort.h 402-406, 420-424, 457-461: to the right (`current2` is always `next2 - 1`). -/
def vergeRight (stable desc : Bool) (last next2 : Nat) : M α Nat := do
  if next2 ≠ last then
    if ← vergeStop cmp stable desc (← read (next2 - 1)) (← read next2) then pure next2
    else vergeRight stable desc last (next2 + 1)
  else pure next2
partial_fixpoint

/-- vergesort.h 269, 275, 429: a descending run is reversed, an ascending one is not. -/
def vergeReverse (desc : Bool) (first last : Nat) : M α Unit :=
  if desc then reverse first last else pure ()

/-- vergesort.h 429-438, 465-473: a big enough run was found. -/
def vergeFound (fb : Nat → Nat → M α Unit) (desc : Bool) (last beginRange current next2 unsorted : Nat)
    (runs : List VRun) : M α (Nat × List VRun) := do
  vergeReverse desc current next2
  let unsorted := if current - beginRange ≠ 0 ∧ unsorted = last then beginRange else unsorted
  if unsorted ≠ last then
    fb unsorted current
    pure (last, runs ++ [⟨current, current - unsorted⟩] ++ [⟨next2, next2 - current⟩])
  else
    pure (unsorted, runs ++ [⟨next2, next2 - current⟩])

/-- vergesort.h 352-486: the main loop for random-access iterators. It returns `begin_unsorted` and the runs. -/
def vergeLoop (fb : Nat → Nat → M α Unit) (stable : Bool) (last minrun current unsorted : Nat) (runs : List VRun) :
    M α (Nat × List VRun) := do
  let beginRange := current
  let next := current + 1
  if last - next ≤ minrun then
    pure (if unsorted = last then beginRange else unsorted, runs)
  else
    let current := current + minrun
    let next := next + minrun
    let desc ← cmp (← read next) (← read current)
    let left ← vergeLeft cmp stable desc beginRange current
    let next2 ← vergeRight cmp stable desc last (next + 1)
    if minrun ≤ next2 - left then
      let (unsorted, runs) ← vergeFound fb desc last beginRange left next2 unsorted runs
      if next2 = last then pure (unsorted, runs)
      else vergeLoop fb stable last minrun next2 unsorted runs
    else
      let unsorted := if unsorted = last then beginRange else unsorted
      if next2 = last then pure (unsorted, runs)
      else vergeLoop fb stable last minrun next2 unsorted runs
partial_fixpoint

/-- vergesort.h 320-496: `sort` for random-access iterators. -/
def vergesortRandom (c : Cfg) (fb : Nat → Nat → M α Unit) (stable : Bool) (first last : Nat) : M α Unit := do
  let size := last - first
  if size < 128 then fb first last
  else
    let (unsorted, runs) ← vergeLoop cmp fb stable last (size / Nat.log2 size) first last []
    if unsorted ≠ last then
      fb unsorted last
      vergeMergeRuns cmp c first (runs ++ [⟨last, last - unsorted⟩])
    else
      vergeMergeRuns cmp c first runs

/-- vergesort.h 196-201, 249-254, 257-262: the end of the run and its size (`current` is always `next - 1`). -/
def vergeScan (stable desc : Bool) (last next runSize : Nat) : M α (Nat × Nat) := do
  if next ≠ last then
    if ← vergeStop cmp stable desc (← read (next - 1)) (← read next) then pure (next, runSize)
    else vergeScan stable desc last (next + 1) (runSize + 1)
  else pure (next, runSize)
partial_fixpoint

/-- vergesort.h 204-213, 266-277: a big enough run was found. The fallback is given the size of its range. -/
def vergeFoundBi (fb : Nat → Nat → Nat → M α Unit) (desc : Bool) (last beginRng next runSize unsorted sizeUnsorted : Nat)
    (runs : List VRun) : M α (List VRun) := do
  if unsorted ≠ last then
    fb unsorted beginRng sizeUnsorted
    vergeReverse desc beginRng next
    pure (runs ++ [⟨beginRng, sizeUnsorted⟩] ++ [⟨next, runSize⟩])
  else
    vergeReverse desc beginRng next
    pure (runs ++ [⟨next, runSize⟩])

/-- vergesort.h 155-302: the main loop for bidirectional iterators; `desc` is the label it is at. It returns
`begin_unsorted`, `size_unsorted` and the runs. -/
def vergeLoopBi (fb : Nat → Nat → Nat → M α Unit) (stable : Bool) (last minrun : Nat) (desc : Bool)
    (current unsorted sizeUnsorted : Nat) (runs : List VRun) : M α (Nat × Nat × List VRun) := do
  let beginRng := current
  let (next, runSize) ← vergeScan cmp stable desc last (current + 2) 2
  if minrun < runSize then
    let runs ← vergeFoundBi fb desc last beginRng next runSize unsorted sizeUnsorted runs
    if next = last then pure (last, 0, runs)
    else
      let current := next
      let next := next + 1
      if next = last then pure (current, 0, runs)
      else
        let desc ← cmp (← read next) (← read current)
        vergeLoopBi fb stable last minrun desc current last 0 runs
  else
    let sizeUnsorted := sizeUnsorted + (runSize - 1)
    let unsorted := if unsorted = last then beginRng else unsorted
    if next = last then pure (unsorted, sizeUnsorted, runs)
    else vergeLoopBi fb stable last minrun (!desc) (next - 1) unsorted sizeUnsorted runs
partial_fixpoint

/-- vergesort.h 97-318: `sort` for bidirectional iterators. The conversion of the limit to `int` is not modelled. -/
def vergesortBi (c : Cfg) (fb : Nat → Nat → Nat → M α Unit) (stable : Bool) (first last size : Nat) : M α Unit := do
  if size < 128 then fb first last size
  else
    let desc ← cmp (← read (first + 1)) (← read first)
    let (unsorted, sizeUnsorted, runs) ← vergeLoopBi cmp fb stable last (size / Nat.log2 size) desc first last 0 []
    if unsorted ≠ last then
      let sizeUnsorted := sizeUnsorted + 1
      if 1 < sizeUnsorted then fb unsorted last sizeUnsorted else pure ()
      vergeMergeRuns cmp c first (runs ++ [⟨last, sizeUnsorted⟩])
    else
      vergeMergeRuns cmp c first runs

end
end CppSort
