import Verif.Model.Probes
import Verif.Model.Pdq
import Verif.Base.Embed
/-
The measures of presortedness that sort iterators to the range: probes/{ham,max,exc,block,osc,inv}.h.

An iterator stored in a vector is modelled by the pair of the value it points to and of its position:
the range does not change while the probe runs, so `utility::indirect{}` is the first projection.  The
vectors of iterators are local containers (`embed`).  The probes take the comparator itself, because
the same one is used on elements and, through `indirect`, on iterators.
-/
set_option autoImplicit false

namespace CppSort
variable {α : Type} (lt : α → α → Bool)

/-- `compare` through the projection `utility::indirect{} | projection` (utility/functional.h 55-85). -/
def indirectLt (p q : α × Nat) : Bool := lt p.1 q.1

/-- The common first part of the probes, e.g. probes/ham.h 48-58: copy the iterators in a vector and
sort it with `pdqsort`. -/
def sortedIterators (branchless : Bool) (xs : List α) : M α (List (α × Nat)) := do
  let r ← embed xs.zipIdx (pdqsort (tick (indirectLt lt)) branchless 0 xs.zipIdx.length)
  pure r.2

/-! ### probes/ham.h -/

/-- probes/ham.h 64-70. -/
def hamLoop (xs : List α) (first : Nat) (count : Nat) : List (α × Nat) → M α Nat
  | [] => pure count
  | it :: its => do
    let x ← nth xs first
    if ← tick lt x it.1 then
      hamLoop xs (first + 1) (count + 1) its
    else if ← tick lt it.1 x then
      hamLoop xs (first + 1) (count + 1) its
    else
      hamLoop xs (first + 1) count its

/-- probes/ham.h 32-72. -/
def probeHam (branchless : Bool) (xs : List α) : M α Nat := do
  if xs.length < 2 then
    pure 0
  else
    hamLoop lt xs 0 0 (← sortedIterators lt branchless xs)

/-! ### detail/equal_range.h -/

/-- equal_range.h 34-62 on a vector of iterators. -/
def equalRange (its : List (α × Nat)) (value : α) (first last len : Nat) : M α (Nat × Nat) := do
  if len ≠ 0 then
    let l2 := len / 2
    let m := first + l2
    if ← tick lt (← nth its m).1 value then
      equalRange its value (m + 1) last (len - (l2 + 1))
    else if ← tick lt value (← nth its m).1 then
      equalRange its value first m l2
    else
      let lo ← lowerBoundBy (fun i => do tick lt (← nth its i).1 value) first (m - first)
      let hi ← lowerBoundBy (fun i => do return !(← tick lt value (← nth its i).1)) (m + 1) (last - (m + 1))
      pure (lo, hi)
  else
    pure (first, first)
partial_fixpoint

/-! ### probes/max.h -/

/-- probes/max.h 65-85. -/
def maxLoop (xs : List α) (its : List (α × Nat)) (itPos maxDist : Nat) : M α Nat := do
  if itPos ≠ xs.length then
    let (posMin, posMax) ← equalRange lt its (← nth xs itPos) 0 its.length its.length
    if itPos < posMin then
      maxLoop xs its (itPos + 1) (max (posMin - itPos) maxDist)
    else if posMax ≤ itPos then
      maxLoop xs its (itPos + 1) (max (itPos - posMax + 1) maxDist)
    else
      maxLoop xs its (itPos + 1) maxDist
  else
    pure maxDist
partial_fixpoint

/-- probes/max.h 34-86. -/
def probeMax (branchless : Bool) (xs : List α) : M α Nat := do
  if xs.length < 2 then
    pure 0
  else
    maxLoop lt xs (← sortedIterators lt branchless xs) 0 0

/-! ### probes/exc.h -/

/-- probes/exc.h 79-94. -/
def excWhile (xs : List α) (its : List (α × Nat)) (start current next : Nat) (sorted : List Bool)
    (cycles : Nat) : M α (List Bool × Nat) := do
  if next ≠ start then
    let same ← (do
      if ← tick lt (← nth xs next) (← nth xs current) then pure false
      else return !(← tick lt (← nth xs current) (← nth xs next)))
    let it ← nth its next
    excWhile xs its start next it.2 (sorted.set next true) (if same then cycles + 1 else cycles)
  else
    pure (sorted, cycles)
partial_fixpoint

/-- probes/exc.h 100-104. -/
def excFind (xs : List α) (sorted : List Bool) (start : Nat) : M α Nat := do
  let start := start + 1
  if start = xs.length then pure start
  else if ← nth sorted start then excFind xs sorted start
  else pure start
partial_fixpoint

/-- probes/exc.h 70-105. -/
def excLoop (xs : List α) (its : List (α × Nat)) (start : Nat) (sorted : List Bool) (cycles : Nat) :
    M α Nat := do
  if start ≠ xs.length then
    let it ← nth its start
    let (sorted, cycles) ← excWhile lt xs its start start it.2 (sorted.set start true) cycles
    let start ← excFind xs sorted start
    excLoop xs its start sorted (cycles + 1)
  else
    pure cycles
partial_fixpoint

/-- probes/exc.h 33-107. The test `next != current` (78) guards a loop whose condition is then false. -/
def probeExc (branchless : Bool) (xs : List α) : M α Nat := do
  if xs.length < 2 then
    pure 0
  else
    let its ← sortedIterators lt branchless xs
    return xs.length - (← excLoop lt xs its 0 (List.replicate xs.length false) 0)

/-! ### probes/block.h -/

/-- `comp(x, y) || comp(y, x)`. -/
def differ (x y : α) : M α Bool := do
  if ← tick lt x y then pure true else tick lt y x

/-- probes/block.h 66-78. -/
def blockLoop (xs : List α) (its : List (α × Nat)) (it count : Nat) : M α Nat := do
  if it ≠ its.length - 1 then
    let i ← nth its it
    let origNext := i.2 + 1
    if origNext = xs.length then
      if ← differ lt i.1 (← nth its (its.length - 1)).1 then blockLoop xs its (it + 1) (count + 1)
      else blockLoop xs its (it + 1) count
    else
      if ← differ lt (← nth xs origNext) (← nth its (it + 1)).1 then
        blockLoop xs its (it + 1) (count + 1)
      else blockLoop xs its (it + 1) count
  else
    pure count
partial_fixpoint

/-- probes/block.h 32-80. -/
def probeBlock (branchless : Bool) (xs : List α) : M α Nat := do
  if xs.length < 2 then
    pure 0
  else
    blockLoop lt xs (← sortedIterators lt branchless xs) 0 0

/-! ### probes/osc.h -/

/-- probes/osc.h 59-66; `std::min(a, b, comp)` is `comp(b, a) ? b : a`, `std::max(a, b, comp)` is
`comp(a, b) ? b : a`. -/
def oscInner (xs : List α) (value : α) (current next count : Nat) : M α Nat := do
  if next ≠ xs.length then
    let a ← nth xs current
    let b ← nth xs next
    let mn := if ← tick lt b a then b else a
    if ← tick lt mn value then
      let mx := if ← tick lt a b then b else a
      if ← tick lt value mx then
        oscInner xs value (current + 1) (next + 1) (count + 1)
      else
        oscInner xs value (current + 1) (next + 1) count
    else
      oscInner xs value (current + 1) (next + 1) count
  else
    pure count
partial_fixpoint

/-- probes/osc.h 53-67. -/
def oscOuter (xs : List α) (it count : Nat) : M α Nat := do
  if it ≠ xs.length then
    let value ← nth xs it
    let count ← oscInner lt xs value 0 1 count
    oscOuter xs (it + 1) count
  else
    pure count
partial_fixpoint

/-- probes/osc.h 37-69. -/
def oscInplace (xs : List α) : M α Int := do
  if xs.length < 2 then
    pure 0
  else
    return ((← oscOuter lt xs 0 0 : Nat) : Int)

/-- probes/osc.h 151-152. -/
def oscCross (cross : List Int) (minIdx maxIdx : Nat) : M α (List Int) := do
  let c ← nth cross minIdx
  let cross := cross.set minIdx (c + 1)
  let c ← nth cross maxIdx
  pure (cross.set maxIdx (c - 1))

/-- probes/osc.h 126-153. -/
def oscLoop (xs : List α) (its : List (α × Nat)) (prev current : Nat) (prevBounds : Nat × Nat)
    (cross : List Int) : M α (List Int) := do
  if current ≠ xs.length then
    let p ← nth xs prev
    let c ← nth xs current
    if ← tick lt p c then
      let currentBounds ← equalRange lt its c 0 its.length its.length
      let cross ← oscCross cross prevBounds.2 currentBounds.1
      oscLoop xs its (prev + 1) (current + 1) currentBounds cross
    else if ← tick lt c p then
      let currentBounds ← equalRange lt its c 0 its.length its.length
      let cross ← oscCross cross currentBounds.2 prevBounds.1
      oscLoop xs its (prev + 1) (current + 1) currentBounds cross
    else
      oscLoop xs its (prev + 1) (current + 1) prevBounds cross
  else
    pure cross
partial_fixpoint

/-- `std::partial_sum` (probes/osc.h 155). -/
def partialSums (acc : Int) : List Int → List Int
  | [] => []
  | c :: cs => (acc + c) :: partialSums (acc + c) cs

/-- probes/osc.h 72-157. -/
def oscAllocating (branchless : Bool) (xs : List α) : M α Int := do
  if xs.length < 2 then
    pure 0
  else
    let its ← sortedIterators lt branchless xs
    let prevBounds ← equalRange lt its (← nth xs 0) 0 its.length its.length
    let cross ← oscLoop lt xs its 0 1 prevBounds (List.replicate xs.length 0)
    pure (partialSums 0 cross).sum

/-- probes/osc.h 160-173: when memory runs out the in-place algorithm is used. -/
def probeOsc (branchless memory : Bool) (xs : List α) : M α Int :=
  if memory then oscAllocating lt branchless xs else oscInplace lt xs

/-- probes/osc.h 209-214, for a signed integer type. -/
def oscMaxForSize (n : Int) : Int := if n = 0 then 0 else Int.tdiv (n * (n - 2) - 1) 2

/-! ### probes/inv.h, detail/count_inversions.h -/

section
variable {β : Type} (cmp : β → β → M β Bool)

/-- count_inversions.h 40-42. -/
def invSkip (first middle : Nat) : M β Nat := do
  if ← cmp (← read first) (← read middle) then invSkip (first + 1) middle else pure first
partial_fixpoint

/-- count_inversions.h 46-59; the final value of `first2` and the number of inversions. -/
def invMerge (middle last : Nat) (first1 first2 result inversions : Nat) : M β (Nat × Nat) := do
  if first1 ≠ middle then
    if first2 = last then
      let _ ← moveRange id id first1 middle result
      pure (first2, inversions)
    else if ← cmp (← read first2) (← read first1) then
      moveTo result first2
      invMerge middle last first1 (first2 + 1) (result + 1) (inversions + (middle - first1))
    else
      moveTo result first1
      invMerge middle last (first1 + 1) first2 (result + 1) inversions
  else
    pure (first2, inversions)
partial_fixpoint

/-- count_inversions.h 28-67. -/
def countInversionsMerge (first middle last cache : Nat) : M β Nat := do
  let first ← invSkip cmp first middle
  let (first2, inversions) ← invMerge cmp middle last first middle cache 0
  let _ ← moveRange id id cache (cache + (first2 - first)) first
  pure inversions

/-- count_inversions.h 76-94. -/
def countInversions (first last cache : Nat) : M β Nat := do
  let size := last - first
  if size < 2 then
    pure 0
  else
    let middle := first + size / 2
    let a ← countInversions first middle cache
    let b ← countInversions middle last cache
    let c ← countInversionsMerge cmp first middle last cache
    pure (0 + a + b + c)
partial_fixpoint
end

/-- The two arrays of probes/inv.h 42-48: the iterators, and a buffer of iterators that point
nowhere. -/
def invMem (its : List (α × Nat)) (s : St α) : St (α × Nat) where
  cell i := match its[i]? with
    | some x => .val x
    | none => if i < 2 * its.length then .moved else .unalloc
  brk := 2 * its.length
  grant := s.grant
  cmps := s.cmps
  movs := 0

/-- probes/inv.h 31-55. The moves of iterators do not count as moves of elements. -/
def probeInv (xs : List α) : M α Nat := fun s =>
  if xs.length < 2 then
    some (.ok 0, s)
  else
    match countInversions (tick (indirectLt lt)) 0 xs.length xs.length (invMem xs.zipIdx s) with
    | none => none
    | some (r, s') => some (r, { s with cmps := s'.cmps, grant := s'.grant })

end CppSort
