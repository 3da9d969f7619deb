import Verif.Model.Grail
/-
detail/wiki_sort.h, sorters/wiki_sorter.h, with the parts of buffered_inplace_merge.h and move.h that work on a buffer of live objects

Iterators are positions, and a `Range` is a pair of positions. `std::sqrt` on a length is `Nat.sqrt`: the rounding of lengths of
2^52 elements and more to `double` is not modelled. Numbers are unbounded.
-/
set_option autoImplicit false

namespace CppSort
variable {α : Type}

/-- wiki_sort.h 41-59: `Range`. -/
structure WRange where
  start : Nat
  stop : Nat

/-- An integer division; dividing by zero is an error. -/
def divC (a b : Nat) : M α Nat :=
  if b = 0 then fail .overflow else pure (a / b)

section
variable (cmp : α → α → M α Bool) (c : Cfg)

/-- `comp(proj(*i), proj(*j))`. -/
def wikiLt (i j : Nat) : M α Bool := do
  let x ← read i
  let y ← read j
  cmp x y

/-- wiki_sort.h 80-87 and 107-114: the loops of the searches that go forward. `go x` is the condition of the loop, and `bound f n` the
binary search in `[f, f + n)`. -/
def findFwdLoop (go : α → M α Bool) (bound : Nat → Nat → M α Nat) (skip last index : Nat) : M α Nat := do
  let x ← read (index - 1)
  if ← go x then
    if index + skip ≥ last then bound index (last - index)
    else findFwdLoop go bound skip last (index + skip)
  else bound (index - skip) skip
partial_fixpoint

/-- wiki_sort.h 134-140 and 160-166: the loops of the searches that go backward. -/
def findBwdLoop (go : α → M α Bool) (bound : Nat → Nat → M α Nat) (skip first index : Nat) : M α Nat := do
  if first < index then
    let x ← read (index - 1)
    if ← go x then
      if index < first + skip then bound first (index - first)
      else findBwdLoop go bound skip first (index - skip)
    else bound index skip
  else bound index skip
partial_fixpoint

/-- wiki_sort.h 63-88: `FindFirstForward`. -/
def findFirstForward (first last : Nat) (value : α) (unique : Nat) : M α Nat := do
  if last - first = 0 then pure first
  else
    let q ← divC (last - first) unique
    findFwdLoop (fun x => cmp x value) (fun f n => lowerBoundN cmp f n value) (max q 1) last (first + max q 1)

/-- wiki_sort.h 90-115: `FindLastForward`. -/
def findLastForward (first last : Nat) (value : α) (unique : Nat) : M α Nat := do
  if last - first = 0 then pure first
  else
    let q ← divC (last - first) unique
    findFwdLoop (fun x => notC cmp value x) (fun f n => upperBoundN cmp f n value) (max q 1) last (first + max q 1)

/-- wiki_sort.h 117-141: `FindFirstBackward`. -/
def findFirstBackward (first last : Nat) (value : α) (unique : Nat) : M α Nat := do
  if last - first = 0 then pure first
  else
    let q ← divC (last - first) unique
    findBwdLoop (fun x => notC cmp x value) (fun f n => lowerBoundN cmp f n value) (max q 1) first (last - max q 1)

/-- wiki_sort.h 143-167: `FindLastBackward`. -/
def findLastBackward (first last : Nat) (value : α) (unique : Nat) : M α Nat := do
  if last - first = 0 then pure first
  else
    let q ← divC (last - first) unique
    findBwdLoop (fun x => cmp value x) (fun f n => upperBoundN cmp f n value) (max q 1) first (last - max q 1)

/-- wiki_sort.h 193-205: the loop of `MergeInternal`. The result is `A_index` and `insert_index`. -/
def mergeInternalLoop (aLast bLast a b i : Nat) : M α (Nat × Nat) := do
  if ← wikiLt cmp b a then
    swap i b
    if b + 1 = bLast then pure (a, i + 1)
    else mergeInternalLoop aLast bLast a (b + 1) (i + 1)
  else
    swap i a
    if a + 1 = aLast then pure (a + 1, i + 1)
    else mergeInternalLoop aLast bLast (a + 1) b (i + 1)
partial_fixpoint

/-- wiki_sort.h 172-210: `MergeInternal`. `swap_ranges_overlap` is swap_ranges.h 32-44. -/
def mergeInternal (first1 last1 first2 last2 buffer : Nat) : M α Unit := do
  if first1 ≠ last1 ∧ first2 ≠ last2 then
    let (a, i) ← mergeInternalLoop cmp (buffer + (last1 - first1)) last2 buffer first2 first1
    let _ ← swapRanges a (buffer + (last1 - first1)) i
    pure ()
  else
    let _ ← swapRanges buffer (buffer + (last1 - first1)) first1
    pure ()

/-- wiki_sort.h 241-255: the loop of `MergeInPlace`. -/
def mergeInPlaceLoop (first middle last : Nat) : M α Unit := do
  let x ← read first
  let mid2 ← lowerBound cmp middle last x
  let _ ← rotate c first middle mid2
  if last = mid2 then pure ()
  else
    let y ← read (first + (mid2 - middle))
    let f ← upperBound cmp (first + (mid2 - middle)) mid2 y
    if f = mid2 then pure ()
    else mergeInPlaceLoop f mid2 last
partial_fixpoint

/-- wiki_sort.h 214-256: `MergeInPlace`. -/
def mergeInPlace (first middle last : Nat) : M α Unit := do
  if first = middle ∨ middle = last then pure ()
  else mergeInPlaceLoop cmp c first middle last

end

/-- wiki_sort.h 262-269: the members of `Iterator`. `power_of_two` is used in the constructor only. -/
structure WIter where
  size : Nat
  den : Nat
  dec : Nat
  num : Nat
  decStep : Nat
  numStep : Nat

/-- wiki_sort.h 273-281, with `min_level` being 4. -/
def WIter.new (size : Nat) : WIter :=
  let den := 2 ^ Nat.log2 size / 4
  ⟨size, den, 0, 0, size / den, size % den⟩

/-- wiki_sort.h 283-287. -/
def WIter.begin (it : WIter) : WIter := { it with dec := 0, num := 0 }

/-- wiki_sort.h 289-302: the iterator after `nextRange`; the range goes from the `dec` before to the `dec` after. -/
def WIter.next (it : WIter) : WIter :=
  if it.num + it.numStep ≥ it.den then
    { it with dec := it.dec + it.decStep + 1, num := it.num + it.numStep - it.den }
  else { it with dec := it.dec + it.decStep, num := it.num + it.numStep }

/-- wiki_sort.h 304-308. -/
def WIter.finished (it : WIter) : Bool := decide (it.dec ≥ it.size)

/-- wiki_sort.h 310-321: the iterator after `nextLevel`; its result is `decStep < size`. -/
def WIter.nextLevel (it : WIter) : WIter :=
  if it.numStep + it.numStep ≥ it.den then
    { it with decStep := it.decStep + it.decStep + 1, numStep := it.numStep + it.numStep - it.den }
  else { it with decStep := it.decStep + it.decStep, numStep := it.numStep + it.numStep }

/-- wiki_sort.h 368-406: the networks. -/
def wikiNet : Nat → List (Nat × Nat)
  | 8 => [(0, 1), (2, 3), (4, 5), (6, 7), (0, 2), (1, 3), (4, 6), (5, 7), (1, 2), (5, 6), (0, 4), (3, 7), (1, 5), (2, 6),
      (1, 4), (3, 6), (2, 4), (3, 5), (3, 4)]
  | 7 => [(1, 2), (3, 4), (5, 6), (0, 2), (3, 5), (4, 6), (0, 1), (4, 5), (2, 6), (0, 4), (1, 5), (0, 3), (2, 5),
      (1, 3), (2, 4), (2, 3)]
  | 6 => [(1, 2), (4, 5), (0, 2), (3, 5), (0, 1), (3, 4), (2, 5), (0, 3), (1, 4), (2, 4), (1, 3), (2, 3)]
  | 5 => [(0, 1), (3, 4), (2, 4), (2, 3), (1, 4), (0, 3), (0, 2), (1, 3), (1, 2)]
  | 4 => [(0, 1), (2, 3), (0, 2), (1, 3), (1, 2)]
  | _ => []

/-- `iter_swap(order + x, order + y)`. -/
def swapOrder (order : Nat → Nat) (x y : Nat) : Nat → Nat :=
  fun i => if i = x then order y else if i = y then order x else order i

section
variable (cmp : α → α → M α Bool) (c : Cfg)

/-- wiki_sort.h 360-361: the condition of `do_swap`. -/
def wikiOut (start : Nat) (order : Nat → Nat) (x y : Nat) : M α Bool := do
  if ← wikiLt cmp (start + y) (start + x) then pure true
  else if order x > order y then wikiLt (notC cmp) (start + x) (start + y)
  else pure false

/-- wiki_sort.h 359-366: `do_swap`, for each of the pairs of a network. -/
def wikiNetwork (start : Nat) : (Nat → Nat) → List (Nat × Nat) → M α Unit
  | _, [] => pure ()
  | order, (x, y) :: net => do
    if ← wikiOut cmp start order x y then
      swap (start + x) (start + y)
      wikiNetwork start (swapOrder order x y) net
    else wikiNetwork start order net

/-- wiki_sort.h 355-407: sorting the groups of 4 to 8 elements. -/
def wikiGroups (first : Nat) (it : WIter) : M α Unit := do
  if it.finished then pure ()
  else
    wikiNetwork cmp (first + it.dec) id (wikiNet (it.next.dec - it.dec))
    wikiGroups first it.next
partial_fixpoint

/-- wiki_sort.h 426-441, 445-456 and 466-477: merging `[a, m)` and `[m, e)` to `dst`. `skip` is the condition at 436-437, on which nothing is done
and the result is `false`. -/
def wikiMergeTo (skip : M α Bool) (a m e dst : Nat) : M α Bool := do
  if ← wikiLt cmp (e - 1) a then
    let _ ← moveRange id id a m (dst + (e - m))
    let _ ← moveRange id id m e dst
    pure true
  else if ← wikiLt cmp m (m - 1) then
    let _ ← mergeMove cmp id id id a m m e dst
    pure true
  else if ← skip then pure false
  else
    let _ ← moveRange id id a e dst
    pure true

/-- wiki_sort.h 436-437. -/
def wikiInOrder (m2 m3 : Nat) : M α Bool := do
  if ← wikiLt cmp m3 (m3 - 1) then pure false
  else wikiLt (notC cmp) m2 (m2 - 1)

/-- wiki_sort.h 426-477: merging four ranges, through the cache. -/
def wikiFour (cache a m1 m2 m3 e : Nat) : M α Unit := do
  if ← wikiMergeTo cmp (wikiInOrder cmp m2 m3) a m1 m2 cache then
    let _ ← wikiMergeTo cmp (pure false) m2 m3 e (cache + (m2 - a))
    let _ ← wikiMergeTo cmp (pure false) cache (cache + (m2 - a)) (cache + ((m2 - a) + (e - m2))) a
    pure ()
  else pure ()

/-- wiki_sort.h 419-478: the loop over the ranges, by four. -/
def wikiFours (first cache : Nat) (it : WIter) : M α Unit := do
  if it.finished then pure ()
  else
    wikiFour cmp cache (first + it.dec) (first + it.next.dec) (first + it.next.next.dec) (first + it.next.next.next.dec)
      (first + it.next.next.next.next.dec)
    wikiFours first cache it.next.next.next.next
partial_fixpoint

/-- wiki_sort.h 486-498 and 701-864: the loops over the ranges, by two. -/
def wikiPairs (body : Nat → Nat → Nat → M α Unit) (first : Nat) (it : WIter) : M α Unit := do
  if it.finished then pure ()
  else
    body (first + it.dec) (first + it.next.dec) (first + it.next.next.dec)
    wikiPairs body first it.next.next
partial_fixpoint

end

/-- What `uninitialized_move` (move.h 99-109) and `destruct_n` (memory.h 132-137) dispatch on: `std::is_trivial` and
`std::is_trivially_destructible`. -/
structure TypeTraits where
  trivial : Bool
  trivDtor : Bool

/-- `::new (dst) T(iter_move(src))` in storage that may hold an object, whose lifetime ends without a call to its destructor. -/
def placeFrom (dst src : Nat) : M α Unit := fun s =>
  match s.cell src with
  | .val a =>
    match s.cell dst with
    | .unalloc => some (.error .dead, s)
    | _ => some (.ok (), { s with cell := setCell (setCell s.cell src .moved) dst (.val a), movs := s.movs + 1 })
  | _ => some (.error .deref, s)

/-- move.h 88-98: the constructing overload of `uninitialized_move`, to storage that may hold objects. -/
def placeRange (first last result : Nat) : M α Nat := do
  if first ≠ last then
    placeFrom result first
    placeRange (first + 1) last (result + 1)
  else pure result
partial_fixpoint

/-- move.h 99-109: `uninitialized_move`. -/
def wikiMoveIn (t : TypeTraits) (first last result : Nat) : M α Nat :=
  if t.trivial then moveRange id id first last result else placeRange first last result

/-- memory.h 94-137: the guard `destruct_n`, after `n` objects. For a trivial type it counts no object: a trivial type is trivially
destructible. -/
def wikiGuard (t : TypeTraits) (p n : Nat) : M α Unit :=
  if t.trivDtor then pure () else destroyN p n

section
variable (cmp : α → α → M α Bool) (c : Cfg)

/-- buffered_inplace_merge.h 103-128, on a buffer of objects (`bufferedInplaceMerge` is the same function on raw storage). -/
def wikiBuffered (t : TypeTraits) (first middle last len1 len2 buff : Nat) : M α Unit := do
  if len1 ≤ len2 then
    let ptr ← wikiMoveIn t first middle buff
    halfInplaceMerge cmp id id buff ptr middle last first len1
    wikiGuard t buff (ptr - buff)
  else
    let ptr ← wikiMoveIn t middle last buff
    halfInplaceMerge (flipC cmp) (rev ptr) (rev last) 0 (ptr - buff) (last - middle) (last - first) 0 len2
    wikiGuard t buff (ptr - buff)

/-- wiki_sort.h 490-497: merging two ranges, one of which fits in the cache. -/
def wikiTwo (t : TypeTraits) (cache a m e : Nat) : M α Unit := do
  if ← wikiLt cmp (e - 1) a then
    let _ ← rotate c a m e
    pure ()
  else if ← wikiLt cmp m (m - 1) then wikiBuffered cmp t a m e (m - a) (e - m) cache
  else pure ()

end

/-- wiki_sort.h 521-526: an element of `pull`. `from`, `to` and `range` are `src`, `dst`, `lo` and `hi`. -/
structure WPull where
  src : Nat
  dst : Nat
  count : Nat
  lo : Nat
  hi : Nat

/-- wiki_sort.h 517-533: the variables of the search of the buffers. `pulled` is whether `pull_index` is 1. -/
structure WSearch where
  find : Nat
  sep : Bool
  pulled : Bool
  p0 : WPull
  p1 : WPull
  b1 : WRange
  b2 : WRange

/-- wiki_sort.h 559-564: `do_pull`. -/
def WSearch.pull (st : WSearch) (p : WPull) : WSearch :=
  if st.pulled then { st with p1 := p } else { st with p0 := p }

/-- wiki_sort.h 643-648, for a buffer found in a `B` subarray; 600 for one found in an `A` subarray. -/
def WSearch.cut (st : WSearch) (right : Bool) (lo : Nat) : WSearch :=
  if right ∧ st.p0.lo = lo then { st with p0 := { st.p0 with hi := st.p0.hi - st.p1.count } } else st

/-- wiki_sort.h 575-608 and 619-658: what to do with the `count` values found from `index`. They are pulled out to `to`, and `right` is whether
they are in a `B` subarray: `f` is where they will be. `fit` is the condition `cache_size > 0 && block_size <= cache_size`. The second result
is whether the search ends. -/
def WSearch.take (st : WSearch) (fit right : Bool) (bufSize lo hi index count to : Nat) : WSearch × Bool :=
  let f := if right then to - count else to
  let all : WRange := ⟨f, f + count⟩
  if count ≥ bufSize then
    let st' := { st.pull ⟨index, to, count, lo, hi⟩ with pulled := true }
    if count = bufSize + bufSize then ({ st' with b1 := ⟨f, f + bufSize⟩, b2 := ⟨f + bufSize, f + count⟩ }, true)
    else if st.find = bufSize + bufSize then ({ st' with b1 := all, find := bufSize }, false)
    else if fit then ({ st' with b1 := all }, true)
    else if st.sep then ({ st' with b1 := all, sep := false }, false)
    else ({ st'.cut right lo with b2 := all }, true)
  else if st.pulled = false ∧ count > st.b1.stop - st.b1.start then
    ({ st.pull ⟨index, to, count, lo, hi⟩ with b1 := all }, false)
  else (st, false)

section
variable (cmp : α → α → M α Bool) (c : Cfg)

/-- wiki_sort.h 568-573: counting the distinct values of an `A` subarray. The result is `index` and `count`. -/
def wikiCountA (find aEnd last count : Nat) : M α (Nat × Nat) := do
  if count < find then
    let v ← read last
    let index ← findLastForward cmp (last + 1) aEnd v (find - count)
    if index = aEnd then pure (last, count)
    else wikiCountA find aEnd index (count + 1)
  else pure (last, count)
partial_fixpoint

/-- wiki_sort.h 612-617: counting the distinct values of a `B` subarray. -/
def wikiCountB (find bStart last count : Nat) : M α (Nat × Nat) := do
  if count < find then
    let v ← read last
    let index ← findFirstBackward cmp bStart last v (find - count)
    if index = bStart then pure (last, count)
    else wikiCountB find bStart (index - 1) (count + 1)
  else pure (last, count)
partial_fixpoint

/-- wiki_sort.h 553-659: the search of the buffers. -/
def wikiSearch (fit : Bool) (bufSize first : Nat) (it : WIter) (st : WSearch) : M α WSearch := do
  if it.finished then pure st
  else
    let (index, count) ← wikiCountA cmp st.find (first + it.next.dec) (first + it.dec) 1
    let (st, stop) := st.take fit false bufSize (first + it.dec) (first + it.next.next.dec) index count (first + it.dec)
    if stop then pure st
    else
      let (index, count) ← wikiCountB cmp st.find (first + it.next.dec) (first + it.next.next.dec - 1) 1
      let (st, stop) := st.take fit true bufSize (first + it.dec) (first + it.next.next.dec) index count (first + it.next.next.dec)
      if stop then pure st
      else wikiSearch fit bufSize first it.next.next st
partial_fixpoint

/-- wiki_sort.h 668-677: pulling values out to the left. `src` is `pull[pull_index].from`, which is the result. -/
def wikiPullLeft (length dst count src index : Nat) : M α Nat := do
  if count < length then
    let v ← read (index - 1)
    let index ← findFirstBackward cmp dst (src - (count - 1)) v (length - count)
    let _ ← rotate c (index + 1) (src + 1 - count) (src + 1)
    wikiPullLeft length dst (count + 1) (index + count) index
  else pure src
partial_fixpoint

/-- wiki_sort.h 681-687: pulling values out to the right. -/
def wikiPullRight (length dst count src index : Nat) : M α Nat := do
  if count < length then
    let v ← read index
    let index ← findLastForward cmp index dst v (length - count)
    let _ ← rotate c src (src + count) (index - 1)
    wikiPullRight length dst (count + 1) (index - count - 1) index
  else pure src
partial_fixpoint

/-- wiki_sort.h 663-688: pulling out a range of values. -/
def wikiPull (p : WPull) : M α WPull := do
  if p.dst < p.src then
    let src ← wikiPullLeft cmp c p.count p.dst 1 p.src p.src
    pure { p with src := src }
  else if p.dst > p.src then
    let src ← wikiPullRight cmp c p.count p.dst 1 p.src (p.src + 1)
    pure { p with src := src }
  else pure p

/-- wiki_sort.h 741-744: swapping the first value of each block of `A` with the values of the first buffer. -/
def wikiTag (bs stop indexA index : Nat) : M α Unit := do
  if index < stop then
    swap indexA index
    wikiTag bs stop (indexA + 1) (index + bs)
  else pure ()
partial_fixpoint

end

/-- The variables that are constant in the merges of a level: the cache and its size, the size of the blocks, the second buffer. -/
structure WMerge where
  cache : Nat
  cs : Nat
  bs : Nat
  b2 : WRange

section
variable (cmp : α → α → M α Bool) (c : Cfg) (w : WMerge)

/-- wiki_sort.h 756-760: saving the first block. -/
def wikiSave (la le : Nat) : M α Unit := do
  if w.cs > 0 ∧ le - la ≤ w.cs then
    let _ ← moveRange id id la le w.cache
    pure ()
  else if w.b2.stop - w.b2.start > 0 then
    let _ ← swapRanges la le w.b2.start
    pure ()
  else pure ()

/-- wiki_sort.h 790-800 and 852-862: merging a block of `A` with the values that follow it. -/
def wikiLocal (la le be : Nat) : M α Unit := do
  if w.cs > 0 ∧ le - la ≤ w.cs then
    halfInplaceMerge cmp id id w.cache (w.cache + (le - la)) le be la (min (le - la) (be - le))
  else if w.b2.stop - w.b2.start > 0 then mergeInternal cmp la le le be w.b2.start
  else mergeInPlace cmp c la le be

/-- wiki_sort.h 802-815: moving the remaining values of a block of `B` after a block of `A`, which is saved. -/
def wikiShift (split rem ba : Nat) : M α Unit := do
  if w.b2.stop - w.b2.start > 0 ∨ (w.cs > 0 ∧ w.bs ≤ w.cs) then
    if w.bs ≤ w.cs then
      let _ ← moveRange id id ba (ba + w.bs) w.cache
      let _ ← moveRange id id split (split + rem) (ba + (w.bs - rem))
      pure ()
    else
      let _ ← swapRanges ba (ba + w.bs) w.b2.start
      let _ ← swapRanges split (split + rem) (ba + (w.bs - rem))
      pure ()
  else
    let _ ← rotate c split ba (ba + w.bs)
    pure ()

/-- wiki_sort.h 766-767: whether to leave a block of `A` behind. -/
def wikiDrop (lbs lbe bbs bbe indexA : Nat) : M α Bool := do
  if lbs < lbe then
    if ← wikiLt cmp (lbe - 1) indexA then pure (decide (bbs = bbe))
    else pure true
  else pure (decide (bbs = bbe))

/-- wiki_sort.h 774-779: the block of `A` with the least tag. -/
def wikiMinBlock (bs stop findA minA : Nat) : M α Nat := do
  if findA < stop then
    if ← wikiLt cmp findA minA then wikiMinBlock bs stop (findA + bs) findA
    else wikiMinBlock bs stop (findA + bs) minA
  else pure minA
partial_fixpoint

/-- wiki_sort.h 763-848: rolling the blocks of `A` through the blocks of `B`. `lastA` is `[la, le)`, `lastB` is `[lbs, lbe)`, `blockA` is
`[bas, bae)`, `blockB` is `[bbs, bbe)`, and `B.end` is `e`. The result is `lastA`. -/
def wikiRoll (e la le lbs lbe bas bae bbs bbe indexA : Nat) : M α WRange := do
  if ← wikiDrop cmp lbs lbe bbs bbe indexA then
    let v ← read indexA
    let split ← lowerBound cmp lbs lbe v
    let minA ← wikiMinBlock cmp w.bs bae (bas + w.bs) bas
    let _ ← swapRanges bas (bas + w.bs) minA
    swap bas indexA
    wikiLocal cmp c w la le split
    wikiShift c w split (lbe - split) bas
    if bas + w.bs = bae then pure ⟨bas - (lbe - split), bas - (lbe - split) + w.bs⟩
    else
      wikiRoll e (bas - (lbe - split)) (bas - (lbe - split) + w.bs) (bas - (lbe - split) + w.bs)
        (bas - (lbe - split) + w.bs + (lbe - split)) (bas + w.bs) bae bbs bbe (indexA + 1)
  else if bbe - bbs < w.bs then
    let _ ← rotate c bas bbs bbe
    wikiRoll e la le bas (bas + (bbe - bbs)) (bas + (bbe - bbs)) (bae + (bbe - bbs)) bbs bbs indexA
  else
    let _ ← swapRanges bas (bas + w.bs) bbs
    wikiRoll e la le bas (bas + w.bs) (bas + w.bs) (bae + w.bs) (bbs + w.bs) (if bbe + w.bs > e then e else bbe + w.bs) indexA
partial_fixpoint

/-- wiki_sort.h 762-848: the blocks of `A` begin at `firstEnd`. `lastB` is `{ first, first }` at first: an empty range. -/
def wikiRollAll (first buf1 a firstEnd m e : Nat) : M α WRange :=
  if firstEnd < m then
    wikiRoll cmp c w e a firstEnd first first firstEnd m m (m + min w.bs (e - m)) buf1
  else pure ⟨a, firstEnd⟩

/-- wiki_sort.h 736-862: merging `[a, m)` and `[m, e)` by blocks. -/
def wikiBlocks (first buf1 a m e : Nat) : M α Unit := do
  wikiTag w.bs m buf1 (a + (m - a) % w.bs)
  wikiSave w a (a + (m - a) % w.bs)
  let lastA ← wikiRollAll cmp c w first buf1 a (a + (m - a) % w.bs) m e
  wikiLocal cmp c w lastA.start lastA.stop e

/-- wiki_sort.h 730-863: merging `[a, m)` and `[m, e)`. -/
def wikiMerge (first buf1 a m e : Nat) : M α Unit := do
  if ← wikiLt cmp (e - 1) a then
    let _ ← rotate c a m e
    pure ()
  else if ← wikiLt cmp m (m - 1) then wikiBlocks cmp c w first buf1 a m e
  else pure ()

end

/-- wiki_sort.h 707-719 and 720-728: removing from the ranges `[a, m)` and `[m, e)` the values that have been pulled out. The result is `none` when
one of the ranges is empty then. -/
def WPull.trim (p : WPull) (start : Nat) (r : Nat × Nat × Nat) : Option (Nat × Nat × Nat) :=
  if start = p.lo then
    if p.src > p.dst then if r.1 + p.count = r.2.1 then none else some (r.1 + p.count, r.2.1, r.2.2)
    else if p.src < p.dst then if r.2.2 - p.count = r.2.1 then none else some (r.1, r.2.1, r.2.2 - p.count)
    else some r
  else some r

section
variable (cmp : α → α → M α Bool) (c : Cfg)

/-- wiki_sort.h 705-863: the body of the loop over the pairs of ranges. -/
def wikiBody (w : WMerge) (p0 p1 : WPull) (first buf1 a m e : Nat) : M α Unit :=
  match (p0.trim a (a, m, e)).bind (p1.trim a) with
  | none => pure ()
  | some (a, m, e) => wikiMerge cmp c w first buf1 a m e

/-- wiki_sort.h 881-889: redistributing the values `[bs, be)` to the right. -/
def wikiSpreadRight (hi bs be unique : Nat) : M α Unit := do
  if be - bs > 0 then
    let v ← read bs
    let index ← findFirstForward cmp be hi v unique
    let _ ← rotate c bs be index
    wikiSpreadRight hi (bs + (index - be + 1)) (be + (index - be)) (unique - 2)
  else pure ()
partial_fixpoint

/-- wiki_sort.h 896-904: redistributing the values `[bs, be)` to the left. -/
def wikiSpreadLeft (lo bs be unique : Nat) : M α Unit := do
  if be - bs > 0 then
    let v ← read (be - 1)
    let index ← findLastBackward cmp lo bs v unique
    let _ ← rotate c index (index + (bs - index)) be
    wikiSpreadLeft lo (bs - (bs - index)) (be - (bs - index + 1)) (unique - 2)
  else pure ()
partial_fixpoint

/-- wiki_sort.h 874-905: redistributing the values of a buffer. -/
def wikiSpread (p : WPull) : M α Unit := do
  if p.src > p.dst then wikiSpreadRight cmp c p.hi p.lo (p.lo + p.count) (p.count * 2)
  else if p.src < p.dst then wikiSpreadLeft cmp c p.lo (p.hi - p.count) p.hi (p.count * 2)
  else pure ()

/-- wiki_sort.h 517-543: the variables before the search. `pull[0].from`, `pull[0].to`, `pull[1].from` and `pull[1].to` are not initialized: they
are `junk 0` to `junk 3`. -/
def wikiSearchInit (fit : Bool) (junk : Nat → Nat) (first bufSize len : Nat) : WSearch where
  find := if fit then bufSize else if bufSize + bufSize > len then bufSize else bufSize + bufSize
  sep := !fit && decide (bufSize + bufSize > len)
  pulled := false
  p0 := ⟨junk 0, junk 1, 0, first, first⟩
  p1 := ⟨junk 2, junk 3, 0, first, first⟩
  b1 := ⟨first, first⟩
  b2 := ⟨first, first⟩

/-- wiki_sort.h 512-906: merging the ranges by two without having them fit in the cache. -/
def wikiInPlace (junk : Nat → Nat) (cache cs first : Nat) (it : WIter) : M α Unit := do
  let q ← divC it.decStep (Nat.sqrt it.decStep)
  let fit := decide (cs > 0 ∧ Nat.sqrt it.decStep ≤ cs)
  let st ← wikiSearch cmp fit (q + 1) first it.begin (wikiSearchInit fit junk first (q + 1) it.decStep)
  let p0 ← wikiPull cmp c st.p0
  let p1 ← wikiPull cmp c st.p1
  let q ← divC it.decStep (st.b1.stop - st.b1.start)
  wikiPairs (wikiBody cmp c ⟨cache, cs, q + 1, st.b2⟩ p0 p1 first st.b1.start) first it.begin
  insertionSort cmp st.b2.start st.b2.stop
  wikiSpread cmp c p0
  wikiSpread cmp c p1

/-- wiki_sort.h 413-907: one level of merges, or two. The result is the iterator for the `nextLevel` at 910. -/
def wikiLevel (t : TypeTraits) (junk : Nat → Nat) (cache cs first : Nat) (it : WIter) : M α WIter := do
  if it.decStep < cs then
    if (it.decStep + 1) * 4 ≤ cs ∧ it.decStep * 4 ≤ it.size then
      wikiFours cmp first cache it.begin
      pure it.nextLevel
    else
      wikiPairs (wikiTwo cmp c t cache) first it.begin
      pure it
  else
    wikiInPlace cmp c junk cache cs first it
    pure it

/-- wiki_sort.h 410-911: the levels. The uninitialized values may be others for each level. -/
def wikiLevels (t : TypeTraits) (junk : Nat → Nat → Nat) (cache cs first : Nat) (it : WIter) : M α Unit := do
  let it ← wikiLevel cmp c t (junk it.decStep) cache cs first it
  if it.nextLevel.decStep < it.size then wikiLevels t junk cache cs first it.nextLevel else pure ()
partial_fixpoint

/-- wiki_sort.h 333-912: `Wiki::sort`. -/
def wikiSortWith (t : TypeTraits) (junk : Nat → Nat → Nat) (cache cs first last : Nat) : M α Unit := do
  if last - first < 15 then insertionSort cmp first last
  else
    wikiGroups cmp first (WIter.new (last - first))
    wikiLevels cmp c t junk cache cs first (WIter.new (last - first))

/-- wiki_sort.h 917-930, wiki_sorter.h 33-49: `wiki_sort`. The cache for a range of `n` elements has `size n` objects: `size` is constant for a
`fixed_buffer`, and the size policy for a `dynamic_buffer`. -/
def wikiSort (t : TypeTraits) (junk : Nat → Nat → Nat) (size : Nat → Nat) (first last : Nat) : M α Unit := do
  let cs := size (last - first)
  let cache ← newObjects cs
  wikiSortWith cmp c t junk cache cs first last
  destroyN cache cs
  free cache cs

end
end CppSort
