import Verif.Model.Merge
/-
detail/grail_sort.h, detail/three_way_compare.h, utility/buffer.h, sorters/grail_sorter.h

The functions that work with an extra buffer and the ones that work with a buffer inside of the range are the same
ones, up to moving an element in place of exchanging two of them: they have one model, with a parameter `put`,
`put dst src` being `*dst = iter_move(src)` (`moveTo`) or `iter_swap(dst, src)` (`swap`, whose order of the arguments is not
followed, see `swap_comm`). Numbers are unbounded: the conversions to `int` at lines 665 and 675 are not modelled. The `int`s that are 0 or 1
(`left_over_frag`, `frag_type`, `frest`, `fnext`) are Booleans.
-/
set_option autoImplicit false

namespace CppSort
variable {α : Type}

/-- buffer.h 23-85 and 168-262: a `fixed_buffer` or a `dynamic_buffer` of `n` elements: live objects, without values that could
be read. -/
def newObjects (n : Nat) : M α Nat := fun s =>
  some (.ok s.brk,
    { s with cell := fun k => if s.brk ≤ k ∧ k < s.brk + n then .moved else s.cell k,
             brk := s.brk + n })

section
variable (cmp : α → α → M α Bool) (c : Cfg)

/-- three_way_compare.h 25-32. The overloads for `std::basic_string` are not modelled. -/
def grailCmp3 (x y : α) : M α Int := do
  if ← cmp x y then pure (-1)
  else if ← cmp y x then pure 1
  else pure 0

/-- `compare(proj(*i), proj(*j))`. -/
def grailCmp3At (i j : Nat) : M α Int := do
  let x ← read i
  let y ← read j
  grailCmp3 cmp x y

/-- grail_sort.h 58: is `*u` a new key? `r` is the result of `lower_bound_n`. -/
def grailFresh (h0 dist u r : Nat) : M α Bool :=
  if r = h0 + dist then pure true
  else do
    let k ← grailCmp3At cmp u r
    pure (decide (k ≠ 0))

/-- grail_sort.h 53-63: the loop of `find_keys`. The result is `h0` and `dist`. -/
def findKeysLoop (last keyCount h0 dist u : Nat) : M α (Nat × Nat) := do
  if u ≠ last then
    if dist = keyCount then pure (h0, dist)
    else
      let x ← read u
      let r ← lowerBoundN cmp h0 dist x
      if ← grailFresh cmp h0 dist u r then
        let h1 ← rotate c h0 (h0 + dist) u
        let _ ← rotate c (h1 + (r - h0)) u (u + 1)
        findKeysLoop last keyCount h1 (dist + 1) (u + 1)
      else findKeysLoop last keyCount h0 dist (u + 1)
  else pure (h0, dist)
partial_fixpoint

/-- grail_sort.h 44-66: `find_keys`. -/
def findKeys (first last keyCount : Nat) : M α Nat := do
  let (h0, dist) ← findKeysLoop cmp c last keyCount first 1 (first + 1)
  let _ ← rotate c first h0 (h0 + dist)
  pure dist

/-- grail_sort.h 81-86, 96-101, 241-245: rotate unless there is nothing to do (`it` is `middle`). -/
def grailRotate (it i j k : Nat) : M α Unit := do
  if it ≠ j then
    let _ ← rotate c i j k
    pure ()
  else pure ()

/-- grail_sort.h 88-90. -/
def mergeSkipLeft (first middle : Nat) : M α Nat := do
  if first + 1 ≠ middle then
    let k ← grailCmp3At cmp (first + 1) middle
    if k ≤ 0 then mergeSkipLeft (first + 1) middle
    else pure (first + 1)
  else pure (first + 1)
partial_fixpoint

/-- grail_sort.h 78-91. -/
def mergeFromLeft (first middle last : Nat) : M α Unit := do
  if first ≠ middle then
    let x ← read first
    let it ← lowerBound cmp middle last x
    grailRotate c it first middle it
    if it = last then pure ()
    else
      let f ← mergeSkipLeft cmp (first + (it - middle)) it
      mergeFromLeft f it last
  else pure ()
partial_fixpoint

/-- grail_sort.h 103-105. -/
def mergeSkipRight (middle last : Nat) : M α Nat := do
  if middle ≠ last - 1 then
    let k ← grailCmp3At cmp (middle - 1) (last - 1 - 1)
    if k ≤ 0 then mergeSkipRight middle (last - 1)
    else pure (last - 1)
  else pure (last - 1)
partial_fixpoint

/-- grail_sort.h 93-106. -/
def mergeFromRight (first middle last : Nat) : M α Unit := do
  if middle ≠ last then
    let x ← read (last - 1)
    let it ← upperBound cmp first middle x
    grailRotate c it it middle last
    if first = it then pure ()
    else
      let l ← mergeSkipRight cmp it (last - (middle - it))
      mergeFromRight first it l
  else pure ()
partial_fixpoint

/-- grail_sort.h 68-108: `merge_without_buffer`. -/
def mergeWithoutBuffer (first middle last : Nat) : M α Unit :=
  if middle - first < last - middle then mergeFromLeft cmp c first middle last
  else mergeFromRight cmp c first middle last

/-! ### Merging next to a buffer -/

section
variable (put : Nat → Nat → M α Unit)

/-- move.h 26-48 and swap_ranges.h 32-44. -/
def putRange (first last dst : Nat) : M α Unit := do
  if first ≠ last then
    put dst first
    putRange (first + 1) last (dst + 1)
  else pure ()
partial_fixpoint

/-- grail_sort.h 214-217, 311-314, 628-630, 633-635: from the end; `n` elements. -/
def putBack (last dst : Nat) : Nat → M α Unit
  | 0 => pure ()
  | n + 1 => do
    put (dst - 1) (last - 1)
    putBack (last - 1) (dst - 1) n

/-- grail_sort.h 124, 152, 165, 270: `end || compare(proj(*i), proj(*j)) > 0`. -/
def orGreater (stop : Bool) (i j : Nat) : M α Bool :=
  if stop then pure true
  else do
    let k ← grailCmp3At cmp i j
    pure (decide (k > 0))

/-- grail_sort.h 120-132, 268-279. The result is `left_it` (`first`) and `M` (`out`). -/
def mergeLeftLoop (middle last left right out : Nat) : M α (Nat × Nat) := do
  if right ≠ last then
    if ← orGreater cmp (left = middle) left right then
      put out right
      mergeLeftLoop middle last left (right + 1) (out + 1)
    else
      put out left
      mergeLeftLoop middle last (left + 1) right (out + 1)
  else pure (left, out)
partial_fixpoint

/-- grail_sort.h 110-136, 259-283: `merge_left`, `merge_left_with_extra_buffer`. -/
def mergeLeft (first middle last out : Nat) : M α Unit := do
  let (left, out) ← mergeLeftLoop cmp put middle last first middle out
  if out ≠ left then putRange put left middle out else pure ()

/-- grail_sort.h 201, 237, 251, 300: `compare(proj(*i), proj(*j)) - frag_type < 0`. -/
def fragLess (fragType : Bool) (i j : Nat) : M α Bool := do
  let k ← grailCmp3At cmp i j
  pure (decide (k - (if fragType then 1 else 0) < 0))

/-- grail_sort.h 200-209, 299-308. The result is `left_it` (`first`) and `right_it` (`it`). -/
def smartLoop (fragType : Bool) (middle last left right out : Nat) : M α (Nat × Nat) := do
  if left ≠ middle ∧ right ≠ last then
    if ← fragLess cmp fragType left right then
      put out left
      smartLoop fragType middle last (left + 1) right (out + 1)
    else
      put out right
      smartLoop fragType middle last left (right + 1) (out + 1)
  else pure (left, right)
partial_fixpoint

/-- grail_sort.h 186-223, 285-318: `smart_merge_with_buffer`, `smart_merge_with_extra_buffer`. -/
def smartMerge (first middle last blockLen : Nat) (frag : Bool) : M α (Nat × Bool) := do
  let (left, right) ← smartLoop cmp put (!frag) middle last first middle (first - blockLen)
  if left < middle then
    putBack put middle last (middle - left)
    pure (middle - left, frag)
  else pure (last - right, !frag)

end

/-- grail_sort.h 151-160. The result is `p0`, `p1` and `p2`. -/
def mergeRightLoop (first middle p0 p1 p2 : Nat) : M α (Nat × Nat × Nat) := do
  if first < p1 then
    if ← orGreater cmp (p2 < middle) p1 p2 then
      swap p0 p1
      mergeRightLoop first middle (p0 - 1) (p1 - 1) p2
    else
      swap p0 p2
      mergeRightLoop first middle (p0 - 1) p1 (p2 - 1)
  else pure (p0, p1, p2)
partial_fixpoint

/-- grail_sort.h 165-169. The result is `p0` and `p2`. -/
def mergeRightLast (middle p0 p1 p2 : Nat) : M α (Nat × Nat) := do
  if ← orGreater cmp (p2 < middle) p1 p2 then pure (p0, p2)
  else
    swap p0 p2
    mergeRightLast middle (p0 - 1) p1 (p2 - 1)
partial_fixpoint

/-- grail_sort.h 164-172. -/
def mergeRightFirst (first middle p0 p1 p2 : Nat) : M α (Nat × Nat) := do
  if p1 = first then
    let (p0, p2) ← mergeRightLast cmp middle p0 p1 p2
    swap p0 p1
    pure (p0 - 1, p2)
  else pure (p0, p2)

/-- grail_sort.h 175-182. -/
def mergeRightRest (middle p0 p2 : Nat) : M α Unit := do
  if middle < p2 then
    swap p0 p2
    mergeRightRest middle (p0 - 1) (p2 - 1)
  else if p2 = middle then swap p0 p2
  else pure ()
partial_fixpoint

/-- grail_sort.h 138-184: `merge_right`. -/
def mergeRight (first middle last out : Nat) : M α Unit := do
  let (p0, p1, p2) ← mergeRightLoop cmp first middle (out - 1) (middle - 1) (last - 1)
  let (p0, p2) ← mergeRightFirst cmp first middle p0 p1 p2
  if p2 ≠ p0 then mergeRightRest middle p0 p2 else pure ()

/-! ### Merging without a buffer -/

/-- grail_sort.h 239-240. -/
def smartBound (fragType : Bool) (middle last : Nat) (x : α) : M α Nat :=
  if fragType then lowerBound cmp middle last x else upperBound cmp middle last x

/-- grail_sort.h 249-251. -/
def smartSkip (fragType : Bool) (first middle : Nat) : M α Nat := do
  if first + 1 ≠ middle then
    if ← fragLess cmp fragType (first + 1) middle then smartSkip fragType (first + 1) middle
    else pure (first + 1)
  else pure (first + 1)
partial_fixpoint

/-- grail_sort.h 238-254. -/
def smartRotate (frag : Bool) (first middle last : Nat) : M α (Nat × Bool) := do
  if first ≠ middle then
    let x ← read first
    let it ← smartBound cmp (!frag) middle last x
    grailRotate c it first middle it
    if it = last then pure (it - (first + (it - middle)), frag)
    else
      let f ← smartSkip cmp (!frag) (first + (it - middle)) it
      smartRotate frag f it last
  else pure (last - middle, !frag)
partial_fixpoint

/-- grail_sort.h 225-255: `smart_merge_without_buffer`. -/
def smartMergeWithout (first middle last : Nat) (frag : Bool) : M α (Nat × Bool) := do
  if middle = last then pure (middle - first, frag)
  else if first ≠ middle then
    if ← fragLess cmp (!frag) (middle - 1) middle then pure (last - middle, !frag)
    else smartRotate cmp c frag first middle last
  else pure (last - middle, !frag)

/-! ### Blocks -/

/-- Where the elements are moved to: an extra buffer (`usexbuf`), a buffer inside of the range (`havebuf`), none. -/
inductive GrailBuf where
  | extra | inner | none
  deriving DecidableEq

/-- How an element goes to its place. -/
def GrailBuf.put : GrailBuf → Nat → Nat → M α Unit
  | .extra => moveTo
  | _ => swap

/-- grail_sort.h 350, 362, 371; 413-415, 435-437, 451-453. -/
def GrailBuf.emit (b : GrailBuf) (prest lrest lblock : Nat) : M α Unit :=
  if b = .none then pure () else putRange b.put prest (prest + lrest) (prest - lblock)

/-- grail_sort.h 354-356; 419-427. -/
def GrailBuf.smart (b : GrailBuf) (prest lrest lblock : Nat) (frest : Bool) : M α (Nat × Bool) :=
  if b = .none then smartMergeWithout cmp c prest (prest + lrest) (prest + (lrest + lblock)) frest
  else smartMerge cmp b.put prest (prest + lrest) (prest + (lrest + lblock)) lblock frest

/-- grail_sort.h 338-339, 368-369; 397-402, 443-449. -/
def GrailBuf.final (b : GrailBuf) (first middle last lblock : Nat) : M α Unit :=
  if b = .none then mergeWithoutBuffer cmp c first middle last
  else mergeLeft cmp b.put first middle last (first - lblock)

/-- grail_sort.h 344, 348; 407, 411: the stream of a block. -/
def grailStream (keys midkey i : Nat) : M α Bool := do
  let k ← grailCmp3At cmp (keys + i) midkey
  pure (!decide (k < 0))

/-- grail_sort.h 346-358; 409-430. The result is `pidx`, `lrest` and `frest`. -/
def mergeBuffersLoop (b : GrailBuf) (keys midkey nblock lblock cidx pidx lrest : Nat) (frest : Bool) :
    M α (Nat × Nat × Bool) := do
  if cidx < nblock then
    let fnext ← grailStream cmp keys midkey cidx
    if fnext = frest then
      b.emit (pidx - lrest) lrest lblock
      mergeBuffersLoop b keys midkey nblock lblock (cidx + 1) (pidx + lblock) lblock frest
    else
      let (lrest, frest) ← b.smart cmp c (pidx - lrest) lrest lblock frest
      mergeBuffersLoop b keys midkey nblock lblock (cidx + 1) (pidx + lblock) lrest frest
  else pure (pidx, lrest, frest)
partial_fixpoint

/-- grail_sort.h 359-372; 432-454. -/
def mergeBuffersEnd (b : GrailBuf) (lblock nblock2 llast pidx lrest : Nat) (frest : Bool) : M α Unit := do
  if llast ≠ 0 then
    if frest then
      b.emit (pidx - lrest) lrest lblock
      b.final cmp c pidx (pidx + lblock * nblock2) (pidx + (lblock * nblock2 + llast)) lblock
    else
      b.final cmp c (pidx - lrest) (pidx - lrest + (lrest + lblock * nblock2))
        (pidx - lrest + (lrest + lblock * nblock2 + llast)) lblock
  else b.emit (pidx - lrest) lrest lblock

/-- grail_sort.h 320-373, 377-455: `merge_buffers_left_with_extra_buffer`, `merge_buffers_left`. -/
def mergeBuffersLeft (b : GrailBuf) (keys midkey arr nblock lblock nblock2 llast : Nat) : M α Unit := do
  if nblock = 0 then
    b.final cmp c arr (arr + nblock2 * lblock) (arr + nblock2 * lblock + llast) lblock
  else
    let frest ← grailStream cmp keys midkey 0
    let (pidx, lrest, frest) ← mergeBuffersLoop cmp c b keys midkey nblock lblock 1 (arr + lblock) lblock frest
    mergeBuffersEnd cmp c b lblock nblock2 llast pidx lrest frest

/-! ### Building the blocks -/

/-- grail_sort.h 482-492, 513-523: `u` is 1 when the two elements are exchanged. -/
def buildPairs (put : Nat → Nat → M α Unit) (first size m : Nat) : M α Unit := do
  if m < size then
    let r ← grailCmp3At cmp (first + (m - 1)) (first + m)
    let u := if r > 0 then 1 else 0
    put (first + m - 3) (first + (m - 1 + u))
    put (first + m - 2) (first + (m - u))
    buildPairs put first size (m + 2)
  else if size % 2 = 1 then put (first + size - 3) (first + size - 1)
  else pure ()
partial_fixpoint

/-- grail_sort.h 496-507, 529-542: `tail` is what is done with the last elements when there are at most `h` of them. The
iterator `p1` is not computed when it would be before `p0`. -/
def buildPass (put : Nat → Nat → M α Unit) (tail : Nat → M α Unit) (h last p0 : Nat) : M α Unit := do
  if p0 + 2 * h ≤ last then
    mergeLeft cmp put p0 (p0 + h) (p0 + (h + h)) (p0 - h)
    buildPass put tail h last (p0 + 2 * h)
  else if h < last - p0 then mergeLeft cmp put p0 (p0 + h) last (p0 - h)
  else tail p0
partial_fixpoint

/-- grail_sort.h 495-510, 528-545. The result is `first` and `last`. -/
def buildPasses (put : Nat → Nat → M α Unit) (tail : Nat → Nat → Nat → M α Unit) (limit h first last : Nat) :
    M α (Nat × Nat × Nat) := do
  if h < limit then
    buildPass cmp put (tail h last) h last first
    buildPasses put tail limit (h * 2) (first - h) (last - h)
  else pure (h, first, last)
partial_fixpoint

/-- grail_sort.h 553-556. -/
def buildRights (K first p : Nat) : M α Unit := do
  if first < p then
    mergeRight cmp (p - 2 * K) (p - 2 * K + K) (p - 2 * K + (K + K)) (p - 2 * K + (K + K + K))
    buildRights K first (p - 2 * K)
  else pure ()
partial_fixpoint

/-- grail_sort.h 474-477. -/
def buildKbuf (n : Nat) : M α Nat := do
  if n &&& (n - 1) ≠ 0 then buildKbuf (n &&& (n - 1)) else pure n
partial_fixpoint

/-- grail_sort.h 479-527: the passes up to a size that fits in the extra buffer. The result is `h`, `first` and `last`. -/
def buildStart (first last kbuf extbuf : Nat) : M α (Nat × Nat × Nat) := do
  if kbuf ≠ 0 then
    putRange moveTo (first - kbuf) first extbuf
    buildPairs cmp moveTo first (last - first) 1
    let r ← buildPasses cmp moveTo (fun h last p0 => putRange moveTo p0 last (p0 - h)) kbuf 2 (first - 2) (last - 2)
    putRange moveTo extbuf (extbuf + kbuf) r.2.2
    pure r
  else
    buildPairs cmp swap first (last - first) 1
    pure (2, first - 2, last - 2)

/-- grail_sort.h 546-552. -/
def buildLast (K last restk : Nat) : M α Unit := do
  if restk ≤ K then
    let _ ← rotate c (last - restk) last (last + K)
    pure ()
  else mergeRight cmp (last - restk) (last - restk + K) last (last + K)

/-- grail_sort.h 457-557: `build_blocks`. -/
def buildBlocks (first last K extbuf LExtBuf : Nat) : M α Unit := do
  let kbuf ← buildKbuf (min K LExtBuf)
  let (h, f, l) ← buildStart cmp first last kbuf extbuf
  let (_, f, l) ← buildPasses cmp swap
    (fun h last p0 => do let _ ← rotate c (p0 - h) p0 last; pure ()) K h f l
  buildLast cmp c K l ((last - first) % (2 * K))
  buildRights cmp K f (l - (last - first) % (2 * K))

/-! ### Combining the blocks -/

/-- grail_sort.h 596: `kc == 0 && compare(proj(keys[p]), proj(keys[v])) > 0`. -/
def keyGreater (kc : Int) (keys p v : Nat) : M α Bool :=
  if kc = 0 then do
    let k ← grailCmp3At cmp (keys + p) (keys + v)
    pure (decide (k > 0))
  else pure false

/-- grail_sort.h 595-596. -/
def blockGreater (keys arr lblock p v : Nat) : M α Bool := do
  let kc ← grailCmp3At cmp (arr + p * lblock) (arr + v * lblock)
  if kc > 0 then pure true else keyGreater cmp kc keys p v

/-- grail_sort.h 593-599: the least block. -/
def selectMin (keys arr lblock nblk p v : Nat) : M α Nat := do
  if v < nblk then
    if ← blockGreater cmp keys arr lblock p v then selectMin keys arr lblock nblk v (v + 1)
    else selectMin keys arr lblock nblk p (v + 1)
  else pure p
partial_fixpoint

/-- grail_sort.h 591-607. The result is `midkey`. -/
def selectBlocks (keys arr lblock nblk midkey u : Nat) : M α Nat := do
  if u < nblk then
    let p ← selectMin cmp keys arr lblock nblk (u - 1) u
    if p ≠ u - 1 then
      let _ ← swapRanges (arr + (u - 1) * lblock) (arr + u * lblock) (arr + p * lblock)
      swap (keys + (u - 1)) (keys + p)
      selectBlocks keys arr lblock nblk (if midkey = u - 1 ∨ midkey = p then midkey ^^^ ((u - 1) ^^^ p) else midkey) (u + 1)
    else selectBlocks keys arr lblock nblk midkey (u + 1)
  else pure midkey
partial_fixpoint

/-- grail_sort.h 613-618. -/
def countLast (arr lblock nblk nbl2 : Nat) : M α Nat := do
  if nbl2 < nblk then
    let k ← grailCmp3At cmp (arr + nblk * lblock) (arr + (nblk - nbl2 - 1) * lblock)
    if k < 0 then countLast arr lblock nblk (nbl2 + 1) else pure nbl2
  else pure nbl2
partial_fixpoint

/-- grail_sort.h 608, 613-618: the number of the last blocks, to be merged with the `llast` elements after them. -/
def lastBlocks (arr lblock nblk llast : Nat) : M α Nat :=
  if llast ≠ 0 then countLast cmp arr lblock nblk 0 else pure 0

/-- grail_sort.h 587-625: one round of the loop of `combine_blocks`, for `2 * LL` elements or, at the end, for `lrest` elements. -/
def combineOne (b : GrailBuf) (keys arr LL lblock nblk nkeys llast : Nat) : M α Unit := do
  insertionSort cmp keys (keys + nkeys)
  let midkey ← selectBlocks cmp keys arr lblock nblk (LL / lblock) 1
  let nbl2 ← lastBlocks cmp arr lblock nblk llast
  mergeBuffersLeft cmp c b keys (keys + midkey) arr (nblk - nbl2) lblock nbl2 llast

/-- grail_sort.h 585-626: the loop of `combine_blocks`; `n` rounds of `2 * LL` elements are left. -/
def combineLoop (b : GrailBuf) (keys LL lblock lrest arr : Nat) : Nat → M α Unit
  | 0 =>
    if lrest ≠ 0 then
      combineOne cmp c b keys arr LL lblock (lrest / lblock) (lrest / lblock + 1) (lrest % lblock)
    else pure ()
  | n + 1 => do
    combineOne cmp c b keys arr LL lblock (2 * LL / lblock) (2 * LL / lblock) 0
    combineLoop b keys LL lblock lrest (arr + 2 * LL) n

/-- grail_sort.h 559-637: `combine_blocks`. -/
def combineBlocks (b : GrailBuf) (keys arr len LL lblock xbuf : Nat) : M α Unit := do
  let lrest := if len % (2 * LL) ≤ LL then 0 else len % (2 * LL)
  let len' := if len % (2 * LL) ≤ LL then len - len % (2 * LL) else len
  if b = .extra then putRange moveTo (arr - lblock) arr xbuf else pure ()
  combineLoop cmp c b keys LL lblock lrest arr (len / (2 * LL))
  match b with
  | .extra =>
    putBack moveTo (arr + len' - lblock) (arr + len') len'
    putRange moveTo xbuf (xbuf + lblock) (arr - lblock)
  | .inner => putBack swap (arr + len' - lblock) (arr + len') len'
  | .none => pure ()

/-! ### The algorithm -/

/-- grail_sort.h 649-654. -/
def lazyPairs (stop it : Nat) : M α Unit := do
  if it ≠ stop then
    let k ← grailCmp3At cmp it (it + 1)
    if k > 0 then
      swap it (it + 1)
      lazyPairs stop (it + 2)
    else lazyPairs stop (it + 2)
  else pure ()
partial_fixpoint

/-- grail_sort.h 657-668. -/
def lazyPass (h last p0 : Nat) : M α Unit := do
  if p0 + 2 * h ≤ last then
    mergeWithoutBuffer cmp c p0 (p0 + h) (p0 + (h + h))
    lazyPass h last (p0 + 2 * h)
  else if h < last - p0 then mergeWithoutBuffer cmp c p0 (p0 + h) last
  else pure ()
partial_fixpoint

/-- grail_sort.h 656-669. -/
def lazyPasses (first last h : Nat) : M α Unit := do
  if h < last - first then
    lazyPass cmp c h last first
    lazyPasses first last (h * 2)
  else pure ()
partial_fixpoint

/-- grail_sort.h 639-670: `lazy_stable_sort`. -/
def lazyStableSort (first last : Nat) : M α Unit := do
  lazyPairs cmp (if (last - first) % 2 = 0 then last else last - 1) first
  lazyPasses cmp c first last 2

/-- grail_sort.h 687-690. -/
def grailBlockLen (size lblock : Nat) : M α Nat := do
  if lblock * lblock < size then grailBlockLen size (lblock * 2) else pure lblock
partial_fixpoint

/-- grail_sort.h 699-702. -/
def grailKeyCount (found nkeys : Nat) : M α Nat := do
  if nkeys > found then grailKeyCount found (nkeys / 2) else pure nkeys
partial_fixpoint

/-- grail_sort.h 724-729: the number of keys to use without a buffer. -/
def grailFewKeys (nkeys nk s : Nat) : M α Nat := do
  if nk < nkeys ∧ s ≠ 0 then grailFewKeys nkeys (nk * 2) (s / 8) else pure nk
partial_fixpoint

/-- grail_sort.h 717-732: the length of the blocks, and whether there is a buffer in the range. -/
def grailChoose (havebuf : Bool) (lblock nkeys found cbuf : Nat) : M α (Nat × Bool) := do
  if havebuf then pure (lblock, true)
  else if nkeys > 4 ∧ nkeys / 8 * nkeys ≥ cbuf then pure (nkeys / 2, true)
  else
    let nk ← grailFewKeys nkeys 1 (cbuf * found / 2)
    pure (2 * cbuf / nk, false)

/-- grail_sort.h 716-737: the loop of `common_sort`. -/
def grailCombine (havebuf : Bool) (lblock nkeys found first ptr last extbuf LExtBuf cbuf : Nat) : M α Unit := do
  if last - ptr > cbuf * 2 then
    let (lb, chavebuf) ← grailChoose havebuf lblock nkeys found (cbuf * 2)
    combineBlocks cmp c (if chavebuf then (if lb ≤ LExtBuf then .extra else .inner) else .none) first ptr (last - ptr)
      (cbuf * 2) lb extbuf
    grailCombine havebuf lblock nkeys found first ptr last extbuf LExtBuf (cbuf * 2)
  else pure ()
partial_fixpoint

/-- grail_sort.h 706-739. -/
def grailWithKeys (havebuf : Bool) (lblock nkeys found first last extbuf LExtBuf : Nat) : M α Unit := do
  let ptr := first + (lblock + nkeys)
  let cbuf := if havebuf then lblock else nkeys
  buildBlocks cmp c ptr last cbuf extbuf (if havebuf then LExtBuf else 0)
  grailCombine cmp c havebuf lblock nkeys found first ptr last extbuf LExtBuf cbuf
  insertionSort cmp first ptr
  mergeWithoutBuffer cmp c first ptr last

/-- grail_sort.h 672-740: `common_sort`. -/
def commonSort (first last extbuf LExtBuf : Nat) : M α Unit := do
  if last - first < 16 then insertionSort cmp first last
  else
    let lblock ← grailBlockLen (last - first) 4
    let nkeys := (last - first - 1) / lblock + 1
    let found ← findKeys cmp c first last (nkeys + lblock)
    if found < nkeys + lblock then
      if found < 4 then lazyStableSort cmp c first last
      else
        let nkeys ← grailKeyCount found lblock
        grailWithKeys cmp c false 0 nkeys found first last extbuf LExtBuf
    else grailWithKeys cmp c true lblock nkeys found first last extbuf LExtBuf

/-- grail_sort.h 742-756, grail_sorter.h 62-74: `grail_sort`. The buffer for a range of `n` elements has `size n` elements: `size` is constant for a
`fixed_buffer`, and the size policy for a `dynamic_buffer`. -/
def grailSort (size : Nat → Nat) (first last : Nat) : M α Unit := do
  let n := size (last - first)
  let buf ← newObjects n
  commonSort cmp c first last buf n
  destroyN buf n
  free buf n

end
end CppSort
