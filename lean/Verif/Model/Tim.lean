import Verif.Model.Rotate
import Verif.Model.Merge
import Verif.Model.Spin
/-
detail/timsort.h: timsort and adaptive shivers sort.

Simplifications: iterators are addresses and `difference_type` is unbounded, so the overflow checks of
lines 323-325, 339-341, 379-381 and 396-398, which an existing range cannot trigger, are left out;
`minGallop` is an `Int` since it may become negative. `lastOfs`, which may be -1, is only used as
`lastOfs + 1`: that sum is what is computed. The `break_outer` flag is part of the result of the loops.
-/
set_option autoImplicit false

namespace CppSort
variable {α : Type} (cmp : α → α → M α Bool)

/-- timsort.h 153-162: the loop. The shift of the inner `for` loop, 158-160, is `move_backward(pos, start, start + 1)`. -/
def binaryLoop (lo hi start : Nat) : M α Unit := do
  if start < hi then
    let pivot ← moveOut start
    let pos ← upperBound cmp lo start pivot
    let _ ← moveBackward pos start (start + 1)
    assign pos pivot
    binaryLoop lo hi (start + 1)
  else
    pure ()
partial_fixpoint

/-- timsort.h 140-163. -/
def binarySort (lo hi start : Nat) : M α Unit :=
  binaryLoop cmp lo hi (if start = lo then start + 1 else start)

/-- timsort.h 179-181 (with `cmp` the comparison) and 184-186 (with its negation): the `do ... while`
loops looking for the end of a run. -/
def runLoop (hi runHi : Nat) : M α Nat := do
  let runHi := runHi + 1
  if runHi < hi then
    if ← cmp (← read runHi) (← read (runHi - 1)) then
      runLoop hi runHi
    else
      pure runHi
  else
    pure runHi
partial_fixpoint

/-- timsort.h 165-190. -/
def countRun (lo hi : Nat) : M α Nat := do
  let runHi := lo + 1
  if runHi = hi then
    pure 1
  else if ← cmp (← read runHi) (← read lo) then
    let runHi ← runLoop cmp hi runHi
    reverse lo runHi
    pure (runHi - lo)
  else
    let runHi ← runLoop (notC cmp) hi runHi
    pure (runHi - lo)

/-- timsort.h 198-201: the loop. -/
def minRunLoop (n r : Nat) : Nat :=
  if 64 ≤ n then minRunLoop (n >>> 1) (r ||| (n &&& 1)) else n + r
termination_by n
decreasing_by rw [Nat.shiftRight_eq_div_pow]; omega

/-- timsort.h 192-203. -/
def minRunLength (n : Nat) : Nat := minRunLoop n 0

/-- The four `while` loops of timsort.h 319-326, 335-342, 375-382, 392-399, with the test of the element at
the given distance as a parameter; returns `lastOfs` and `ofs`. -/
def gallopLoop (test : Nat → M α Bool) (maxOfs lastOfs ofs : Nat) : M α (Nat × Nat) := do
  if ofs < maxOfs then
    if ← test ofs then
      gallopLoop test maxOfs ofs (2 * ofs + 1)
    else
      pure (lastOfs, ofs)
  else
    pure (lastOfs, ofs)
partial_fixpoint

/-- timsort.h 302-356. -/
def gallopLeft (key : α) (base len hint : Nat) : M α Nat := do
  if ← cmp (← read (base + hint)) key then
    let maxOfs := len - hint
    let (lastOfs, ofs) ← gallopLoop (fun o => do cmp (← read (base + (hint + o))) key) maxOfs 0 1
    let ofs := min ofs maxOfs
    let q ← lowerBound cmp (base + (lastOfs + hint + 1)) (base + (ofs + hint)) key
    pure (q - base)
  else
    let maxOfs := hint + 1
    let (lastOfs, ofs) ← gallopLoop (fun o => do return !(← cmp (← read (base + (hint - o))) key)) maxOfs 0 1
    let ofs := min ofs maxOfs
    let q ← lowerBound cmp (base + (hint + 1 - ofs)) (base + (hint - lastOfs)) key
    pure (q - base)

/-- timsort.h 358-412. -/
def gallopRight (key : α) (base len hint : Nat) : M α Nat := do
  if ← cmp key (← read (base + hint)) then
    let maxOfs := hint + 1
    let (lastOfs, ofs) ← gallopLoop (fun o => do cmp key (← read (base + (hint - o)))) maxOfs 0 1
    let ofs := min ofs maxOfs
    let q ← upperBound cmp (base + (hint + 1 - ofs)) (base + (hint - lastOfs)) key
    pure (q - base)
  else
    let maxOfs := len - hint
    let (lastOfs, ofs) ← gallopLoop (fun o => do return !(← cmp key (← read (base + (hint + o))))) maxOfs 0 1
    let ofs := min ofs maxOfs
    let q ← upperBound cmp (base + (lastOfs + hint + 1)) (base + (ofs + hint)) key
    pure (q - base)

/-- The members `minGallop_`, `buffer`, `buffer_size` of `TimSortBase`, timsort.h 86-93. -/
structure TimBuf where
  minGallop : Int
  ptr : Nat
  size : Nat

/-- timsort.h 414-429: `operator delete` of the old buffer, `operator new` of the new one. -/
def resizeBuffer (b : TimBuf) (newSize : Nat) : M α TimBuf := do
  if b.size < newSize then
    free b.ptr b.size
    let p ← alloc newSize
    pure { b with ptr := p, size := newSize }
  else
    pure b

/-- The local variables of `mergeLo` and `mergeHi`. -/
structure TimCur where
  cursor1 : Nat
  len1 : Nat
  cursor2 : Nat
  len2 : Nat
  dest : Nat

/-- timsort.h 470-500: the inner loop of `mergeLo`; the second component is `break_outer`. -/
def loHot (minGallop : Int) (count1 count2 : Nat) (t : TimCur) : M α (TimCur × Bool) := do
  if ← cmp (← read t.cursor2) (← read t.cursor1) then
    moveTo t.dest t.cursor2
    let t := { t with dest := t.dest + 1, cursor2 := t.cursor2 + 1, len2 := t.len2 - 1 }
    if t.len2 = 0 then pure (t, true)
    else if ((0 ||| (count2 + 1) : Nat) : Int) < minGallop then loHot minGallop 0 (count2 + 1) t
    else pure (t, false)
  else
    moveTo t.dest t.cursor1
    let t := { t with dest := t.dest + 1, cursor1 := t.cursor1 + 1, len1 := t.len1 - 1 }
    if t.len1 = 1 then pure (t, true)
    else if (((count1 + 1) ||| 0 : Nat) : Int) < minGallop then loHot minGallop (count1 + 1) 0 t
    else pure (t, false)
partial_fixpoint

/-- timsort.h 509-520: the first half of the body of the galloping loop of `mergeLo`; returns `count1`. -/
def loGallop1 (t : TimCur) : M α (TimCur × Nat × Bool) := do
  let count1 ← gallopRight cmp (← read t.cursor2) t.cursor1 t.len1 0
  if count1 ≠ 0 then
    let _ ← moveBackward t.cursor1 (t.cursor1 + count1) (t.dest + count1)
    let t := { t with dest := t.dest + count1, cursor1 := t.cursor1 + count1, len1 := t.len1 - count1 }
    pure (t, count1, decide (t.len1 ≤ 1))
  else
    pure (t, count1, false)

/-- timsort.h 529-539: the second half of the body of that loop; returns `count2`. -/
def loGallop2 (t : TimCur) : M α (TimCur × Nat × Bool) := do
  let count2 ← gallopLeft cmp (← read t.cursor1) t.cursor2 t.len2 0
  if count2 ≠ 0 then
    let _ ← moveRange id id t.cursor2 (t.cursor2 + count2) t.dest
    let t := { t with dest := t.dest + count2, cursor2 := t.cursor2 + count2, len2 := t.len2 - count2 }
    pure (t, count2, decide (t.len2 = 0))
  else
    pure (t, count2, false)

/-- timsort.h 505-549: the galloping loop of `mergeLo`. -/
def loGallop (minGallop : Int) (t : TimCur) : M α (TimCur × Int × Bool) := do
  let (t, count1, stop) ← loGallop1 cmp t
  if stop then pure (t, minGallop, true)
  else
    moveTo t.dest t.cursor2
    let t := { t with dest := t.dest + 1, cursor2 := t.cursor2 + 1, len2 := t.len2 - 1 }
    if t.len2 = 0 then pure (t, minGallop, true)
    else
      let (t, count2, stop) ← loGallop2 cmp t
      if stop then pure (t, minGallop, true)
      else
        moveTo t.dest t.cursor1
        let t := { t with dest := t.dest + 1, cursor1 := t.cursor1 + 1, len1 := t.len1 - 1 }
        if t.len1 = 1 then pure (t, minGallop, true)
        else if 7 ≤ count1 ∨ 7 ≤ count2 then loGallop (minGallop - 1) t
        else pure (t, minGallop - 1, false)
partial_fixpoint

/-- timsort.h 469-558: the `outer` loop of `mergeLo`. -/
def loOuter (minGallop : Int) (t : TimCur) : M α (TimCur × Int) := do
  let (t, stop) ← loHot cmp minGallop 0 0 t
  if stop then pure (t, minGallop)
  else
    let (t, minGallop, stop) ← loGallop cmp minGallop t
    if stop then pure (t, minGallop)
    else loOuter (max minGallop 0 + 2) t
partial_fixpoint

/-- timsort.h 431-573. -/
def mergeLo (b : TimBuf) (base1 len1 base2 len2 : Nat) : M α TimBuf := do
  if len1 = 1 then
    let _ ← rotateLeft base1 (base2 + len2)
    pure b
  else if len2 = 1 then
    let _ ← rotateRight base1 (base2 + len2)
    pure b
  else
    let b ← resizeBuffer b len1
    let _ ← uninitMove base1 (base1 + len1) b.ptr
    moveTo base1 base2
    let (t, minGallop) ← loOuter cmp b.minGallop
      { cursor1 := b.ptr, len1 := len1, cursor2 := base2 + 1, len2 := len2 - 1, dest := base1 + 1 }
    if t.len1 = 1 then
      let _ ← moveRange id id t.cursor2 (t.cursor2 + t.len2) t.dest
      moveTo (t.dest + t.len2) t.cursor1
    else
      let _ ← moveRange id id t.cursor1 (t.cursor1 + t.len1) t.dest
    destroyN b.ptr len1
    pure { b with minGallop := min minGallop 1 }

/-- timsort.h 622-654: the inner loop of `mergeHi`, with the eager `--cursor1`; the `++cursor1` of lines 644
and 653 are done on the way out. -/
def hiHot (minGallop : Int) (count1 count2 : Nat) (t : TimCur) : M α (TimCur × Bool) := do
  if ← cmp (← read t.cursor2) (← read t.cursor1) then
    moveTo t.dest t.cursor1
    let t := { t with dest := t.dest - 1, len1 := t.len1 - 1 }
    if t.len1 = 0 then pure (t, true)
    else
      let t := { t with cursor1 := t.cursor1 - 1 }
      if (((count1 + 1) ||| 0 : Nat) : Int) < minGallop then hiHot minGallop (count1 + 1) 0 t
      else pure ({ t with cursor1 := t.cursor1 + 1 }, false)
  else
    moveTo t.dest t.cursor2
    let t := { t with dest := t.dest - 1, cursor2 := t.cursor2 - 1, len2 := t.len2 - 1 }
    if t.len2 = 1 then pure ({ t with cursor1 := t.cursor1 + 1 }, true)
    else if ((0 ||| (count2 + 1) : Nat) : Int) < minGallop then hiHot minGallop 0 (count2 + 1) t
    else pure ({ t with cursor1 := t.cursor1 + 1 }, false)
partial_fixpoint

/-- timsort.h 660-671: the first half of the body of the galloping loop of `mergeHi`; returns `count1`. -/
def hiGallop1 (base1 : Nat) (t : TimCur) : M α (TimCur × Nat × Bool) := do
  let k ← gallopRight cmp (← read t.cursor2) base1 t.len1 (t.len1 - 1)
  let count1 := t.len1 - k
  if count1 ≠ 0 then
    let t := { t with dest := t.dest - count1, cursor1 := t.cursor1 - count1, len1 := t.len1 - count1 }
    let _ ← moveBackward t.cursor1 (t.cursor1 + count1) (t.dest + (1 + count1))
    pure (t, count1, decide (t.len1 = 0))
  else
    pure (t, count1, false)

/-- timsort.h 680-690: the second half of the body of that loop; returns `count2`. -/
def hiGallop2 (buffer : Nat) (t : TimCur) : M α (TimCur × Nat × Bool) := do
  let k ← gallopLeft cmp (← read (t.cursor1 - 1)) buffer t.len2 (t.len2 - 1)
  let count2 := t.len2 - k
  if count2 ≠ 0 then
    let t := { t with dest := t.dest - count2, cursor2 := t.cursor2 - count2, len2 := t.len2 - count2 }
    let _ ← moveRange id id (t.cursor2 + 1) (t.cursor2 + (1 + count2)) (t.dest + 1)
    pure (t, count2, decide (t.len2 ≤ 1))
  else
    pure (t, count2, false)

/-- timsort.h 656-699: the galloping loop of `mergeHi`. -/
def hiGallop (base1 buffer : Nat) (minGallop : Int) (t : TimCur) : M α (TimCur × Int × Bool) := do
  let (t, count1, stop) ← hiGallop1 cmp base1 t
  if stop then pure (t, minGallop, true)
  else
    moveTo t.dest t.cursor2
    let t := { t with dest := t.dest - 1, cursor2 := t.cursor2 - 1, len2 := t.len2 - 1 }
    if t.len2 = 1 then pure (t, minGallop, true)
    else
      let (t, count2, stop) ← hiGallop2 cmp buffer t
      if stop then pure (t, minGallop, true)
      else
        moveTo t.dest (t.cursor1 - 1)
        let t := { t with dest := t.dest - 1, cursor1 := t.cursor1 - 1, len1 := t.len1 - 1 }
        if t.len1 = 0 then pure (t, minGallop, true)
        else if 7 ≤ count1 ∨ 7 ≤ count2 then hiGallop base1 buffer (minGallop - 1) t
        else pure (t, minGallop - 1, false)
partial_fixpoint

/-- timsort.h 612-708: the `outer` loop of `mergeHi`. -/
def hiOuter (base1 buffer : Nat) (minGallop : Int) (t : TimCur) : M α (TimCur × Int) := do
  let (t, stop) ← hiHot cmp minGallop 0 0 { t with cursor1 := t.cursor1 - 1 }
  if stop then pure (t, minGallop)
  else
    let (t, minGallop, stop) ← hiGallop cmp base1 buffer minGallop t
    if stop then pure (t, minGallop)
    else hiOuter base1 buffer (max minGallop 0 + 2) t
partial_fixpoint

/-- timsort.h 575-723. -/
def mergeHi (b : TimBuf) (base1 len1 base2 len2 : Nat) : M α TimBuf := do
  if len1 = 1 then
    let _ ← rotateLeft base1 (base2 + len2)
    pure b
  else if len2 = 1 then
    let _ ← rotateRight base1 (base2 + len2)
    pure b
  else
    let b ← resizeBuffer b len2
    let _ ← uninitMove base2 (base2 + len2) b.ptr
    moveTo (base2 + (len2 - 1)) (base1 + len1 - 1)
    let (t, minGallop) ← hiOuter cmp base1 b.ptr b.minGallop
      { cursor1 := base1 + len1 - 1, len1 := len1 - 1, cursor2 := b.ptr + (len2 - 1), len2 := len2,
        dest := base2 + (len2 - 1) - 1 }
    if t.len2 = 1 then
      let dest := t.dest - t.len1
      let _ ← moveBackward (t.cursor1 - t.len1) t.cursor1 (dest + (1 + t.len1))
      moveTo dest t.cursor2
    else
      let _ ← moveRange id id b.ptr (b.ptr + t.len2) (t.dest - (t.len2 - 1))
    destroyN b.ptr len2
    pure { b with minGallop := min minGallop 1 }

/-- timsort.h 270-300. -/
def mergeConsecutiveRuns (b : TimBuf) (base1 len1 base2 len2 : Nat) : M α TimBuf := do
  let k ← gallopRight cmp (← read base2) base1 len1 0
  let base1 := base1 + k
  let len1 := len1 - k
  if len1 = 0 then pure b
  else
    let len2 ← gallopLeft cmp (← read (base1 + (len1 - 1))) base2 len2 (len2 - 1)
    if len2 = 0 then pure b
    else if len1 ≤ len2 then mergeLo cmp b base1 len1 base2 len2
    else mergeHi cmp b base1 len1 base2 len2

/-- `pending_[i]`: the base and the length of a run; out of bounds is undefined behaviour. -/
def pendingAt (p : List (Nat × Nat)) (i : Nat) : M α (Nat × Nat) :=
  match p[i]? with
  | some r => pure r
  | none => fail .deref

/-- timsort.h 246-268: returns `pending_` and the other members. -/
def mergeAt (b : TimBuf) (p : List (Nat × Nat)) (i : Nat) : M α (List (Nat × Nat) × TimBuf) := do
  let (base1, len1) ← pendingAt p i
  let (base2, len2) ← pendingAt p (i + 1)
  let p' := p.set i (base1, len1 + len2)
  let p' ← if i + 3 = p.length then do
      let r ← pendingAt p' (i + 2)
      pure (p'.set (i + 1) r)
    else pure p'
  let p' := p'.dropLast
  let b ← mergeConsecutiveRuns cmp b base1 len1 base2 len2
  pure (p', b)

/-- timsort.h 217-218: the condition. -/
def collapseTest (p : List (Nat × Nat)) (n : Nat) : M α Bool := do
  let first ← if 0 < n then do
      let (_, l1) ← pendingAt p (n - 1)
      let (_, l2) ← pendingAt p n
      let (_, l3) ← pendingAt p (n + 1)
      pure (decide (l1 ≤ l2 + l3))
    else pure false
  if first then pure true
  else if 1 < n then
    let (_, l1) ← pendingAt p (n - 2)
    let (_, l2) ← pendingAt p (n - 1)
    let (_, l3) ← pendingAt p n
    pure (decide (l1 ≤ l2 + l3))
  else pure false

/-- timsort.h 211-231. -/
def timCollapse (b : TimBuf) (p : List (Nat × Nat)) : M α (List (Nat × Nat) × TimBuf) := do
  if 1 < p.length then
    let n := p.length - 2
    if ← collapseTest p n then
      let (_, l1) ← pendingAt p (n - 1)
      let (_, l3) ← pendingAt p (n + 1)
      let (p, b) ← mergeAt cmp b p (if l1 < l3 then n - 1 else n)
      timCollapse b p
    else
      let (_, l2) ← pendingAt p n
      let (_, l3) ← pendingAt p (n + 1)
      if l2 ≤ l3 then
        let (p, b) ← mergeAt cmp b p n
        timCollapse b p
      else
        pure (p, b)
  else
    pure (p, b)
partial_fixpoint

/-- `a & ~b` on non-negative numbers. -/
def andNot (a b : Nat) : Nat := a ^^^ (a &&& b)

/-- timsort.h 755-766: `AdaptiveShiversSort::mergeCollapse`. `n` is -1 when two runs are pending: `n + 1` and
`n + 2` are then the two of them. -/
def shiversCollapse (b : TimBuf) (p : List (Nat × Nat)) : M α (List (Nat × Nat) × TimBuf) := do
  if 1 < p.length then
    let (_, l2) ← pendingAt p (p.length - 2)
    let (_, l3) ← pendingAt p (p.length - 1)
    let x := l2 ||| l3
    if p.length < 3 then pure (p, b)
    else
      let (_, l1) ← pendingAt p (p.length - 3)
      if x ≤ andNot l1 x then pure (p, b)
      else
        let (p, b) ← mergeAt cmp b p (p.length - 3)
        shiversCollapse b p
  else
    pure (p, b)
partial_fixpoint

/-- timsort.h 239: the condition. -/
def forceTest (p : List (Nat × Nat)) (n : Nat) : M α Bool := do
  if 0 < n then
    let (_, l1) ← pendingAt p (n - 1)
    let (_, l3) ← pendingAt p (n + 1)
    pure (decide (l1 < l3))
  else pure false

/-- timsort.h 233-244. -/
def forceCollapse (b : TimBuf) (p : List (Nat × Nat)) : M α (List (Nat × Nat) × TimBuf) := do
  if 1 < p.length then
    let n := p.length - 2
    let n := if ← forceTest p n then n - 1 else n
    let (p, b) ← mergeAt cmp b p n
    forceCollapse b p
  else
    pure (p, b)
partial_fixpoint

/-- timsort.h 119-133: the `do ... while` loop of `sort`. -/
def timLoop (collapse : TimBuf → List (Nat × Nat) → M α (List (Nat × Nat) × TimBuf)) (hi minRun : Nat)
    (b : TimBuf) (p : List (Nat × Nat)) (cur nRemaining : Nat) : M α (List (Nat × Nat) × TimBuf) := do
  let runLen ← countRun cmp cur hi
  let runLen ← if runLen < minRun then do
      let force := min nRemaining minRun
      binarySort cmp cur (cur + force) (cur + runLen)
      pure force
    else pure runLen
  let (p, b) ← collapse b (p ++ [(cur, runLen)])
  if nRemaining - runLen ≠ 0 then
    timLoop collapse hi minRun b p (cur + runLen) (nRemaining - runLen)
  else
    pure (p, b)
partial_fixpoint

/-- timsort.h 100-138: `TimSortBase::sort`, `collapse` being the `mergeCollapse` of the child class. The buffer
is released by the destructor of `ts`. -/
def timBase (collapse : TimBuf → List (Nat × Nat) → M α (List (Nat × Nat) × TimBuf)) (lo hi : Nat) :
    M α Unit := do
  let nRemaining := hi - lo
  if nRemaining < 2 then pure ()
  else if nRemaining < 32 then
    let initRunLen ← countRun cmp lo hi
    binarySort cmp lo hi (lo + initRunLen)
  else
    let minRun := minRunLength nRemaining
    let (p, b) ← timLoop cmp collapse hi minRun { minGallop := 7, ptr := 0, size := 0 } [] lo nRemaining
    let (_, b) ← forceCollapse cmp b p
    free b.ptr b.size

/-- timsort.h 769-777. -/
def timsort (first last : Nat) : M α Unit := timBase cmp (timCollapse cmp) first last

/-- timsort.h 779-787. -/
def adaptiveShiversSort (first last : Nat) : M α Unit := timBase cmp (shiversCollapse cmp) first last

end CppSort
