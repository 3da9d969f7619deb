import Verif.Base.Monad
/-
detail/move.h, detail/swap_ranges.h, detail/reverse.h, detail/rotate.h, detail/swap_if.h
-/
set_option autoImplicit false

namespace CppSort
variable {α : Type}

/-- Iterator categories (standard tags the library dispatches on). -/
inductive Cat where
  | forward | bidirectional | random
  deriving DecidableEq

/-- What the algorithms dispatch on at compile time: the iterator category and
`std::is_trivially_move_assignable<value_type>`. -/
structure Cfg where
  cat : Cat
  triv : Bool

/-- move.h 26-48, for iterators whose positions `k` denote the addresses `d1 k` and `d2 k`
(`id` for forward iteration, see `rev` for `std::reverse_iterator`). -/
def moveRange (d1 d2 : Nat → Nat) (first last result : Nat) : M α Nat := do
  if first ≠ last then
    moveTo (d2 result) (d1 first)
    moveRange d1 d2 (first + 1) last (result + 1)
  else
    pure result
partial_fixpoint

/-- move.h 53-75. -/
def moveBackward (first last result : Nat) : M α Nat := do
  if first ≠ last then
    moveTo (result - 1) (last - 1)
    moveBackward first (last - 1) (result - 1)
  else
    pure result
partial_fixpoint

/-- The address denoted by the `k`-th position of a `std::reverse_iterator` sequence starting at
`reverse_iterator(N)`. -/
def rev (N : Nat) (k : Nat) : Nat := N - 1 - k

/-- move.h 88-98: the constructing overload of `uninitialized_move`. -/
def uninitMove (first last result : Nat) : M α Nat := do
  if first ≠ last then
    constructFrom result first
    uninitMove (first + 1) last (result + 1)
  else
    pure result
partial_fixpoint

/-- memory.h `destroy_n`, as run by the `destruct_n` guard (memory.h 104-134). -/
def destroyN (p n : Nat) : M α Unit := do
  if n ≠ 0 then
    destroy p
    destroyN (p + 1) (n - 1)
  else
    pure ()
partial_fixpoint

/-- swap_ranges.h 32-44. -/
def swapRanges (first1 last1 first2 : Nat) : M α Nat := do
  if first1 ≠ last1 then
    swap first1 first2
    swapRanges (first1 + 1) last1 (first2 + 1)
  else
    pure first2
partial_fixpoint

/-- reverse.h 32-44 (bidirectional overload; the random-access one, 59-77, performs the same
exchanges). -/
def reverse (first last : Nat) : M α Unit := do
  if first ≠ last then
    let last := last - 1
    if first = last then pure ()
    else
      swap first last
      reverse (first + 1) last
  else
    pure ()
partial_fixpoint

/-- rotate.h 33-42. -/
def rotateLeft (first last : Nat) : M α Nat := do
  let tmp ← moveOut first
  let lm1 ← moveRange id id (first + 1) last first
  assign lm1 tmp
  pure lm1

/-- rotate.h 45-55. -/
def rotateRight (first last : Nat) : M α Nat := do
  let lm1 := last - 1
  let tmp ← moveOut lm1
  let fp1 ← moveBackward first lm1 last
  assign first tmp
  pure fp1

/-- rotate.h 64-72: the first loop; returns `first` and `middle`. -/
def rotateForward1 (first middle last i : Nat) : M α (Nat × Nat) := do
  swap first i
  let first := first + 1
  let i := i + 1
  if i = last then pure (first, middle)
  else if first = middle then rotateForward1 first i last i
  else rotateForward1 first middle last i
partial_fixpoint

/-- rotate.h 77-89: the second loop. -/
def rotateForward2 (first middle last i : Nat) : M α Unit := do
  swap first i
  let first := first + 1
  let i := i + 1
  if i = last then
    if first = middle then pure ()
    else rotateForward2 first middle last middle
  else if first = middle then rotateForward2 first i last i
  else rotateForward2 first middle last i
partial_fixpoint

/-- rotate.h 58-92. -/
def rotateForward (first middle last : Nat) : M α Nat := do
  let (r, middle) ← rotateForward1 first middle last middle
  if r ≠ middle then
    rotateForward2 r middle last middle
  pure r

/-- rotate.h 95-105. -/
def gcdLoop (x y : Nat) : M α Nat :=
  if y = 0 then fail .overflow
  else
    let t := x % y
    if t ≠ 0 then gcdLoop y t else pure y
partial_fixpoint

/-- rotate.h 128-137: the inner loop; returns `p1`. -/
def rotateCycle (first last m1 p p1 p2 : Nat) : M α Nat := do
  moveTo p1 p2
  let p1 := p2
  let d := last - p2
  let p2 := if m1 < d then p2 + m1 else first + (m1 - d)
  if p2 ≠ p then rotateCycle first last m1 p p1 p2 else pure p1
partial_fixpoint

/-- rotate.h 123-139: the outer loop. -/
def rotateCycles (first last m1 p : Nat) : M α Unit := do
  if p ≠ first then
    let p := p - 1
    let t ← moveOut p
    let p1 ← rotateCycle first last m1 p p (p + m1)
    assign p1 t
    rotateCycles first last m1 p
  else
    pure ()
partial_fixpoint

/-- rotate.h 108-141. -/
def rotateGcd (first middle last : Nat) : M α Nat := do
  let m1 := middle - first
  let m2 := last - middle
  if m1 = m2 then
    let _ ← swapRanges first middle middle
    pure middle
  else
    let g ← gcdLoop m1 m2
    rotateCycles first last m1 (first + g)
    pure (first + m2)

/-- rotate.h 144-199. -/
def rotate (c : Cfg) (first middle last : Nat) : M α Nat :=
  if first = middle then pure last
  else if middle = last then pure first
  else
    match c.cat with
    | .forward =>
      if c.triv ∧ first + 1 = middle then rotateLeft first last
      else rotateForward first middle last
    | .bidirectional =>
      if c.triv then
        if first + 1 = middle then rotateLeft first last
        else if middle + 1 = last then rotateRight first last
        else rotateForward first middle last
      else rotateForward first middle last
    | .random =>
      if c.triv then
        if first + 1 = middle then rotateLeft first last
        else if middle + 1 = last then rotateRight first last
        else rotateGcd first middle last
      else rotateForward first middle last

/-- swap_if.h 28-39 and 173-215 (`iter_swap_if`): the generic overload. -/
def iterSwapIf (cmp : α → α → M α Bool) (lhs rhs : Nat) : M α Unit := do
  if ← cmp (← read rhs) (← read lhs) then
    swap lhs rhs
  else
    pure ()

end CppSort
