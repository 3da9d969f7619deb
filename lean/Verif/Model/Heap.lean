import Verif.Model.Insertion
/-
detail/heapsort.h and detail/d_ary_heapsort.h.  Indices (`child`, `len`) are kept as natural
numbers; `it - first` for an iterator of the range never underflows in the code paths taken.
-/
set_option autoImplicit false

namespace CppSort
variable {α : Type} (cmp : α → α → M α Bool)

/-- heapsort.h 50-57 (also 76-83 and 107-114): index of the chosen child of the node `child`. -/
def heapTopChild (first len child : Nat) : M α Nat := do
  let child := 2 * child + 1
  if child + 1 < len then
    if ← cmp (← read (first + child)) (← read (first + child + 1)) then
      pure (child + 1)
    else
      pure child
  else
    pure child

/-- heapsort.h 66-86: the `do ... while` loop; `start` is an address, `child` an index; returns the
final `start`. -/
def siftDownLoop (first len : Nat) (top : α) (start child : Nat) : M α Nat := do
  moveTo start (first + child)
  let start := first + child
  if (len - 2) / 2 < child then
    pure start
  else
    let child ← heapTopChild cmp first len child
    if ← cmp (← read (first + child)) top then
      pure start
    else
      siftDownLoop first len top start child
partial_fixpoint

/-- heapsort.h 31-88. -/
def siftDown (first len start : Nat) : M α Unit := do
  let child := start - first
  if len < 2 ∨ (len - 2) / 2 < child then
    pure ()
  else
    let child ← heapTopChild cmp first len child
    if ← cmp (← read (first + child)) (← read start) then
      pure ()
    else
      let top ← moveOut start
      let start ← siftDownLoop cmp first len top start child
      assign start top

/-- heapsort.h 106-124. -/
def floydLoop (first len hole child : Nat) : M α Nat := do
  let child ← heapTopChild cmp first len child
  moveTo hole (first + child)
  let hole := first + child
  if child > (len - 2) / 2 then
    pure hole
  else
    floydLoop first len hole child
partial_fixpoint

/-- heapsort.h 90-125. -/
def floydSiftDown (first len : Nat) : M α Nat := floydLoop cmp first len first 0

/-- heapsort.h 142-150: the `do ... while` loop; `len` is the index of the parent `ptr`. -/
def pushHeapLoop (first : Nat) (t : α) (last len : Nat) : M α Nat := do
  moveTo last (first + len)
  let last := first + len
  if len = 0 then
    pure last
  else
    let len := (len - 1) / 2
    if ← cmp (← read (first + len)) t then
      pushHeapLoop first t last len
    else
      pure last
partial_fixpoint

/-- heapsort.h 127-154. -/
def pushHeap (first last len : Nat) : M α Unit := do
  if len > 1 then
    let len := (len - 2) / 2
    if ← cmp (← read (first + len)) (← read (last - 1)) then
      let t ← moveOut (last - 1)
      let last ← pushHeapLoop cmp first t (last - 1) len
      assign last t
    else
      pure ()
  else
    pure ()

/-- heapsort.h 156-176. -/
def popHeap (first last len : Nat) : M α Unit := do
  if len > 1 then
    let top ← moveOut first
    let hole ← floydSiftDown cmp first len
    let last := last - 1
    if hole = last then
      assign hole top
    else
      moveTo hole last
      let hole := hole + 1
      assign last top
      pushHeap cmp first hole (hole - first)
  else
    pure ()

/-- heapsort.h 187-189; the loop runs for `start = k - 1, ..., 0`. -/
def makeHeapLoop (first n : Nat) : Nat → M α Unit
  | 0 => pure ()
  | k + 1 => do
    siftDown cmp first n (first + k)
    makeHeapLoop first n k

/-- heapsort.h 178-191. -/
def makeHeap (first last : Nat) : M α Unit :=
  let n := last - first
  if n > 1 then makeHeapLoop cmp first n ((n - 2) / 2 + 1) else pure ()

/-- heapsort.h 193-201. -/
def sortHeap (first last n : Nat) : M α Unit := do
  if n > 1 then
    popHeap cmp first last n
    sortHeap first (last - 1) (n - 1)
  else
    pure ()
partial_fixpoint

/-- heapsort.h 203-211. -/
def heapsort (first last : Nat) : M α Unit := do
  makeHeap cmp first last
  sortHeap cmp first last (last - first)

/-! ### d-ary heaps -/

/-- min_element.h 40-48. -/
def minElement (first last : Nat) : M α Nat :=
  if first = last then pure last else uncheckedMinElement cmp first last

/-- d_ary_heapsort.h 46-62; `flip(compare)` (comparators/flip.h) exchanges the arguments. -/
def dTopChild (D first last it : Nat) : M α Nat :=
  let firstChild := first + (it - first) * D + 1
  let lastChild := if last - firstChild > D then firstChild + D else last
  minElement (fun x y => cmp y x) firstChild lastChild

/-- d_ary_heapsort.h 72-91. -/
def dSiftDown (D first last it : Nat) : M α Unit := do
  if (it - first) * (D - 1) < last - it - 1 then
    let maxChild ← dTopChild cmp D first last it
    if ← cmp (← read maxChild) (← read it) then
      pure ()
    else
      swap maxChild it
      dSiftDown D first last maxChild
  else
    pure ()
partial_fixpoint

/-- d_ary_heapsort.h 93-113. -/
def dSiftUp (D first it : Nat) : M α Unit := do
  if it ≠ first then
    let parent := first + (it - first - 1) / D
    if ← cmp (← read parent) (← read it) then
      swap parent it
      dSiftUp D first parent
    else
      pure ()
  else
    pure ()
partial_fixpoint

/-- d_ary_heapsort.h 115-121. -/
def pushDAryHeap (D first last : Nat) : M α Unit := dSiftUp cmp D first (last - 1)

/-- d_ary_heapsort.h 123-133. -/
def popDAryHeap (D first last : Nat) : M α Unit := do
  let last := last - 1
  swap first last
  if first = last then pure () else dSiftDown cmp D first last first

/-- d_ary_heapsort.h 142-144. -/
def makeDAryHeapLoop (D first last it : Nat) : M α Unit := do
  if it ≠ last then
    pushDAryHeap cmp D first it
    makeDAryHeapLoop D first last (it + 1)
  else
    pure ()
partial_fixpoint

/-- d_ary_heapsort.h 135-147. -/
def makeDAryHeap (D first last : Nat) : M α Unit := do
  if first = last then pure () else
    makeDAryHeapLoop cmp D first last (first + 1)
    pushDAryHeap cmp D first last

/-- d_ary_heapsort.h 149-157. -/
def sortDAryHeap (D first it : Nat) : M α Unit := do
  if it ≠ first then
    popDAryHeap cmp D first it
    sortDAryHeap D first (it - 1)
  else
    pure ()
partial_fixpoint

/-- d_ary_heapsort.h 159-167. -/
def dAryHeapsort (D first last : Nat) : M α Unit := do
  makeDAryHeap cmp D first last
  sortDAryHeap cmp D first last

end CppSort
