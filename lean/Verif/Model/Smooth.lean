import Verif.Base.Monad
/-
detail/smoothsort.h
-/
set_option autoImplicit false

namespace CppSort
variable {α : Type}

/-- smoothsort.h 43-66: `kLeonardoNumbers`. -/
def kLeonardoNumbers : List Nat := [
  1, 1, 3, 5, 9, 15, 25, 41, 67, 109, 177, 287, 465, 753, 1219, 1973, 3193, 5167, 8361, 13529, 21891, 35421, 57313,
  92735, 150049, 242785, 392835, 635621, 1028457, 1664079, 2692537, 4356617, 7049155, 11405773, 18454929, 29860703,
  48315633, 78176337, 126491971, 204668309, 331160281, 535828591, 866988873, 1402817465, 2269806339, 3672623805,
  5942430145, 9615053951, 15557484097, 25172538049, 40730022147, 65902560197, 106632582345, 172535142543,
  279167724889, 451702867433, 730870592323, 1182573459757, 1913444052081, 3096017511839, 5009461563921,
  8105479075761, 13114940639683, 21220419715445, 34335360355129, 55555780070575, 89891140425705, 145446920496281,
  235338060921987, 380784981418269, 616123042340257, 996908023758527, 1613031066098785, 2609939089857313,
  4222970155956099, 6832909245813413, 11055879401769513, 17888788647582927, 28944668049352441, 46833456696935369,
  75778124746287811, 122611581443223181, 198389706189510993, 321001287632734175, 519390993822245169,
  840392281454979345, 1359783275277224515, 2200175556732203861, 3559958832009428377, 5760134388741632239,
  9320093220751060617, 15080227609492692857]

/-- An access to the table of smoothsort.h 46, out of its bounds from 92 on. -/
def leoAt (k : Nat) : M α Nat :=
  match kLeonardoNumbers[k]? with
  | some n => pure n
  | none => fail .deref

/-- smoothsort.h 68-78: `HeapShape`; the bitset has 92 bits. -/
structure HeapShape where
  trees : BitVec 92
  smallest : Nat

section
variable (cmp : α → α → M α Bool)

/-- smoothsort.h 157-169: the larger child and the order of its tree. -/
def smoothLarger (first second size : Nat) : M α (Nat × Nat) := do
  if ← cmp (← read first) (← read second) then pure (second, size - 2) else pure (first, size - 1)

/-- smoothsort.h 136-181: `RebalanceSingleHeap`. The children are those of `FirstChild` and `SecondChild`, 80-110. -/
def smoothRebalance (root size : Nat) : M α Unit := do
  if 1 < size then
    let l ← leoAt (size - 2)
    let c ← smoothLarger cmp (root - 1 - l) (root - 1) size
    if ← cmp (← read root) (← read c.1) then
      swap root c.1
      smoothRebalance c.1 c.2
    else pure ()
  else pure ()
partial_fixpoint

/-- smoothsort.h 231-246: what the root of the prior heap is compared with; `LargerChild`, 112-134. -/
def smoothToCompare (itr size : Nat) : M α Nat := do
  if 1 < size then
    let l ← leoAt (size - 2)
    let c ← smoothLarger cmp (itr - 1 - l) (itr - 1) size
    if ← cmp (← read itr) (← read c.1) then pure c.1 else pure itr
  else pure itr

/-- smoothsort.h 269-272: the search of the previous tree. -/
def smoothScan (shape : HeapShape) : M α HeapShape := do
  let shape : HeapShape := ⟨shape.trees >>> 1, shape.smallest + 1⟩
  if shape.trees.getLsbD 0 then pure shape else smoothScan shape
partial_fixpoint

/-- smoothsort.h 183-277: `LeonardoHeapRectify`, from `itr = end - 1`. -/
def smoothRectify (start itr : Nat) (shape : HeapShape) : M α Unit := do
  let lastHeapSize := shape.smallest
  let l ← leoAt lastHeapSize
  if itr - start = l - 1 then smoothRebalance cmp itr lastHeapSize
  else
    let toCompare ← smoothToCompare cmp itr lastHeapSize
    let priorHeap := itr - l
    if ← cmp (← read toCompare) (← read priorHeap) then
      swap itr priorHeap
      let shape ← smoothScan shape
      smoothRectify start priorHeap shape
    else smoothRebalance cmp itr lastHeapSize
partial_fixpoint

/-- smoothsort.h 306-352: the shape after one more element. -/
def HeapShape.add (shape : HeapShape) : HeapShape :=
  if !shape.trees.getLsbD 0 then ⟨shape.trees ||| 1#92, 1⟩
  else if shape.trees.getLsbD 1 && shape.trees.getLsbD 0 then ⟨(shape.trees >>> 2) ||| 1#92, shape.smallest + 2⟩
  else if shape.smallest = 1 then ⟨(shape.trees <<< 1) ||| 1#92, 0⟩
  else ⟨(shape.trees <<< (shape.smallest - 1)) ||| 1#92, 1⟩

/-- smoothsort.h 354-384: whether the new tree is in its final position. -/
def smoothIsLast (end_ heapEnd : Nat) (shape : HeapShape) : M α Bool := do
  if shape.smallest = 0 then pure (end_ + 1 = heapEnd)
  else if shape.smallest = 1 then pure (end_ + 1 = heapEnd || (end_ + 2 = heapEnd && !shape.trees.getLsbD 1))
  else
    let l ← leoAt (shape.smallest - 1)
    pure (heapEnd - (end_ + 1) < l + 1)

/-- smoothsort.h 279-394: `LeonardoHeapAdd`. -/
def smoothAdd (start end_ heapEnd : Nat) (shape : HeapShape) : M α HeapShape := do
  let shape := shape.add
  let isLast ← smoothIsLast end_ heapEnd shape
  if !isLast then smoothRebalance cmp end_ shape.smallest
  else smoothRectify cmp start end_ shape
  pure shape

/-- smoothsort.h 424-427: the search of the next tree, when there is one. -/
def smoothDrop (shape : HeapShape) : M α HeapShape := do
  let shape : HeapShape := ⟨shape.trees >>> 1, shape.smallest + 1⟩
  if shape.trees ≠ 0 ∧ !shape.trees.getLsbD 0 then smoothDrop shape else pure shape
partial_fixpoint

/-- smoothsort.h 431-439: breaking the last heap open. -/
def HeapShape.break (shape : HeapShape) : HeapShape :=
  ⟨((shape.trees &&& ~~~1#92) <<< 2) ||| 3#92, shape.smallest - 2⟩

/-- smoothsort.h 396-463: `LeonardoHeapRemove`. -/
def smoothRemove (start end_ : Nat) (shape : HeapShape) : M α HeapShape := do
  if shape.smallest ≤ 1 then smoothDrop shape
  else
    let l ← leoAt (shape.smallest - 2)
    let leftHeap := end_ - 1 - 1 - l
    let rightHeap := end_ - 1 - 1
    let shape := shape.break
    smoothRectify cmp start leftHeap ⟨shape.trees >>> 1, shape.smallest + 1⟩
    smoothRectify cmp start rightHeap shape
    pure shape

/-- smoothsort.h 479-481: making the heap. -/
def smoothAddAll (start itr last : Nat) (shape : HeapShape) : M α HeapShape := do
  if itr ≠ last then
    let shape ← smoothAdd cmp start itr last shape
    smoothAddAll start (itr + 1) last shape
  else pure shape
partial_fixpoint

/-- smoothsort.h 483-487: removing the elements of the heap. -/
def smoothRemoveAll (start itr : Nat) (shape : HeapShape) : M α Unit := do
  if itr ≠ start then
    let shape ← smoothRemove cmp start itr shape
    smoothRemoveAll start (itr - 1) shape
  else pure ()
partial_fixpoint

/-- smoothsort.h 466-488: `smoothsort`. -/
def smoothsort (first last : Nat) : M α Unit := do
  if last - first < 2 then pure ()
  else
    let shape ← smoothAddAll cmp first first last ⟨0, 0⟩
    smoothRemoveAll cmp first last shape

end
end CppSort
