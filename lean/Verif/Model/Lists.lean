import Verif.Base.Monad
/-
The container-aware algorithms: detail/container_aware/*.h.

A `std::list` (or `std::forward_list`) is the list of its nodes in link order; an element stands for
a node, with its identity.  An iterator is the index of its node, `end()` the length.  In a
`std::forward_list` positions are counted from `before_begin() = 0`, so that `*std::next(p)` is the
node of index `p`.  Relinking never touches an element: these programs never write the memory.
-/
set_option autoImplicit false

namespace CppSort
variable {α : Type} (cmp : α → α → M α Bool)

/-- Dereference of an iterator of a list: `end()` must not be dereferenced. -/
def nth {β : Type} (xs : List β) (i : Nat) : M α β :=
  match xs[i]? with
  | some x => pure x
  | none => throw .deref

/-- lower_bound.h 30-39, the loop of `lower_bound_n`, for any way of evaluating
`compare(proj(*it), value)`; instantiated here for list iterators and for iterators on a vector of
lists. -/
def lowerBoundBy (test : Nat → M α Bool) (first size : Nat) : M α Nat := do
  if 0 < size then
    let it := first + size / 2
    if ← test it then
      lowerBoundBy test (it + 1) (size - (size / 2 + 1))
    else
      lowerBoundBy test first (size / 2)
  else
    pure first
partial_fixpoint

/-- `collection.splice(pos, collection, it)`: the node `it` is unlinked, and linked again before the
node `pos`.  For a `std::forward_list`, `collection.splice_after(pos, collection, it)` unlinks the
node after the position `it`, and links it again after the position `pos`: with positions counted from
`before_begin()`, the same operation on indices. -/
def splice (xs : List α) (pos it : Nat) : M α (List α) := do
  let x ← nth xs it
  if pos ≤ it then
    pure ((xs.eraseIdx it).insertIdx pos x)
  else if pos ≤ xs.length then
    pure ((xs.eraseIdx it).insertIdx (pos - 1) x)
  else
    throw .deref

/-- `collection.merge(other, compare)`: [list.ops], the elements of `other` are linked before the first
element of `collection` that is greater. -/
def listMerge : List α → List α → M α (List α)
  | [], ys => pure ys
  | x :: xs, [] => pure (x :: xs)
  | x :: xs, y :: ys => do
    if ← cmp y x then
      return y :: (← listMerge (x :: xs) ys)
    else
      return x :: (← listMerge xs (y :: ys))
termination_by xs ys => xs.length + ys.length

/-! ### container_aware/insertion_sort.h -/

/-- container_aware/insertion_sort.h 44-56; `upper_bound_n` is upper_bound.h 24-34. -/
def listInsertionLoop (xs : List α) (it size : Nat) : M α (List α) := do
  if it ≠ xs.length then
    let value ← nth xs it
    let insertionPoint ← lowerBoundBy (fun i => do return !(← cmp value (← nth xs i))) 0 size
    if insertionPoint = it then
      listInsertionLoop xs (it + 1) (size + 1)
    else
      let next := it + 1
      listInsertionLoop (← splice xs insertionPoint it) next (size + 1)
  else
    pure xs
partial_fixpoint

/-- container_aware/insertion_sort.h 30-57. -/
def listInsertionSort (xs : List α) : M α (List α) :=
  if xs.length = 0 then pure xs
  else listInsertionLoop cmp xs 1 1

/-- container_aware/insertion_sort.h 78-87: the binary search over a `std::forward_list`. -/
def flistSearch (xs : List α) (value : α) (insertionPoint searchSize : Nat) : M α Nat := do
  if 0 < searchSize then
    let searchIt := insertionPoint + searchSize / 2
    if !(← cmp value (← nth xs searchIt)) then
      flistSearch xs value (searchIt + 1) (searchSize - (searchSize / 2 + 1))
    else
      flistSearch xs value insertionPoint (searchSize / 2)
  else
    pure insertionPoint
partial_fixpoint

/-- container_aware/insertion_sort.h 74-97: `it` is a position counted from `before_begin()`.  After
`splice_after` the node designated by `it` is one position further. -/
def flistInsertionLoop (xs : List α) (it size : Nat) : M α (List α) := do
  if it ≠ xs.length then
    let value ← nth xs it
    let insertionPoint ← flistSearch cmp xs value 0 size
    if insertionPoint = it then
      flistInsertionLoop xs (it + 1) (size + 1)
    else
      flistInsertionLoop (← splice xs insertionPoint it) (it + 1) (size + 1)
  else
    pure xs
partial_fixpoint

/-- container_aware/insertion_sort.h 59-98. -/
def flistInsertionSort (xs : List α) : M α (List α) :=
  if xs.length = 0 then pure xs
  else flistInsertionLoop cmp xs 1 1

/-! ### container_aware/selection_sort.h -/

/-- min_element.h 31-37 on list iterators. -/
def listMinLoop (xs : List α) (first min : Nat) : M α Nat := do
  if first ≠ xs.length then
    if ← cmp (← nth xs first) (← nth xs min) then
      listMinLoop xs (first + 1) first
    else
      listMinLoop xs (first + 1) min
  else
    pure min
partial_fixpoint

/-- container_aware/selection_sort.h 36-47; min_element.h 22-39.  After `splice(it, ..)`, the node
designated by `it` is one position further. -/
def listSelectionLoop (xs : List α) (it : Nat) : M α (List α) := do
  if it ≠ xs.length then
    let minIt ← listMinLoop cmp xs (it + 1) it
    if minIt = it then
      listSelectionLoop xs (it + 1)
    else
      listSelectionLoop (← splice xs it minIt) (it + 1)
  else
    pure xs
partial_fixpoint

/-- container_aware/selection_sort.h 29-48. -/
def listSelectionSort (xs : List α) : M α (List α) := listSelectionLoop cmp xs 0

/-- container_aware/selection_sort.h 62-71. -/
def flistMinLoop (xs : List α) (it minIt : Nat) : M α Nat := do
  if it ≠ xs.length then
    if ← cmp (← nth xs it) (← nth xs minIt) then
      flistMinLoop xs (it + 1) it
    else
      flistMinLoop xs (it + 1) minIt
  else
    pure minIt
partial_fixpoint

/-- container_aware/selection_sort.h 59-75. -/
def flistSelectionLoop (xs : List α) (first : Nat) : M α (List α) := do
  if first ≠ xs.length then
    let minIt ← flistMinLoop cmp xs first first
    flistSelectionLoop (← splice xs first minIt) (first + 1)
  else
    pure xs
partial_fixpoint

/-- container_aware/selection_sort.h 50-76. -/
def flistSelectionSort (xs : List α) : M α (List α) := flistSelectionLoop cmp xs 0

/-! ### container_aware/merge_sort.h -/

/-- container_aware/merge_sort.h 29-47. -/
def listMergeSort (collection : List α) : M α (List α) := do
  if collection.length < 2 then pure collection
  else
    let left := collection.take (collection.length / 2)
    let collection := collection.drop (collection.length / 2)
    let left ← listMergeSort left
    let collection ← listMergeSort collection
    listMerge cmp collection left
partial_fixpoint

/-- container_aware/merge_sort.h 49-68.  `std::next(first, size / 2 + 1)` must not go past `end()`. -/
def flistMergeSort (collection : List α) (size : Nat) : M α (List α) := do
  if size < 2 then pure collection
  else if collection.length < size / 2 then throw .deref
  else
    let left := collection.take (size / 2)
    let collection := collection.drop (size / 2)
    let left ← flistMergeSort left (size / 2)
    let collection ← flistMergeSort collection (size - size / 2)
    listMerge cmp collection left
partial_fixpoint

/-! ### container_aware/mel_sort.h -/

/-- `list.back()`: the list must not be empty. -/
def back (xs : List α) : M α α := nth xs (xs.length - 1)

/-- container_aware/mel_sort.h 50-74: creation of the encroaching lists. -/
def listEncroach (lists : List (List α)) : List α → M α (List (List α))
  | [] => pure lists
  | value :: collection => do
    let lastList ← nth lists (lists.length - 1)
    if !(← cmp value (← back lastList)) then
      let p ← lowerBoundBy (fun i => do cmp value (← back (← nth lists i))) 0 (lists.length - 1)
      let l ← nth lists p
      listEncroach (lists.set p (l ++ [value])) collection
    else if !(← cmp (← nth lastList 0) value) then
      let p ← lowerBoundBy (fun i => do cmp (← nth (← nth lists i) 0) value) 0 (lists.length - 1)
      let l ← nth lists p
      listEncroach (lists.set p (value :: l)) collection
    else
      listEncroach (lists ++ [[value]]) collection

/-- container_aware/mel_sort.h 87-93 and melsort.h 89-95: merges the second half of the lists into the
first half, with the `merge` of the list type.  Merging leaves the second list empty. -/
def mergeHalves (merge : List α → List α → M α (List α)) (lists : List (List α)) (firstIt halfIt : Nat) : M α (List (List α)) := do
  if halfIt ≠ lists.length then
    let m ← merge (← nth lists firstIt) (← nth lists halfIt)
    mergeHalves merge ((lists.set firstIt m).set halfIt []) (firstIt + 1) (halfIt + 1)
  else
    pure lists
partial_fixpoint

/-- container_aware/mel_sort.h 80-85 and melsort.h 82-87: with an odd number of lists, the last one is
merged first. -/
def mergeOdd (merge : List α → List α → M α (List α)) (lists : List (List α)) : M α (List (List α)) := do
  if lists.length % 2 ≠ 0 then
    let m ← merge (← nth lists (lists.length - 2)) (← nth lists (lists.length - 1))
    pure ((lists.set (lists.length - 2) m).take (lists.length - 1))
  else
    pure lists

/-- container_aware/mel_sort.h 79-96. -/
def mergeLists (lists : List (List α)) : M α (List (List α)) := do
  if 1 < lists.length then
    let lists ← mergeOdd (listMerge cmp) lists
    let lists ← mergeHalves (listMerge cmp) lists 0 (lists.length / 2)
    mergeLists (lists.take (lists.length / 2))
  else
    pure lists
partial_fixpoint

/-- container_aware/mel_sort.h 32-100. -/
def listMelSort (collection : List α) : M α (List α) :=
  if collection.length < 2 then pure collection
  else do
    let x ← nth collection 0
    let lists ← listEncroach cmp [[x]] (collection.drop 1)
    let lists ← mergeLists cmp lists
    nth lists 0

/-- container_aware/mel_sort.h 137-166: the same with `std::forward_list`, which has no `back()`: each
list comes with the position of its last node (116-125).  The lists are moved when the vector grows; an
iterator to a node remains valid. -/
def flistEncroach (lists : List (List α × Nat)) : List α → M α (List (List α × Nat))
  | [] => pure lists
  | value :: collection => do
    let lastList ← nth lists (lists.length - 1)
    if !(← cmp value (← nth lastList.1 lastList.2)) then
      let p ← lowerBoundBy (fun i => do
        let l ← nth lists i
        cmp value (← nth l.1 l.2)) 0 (lists.length - 1)
      let l ← nth lists p
      flistEncroach (lists.set p (l.1.insertIdx (l.2 + 1) value, l.2 + 1)) collection
    else if !(← cmp (← nth lastList.1 0) value) then
      let p ← lowerBoundBy (fun i => do cmp (← nth (← nth lists i).1 0) value) 0 (lists.length - 1)
      let l ← nth lists p
      flistEncroach (lists.set p (value :: l.1, l.2 + 1)) collection
    else
      flistEncroach (lists ++ [([value], 0)]) collection

/-- container_aware/mel_sort.h 102-192.  Lines 171-188 are the merging loops 79-96 again. -/
def flistMelSort (collection : List α) : M α (List α) :=
  if collection.length < 2 then pure collection
  else do
    let x ← nth collection 0
    let lists ← flistEncroach cmp [([x], 0)] (collection.drop 1)
    let lists ← mergeLists cmp (lists.map (·.1))
    nth lists 0

end CppSort
