import Verif.Model.Lists
/-
melsort.h, and the part of fixed_size_list.h it uses.

A `fixed_size_list` is the list of the values of its nodes in link order: the nodes and the pool they
come from are not represented (the pool has as many nodes as there are elements, and every element is
inserted once).  A node of `edges` has no valid `prev` pointer, which only `merge_unsafe` may be given:
at this level `merge_unsafe` is `merge`.
-/
set_option autoImplicit false

namespace CppSort
variable {α : Type} (cmp : α → α → M α Bool)

/-- Where melsort.h 138-158 and slabsort.h 165-196 insert an element: at the back of a list, at the front
of a list, in a new list. -/
inductive Place where
  | back (i : Nat)
  | front (i : Nat)
  | fresh

/-- The tests of melsort.h 138-158 and slabsort.h 165-196.  A node of the lists holds a value (melsort) or an
iterator (slabsort): `get` gives the element of a node. -/
def encroachPlace {β : Type} (get : β → M α α) (lists : List (List β)) (value : α) : M α Place := do
  let lastList ← nth lists (lists.length - 1)
  if !(← cmp value (← get (← nth lastList (lastList.length - 1)))) then
    let p ← lowerBoundBy (fun i => do
      let l ← nth lists i
      cmp value (← get (← nth l (l.length - 1)))) 0 (lists.length - 1)
    return .back p
  else if !(← cmp (← get (← nth lastList 0)) value) then
    let p ← lowerBoundBy (fun i => do
      let l ← nth lists i
      cmp (← get (← nth l 0)) value) 0 (lists.length - 1)
    return .front p
  else
    return .fresh

/-- `push_back`, `push_front`, or `emplace_back` of a list followed by `push_back`: melsort.h 145, 152, 156-157,
fixed_size_list.h 555-593. -/
def encroachPut {β : Type} (lists : List (List β)) (x : β) : Place → M α (List (List β))
  | .back i => do
    let l ← nth lists i
    return lists.set i (l ++ [x])
  | .front i => do
    let l ← nth lists i
    return lists.set i (x :: l)
  | .fresh => return lists ++ [[x]]

/-- melsort.h 135-159: creation of the encroaching lists. -/
def melEncroach (lists : List (List α)) (it last : Nat) : M α (List (List α)) := do
  if it ≠ last then
    let value ← read it
    let p ← encroachPlace cmp pure lists value
    let x ← moveOut it
    let lists ← encroachPut lists x p
    melEncroach lists (it + 1) last
  else
    pure lists
partial_fixpoint

/-- fixed_size_list.h 667-670: the nodes of `other` that are linked before `first`, after the first one, and the
nodes that are left. -/
def fslTake (x : α) : List α → M α (List α × List α)
  | [] => pure ([], [])
  | y :: ys => do
    if ← cmp y x then
      let (t, r) ← fslTake x ys
      return (y :: t, r)
    else
      return ([], y :: ys)

/-- fixed_size_list.h 643-693 (`merge`) and 705-753 (`merge_unsafe`). -/
def fslMerge (xs ys : List α) : M α (List α) :=
  match xs, ys with
  | [], ys => pure ys
  | xs, [] => pure xs
  | x :: xs, y :: ys => do
    if ← cmp y x then
      let (t, r) ← fslTake cmp x ys
      return y :: t ++ (← fslMerge (x :: xs) r)
    else
      return x :: (← fslMerge xs (y :: ys))
partial_fixpoint

/-- melsort.h 54-57: the heads of the lists.  `extract` asserts that the list is not empty (fixed_size_list.h
600). -/
def extractFronts : List (List α) → M α (List α × List (List α))
  | [] => pure ([], [])
  | l :: lists => do
    let x ← nth l 0
    let (edges, lists) ← extractFronts lists
    return (x :: edges, l.drop 1 :: lists)

/-- melsort.h 64-68: the tails of the lists, from the last list to the first one. -/
def extractBacks : List (List α) → M α (List α × List (List α))
  | [] => pure ([], [])
  | l :: lists => do
    let (edges, lists) ← extractBacks lists
    let x ← nth l (l.length - 1)
    return (edges ++ [x], l.dropLast :: lists)

/-- melsort.h 60-62. -/
def popEmpty (lists : List (List α)) : M α (List (List α)) := do
  let l ← nth lists (lists.length - 1)
  return if l.isEmpty then lists.dropLast else lists

/-- melsort.h 51-77. -/
def extractEdges (lists : List (List α)) : M α (List α × List (List α)) := do
  let (edges, lists) ← extractFronts lists
  let lists ← popEmpty lists
  let (edges', lists) ← extractBacks lists
  return (edges ++ edges', lists.filter (!·.isEmpty))

/-- melsort.h 81-98. -/
def melMergeLists (lists : List (List α)) : M α (List (List α)) := do
  if 2 < lists.length then
    let lists ← mergeOdd (fslMerge cmp) lists
    let lists ← mergeHalves (fslMerge cmp) lists 0 (lists.length / 2)
    melMergeLists (lists.take (lists.length / 2))
  else
    pure lists
partial_fixpoint

/-- move.h 28-36, from a list. -/
def moveList (result : Nat) : List α → M α Unit
  | [] => pure ()
  | x :: xs => do
    assign result x
    moveList (result + 1) xs

/-- merge_move.h 24-63, from two lists. -/
def mergeMoveLists (result : Nat) (xs ys : List α) : M α Unit :=
  match xs, ys with
  | [], ys => moveList result ys
  | xs, [] => moveList result xs
  | x :: xs, y :: ys => do
    if ← cmp y x then
      assign result y
      mergeMoveLists (result + 1) (x :: xs) ys
    else
      assign result x
      mergeMoveLists (result + 1) xs (y :: ys)
partial_fixpoint

/-- melsort.h 102-108. -/
def addEdges (lists : List (List α)) (edges : List α) : M α (List (List α)) := do
  if lists.isEmpty then
    return [edges]
  else
    let l ← nth lists (lists.length - 1)
    let l ← fslMerge cmp l edges
    return lists.set (lists.length - 1) l

/-- melsort.h 111-119. -/
def moveLists (first : Nat) : List (List α) → M α Unit
  | [l, l'] => mergeMoveLists cmp first l l'
  | [l] => moveList first l
  | _ => pure ()

/-- melsort.h 28-120. -/
def mergeEncroachingLists (lists : List (List α)) (first : Nat) (edges : Bool) : M α Unit := do
  if edges then
    let (e, lists) ← extractEdges lists
    let lists ← melMergeLists cmp lists
    let lists ← addEdges cmp lists e
    moveLists cmp first lists
  else
    let lists ← melMergeLists cmp lists
    moveLists cmp first lists

/-- melsort.h 122-173.  `bad k n` is the test `k > std::sqrt(n)`, in floating point: any function. -/
def melsort (bad : Nat → Nat → Bool) (first last : Nat) : M α Unit := do
  if first = last ∨ first + 1 = last then
    pure ()
  else
    let x ← moveOut first
    let lists ← melEncroach cmp [[x]] (first + 1) last
    mergeEncroachingLists cmp lists first (bad lists.length (last - first))

end CppSort
