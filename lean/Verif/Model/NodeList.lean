import Verif.Base.Monad
/-
Model of detail/fixed_size_list.h: the node pool and the doubly linked lists that melsort, slabsort and
merge_insertion_sort work on.  (The models of those algorithms use lists of values; this file is
about their representation.)

Addresses are natural numbers, 0 is the null pointer.  A node holds two pointers and, when it has
been constructed, a value.  Nodes of the pool and sentinel nodes live in the same address space.
Dereferencing the null pointer, reading or destroying a value that does not exist, and violating an
assertion are undefined: `none`.  The comparison is a pure function.
-/
set_option autoImplicit false

namespace CppSort
namespace NodeList
variable {α : Type}

/-- fixed_size_list.h 33-53, 65-84 (`list_node_base`, `list_node`): the fields of all the nodes;
247-251: the fields `first_free_` of the (only) pool. -/
structure Nodes (α : Type) where
  next : Nat → Nat
  prev : Nat → Nat
  val : Nat → Option α
  free : Nat

/-- A program that works on the nodes, or is undefined. -/
abbrev NodeM (α : Type) := StateT (Nodes α) Option

/-- `p->next`. -/
def getNext (p : Nat) : NodeM α Nat := fun h => if p = 0 then none else some (h.next p, h)

/-- `p->prev`. -/
def getPrev (p : Nat) : NodeM α Nat := fun h => if p = 0 then none else some (h.prev p, h)

/-- `p->next = q`. -/
def setNext (p q : Nat) : NodeM α Unit := fun h =>
  if p = 0 then none else some ((), { h with next := fun i => if i = p then q else h.next i })

/-- `p->prev = q`. -/
def setPrev (p q : Nat) : NodeM α Unit := fun h =>
  if p = 0 then none else some ((), { h with prev := fun i => if i = p then q else h.prev i })

/-- `p->value` (fixed_size_list.h 296-302, `operator*`). -/
def getVal (p : Nat) : NodeM α α := fun h => (h.val p).map fun v => (v, h)

/-- `::new (&p->value) T(v)`; constructing over a living value leaks it: undefined here. -/
def construct (p : Nat) (v : α) : NodeM α Unit := fun h =>
  if p = 0 ∨ (h.val p).isSome then none
  else some ((), { h with val := fun i => if i = p then some v else h.val i })

/-- fixed_size_list.h 90-96 (`destroy_node_contents`). -/
def destroy (p : Nat) : NodeM α Unit := fun h =>
  match h.val p with
  | none => none
  | some _ => some ((), { h with val := fun i => if i = p then none else h.val i })

/-- The field `first_free_`. -/
def getFree : NodeM α Nat := fun h => some (h.free, h)

/-- `first_free_ = p`. -/
def setFree (p : Nat) : NodeM α Unit := fun h => some ((), { h with free := p })

/-- An assertion that holds or is undefined (CPPSORT_ASSERT). -/
def assert (b : Bool) : NodeM α Unit := fun h => if b then some ((), h) else none

/-- fixed_size_list.h 157-163 and 231-233: `n` nodes from `ptr` get their field `next`; the
constructor leaves `prev` unset. -/
def linkRun : Nat → Nat → NodeM α Unit
  | 0, _ => pure ()
  | n + 1, ptr => do setNext ptr (ptr + 1); linkRun n (ptr + 1)

/-- fixed_size_list.h 142-166: the constructor of a pool whose buffer is at `base`. -/
def poolInit (base cap : Nat) : NodeM α Unit := do
  assert (decide (0 < cap))
  linkRun (cap - 1) base
  setNext (base + (cap - 1)) 0
  setFree base

/-- fixed_size_list.h 182-191 (`next_free_node`). -/
def nextFreeNode : NodeM α Nat := do
  let p ← getFree
  assert (decide (p ≠ 0))
  let q ← getNext p
  setFree q
  pure p

/-- fixed_size_list.h 193-202 (`retrieve_nodes`). -/
def retrieveNodes (first last : Nat) : NodeM α Unit := do
  let f ← getFree
  setNext last f
  setFree first

/-- fixed_size_list.h 221-235 (`reset_nodes`). -/
def resetNodes (base cap n : Nat) : NodeM α Unit := do
  linkRun (n - 1) base
  let ptr := base + (n - 1)
  if n = cap then setNext ptr 0 else setNext ptr (ptr + 1)
  setFree base

/-- fixed_size_list.h 421-433: the constructors of a list whose sentinel node is at `s`. -/
def listInit (s : Nat) : NodeM α Unit := do
  setPrev s s
  setNext s s

/-- fixed_size_list.h 435-451: the move constructor; `s` is the new sentinel, `o` the other one. -/
def moveCtor (s o : Nat) : NodeM α Unit := do
  let p ← getPrev o
  setPrev o o
  let n ← getNext o
  setNext o o
  setPrev s p
  setNext s n
  if p = o then setPrev s s else setNext p s
  if n = o then setNext s s else setPrev n s

/-- fixed_size_list.h 453-470: the move assignment. -/
def moveAssign (s o : Nat) : NodeM α Unit := do
  let p ← getPrev o
  if p ≠ o then
    setPrev o o
    setPrev s p
    setNext p s
  else setPrev s s
  let n ← getNext o
  if n ≠ o then
    setNext o o
    setNext s n
    setPrev n s
  else setNext s s

/-- fixed_size_list.h 480-484: the loop of the destructor. -/
def destroyLoop (s ptr : Nat) : NodeM α Unit := do
  let nextPtr ← getNext ptr
  destroy ptr
  if nextPtr ≠ s then destroyLoop s nextPtr
partial_fixpoint

/-- fixed_size_list.h 475-489: the destructor. -/
def listDestroy (s : Nat) : NodeM α Unit := do
  let ptr ← getNext s
  if ptr ≠ s then
    destroyLoop s ptr
    let a ← getNext s
    let b ← getPrev s
    retrieveNodes a b

/-- fixed_size_list.h 817-825 (`link_node_before_`). -/
def linkNodeBefore (node pos : Nat) : NodeM α Unit := do
  let p ← getPrev pos
  setPrev node p
  setNext node pos
  let p ← getPrev node
  setNext p node
  let n ← getNext node
  setPrev n node

/-- fixed_size_list.h 789-817 (`insert_node_`): every overload constructs a value in the node. -/
def insertNode (pos : Nat) (v : α) : NodeM α Nat := do
  let node ← nextFreeNode
  construct node v
  linkNodeBefore node pos
  pure node

/-- fixed_size_list.h 557-574 (`push_back`). -/
def pushBack (s : Nat) (v : α) : NodeM α Unit := do
  let _ ← insertNode s v

/-- fixed_size_list.h 576-593 (`push_front`). -/
def pushFront (s : Nat) (v : α) : NodeM α Unit := do
  let p ← getNext s
  let _ ← insertNode p v

/-- fixed_size_list.h 595-604 (`extract`). -/
def extract (s node : Nat) : NodeM α Nat := do
  assert (decide (node ≠ s))
  let e ← getNext s
  assert (decide (e ≠ s))
  let p ← getPrev node
  let n ← getNext node
  setNext p n
  let n ← getNext node
  let p ← getPrev node
  setPrev n p
  pure node

/-- fixed_size_list.h 613-618 (`extract_back`). -/
def extractBack (s : Nat) : NodeM α Nat := do
  let p ← getPrev s
  extract s p

/-- fixed_size_list.h 620-625 (`extract_front`). -/
def extractFront (s : Nat) : NodeM α Nat := do
  let p ← getNext s
  extract s p

/-- fixed_size_list.h 827-844 (`fast_splice_`). -/
def fastSplice (pos first last : Nat) : NodeM α Unit := do
  assert (decide (first ≠ last))
  let p ← getPrev pos
  setNext p first
  let p ← getPrev pos
  setPrev first p
  let l ← getPrev last
  setPrev pos l
  let l ← getPrev last
  setNext l pos

/-- fixed_size_list.h 766-782 (`splice` of a range). -/
def spliceRange (pos first last : Nat) : NodeM α Unit := do
  assert (decide (first ≠ last))
  let last1 ← getPrev last
  let p ← getPrev first
  setNext p last
  let p ← getPrev first
  setPrev last p
  let p ← getPrev pos
  setNext p first
  let p ← getPrev pos
  setPrev first p
  setPrev pos last1
  setNext last1 pos

/-- fixed_size_list.h 757-764 (`splice` of a list). -/
def splice (pos o : Nat) : NodeM α Unit := do
  let b ← getNext o
  if b = o then pure ()
  else spliceRange pos b o

variable (lt : α → α → Bool)

/-- fixed_size_list.h 668-670: `do ++other_it; while (other_it != other_end && comp(*other_it,
*first))`, after the first increment. -/
def scan (it otherEnd first : Nat) : NodeM α Nat := do
  if it = otherEnd then pure it
  else
    let y ← getVal it
    let x ← getVal first
    if lt y x then
      let n ← getNext it
      scan n otherEnd first
    else pure it
partial_fixpoint

/-- fixed_size_list.h 676-681, 685-688: the sentinel of the other list is reset. -/
def resetSentinel (o : Nat) : NodeM α Unit := do
  setNext o o
  setPrev o o

/-- fixed_size_list.h 662-688: the loop of `merge`. -/
def mergeLoop (first last otherIt otherEnd : Nat) : NodeM α Unit := do
  let y ← getVal otherIt
  let x ← getVal first
  let (first, otherIt) ←
    (if lt y x then do
      let n ← getNext otherIt
      let it ← scan lt n otherEnd first
      fastSplice first otherIt it
      pure (first, it)
    else do
      let n ← getNext first
      pure (n, otherIt) : NodeM α (Nat × Nat))
  if first = last then
    fastSplice last otherIt otherEnd
    resetSentinel otherEnd
  else if otherIt ≠ otherEnd then mergeLoop first last otherIt otherEnd
  else resetSentinel otherEnd
partial_fixpoint

/-- fixed_size_list.h 636-689 (`merge`): the other list, whose sentinel is `o`, is merged in the list
whose sentinel is `s`.  The overload that takes a subrange is only ever called with the whole
list. -/
def merge (s o : Nat) : NodeM α Unit := do
  let first ← getNext s
  if first = s then splice s o
  else
    let b ← getNext o
    if b = o then pure ()
    else mergeLoop lt first s b o

/-- fixed_size_list.h 728-733: the scan of `merge_unsafe`, which keeps the last node it passed. -/
def scanUnsafe (it otherEnd first insertLast : Nat) : NodeM α (Nat × Nat) := do
  if it = otherEnd then pure (it, insertLast)
  else
    let y ← getVal it
    let x ← getVal first
    if lt y x then
      let n ← getNext it
      scanUnsafe n otherEnd first it
    else pure (it, insertLast)
partial_fixpoint

/-- fixed_size_list.h 722-754: the loop of `merge_unsafe`. -/
def mergeUnsafeLoop (first last otherIt otherEnd : Nat) : NodeM α Unit := do
  if otherIt = otherEnd then resetSentinel otherEnd
  else
    let y ← getVal otherIt
    let x ← getVal first
    let (first, otherIt) ←
      (if lt y x then do
        let n ← getNext otherIt
        let (it, insertLast) ← scanUnsafe lt n otherEnd first otherIt
        let p ← getPrev first
        setNext p otherIt
        setNext insertLast first
        pure (first, it)
      else do
        let n ← getNext first
        pure (n, otherIt) : NodeM α (Nat × Nat))
    if first = last then
      let p ← getPrev last
      setNext p otherIt
      let l ← getPrev otherEnd
      setNext l last
      resetSentinel otherEnd
    else mergeUnsafeLoop first last otherIt otherEnd
partial_fixpoint

/-- fixed_size_list.h 692-755 (`merge_unsafe`), called with the whole list. -/
def mergeUnsafe (s o : Nat) : NodeM α Unit := do
  let first ← getNext s
  if first = s then splice s o
  else
    let b ← getNext o
    if b = o then pure ()
    else mergeUnsafeLoop lt first s b o

end NodeList
end CppSort
