import Verif.Model.Splay
import Verif.Model.Heap
import Verif.Base.Embed
/-
cartesian_tree_sort.h.  Nodes and links are those of Model/Splay.lean, `none` is the null pointer.
-/
set_option autoImplicit false

namespace CppSort
variable {α : Type} (lt : α → α → Bool)

/-- cartesian_tree_sort.h 84-101. -/
def cartFindParent (base : Nat) (nd : Nodes) (root : Option Nat) (it : Nat) (prev : Option Nat) :
    M α (Option Nat) := do
  match prev with
  | none => fail .deref
  | some j =>
    if ← tick lt (← read it) (← read (base + j)) then
      if prev = root then pure none
      else cartFindParent base nd root it (nd prev).parent
    else pure prev
partial_fixpoint

/-- cartesian_tree_sort.h 58-69: the node `k` is the next one of `buffer_`, the node `k - 1` is the last one
inserted (`prev_node`).  The result is the links and the root. -/
def cartBuild (base : Nat) (nd : Nodes) (root : Option Nat) (first last k : Nat) : M α (Nodes × Option Nat) := do
  if first ≠ last then
    let newParent ← cartFindParent lt base nd root first (some (k - 1))
    constructFrom (base + k) first
    if newParent = none then
      cartBuild base (nd.set (some k) ⟨none, root, none⟩) (some k) (first + 1) last (k + 1)
    else
      let nd := nd.set (some k) ⟨newParent, (nd newParent).right, none⟩
      cartBuild base (nd.setRight newParent (some k)) root (first + 1) last (k + 1)
  else
    pure (nd, root)
partial_fixpoint

/-- cartesian_tree_sort.h 123-126: the comparison of the priority queue, `flip(compare)` on the values of the
nodes, which are in the cells `val`. -/
def nodeCmp (val : Nat → Cell α) (i j : Nat) : M Nat Bool :=
  match val i, val j with
  | .val a, .val b => tick (fun _ _ => lt b a) i j
  | _, _ => fail .deref

/-- An operation on the priority queue: the vector of pointers is a local container. -/
def onNodes (base : Nat) (pq : List Nat) (m : (Nat → Nat → M Nat Bool) → M Nat Unit) : M α (List Nat) :=
  fun s => (do
    let r ← embed pq (m (nodeCmp lt fun i => s.cell (base + i)))
    pure r.2 : M α (List Nat)) s

/-- cartesian_tree_sort.h 136-151: `rest` is the queue without `pq.front()`, `node` is `pq.front()`. -/
def cartNext (base : Nat) (nd : Nodes) (node : Nat) (rest : List Nat) : M α (List Nat) :=
  match (nd (some node)).left with
  | some l => do
    let pq ← onNodes lt base (l :: rest) fun cmp => siftDown cmp 0 (rest.length + 1) 0
    match (nd (some node)).right with
    | some r => onNodes lt base (pq ++ [r]) fun cmp => pushHeap cmp 0 (pq.length + 1) (pq.length + 1)
    | none => pure pq
  | none =>
    match (nd (some node)).right with
    | some r => onNodes lt base (r :: rest) fun cmp => siftDown cmp 0 (rest.length + 1) 0
    | none => do
      let pq ← onNodes lt base (node :: rest) fun cmp => popHeap cmp 0 (rest.length + 1) (rest.length + 1)
      pure pq.dropLast

/-- cartesian_tree_sort.h 128-152. -/
def cartExtract (base : Nat) (nd : Nodes) (first : Nat) (pq : List Nat) : M α Unit := do
  match pq with
  | [] => pure ()
  | node :: rest =>
    moveTo first (base + node)
    let pq ← cartNext lt base nd node rest
    cartExtract base nd (first + 1) pq
partial_fixpoint

/-- cartesian_tree_sort.h 113-153, 42-70, immovable_vector.h 50-73.  The storage of the nodes is modelled by
the storage of their values.  A null root would be an error. -/
def cartesianTreeSort (first last : Nat) : M α Unit := do
  let size := last - first
  if size < 2 then pure ()
  else
    let base ← alloc size
    constructFrom base first
    let nd := Nodes.empty.set (some 0) ⟨none, none, none⟩
    let (nd, root) ← cartBuild lt base nd (some 0) (first + 1) last 1
    match root with
    | none => fail .deref
    | some r =>
      cartExtract lt base nd first [r]
      destroyN base size
      free base size

end CppSort
