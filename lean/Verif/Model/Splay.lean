import Verif.Model.Merge
/-
binary_tree.h and splaysort.h, at the level of the pointers between the nodes.

A pointer to a node is `some k`, where `k` is the position of the node in `buffer_`; `none` is the
address of the sentinel node of splaysort.h, and the null pointer for cartesian_tree_sort.h.  The values
of the nodes are in the memory: the value of the node `k` is in the cell `base + k`.
-/
set_option autoImplicit false

namespace CppSort
variable {α : Type} (cmp : α → α → M α Bool)

/-- binary_tree.h 18-39: the links of a node. -/
structure TNode where
  parent : Option Nat
  left : Option Nat
  right : Option Nat

/-- The links of all the nodes.  The null pointers of the sentinel node (splaysort.h 27-29) are `none` too:
they are only compared with addresses of nodes. -/
abbrev Nodes := Option Nat → TNode

/-- The links before any node exists. -/
def Nodes.empty : Nodes := fun _ => ⟨none, none, none⟩

/-- A node is created or changed. -/
def Nodes.set (nd : Nodes) (p : Option Nat) (x : TNode) : Nodes := fun q => if q = p then x else nd q

/-- `p->parent = q`. -/
def Nodes.setParent (nd : Nodes) (p q : Option Nat) : Nodes := nd.set p { nd p with parent := q }
/-- `p->left_child = q`. -/
def Nodes.setLeft (nd : Nodes) (p q : Option Nat) : Nodes := nd.set p { nd p with left := q }
/-- `p->right_child = q`. -/
def Nodes.setRight (nd : Nodes) (p q : Option Nat) : Nodes := nd.set p { nd p with right := q }

/-- splaysort.h 41-47, 60-66: the link from the grand-parent. -/
def splayRelink (nd : Nodes) (grandParent parent node : Option Nat) : Nodes :=
  if (nd grandParent).left = parent then nd.setLeft grandParent node
  else nd.setRight grandParent node

/-- splaysort.h 31-48. -/
def splayRotateLeft (nd : Nodes) (node : Option Nat) : Nodes :=
  let parent := (nd node).parent
  let grandParent := (nd parent).parent
  let old := (nd node).left
  let nd := nd.setLeft node parent
  let nd := nd.setRight parent old
  let nd := nd.setParent (nd parent).right parent
  let old := (nd parent).parent
  let nd := nd.setParent parent node
  let nd := nd.setParent node old
  splayRelink nd grandParent parent node

/-- splaysort.h 50-67. -/
def splayRotateRight (nd : Nodes) (node : Option Nat) : Nodes :=
  let parent := (nd node).parent
  let grandParent := (nd parent).parent
  let old := (nd node).right
  let nd := nd.setRight node parent
  let nd := nd.setLeft parent old
  let nd := nd.setParent (nd parent).left parent
  let old := (nd parent).parent
  let nd := nd.setParent parent node
  let nd := nd.setParent node old
  splayRelink nd grandParent parent node

/-- splaysort.h 77-110: the body of the loop of `splay`. -/
def splayStep (nd : Nodes) (node parent : Option Nat) : Nodes :=
  let grandParent := (nd parent).parent
  if grandParent = none then
    if node = (nd parent).left then splayRotateRight nd node
    else splayRotateLeft nd node
  else
    if parent = (nd grandParent).left then
      if node = (nd parent).left then splayRotateRight (splayRotateRight nd parent) node
      else splayRotateRight (splayRotateLeft nd node) node
    else
      if node = (nd parent).left then splayRotateLeft (splayRotateRight nd node) node
      else splayRotateLeft (splayRotateLeft nd parent) node

/-- splaysort.h 69-112. -/
def splay (nd : Nodes) (node parent : Option Nat) : M α Nodes := do
  let nd := splayStep nd node parent
  let parent := (nd node).parent
  if parent ≠ none then splay nd node parent
  else pure nd
partial_fixpoint

/-- splaysort.h 199-231, 233-238: `insert`.  The node `k` is the next one of `buffer_`; it becomes the
root. -/
def splayInsert (base : Nat) (nd : Nodes) (it k : Nat) (node : Option Nat) : M α Nodes := do
  match node with
  | none => fail .deref
  | some j =>
    if ← cmp (← read it) (← read (base + j)) then
      if (nd node).left = none then
        constructFrom (base + k) it
        let nd := nd.set (some k) ⟨node, none, none⟩
        let nd := nd.setLeft node (some k)
        splay nd (some k) (nd (some k)).parent
      else
        splayInsert base nd it k (nd node).left
    else
      if (nd node).right = none then
        constructFrom (base + k) it
        let nd := nd.set (some k) ⟨node, none, none⟩
        let nd := nd.setRight node (some k)
        splay nd (some k) (nd (some k)).parent
      else
        splayInsert base nd it k (nd node).right
partial_fixpoint

/-- splaysort.h 146-148: the node `k` is the next one, the node `k - 1` is the root. -/
def splayBuild (base : Nat) (nd : Nodes) (first last k : Nat) : M α Nodes := do
  if first ≠ last then
    let nd ← splayInsert cmp base nd first k (some (k - 1))
    splayBuild base nd (first + 1) last (k + 1)
  else
    pure nd
partial_fixpoint

/-- splaysort.h 169-171, 180-182. -/
def splayLeftmost (nd : Nodes) (curr : Option Nat) : M α (Option Nat) := do
  if (nd curr).left ≠ none then splayLeftmost nd (nd curr).left
  else pure curr
partial_fixpoint

/-- splaysort.h 172-173, 189-190: `*out = std::move(curr->value)`. -/
def splayOut (base : Nat) (curr : Option Nat) (out : Nat) : M α Unit :=
  match curr with
  | none => fail .deref
  | some k => moveTo out (base + k)

/-- splaysort.h 175-191. -/
def splayMoveLoop (base : Nat) (nd : Nodes) (curr : Option Nat) (out : Nat) : M α Unit := do
  if (nd curr).right ≠ none then
    let prev := curr
    let curr := (nd curr).right
    let nd := nd.setParent curr (nd prev).parent
    let nd := nd.setRight prev none
    let curr ← splayLeftmost nd curr
    splayOut base curr out
    splayMoveLoop base nd curr (out + 1)
  else if (nd curr).parent ≠ none then
    let curr := (nd curr).parent
    splayOut base curr out
    splayMoveLoop base nd curr (out + 1)
  else
    pure ()
partial_fixpoint

/-- splaysort.h 163-192 (`move_to`). -/
def splayMoveTo (base : Nat) (nd : Nodes) (root : Option Nat) (out : Nat) : M α Unit := do
  let curr ← splayLeftmost nd root
  splayOut base curr out
  splayMoveLoop base nd curr (out + 1)

/-- splaysort.h 250-270, immovable_vector.h 50-73.  The storage of the nodes is modelled by the storage of
their values.  The destructor is not modelled for the case where an exception leaves the function. -/
def splaysort (first last : Nat) : M α Unit := do
  let size := last - first
  if size < 2 then pure ()
  else
    let base ← alloc size
    constructFrom base first
    let nd := Nodes.empty.set (some 0) ⟨none, none, none⟩
    let nd ← splayBuild cmp base nd (first + 1) last 1
    splayMoveTo base nd (some (size - 1)) first
    destroyN base size
    free base size

end CppSort
