/-
The machine: memory cells, state, errors, the monad of programs and the primitive operations
every modelled algorithm is written with.
-/
set_option autoImplicit false

namespace CppSort

/-- Contents of one element slot of the address space.
`unalloc`: no storage; `raw`: storage without a live object; `moved`: a live object whose value has
been moved from; `val a`: a live object with value `a`. -/
inductive Cell (α : Type) where
  | unalloc | raw | moved
  | val (a : α)

/-- Everything the model considers undefined (or, for `exn`, exceptional) behaviour. -/
inductive Err where
  /-- read (dereference as a value) of something that holds no value -/
  | deref
  /-- assignment to, or destruction of, something that is not a live object -/
  | dead
  /-- self move-assignment -/
  | selfMove
  /-- construction over a live object, or outside allocated storage -/
  | alive
  /-- deallocation of storage with live objects, or of unallocated storage -/
  | badFree
  /-- integer overflow -/
  | overflow
  /-- a C++ exception (thrown by the comparison function, or `bad_alloc`) -/
  | exn
  deriving DecidableEq

/-- Machine state.  `brk` is the allocation frontier, `grant` the stream of answers of the
no-throw allocator, `cmps` and `movs` count comparisons and element moves. -/
structure St (α : Type) where
  cell : Nat → Cell α
  brk : Nat
  grant : Nat → Nat
  cmps : Nat
  movs : Nat

/-- Programs: may diverge (`none`), fail, or return. The state survives failures. -/
abbrev M (α : Type) := ExceptT Err (StateT (St α) Option)

variable {α : Type}

/-- Function update on memory. -/
def setCell (c : Nat → Cell α) (i : Nat) (x : Cell α) : Nat → Cell α :=
  fun k => if k = i then x else c k

/-- `*it` used as a value. -/
def read (i : Nat) : M α α := fun s =>
  match s.cell i with
  | .val a => some (.ok a, s)
  | _ => some (.error .deref, s)

/-- `auto tmp = iter_move(it)` : utility/iter_move.h 75-80; the source is left moved-from. -/
def moveOut (i : Nat) : M α α := fun s =>
  match s.cell i with
  | .val a => some (.ok a, { s with cell := setCell s.cell i .moved, movs := s.movs + 1 })
  | _ => some (.error .deref, s)

/-- `*it = std::move(tmp)`. -/
def assign (i : Nat) (x : α) : M α Unit := fun s =>
  match s.cell i with
  | .val _ | .moved => some (.ok (), { s with cell := setCell s.cell i (.val x), movs := s.movs + 1 })
  | _ => some (.error .dead, s)

/-- `*dst = iter_move(src)`. Moving an element onto itself is an error of the model (docs/Home.md
25-34), unless it is already in a moved-from state (tests/testing-tools/move_only.h 89-93: "Self-move
should be ok if the object is already in a moved-from state"), when nothing happens. -/
def moveTo (dst src : Nat) : M α Unit := fun s =>
  if dst = src then
    match s.cell src with
    | .moved => some (.ok (), { s with movs := s.movs + 1 })
    | .val _ => some (.error .selfMove, s)
    | _ => some (.error .dead, s)
  else
  match s.cell src with
  | .val a =>
    match s.cell dst with
    | .val _ | .moved =>
      some (.ok (), { s with cell := setCell (setCell s.cell src .moved) dst (.val a),
                             movs := s.movs + 1 })
    | _ => some (.error .dead, s)
  | _ => some (.error .deref, s)

/-- `iter_swap(lhs, rhs)` : utility/iter_move.h 89-117, counted as three moves.  Swapping an element
with itself is allowed (docs/Home.md 25-34). -/
def swap (i j : Nat) : M α Unit := fun s =>
  match s.cell i, s.cell j with
  | .val a, .val b =>
    some (.ok (), { s with cell := setCell (setCell s.cell i (.val b)) j (.val a),
                           movs := s.movs + 3 })
  | _, _ => some (.error .deref, s)

/-- `::new (dst) T(iter_move(src))` : construction in raw storage from a live element. -/
def constructFrom (dst src : Nat) : M α Unit := fun s =>
  match s.cell src with
  | .val a =>
    match s.cell dst with
    | .raw => some (.ok (), { s with cell := setCell (setCell s.cell src .moved) dst (.val a),
                                     movs := s.movs + 1 })
    | _ => some (.error .alive, s)
  | _ => some (.error .deref, s)

/-- `::new (dst) T(std::move(tmp))`. -/
def construct (dst : Nat) (x : α) : M α Unit := fun s =>
  match s.cell dst with
  | .raw => some (.ok (), { s with cell := setCell s.cell dst (.val x), movs := s.movs + 1 })
  | _ => some (.error .alive, s)

/-- Destructor call on the object at `i`. -/
def destroy (i : Nat) : M α Unit := fun s =>
  match s.cell i with
  | .val _ | .moved => some (.ok (), { s with cell := setCell s.cell i .raw })
  | _ => some (.error .dead, s)

/-- Storage for `n` elements. -/
def alloc (n : Nat) : M α Nat := fun s =>
  some (.ok s.brk,
    { s with cell := fun k => if s.brk ≤ k ∧ k < s.brk + n then .raw else s.cell k,
             brk := s.brk + n })

/-- Is the cell allocated storage without a live object? -/
def Cell.isRaw : Cell α → Bool
  | .raw => true
  | _ => false

/-- Return the storage of `n` elements at `p`; every object in it must have been destroyed. -/
def free (p n : Nat) : M α Unit := fun s =>
  if (List.range n).all (fun k => (s.cell (p + k)).isRaw) then
    some (.ok (), { s with cell := fun k => if p ≤ k ∧ k < p + n then .unalloc else s.cell k })
  else some (.error .badFree, s)

/-- Next answer of the environment (how much memory the no-throw allocator grants). -/
def askGrant : M α Nat := fun s =>
  some (.ok (s.grant 0), { s with grant := fun k => s.grant (k + 1) })

/-- Fail. -/
def fail {β : Type} (e : Err) : M α β := fun s => some (.error e, s)

/-- The comparison action for the relation `lt`: counts one comparison. -/
def tick (lt : α → α → Bool) : α → α → M α Bool := fun x y s =>
  some (.ok (lt x y), { s with cmps := s.cmps + 1 })

end CppSort
