import Verif.Model.ProbesSorted
/-
Sorter adapters, and the utilities that sort indices or iterators. The adapted sorter is any program
`sorter first last` on a memory of the type of objects the adapter makes it sort.
-/
set_option autoImplicit false

namespace CppSort
variable {α β γ δ : Type}

/-- The elements the iterators of `[first, first + n)` point to. (Not an action of the code: it makes
the values explicit that the adapted sorter reads through the iterators.) -/
def readRange (first : Nat) : Nat → M α (List α)
  | 0 => pure []
  | n + 1 => do
    let x ← read first
    let xs ← readRange (first + 1) n
    pure (x :: xs)

/-- A block with a local object: the destructor `fin` runs when the block is left, normally or by an
exception. -/
def finallyDo (m : M α γ) (fin : M α Unit) : M α γ := fun s =>
  match m s with
  | none => none
  | some (r, s1) =>
    match fin s1 with
    | none => none
    | some (.error e, s2) => some (.error e, s2)
    | some (.ok _, s2) => some (r, s2)

/-- A block with an `immovable_vector` of `n` objects other than elements (immovable_vector.h 50-73):
its storage is allocated and released in the memory, its contents are a list of the model. -/
def withStorage (n : Nat) (body : M α γ) : M α γ := do
  let p ← alloc n
  finallyDo body (free p n)

/-! ### adapters/indirect_adapter.h -/

/-- indirect_adapter.h 99-105. -/
def indirectWhile (its : List (α × Nat)) (first start current next : Nat) (sorted : List Bool) :
    M α (Nat × List Bool) := do
  if next ≠ start then
    moveTo current next
    let it ← nth its (next - first)
    indirectWhile its first start next it.2 (sorted.set (next - first) true)
  else
    pure (current, sorted)
partial_fixpoint

/-- indirect_adapter.h 110-112. -/
def indirectFind (sorted : List Bool) (first last start : Nat) : M α Nat := do
  let start := start + 1
  if start = last then pure start
  else if ← nth sorted (start - first) then indirectFind sorted first last start
  else pure start
partial_fixpoint

/-- indirect_adapter.h 89-114. -/
def indirectLoop (its : List (α × Nat)) (first last start : Nat) (sorted : List Bool) : M α Unit := do
  if start ≠ last then
    let it ← nth its (start - first)
    let sorted := sorted.set (start - first) true
    if it.2 ≠ start then
      let tmp ← moveOut start
      let (current, sorted) ← indirectWhile its first start start it.2 sorted
      assign current tmp
      let start ← indirectFind sorted first last start
      indirectLoop its first last start sorted
    else
      let start ← indirectFind sorted first last start
      indirectLoop its first last start sorted
  else
    pure ()
partial_fixpoint

/-- indirect_adapter.h 48-129 (random-access iterators). `uncaught` tells whether the standard library
has `std::uncaught_exceptions`: then the second part is run by a `scope_success` object, when the sorter
returns (scope_exit.h 82-126), unless the object was deactivated. An iterator is a pair of the element it
points to, and its address; the range does not change while the iterators are sorted. The flags
`sorted` are bits: their storage is not modelled. -/
def sortIndirectly (uncaught : Bool) (sorter : Nat → Nat → M (α × Nat) Unit) (first last : Nat) :
    M α Unit :=
  withStorage (last - first) do
    let xs ← readRange first (last - first)
    let (_, its) ← embed (xs.zipIdx first) (sorter 0 (last - first))
    if uncaught ∧ last - first < 2 then
      pure ()
    else
      indirectLoop its first last first (List.replicate (last - first) false)

/-! ### detail/indiesort.h -/

/-- indiesort.h 108-114. `its` are the locations (as indices) and `idx` the members `original_index`. -/
def indieWhile (its : List (α × Nat)) (first index dst src : Nat) (idx : List Nat) :
    M α (Nat × List Nat) := do
  let d ← nth its dst
  let s ← nth its src
  moveTo (first + d.2) (first + s.2)
  let dst := src
  let src ← nth idx dst
  let idx := idx.set dst dst
  if src ≠ index then
    indieWhile its first index dst src idx
  else
    pure (dst, idx)
partial_fixpoint

/-- indiesort.h 101-117. -/
def indieLoop (its : List (α × Nat)) (first index : Nat) (idx : List Nat) : M α Unit := do
  if index ≠ its.length then
    let src ← nth idx index
    if src ≠ index then
      let loc ← nth its index
      let endValue ← moveOut (first + loc.2)
      let (dst, idx) ← indieWhile its first index index src idx
      let d ← nth its dst
      assign (first + d.2) endValue
      indieLoop its first (index + 1) idx
    else
      indieLoop its first (index + 1) idx
  else
    pure ()
partial_fixpoint

/-- indiesort.h 57-132, used by indirect_adapter for iterators that are not random-access
(indirect_adapter.h 35-46). A location is represented by its index in the range. -/
def indiesort (uncaught : Bool) (sorter : Nat → Nat → M (α × Nat) Unit) (first last : Nat) : M α Unit :=
  withStorage (last - first) do
    let xs ← readRange first (last - first)
    let (_, its) ← embed xs.zipIdx (sorter 0 (last - first))
    if uncaught ∧ last - first < 2 then
      pure ()
    else
      indieLoop its first 0 (its.map (·.2))

/-- indirect_adapter.h 131-183: dispatch on the iterator category. -/
def indirectAdapter (randomAccess uncaught : Bool) (sorter : Nat → Nat → M (α × Nat) Unit)
    (first last : Nat) : M α Unit :=
  if randomAccess then sortIndirectly uncaught sorter first last
  else indiesort uncaught sorter first last

/-! ### adapters/out_of_place_adapter.h -/

/-- out_of_place_adapter.h 33-61 (both branches: the moves back happen when the sorter returns), with
the construction, `insert_back` and destruction of immovable_vector.h 50-73, 127-145. -/
def outOfPlace (sorter : Nat → Nat → M α Unit) (first last : Nat) : M α Unit := do
  let buffer ← alloc (last - first)
  let bufferEnd ← uninitMove first last buffer
  finallyDo
    (do sorter buffer bufferEnd
        let _ ← moveRange id id buffer bufferEnd first
        pure ())
    (do destroyN buffer (bufferEnd - buffer)
        free buffer (last - first))

/-! ### detail/associate_iterator.h -/

/-- The memory seen through `associate_iterator`s on `[first, first + n)`: elements together with the
data associated with them (`data k` for the address `k`). -/
def assocMem (first n : Nat) (data : Nat → δ) (s : St α) : St (α × δ) where
  cell k :=
    if first ≤ k ∧ k < first + n then
      match s.cell k with
      | .val a => .val (a, data k)
      | .moved => .moved
      | .raw => .raw
      | .unalloc => .unalloc
    else .unalloc
  brk := max s.brk (first + n)
  grant := s.grant
  cmps := s.cmps
  movs := s.movs

/-- The memory after a program that worked through `associate_iterator`s: the elements have been moved
in the range itself (associate_iterator.h 65-79, 290-309). -/
def assocBack (first n : Nat) (s : St α) (t : St (α × δ)) : St α where
  cell k :=
    if first ≤ k ∧ k < first + n then
      match t.cell k with
      | .val a => .val a.1
      | .moved => .moved
      | .raw => .raw
      | .unalloc => .unalloc
    else s.cell k
  brk := s.brk
  grant := t.grant
  cmps := t.cmps
  movs := t.movs

/-- A program run on `associate_iterator`s: moving such an element moves the element of the range and the
data. Memory the program allocates for elements (`associated_value`s) is its own. -/
def associated (first n : Nat) (data : Nat → δ) (m : M (α × δ) γ) : M α γ := fun s =>
  match m (assocMem first n data s) with
  | none => none
  | some (r, t) => some (r, assocBack first n s t)

/-! ### adapters/stable_adapter.h -/

/-- stable_adapter.h 51-66: `stable_compare::operator()`. -/
def stableLt (lt : α → α → Bool) (x y : α × Nat) : Bool :=
  if lt x.1 y.1 then true
  else if lt y.1 x.1 then false
  else decide (x.2 < y.2)

/-- stable_adapter.h 80-110. The adapted sorter is given `stable_compare`: one comparison of the model's
counter is one call of `stable_compare`. -/
def makeStable (sorter : Nat → Nat → M (α × Nat) Unit) (first last : Nat) : M α Unit :=
  withStorage (last - first)
    (associated first (last - first) (fun k => k - first) (sorter first last))

/-- stable_adapter.h 178-213: `stable_adapter<Sorter>` calls the sorter itself when it is stable. -/
def stableAdapter (isStable : Bool) (sorter : Nat → Nat → M α Unit)
    (sorterPairs : Nat → Nat → M (α × Nat) Unit) (first last : Nat) : M α Unit :=
  if isStable then sorter first last else makeStable sorterPairs first last

/-! ### adapters/schwartz_adapter.h -/

/-- schwartz_adapter.h 72-77: the projections of the elements, computed in order. `proj` is an action,
so that its calls can be counted. -/
def projectRange (proj : α → M α δ) (first : Nat) : Nat → M α (List δ)
  | 0 => pure []
  | n + 1 => do
    let y ← proj (← read first)
    let ys ← projectRange proj (first + 1) n
    pure (y :: ys)

/-- schwartz_adapter.h 54-85. The adapted sorter compares the associated data. -/
def sortWithSchwartz [Inhabited δ] (proj : α → M α δ) (sorter : Nat → Nat → M (α × δ) Unit)
    (first last : Nat) : M α Unit :=
  withStorage (last - first) do
    let data ← projectRange proj first (last - first)
    associated first (last - first) (fun k => data.getD (k - first) default) (sorter first last)

/-! ### utility/apply_permutation.h -/

/-- apply_permutation.h 37-42: the do-while loop. Returns `current_idx` and the indices. -/
def applyWhile (first idx current : Nat) (indices : List Nat) : M α (Nat × List Nat) := do
  let next ← nth indices current
  moveTo (first + current) (first + next)
  let indices := indices.set current current
  let t ← nth indices next
  if idx ≠ t then
    applyWhile first idx next indices
  else
    pure (next, indices)
partial_fixpoint

/-- apply_permutation.h 33-46. -/
def applyLoop (first idx : Nat) (indices : List Nat) : M α (List Nat) := do
  if idx < indices.length then
    let i ← nth indices idx
    if idx ≠ i then
      let tmp ← moveOut (first + idx)
      let (current, indices) ← applyWhile first idx idx indices
      let indices := indices.set current current
      assign (first + current) tmp
      applyLoop first (idx + 1) indices
    else
      applyLoop first (idx + 1) indices
  else
    pure indices
partial_fixpoint

/-- apply_permutation.h 22-47. Returns the contents of the collection of indices afterwards. -/
def applyPermutation (first : Nat) (indices : List Nat) : M α (List Nat) :=
  applyLoop first 0 indices

/-! ### utility/sorted_indices.h, utility/sorted_iterators.h -/

/-- sorted_indices.h 46-76. An index is sorted by the element it designates: it is represented by the
pair of both. -/
def sortedIndices (sorter : Nat → Nat → M (α × Nat) Unit) (first last : Nat) : M α (List Nat) := do
  let xs ← readRange first (last - first)
  let (_, its) ← embed xs.zipIdx (sorter 0 (last - first))
  pure (its.map (·.2))

/-- sorted_iterators.h 37-52, 62-116: the iterators (addresses) in order. -/
def sortedIteratorsOf (sorter : Nat → Nat → M (α × Nat) Unit) (first last : Nat) : M α (List Nat) := do
  let xs ← readRange first (last - first)
  let (_, its) ← embed (xs.zipIdx first) (sorter 0 (last - first))
  pure (its.map (·.2))

end CppSort
