import Verif.Model.Insertion
/-
detail/poplar_sort.h
-/
set_option autoImplicit false

namespace CppSort
variable {α : Type}

/-- poplar_sort.h 24-36: `poplar`. -/
structure Poplar where
  start : Nat
  stop : Nat
  size : Nat

/-- poplar_sort.h 30-35: `root`. -/
def Poplar.root (p : Poplar) : Nat := p.stop - 1

section
variable (cmp : α → α → M α Bool)

/-- poplar_sort.h 65-84: the `do ... while` loop of `sift`; it returns `max_root`. -/
def poplarSiftLoop (value : α) (root maxRoot size : Nat) : M α Nat := do
  moveTo root maxRoot
  let size := size / 2
  if size < 2 then pure maxRoot
  else
    let root := maxRoot
    let child1 := root - 1
    let child2 := root - (size - size / 2)
    let maxChild ← (do if ← cmp (← read child2) (← read child1) then pure child1 else pure child2)
    if ← cmp value (← read maxChild) then poplarSiftLoop value root maxChild size
    else pure root
partial_fixpoint

/-- poplar_sort.h 38-87: `sift`. -/
def poplarSift (first size : Nat) : M α Unit := do
  if size < 2 then pure ()
  else
    let root := first + (size - 1)
    let child1 := root - 1
    let child2 := first + (size / 2 - 1)
    let maxRoot ← (do if ← cmp (← read root) (← read child1) then pure child1 else pure root)
    let maxRoot ← (do if ← cmp (← read maxRoot) (← read child2) then pure child2 else pure maxRoot)
    if maxRoot ≠ root then
      let value ← moveOut root
      let maxRoot ← poplarSiftLoop cmp value root maxRoot size
      assign maxRoot value
    else pure ()

/-- poplar_sort.h 97-105: the search of the poplar with the biggest root; `none` is the last poplar. -/
def poplarBigger (last : Poplar) (bigger : Option Poplar) : List Poplar → M α (Option Poplar)
  | [] => pure bigger
  | p :: ps => do
    if ← cmp (← read (bigger.getD last).root) (← read p.root) then poplarBigger last (some p) ps
    else poplarBigger last bigger ps

/-- poplar_sort.h 89-113: `relocate`, of the poplars `ps` and the last one. -/
def poplarRelocate (ps : List Poplar) (last : Poplar) : M α Unit := do
  match ← poplarBigger cmp last none ps with
  | none => pure ()
  | some bigger =>
    swap bigger.root last.root
    poplarSift cmp bigger.start bigger.size

/-- poplar_sort.h 115-135: `make_poplar`. -/
def makePoplar (first last : Nat) : M α Unit := do
  let size := last - first
  if size < 16 then insertionSort cmp first last
  else
    let middle := first + size / 2
    makePoplar first middle
    makePoplar middle (last - 1)
    poplarSift cmp first size
partial_fixpoint

/-- poplar_sort.h 166-177: making the poplars. -/
def poplarBuild (last it poplarSize : Nat) (poplars : List Poplar) : M α (List Poplar) := do
  if poplarSize ≤ last - it then
    let stop := it + poplarSize
    makePoplar cmp it stop
    let poplars := poplars ++ [⟨it, stop, poplarSize⟩]
    if 0 < poplarSize then poplarBuild last stop poplarSize poplars else pure poplars
  else
    let poplarSize := (poplarSize + 1) / 2 - 1
    if 0 < poplarSize then poplarBuild last it poplarSize poplars else pure poplars
partial_fixpoint

/-- poplar_sort.h 189-195, 198-204: the two poplars below the root of a poplar. -/
def Poplar.split (p : Poplar) : List Poplar :=
  let newSize := (p.size - 1) / 2
  let middle := p.start + newSize
  [⟨p.start, middle, newSize⟩, ⟨middle, p.stop - 1, newSize⟩]

/-- poplar_sort.h 184-207: the poplars left after `relocate`, of the poplars `ps` and the last one `back`; `none` when the
loop ends. -/
def poplarNext (ps : List Poplar) (back : Poplar) : Option (List Poplar) :=
  if back.size = 1 then
    match ps with
    | [] => none
    | [p] => if p.size = 1 then none else some p.split
    | p :: q :: ps => some (p :: q :: ps)
  else if 1 < (ps ++ back.split).length then some (ps ++ back.split)
  else none

/-- poplar_sort.h 180-207: sorting the poplars. An empty vector has no `back()`. -/
def poplarLoop (poplars : List Poplar) : M α Unit := do
  match poplars.getLast? with
  | none => fail .deref
  | some back =>
    poplarRelocate cmp poplars.dropLast back
    match poplarNext poplars.dropLast back with
    | none => pure ()
    | some poplars => poplarLoop poplars
partial_fixpoint

/-- poplar_sort.h 137-208. The sizes are unbounded (the wrap-around of `size + 1` the code mentions cannot happen with
a signed difference type). -/
def poplarSort (first last : Nat) : M α Unit := do
  let size := last - first
  if size < 2 then pure ()
  else
    let poplars ← poplarBuild cmp last first (2 ^ Nat.log2 (size + 1) - 1) []
    poplarLoop cmp poplars

end
end CppSort
