import Verif.Model.Adapters
/-
detail/merge_insertion_sort.h

A `group_iterator` (lines 32-217) is a base iterator together with the size of a group. Inside of one
call of `merge_insertion_sort_impl` all of them have the same group size `g` and lie at whole groups
from `first`: they are modelled by the index of their group, so that the group `i` is the range
`[f + i * g, f + i * g + g)`. The `fixed_size_list` (detail/fixed_size_list.h) holding the main chain is
modelled by the list of its values: its nodes come from a pool that has as many nodes as there are
elements, and the pool is not modelled. The iterators stored in `pend` designate nodes of the chain;
they are modelled by the value held in the node (the values of a chain are distinct), `none` being
`chain.end()`.
-/
set_option autoImplicit false

namespace CppSort
variable {α : Type}

/-- merge_insertion_sort.h 78-83: `group_iterator::operator*`, the last element of the group. -/
def groupKey (f g i : Nat) : M α α := read (f + i * g + (g - 1))

/-- merge_insertion_sort.h 206-212: `iter_swap` of two `group_iterator`s. -/
def groupSwap (f g i j : Nat) : M α Unit := do
  let _ ← swapRanges (f + i * g) (f + i * g + g) (f + j * g)
  pure ()

/-- The value held in the node of the chain at the position `k`; the end of the chain holds none. -/
def chainKey (f g : Nat) (chain : List Nat) (k : Nat) : M α α :=
  match chain[k]? with
  | some i => groupKey f g i
  | none => fail .deref

/-- The position in the chain of an iterator stored in `pend`. -/
def chainPos (chain : List Nat) : Option Nat → Nat
  | some i => chain.idxOf i
  | none => chain.length

/-- `chain.insert(insertion_point, it)`, fixed_size_list.h 545-555. -/
def chainInsert (chain : List Nat) (k it : Nat) : List Nat := chain.take k ++ it :: chain.drop k

/-- `*pe`, for an index in `pend`. -/
def pendAt (pend : List (Option Nat)) (k : Nat) : M α (Option Nat) :=
  match pend[k]? with
  | some p => pure p
  | none => fail .deref

/-- merge_insertion_sort.h 293-313: the main chain once the pairs are sorted: the first two groups, then
the second group of every other pair. -/
def mergeInsertionChain (pairs : Nat) : List Nat :=
  0 :: (List.range pairs).map (fun k => 2 * k + 1)

/-- merge_insertion_sort.h 299-313: the upper bounds for the insertion of the other groups. -/
def mergeInsertionPend (pairs : Nat) (stray : Bool) : List (Option Nat) :=
  (List.range (pairs - 1)).map (fun k => some (2 * k + 3)) ++ (if stray then [none] else [])

section
variable (cmp : α → α → M α Bool)

/-- swap_if.h 185-195: `iter_swap_if` of two `group_iterator`s, which have a dedicated `iter_swap`. -/
def groupSwapIf (f g i j : Nat) : M α Unit := do
  let y ← groupKey f g j
  let x ← groupKey f g i
  if ← cmp y x then groupSwap f g i j else pure ()

/-- merge_insertion_sort.h 263-265: the groups are ordered by pairs. -/
def mergeInsertionPairs (f g it stop : Nat) : M α Unit := do
  if it ≠ stop then
    groupSwapIf cmp f g it (it + 1)
    mergeInsertionPairs f g (it + 2) stop
  else pure ()
partial_fixpoint

/-- lower_bound.h 22-41 on the chain, with the comparison `not_fn(flip(compare))` given by
upper_bound.h 38-50. The result is a position in the chain. -/
def chainUpper (f g : Nat) (chain : List Nat) (value : α) (first size : Nat) : M α Nat := do
  if size > 0 then
    let it := first + size / 2
    let x ← chainKey f g chain it
    if ← notC (flipC cmp) x value then
      chainUpper f g chain value (it + 1) (size - (size / 2 + 1))
    else
      chainUpper f g chain value first (size / 2)
  else
    pure first
partial_fixpoint

/-- merge_insertion_sort.h 351-355 and 370-374: the insertion of the group `it` before the bound that
`pend` has for it. -/
def mergeInsertionPut (f g : Nat) (pend : List (Option Nat)) (chain : List Nat) (pe it : Nat) :
    M α (List Nat) := do
  let p ← pendAt pend pe
  let value ← groupKey f g it
  let k ← chainUpper cmp f g chain value 0 (chainPos chain p)
  pure (chainInsert chain k it)

/-- merge_insertion_sort.h 348-359: one cycle of insertions, from the farthest to the closest. -/
def mergeInsertionCycle (f g : Nat) (pend : List (Option Nat)) (current : Nat) (chain : List Nat)
    (pe it : Nat) : M α (List Nat) := do
  let pe := pe - 1
  let chain ← mergeInsertionPut cmp f g pend chain pe it
  if pe = current then pure chain
  else mergeInsertionCycle f g pend current chain pe (it - 2)
partial_fixpoint

/-- merge_insertion_sort.h 341-363. The three counters have the difference type of the list: they are
natural numbers here, since they stay below four times the number of elements. The result is
`(chain, current_pend, current_it)`. -/
def mergeInsertionCycles (f g : Nat) (pend : List (Option Nat)) (chain : List Nat)
    (currentPend currentIt pow2 jn dist : Nat) : M α (List Nat × Nat × Nat) := do
  if dist ≤ pend.length - currentPend then
    let chain ← mergeInsertionCycle cmp f g pend currentPend chain (currentPend + dist)
      (currentIt + dist * 2)
    mergeInsertionCycles f g pend chain (currentPend + dist) (currentIt + dist * 2)
      (pow2 * 2) (pow2 * 2 - jn) (2 * (pow2 * 2 - jn))
  else pure (chain, currentPend, currentIt)
partial_fixpoint

/-- merge_insertion_sort.h 368-376: the remaining groups. -/
def mergeInsertionRest (f g : Nat) (pend : List (Option Nat)) (chain : List Nat)
    (currentPend currentIt : Nat) : M α (List Nat) := do
  if currentPend ≠ pend.length then
    let chain ← mergeInsertionPut cmp f g pend chain currentPend (currentIt + 2)
    mergeInsertionRest f g pend chain (currentPend + 1) (currentIt + 2)
  else pure chain
partial_fixpoint

/-- merge_insertion_sort.h 383-387: the groups are moved to the cache in the order of the chain
(`immovable_vector::insert_back`, immovable_vector.h 133-150). -/
def mergeInsertionGather (f g : Nat) (chain : List Nat) (dst : Nat) : M α Nat :=
  match chain with
  | [] => pure dst
  | i :: chain => do
    let dst ← uninitMove (f + i * g) (f + i * g + g) dst
    mergeInsertionGather f g chain dst

/-- merge_insertion_sort.h 379-388: the cache. Moving elements does not throw in the model, hence
nothing has to be cleaned up on the way. -/
def mergeInsertionMove (f g size : Nat) (chain : List Nat) : M α Unit := do
  let cache ← alloc (size * g)
  let cacheEnd ← mergeInsertionGather f g chain cache
  let _ ← moveRange id id cache cacheEnd f
  destroyN cache (cacheEnd - cache)
  free cache (size * g)

/-- merge_insertion_sort.h 243-394: `merge_insertion_sort_impl` on `size` groups of `g` elements. -/
def mergeInsertionImpl (f g size : Nat) : M α Unit := do
  if size < 2 then pure ()
  else
    let stray := size % 2 ≠ 0
    let stop := if stray then size - 1 else size
    mergeInsertionPairs cmp f g 0 stop
    mergeInsertionImpl f (2 * g) (stop / 2)
    let pend := mergeInsertionPend (stop / 2) (decide stray)
    let (chain, currentPend, currentIt) ←
      mergeInsertionCycles cmp f g pend (mergeInsertionChain (stop / 2)) 0 0 1 0 2
    let chain ← mergeInsertionRest cmp f g pend chain currentPend currentIt
    mergeInsertionMove f g size chain
partial_fixpoint

/-- merge_insertion_sort.h 396-420: `merge_insertion_sort`. -/
def mergeInsertionSort (first last : Nat) : M α Unit := do
  if last - first < 2 then pure ()
  else mergeInsertionImpl cmp first 1 (last - first)

end
end CppSort
