import Verif.Model.Adapters
import Verif.Model.Merge
/-
detail/drop_merge_sort.h, adapters/drop_merge_adapter.h, sorters/drop_merge_sorter.h,
detail/split_sort.h, adapters/split_adapter.h, sorters/split_sorter.h
-/
set_option autoImplicit false

namespace CppSort
variable {α : Type} (cmp : α → α → M α Bool)

/-! ### detail/drop_merge_sort.h

The vector `dropped` is a block of storage for as many elements as the range has, at `base`, with a size:
its reallocations are not modelled. `triv` says whether the elements are trivially copyable: then a move
leaves the source as it is. -/

/-- drop_merge_sort.h 79, 86, 102: `dropped.push_back(iter_move(src))`. -/
def dropPush (triv : Bool) (dst src : Nat) : M α Unit := do
  if triv then
    let x ← read src
    construct dst x
  else
    constructFrom dst src

/-- drop_merge_sort.h 80, 110, 138, 141: `*dst = iter_move(src)`. -/
def dropMove (triv : Bool) (dst src : Nat) : M α Unit := do
  if triv then
    let x ← read src
    assign dst x
  else
    moveTo dst src

/-- drop_merge_sort.h 90-99: the loop taking back the last elements dropped; `size` is the size of the
vector. -/
def dropBack (triv : Bool) (base : Nat) : (num rd size : Nat) → M α Unit
  | 0, _, _ => pure ()
  | num + 1, rd, size => do
    if triv then pure () else moveTo (rd - 1) (base + (size - 1))
    destroy (base + (size - 1))
    dropBack triv base num (rd - 1) (size - 1)

/-- drop_merge_sort.h 107-118; the result is `write, read, size, num_dropped_in_row`. -/
def dropKeep (triv : Bool) (write rd size : Nat) : M α (Nat × Nat × Nat × Nat) := do
  if triv then
    dropMove true write rd
  else
    if rd ≠ write then dropMove false write rd else pure ()
  pure (write + 1, rd + 1, size, 0)

/-- drop_merge_sort.h 85-105. -/
def dropDrop (triv : Bool) (base write rd size num : Nat) : M α (Nat × Nat × Nat × Nat) := do
  if num < 8 then
    dropPush triv (base + size) rd
    pure (write, rd + 1, size + 1, num + 1)
  else
    dropBack triv base num rd size
    let size := size - num
    dropPush triv (base + size) (write - 1)
    pure (write - 1, rd - num, size + 1, 0)

/-- drop_merge_sort.h 75-119: the body of the loop. -/
def dropStep (triv : Bool) (start base write rd size num : Nat) : M α (Nat × Nat × Nat × Nat) := do
  if start ≠ write then
    if ← cmp (← read rd) (← read (write - 1)) then
      if num = 0 ∧ write ≠ start + 1 then
        if !(← cmp (← read rd) (← read (write - 2))) then
          dropPush triv (base + size) (write - 1)
          dropMove triv (write - 1) rd
          pure (write, rd + 1, size + 1, num)
        else
          dropDrop triv base write rd size num
      else
        dropDrop triv base write rd size num
    else
      dropKeep triv write rd size
  else
    dropKeep triv write rd size

/-- drop_merge_sort.h 74-120: the result is `write` and the size of the vector. -/
def dropLoop (triv : Bool) (start last base write rd size num : Nat) : M α (Nat × Nat) := do
  let (write, rd, size, num) ← dropStep cmp triv start base write rd size num
  if rd ≠ last then dropLoop triv start last base write rd size num
  else pure (write, size)
partial_fixpoint

/-- drop_merge_sort.h 135-139: the result is `back, write`. -/
def dropShift (triv : Bool) (start : Nat) (dropped : Nat) (back write : Nat) : M α (Nat × Nat) := do
  if start ≠ write then
    if ← cmp (← read dropped) (← read (write - 1)) then
      dropMove triv (back - 1) (write - 1)
      dropShift triv start dropped (back - 1) (write - 1)
    else
      pure (back, write)
  else
    pure (back, write)
partial_fixpoint

/-- drop_merge_sort.h 131-143. -/
def dropMerge (triv : Bool) (start base : Nat) (size back write : Nat) : M α Unit := do
  let (back, write) ← dropShift cmp triv start (base + (size - 1)) back write
  dropMove triv (back - 1) (base + (size - 1))
  destroy (base + (size - 1))
  if size - 1 ≠ 0 then dropMerge triv start base (size - 1) (back - 1) write
  else pure ()
partial_fixpoint

/-- drop_merge_sort.h 46-144, drop_merge_adapter.h 43-66: the adapted sorter is applied to the vector. -/
def dropMergeSort (triv : Bool) (sorter : Nat → Nat → M α Unit) (start last : Nat) : M α Unit := do
  if start = last ∨ start + 1 = last then pure ()
  else
    let base ← alloc (last - start)
    finallyDo (do
      let (write, size) ← dropLoop cmp triv start last base start start 0 0
      if size = 0 then pure ()
      else
        sorter base (base + size)
        dropMerge cmp triv start base size last write) (free base (last - start))

/-! ### detail/split_sort.h -/

/-- split_sort.h 46-58: the result is `middle`. -/
def splitLoop (first last middle reader : Nat) : M α Nat := do
  if reader ≠ last then
    if ← cmp (← read reader) (← read middle) then
      splitLoop first last (if middle ≠ first then middle - 1 else middle) (reader + 1)
    else
      swap (middle + 1) reader
      splitLoop first last (middle + 1) (reader + 1)
  else
    pure middle
partial_fixpoint

/-- split_sort.h 27-63, split_adapter.h 43-66. -/
def splitSort (c : Cfg) (sorter : Nat → Nat → M α Unit) (first last : Nat) : M α Unit := do
  if first = last ∨ first + 1 = last then pure ()
  else
    let middle ← splitLoop cmp first last first (first + 1)
    sorter middle last
    inplaceMerge cmp c first middle last

end CppSort
