import Verif.Model.Lists
/-
The measures of presortedness that only read the range: probes/{runs,mono,dis,rem,sus,enc}.h and the
in-place algorithm of osc.h.

A probe never writes to the range, so the range is passed as the list of its elements and an iterator
is an index; dereferencing an index outside the list is the outcome `deref`.  Vectors of iterators are
lists of indices.  Differences are natural numbers: none of them can be negative where it is used.
-/
set_option autoImplicit false

namespace CppSort
variable {α : Type} (cmp : α → α → M α Bool)

/-! ### probes/runs.h -/

/-- probes/runs.h 53-56: skip a non-descending run. -/
def runsSkip (xs : List α) (current next : Nat) : M α (Nat × Nat) := do
  if next ≠ xs.length then
    if ← cmp (← nth xs next) (← nth xs current) then
      pure (current, next)
    else
      runsSkip xs (current + 1) (next + 1)
  else
    pure (current, next)
partial_fixpoint

/-- probes/runs.h 52-62. -/
def runsLoop (xs : List α) (current next count : Nat) : M α Nat := do
  let (current, next) ← runsSkip cmp xs current next
  if next = xs.length then
    pure count
  else
    runsLoop xs (current + 1) (next + 1) (count + 1)
partial_fixpoint

/-- probes/runs.h 37-64. -/
def probeRuns (xs : List α) : M α Nat :=
  if xs.length = 0 ∨ 1 = xs.length then pure 0
  else runsLoop cmp xs 0 1 0

/-! ### probes/mono.h -/

/-- probes/mono.h 64-70 (`up`) and 75-81: the do-while loop over the rest of a run; `none` when the end
is reached, the positions `current`, `next` of the break otherwise. -/
def monoRun (up : Bool) (xs : List α) (next : Nat) : M α (Option (Nat × Nat)) := do
  let current := next
  let next := next + 1
  if next = xs.length then
    pure none
  else if ← (if up then do cmp (← nth xs next) (← nth xs current)
             else do cmp (← nth xs current) (← nth xs next)) then
    pure (some (current, next))
  else
    monoRun up xs next
partial_fixpoint

/-- probes/mono.h 60-98. -/
def monoLoop (xs : List α) (current next count : Nat) : M α Nat := do
  if next ≠ xs.length then
    if ← cmp (← nth xs current) (← nth xs next) then
      match ← monoRun cmp true xs next with
      | none => pure count
      | some (_, next) => monoLoop xs next (next + 1) (count + 1)
    else if ← cmp (← nth xs next) (← nth xs current) then
      match ← monoRun cmp false xs next with
      | none => pure count
      | some (_, next) => monoLoop xs next (next + 1) (count + 1)
    else
      monoLoop xs next (next + 1) count
  else
    pure count
partial_fixpoint

/-- probes/mono.h 37-99. -/
def probeMono (xs : List α) : M α Nat :=
  if xs.length = 0 ∨ 1 = xs.length then pure 0
  else monoLoop cmp xs 0 1 0

/-! ### probes/dis.h -/

/-- detail/is_p_sorted.h 29-37; `a` is `first`. -/
def isPSortedLoop (xs : List α) (a it1 maxIt : Nat) : M α Bool := do
  if it1 ≠ xs.length then
    let maxIt ← (do if ← cmp (← nth xs maxIt) (← nth xs a) then pure a else pure maxIt)
    if ← cmp (← nth xs it1) (← nth xs maxIt) then
      pure false
    else
      isPSortedLoop xs (a + 1) (it1 + 1) maxIt
  else
    pure true
partial_fixpoint

/-- detail/is_p_sorted.h 18-39. -/
def isPSorted (xs : List α) (pth : Nat) : M α Bool :=
  isPSortedLoop cmp xs 0 (pth + 1) 0

/-- probes/dis.h 43-55; `res` and `res_it` always denote the same position. -/
def disInplaceLoop (xs : List α) (res size : Nat) : M α Nat := do
  if 0 < size then
    let p := res + size / 2
    if ← isPSorted cmp xs p then
      disInplaceLoop xs res (size / 2)
    else
      disInplaceLoop xs (p + 1) (size - (size / 2 + 1))
  else
    pure res
partial_fixpoint

/-- probes/dis.h 34-57. -/
def disInplace (xs : List α) : M α Nat := disInplaceLoop cmp xs 0 xs.length

/-- probes/dis.h 79-85: the iterators to the cumulative maxima. -/
def lrCummaxLoop (xs : List α) (it : Nat) (lr : List Nat) : M α (List Nat) := do
  if it ≠ xs.length then
    let b ← nth lr (lr.length - 1)
    if ← cmp (← nth xs b) (← nth xs it) then
      lrCummaxLoop xs (it + 1) (lr ++ [it])
    else
      lrCummaxLoop xs (it + 1) (lr ++ [b])
  else
    pure lr
partial_fixpoint

/-- probes/dis.h 95-107: the inner loop; `inl` is a `return` of the function. -/
def disWhile (xs : List α) (lr : List Nat) (j i rl rlMin res : Nat) :
    M α (Nat ⊕ (Nat × Nat × Nat × Nat)) := do
  if j ≤ i then
    if ← cmp (← nth xs (← nth lr (j - 1))) (← nth xs rlMin) then
      pure (.inr (i, rl, rlMin, res))
    else if ← (if j = 1 then pure false
               else do cmp (← nth xs rlMin) (← nth xs (← nth lr (j - 2)))) then
      pure (.inr (i, rl, rlMin, res))
    else
      let res := max res (i - j)
      let i := i - 1
      if i ≤ res then
        pure (.inl res)
      else
        let rl := rl - 1
        if ← cmp (← nth xs rl) (← nth xs rlMin) then
          disWhile xs lr j i rl rl res
        else
          disWhile xs lr j i rl rlMin res
  else
    pure (.inr (i, rl, rlMin, res))
partial_fixpoint

/-- probes/dis.h 94-110. -/
def disFor (xs : List α) (lr : List Nat) (j i rl rlMin res : Nat) : M α Nat := do
  if 0 < j then
    match ← disWhile cmp xs lr j i rl rlMin res with
    | .inl r => pure r
    | .inr (i, rl, rlMin, res) => disFor xs lr (j - 1) i rl rlMin res
  else
    pure res
partial_fixpoint

/-- probes/dis.h 60-111. -/
def disAllocating (xs : List α) : M α Nat := do
  if xs.length < 2 then
    pure 0
  else
    let lr ← lrCummaxLoop cmp xs 1 [0]
    disFor cmp xs lr xs.length xs.length (xs.length - 1) (xs.length - 1) 0

/-- probes/dis.h 114-138: the allocating algorithm for bidirectional iterators when memory is available,
the in-place one otherwise. -/
def probeDis (bidirectional memory : Bool) (xs : List α) : M α Nat :=
  if bidirectional && memory then disAllocating cmp xs else disInplace cmp xs

/-! ### detail/longest_non_descending_subsequence.h -/

/-- longest_non_descending_subsequence.h 63-84; `upper_bound` is upper_bound.h 36-48 on the vector of
iterators. -/
def lndsLoop (xs : List α) (first : Nat) (tops : List Nat) : M α (List Nat) := do
  if first ≠ xs.length then
    let value ← nth xs first
    let it ← lowerBoundBy (fun i => do return !(← cmp value (← nth xs (← nth tops i)))) 0 tops.length
    if it = tops.length then
      lndsLoop xs (first + 1) (tops ++ [first])
    else
      lndsLoop xs (first + 1) (tops.set it first)
  else
    pure tops
partial_fixpoint

/-- longest_non_descending_subsequence.h 33-87. The size is the length of the range whatever the way it
is obtained (`RecomputeSize`, random-access or not), except when it is not asked for. -/
def lnds (xs : List α) : M α (Nat × Nat) := do
  if xs.length = 0 then
    pure (0, 0)
  else if 1 = xs.length then
    pure (1, 1)
  else
    return ((← lndsLoop cmp xs 0 []).length, xs.length)

/-- probes/rem.h 46-83. -/
def probeRem (xs : List α) : M α Nat := do
  let res ← lnds cmp xs
  if res.1 ≤ res.2 then pure (res.2 - res.1) else pure 0

/-- probes/sus.h 37-48: `not_fn(compare)` is passed as the comparator. -/
def probeSus (xs : List α) : M α Nat := do
  let res ← lnds (fun x y => do return !(← cmp x y)) xs
  pure (if 0 < res.1 then res.1 - 1 else 0)

/-! ### probes/enc.h -/

/-- probes/enc.h 88-113; `lower_bound_n` or `lower_monobound_n` on the first components (`heads`) or the
second ones, among all lists but the last one: both searches are modelled by the first (`enc_lower_bound`,
lines 33-57). -/
def encLoop (xs : List α) (first : Nat) (lists : List (Nat × Nat)) : M α (List (Nat × Nat)) := do
  if first ≠ xs.length then
    let value ← nth xs first
    let lastList ← nth lists (lists.length - 1)
    if ← cmp value (← nth xs lastList.2) then
      if ← cmp (← nth xs lastList.1) value then
        encLoop xs (first + 1) (lists ++ [(first, first)])
      else
        let p ← lowerBoundBy (fun i => do cmp (← nth xs (← nth lists i).1) value) 0 (lists.length - 1)
        let l ← nth lists p
        encLoop xs (first + 1) (lists.set p (first, l.2))
    else
      let p ← lowerBoundBy (fun i => do cmp value (← nth xs (← nth lists i).2)) 0 (lists.length - 1)
      let l ← nth lists p
      encLoop xs (first + 1) (lists.set p (l.1, first))
  else
    pure lists
partial_fixpoint

/-- probes/enc.h 69-115. -/
def probeEnc (xs : List α) : M α Nat := do
  if xs.length = 0 ∨ 1 = xs.length then
    pure 0
  else
    return (← encLoop cmp xs 1 [(0, 0)]).length - 1

end CppSort
