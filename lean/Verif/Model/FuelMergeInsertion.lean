import Verif.Model.FuelVerge
import Verif.Model.MergeInsertion
/-
Copies of functions of the model with bounded recursion, generated mechanically from their definitions,
for running concrete inputs.
-/
set_option autoImplicit false
set_option linter.unusedVariables false

namespace CppSort
variable {α β γ : Type}

section
variable {δ : Type}

/-- Copy of `swapRanges` with bounded recursion. -/
def swapRangesF (k : Nat) (first1 last1 first2 : Nat) : M α Nat :=
  match k with
  | 0 => noFuel
  | k + 1 => do
    if first1 ≠ last1 then
      swap first1 first2
      swapRangesF k (first1 + 1) last1 (first2 + 1)
    else
      pure first2
termination_by structural k

theorem swapRangesF_le : ∀ (k : Nat) (first1 last1 first2 : Nat), Le (α := α) (swapRangesF k first1 last1 first2) (swapRanges first1 last1 first2) := by
  intro k
  induction k with
  | zero => intros; exact Le.none _
  | succ k ih =>
    intro first1 last1 first2
    rw [swapRangesF, swapRanges]
    repeat' (first | with_reducible exact Le.refl _ | apply ih | with_reducible refine Le.bind ?_ (fun _ => ?_) | with_reducible refine Le.ite ?_ ?_ | apply Le.embed | split | dsimp only | (exfalso; simp_all; done))

end

section
variable {δ : Type}

/-- Copy of `groupSwap` with bounded recursion. -/
def groupSwapF (k : Nat) (f g i j : Nat) : M α Unit := do
  let _ ← swapRangesF k (f + i * g) (f + i * g + g) (f + j * g)
  pure ()

theorem groupSwapF_le : ∀ (k : Nat) (f g i j : Nat), Le (α := α) (groupSwapF k f g i j) (groupSwap f g i j) := by
  intro k f g i j
  unfold groupSwapF groupSwap
  repeat' (first | with_reducible exact Le.refl _ | apply swapRangesF_le | with_reducible refine Le.bind ?_ (fun _ => ?_) | with_reducible refine Le.ite ?_ ?_ | apply Le.embed | split | dsimp only | (exfalso; simp_all; done))

/-- Copy of `mergeInsertionGather` with bounded recursion. -/
def mergeInsertionGatherF (k : Nat) (f g : Nat) (chain : List Nat) (dst : Nat) : M α Nat :=
  match chain with
  | [] => pure dst
  | i :: chain => do
    let dst ← uninitMoveF k (f + i * g) (f + i * g + g) dst
    mergeInsertionGatherF k f g chain dst

theorem mergeInsertionGatherF_le : ∀ (k : Nat) (f g : Nat) (chain : List Nat) (dst : Nat),
    Le (α := α) (mergeInsertionGatherF k f g chain dst) (mergeInsertionGather f g chain dst) := by
  intro k f g chain
  induction chain with
  | nil => intro dst; exact Le.refl _
  | cons i chain ih =>
    intro dst
    rw [mergeInsertionGatherF, mergeInsertionGather]
    exact Le.bind (uninitMoveF_le _ _ _ _) fun _ => ih _

/-- Copy of `mergeInsertionMove` with bounded recursion. -/
def mergeInsertionMoveF (k : Nat) (f g size : Nat) (chain : List Nat) : M α Unit := do
  let cache ← alloc (size * g)
  let cacheEnd ← mergeInsertionGatherF k f g chain cache
  let _ ← moveRangeF k id id cache cacheEnd f
  destroyNF k cache (cacheEnd - cache)
  free cache (size * g)

theorem mergeInsertionMoveF_le : ∀ (k : Nat) (f g size : Nat) (chain : List Nat), Le (α := α) (mergeInsertionMoveF k f g size chain) (mergeInsertionMove f g size chain) := by
  intro k f g size chain
  unfold mergeInsertionMoveF mergeInsertionMove
  repeat' (first | with_reducible exact Le.refl _ | apply moveRangeF_le | apply destroyNF_le | apply mergeInsertionGatherF_le | with_reducible refine Le.bind ?_ (fun _ => ?_) | with_reducible refine Le.ite ?_ ?_ | apply Le.embed | split | dsimp only | (exfalso; simp_all; done))

end

section
variable (cmp : α → α → M α Bool)

/-- Copy of `groupSwapIf` with bounded recursion. -/
def groupSwapIfF (k : Nat) (f g i j : Nat) : M α Unit := do
  let y ← groupKey f g j
  let x ← groupKey f g i
  if ← cmp y x then groupSwapF k f g i j else pure ()

theorem groupSwapIfF_le : ∀ (k : Nat) (f g i j : Nat), Le (α := α) (groupSwapIfF cmp k f g i j) (groupSwapIf cmp f g i j) := by
  intro k f g i j
  unfold groupSwapIfF groupSwapIf
  repeat' (first | with_reducible exact Le.refl _ | apply groupSwapF_le | with_reducible refine Le.bind ?_ (fun _ => ?_) | with_reducible refine Le.ite ?_ ?_ | apply Le.embed | split | dsimp only | (exfalso; simp_all; done))

/-- Copy of `mergeInsertionPairs` with bounded recursion. -/
def mergeInsertionPairsF (k : Nat) (f g it stop : Nat) : M α Unit :=
  match k with
  | 0 => noFuel
  | k + 1 => do
    if it ≠ stop then
      groupSwapIfF cmp k f g it (it + 1)
      mergeInsertionPairsF k f g (it + 2) stop
    else pure ()
termination_by structural k

theorem mergeInsertionPairsF_le : ∀ (k : Nat) (f g it stop : Nat), Le (α := α) (mergeInsertionPairsF cmp k f g it stop) (mergeInsertionPairs cmp f g it stop) := by
  intro k
  induction k with
  | zero => intros; exact Le.none _
  | succ k ih =>
    intro f g it stop
    rw [mergeInsertionPairsF, mergeInsertionPairs]
    repeat' (first | with_reducible exact Le.refl _ | apply ih | apply groupSwapIfF_le | with_reducible refine Le.bind ?_ (fun _ => ?_) | with_reducible refine Le.ite ?_ ?_ | apply Le.embed | split | dsimp only | (exfalso; simp_all; done))

/-- Copy of `chainUpper` with bounded recursion. -/
def chainUpperF (k : Nat) (f g : Nat) (chain : List Nat) (value : α) (first size : Nat) : M α Nat :=
  match k with
  | 0 => noFuel
  | k + 1 => do
    if size > 0 then
      let it := first + size / 2
      let x ← chainKey f g chain it
      if ← notC (flipC cmp) x value then
        chainUpperF k f g chain value (it + 1) (size - (size / 2 + 1))
      else
        chainUpperF k f g chain value first (size / 2)
    else
      pure first
termination_by structural k

theorem chainUpperF_le : ∀ (k : Nat) (f g : Nat) (chain : List Nat) (value : α) (first size : Nat), Le (α := α) (chainUpperF cmp k f g chain value first size) (chainUpper cmp f g chain value first size) := by
  intro k
  induction k with
  | zero => intros; exact Le.none _
  | succ k ih =>
    intro f g chain value first size
    rw [chainUpperF, chainUpper]
    repeat' (first | with_reducible exact Le.refl _ | apply ih | with_reducible refine Le.bind ?_ (fun _ => ?_) | with_reducible refine Le.ite ?_ ?_ | apply Le.embed | split | dsimp only | (exfalso; simp_all; done))

/-- Copy of `mergeInsertionPut` with bounded recursion. -/
def mergeInsertionPutF (k : Nat) (f g : Nat) (pend : List (Option Nat)) (chain : List Nat) (pe it : Nat) : M α (List Nat) := do
  let p ← pendAt pend pe
  let value ← groupKey f g it
  let k ← chainUpperF cmp k f g chain value 0 (chainPos chain p)
  pure (chainInsert chain k it)

theorem mergeInsertionPutF_le : ∀ (k : Nat) (f g : Nat) (pend : List (Option Nat)) (chain : List Nat) (pe it : Nat), Le (α := α) (mergeInsertionPutF cmp k f g pend chain pe it) (mergeInsertionPut cmp f g pend chain pe it) := by
  intro k f g pend chain pe it
  unfold mergeInsertionPutF mergeInsertionPut
  repeat' (first | with_reducible exact Le.refl _ | apply chainUpperF_le | with_reducible refine Le.bind ?_ (fun _ => ?_) | with_reducible refine Le.ite ?_ ?_ | apply Le.embed | split | dsimp only | (exfalso; simp_all; done))

/-- Copy of `mergeInsertionCycle` with bounded recursion. -/
def mergeInsertionCycleF (k : Nat) (f g : Nat) (pend : List (Option Nat)) (current : Nat) (chain : List Nat) (pe it : Nat) : M α (List Nat) :=
  match k with
  | 0 => noFuel
  | k + 1 => do
    let pe := pe - 1
    let chain ← mergeInsertionPutF cmp k f g pend chain pe it
    if pe = current then pure chain
    else mergeInsertionCycleF k f g pend current chain pe (it - 2)
termination_by structural k

theorem mergeInsertionCycleF_le : ∀ (k : Nat) (f g : Nat) (pend : List (Option Nat)) (current : Nat) (chain : List Nat) (pe it : Nat), Le (α := α) (mergeInsertionCycleF cmp k f g pend current chain pe it) (mergeInsertionCycle cmp f g pend current chain pe it) := by
  intro k
  induction k with
  | zero => intros; exact Le.none _
  | succ k ih =>
    intro f g pend current chain pe it
    rw [mergeInsertionCycleF, mergeInsertionCycle]
    repeat' (first | with_reducible exact Le.refl _ | apply ih | apply mergeInsertionPutF_le | with_reducible refine Le.bind ?_ (fun _ => ?_) | with_reducible refine Le.ite ?_ ?_ | apply Le.embed | split | dsimp only | (exfalso; simp_all; done))

/-- Copy of `mergeInsertionCycles` with bounded recursion. -/
def mergeInsertionCyclesF (k : Nat) (f g : Nat) (pend : List (Option Nat)) (chain : List Nat) (currentPend currentIt pow2 jn dist : Nat) : M α (List Nat × Nat × Nat) :=
  match k with
  | 0 => noFuel
  | k + 1 => do
    if dist ≤ pend.length - currentPend then
      let chain ← mergeInsertionCycleF cmp k f g pend currentPend chain (currentPend + dist)
        (currentIt + dist * 2)
      mergeInsertionCyclesF k f g pend chain (currentPend + dist) (currentIt + dist * 2)
        (pow2 * 2) (pow2 * 2 - jn) (2 * (pow2 * 2 - jn))
    else pure (chain, currentPend, currentIt)
termination_by structural k

theorem mergeInsertionCyclesF_le : ∀ (k : Nat) (f g : Nat) (pend : List (Option Nat)) (chain : List Nat) (currentPend currentIt pow2 jn dist : Nat), Le (α := α) (mergeInsertionCyclesF cmp k f g pend chain currentPend currentIt pow2 jn dist) (mergeInsertionCycles cmp f g pend chain currentPend currentIt pow2 jn dist) := by
  intro k
  induction k with
  | zero => intros; exact Le.none _
  | succ k ih =>
    intro f g pend chain currentPend currentIt pow2 jn dist
    rw [mergeInsertionCyclesF, mergeInsertionCycles]
    repeat' (first | with_reducible exact Le.refl _ | apply ih | apply mergeInsertionCycleF_le | with_reducible refine Le.bind ?_ (fun _ => ?_) | with_reducible refine Le.ite ?_ ?_ | apply Le.embed | split | dsimp only | (exfalso; simp_all; done))

/-- Copy of `mergeInsertionRest` with bounded recursion. -/
def mergeInsertionRestF (k : Nat) (f g : Nat) (pend : List (Option Nat)) (chain : List Nat) (currentPend currentIt : Nat) : M α (List Nat) :=
  match k with
  | 0 => noFuel
  | k + 1 => do
    if currentPend ≠ pend.length then
      let chain ← mergeInsertionPutF cmp k f g pend chain currentPend (currentIt + 2)
      mergeInsertionRestF k f g pend chain (currentPend + 1) (currentIt + 2)
    else pure chain
termination_by structural k

theorem mergeInsertionRestF_le : ∀ (k : Nat) (f g : Nat) (pend : List (Option Nat)) (chain : List Nat) (currentPend currentIt : Nat), Le (α := α) (mergeInsertionRestF cmp k f g pend chain currentPend currentIt) (mergeInsertionRest cmp f g pend chain currentPend currentIt) := by
  intro k
  induction k with
  | zero => intros; exact Le.none _
  | succ k ih =>
    intro f g pend chain currentPend currentIt
    rw [mergeInsertionRestF, mergeInsertionRest]
    repeat' (first | with_reducible exact Le.refl _ | apply ih | apply mergeInsertionPutF_le | with_reducible refine Le.bind ?_ (fun _ => ?_) | with_reducible refine Le.ite ?_ ?_ | apply Le.embed | split | dsimp only | (exfalso; simp_all; done))

/-- Copy of `mergeInsertionImpl` with bounded recursion. -/
def mergeInsertionImplF (k : Nat) (f g size : Nat) : M α Unit :=
  match k with
  | 0 => noFuel
  | k + 1 => do
    if size < 2 then pure ()
    else
      let stray := size % 2 ≠ 0
      let stop := if stray then size - 1 else size
      mergeInsertionPairsF cmp k f g 0 stop
      mergeInsertionImplF k f (2 * g) (stop / 2)
      let pend := mergeInsertionPend (stop / 2) (decide stray)
      let (chain, currentPend, currentIt) ←
        mergeInsertionCyclesF cmp k f g pend (mergeInsertionChain (stop / 2)) 0 0 1 0 2
      let chain ← mergeInsertionRestF cmp k f g pend chain currentPend currentIt
      mergeInsertionMoveF k f g size chain
termination_by structural k

theorem mergeInsertionImplF_le : ∀ (k : Nat) (f g size : Nat), Le (α := α) (mergeInsertionImplF cmp k f g size) (mergeInsertionImpl cmp f g size) := by
  intro k
  induction k with
  | zero => intros; exact Le.none _
  | succ k ih =>
    intro f g size
    rw [mergeInsertionImplF, mergeInsertionImpl]
    repeat' (first | with_reducible exact Le.refl _ | apply ih | apply mergeInsertionMoveF_le | apply mergeInsertionPairsF_le | apply mergeInsertionCyclesF_le | apply mergeInsertionRestF_le | with_reducible refine Le.bind ?_ (fun _ => ?_) | with_reducible refine Le.ite ?_ ?_ | apply Le.embed | split | dsimp only | (exfalso; simp_all; done))

/-- Copy of `mergeInsertionSort` with bounded recursion. -/
def mergeInsertionSortF (k : Nat) (first last : Nat) : M α Unit := do
  if last - first < 2 then pure ()
  else mergeInsertionImplF cmp k first 1 (last - first)

theorem mergeInsertionSortF_le : ∀ (k : Nat) (first last : Nat), Le (α := α) (mergeInsertionSortF cmp k first last) (mergeInsertionSort cmp first last) := by
  intro k first last
  unfold mergeInsertionSortF mergeInsertionSort
  repeat' (first | with_reducible exact Le.refl _ | apply mergeInsertionImplF_le | with_reducible refine Le.bind ?_ (fun _ => ?_) | with_reducible refine Le.ite ?_ ?_ | apply Le.embed | split | dsimp only | (exfalso; simp_all; done))

end

end CppSort
