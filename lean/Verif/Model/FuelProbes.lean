import Verif.Base.Fuel
import Verif.Model.ProbesSorted
/-
Copies of functions of the model with bounded recursion, generated mechanically from their definitions,
for running concrete inputs.
-/
set_option autoImplicit false
set_option linter.unusedVariables false

namespace CppSort
variable {α β γ : Type}

section
variable (cmp : α → α → M α Bool)

/-- Copy of `insertionShift` with bounded recursion. -/
def insertionShiftF (k : Nat) (first : Nat) (tmp : α) (sift : Nat) : M α Nat :=
  match k with
  | 0 => noFuel
  | k + 1 => do
    moveTo sift (sift - 1)
    let sift := sift - 1
    if sift ≠ first then
      if ← cmp tmp (← read (sift - 1)) then
        insertionShiftF k first tmp sift
      else
        pure sift
    else
      pure sift
termination_by structural k

theorem insertionShiftF_le : ∀ (k : Nat) (first : Nat) (tmp : α) (sift : Nat), Le (insertionShiftF cmp k first tmp sift) (insertionShift cmp first tmp sift) := by
  intro k
  induction k with
  | zero => intros; exact Le.none _
  | succ k ih =>
    intro first tmp sift
    rw [insertionShiftF, insertionShift]
    repeat' (first | with_reducible exact Le.refl _ | apply ih | with_reducible refine Le.bind ?_ (fun _ => ?_) | with_reducible refine Le.ite ?_ ?_ | apply Le.embed | split | dsimp only)

/-- Copy of `insertOne` with bounded recursion. -/
def insertOneF (k : Nat) (first cur : Nat) : M α Unit := do
  if ← cmp (← read cur) (← read (cur - 1)) then
    let tmp ← moveOut cur
    let sift ← insertionShiftF cmp k first tmp cur
    assign sift tmp
  else
    pure ()

theorem insertOneF_le : ∀ (k : Nat) (first cur : Nat), Le (insertOneF cmp k first cur) (insertOne cmp first cur) := by
  intro k first cur
  unfold insertOneF insertOne
  repeat' (first | with_reducible exact Le.refl _ | apply insertionShiftF_le | with_reducible refine Le.bind ?_ (fun _ => ?_) | with_reducible refine Le.ite ?_ ?_ | apply Le.embed | split | dsimp only)

/-- Copy of `insertionLoop` with bounded recursion. -/
def insertionLoopF (k : Nat) (first last cur : Nat) : M α Unit :=
  match k with
  | 0 => noFuel
  | k + 1 => do
    if cur ≠ last then
      insertOneF cmp k first cur
      insertionLoopF k first last (cur + 1)
    else
      pure ()
termination_by structural k

theorem insertionLoopF_le : ∀ (k : Nat) (first last cur : Nat), Le (insertionLoopF cmp k first last cur) (insertionLoop cmp first last cur) := by
  intro k
  induction k with
  | zero => intros; exact Le.none _
  | succ k ih =>
    intro first last cur
    rw [insertionLoopF, insertionLoop]
    repeat' (first | with_reducible exact Le.refl _ | apply ih | apply insertOneF_le | with_reducible refine Le.bind ?_ (fun _ => ?_) | with_reducible refine Le.ite ?_ ?_ | apply Le.embed | split | dsimp only)

/-- Copy of `insertionSort` with bounded recursion. -/
def insertionSortF (k : Nat) (first last : Nat) : M α Unit :=
  if first = last then pure ()
  else insertionLoopF cmp k first last (first + 1)

theorem insertionSortF_le : ∀ (k : Nat) (first last : Nat), Le (insertionSortF cmp k first last) (insertionSort cmp first last) := by
  intro k first last
  unfold insertionSortF insertionSort
  repeat' (first | with_reducible exact Le.refl _ | apply insertionLoopF_le | with_reducible refine Le.bind ?_ (fun _ => ?_) | with_reducible refine Le.ite ?_ ?_ | apply Le.embed | split | dsimp only)

end

section
variable (cmp : α → α → M α Bool)

/-- Copy of `scanUp` with bounded recursion. -/
def scanUpF (k : Nat) (test : Nat → M α Bool) (p : Nat) : M α Nat :=
  match k with
  | 0 => noFuel
  | k + 1 => do
    if ← test p then scanUpF k test (p + 1) else pure p
termination_by structural k

theorem scanUpF_le : ∀ (k : Nat) (test : Nat → M α Bool) (p : Nat), Le (scanUpF k test p) (scanUp test p) := by
  intro k
  induction k with
  | zero => intros; exact Le.none _
  | succ k ih =>
    intro test p
    rw [scanUpF, scanUp]
    repeat' (first | with_reducible exact Le.refl _ | apply ih | with_reducible refine Le.bind ?_ (fun _ => ?_) | with_reducible refine Le.ite ?_ ?_ | apply Le.embed | split | dsimp only)

/-- Copy of `scanDown` with bounded recursion. -/
def scanDownF (k : Nat) (test : Nat → M α Bool) (last : Nat) : M α Nat :=
  match k with
  | 0 => noFuel
  | k + 1 => do
    if ← test (last - 1) then scanDownF k test (last - 1) else pure (last - 1)
termination_by structural k

theorem scanDownF_le : ∀ (k : Nat) (test : Nat → M α Bool) (last : Nat), Le (scanDownF k test last) (scanDown test last) := by
  intro k
  induction k with
  | zero => intros; exact Le.none _
  | succ k ih =>
    intro test last
    rw [scanDownF, scanDown]
    repeat' (first | with_reducible exact Le.refl _ | apply ih | with_reducible refine Le.bind ?_ (fun _ => ?_) | with_reducible refine Le.ite ?_ ?_ | apply Le.embed | split | dsimp only)

/-- Copy of `scanDownGuarded` with bounded recursion. -/
def scanDownGuardedF (k : Nat) (test : Nat → M α Bool) (first last : Nat) : M α Nat :=
  match k with
  | 0 => noFuel
  | k + 1 => do
    if first < last then
      if ← test (last - 1) then scanDownGuardedF k test first (last - 1) else pure (last - 1)
    else
      pure last
termination_by structural k

theorem scanDownGuardedF_le : ∀ (k : Nat) (test : Nat → M α Bool) (first last : Nat), Le (scanDownGuardedF k test first last) (scanDownGuarded test first last) := by
  intro k
  induction k with
  | zero => intros; exact Le.none _
  | succ k ih =>
    intro test first last
    rw [scanDownGuardedF, scanDownGuarded]
    repeat' (first | with_reducible exact Le.refl _ | apply ih | with_reducible refine Le.bind ?_ (fun _ => ?_) | with_reducible refine Le.ite ?_ ?_ | apply Le.embed | split | dsimp only)

end

section
variable (cmp : α → α → M α Bool)

/-- Copy of `unguardedShift` with bounded recursion. -/
def unguardedShiftF (k : Nat) (tmp : α) (sift : Nat) : M α Nat :=
  match k with
  | 0 => noFuel
  | k + 1 => do
    moveTo sift (sift - 1)
    let sift := sift - 1
    if ← cmp tmp (← read (sift - 1)) then
      unguardedShiftF k tmp sift
    else
      pure sift
termination_by structural k

theorem unguardedShiftF_le : ∀ (k : Nat) (tmp : α) (sift : Nat), Le (unguardedShiftF cmp k tmp sift) (unguardedShift cmp tmp sift) := by
  intro k
  induction k with
  | zero => intros; exact Le.none _
  | succ k ih =>
    intro tmp sift
    rw [unguardedShiftF, unguardedShift]
    repeat' (first | with_reducible exact Le.refl _ | apply ih | with_reducible refine Le.bind ?_ (fun _ => ?_) | with_reducible refine Le.ite ?_ ?_ | apply Le.embed | split | dsimp only)

/-- Copy of `unguardedLoop` with bounded recursion. -/
def unguardedLoopF (k : Nat) (cur last : Nat) : M α Unit :=
  match k with
  | 0 => noFuel
  | k + 1 => do
    if cur ≠ last then
      if ← cmp (← read cur) (← read (cur - 1)) then
        let tmp ← moveOut cur
        let sift ← unguardedShiftF cmp k tmp cur
        assign sift tmp
        unguardedLoopF k (cur + 1) last
      else
        unguardedLoopF k (cur + 1) last
    else
      pure ()
termination_by structural k

theorem unguardedLoopF_le : ∀ (k : Nat) (cur last : Nat), Le (unguardedLoopF cmp k cur last) (unguardedLoop cmp cur last) := by
  intro k
  induction k with
  | zero => intros; exact Le.none _
  | succ k ih =>
    intro cur last
    rw [unguardedLoopF, unguardedLoop]
    repeat' (first | with_reducible exact Le.refl _ | apply ih | apply unguardedShiftF_le | with_reducible refine Le.bind ?_ (fun _ => ?_) | with_reducible refine Le.ite ?_ ?_ | apply Le.embed | split | dsimp only)

/-- Copy of `unguardedInsertionSort` with bounded recursion. -/
def unguardedInsertionSortF (k : Nat) (first last : Nat) : M α Unit :=
  if first = last then pure ()
  else unguardedLoopF cmp k (first + 1) last

theorem unguardedInsertionSortF_le : ∀ (k : Nat) (first last : Nat), Le (unguardedInsertionSortF cmp k first last) (unguardedInsertionSort cmp first last) := by
  intro k first last
  unfold unguardedInsertionSortF unguardedInsertionSort
  repeat' (first | with_reducible exact Le.refl _ | apply unguardedLoopF_le | with_reducible refine Le.bind ?_ (fun _ => ?_) | with_reducible refine Le.ite ?_ ?_ | apply Le.embed | split | dsimp only)

/-- Copy of `partialLoop` with bounded recursion. -/
def partialLoopF (k : Nat) (first last cur limit : Nat) : M α Bool :=
  match k with
  | 0 => noFuel
  | k + 1 => do
    if cur ≠ last then
      if ← cmp (← read cur) (← read (cur - 1)) then
        let tmp ← moveOut cur
        let sift ← insertionShiftF cmp k first tmp cur
        assign sift tmp
        if 8 < limit + (cur - sift) then pure false
        else partialLoopF k first last (cur + 1) (limit + (cur - sift))
      else
        if 8 < limit then pure false
        else partialLoopF k first last (cur + 1) limit
    else
      pure true
termination_by structural k

theorem partialLoopF_le : ∀ (k : Nat) (first last cur limit : Nat), Le (partialLoopF cmp k first last cur limit) (partialLoop cmp first last cur limit) := by
  intro k
  induction k with
  | zero => intros; exact Le.none _
  | succ k ih =>
    intro first last cur limit
    rw [partialLoopF, partialLoop]
    repeat' (first | with_reducible exact Le.refl _ | apply ih | apply insertionShiftF_le | with_reducible refine Le.bind ?_ (fun _ => ?_) | with_reducible refine Le.ite ?_ ?_ | apply Le.embed | split | dsimp only)

/-- Copy of `partialInsertionSort` with bounded recursion. -/
def partialInsertionSortF (k : Nat) (first last : Nat) : M α Bool :=
  if first = last then pure true
  else partialLoopF cmp k first last (first + 1) 0

theorem partialInsertionSortF_le : ∀ (k : Nat) (first last : Nat), Le (partialInsertionSortF cmp k first last) (partialInsertionSort cmp first last) := by
  intro k first last
  unfold partialInsertionSortF partialInsertionSort
  repeat' (first | with_reducible exact Le.refl _ | apply partialLoopF_le | with_reducible refine Le.bind ?_ (fun _ => ?_) | with_reducible refine Le.ite ?_ ?_ | apply Le.embed | split | dsimp only)

/-- Copy of `prScan` with bounded recursion. -/
def prScanF (k : Nat) (pivot : α) (first last : Nat) : M α (Nat × Nat) := do
  let p ← scanUpF k (belowPivot cmp pivot) (first + 1)
  let q ← if p - 1 = first then scanDownGuardedF k (notBelowPivot cmp pivot) p last
    else scanDownF k (notBelowPivot cmp pivot) last
  pure (p, q)

theorem prScanF_le : ∀ (k : Nat) (pivot : α) (first last : Nat), Le (prScanF cmp k pivot first last) (prScan cmp pivot first last) := by
  intro k pivot first last
  unfold prScanF prScan
  repeat' (first | with_reducible exact Le.refl _ | apply scanUpF_le | apply scanDownF_le | apply scanDownGuardedF_le | with_reducible refine Le.bind ?_ (fun _ => ?_) | with_reducible refine Le.ite ?_ ?_ | apply Le.embed | split | dsimp only)

/-- Copy of `prLoop` with bounded recursion. -/
def prLoopF (k : Nat) (pivot : α) (first last : Nat) : M α Nat :=
  match k with
  | 0 => noFuel
  | k + 1 => do
    if first < last then
      swap first last
      let first ← scanUpF k (belowPivot cmp pivot) (first + 1)
      let last ← scanDownF k (notBelowPivot cmp pivot) last
      prLoopF k pivot first last
    else
      pure first
termination_by structural k

theorem prLoopF_le : ∀ (k : Nat) (pivot : α) (first last : Nat), Le (prLoopF cmp k pivot first last) (prLoop cmp pivot first last) := by
  intro k
  induction k with
  | zero => intros; exact Le.none _
  | succ k ih =>
    intro pivot first last
    rw [prLoopF, prLoop]
    repeat' (first | with_reducible exact Le.refl _ | apply ih | apply scanUpF_le | apply scanDownF_le | with_reducible refine Le.bind ?_ (fun _ => ?_) | with_reducible refine Le.ite ?_ ?_ | apply Le.embed | split | dsimp only)

/-- Copy of `partitionRight` with bounded recursion. -/
def partitionRightF (k : Nat) (first last : Nat) : M α (Nat × Bool) := do
  let pivot ← moveOut first
  let (p, q) ← prScanF cmp k pivot first last
  let p' ← prLoopF cmp k pivot p q
  moveTo first (p' - 1)
  assign (p' - 1) pivot
  pure (p' - 1, decide (q ≤ p))

theorem partitionRightF_le : ∀ (k : Nat) (first last : Nat), Le (partitionRightF cmp k first last) (partitionRight cmp first last) := by
  intro k first last
  unfold partitionRightF partitionRight
  repeat' (first | with_reducible exact Le.refl _ | apply prScanF_le | apply prLoopF_le | with_reducible refine Le.bind ?_ (fun _ => ?_) | with_reducible refine Le.ite ?_ ?_ | apply Le.embed | split | dsimp only)

/-- Copy of `pdqTryInsertion` with bounded recursion. -/
def pdqTryInsertionF (k : Nat) (already : Bool) (first pivotPos last : Nat) : M α Bool := do
  if already then
    if ← partialInsertionSortF cmp k first pivotPos then
      partialInsertionSortF cmp k (pivotPos + 1) last
    else pure false
  else pure false

theorem pdqTryInsertionF_le : ∀ (k : Nat) (already : Bool) (first pivotPos last : Nat), Le (pdqTryInsertionF cmp k already first pivotPos last) (pdqTryInsertion cmp already first pivotPos last) := by
  intro k already first pivotPos last
  unfold pdqTryInsertionF pdqTryInsertion
  repeat' (first | with_reducible exact Le.refl _ | apply partialInsertionSortF_le | with_reducible refine Le.bind ?_ (fun _ => ?_) | with_reducible refine Le.ite ?_ ?_ | apply Le.embed | split | dsimp only)

/-- Copy of `pdqPartition` with bounded recursion. -/
def pdqPartitionF (k : Nat) (branchless : Bool) (first last : Nat) : M α (Nat × Bool) :=
  if branchless then partitionRightBranchless cmp first last else partitionRightF cmp k first last

theorem pdqPartitionF_le : ∀ (k : Nat) (branchless : Bool) (first last : Nat), Le (pdqPartitionF cmp k branchless first last) (pdqPartition cmp branchless first last) := by
  intro k branchless first last
  unfold pdqPartitionF pdqPartition
  repeat' (first | with_reducible exact Le.refl _ | apply partitionRightF_le | with_reducible refine Le.bind ?_ (fun _ => ?_) | with_reducible refine Le.ite ?_ ?_ | apply Le.embed | split | dsimp only)

/-- Copy of `pdqsortLoop` with bounded recursion. -/
def pdqsortLoopF (k : Nat) (branchless : Bool) (first last : Nat) (badAllowed : Int) (leftmost : Bool) : M α Unit :=
  match k with
  | 0 => noFuel
  | k + 1 => do
    if last - first < 24 then
      if leftmost then insertionSortF cmp k first last
      else unguardedInsertionSortF cmp k first last
    else
      pdqPivot cmp first last
      if ← pdqEqualPivot cmp leftmost first then
        let p ← partitionLeft cmp first last
        pdqsortLoopF k branchless (p + 1) last badAllowed leftmost
      else
        let (pivotPos, already) ← pdqPartitionF cmp k branchless first last
        if pivotPos - first < (last - first) / 8 ∨ last - (pivotPos + 1) < (last - first) / 8 then
          if badAllowed - 1 = 0 then
            heapsort cmp first last
          else
            pdqBreakLeft first pivotPos
            pdqBreakRight pivotPos last
            pdqsortLoopF k branchless first pivotPos (badAllowed - 1) leftmost
            pdqsortLoopF k branchless (pivotPos + 1) last (badAllowed - 1) false
        else
          if ← pdqTryInsertionF cmp k already first pivotPos last then
            pure ()
          else
            pdqsortLoopF k branchless first pivotPos badAllowed leftmost
            pdqsortLoopF k branchless (pivotPos + 1) last badAllowed false
termination_by structural k

theorem pdqsortLoopF_le : ∀ (k : Nat) (branchless : Bool) (first last : Nat) (badAllowed : Int) (leftmost : Bool), Le (pdqsortLoopF cmp k branchless first last badAllowed leftmost) (pdqsortLoop cmp branchless first last badAllowed leftmost) := by
  intro k
  induction k with
  | zero => intros; exact Le.none _
  | succ k ih =>
    intro branchless first last badAllowed leftmost
    rw [pdqsortLoopF, pdqsortLoop]
    repeat' (first | with_reducible exact Le.refl _ | apply ih | apply insertionSortF_le | apply unguardedInsertionSortF_le | apply pdqTryInsertionF_le | apply pdqPartitionF_le | with_reducible refine Le.bind ?_ (fun _ => ?_) | with_reducible refine Le.ite ?_ ?_ | apply Le.embed | split | dsimp only)

/-- Copy of `pdqsort` with bounded recursion. -/
def pdqsortF (k : Nat) (branchless : Bool) (first last : Nat) : M α Unit :=
  if last - first < 2 then pure ()
  else pdqsortLoopF cmp k branchless first last (Nat.log2 (last - first)) true

theorem pdqsortF_le : ∀ (k : Nat) (branchless : Bool) (first last : Nat), Le (pdqsortF cmp k branchless first last) (pdqsort cmp branchless first last) := by
  intro k branchless first last
  unfold pdqsortF pdqsort
  repeat' (first | with_reducible exact Le.refl _ | apply pdqsortLoopF_le | with_reducible refine Le.bind ?_ (fun _ => ?_) | with_reducible refine Le.ite ?_ ?_ | apply Le.embed | split | dsimp only)

end

section
variable (lt : α → α → Bool)

/-- Copy of `sortedIterators` with bounded recursion. -/
def sortedIteratorsF (k : Nat) (branchless : Bool) (xs : List α) : M α (List (α × Nat)) := do
  let r ← embed xs.zipIdx (pdqsortF (tick (indirectLt lt)) k branchless 0 xs.zipIdx.length)
  pure r.2

theorem sortedIteratorsF_le : ∀ (k : Nat) (branchless : Bool) (xs : List α), Le (sortedIteratorsF lt k branchless xs) (sortedIterators lt branchless xs) := by
  intro k branchless xs
  unfold sortedIteratorsF sortedIterators
  repeat' (first | with_reducible exact Le.refl _ | apply pdqsortF_le | with_reducible refine Le.bind ?_ (fun _ => ?_) | with_reducible refine Le.ite ?_ ?_ | apply Le.embed | split | dsimp only)

end

section
variable (lt : α → α → Bool)

/-- Copy of `excWhile` with bounded recursion. -/
def excWhileF (k : Nat) (xs : List α) (its : List (α × Nat)) (start current next : Nat) (sorted : List Bool) (cycles : Nat) : M α (List Bool × Nat) :=
  match k with
  | 0 => noFuel
  | k + 1 => do
    if next ≠ start then
      let same ← (do
        if ← tick lt (← nth xs next) (← nth xs current) then pure false
        else return !(← tick lt (← nth xs current) (← nth xs next)))
      let it ← nth its next
      excWhileF k xs its start next it.2 (sorted.set next true) (if same then cycles + 1 else cycles)
    else
      pure (sorted, cycles)
termination_by structural k

theorem excWhileF_le : ∀ (k : Nat) (xs : List α) (its : List (α × Nat)) (start current next : Nat) (sorted : List Bool) (cycles : Nat), Le (excWhileF lt k xs its start current next sorted cycles) (excWhile lt xs its start current next sorted cycles) := by
  intro k
  induction k with
  | zero => intros; exact Le.none _
  | succ k ih =>
    intro xs its start current next sorted cycles
    rw [excWhileF, excWhile]
    repeat' (first | with_reducible exact Le.refl _ | apply ih | with_reducible refine Le.bind ?_ (fun _ => ?_) | with_reducible refine Le.ite ?_ ?_ | apply Le.embed | split | dsimp only)

end

section
variable (lt : α → α → Bool)

/-- Copy of `excFind` with bounded recursion. -/
def excFindF (k : Nat) (xs : List α) (sorted : List Bool) (start : Nat) : M α Nat :=
  match k with
  | 0 => noFuel
  | k + 1 => do
    let start := start + 1
    if start = xs.length then pure start
    else if ← nth sorted start then excFindF k xs sorted start
    else pure start
termination_by structural k

theorem excFindF_le : ∀ (k : Nat) (xs : List α) (sorted : List Bool) (start : Nat), Le (excFindF k xs sorted start) (excFind xs sorted start) := by
  intro k
  induction k with
  | zero => intros; exact Le.none _
  | succ k ih =>
    intro xs sorted start
    rw [excFindF, excFind]
    repeat' (first | with_reducible exact Le.refl _ | apply ih | with_reducible refine Le.bind ?_ (fun _ => ?_) | with_reducible refine Le.ite ?_ ?_ | apply Le.embed | split | dsimp only)

end

section
variable (lt : α → α → Bool)

/-- Copy of `excLoop` with bounded recursion. -/
def excLoopF (k : Nat) (xs : List α) (its : List (α × Nat)) (start : Nat) (sorted : List Bool) (cycles : Nat) : M α Nat :=
  match k with
  | 0 => noFuel
  | k + 1 => do
    if start ≠ xs.length then
      let it ← nth its start
      let (sorted, cycles) ← excWhileF lt k xs its start start it.2 (sorted.set start true) cycles
      let start ← excFindF k xs sorted start
      excLoopF k xs its start sorted (cycles + 1)
    else
      pure cycles
termination_by structural k

theorem excLoopF_le : ∀ (k : Nat) (xs : List α) (its : List (α × Nat)) (start : Nat) (sorted : List Bool) (cycles : Nat), Le (excLoopF lt k xs its start sorted cycles) (excLoop lt xs its start sorted cycles) := by
  intro k
  induction k with
  | zero => intros; exact Le.none _
  | succ k ih =>
    intro xs its start sorted cycles
    rw [excLoopF, excLoop]
    repeat' (first | with_reducible exact Le.refl _ | apply ih | apply excWhileF_le | apply excFindF_le | with_reducible refine Le.bind ?_ (fun _ => ?_) | with_reducible refine Le.ite ?_ ?_ | apply Le.embed | split | dsimp only)

/-- Copy of `probeExc` with bounded recursion. -/
def probeExcF (k : Nat) (branchless : Bool) (xs : List α) : M α Nat := do
  if xs.length < 2 then
    pure 0
  else
    let its ← sortedIteratorsF lt k branchless xs
    return xs.length - (← excLoopF lt k xs its 0 (List.replicate xs.length false) 0)

theorem probeExcF_le : ∀ (k : Nat) (branchless : Bool) (xs : List α), Le (probeExcF lt k branchless xs) (probeExc lt branchless xs) := by
  intro k branchless xs
  unfold probeExcF probeExc
  repeat' (first | with_reducible exact Le.refl _ | apply sortedIteratorsF_le | apply excLoopF_le | with_reducible refine Le.bind ?_ (fun _ => ?_) | with_reducible refine Le.ite ?_ ?_ | apply Le.embed | split | dsimp only)

/-- Copy of `blockLoop` with bounded recursion. -/
def blockLoopF (k : Nat) (xs : List α) (its : List (α × Nat)) (it count : Nat) : M α Nat :=
  match k with
  | 0 => noFuel
  | k + 1 => do
    if it ≠ its.length - 1 then
      let i ← nth its it
      let origNext := i.2 + 1
      if origNext = xs.length then
        if ← differ lt i.1 (← nth its (its.length - 1)).1 then blockLoopF k xs its (it + 1) (count + 1)
        else blockLoopF k xs its (it + 1) count
      else
        if ← differ lt (← nth xs origNext) (← nth its (it + 1)).1 then
          blockLoopF k xs its (it + 1) (count + 1)
        else blockLoopF k xs its (it + 1) count
    else
      pure count
termination_by structural k

theorem blockLoopF_le : ∀ (k : Nat) (xs : List α) (its : List (α × Nat)) (it count : Nat), Le (blockLoopF lt k xs its it count) (blockLoop lt xs its it count) := by
  intro k
  induction k with
  | zero => intros; exact Le.none _
  | succ k ih =>
    intro xs its it count
    rw [blockLoopF, blockLoop]
    repeat' (first | with_reducible exact Le.refl _ | apply ih | with_reducible refine Le.bind ?_ (fun _ => ?_) | with_reducible refine Le.ite ?_ ?_ | apply Le.embed | split | dsimp only)

/-- Copy of `probeBlock` with bounded recursion. -/
def probeBlockF (k : Nat) (branchless : Bool) (xs : List α) : M α Nat := do
  if xs.length < 2 then
    pure 0
  else
    blockLoopF lt k xs (← sortedIteratorsF lt k branchless xs) 0 0

theorem probeBlockF_le : ∀ (k : Nat) (branchless : Bool) (xs : List α), Le (probeBlockF lt k branchless xs) (probeBlock lt branchless xs) := by
  intro k branchless xs
  unfold probeBlockF probeBlock
  repeat' (first | with_reducible exact Le.refl _ | apply sortedIteratorsF_le | apply blockLoopF_le | with_reducible refine Le.bind ?_ (fun _ => ?_) | with_reducible refine Le.ite ?_ ?_ | apply Le.embed | split | dsimp only)

end

end CppSort
