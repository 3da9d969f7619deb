import Verif.Base.Fuel
import Verif.Model.QuickMerge
/-
Copies of functions of Model/Quick.lean with bounded recursion, for running concrete inputs. The branches that these
inputs do not take are left out.
-/
set_option autoImplicit false

namespace CppSort
variable {α : Type} (cmp : α → α → M α Bool)

/-- Copy of `partSkip` with bounded recursion. -/
def partSkipF (k : Nat) (pred : Nat → M α Bool) (first last : Nat) : M α (Option Nat) :=
  match k with
  | 0 => noFuel
  | k + 1 => do
    if first = last then
      pure none
    else
      if ← pred first then partSkipF k pred (first + 1) last else pure (some first)
termination_by structural k

theorem partSkipF_le : ∀ (k : Nat) (pred : Nat → M α Bool) (first last : Nat),
    Le (partSkipF k pred first last) (partSkip pred first last) := by
  intro k
  induction k with
  | zero => intros; exact Le.none _
  | succ k ih =>
    intro pred first last
    rw [partSkipF, partSkip]
    exact Le.ite (Le.refl _) (Le.bind (Le.refl _) fun b => Le.ite (ih _ _ _) (Le.refl _))

/-- Copy of `partFwdLoop` with bounded recursion. -/
def partFwdLoopF (k : Nat) (pred : Nat → M α Bool) (first p last : Nat) : M α Nat :=
  match k with
  | 0 => noFuel
  | k + 1 => do
    let p := p + 1
    if p ≠ last then
      if ← pred p then
        swap first p
        partFwdLoopF k pred (first + 1) p last
      else
        partFwdLoopF k pred first p last
    else
      pure first
termination_by structural k

theorem partFwdLoopF_le : ∀ (k : Nat) (pred : Nat → M α Bool) (first p last : Nat),
    Le (partFwdLoopF k pred first p last) (partFwdLoop pred first p last) := by
  intro k
  induction k with
  | zero => intros; exact Le.none _
  | succ k ih =>
    intro pred first p last
    rw [partFwdLoopF, partFwdLoop]
    exact Le.ite (Le.bind (Le.refl _) fun b => Le.ite (Le.bind (Le.refl _) fun _ => ih _ _ _ _) (ih _ _ _ _)) (Le.refl _)

/-- Copy of `partBack` with bounded recursion. -/
def partBackF (k : Nat) (pred : Nat → M α Bool) (first last : Nat) : M α (Option Nat) :=
  match k with
  | 0 => noFuel
  | k + 1 => do
    let last := last - 1
    if first = last then
      pure none
    else
      if ← pred last then pure (some last) else partBackF k pred first last
termination_by structural k

theorem partBackF_le : ∀ (k : Nat) (pred : Nat → M α Bool) (first last : Nat),
    Le (partBackF k pred first last) (partBack pred first last) := by
  intro k
  induction k with
  | zero => intros; exact Le.none _
  | succ k ih =>
    intro pred first last
    rw [partBackF, partBack]
    exact Le.ite (Le.refl _) (Le.bind (Le.refl _) fun b => Le.ite (Le.refl _) (ih _ _ _))

/-- Copy of `partitionBi` with bounded recursion. -/
def partitionBiF (k : Nat) (pred : Nat → M α Bool) (first last : Nat) : M α Nat :=
  match k with
  | 0 => noFuel
  | k + 1 => do
    match ← partSkipF k pred first last with
    | none => pure last
    | some first =>
      match ← partBackF k pred first last with
      | none => pure first
      | some last =>
        swap first last
        partitionBiF k pred (first + 1) last
termination_by structural k

theorem partitionBiF_le : ∀ (k : Nat) (pred : Nat → M α Bool) (first last : Nat),
    Le (partitionBiF k pred first last) (partitionBi pred first last) := by
  intro k
  induction k with
  | zero => intros; exact Le.none _
  | succ k ih =>
    intro pred first last
    rw [partitionBiF, partitionBi]
    refine Le.bind (partSkipF_le _ _ _ _) fun r => ?_
    cases r with
    | none => exact Le.refl _
    | some first =>
      refine Le.bind (partBackF_le _ _ _ _) fun r => ?_
      cases r with
      | none => exact Le.refl _
      | some last => exact Le.bind (Le.refl _) fun _ => ih _ _ _

/-- Copy of `partition` with bounded recursion. -/
def partitionF (k : Nat) (cat : Cat) (pred : Nat → M α Bool) (first last : Nat) : M α Nat :=
  match cat with
  | .forward => do
    match ← partSkipF k pred first last with
    | none => pure last
    | some first => partFwdLoopF k pred first first last
  | _ => partitionBiF k pred first last

theorem partitionF_le (k : Nat) (cat : Cat) (pred : Nat → M α Bool) (first last : Nat) :
    Le (partitionF k cat pred first last) (partition cat pred first last) := by
  cases cat with
  | forward =>
    refine Le.bind (partSkipF_le _ _ _ _) fun r => ?_
    cases r with
    | none => exact Le.refl _
    | some first => exact partFwdLoopF_le _ _ _ _ _
  | bidirectional => exact partitionBiF_le _ _ _ _
  | random => exact partitionBiF_le _ _ _ _

/-- Copy of `threeWay` with bounded recursion. -/
def threeWayF (k : Nat) (cat : Cat) (first last medianIt last1 : Nat) : M α (Nat × Nat) := do
  swap medianIt last1
  let middle1 ← partitionF k cat (fun p => do cmp (← read p) (← read last1)) first last1
  swap middle1 last1
  let middle2 ← partitionF k cat
    (fun p => do return ! (← cmp (← read middle1) (← read p))) (middle1 + 1) last
  pure (middle1, middle2)

theorem threeWayF_le (k : Nat) (cat : Cat) (first last medianIt last1 : Nat) :
    Le (threeWayF cmp k cat first last medianIt last1) (threeWay cmp cat first last medianIt last1) :=
  Le.bind (Le.refl _) fun _ => Le.bind (partitionF_le _ _ _ _ _) fun _ => Le.bind (Le.refl _) fun _ =>
    Le.bind (partitionF_le _ _ _ _ _) fun _ => Le.refl _

/-- The first iteration of `introselect`, if it returns. -/
def introselectF (k : Nat) (cat : Cat) (first last nthPos size : Nat) : M α Nat := do
  if 32 < size then
    let (medianIt, last1) ← pickPivotGood cmp first last size
    let (middle1, middle2) ← threeWayF cmp k cat first last medianIt last1
    let sizeLeft := middle1 - first
    let sizeMiddle := middle2 - middle1
    if nthPos < sizeLeft then noFuel
    else if sizeLeft + sizeMiddle < nthPos then noFuel
    else pure (middle1 + (nthPos - sizeLeft))
  else noFuel

theorem introselectF_le (k : Nat) (cat : Cat) (first last nthPos size : Nat) :
    Le (introselectF cmp k cat first last nthPos size) (introselect cmp cat first last nthPos size) := by
  unfold introselectF
  rw [introselect, introselectLoop]
  split
  · rename_i h
    have h2 : (0 : Int) < (size.log2 : Int) := by
      have : 1 ≤ size.log2 := (Nat.le_log2 (by omega)).2 (by omega)
      omega
    rw [pickPivot, if_pos h2]
    refine Le.bind (Le.refl _) fun r => ?_
    obtain ⟨medianIt, last1⟩ := r
    refine Le.bind (threeWayF_le _ _ _ _ _ _ _) fun r => ?_
    obtain ⟨middle1, middle2⟩ := r
    exact Le.ite (Le.none _) (Le.ite (Le.none _) (Le.refl _))
  · exact Le.none _

/-- Copy of `medianOfMedians` for the sizes divisible by 5. -/
def medianOfMediansF (k : Nat) (cat : Cat) (first last size : Nat) : M α Nat := do
  if size ≤ 5 then noFuel
  else
    let (_, mediansIt) ← mediansLoop cmp (size / 5) first first
    introselectF cmp k cat first mediansIt (size / 5 / 2) (size / 5)

theorem medianOfMediansF_le (k : Nat) (cat : Cat) (first last size : Nat) (h : size / 5 * 5 = size) :
    Le (medianOfMediansF cmp k cat first last size) (medianOfMedians cmp cat first last size) := by
  unfold medianOfMediansF
  rw [medianOfMedians]
  split
  · exact Le.none _
  · dsimp only
    rw [Nat.mul_div_cancel _ (by omega : 0 < 5)]
    refine Le.bind (Le.refl _) fun r => ?_
    obtain ⟨it, mediansIt⟩ := r
    dsimp only
    unfold mediansRest
    rw [if_neg (by omega), if_pos h]
    exact introselectF_le _ _ _ _ _ _ _

end CppSort
