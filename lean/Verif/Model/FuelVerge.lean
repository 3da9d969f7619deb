import Verif.Model.FuelProbes
import Verif.Model.Verge
/-
Copies of functions of the model with bounded recursion, generated mechanically from their definitions,
for running concrete inputs.
-/
set_option autoImplicit false
set_option linter.unusedVariables false

namespace CppSort
variable {α β γ : Type}

section
variable {δ : Type}

/-- Copy of `moveRange` with bounded recursion. -/
def moveRangeF (k : Nat) (d1 d2 : Nat → Nat) (first last result : Nat) : M α Nat :=
  match k with
  | 0 => noFuel
  | k + 1 => do
    if first ≠ last then
      moveTo (d2 result) (d1 first)
      moveRangeF k d1 d2 (first + 1) last (result + 1)
    else
      pure result
termination_by structural k

theorem moveRangeF_le : ∀ (k : Nat) (d1 d2 : Nat → Nat) (first last result : Nat), Le (α := α) (moveRangeF k d1 d2 first last result) (moveRange d1 d2 first last result) := by
  intro k
  induction k with
  | zero => intros; exact Le.none _
  | succ k ih =>
    intro d1 d2 first last result
    rw [moveRangeF, moveRange]
    repeat' (first | with_reducible exact Le.refl _ | apply ih | with_reducible refine Le.bind ?_ (fun _ => ?_) | with_reducible refine Le.ite ?_ ?_ | apply Le.embed | split | dsimp only | (exfalso; simp_all; done))

/-- Copy of `uninitMove` with bounded recursion. -/
def uninitMoveF (k : Nat) (first last result : Nat) : M α Nat :=
  match k with
  | 0 => noFuel
  | k + 1 => do
    if first ≠ last then
      constructFrom result first
      uninitMoveF k (first + 1) last (result + 1)
    else
      pure result
termination_by structural k

theorem uninitMoveF_le : ∀ (k : Nat) (first last result : Nat), Le (α := α) (uninitMoveF k first last result) (uninitMove first last result) := by
  intro k
  induction k with
  | zero => intros; exact Le.none _
  | succ k ih =>
    intro first last result
    rw [uninitMoveF, uninitMove]
    repeat' (first | with_reducible exact Le.refl _ | apply ih | with_reducible refine Le.bind ?_ (fun _ => ?_) | with_reducible refine Le.ite ?_ ?_ | apply Le.embed | split | dsimp only | (exfalso; simp_all; done))

/-- Copy of `destroyN` with bounded recursion. -/
def destroyNF (k : Nat) (p n : Nat) : M α Unit :=
  match k with
  | 0 => noFuel
  | k + 1 => do
    if n ≠ 0 then
      destroy p
      destroyNF k (p + 1) (n - 1)
    else
      pure ()
termination_by structural k

theorem destroyNF_le : ∀ (k : Nat) (p n : Nat), Le (α := α) (destroyNF k p n) (destroyN p n) := by
  intro k
  induction k with
  | zero => intros; exact Le.none _
  | succ k ih =>
    intro p n
    rw [destroyNF, destroyN]
    repeat' (first | with_reducible exact Le.refl _ | apply ih | with_reducible refine Le.bind ?_ (fun _ => ?_) | with_reducible refine Le.ite ?_ ?_ | apply Le.embed | split | dsimp only | (exfalso; simp_all; done))

/-- Copy of `rotateLeft` with bounded recursion. -/
def rotateLeftF (k : Nat) (first last : Nat) : M α Nat := do
  let tmp ← moveOut first
  let lm1 ← moveRangeF k id id (first + 1) last first
  assign lm1 tmp
  pure lm1

theorem rotateLeftF_le : ∀ (k : Nat) (first last : Nat), Le (α := α) (rotateLeftF k first last) (rotateLeft first last) := by
  intro k first last
  unfold rotateLeftF rotateLeft
  repeat' (first | with_reducible exact Le.refl _ | apply moveRangeF_le | with_reducible refine Le.bind ?_ (fun _ => ?_) | with_reducible refine Le.ite ?_ ?_ | apply Le.embed | split | dsimp only | (exfalso; simp_all; done))

end

section
variable (cmp : α → α → M α Bool)

/-- Copy of `lowerBoundN` with bounded recursion. -/
def lowerBoundNF (k : Nat) (first size : Nat) (value : α) : M α Nat :=
  match k with
  | 0 => noFuel
  | k + 1 => do
    if size > 0 then
      let it := first + size / 2
      if ← cmp (← read it) value then
        lowerBoundNF k (it + 1) (size - (size / 2 + 1)) value
      else
        lowerBoundNF k first (size / 2) value
    else
      pure first
termination_by structural k

theorem lowerBoundNF_le : ∀ (k : Nat) (first size : Nat) (value : α), Le (α := α) (lowerBoundNF cmp k first size value) (lowerBoundN cmp first size value) := by
  intro k
  induction k with
  | zero => intros; exact Le.none _
  | succ k ih =>
    intro first size value
    rw [lowerBoundNF, lowerBoundN]
    repeat' (first | with_reducible exact Le.refl _ | apply ih | with_reducible refine Le.bind ?_ (fun _ => ?_) | with_reducible refine Le.ite ?_ ?_ | apply Le.embed | split | dsimp only | (exfalso; simp_all; done))

/-- Copy of `halfMergeBlind` with bounded recursion. -/
def halfMergeBlindF (k : Nat) (d1 d : Nat → Nat) (first1 first2 result minLen : Nat) : M α (Nat × Nat × Nat) :=
  match k with
  | 0 => noFuel
  | k + 1 => do
    if minLen ≠ 0 then
      if ← cmp (← read (d first2)) (← read (d1 first1)) then
        moveTo (d result) (d first2)
        halfMergeBlindF k d1 d first1 (first2 + 1) (result + 1) (minLen - 1)
      else
        moveTo (d result) (d1 first1)
        halfMergeBlindF k d1 d (first1 + 1) first2 (result + 1) (minLen - 1)
    else
      pure (first1, first2, result)
termination_by structural k

theorem halfMergeBlindF_le : ∀ (k : Nat) (d1 d : Nat → Nat) (first1 first2 result minLen : Nat), Le (α := α) (halfMergeBlindF cmp k d1 d first1 first2 result minLen) (halfMergeBlind cmp d1 d first1 first2 result minLen) := by
  intro k
  induction k with
  | zero => intros; exact Le.none _
  | succ k ih =>
    intro d1 d first1 first2 result minLen
    rw [halfMergeBlindF, halfMergeBlind]
    repeat' (first | with_reducible exact Le.refl _ | apply ih | with_reducible refine Le.bind ?_ (fun _ => ?_) | with_reducible refine Le.ite ?_ ?_ | apply Le.embed | split | dsimp only | (exfalso; simp_all; done))

/-- Copy of `halfMergeLoop` with bounded recursion. -/
def halfMergeLoopF (k : Nat) (d1 d : Nat → Nat) (first1 last1 first2 last2 result : Nat) : M α Unit :=
  match k with
  | 0 => noFuel
  | k + 1 => do
    if ← cmp (← read (d first2)) (← read (d1 first1)) then
      moveTo (d result) (d first2)
      if first2 + 1 = last2 then
        let _ ← moveRangeF k d1 d first1 last1 (result + 1)
        pure ()
      else halfMergeLoopF k d1 d first1 last1 (first2 + 1) last2 (result + 1)
    else
      moveTo (d result) (d1 first1)
      if first1 + 1 = last1 then pure ()
      else halfMergeLoopF k d1 d (first1 + 1) last1 first2 last2 (result + 1)
termination_by structural k

theorem halfMergeLoopF_le : ∀ (k : Nat) (d1 d : Nat → Nat) (first1 last1 first2 last2 result : Nat), Le (α := α) (halfMergeLoopF cmp k d1 d first1 last1 first2 last2 result) (halfMergeLoop cmp d1 d first1 last1 first2 last2 result) := by
  intro k
  induction k with
  | zero => intros; exact Le.none _
  | succ k ih =>
    intro d1 d first1 last1 first2 last2 result
    rw [halfMergeLoopF, halfMergeLoop]
    repeat' (first | with_reducible exact Le.refl _ | apply ih | apply moveRangeF_le | with_reducible refine Le.bind ?_ (fun _ => ?_) | with_reducible refine Le.ite ?_ ?_ | apply Le.embed | split | dsimp only | (exfalso; simp_all; done))

/-- Copy of `halfInplaceMerge` with bounded recursion. -/
def halfInplaceMergeF (k : Nat) (d1 d : Nat → Nat) (first1 last1 first2 last2 result minLen : Nat) : M α Unit := do
  let (first1, first2, result) ← halfMergeBlindF cmp k d1 d first1 first2 result minLen
  if first1 = last1 then pure ()
  else if first2 = last2 then
    let _ ← moveRangeF k d1 d first1 last1 result
    pure ()
  else halfMergeLoopF cmp k d1 d first1 last1 first2 last2 result

theorem halfInplaceMergeF_le : ∀ (k : Nat) (d1 d : Nat → Nat) (first1 last1 first2 last2 result minLen : Nat), Le (α := α) (halfInplaceMergeF cmp k d1 d first1 last1 first2 last2 result minLen) (halfInplaceMerge cmp d1 d first1 last1 first2 last2 result minLen) := by
  intro k d1 d first1 last1 first2 last2 result minLen
  unfold halfInplaceMergeF halfInplaceMerge
  repeat' (first | with_reducible exact Le.refl _ | apply moveRangeF_le | apply halfMergeBlindF_le | apply halfMergeLoopF_le | with_reducible refine Le.bind ?_ (fun _ => ?_) | with_reducible refine Le.ite ?_ ?_ | apply Le.embed | split | dsimp only | (exfalso; simp_all; done))

end

section
variable {δ : Type}

/-- Copy of `getTemporaryBuffer` with bounded recursion. -/
def getTemporaryBufferF (k : Nat) (count minCount : Nat) : M α (Option Buf) :=
  match k with
  | 0 => noFuel
  | k + 1 => do
    if count > minCount then
      let g ← askGrant
      if count ≤ g then
        let p ← alloc count
        pure (some ⟨p, count⟩)
      else
        getTemporaryBufferF k (count / 2) minCount
    else
      pure none
termination_by structural k

theorem getTemporaryBufferF_le : ∀ (k : Nat) (count minCount : Nat), Le (α := α) (getTemporaryBufferF k count minCount) (getTemporaryBuffer count minCount) := by
  intro k
  induction k with
  | zero => intros; exact Le.none _
  | succ k ih =>
    intro count minCount
    rw [getTemporaryBufferF, getTemporaryBuffer]
    repeat' (first | with_reducible exact Le.refl _ | apply ih | with_reducible refine Le.bind ?_ (fun _ => ?_) | with_reducible refine Le.ite ?_ ?_ | apply Le.embed | split | dsimp only | (exfalso; simp_all; done))

/-- Copy of `newBuf` with bounded recursion. -/
def newBufF (k : Nat) (count : Nat) : M α Buf := do
  match ← getTemporaryBufferF k count 0 with
  | some b => pure b
  | none => pure Buf.null

theorem newBufF_le : ∀ (k : Nat) (count : Nat), Le (α := α) (newBufF k count) (newBuf count) := by
  intro k count
  unfold newBufF newBuf
  repeat' (first | with_reducible exact Le.refl _ | apply getTemporaryBufferF_le | with_reducible refine Le.bind ?_ (fun _ => ?_) | with_reducible refine Le.ite ?_ ?_ | apply Le.embed | split | dsimp only | (exfalso; simp_all; done))

end

section
variable (cmp : α → α → M α Bool)

/-- Copy of `bufferedInplaceMerge` with bounded recursion. -/
def bufferedInplaceMergeF (k : Nat) (first middle last len1 len2 buff : Nat) : M α Unit := do
  if len1 ≤ len2 then
    let ptr ← uninitMoveF k first middle buff
    halfInplaceMergeF cmp k id id buff ptr middle last first len1
    destroyNF k buff (ptr - buff)
  else
    let ptr ← uninitMoveF k middle last buff
    halfInplaceMergeF (flipC cmp) k (rev ptr) (rev last) 0 (ptr - buff) (last - middle) (last - first)
      0 len2
    destroyNF k buff (ptr - buff)

theorem bufferedInplaceMergeF_le : ∀ (k : Nat) (first middle last len1 len2 buff : Nat), Le (α := α) (bufferedInplaceMergeF cmp k first middle last len1 len2 buff) (bufferedInplaceMerge cmp first middle last len1 len2 buff) := by
  intro k first middle last len1 len2 buff
  unfold bufferedInplaceMergeF bufferedInplaceMerge
  repeat' (first | with_reducible exact Le.refl _ | apply uninitMoveF_le | apply destroyNF_le | apply halfInplaceMergeF_le | with_reducible refine Le.bind ?_ (fun _ => ?_) | with_reducible refine Le.ite ?_ ?_ | apply Le.embed | split | dsimp only | (exfalso; simp_all; done))

/-- Copy of `symmerge` with bounded recursion. -/
def symmergeF (k : Nat) (c : Cfg) (arr first middle last len1 len2 buff buffSize : Nat) : M α Unit :=
  match k with
  | 0 => noFuel
  | k + 1 => do
    if len1 > 0 ∧ len2 > 0 then
      if len1 ≤ buffSize ∨ len2 ≤ buffSize then
        bufferedInplaceMergeF cmp k (arr + first) (arr + middle) (arr + last) len1 len2 buff
      else
        let m := first + (last - first) / 2
        let n := m + middle
        let start ←
          if middle > m then symmergeBsearch cmp arr (n - last) m (n - 1)
          else symmergeBsearch cmp arr first middle (n - 1)
        let e := n - start
        let _ ← rotate c (arr + start) (arr + middle) (arr + e)
        symmergeF k c arr first start m (start - first) (m - start) buff buffSize
        symmergeF k c arr m e last (e - m) (last - e) buff buffSize
    else
      pure ()
termination_by structural k

theorem symmergeF_le : ∀ (k : Nat) (c : Cfg) (arr first middle last len1 len2 buff buffSize : Nat), Le (α := α) (symmergeF cmp k c arr first middle last len1 len2 buff buffSize) (symmerge cmp c arr first middle last len1 len2 buff buffSize) := by
  intro k
  induction k with
  | zero => intros; exact Le.none _
  | succ k ih =>
    intro c arr first middle last len1 len2 buff buffSize
    rw [symmergeF, symmerge]
    repeat' (first | with_reducible exact Le.refl _ | apply ih | apply bufferedInplaceMergeF_le | with_reducible refine Le.bind ?_ (fun _ => ?_) | with_reducible refine Le.ite ?_ ?_ | apply Le.embed | split | dsimp only | (exfalso; simp_all; done))

/-- Copy of `inplaceMergeBuf` with bounded recursion. -/
def inplaceMergeBufF (k : Nat) (c : Cfg) (first middle last len1 len2 buff buffSize : Nat) : M α Unit :=
  match c.cat with
  | .forward => recmergeFwd cmp c first len1 middle len2 buff buffSize
  | .bidirectional => recmergeBi cmp c first middle last len1 len2 buff buffSize
  | .random => symmergeF cmp k c first 0 (middle - first) (last - first) len1 len2 buff buffSize

theorem inplaceMergeBufF_le : ∀ (k : Nat) (c : Cfg) (first middle last len1 len2 buff buffSize : Nat), Le (α := α) (inplaceMergeBufF cmp k c first middle last len1 len2 buff buffSize) (inplaceMergeBuf cmp c first middle last len1 len2 buff buffSize) := by
  intro k c first middle last len1 len2 buff buffSize
  unfold inplaceMergeBufF inplaceMergeBuf
  repeat' (first | with_reducible exact Le.refl _ | apply symmergeF_le | with_reducible refine Le.bind ?_ (fun _ => ?_) | with_reducible refine Le.ite ?_ ?_ | apply Le.embed | split | dsimp only | (exfalso; simp_all; done))

end

section
variable (cmp : α → α → M α Bool)

/-- Copy of `inplaceMergeLen` with bounded recursion. -/
def inplaceMergeLenF (k : Nat) (c : Cfg) (first middle last len1 len2 : Nat) : M α Unit := do
  let b ← newBufF k (min len1 len2)
  inplaceMergeBufF cmp k c first middle last len1 len2 b.ptr b.size
  b.release

theorem inplaceMergeLenF_le : ∀ (k : Nat) (c : Cfg) (first middle last len1 len2 : Nat), Le (α := α) (inplaceMergeLenF cmp k c first middle last len1 len2) (inplaceMergeLen cmp c first middle last len1 len2) := by
  intro k c first middle last len1 len2
  unfold inplaceMergeLenF inplaceMergeLen
  repeat' (first | with_reducible exact Le.refl _ | apply newBufF_le | apply inplaceMergeBufF_le | with_reducible refine Le.bind ?_ (fun _ => ?_) | with_reducible refine Le.ite ?_ ?_ | apply Le.embed | split | dsimp only | (exfalso; simp_all; done))

/-- Copy of `vergeMerge` with bounded recursion. -/
def vergeMergeF (k : Nat) (c : Cfg) (first start : Nat) (r r' : VRun) : M α Unit := do
  if r.size = 1 then
    let target ← read start
    if ← cmp (← read r.stop) target then
      let it ← lowerBoundNF cmp k r.stop r'.size target
      let _ ← rotateLeftF k first it
      pure ()
    else pure ()
  else if r'.size = 1 then
    let target ← read (r'.stop - 1)
    if ← cmp target (← read (r.stop - 1)) then
      let it ← upperBoundN cmp start r.size target
      let _ ← rotateRight it r'.stop
      pure ()
    else pure ()
  else inplaceMergeLenF cmp k c start r.stop r'.stop r.size r'.size

theorem vergeMergeF_le : ∀ (k : Nat) (c : Cfg) (first start : Nat) (r r' : VRun), Le (α := α) (vergeMergeF cmp k c first start r r') (vergeMerge cmp c first start r r') := by
  intro k c first start r r'
  unfold vergeMergeF vergeMerge
  repeat' (first | with_reducible exact Le.refl _ | apply rotateLeftF_le | apply lowerBoundNF_le | apply inplaceMergeLenF_le | with_reducible refine Le.bind ?_ (fun _ => ?_) | with_reducible refine Le.ite ?_ ?_ | apply Le.embed | split | dsimp only | (exfalso; simp_all; done))

/-- Copy of `vergePass` with bounded recursion. -/
def vergePassF (k : Nat) (c : Cfg) (first : Nat) (start : Nat) : List VRun → M α (List VRun)
  | r :: r' :: rest => do
    vergeMergeF cmp k c first start r r'
    let rest ← vergePassF k c first r'.stop rest
    pure (⟨r'.stop, r'.size + r.size⟩ :: rest)
  | runs => pure runs

theorem vergePassF_le (k : Nat) (c : Cfg) (first : Nat) : ∀ (n start : Nat) (runs : List VRun), runs.length ≤ n →
    Le (α := α) (vergePassF cmp k c first start runs) (vergePass cmp c first start runs) := by
  intro n
  induction n with
  | zero =>
    intro start runs h
    have : runs = [] := List.length_eq_zero_iff.1 (by omega)
    subst this
    exact Le.refl _
  | succ n ih =>
    intro start runs h
    match runs with
    | [] => exact Le.refl _
    | [_] => exact Le.refl _
    | r :: r' :: rest =>
      rw [vergePassF, vergePass]
      simp only [List.length_cons] at h
      exact Le.bind (vergeMergeF_le _ _ _ _ _ _ _) fun _ => Le.bind (ih _ _ (by omega)) fun _ => Le.refl _

/-- Copy of `vergeMergeLoop` with bounded recursion. -/
def vergeMergeLoopF (k : Nat) (c : Cfg) (first : Nat) (runs : List VRun) : M α Unit :=
  match k with
  | 0 => noFuel
  | k + 1 => do
    let runs ← vergePassF cmp k c first first runs
    if 1 < runs.length then vergeMergeLoopF k c first runs else pure ()
termination_by structural k

theorem vergeMergeLoopF_le : ∀ (k : Nat) (c : Cfg) (first : Nat) (runs : List VRun), Le (α := α) (vergeMergeLoopF cmp k c first runs) (vergeMergeLoop cmp c first runs) := by
  intro k
  induction k with
  | zero => intros; exact Le.none _
  | succ k ih =>
    intro c first runs
    rw [vergeMergeLoopF, vergeMergeLoop]
    repeat' (first | with_reducible exact Le.refl _ | apply ih | exact vergePassF_le _ _ _ _ _ _ _ (Nat.le_refl _) | with_reducible refine Le.bind ?_ (fun _ => ?_) | with_reducible refine Le.ite ?_ ?_ | apply Le.embed | split | dsimp only | (exfalso; simp_all; done))

/-- Copy of `vergeMergeRuns` with bounded recursion. -/
def vergeMergeRunsF (k : Nat) (c : Cfg) (first : Nat) (runs : List VRun) : M α Unit :=
  if runs.length < 2 then pure () else vergeMergeLoopF cmp k c first runs

theorem vergeMergeRunsF_le : ∀ (k : Nat) (c : Cfg) (first : Nat) (runs : List VRun), Le (α := α) (vergeMergeRunsF cmp k c first runs) (vergeMergeRuns cmp c first runs) := by
  intro k c first runs
  unfold vergeMergeRunsF vergeMergeRuns
  repeat' (first | with_reducible exact Le.refl _ | apply vergeMergeLoopF_le | with_reducible refine Le.bind ?_ (fun _ => ?_) | with_reducible refine Le.ite ?_ ?_ | apply Le.embed | split | dsimp only | (exfalso; simp_all; done))

/-- Copy of `vergeLeftLoop` with bounded recursion. -/
def vergeLeftLoopF (k : Nat) (stable desc : Bool) (beginRange current : Nat) : M α Nat :=
  match k with
  | 0 => noFuel
  | k + 1 => do
    let current := current - 1
    if ← vergeStop cmp stable desc (← read current) (← read (current + 1)) then pure current
    else if current ≠ beginRange then vergeLeftLoopF k stable desc beginRange current
    else pure current
termination_by structural k

theorem vergeLeftLoopF_le : ∀ (k : Nat) (stable desc : Bool) (beginRange current : Nat), Le (α := α) (vergeLeftLoopF cmp k stable desc beginRange current) (vergeLeftLoop cmp stable desc beginRange current) := by
  intro k
  induction k with
  | zero => intros; exact Le.none _
  | succ k ih =>
    intro stable desc beginRange current
    rw [vergeLeftLoopF, vergeLeftLoop]
    repeat' (first | with_reducible exact Le.refl _ | apply ih | with_reducible refine Le.bind ?_ (fun _ => ?_) | with_reducible refine Le.ite ?_ ?_ | apply Le.embed | split | dsimp only | (exfalso; simp_all; done))

/-- Copy of `vergeLeft` with bounded recursion. -/
def vergeLeftF (k : Nat) (stable desc : Bool) (beginRange current : Nat) : M α Nat := do
  let current ← vergeLeftLoopF cmp k stable desc beginRange current
  if ← vergeStop cmp stable desc (← read current) (← read (current + 1)) then pure (current + 1)
  else pure current

theorem vergeLeftF_le : ∀ (k : Nat) (stable desc : Bool) (beginRange current : Nat), Le (α := α) (vergeLeftF cmp k stable desc beginRange current) (vergeLeft cmp stable desc beginRange current) := by
  intro k stable desc beginRange current
  unfold vergeLeftF vergeLeft
  repeat' (first | with_reducible exact Le.refl _ | apply vergeLeftLoopF_le | with_reducible refine Le.bind ?_ (fun _ => ?_) | with_reducible refine Le.ite ?_ ?_ | apply Le.embed | split | dsimp only | (exfalso; simp_all; done))

/-- Copy of `vergeRight` with bounded recursion. -/
def vergeRightF (k : Nat) (stable desc : Bool) (last next2 : Nat) : M α Nat :=
  match k with
  | 0 => noFuel
  | k + 1 => do
    if next2 ≠ last then
      if ← vergeStop cmp stable desc (← read (next2 - 1)) (← read next2) then pure next2
      else vergeRightF k stable desc last (next2 + 1)
    else pure next2
termination_by structural k

theorem vergeRightF_le : ∀ (k : Nat) (stable desc : Bool) (last next2 : Nat), Le (α := α) (vergeRightF cmp k stable desc last next2) (vergeRight cmp stable desc last next2) := by
  intro k
  induction k with
  | zero => intros; exact Le.none _
  | succ k ih =>
    intro stable desc last next2
    rw [vergeRightF, vergeRight]
    repeat' (first | with_reducible exact Le.refl _ | apply ih | with_reducible refine Le.bind ?_ (fun _ => ?_) | with_reducible refine Le.ite ?_ ?_ | apply Le.embed | split | dsimp only | (exfalso; simp_all; done))

end

section
variable {δ : Type}

/-- Copy of `vergeFound` with bounded recursion. -/
def vergeFoundF (k : Nat) (fb : Nat → Nat → M α Unit) (desc : Bool) (last beginRange current next2 unsorted : Nat) (runs : List VRun) : M α (Nat × List VRun) := do
  vergeReverse desc current next2
  let unsorted := if current - beginRange ≠ 0 ∧ unsorted = last then beginRange else unsorted
  if unsorted ≠ last then
    fb unsorted current
    pure (last, runs ++ [⟨current, current - unsorted⟩] ++ [⟨next2, next2 - current⟩])
  else
    pure (unsorted, runs ++ [⟨next2, next2 - current⟩])

theorem vergeFoundF_le : ∀ (k : Nat) (fb : Nat → Nat → M α Unit) (fb' : Nat → Nat → M α Unit) (hfb : ∀ x0 x1, Le (fb x0 x1) (fb' x0 x1)) (desc : Bool) (last beginRange current next2 unsorted : Nat) (runs : List VRun), Le (α := α) (vergeFoundF k fb desc last beginRange current next2 unsorted runs) (vergeFound fb' desc last beginRange current next2 unsorted runs) := by
  intro k fb fb' hfb desc last beginRange current next2 unsorted runs
  unfold vergeFoundF vergeFound
  repeat' (first | with_reducible exact Le.refl _ | exact hfb | apply hfb | with_reducible refine Le.bind ?_ (fun _ => ?_) | with_reducible refine Le.ite ?_ ?_ | apply Le.embed | split | dsimp only | (exfalso; simp_all; done))

end

section
variable (cmp : α → α → M α Bool)

/-- Copy of `vergeLoop` with bounded recursion. -/
def vergeLoopF (k : Nat) (fb : Nat → Nat → M α Unit) (stable : Bool) (last minrun current unsorted : Nat) (runs : List VRun) : M α (Nat × List VRun) :=
  match k with
  | 0 => noFuel
  | k + 1 => do
    let beginRange := current
    let next := current + 1
    if last - next ≤ minrun then
      pure (if unsorted = last then beginRange else unsorted, runs)
    else
      let current := current + minrun
      let next := next + minrun
      let desc ← cmp (← read next) (← read current)
      let left ← vergeLeftF cmp k stable desc beginRange current
      let next2 ← vergeRightF cmp k stable desc last (next + 1)
      if minrun ≤ next2 - left then
        let (unsorted, runs) ← vergeFoundF k fb desc last beginRange left next2 unsorted runs
        if next2 = last then pure (unsorted, runs)
        else vergeLoopF k fb stable last minrun next2 unsorted runs
      else
        let unsorted := if unsorted = last then beginRange else unsorted
        if next2 = last then pure (unsorted, runs)
        else vergeLoopF k fb stable last minrun next2 unsorted runs
termination_by structural k

theorem vergeLoopF_le : ∀ (k : Nat) (fb : Nat → Nat → M α Unit) (fb' : Nat → Nat → M α Unit) (hfb : ∀ x0 x1, Le (fb x0 x1) (fb' x0 x1)) (stable : Bool) (last minrun current unsorted : Nat) (runs : List VRun), Le (α := α) (vergeLoopF cmp k fb stable last minrun current unsorted runs) (vergeLoop cmp fb' stable last minrun current unsorted runs) := by
  intro k
  induction k with
  | zero => intros; exact Le.none _
  | succ k ih =>
    intro fb fb' hfb stable last minrun current unsorted runs
    rw [vergeLoopF, vergeLoop]
    repeat' (first | with_reducible exact Le.refl _ | apply ih | apply vergeLeftF_le | apply vergeRightF_le | apply vergeFoundF_le | exact hfb | apply hfb | with_reducible refine Le.bind ?_ (fun _ => ?_) | with_reducible refine Le.ite ?_ ?_ | apply Le.embed | split | dsimp only | (exfalso; simp_all; done))

/-- Copy of `vergesortRandom` with bounded recursion. -/
def vergesortRandomF (k : Nat) (c : Cfg) (fb : Nat → Nat → M α Unit) (stable : Bool) (first last : Nat) : M α Unit := do
  let size := last - first
  if size < 128 then fb first last
  else
    let (unsorted, runs) ← vergeLoopF cmp k fb stable last (size / Nat.log2 size) first last []
    if unsorted ≠ last then
      fb unsorted last
      vergeMergeRunsF cmp k c first (runs ++ [⟨last, last - unsorted⟩])
    else
      vergeMergeRunsF cmp k c first runs

theorem vergesortRandomF_le : ∀ (k : Nat) (c : Cfg) (fb : Nat → Nat → M α Unit) (fb' : Nat → Nat → M α Unit) (hfb : ∀ x0 x1, Le (fb x0 x1) (fb' x0 x1)) (stable : Bool) (first last : Nat), Le (α := α) (vergesortRandomF cmp k c fb stable first last) (vergesortRandom cmp c fb' stable first last) := by
  intro k c fb fb' hfb stable first last
  unfold vergesortRandomF vergesortRandom
  repeat' (first | with_reducible exact Le.refl _ | apply vergeMergeRunsF_le | apply vergeLoopF_le | exact hfb | apply hfb | with_reducible refine Le.bind ?_ (fun _ => ?_) | with_reducible refine Le.ite ?_ ?_ | apply Le.embed | split | dsimp only | (exfalso; simp_all; done))

end

end CppSort
