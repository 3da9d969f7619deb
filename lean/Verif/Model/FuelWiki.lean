import Verif.Model.FuelVerge
import Verif.Model.Wiki
/-
Copies of functions of the model with bounded recursion, generated mechanically from their definitions,
for running concrete inputs.
-/
set_option autoImplicit false
set_option linter.unusedVariables false

namespace CppSort
variable {α β γ : Type}

section
variable {δ : Type}

/-- Copy of `placeRange` with bounded recursion. -/
def placeRangeF (k : Nat) (first last result : Nat) : M α Nat :=
  match k with
  | 0 => noFuel
  | k + 1 => do
    if first ≠ last then
      placeFrom result first
      placeRangeF k (first + 1) last (result + 1)
    else pure result
termination_by structural k

theorem placeRangeF_le : ∀ (k : Nat) (first last result : Nat), Le (α := α) (placeRangeF k first last result) (placeRange first last result) := by
  intro k
  induction k with
  | zero => intros; exact Le.none _
  | succ k ih =>
    intro first last result
    rw [placeRangeF, placeRange]
    repeat' (first | with_reducible exact Le.refl _ | apply ih | with_reducible refine Le.bind ?_ (fun _ => ?_) | with_reducible refine Le.ite ?_ ?_ | apply Le.embed | split | dsimp only | (exfalso; simp_all; done))

/-- Copy of `wikiMoveIn` with bounded recursion. -/
def wikiMoveInF (k : Nat) (t : TypeTraits) (first last result : Nat) : M α Nat :=
  if t.trivial then moveRangeF k id id first last result else placeRangeF k first last result

theorem wikiMoveInF_le : ∀ (k : Nat) (t : TypeTraits) (first last result : Nat), Le (α := α) (wikiMoveInF k t first last result) (wikiMoveIn t first last result) := by
  intro k t first last result
  unfold wikiMoveInF wikiMoveIn
  repeat' (first | with_reducible exact Le.refl _ | apply moveRangeF_le | apply placeRangeF_le | with_reducible refine Le.bind ?_ (fun _ => ?_) | with_reducible refine Le.ite ?_ ?_ | apply Le.embed | split | dsimp only | (exfalso; simp_all; done))

/-- Copy of `wikiGuard` with bounded recursion. -/
def wikiGuardF (k : Nat) (t : TypeTraits) (p n : Nat) : M α Unit :=
  if t.trivDtor then pure () else destroyNF k p n

theorem wikiGuardF_le : ∀ (k : Nat) (t : TypeTraits) (p n : Nat), Le (α := α) (wikiGuardF k t p n) (wikiGuard t p n) := by
  intro k t p n
  unfold wikiGuardF wikiGuard
  repeat' (first | with_reducible exact Le.refl _ | apply destroyNF_le | with_reducible refine Le.bind ?_ (fun _ => ?_) | with_reducible refine Le.ite ?_ ?_ | apply Le.embed | split | dsimp only | (exfalso; simp_all; done))

end

section
variable (cmp : α → α → M α Bool)

/-- Copy of `wikiGroups` with bounded recursion. -/
def wikiGroupsF (k : Nat) (first : Nat) (it : WIter) : M α Unit :=
  match k with
  | 0 => noFuel
  | k + 1 => do
    if it.finished then pure ()
    else
      wikiNetwork cmp (first + it.dec) id (wikiNet (it.next.dec - it.dec))
      wikiGroupsF k first it.next
termination_by structural k

theorem wikiGroupsF_le : ∀ (k : Nat) (first : Nat) (it : WIter), Le (α := α) (wikiGroupsF cmp k first it) (wikiGroups cmp first it) := by
  intro k
  induction k with
  | zero => intros; exact Le.none _
  | succ k ih =>
    intro first it
    rw [wikiGroupsF, wikiGroups]
    repeat' (first | with_reducible exact Le.refl _ | apply ih | with_reducible refine Le.bind ?_ (fun _ => ?_) | with_reducible refine Le.ite ?_ ?_ | apply Le.embed | split | dsimp only | (exfalso; simp_all; done))

/-- Copy of `wikiBuffered` with bounded recursion. -/
def wikiBufferedF (k : Nat) (t : TypeTraits) (first middle last len1 len2 buff : Nat) : M α Unit := do
  if len1 ≤ len2 then
    let ptr ← wikiMoveInF k t first middle buff
    halfInplaceMergeF cmp k id id buff ptr middle last first len1
    wikiGuardF k t buff (ptr - buff)
  else
    let ptr ← wikiMoveInF k t middle last buff
    halfInplaceMergeF (flipC cmp) k (rev ptr) (rev last) 0 (ptr - buff) (last - middle) (last - first) 0 len2
    wikiGuardF k t buff (ptr - buff)

theorem wikiBufferedF_le : ∀ (k : Nat) (t : TypeTraits) (first middle last len1 len2 buff : Nat), Le (α := α) (wikiBufferedF cmp k t first middle last len1 len2 buff) (wikiBuffered cmp t first middle last len1 len2 buff) := by
  intro k t first middle last len1 len2 buff
  unfold wikiBufferedF wikiBuffered
  repeat' (first | with_reducible exact Le.refl _ | apply halfInplaceMergeF_le | apply wikiMoveInF_le | apply wikiGuardF_le | with_reducible refine Le.bind ?_ (fun _ => ?_) | with_reducible refine Le.ite ?_ ?_ | apply Le.embed | split | dsimp only | (exfalso; simp_all; done))

end

section
variable (cmp : α → α → M α Bool) (c : Cfg)

/-- Copy of `wikiTwo` with bounded recursion. -/
def wikiTwoF (k : Nat) (t : TypeTraits) (cache a m e : Nat) : M α Unit := do
  if ← wikiLt cmp (e - 1) a then
    let _ ← rotate c a m e
    pure ()
  else if ← wikiLt cmp m (m - 1) then wikiBufferedF cmp k t a m e (m - a) (e - m) cache
  else pure ()

theorem wikiTwoF_le : ∀ (k : Nat) (t : TypeTraits) (cache a m e : Nat), Le (α := α) (wikiTwoF cmp c k t cache a m e) (wikiTwo cmp c t cache a m e) := by
  intro k t cache a m e
  unfold wikiTwoF wikiTwo
  repeat' (first | with_reducible exact Le.refl _ | apply wikiBufferedF_le | with_reducible refine Le.bind ?_ (fun _ => ?_) | with_reducible refine Le.ite ?_ ?_ | apply Le.embed | split | dsimp only | (exfalso; simp_all; done))

end

section
variable {δ : Type}

/-- Copy of `wikiPairs` with bounded recursion. -/
def wikiPairsF (k : Nat) (body : Nat → Nat → Nat → M α Unit) (first : Nat) (it : WIter) : M α Unit :=
  match k with
  | 0 => noFuel
  | k + 1 => do
    if it.finished then pure ()
    else
      body (first + it.dec) (first + it.next.dec) (first + it.next.next.dec)
      wikiPairsF k body first it.next.next
termination_by structural k

theorem wikiPairsF_le (k : Nat) (body body' : Nat → Nat → Nat → M α Unit) (hb : ∀ a m e, Le (body a m e) (body' a m e)) :
    ∀ (first : Nat) (it : WIter), Le (α := α) (wikiPairsF k body first it) (wikiPairs body' first it) := by
  induction k with
  | zero => intros; exact Le.none _
  | succ k ih =>
    intro first it
    rw [wikiPairsF, wikiPairs]
    exact Le.ite (Le.refl _) (Le.bind (hb _ _ _) fun _ => ih _ _)

end

section
variable (cmp : α → α → M α Bool) (c : Cfg)

/-- Copy of `wikiLevel` with bounded recursion. -/
def wikiLevelF (k : Nat) (t : TypeTraits) (junk : Nat → Nat) (cache cs first : Nat) (it : WIter) : M α WIter := do
  if it.decStep < cs then
    if (it.decStep + 1) * 4 ≤ cs ∧ it.decStep * 4 ≤ it.size then
      wikiFours cmp first cache it.begin
      pure it.nextLevel
    else
      wikiPairsF k (wikiTwoF cmp c k t cache) first it.begin
      pure it
  else
    wikiInPlace cmp c junk cache cs first it
    pure it

theorem wikiLevelF_le : ∀ (k : Nat) (t : TypeTraits) (junk : Nat → Nat) (cache cs first : Nat) (it : WIter), Le (α := α) (wikiLevelF cmp c k t junk cache cs first it) (wikiLevel cmp c t junk cache cs first it) := by
  intro k t junk cache cs first it
  unfold wikiLevelF wikiLevel
  repeat' (first | with_reducible exact Le.refl _ | apply wikiTwoF_le | (refine wikiPairsF_le k _ _ (fun _ _ _ => ?_) _ _) | with_reducible refine Le.bind ?_ (fun _ => ?_) | with_reducible refine Le.ite ?_ ?_ | apply Le.embed | split | dsimp only | (exfalso; simp_all; done))

/-- Copy of `wikiLevels` with bounded recursion. -/
def wikiLevelsF (k : Nat) (t : TypeTraits) (junk : Nat → Nat → Nat) (cache cs first : Nat) (it : WIter) : M α Unit :=
  match k with
  | 0 => noFuel
  | k + 1 => do
    let it ← wikiLevelF cmp c k t (junk it.decStep) cache cs first it
    if it.nextLevel.decStep < it.size then wikiLevelsF k t junk cache cs first it.nextLevel else pure ()
termination_by structural k

theorem wikiLevelsF_le : ∀ (k : Nat) (t : TypeTraits) (junk : Nat → Nat → Nat) (cache cs first : Nat) (it : WIter), Le (α := α) (wikiLevelsF cmp c k t junk cache cs first it) (wikiLevels cmp c t junk cache cs first it) := by
  intro k
  induction k with
  | zero => intros; exact Le.none _
  | succ k ih =>
    intro t junk cache cs first it
    rw [wikiLevelsF, wikiLevels]
    repeat' (first | with_reducible exact Le.refl _ | apply ih | apply wikiLevelF_le | with_reducible refine Le.bind ?_ (fun _ => ?_) | with_reducible refine Le.ite ?_ ?_ | apply Le.embed | split | dsimp only | (exfalso; simp_all; done))

/-- Copy of `wikiSortWith` with bounded recursion. -/
def wikiSortWithF (k : Nat) (t : TypeTraits) (junk : Nat → Nat → Nat) (cache cs first last : Nat) : M α Unit := do
  if last - first < 15 then insertionSort cmp first last
  else
    wikiGroupsF cmp k first (WIter.new (last - first))
    wikiLevelsF cmp c k t junk cache cs first (WIter.new (last - first))

theorem wikiSortWithF_le : ∀ (k : Nat) (t : TypeTraits) (junk : Nat → Nat → Nat) (cache cs first last : Nat), Le (α := α) (wikiSortWithF cmp c k t junk cache cs first last) (wikiSortWith cmp c t junk cache cs first last) := by
  intro k t junk cache cs first last
  unfold wikiSortWithF wikiSortWith
  repeat' (first | with_reducible exact Le.refl _ | apply wikiGroupsF_le | apply wikiLevelsF_le | with_reducible refine Le.bind ?_ (fun _ => ?_) | with_reducible refine Le.ite ?_ ?_ | apply Le.embed | split | dsimp only | (exfalso; simp_all; done))

/-- Copy of `wikiSort` with bounded recursion. -/
def wikiSortF (k : Nat) (t : TypeTraits) (junk : Nat → Nat → Nat) (size : Nat → Nat) (first last : Nat) : M α Unit := do
  let cs := size (last - first)
  let cache ← newObjects cs
  wikiSortWithF cmp c k t junk cache cs first last
  destroyNF k cache cs
  free cache cs

theorem wikiSortF_le : ∀ (k : Nat) (t : TypeTraits) (junk : Nat → Nat → Nat) (size : Nat → Nat) (first last : Nat), Le (α := α) (wikiSortF cmp c k t junk size first last) (wikiSort cmp c t junk size first last) := by
  intro k t junk size first last
  unfold wikiSortF wikiSort
  repeat' (first | with_reducible exact Le.refl _ | apply destroyNF_le | apply wikiSortWithF_le | with_reducible refine Le.bind ?_ (fun _ => ?_) | with_reducible refine Le.ite ?_ ?_ | apply Le.embed | split | dsimp only | (exfalso; simp_all; done))

end

end CppSort
