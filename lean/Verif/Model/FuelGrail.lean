import Verif.Model.FuelVerge
import Verif.Model.Grail
/-
Copies of functions of the model with bounded recursion, generated mechanically from their definitions,
for running concrete inputs.
-/
set_option autoImplicit false
set_option linter.unusedVariables false

namespace CppSort
variable {α β γ : Type}

section
variable (cmp : α → α → M α Bool) (c : Cfg)

/-- Copy of `findKeysLoop` with bounded recursion. -/
def findKeysLoopF (k : Nat) (last keyCount h0 dist u : Nat) : M α (Nat × Nat) :=
  match k with
  | 0 => noFuel
  | k + 1 => do
    if u ≠ last then
      if dist = keyCount then pure (h0, dist)
      else
        let x ← read u
        let r ← lowerBoundNF cmp k h0 dist x
        if ← grailFresh cmp h0 dist u r then
          let h1 ← rotate c h0 (h0 + dist) u
          let _ ← rotate c (h1 + (r - h0)) u (u + 1)
          findKeysLoopF k last keyCount h1 (dist + 1) (u + 1)
        else findKeysLoopF k last keyCount h0 dist (u + 1)
    else pure (h0, dist)
termination_by structural k

theorem findKeysLoopF_le : ∀ (k : Nat) (last keyCount h0 dist u : Nat), Le (α := α) (findKeysLoopF cmp c k last keyCount h0 dist u) (findKeysLoop cmp c last keyCount h0 dist u) := by
  intro k
  induction k with
  | zero => intros; exact Le.none _
  | succ k ih =>
    intro last keyCount h0 dist u
    rw [findKeysLoopF, findKeysLoop]
    repeat' (first | with_reducible exact Le.refl _ | apply ih | apply lowerBoundNF_le | with_reducible refine Le.bind ?_ (fun _ => ?_) | with_reducible refine Le.ite ?_ ?_ | apply Le.embed | split | dsimp only | (exfalso; simp_all; done))

/-- Copy of `findKeys` with bounded recursion. -/
def findKeysF (k : Nat) (first last keyCount : Nat) : M α Nat := do
  let (h0, dist) ← findKeysLoopF cmp c k last keyCount first 1 (first + 1)
  let _ ← rotate c first h0 (h0 + dist)
  pure dist

theorem findKeysF_le : ∀ (k : Nat) (first last keyCount : Nat), Le (α := α) (findKeysF cmp c k first last keyCount) (findKeys cmp c first last keyCount) := by
  intro k first last keyCount
  unfold findKeysF findKeys
  repeat' (first | with_reducible exact Le.refl _ | apply findKeysLoopF_le | with_reducible refine Le.bind ?_ (fun _ => ?_) | with_reducible refine Le.ite ?_ ?_ | apply Le.embed | split | dsimp only | (exfalso; simp_all; done))

end

section
variable (put : Nat → Nat → M α Unit)

/-- Copy of `putRange` with bounded recursion. -/
def putRangeF (k : Nat) (first last dst : Nat) : M α Unit :=
  match k with
  | 0 => noFuel
  | k + 1 => do
    if first ≠ last then
      put dst first
      putRangeF k (first + 1) last (dst + 1)
    else pure ()
termination_by structural k

theorem putRangeF_le : ∀ (k : Nat) (first last dst : Nat), Le (α := α) (putRangeF put k first last dst) (putRange put first last dst) := by
  intro k
  induction k with
  | zero => intros; exact Le.none _
  | succ k ih =>
    intro first last dst
    rw [putRangeF, putRange]
    repeat' (first | with_reducible exact Le.refl _ | apply ih | with_reducible refine Le.bind ?_ (fun _ => ?_) | with_reducible refine Le.ite ?_ ?_ | apply Le.embed | split | dsimp only | (exfalso; simp_all; done))

end

section
variable (cmp : α → α → M α Bool) (put : Nat → Nat → M α Unit)

/-- Copy of `mergeLeftLoop` with bounded recursion. -/
def mergeLeftLoopF (k : Nat) (middle last left right out : Nat) : M α (Nat × Nat) :=
  match k with
  | 0 => noFuel
  | k + 1 => do
    if right ≠ last then
      if ← orGreater cmp (left = middle) left right then
        put out right
        mergeLeftLoopF k middle last left (right + 1) (out + 1)
      else
        put out left
        mergeLeftLoopF k middle last (left + 1) right (out + 1)
    else pure (left, out)
termination_by structural k

theorem mergeLeftLoopF_le : ∀ (k : Nat) (middle last left right out : Nat), Le (α := α) (mergeLeftLoopF cmp put k middle last left right out) (mergeLeftLoop cmp put middle last left right out) := by
  intro k
  induction k with
  | zero => intros; exact Le.none _
  | succ k ih =>
    intro middle last left right out
    rw [mergeLeftLoopF, mergeLeftLoop]
    repeat' (first | with_reducible exact Le.refl _ | apply ih | with_reducible refine Le.bind ?_ (fun _ => ?_) | with_reducible refine Le.ite ?_ ?_ | apply Le.embed | split | dsimp only | (exfalso; simp_all; done))

/-- Copy of `mergeLeft` with bounded recursion. -/
def mergeLeftF (k : Nat) (first middle last out : Nat) : M α Unit := do
  let (left, out) ← mergeLeftLoopF cmp put k middle last first middle out
  if out ≠ left then putRangeF put k left middle out else pure ()

theorem mergeLeftF_le : ∀ (k : Nat) (first middle last out : Nat), Le (α := α) (mergeLeftF cmp put k first middle last out) (mergeLeft cmp put first middle last out) := by
  intro k first middle last out
  unfold mergeLeftF mergeLeft
  repeat' (first | with_reducible exact Le.refl _ | apply putRangeF_le | apply mergeLeftLoopF_le | with_reducible refine Le.bind ?_ (fun _ => ?_) | with_reducible refine Le.ite ?_ ?_ | apply Le.embed | split | dsimp only | (exfalso; simp_all; done))

end

section
variable (cmp : α → α → M α Bool)

/-- Copy of `mergeRightLoop` with bounded recursion. -/
def mergeRightLoopF (k : Nat) (first middle p0 p1 p2 : Nat) : M α (Nat × Nat × Nat) :=
  match k with
  | 0 => noFuel
  | k + 1 => do
    if first < p1 then
      if ← orGreater cmp (p2 < middle) p1 p2 then
        swap p0 p1
        mergeRightLoopF k first middle (p0 - 1) (p1 - 1) p2
      else
        swap p0 p2
        mergeRightLoopF k first middle (p0 - 1) p1 (p2 - 1)
    else pure (p0, p1, p2)
termination_by structural k

theorem mergeRightLoopF_le : ∀ (k : Nat) (first middle p0 p1 p2 : Nat), Le (α := α) (mergeRightLoopF cmp k first middle p0 p1 p2) (mergeRightLoop cmp first middle p0 p1 p2) := by
  intro k
  induction k with
  | zero => intros; exact Le.none _
  | succ k ih =>
    intro first middle p0 p1 p2
    rw [mergeRightLoopF, mergeRightLoop]
    repeat' (first | with_reducible exact Le.refl _ | apply ih | with_reducible refine Le.bind ?_ (fun _ => ?_) | with_reducible refine Le.ite ?_ ?_ | apply Le.embed | split | dsimp only | (exfalso; simp_all; done))

/-- Copy of `mergeRightLast` with bounded recursion. -/
def mergeRightLastF (k : Nat) (middle p0 p1 p2 : Nat) : M α (Nat × Nat) :=
  match k with
  | 0 => noFuel
  | k + 1 => do
    if ← orGreater cmp (p2 < middle) p1 p2 then pure (p0, p2)
    else
      swap p0 p2
      mergeRightLastF k middle (p0 - 1) p1 (p2 - 1)
termination_by structural k

theorem mergeRightLastF_le : ∀ (k : Nat) (middle p0 p1 p2 : Nat), Le (α := α) (mergeRightLastF cmp k middle p0 p1 p2) (mergeRightLast cmp middle p0 p1 p2) := by
  intro k
  induction k with
  | zero => intros; exact Le.none _
  | succ k ih =>
    intro middle p0 p1 p2
    rw [mergeRightLastF, mergeRightLast]
    repeat' (first | with_reducible exact Le.refl _ | apply ih | with_reducible refine Le.bind ?_ (fun _ => ?_) | with_reducible refine Le.ite ?_ ?_ | apply Le.embed | split | dsimp only | (exfalso; simp_all; done))

/-- Copy of `mergeRightFirst` with bounded recursion. -/
def mergeRightFirstF (k : Nat) (first middle p0 p1 p2 : Nat) : M α (Nat × Nat) := do
  if p1 = first then
    let (p0, p2) ← mergeRightLastF cmp k middle p0 p1 p2
    swap p0 p1
    pure (p0 - 1, p2)
  else pure (p0, p2)

theorem mergeRightFirstF_le : ∀ (k : Nat) (first middle p0 p1 p2 : Nat), Le (α := α) (mergeRightFirstF cmp k first middle p0 p1 p2) (mergeRightFirst cmp first middle p0 p1 p2) := by
  intro k first middle p0 p1 p2
  unfold mergeRightFirstF mergeRightFirst
  repeat' (first | with_reducible exact Le.refl _ | apply mergeRightLastF_le | with_reducible refine Le.bind ?_ (fun _ => ?_) | with_reducible refine Le.ite ?_ ?_ | apply Le.embed | split | dsimp only | (exfalso; simp_all; done))

end

section
variable {δ : Type}

/-- Copy of `mergeRightRest` with bounded recursion. -/
def mergeRightRestF (k : Nat) (middle p0 p2 : Nat) : M α Unit :=
  match k with
  | 0 => noFuel
  | k + 1 => do
    if middle < p2 then
      swap p0 p2
      mergeRightRestF k middle (p0 - 1) (p2 - 1)
    else if p2 = middle then swap p0 p2
    else pure ()
termination_by structural k

theorem mergeRightRestF_le : ∀ (k : Nat) (middle p0 p2 : Nat), Le (α := α) (mergeRightRestF k middle p0 p2) (mergeRightRest middle p0 p2) := by
  intro k
  induction k with
  | zero => intros; exact Le.none _
  | succ k ih =>
    intro middle p0 p2
    rw [mergeRightRestF, mergeRightRest]
    repeat' (first | with_reducible exact Le.refl _ | apply ih | with_reducible refine Le.bind ?_ (fun _ => ?_) | with_reducible refine Le.ite ?_ ?_ | apply Le.embed | split | dsimp only | (exfalso; simp_all; done))

end

section
variable (cmp : α → α → M α Bool)

/-- Copy of `mergeRight` with bounded recursion. -/
def mergeRightF (k : Nat) (first middle last out : Nat) : M α Unit := do
  let (p0, p1, p2) ← mergeRightLoopF cmp k first middle (out - 1) (middle - 1) (last - 1)
  let (p0, p2) ← mergeRightFirstF cmp k first middle p0 p1 p2
  if p2 ≠ p0 then mergeRightRestF k middle p0 p2 else pure ()

theorem mergeRightF_le : ∀ (k : Nat) (first middle last out : Nat), Le (α := α) (mergeRightF cmp k first middle last out) (mergeRight cmp first middle last out) := by
  intro k first middle last out
  unfold mergeRightF mergeRight
  repeat' (first | with_reducible exact Le.refl _ | apply mergeRightLoopF_le | apply mergeRightFirstF_le | apply mergeRightRestF_le | with_reducible refine Le.bind ?_ (fun _ => ?_) | with_reducible refine Le.ite ?_ ?_ | apply Le.embed | split | dsimp only | (exfalso; simp_all; done))

/-- Copy of `buildPairs` with bounded recursion. -/
def buildPairsF (k : Nat) (put : Nat → Nat → M α Unit) (first size m : Nat) : M α Unit :=
  match k with
  | 0 => noFuel
  | k + 1 => do
    if m < size then
      let r ← grailCmp3At cmp (first + (m - 1)) (first + m)
      let u := if r > 0 then 1 else 0
      put (first + m - 3) (first + (m - 1 + u))
      put (first + m - 2) (first + (m - u))
      buildPairsF k put first size (m + 2)
    else if size % 2 = 1 then put (first + size - 3) (first + size - 1)
    else pure ()
termination_by structural k

theorem buildPairsF_le : ∀ (k : Nat) (put : Nat → Nat → M α Unit) (first size m : Nat), Le (α := α) (buildPairsF cmp k put first size m) (buildPairs cmp put first size m) := by
  intro k
  induction k with
  | zero => intros; exact Le.none _
  | succ k ih =>
    intro put first size m
    rw [buildPairsF, buildPairs]
    repeat' (first | with_reducible exact Le.refl _ | apply ih | with_reducible refine Le.bind ?_ (fun _ => ?_) | with_reducible refine Le.ite ?_ ?_ | apply Le.embed | split | dsimp only | (exfalso; simp_all; done))

/-- Copy of `buildPass` with bounded recursion. -/
def buildPassF (k : Nat) (put : Nat → Nat → M α Unit) (tail : Nat → M α Unit) (h last p0 : Nat) : M α Unit :=
  match k with
  | 0 => noFuel
  | k + 1 => do
    if p0 + 2 * h ≤ last then
      mergeLeftF cmp put k p0 (p0 + h) (p0 + (h + h)) (p0 - h)
      buildPassF k put tail h last (p0 + 2 * h)
    else if h < last - p0 then mergeLeftF cmp put k p0 (p0 + h) last (p0 - h)
    else tail p0
termination_by structural k

theorem buildPassF_le : ∀ (k : Nat) (put : Nat → Nat → M α Unit) (tail : Nat → M α Unit) (h last p0 : Nat), Le (α := α) (buildPassF cmp k put tail h last p0) (buildPass cmp put tail h last p0) := by
  intro k
  induction k with
  | zero => intros; exact Le.none _
  | succ k ih =>
    intro put tail h last p0
    rw [buildPassF, buildPass]
    repeat' (first | with_reducible exact Le.refl _ | apply ih | apply mergeLeftF_le | with_reducible refine Le.bind ?_ (fun _ => ?_) | with_reducible refine Le.ite ?_ ?_ | apply Le.embed | split | dsimp only | (exfalso; simp_all; done))

/-- Copy of `buildPasses` with bounded recursion. -/
def buildPassesF (k : Nat) (put : Nat → Nat → M α Unit) (tail : Nat → Nat → Nat → M α Unit) (limit h first last : Nat) : M α (Nat × Nat × Nat) :=
  match k with
  | 0 => noFuel
  | k + 1 => do
    if h < limit then
      buildPassF cmp k put (tail h last) h last first
      buildPassesF k put tail limit (h * 2) (first - h) (last - h)
    else pure (h, first, last)
termination_by structural k

theorem buildPassesF_le : ∀ (k : Nat) (put : Nat → Nat → M α Unit) (tail : Nat → Nat → Nat → M α Unit) (limit h first last : Nat), Le (α := α) (buildPassesF cmp k put tail limit h first last) (buildPasses cmp put tail limit h first last) := by
  intro k
  induction k with
  | zero => intros; exact Le.none _
  | succ k ih =>
    intro put tail limit h first last
    rw [buildPassesF, buildPasses]
    repeat' (first | with_reducible exact Le.refl _ | apply ih | apply buildPassF_le | with_reducible refine Le.bind ?_ (fun _ => ?_) | with_reducible refine Le.ite ?_ ?_ | apply Le.embed | split | dsimp only | (exfalso; simp_all; done))

/-- Copy of `buildRights` with bounded recursion. -/
def buildRightsF (k : Nat) (K first p : Nat) : M α Unit :=
  match k with
  | 0 => noFuel
  | k + 1 => do
    if first < p then
      mergeRightF cmp k (p - 2 * K) (p - 2 * K + K) (p - 2 * K + (K + K)) (p - 2 * K + (K + K + K))
      buildRightsF k K first (p - 2 * K)
    else pure ()
termination_by structural k

theorem buildRightsF_le : ∀ (k : Nat) (K first p : Nat), Le (α := α) (buildRightsF cmp k K first p) (buildRights cmp K first p) := by
  intro k
  induction k with
  | zero => intros; exact Le.none _
  | succ k ih =>
    intro K first p
    rw [buildRightsF, buildRights]
    repeat' (first | with_reducible exact Le.refl _ | apply ih | apply mergeRightF_le | with_reducible refine Le.bind ?_ (fun _ => ?_) | with_reducible refine Le.ite ?_ ?_ | apply Le.embed | split | dsimp only | (exfalso; simp_all; done))

end

section
variable {δ : Type}

/-- Copy of `buildKbuf` with bounded recursion. -/
def buildKbufF (k : Nat) (n : Nat) : M α Nat :=
  match k with
  | 0 => noFuel
  | k + 1 => do
    if n &&& (n - 1) ≠ 0 then buildKbufF k (n &&& (n - 1)) else pure n
termination_by structural k

theorem buildKbufF_le : ∀ (k : Nat) (n : Nat), Le (α := α) (buildKbufF k n) (buildKbuf n) := by
  intro k
  induction k with
  | zero => intros; exact Le.none _
  | succ k ih =>
    intro n
    rw [buildKbufF, buildKbuf]
    repeat' (first | with_reducible exact Le.refl _ | apply ih | with_reducible refine Le.bind ?_ (fun _ => ?_) | with_reducible refine Le.ite ?_ ?_ | apply Le.embed | split | dsimp only | (exfalso; simp_all; done))

end

section
variable (cmp : α → α → M α Bool)

/-- Copy of `buildStart` with bounded recursion. -/
def buildStartF (k : Nat) (first last kbuf extbuf : Nat) : M α (Nat × Nat × Nat) := do
  if kbuf ≠ 0 then
    putRangeF moveTo k (first - kbuf) first extbuf
    buildPairsF cmp k moveTo first (last - first) 1
    let r ← buildPassesF cmp k moveTo (fun h last p0 => putRange moveTo p0 last (p0 - h)) kbuf 2 (first - 2) (last - 2)
    putRangeF moveTo k extbuf (extbuf + kbuf) r.2.2
    pure r
  else
    buildPairsF cmp k swap first (last - first) 1
    pure (2, first - 2, last - 2)

theorem buildStartF_le : ∀ (k : Nat) (first last kbuf extbuf : Nat), Le (α := α) (buildStartF cmp k first last kbuf extbuf) (buildStart cmp first last kbuf extbuf) := by
  intro k first last kbuf extbuf
  unfold buildStartF buildStart
  repeat' (first | with_reducible exact Le.refl _ | apply putRangeF_le | apply buildPairsF_le | apply buildPassesF_le | with_reducible refine Le.bind ?_ (fun _ => ?_) | with_reducible refine Le.ite ?_ ?_ | apply Le.embed | split | dsimp only | (exfalso; simp_all; done))

end

section
variable (cmp : α → α → M α Bool) (c : Cfg)

/-- Copy of `buildBlocks` with bounded recursion. -/
def buildBlocksF (k : Nat) (first last K extbuf LExtBuf : Nat) : M α Unit := do
  let kbuf ← buildKbufF k (min K LExtBuf)
  let (h, f, l) ← buildStartF cmp k first last kbuf extbuf
  let (_, f, l) ← buildPassesF cmp k swap
    (fun h last p0 => do let _ ← rotate c (p0 - h) p0 last; pure ()) K h f l
  buildLast cmp c K l ((last - first) % (2 * K))
  buildRightsF cmp k K f (l - (last - first) % (2 * K))

theorem buildBlocksF_le : ∀ (k : Nat) (first last K extbuf LExtBuf : Nat), Le (α := α) (buildBlocksF cmp c k first last K extbuf LExtBuf) (buildBlocks cmp c first last K extbuf LExtBuf) := by
  intro k first last K extbuf LExtBuf
  unfold buildBlocksF buildBlocks
  repeat' (first | with_reducible exact Le.refl _ | apply buildPassesF_le | apply buildRightsF_le | apply buildKbufF_le | apply buildStartF_le | with_reducible refine Le.bind ?_ (fun _ => ?_) | with_reducible refine Le.ite ?_ ?_ | apply Le.embed | split | dsimp only | (exfalso; simp_all; done))

end

section
variable {δ : Type}

/-- Copy of `grailBlockLen` with bounded recursion. -/
def grailBlockLenF (k : Nat) (size lblock : Nat) : M α Nat :=
  match k with
  | 0 => noFuel
  | k + 1 => do
    if lblock * lblock < size then grailBlockLenF k size (lblock * 2) else pure lblock
termination_by structural k

theorem grailBlockLenF_le : ∀ (k : Nat) (size lblock : Nat), Le (α := α) (grailBlockLenF k size lblock) (grailBlockLen size lblock) := by
  intro k
  induction k with
  | zero => intros; exact Le.none _
  | succ k ih =>
    intro size lblock
    rw [grailBlockLenF, grailBlockLen]
    repeat' (first | with_reducible exact Le.refl _ | apply ih | with_reducible refine Le.bind ?_ (fun _ => ?_) | with_reducible refine Le.ite ?_ ?_ | apply Le.embed | split | dsimp only | (exfalso; simp_all; done))

end

section
variable (cmp : α → α → M α Bool) (c : Cfg)

/-- Copy of `grailWithKeys` with bounded recursion. -/
def grailWithKeysF (k : Nat) (havebuf : Bool) (lblock nkeys found first last extbuf LExtBuf : Nat) : M α Unit := do
  let ptr := first + (lblock + nkeys)
  let cbuf := if havebuf then lblock else nkeys
  buildBlocksF cmp c k ptr last cbuf extbuf (if havebuf then LExtBuf else 0)
  grailCombine cmp c havebuf lblock nkeys found first ptr last extbuf LExtBuf cbuf
  insertionSort cmp first ptr
  mergeWithoutBuffer cmp c first ptr last

theorem grailWithKeysF_le : ∀ (k : Nat) (havebuf : Bool) (lblock nkeys found first last extbuf LExtBuf : Nat), Le (α := α) (grailWithKeysF cmp c k havebuf lblock nkeys found first last extbuf LExtBuf) (grailWithKeys cmp c havebuf lblock nkeys found first last extbuf LExtBuf) := by
  intro k havebuf lblock nkeys found first last extbuf LExtBuf
  unfold grailWithKeysF grailWithKeys
  repeat' (first | with_reducible exact Le.refl _ | apply buildBlocksF_le | with_reducible refine Le.bind ?_ (fun _ => ?_) | with_reducible refine Le.ite ?_ ?_ | apply Le.embed | split | dsimp only | (exfalso; simp_all; done))

/-- Copy of `commonSort` with bounded recursion. -/
def commonSortF (k : Nat) (first last extbuf LExtBuf : Nat) : M α Unit := do
  if last - first < 16 then insertionSort cmp first last
  else
    let lblock ← grailBlockLenF k (last - first) 4
    let nkeys := (last - first - 1) / lblock + 1
    let found ← findKeysF cmp c k first last (nkeys + lblock)
    if found < nkeys + lblock then
      if found < 4 then lazyStableSort cmp c first last
      else
        let nkeys ← grailKeyCount found lblock
        grailWithKeysF cmp c k false 0 nkeys found first last extbuf LExtBuf
    else grailWithKeysF cmp c k true lblock nkeys found first last extbuf LExtBuf

theorem commonSortF_le : ∀ (k : Nat) (first last extbuf LExtBuf : Nat), Le (α := α) (commonSortF cmp c k first last extbuf LExtBuf) (commonSort cmp c first last extbuf LExtBuf) := by
  intro k first last extbuf LExtBuf
  unfold commonSortF commonSort
  repeat' (first | with_reducible exact Le.refl _ | apply findKeysF_le | apply grailBlockLenF_le | apply grailWithKeysF_le | with_reducible refine Le.bind ?_ (fun _ => ?_) | with_reducible refine Le.ite ?_ ?_ | apply Le.embed | split | dsimp only | (exfalso; simp_all; done))

/-- Copy of `grailSort` with bounded recursion. -/
def grailSortF (k : Nat) (size : Nat → Nat) (first last : Nat) : M α Unit := do
  let n := size (last - first)
  let buf ← newObjects n
  commonSortF cmp c k first last buf n
  destroyN buf n
  free buf n

theorem grailSortF_le : ∀ (k : Nat) (size : Nat → Nat) (first last : Nat), Le (α := α) (grailSortF cmp c k size first last) (grailSort cmp c size first last) := by
  intro k size first last
  unfold grailSortF grailSort
  repeat' (first | with_reducible exact Le.refl _ | apply commonSortF_le | with_reducible refine Le.bind ?_ (fun _ => ?_) | with_reducible refine Le.ite ?_ ?_ | apply Le.embed | split | dsimp only | (exfalso; simp_all; done))

end

end CppSort
