import Verif.Model.FixedSize
import Verif.Proof.NetExec
/-
A checker for the decision programs of `low_comparisons_sorter`: it follows all executions at once,
keeping the pairs of positions known to be in order, and is sound for every strict weak order.
-/
set_option autoImplicit false

namespace CppSort
variable {α : Type} {lt : α → α → Bool}

/-- A table of known order facts between positions, one bit mask per position. -/
abbrev Rel := List Nat

def Rel.row (R : Rel) (p : Nat) : Nat := R.getD p 0

/-- `first[p]` is known not to be greater than `first[q]`. -/
def Rel.le (R : Rel) (p q : Nat) : Bool := (R.row p).testBit q

def Rel.tab (n : Nat) (g : Nat → Nat) : Rel := (List.range n).map g

theorem Rel.le_tab {n : Nat} {g : Nat → Nat} {p q : Nat} (h : (Rel.tab n g).le p q = true) :
    (g p).testBit q = true := by
  unfold Rel.le Rel.row Rel.tab at h
  rw [List.getD_eq_getElem?_getD, List.getElem?_map] at h
  by_cases hp : p < n
  · rw [List.getElem?_range hp] at h; exact h
  · rw [List.getElem?_eq_none (by simpa using hp)] at h
    simp at h

/-- The facts of `R` hold of the elements `v` from `f` on. -/
def Know (lt : α → α → Bool) (f : Nat) (v : Nat → α) (R : Rel) : Prop :=
  ∀ p q, R.le p q = true → lt (v (f + q)) (v (f + p)) = false

/-- Learn that position `a` is not greater than position `b`. -/
def Rel.add (n : Nat) (R : Rel) (a b : Nat) : Rel :=
  Rel.tab n fun p => if R.le p a then R.row p ||| R.row b else R.row p

/-- Exchange two bits. -/
def swapBits (a b m : Nat) : Nat :=
  if m.testBit a = m.testBit b then m else m ^^^ (2 ^ a) ^^^ (2 ^ b)

theorem swapBits_testBit (a b m k : Nat) :
    (swapBits a b m).testBit k = m.testBit (if k = a then b else if k = b then a else k) := by
  unfold swapBits
  split
  · rename_i h
    split_ifs with h1 h2
    · rw [h1, h]
    · rw [h2, h]
    · rfl
  · rename_i h
    rw [Nat.testBit_xor, Nat.testBit_xor, Nat.testBit_two_pow, Nat.testBit_two_pow]
    have hab : a ≠ b := fun e => h (by rw [e])
    split_ifs with h1 h2
    · subst h1
      have : ¬ b = k := fun e => hab e.symm
      cases e1 : m.testBit k <;> cases e2 : m.testBit b <;> simp_all
    · subst h2
      cases e1 : m.testBit a <;> cases e2 : m.testBit k <;> simp_all
    · have : ¬ a = k := fun e => h1 e.symm
      have : ¬ b = k := fun e => h2 e.symm
      simp [*]

/-- Exchange the positions `a` and `b`. -/
def Rel.swap (n : Nat) (R : Rel) (a b : Nat) : Rel :=
  Rel.tab n fun p => swapBits a b (R.row (if p = a then b else if p = b then a else p))

/-- Facts common to both tables. -/
def Rel.meet (n : Nat) (R R' : Rel) : Rel := Rel.tab n fun p => R.row p &&& R'.row p

theorem Know.add (hlt : StrictWeak lt) {f n a b : Nat} {v : Nat → α} {R : Rel} (h : Know lt f v R)
    (hab : lt (v (f + b)) (v (f + a)) = false) : Know lt f v (R.add n a b) := by
  intro p q hpq
  have := Rel.le_tab hpq
  split at this
  · rename_i h1
    rw [Nat.testBit_or, Bool.or_eq_true] at this
    rcases this with h2 | h2
    · exact h p q h2
    · exact hlt.le_trans (hlt.le_trans (h _ _ h1) hab) (h _ _ h2)
  · exact h p q this

theorem Know.swap {f n a b : Nat} {v : Nat → α} {R : Rel} (h : Know lt f v R) :
    Know lt f (swp v (f + a) (f + b)) (R.swap n a b) := by
  intro p q hpq
  have h1 := Rel.le_tab hpq
  rw [swapBits_testBit] at h1
  have := h _ _ h1
  have key : ∀ k, swp v (f + a) (f + b) (f + k) =
      v (f + (if k = a then b else if k = b then a else k)) := by
    intro k
    split_ifs with h3 h2
    · rw [swp_l (by omega)]
    · rw [swp_r (by omega)]
    · rw [swp_o (by omega) (by omega)]
  rw [key, key]
  exact this

theorem Know.left {f n : Nat} {v : Nat → α} {R R' : Rel} (h : Know lt f v R) :
    Know lt f v (R.meet n R') := by
  intro p q hpq
  have := Rel.le_tab hpq
  rw [Nat.testBit_and, Bool.and_eq_true] at this
  exact h _ _ this.1

theorem Know.right {f n : Nat} {v : Nat → α} {R R' : Rel} (h : Know lt f v R') :
    Know lt f v (R.meet n R') := by
  intro p q hpq
  have := Rel.le_tab hpq
  rw [Nat.testBit_and, Bool.and_eq_true] at this
  exact h _ _ this.2

/-- Facts and number of comparisons, `none` for an outcome that does not occur. -/
abbrev AS := Option (Rel × Nat)

def AS.join (n : Nat) : AS → AS → AS
  | none, x => x
  | some a, none => some a
  | some a, some b => some (a.1.meet n b.1, max a.2 b.2)

/-- The facts along a move chain. -/
def absChain (n : Nat) (R : Rel) : Nat → List Nat → Rel
  | _, [] => R
  | h, c :: cs => absChain n (R.swap n h c) c cs

/-- Are the positions inside the range and consecutive ones different? -/
def okChain (n : Nat) : Nat → List Nat → Bool
  | h, [] => decide (h < n)
  | h, c :: cs => decide (h < n) && decide (c ≠ h) && okChain n c cs

def absCycle (n : Nat) (R : Rel) : List Nat → Option Rel
  | [] => some R
  | c :: cs => if okChain n c cs then some (absChain n R c cs) else none

/-- Follow all executions: facts and comparisons when the body completes, and when it returns. -/
def DP.abs (n : Nat) : DP → Nat → Rel → Nat → Option (AS × AS)
  | .nop, _, R, c => some (some (R, c), none)
  | .stop, _, R, c => some (none, some (R, c))
  | .cswap i j, off, R, c =>
    if off + i < n ∧ off + j < n then
      some (some ((((R.add n (off + j) (off + i)).swap n (off + i) (off + j)).meet n
        (R.add n (off + i) (off + j))), c + 1), none)
    else none
  | .swap i j, off, R, c =>
    if off + i < n ∧ off + j < n then some (some (R.swap n (off + i) (off + j), c), none) else none
  | .rotR m i, off, R, c =>
    (absCycle n R ((List.range' i m).reverse.map (off + ·))).map fun R' => (some (R', c), none)
  | .rotL m i, off, R, c =>
    (absCycle n R ((List.range' i m).map (off + ·))).map fun R' => (some (R', c), none)
  | .cyc cs, off, R, c =>
    (absCycle n R (cs.map (off + ·))).map fun R' => (some (R', c), none)
  | .ite i j t e, off, R, c =>
    if off + i < n ∧ off + j < n then
      match t.abs n off (R.add n (off + i) (off + j)) (c + 1) with
      | none => none
      | some (a, b) =>
        match e.abs n off (R.add n (off + j) (off + i)) (c + 1) with
        | none => none
        | some (a', b') => some (a.join n a', b.join n b')
    else none
  | .seq p q, off, R, c =>
    match p.abs n off R c with
    | none => none
    | some (none, b) => some (none, b)
    | some (some (R', c'), b) =>
      match q.abs n off R' c' with
      | none => none
      | some (a', b') => some (a', b.join n b')
  | .catch p q, off, R, c =>
    match p.abs n off R c with
    | none => none
    | some (none, b) => some (b, none)
    | some (some (R', c'), b) =>
      match q.abs n off R' c' with
      | none => none
      | some (a', b') => some (b.join n a', b')
  | .call k p, off, R, c =>
    match p.abs n (off + k) R c with
    | none => none
    | some (a, b) => some (a.join n b, none)

/-- The elements `v` after `k` comparisons are described by the outcome. -/
def AS.Has (lt : α → α → Bool) (f : Nat) (v : Nat → α) (k0 k : Nat) : AS → Prop
  | none => False
  | some (R, c) => Know lt f v R ∧ k ≤ k0 + c

theorem AS.Has.left {f n k0 k : Nat} {v : Nat → α} {a b : AS} (h : a.Has lt f v k0 k) :
    (a.join n b).Has lt f v k0 k := by
  cases a with
  | none => cases h
  | some a => cases b with
    | none => exact h
    | some b => exact ⟨h.1.left, le_trans h.2 (Nat.add_le_add_left (le_max_left _ _) _)⟩

theorem AS.Has.right {f n k0 k : Nat} {v : Nat → α} {a b : AS} (h : b.Has lt f v k0 k) :
    (a.join n b).Has lt f v k0 k := by
  cases b with
  | none => cases h
  | some b => cases a with
    | none => exact h
    | some a => exact ⟨h.1.right, le_trans h.2 (Nat.add_le_add_left (le_max_right _ _) _)⟩

theorem moveChain_spec {f n : Nat} (off : Nat) : ∀ (cs : List Nat) (h : Nat) {s : St α}
    {v : Nat → α} {R : Rel}, HoldsX s.cell f (f + n) (f + (off + h)) v → Know lt f v R →
    okChain n (off + h) (cs.map (off + ·)) = true →
    wp (moveChain (f + off) h cs) (fun r s' => ∃ v', HoldsX s'.cell f (f + n) (f + (off + r)) v' ∧
      PermOn f (f + n) v v' ∧ Frame f (f + n) s s' ∧ s'.cmps = s.cmps ∧ v' (f + (off + r)) =
      v (f + (off + h)) ∧
      Know lt f v' (absChain n R (off + h) (cs.map (off + ·)))) s := by
  intro cs
  induction cs with
  | nil =>
    intro h s v R hx hk _
    exact wp_pure ⟨v, hx, PermOn.refl _ _ _, Frame.refl _ _ _, rfl, rfl, hk⟩
  | cons c cs ih =>
    intro h s v R hx hk hok
    simp only [List.map_cons, okChain, Bool.and_eq_true, decide_eq_true_eq] at hok
    obtain ⟨⟨h1, h2⟩, h3⟩ := hok
    have hc : off + c < n := by
      cases cs with
      | nil => simpa [okChain] using h3
      | cons d ds =>
        simp only [List.map_cons, okChain, Bool.and_eq_true, decide_eq_true_eq] at h3
        exact h3.1.1
    rw [moveChain]
    apply wp_bind
    rw [Nat.add_assoc f off h, Nat.add_assoc f off c]
    refine wp_moveTo hx (by omega) (by omega) (by omega) fun s1 hx1 hf1 hc1 _ => ?_
    refine wp_mono (ih c hx1 (hk.swap (n := n)) h3) ?_
    rintro r s2 ⟨v', a1, a2, a3, a4, a5, a6⟩
    refine ⟨v', a1, (PermOn.swp ⟨by omega, by omega⟩ ⟨by omega, by omega⟩).trans a2, hf1.trans a3,
      by omega, ?_, a6⟩
    rw [a5, swp_r rfl]

theorem cycleMoves_spec {f n : Nat} (off : Nat) (cs : List Nat) {s : St α}
    {v : Nat → α} {R R' : Rel} (hh : Holds s.cell f (f + n) v) (hk : Know lt f v R)
    (ha : absCycle n R (cs.map (off + ·)) = some R') :
    wp (cycleMoves (f + off) cs) (fun _ s' => ∃ v', Upd f (f + n) s s' v v' ∧ s'.cmps = s.cmps ∧
      Know lt f v' R') s := by
  cases cs with
  | nil =>
    cases ha
    exact wp_pure ⟨v, Upd.refl hh, rfl, hk⟩
  | cons c cs =>
    simp only [List.map_cons, absCycle] at ha
    split at ha
    · rename_i hok
      cases ha
      have hc : off + c < n := by
        cases cs with
        | nil => simpa [okChain] using hok
        | cons d ds =>
          simp only [List.map_cons, okChain, Bool.and_eq_true, decide_eq_true_eq] at hok
          exact hok.1.1
      unfold cycleMoves
      apply wp_bind
      rw [Nat.add_assoc f off c]
      refine wp_moveOut hh (by omega) (by omega) fun s1 hx1 hf1 hc1 _ => ?_
      apply wp_bind
      refine wp_mono (moveChain_spec (lt := lt) off cs c hx1 hk hok) ?_
      rintro r s2 ⟨v', a1, a2, a3, a4, a5, a6⟩
      rw [Nat.add_assoc f off r]
      refine wp_assign a1 a5.symm fun s3 h3 f3 c3 _ => ?_
      exact ⟨v', ⟨h3, a2, (hf1.trans a3).trans f3⟩, by omega, a6⟩
    · cases ha

/-- Soundness of the checker. -/
theorem DP.exec_spec (hlt : StrictWeak lt) {f n k0 : Nat} : ∀ (p : DP) (off : Nat) {R : Rel}
    {c : Nat} {out : AS × AS}, p.abs n off R c = some out → ∀ {s : St α} {v : Nat → α},
    Holds s.cell f (f + n) v → Know lt f v R → s.cmps ≤ k0 + c →
    wp (p.exec (tick lt) (f + off)) (fun r s' => ∃ v', Upd f (f + n) s s' v v' ∧
      (if r then out.2 else out.1).Has lt f v' k0 s'.cmps) s := by
  intro p
  induction p with
  | nop =>
    intro off R c out ha s v hh hk hc
    cases ha
    exact wp_pure ⟨v, Upd.refl hh, hk, hc⟩
  | stop =>
    intro off R c out ha s v hh hk hc
    cases ha
    exact wp_pure ⟨v, Upd.refl hh, hk, hc⟩
  | cswap i j =>
    intro off R c out ha s v hh hk hc
    simp only [DP.abs] at ha
    split at ha
    · rename_i hb
      cases ha
      rw [DP.exec]
      apply wp_bind
      rw [Nat.add_assoc f off i, Nat.add_assoc f off j]
      refine wp_mono (iterSwapIf_ce hlt hh ⟨by omega, by omega⟩ ⟨by omega, by omega⟩) ?_
      rintro _ s1 ⟨hu, hc1, _⟩
      refine wp_pure ⟨_, hu, ?_, by omega⟩
      unfold ce
      split
      · rename_i hl
        exact ((hk.add hlt (hlt.asymm hl)).swap).left
      · rename_i hl
        exact (hk.add hlt (by simpa using hl)).right
    · cases ha
  | swap i j =>
    intro off R c out ha s v hh hk hc
    simp only [DP.abs] at ha
    split at ha
    · rename_i hb
      cases ha
      rw [DP.exec]
      apply wp_bind
      rw [Nat.add_assoc f off i, Nat.add_assoc f off j]
      refine wp_swap_c hh ⟨by omega, by omega⟩ ⟨by omega, by omega⟩ fun s1 hu hc1 _ => ?_
      exact wp_pure ⟨_, hu, hk.swap, by omega⟩
    · cases ha
  | rotR m i =>
    intro off R c out ha s v hh hk hc
    simp only [DP.abs] at ha
    rw [Option.map_eq_some_iff] at ha
    obtain ⟨R', ha, rfl⟩ := ha
    rw [DP.exec]
    apply wp_bind
    refine wp_mono (cycleMoves_spec off _ hh hk ha) ?_
    rintro _ s1 ⟨v', hu, hc1, hk1⟩
    exact wp_pure ⟨_, hu, hk1, by omega⟩
  | rotL m i =>
    intro off R c out ha s v hh hk hc
    simp only [DP.abs] at ha
    rw [Option.map_eq_some_iff] at ha
    obtain ⟨R', ha, rfl⟩ := ha
    rw [DP.exec]
    apply wp_bind
    refine wp_mono (cycleMoves_spec off _ hh hk ha) ?_
    rintro _ s1 ⟨v', hu, hc1, hk1⟩
    exact wp_pure ⟨_, hu, hk1, by omega⟩
  | cyc cs =>
    intro off R c out ha s v hh hk hc
    simp only [DP.abs] at ha
    rw [Option.map_eq_some_iff] at ha
    obtain ⟨R', ha, rfl⟩ := ha
    rw [DP.exec]
    apply wp_bind
    refine wp_mono (cycleMoves_spec off _ hh hk ha) ?_
    rintro _ s1 ⟨v', hu, hc1, hk1⟩
    exact wp_pure ⟨_, hu, hk1, by omega⟩
  | ite i j t e iht ihe =>
    intro off R c out ha s v hh hk hc
    simp only [DP.abs] at ha
    split at ha
    · rename_i hb
      split at ha
      · cases ha
      · rename_i a b ht
        split at ha
        · cases ha
        · rename_i a' b' he
          cases ha
          rw [DP.exec]
          simp only [Nat.add_assoc f off]
          wread hh
          wread hh
          wtick
          split
          · rename_i hl
            refine wp_mono (iht off ht (s := {s with cmps := s.cmps + 1}) hh
              (hk.add hlt (hlt.asymm hl)) (by show s.cmps + 1 ≤ _; omega)) ?_
            rintro r s1 ⟨v', hu, hr⟩
            refine ⟨v', hu.tick, ?_⟩
            cases r
            · exact AS.Has.left hr
            · exact AS.Has.left hr
          · rename_i hl
            refine wp_mono (ihe off he (s := {s with cmps := s.cmps + 1}) hh
              (hk.add hlt (by simpa using hl)) (by show s.cmps + 1 ≤ _; omega)) ?_
            rintro r s1 ⟨v', hu, hr⟩
            refine ⟨v', hu.tick, ?_⟩
            cases r
            · exact AS.Has.right hr
            · exact AS.Has.right hr
    · cases ha
  | seq p q ihp ihq =>
    intro off R c out ha s v hh hk hc
    simp only [DP.abs] at ha
    rw [DP.exec]
    apply wp_bind
    split at ha
    · cases ha
    · rename_i b hp
      cases ha
      refine wp_mono (ihp off hp hh hk hc) ?_
      rintro r s1 ⟨v', hu, hr⟩
      cases r
      · cases hr
      · exact wp_pure ⟨v', hu, hr⟩
    · rename_i R' c' b hp
      split at ha
      · cases ha
      · rename_i a' b' hq
        cases ha
        refine wp_mono (ihp off hp hh hk hc) ?_
        rintro r s1 ⟨v', hu, hr⟩
        cases r
        · refine wp_mono (ihq off hq hu.holds hr.1 hr.2) ?_
          rintro r2 s2 ⟨v2, hu2, hr2⟩
          refine ⟨v2, hu.trans hu2, ?_⟩
          cases r2
          · exact hr2
          · exact AS.Has.right hr2
        · exact wp_pure ⟨v', hu, AS.Has.left hr⟩
  | «catch» p q ihp ihq =>
    intro off R c out ha s v hh hk hc
    simp only [DP.abs] at ha
    rw [DP.exec]
    apply wp_bind
    split at ha
    · cases ha
    · rename_i b hp
      cases ha
      refine wp_mono (ihp off hp hh hk hc) ?_
      rintro r s1 ⟨v', hu, hr⟩
      cases r
      · cases hr
      · exact wp_pure ⟨v', hu, hr⟩
    · rename_i R' c' b hp
      split at ha
      · cases ha
      · rename_i a' b' hq
        cases ha
        refine wp_mono (ihp off hp hh hk hc) ?_
        rintro r s1 ⟨v', hu, hr⟩
        cases r
        · refine wp_mono (ihq off hq hu.holds hr.1 hr.2) ?_
          rintro r2 s2 ⟨v2, hu2, hr2⟩
          refine ⟨v2, hu.trans hu2, ?_⟩
          cases r2
          · exact AS.Has.right hr2
          · exact hr2
        · exact wp_pure ⟨v', hu, AS.Has.left hr⟩
  | call k p ih =>
    intro off R c out ha s v hh hk hc
    simp only [DP.abs] at ha
    split at ha
    · cases ha
    · rename_i a b hp
      cases ha
      rw [DP.exec]
      apply wp_bind
      rw [Nat.add_assoc f off k]
      refine wp_mono (ih (off + k) hp hh hk hc) ?_
      rintro r s1 ⟨v', hu, hr⟩
      refine wp_pure ⟨v', hu, ?_⟩
      cases r
      · exact AS.Has.left hr
      · exact AS.Has.right hr

/-- Does the outcome guarantee a sorted range within `k` comparisons? -/
def AS.good (n k : Nat) : AS → Bool
  | none => true
  | some (R, c) => decide (c ≤ k) && (List.range (n - 1)).all fun i => R.le i (i + 1)

/-- Does the program sort `n` elements with at most `k` comparisons, starting from reflexivity only? -/
def DP.check (p : DP) (n k : Nat) : Bool :=
  match p.abs n 0 (Rel.tab n fun i => 2 ^ i) 0 with
  | none => false
  | some (a, b) => a.good n k && b.good n k

theorem AS.good_spec (hlt : StrictWeak lt) {n k f k0 c : Nat} {a : AS} {v : Nat → α}
    (hg : a.good n k = true) (h : a.Has lt f v k0 c) : SortedOn lt f (f + n) v ∧ c ≤ k0 + k := by
  cases a with
  | none => cases h
  | some a =>
    simp only [AS.good, Bool.and_eq_true, decide_eq_true_eq, List.all_eq_true, List.mem_range] at hg
    have h1 := h.1
    have h2 := h.2
    refine ⟨SortedOn.of_adjacent hlt fun i hi hl => ?_, by omega⟩
    have := h1 _ _ (hg.2 (i - f) (by omega))
    have e1 : f + (i - f) = i := by omega
    have e2 : f + (i - f + 1) = i + 1 := by omega
    rwa [e1, e2] at this

theorem DP.check_spec (hlt : StrictWeak lt) {p : DP} {n k f : Nat} (hc : p.check n k = true)
    {s : St α} {v : Nat → α} (hh : Holds s.cell f (f + n) v) :
    wp (p.exec (tick lt) f) (fun _ s' => ∃ v', Upd f (f + n) s s' v v' ∧ SortedOn lt f (f + n) v' ∧
      s'.cmps ≤ s.cmps + k) s := by
  unfold DP.check at hc
  split at hc
  · cases hc
  · rename_i a b ha
    rw [Bool.and_eq_true] at hc
    refine wp_mono (DP.exec_spec hlt (k0 := s.cmps) p 0 ha hh ?_ (by omega)) ?_
    · intro i j hij
      have := Rel.le_tab hij
      rw [Nat.testBit_two_pow, decide_eq_true_eq] at this
      subst this
      exact hlt.irrefl _
    · rintro r s1 ⟨v', hu, hr⟩
      cases r
      · exact ⟨v', hu, AS.good_spec hlt hc.1 hr⟩
      · exact ⟨v', hu, AS.good_spec hlt hc.2 hr⟩

/-- Reflexivity, and the order of the elements after the first one. -/
def Rel.tailSorted (n : Nat) : Rel := Rel.tab n fun i => if i = 0 then 1 else 2 ^ n - 2 ^ i

/-- Does the program sort `n` elements with at most `k` comparisons, when the elements after the first one
are sorted? -/
def DP.checkTail (p : DP) (n k : Nat) : Bool :=
  match p.abs n 0 (Rel.tailSorted n) 0 with
  | none => false
  | some (a, b) => a.good n k && b.good n k

theorem testBit_sub_pow {n i j : Nat} (h : (2 ^ n - 2 ^ i).testBit j = true) : i ≤ j ∧ j < n := by
  constructor
  · by_contra hc
    by_cases hn : i ≤ n
    · rw [show 2 ^ n - 2 ^ i = 2 ^ i * (2 ^ (n - i) - 1) by
        rw [Nat.mul_sub, ← Nat.pow_add, show i + (n - i) = n by omega, Nat.mul_one],
        Nat.testBit_two_pow_mul] at h
      simp only [Bool.and_eq_true, decide_eq_true_eq] at h
      omega
    · rw [Nat.sub_eq_zero_of_le (Nat.pow_le_pow_right (by omega) (by omega))] at h
      simp at h
  · by_contra hc
    rw [Nat.testBit_lt_two_pow] at h
    · cases h
    · have h1 : 0 < 2 ^ i := Nat.two_pow_pos i
      have h2 : 2 ^ n ≤ 2 ^ j := Nat.pow_le_pow_right (by omega) (by omega)
      have h3 : 0 < 2 ^ n := Nat.two_pow_pos n
      omega

theorem DP.checkTail_spec (hlt : StrictWeak lt) {p : DP} {n k f : Nat} (hc : p.checkTail n k = true)
    {s : St α} {v : Nat → α} (hh : Holds s.cell f (f + n) v) (hs : SortedOn lt (f + 1) (f + n) v) :
    wp (p.exec (tick lt) f) (fun _ s' => ∃ v', Upd f (f + n) s s' v v' ∧ SortedOn lt f (f + n) v' ∧
      s'.cmps ≤ s.cmps + k) s := by
  unfold DP.checkTail at hc
  split at hc
  · cases hc
  · rename_i a b ha
    rw [Bool.and_eq_true] at hc
    refine wp_mono (DP.exec_spec hlt (k0 := s.cmps) p 0 ha hh ?_ (by omega)) ?_
    · intro i j hij
      have := Rel.le_tab hij
      split at this
      · rw [← Nat.pow_zero 2, Nat.testBit_two_pow, decide_eq_true_eq] at this
        subst this
        rename_i e
        subst e
        exact hlt.irrefl _
      · obtain ⟨h1, h2⟩ := testBit_sub_pow this
        by_cases e : i = j
        · rw [e]; exact hlt.irrefl _
        · exact hs _ _ (by omega) (by omega) (by omega)
    · rintro r s1 ⟨v', hu, hr⟩
      cases r
      · exact ⟨v', hu, AS.good_spec hlt hc.1 hr⟩
      · exact ⟨v', hu, AS.good_spec hlt hc.2 hr⟩

/-- Comparisons sufficient for each size; 0 to 9 are the minima known for any comparison sort. -/
def lowComparisonsMax (n : Nat) : Nat :=
  [0, 0, 1, 3, 5, 7, 10, 13, 16, 19, 23, 27, 44, 50].getD n 0

theorem check2 : sortN2.check 2 1 = true := by decide +kernel
theorem check3 : sortN3.check 3 3 = true := by decide +kernel
theorem check4 : sortN4.check 4 5 = true := by decide +kernel
theorem check5 : sortN5.check 5 7 = true := by decide +kernel
theorem check6 : sortN6.check 6 10 = true := by decide +kernel
theorem check7 : sortN7.check 7 13 = true := by decide +kernel
theorem check8 : sortN8.check 8 16 = true := by decide +kernel
theorem check9 : sortN9.check 9 19 = true := by decide +kernel
theorem check10 : sortN10.check 10 23 = true := by decide +kernel
theorem check11 : sortN11.check 11 27 = true := by decide +kernel
theorem check12 : sortN12.check 12 44 = true := by decide +kernel
theorem check13 : sortN13.check 13 50 = true := by decide +kernel

end CppSort
