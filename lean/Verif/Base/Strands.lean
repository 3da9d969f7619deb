import Verif.Base.Network
/-
A second checker for networks that first sort groups of four adjacent wires and then sort the four
strands `s, s + 4, s + 8, …` separately. The first step makes the strands pointwise ordered, the
strand networks are monotone, so the sorted strands are still pointwise ordered: only the
configurations satisfying this need to be followed through the rest of the network.
-/
set_option autoImplicit false

namespace CppSort

theorem ceB_mono {p : Nat × Nat} {x y : Nat → Bool} (h : ∀ k, x k = true → y k = true) :
    ∀ k, ceB p x k = true → ceB p y k = true := by
  intro k
  have h1 := h p.1
  have h2 := h p.2
  have h3 := h k
  unfold ceB
  split
  · revert h1 h2
    cases x p.1 <;> cases x p.2 <;> cases y p.1 <;> cases y p.2 <;> simp
  · split
    · revert h1 h2
      cases x p.1 <;> cases x p.2 <;> cases y p.1 <;> cases y p.2 <;> simp
    · exact h3

theorem runB_mono : ∀ {ps : List (Nat × Nat)} {x y : Nat → Bool},
    (∀ k, x k = true → y k = true) → ∀ k, runB ps x k = true → runB ps y k = true := by
  intro ps
  induction ps with
  | nil => intro x y h; exact h
  | cons p ps ih => intro x y h; exact ih (ceB_mono h)

/-- Renaming the wires of a network. -/
def relabel (g : Nat → Nat) (ps : List (Nat × Nat)) : List (Nat × Nat) :=
  ps.map fun p => (g p.1, g p.2)

theorem runB_relabel {g : Nat → Nat} (hg : ∀ a b, g a = g b → a = b) :
    ∀ (ps : List (Nat × Nat)) (x : Nat → Bool) (i : Nat),
    runB (relabel g ps) x (g i) = runB ps (fun k => x (g k)) i := by
  intro ps
  induction ps with
  | nil => intro x i; rfl
  | cons p ps ih =>
    intro x i
    show runB (relabel g ps) (ceB (g p.1, g p.2) x) (g i) = runB ps (ceB p fun k => x (g k)) i
    rw [ih]
    congr 1
    funext k
    unfold ceB
    simp only
    by_cases h1 : k = p.1
    · subst h1; simp
    · have h1' : ¬ g k = g p.1 := fun h => h1 (hg _ _ h)
      by_cases h2 : k = p.2
      · subst h2; simp [h1, h1']
      · have h2' : ¬ g k = g p.2 := fun h => h2 (hg _ _ h)
        simp [h1, h1', h2, h2']

theorem mem_relabel {g : Nat → Nat} {ps : List (Nat × Nat)} {p : Nat × Nat}
    (h : p ∈ relabel g ps) : ∃ q ∈ ps, p = (g q.1, g q.2) := by
  obtain ⟨q, h1, h2⟩ := List.mem_map.1 h
  exact ⟨q, h1, h2.symm⟩

/-- The four strands: network `S` on the first two, `T` on the last two. -/
def strands (S T : List (Nat × Nat)) : List (Nat × Nat) :=
  relabel (fun i => 4 * i) S ++ (relabel (fun i => 4 * i + 1) S ++
    (relabel (fun i => 4 * i + 2) T ++ relabel (fun i => 4 * i + 3) T))

/-- The order on bits. -/
def ltB (a b : Bool) : Bool := !a && b

theorem ltB_sw : StrictWeak ltB := by
  constructor <;> decide

/-- Two networks that sort `k` wires agree. -/
theorem runB_unique {k : Nat} {S T : List (Nat × Nat)} (hS : Sorts01 k S) (hT : Sorts01 k T)
    (rS : ∀ p ∈ S, p.1 < k ∧ p.2 < k ∧ p.1 ≠ p.2) (rT : ∀ p ∈ T, p.1 < k ∧ p.2 < k ∧ p.1 ≠ p.2)
    (x : Nat → Bool) {i : Nat} (hi : i < k) : runB S x i = runB T x i := by
  have e : ∀ {U : List (Nat × Nat)}, (∀ p ∈ U, p.1 < k ∧ p.2 < k ∧ p.1 ≠ p.2) →
      runB U x = runNet ltB U x := by
    intro U hU
    exact (runNet_map (f := id) ltB_sw (by decide) U (fun p hp => (hU p hp).2.2) x).symm
  have sor : ∀ {U : List (Nat × Nat)}, Sorts01 k U →
      (lst (runB U x) 0 k).Pairwise (fun a b => a = true → b = true) := by
    intro U hU
    unfold lst
    rw [List.pairwise_map]
    refine List.Pairwise.imp_of_mem ?_ (List.pairwise_lt_range' (s := 0) (n := k - 0))
    intro a b ha hb hab
    rw [List.mem_range'_1] at hb
    exact hU x a b hab (by omega)
  have hp : (lst (runB S x) 0 k).Perm (lst (runB T x) 0 k) := by
    rw [e rS, e rT]
    have h1 := (runNet_perm (lt := ltB) (fun p hp => ⟨(rS p hp).1, (rS p hp).2.1⟩) x).2
    have h2 := (runNet_perm (lt := ltB) (fun p hp => ⟨(rT p hp).1, (rT p hp).2.1⟩) x).2
    exact h1.trans h2.symm
  have hl := List.Perm.eq_of_pairwise (le := fun a b : Bool => a = true → b = true)
    (by intro a b _ _; cases a <;> cases b <;> simp) (sor hS) (sor hT) hp
  unfold lst at hl
  exact List.map_inj_left.1 hl i (by rw [List.mem_range'_1]; omega)

theorem strand_outside {S : List (Nat × Nat)} {s t : Nat} (hs : s < 4) (ht : t < 4)
    (hst : s ≠ t) (x : Nat → Bool) (i : Nat) :
    runB (relabel (fun i => 4 * i + s) S) x (4 * i + t) = x (4 * i + t) := by
  apply runB_outside (S := [4 * i + t]) _ x _ (by simp)
  intro p hp
  obtain ⟨q, _, rfl⟩ := mem_relabel hp
  simp only [List.mem_singleton]
  constructor <;> omega

/-- The network of each strand. -/
def strandOf (S T : List (Nat × Nat)) (t : Nat) : List (Nat × Nat) := if t < 2 then S else T

theorem runB_strands (S T : List (Nat × Nat)) (x : Nat → Bool) (i : Nat) {t : Nat} (ht : t < 4) :
    runB (strands S T) x (4 * i + t) = runB (strandOf S T t) (fun k => x (4 * k + t)) i := by
  have inj : ∀ s a b : Nat, 4 * a + s = 4 * b + s → a = b := by intros; omega
  have key : ∀ (U : List (Nat × Nat)) (s : Nat) (x : Nat → Bool),
      runB (relabel (fun i => 4 * i + s) U) x (4 * i + s) = runB U (fun k => x (4 * k + s)) i :=
    fun U s x => runB_relabel (g := fun i => 4 * i + s) (inj s) U x i
  have e0 : strands S T = relabel (fun i => 4 * i + 0) S ++ (relabel (fun i => 4 * i + 1) S ++
    (relabel (fun i => 4 * i + 2) T ++ relabel (fun i => 4 * i + 3) T)) := rfl
  rw [e0, runB_append, runB_append, runB_append]
  unfold strandOf
  rcases (by omega : t = 0 ∨ t = 1 ∨ t = 2 ∨ t = 3) with rfl | rfl | rfl | rfl
  · rw [strand_outside (s := 3) (by omega) (by omega) (by omega),
      strand_outside (s := 2) (by omega) (by omega) (by omega),
      strand_outside (s := 1) (by omega) (by omega) (by omega), key, if_pos (by omega)]
  · rw [strand_outside (s := 3) (by omega) (by omega) (by omega),
      strand_outside (s := 2) (by omega) (by omega) (by omega), key, if_pos (by omega)]
    congr 1
    funext k
    exact strand_outside (s := 0) (t := 1) (by omega) (by omega) (by omega) _ _
  · rw [strand_outside (s := 3) (by omega) (by omega) (by omega), key, if_neg (by omega)]
    congr 1
    funext k
    rw [strand_outside (s := 1) (by omega) (by omega) (by omega)]
    exact strand_outside (s := 0) (by omega) (by omega) (by omega) _ _
  · rw [key, if_neg (by omega)]
    congr 1
    funext k
    rw [strand_outside (s := 2) (by omega) (by omega) (by omega),
      strand_outside (s := 1) (by omega) (by omega) (by omega)]
    exact strand_outside (s := 0) (by omega) (by omega) (by omega) _ _

/-- Sorting network for four wires, on wires `4 * b, …, 4 * b + 3`. -/
def block4 (b : Nat) : List (Nat × Nat) :=
  relabel (fun i => 4 * b + i) [(0, 2), (1, 3), (0, 1), (2, 3), (1, 2)]

def blocks4 : Nat → List (Nat × Nat)
  | 0 => []
  | k + 1 => blocks4 k ++ block4 k

theorem block4_sorts (b : Nat) (x : Nat → Bool) {s : Nat} (hs : s < 3)
    (h : runB (block4 b) x (4 * b + s) = true) : runB (block4 b) x (4 * b + (s + 1)) = true := by
  have inj : ∀ i j : Nat, 4 * b + i = 4 * b + j → i = j := by intros; omega
  unfold block4 at h ⊢
  rw [runB_relabel (g := fun i => 4 * b + i) inj] at h ⊢
  have h4 : Sorts01 4 [(0, 2), (1, 3), (0, 1), (2, 3), (1, 2)] := by
    apply sorts01_of_check (p := .node (.node (.node (.wire 0) (.wire 1) [] false) (.wire 2) [] false)
      (.wire 3) [(0, 2), (1, 3), (0, 1), (2, 3), (1, 2)] false)
    decide +kernel
  exact h4 _ s (s + 1) (by omega) (by omega) h

theorem mem_block4 {b : Nat} {p : Nat × Nat} (h : p ∈ block4 b) :
    p.1 / 4 = b ∧ p.2 / 4 = b := by
  obtain ⟨q, hq, rfl⟩ := mem_relabel h
  simp only [List.mem_cons, List.not_mem_nil, or_false] at hq
  rcases hq with rfl | rfl | rfl | rfl | rfl <;> simp <;> omega

theorem mem_blocks4 {k : Nat} {p : Nat × Nat} (h : p ∈ blocks4 k) :
    p.1 / 4 < k ∧ p.2 / 4 < k := by
  induction k with
  | zero => cases h
  | succ k ih =>
    rcases List.mem_append.1 h with h | h
    · have := ih h; omega
    · have := mem_block4 h; omega

theorem blocks4_sorts : ∀ (k : Nat) (x : Nat → Bool) {b s : Nat}, b < k → s < 3 →
    runB (blocks4 k) x (4 * b + s) = true → runB (blocks4 k) x (4 * b + (s + 1)) = true := by
  intro k
  induction k with
  | zero => intro x b s hb; omega
  | succ k ih =>
    intro x b s hb hs h
    show runB (blocks4 k ++ block4 k) x _ = true
    change runB (blocks4 k ++ block4 k) x _ = true at h
    rw [runB_append] at h ⊢
    by_cases hbk : b = k
    · subst hbk
      exact block4_sorts b _ hs h
    · have out : ∀ s, s < 4 → runB (block4 k) (runB (blocks4 k) x) (4 * b + s) =
          runB (blocks4 k) x (4 * b + s) := by
        intro s hs
        apply runB_outside (S := [4 * b + s]) _ _ _ (by simp)
        intro p hp
        have := mem_block4 hp
        simp only [List.mem_singleton]
        constructor <;> omega
      rw [out _ (by omega)] at h ⊢
      exact ih x (by omega) hs h

/-- Pairs of wires ordered by the first two phases. -/
def strandPairs : Nat → List (Nat × Nat)
  | 0 => []
  | k + 1 => (4 * k, 4 * k + 1) :: (4 * k + 1, 4 * k + 2) :: (4 * k + 2, 4 * k + 3) :: strandPairs k

theorem mem_strandPairs {k : Nat} {c : Nat × Nat} (h : c ∈ strandPairs k) :
    ∃ i s, i < k ∧ s < 3 ∧ c = (4 * i + s, 4 * i + (s + 1)) := by
  induction k with
  | zero => cases h
  | succ k ih =>
    simp only [strandPairs, List.mem_cons] at h
    rcases h with rfl | rfl | rfl | h
    · exact ⟨k, 0, by omega, by omega, rfl⟩
    · exact ⟨k, 1, by omega, by omega, rfl⟩
    · exact ⟨k, 2, by omega, by omega, rfl⟩
    · obtain ⟨i, s, h1, h2, h3⟩ := ih h
      exact ⟨i, s, by omega, h2, h3⟩

/-- After sorting groups of four and then the strands, neighbours in a group are still ordered. -/
theorem strands_ordered {k : Nat} {S T : List (Nat × Nat)} (hS : Sorts01 k S) (hT : Sorts01 k T)
    (rS : ∀ p ∈ S, p.1 < k ∧ p.2 < k ∧ p.1 ≠ p.2) (rT : ∀ p ∈ T, p.1 < k ∧ p.2 < k ∧ p.1 ≠ p.2)
    (x : Nat → Bool) {c : Nat × Nat} (hc : c ∈ strandPairs k)
    (h : runB (strands S T) (runB (blocks4 k) x) c.1 = true) :
    runB (strands S T) (runB (blocks4 k) x) c.2 = true := by
  obtain ⟨i, s, hi, hs, rfl⟩ := mem_strandPairs hc
  simp only at h ⊢
  rw [runB_strands S T _ _ (by omega)] at h ⊢
  have toS : ∀ t y, runB (strandOf S T t) y i = runB S y i := by
    intro t y
    unfold strandOf
    split
    · rfl
    · exact runB_unique hT hS rT rS y hi
  rw [toS] at h ⊢
  have cut : ∀ y : Nat → Bool, runB S y i = runB S (fun j => decide (j < k) && y j) i := by
    intro y
    apply runB_congr (S := List.range k) _ _ _ _ _ (List.mem_range.2 hi)
    · intro p hp
      have := rS p hp
      exact ⟨List.mem_range.2 this.1, List.mem_range.2 this.2.1⟩
    · intro w hw
      have := List.mem_range.1 hw
      simp [this]
  rw [cut] at h ⊢
  refine runB_mono ?_ i h
  intro j hj
  simp only [Bool.and_eq_true, decide_eq_true_eq] at hj ⊢
  exact ⟨hj.1, blocks4_sorts k x hj.1 hs hj.2⟩

/-- Keep the configurations in which the given pairs are ordered. -/
def maskW (cs : List (Nat × Nat)) (ws : List (Nat × Nat)) : Nat → (Nat → Bool) → Bool :=
  List.rec (motive := fun _ => Nat → (Nat → Bool) → Bool) (fun mask k => k mask)
    (fun c _ ih mask k => Prod.rec (motive := fun _ => Bool)
      (fun i j => getW i ws false fun a => getW j ws false fun b =>
        withNat (Nat.land mask (Nat.lor b (Nat.xor mask (Nat.land mask a)))) fun m => ih m k) c) cs

theorem maskW_true {ws : List (Nat × Nat)} {k : Nat → Bool} : ∀ {cs : List (Nat × Nat)}
    {mask : Nat}, maskW cs ws mask k = true → ∃ mask', k mask' = true ∧
      ∀ (x : Nat → Bool) (q : Nat), (∀ e ∈ ws, x e.1 = e.2.testBit q) →
        (∀ c ∈ cs, x c.1 = true → x c.2 = true) → mask.testBit q = true →
        mask'.testBit q = true := by
  intro cs
  induction cs with
  | nil => intro mask h; exact ⟨mask, h, fun _ _ _ _ h => h⟩
  | cons c cs ih =>
    intro mask h
    change (getW c.1 ws false fun a => getW c.2 ws false fun b =>
        withNat (Nat.land mask (Nat.lor b (Nat.xor mask (Nat.land mask a)))) fun m =>
        maskW cs ws m k) = true at h
    obtain ⟨a, ha, h⟩ := getW_true h
    obtain ⟨b, hb, h⟩ := getW_true h
    rw [withNat_eq] at h
    obtain ⟨mask', h1, h2⟩ := ih h
    refine ⟨mask', h1, fun x q hx hc hm => h2 x q hx
      (fun d hd => hc d (List.mem_cons_of_mem _ hd)) ?_⟩
    show (mask &&& (b ||| (mask ^^^ (mask &&& a)))).testBit q = true
    have hab := hc c (by simp)
    have e1 := hx _ ha
    have e2 := hx _ hb
    simp only at e1 e2
    rw [Nat.testBit_and, Nat.testBit_or, Nat.testBit_xor, Nat.testBit_and, hm]
    rw [e1, e2] at hab
    revert hab
    cases a.testBit q <;> cases b.testBit q <;> simp

/-- Are consecutive wires below `n` ordered in the configurations of the mask? -/
def ordM (mask n : Nat) (ws : List (Nat × Nat)) : Bool :=
  Nat.rec (motive := fun _ => Bool) true
    (fun i ih => getW i ws false fun a => getW (Nat.succ i) ws false fun b =>
      cond (Nat.beq (Nat.land mask (Nat.lor a b)) (Nat.land mask b)) ih false) n

theorem ordM_true {mask : Nat} {ws : List (Nat × Nat)} : ∀ {n : Nat}, ordM mask n ws = true →
    ∀ i < n, ∃ a b, (i, a) ∈ ws ∧ (i + 1, b) ∈ ws ∧ mask &&& (a ||| b) = mask &&& b := by
  intro n
  induction n with
  | zero => intro _ i hi; omega
  | succ n ih =>
    intro h i hi
    change (getW n ws false fun a => getW (Nat.succ n) ws false fun b =>
      cond (Nat.beq (Nat.land mask (Nat.lor a b)) (Nat.land mask b)) (ordM mask n ws) false)
        = true at h
    obtain ⟨a, ha, h⟩ := getW_true h
    obtain ⟨b, hb, h⟩ := getW_true h
    cases hc : Nat.beq (Nat.land mask (Nat.lor a b)) (Nat.land mask b)
    · rw [hc] at h; cases h
    · rw [hc] at h
      rcases Nat.lt_succ_iff_lt_or_eq.1 hi with hi | rfl
      · exact ih h i hi
      · exact ⟨a, b, ha, hb, by rw [Nat.beq_eq] at hc; exact hc⟩

def inRange (k : Nat) (S : List (Nat × Nat)) : Bool :=
  S.all fun p => Nat.blt p.1 k && Nat.blt p.2 k && !Nat.beq p.1 p.2

theorem inRange_true {k : Nat} {S : List (Nat × Nat)} (h : inRange k S = true) :
    ∀ p ∈ S, p.1 < k ∧ p.2 < k ∧ p.1 ≠ p.2 := by
  intro p hp
  have := List.all_eq_true.1 h p hp
  simp only [Bool.and_eq_true, Nat.blt_eq, Bool.not_eq_true'] at this
  refine ⟨this.1.1, this.1.2, fun e => ?_⟩
  have h2 := this.2
  rw [← Bool.not_eq_true, Nat.beq_eq] at h2
  exact h2 e

/-- The check: `ps` is groups of four, then strands (run by plan `q`), then `rest`. -/
noncomputable def checkStrands (k : Nat) (ps S T : List (Nat × Nat)) (q : Plan)
    (rest : List (Nat × Nat)) : Bool :=
  decide q.wires.Nodup && inRange k S && inRange k T &&
  netEquiv ps (blocks4 k ++ (strands S T ++ rest)) && netEquiv (strands S T) q.ces &&
  evalPlan q fun m ws => maskW (strandPairs k) ws (2 ^ m - 1) fun mask =>
    stepW false rest ws fun ws' => ordM mask (4 * k - 1) ws'

theorem sorts01_of_strands {k : Nat} {ps S T rest : List (Nat × Nat)} {p : Plan}
    (hS : Sorts01 k S) (hT : Sorts01 k T)
    (h : checkStrands k ps S T p rest = true) : Sorts01 (4 * k) ps := by
  unfold checkStrands at h
  simp only [Bool.and_eq_true, decide_eq_true_eq] at h
  obtain ⟨⟨⟨⟨⟨hn, rS⟩, rT⟩, he⟩, he2⟩, hp⟩ := h
  obtain ⟨m, ws, hk, fw, bw, _, hx⟩ := evalPlan_true hn hp
  obtain ⟨mask, hk, hmask⟩ := maskW_true hk
  obtain ⟨ws', hk, _, _, _, hw⟩ := stepW_true (m := m) (by rw [fw]; exact hn) bw hk
  intro x
  rw [runB_netEquiv he, runB_append, runB_append]
  obtain ⟨q, hqm, hq1⟩ := hx (runB (blocks4 k) x)
  rw [← runB_netEquiv he2] at hq1
  have hq2 := hmask _ q hq1
    (fun c hc => strands_ordered hS hT (inRange_true rS) (inRange_true rT) x hc) (by
      rw [Nat.testBit_two_pow_sub_one]; simpa using hqm)
  have hq3 := hw (runB (strands S T) (runB (blocks4 k) x)) q hq1
  generalize runB rest (runB (strands S T) (runB (blocks4 k) x)) = z at *
  have hstep : ∀ i, i + 1 < 4 * k → z i = true → z (i + 1) = true := by
    intro i hi h1
    obtain ⟨a, b, ha, hb, hab⟩ := ordM_true hk i (by omega)
    have e1 := hq3 _ ha
    have e2 := hq3 _ hb
    simp only at e1 e2
    have hbit := congrArg (fun n => n.testBit q) hab
    simp only [Nat.testBit_and, Nat.testBit_or, hq2, Bool.true_and] at hbit
    rw [e2, ← hbit, ← e1, h1]; rfl
  intro i j hij
  induction j, hij using Nat.le_induction with
  | base => exact fun hj => hstep i hj
  | succ j _ ih => exact fun hj h1 => hstep j hj (ih (by omega) h1)

end CppSort
