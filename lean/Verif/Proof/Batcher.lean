import Verif.Proof.NetExec
import Verif.Model.Batcher
/-
Batcher's networks sort 0-1 inputs: merge exchange for every size, odd-even merge for powers of 2.
-/
set_option autoImplicit false

namespace CppSort

/-! ### One layer of independent comparators at the same distance -/

theorem runB_out {ps : List (Nat × Nat)} {w : Nat} (h : ∀ q ∈ ps, w ≠ q.1 ∧ w ≠ q.2)
    (x : Nat → Bool) : runB ps x w = x w :=
  runB_outside (S := [w]) (fun q hq => by
    have := h q hq
    simp only [List.mem_singleton]
    exact ⟨this.1.symm, this.2.symm⟩) x w (by simp)

theorem runB_layer {d : Nat} (hd : 0 < d) {P : Nat → Prop} (hP : ∀ a, P a → ¬ P (a + d)) :
    ∀ {ps : List (Nat × Nat)}, (∀ p ∈ ps, p.2 = p.1 + d ∧ P p.1) →
    ps.Pairwise (fun p q => p.1 < q.1) → ∀ x : Nat → Bool, ∀ p ∈ ps,
      runB ps x p.1 = (x p.1 && x (p.1 + d)) ∧ runB ps x (p.1 + d) = (x p.1 || x (p.1 + d)) := by
  intro ps
  induction ps with
  | nil => intro _ _ x p hp; cases hp
  | cons a ps ih =>
    intro h hw x p hp
    rw [List.pairwise_cons] at hw
    have ha := h a (by simp)
    have hr : runB (a :: ps) x = runB ps (ceB a x) := rfl
    have hq : ∀ q ∈ ps, q.2 = q.1 + d ∧ P q.1 := fun q hq => h q (List.mem_cons_of_mem _ hq)
    rw [hr]
    rcases List.mem_cons.1 hp with e | hp
    · subst e
      constructor
      · rw [runB_out]
        · unfold ceB; simp [ha.1]
        · intro q hq'
          have h1 := hq q hq'
          have h2 := hw.1 q hq'
          refine ⟨by omega, fun e => ?_⟩
          rw [h1.1] at e
          exact hP _ h1.2 (e ▸ ha.2)
      · rw [runB_out]
        · unfold ceB
          rw [if_neg (by omega), if_pos ha.1.symm, ha.1]
        · intro q hq'
          have h1 := hq q hq'
          have h2 := hw.1 q hq'
          refine ⟨fun e => ?_, by omega⟩
          exact hP _ ha.2 (e ▸ h1.2)
    · have h1 := hq p hp
      have h2 := hw.1 p hp
      have e1 : ceB a x p.1 = x p.1 := by
        unfold ceB
        rw [if_neg (by omega), if_neg]
        intro e
        rw [ha.1] at e
        exact hP _ ha.2 (e ▸ h1.2)
      have e2 : ceB a x (p.1 + d) = x (p.1 + d) := by
        unfold ceB
        rw [if_neg, if_neg (by omega)]
        intro e
        exact hP _ h1.2 (e ▸ ha.2)
      have := ih hq hw.2 (ceB a x) p hp
      rwa [e1, e2] at this

/-! ### Merge exchange -/

theorem and_pow (i a : Nat) : i &&& 2 ^ a = (i / 2 ^ a % 2) * 2 ^ a := by
  rw [Nat.and_two_pow, Nat.testBit_eq_decide_div_mod_eq]
  have := Nat.mod_lt (i / 2 ^ a) (show 0 < 2 by omega)
  by_cases h : i / 2 ^ a % 2 = 1
  · simp [h]
  · have : i / 2 ^ a % 2 = 0 := by omega
    simp [this]

theorem mem_mePass {n a b d i j : Nat} (hb : b ≤ 1) : (i, j) ∈ mePass n (2 ^ a) (b * 2 ^ a) d ↔
    i < n - d ∧ j = i + d ∧ i / 2 ^ a % 2 = b := by
  unfold mePass
  simp only [List.mem_map, List.mem_filter, List.mem_range, Prod.mk.injEq, beq_iff_eq]
  have hp := Nat.two_pow_pos a
  constructor
  · rintro ⟨i', ⟨h1, h2⟩, rfl, rfl⟩
    rw [and_pow] at h2
    exact ⟨h1, rfl, Nat.eq_of_mul_eq_mul_right hp h2⟩
  · rintro ⟨h1, rfl, h2⟩
    exact ⟨i, ⟨h1, by rw [and_pow, h2]⟩, rfl, rfl⟩

theorem mePass_sorted (n p r d : Nat) : (mePass n p r d).Pairwise (fun p q => p.1 < q.1) := by
  unfold mePass
  rw [List.pairwise_map]
  exact List.Pairwise.filter _ List.pairwise_lt_range

/-- `x` holds ones from `n` on. -/
def Pad (n : Nat) (x : Nat → Bool) : Prop := ∀ w, n ≤ w → x w = true

/-- One pass, on wires written as row `R` and column `c`: rows of parity `b` are compared with rows
`e` further (`e` odd). -/
theorem mePass_run {n a b e : Nat} (hb : b ≤ 1) (he : e % 2 = 1) {x : Nat → Bool} (hx : Pad n x) :
    Pad n (runB (mePass n (2 ^ a) (b * 2 ^ a) (e * 2 ^ a)) x) ∧
    ∀ R c, c < 2 ^ a → runB (mePass n (2 ^ a) (b * 2 ^ a) (e * 2 ^ a)) x (R * 2 ^ a + c) =
      if R % 2 = b then (x (R * 2 ^ a + c) && x ((R + e) * 2 ^ a + c))
      else if e ≤ R then (x ((R - e) * 2 ^ a + c) || x (R * 2 ^ a + c))
      else x (R * 2 ^ a + c) := by
  have hp := Nat.two_pow_pos a
  generalize hpp : 2 ^ a = p at *
  have hdiv : ∀ R c, c < p → (R * p + c) / p = R := by
    intro R c hc
    rw [Nat.add_comm, Nat.add_mul_div_right _ _ hp, Nat.div_eq_of_lt hc, Nat.zero_add]
  have hmem : ∀ i j, (i, j) ∈ mePass n p (b * p) (e * p) ↔ i < n - e * p ∧ j = i + e * p ∧
      i / p % 2 = b := by
    intro i j
    rw [← hpp]; exact mem_mePass hb
  have hd : 0 < e * p := Nat.mul_pos (by omega) hp
  have hL := runB_layer (d := e * p) hd (P := fun i => i / p % 2 = b)
    (by
      intro i hi
      show ¬ ((i + e * p) / p % 2 = b)
      rw [Nat.add_mul_div_right _ _ hp]; omega)
    (ps := mePass n p (b * p) (e * p))
    (by
      rintro ⟨i, j⟩ hq
      have := (hmem i j).1 hq
      exact this.2)
    (mePass_sorted _ _ _ _) x
  have hO : ∀ w, (∀ q ∈ mePass n p (b * p) (e * p), w ≠ q.1 ∧ w ≠ q.2) →
      runB (mePass n p (b * p) (e * p)) x w = x w := fun w hw => runB_out hw x
  have hpad : Pad n (runB (mePass n p (b * p) (e * p)) x) := by
    intro w hw
    rw [hO w, hx w hw]
    rintro ⟨i, j⟩ hq
    have := (hmem i j).1 hq
    simp only; omega
  refine ⟨hpad, ?_⟩
  intro R c hc
  by_cases hR : R % 2 = b
  · rw [if_pos hR]
    have e1 : (R + e) * p + c = R * p + c + e * p := by rw [Nat.add_mul]; omega
    rw [e1]
    by_cases hi : R * p + c < n - e * p
    · have := hL (R * p + c, R * p + c + e * p) ((hmem _ _).2 ⟨hi, rfl, by rw [hdiv R c hc]; exact hR⟩)
      exact this.1
    · rw [hx (R * p + c + e * p) (by omega), hO, Bool.and_true]
      rintro ⟨i, j⟩ hq
      have h1 := (hmem i j).1 hq
      refine ⟨?_, ?_⟩
      · simp only; omega
      · rintro e2
        simp only at e2
        have h2 : (i + e * p) / p = R := by rw [← h1.2.1, ← e2]; exact hdiv R c hc
        rw [Nat.add_mul_div_right _ _ hp] at h2
        omega
  · rw [if_neg hR]
    by_cases he' : e ≤ R
    · rw [if_pos he']
      have e1 : R * p + c = (R - e) * p + c + e * p := by
        have : R * p = (R - e) * p + e * p := by rw [← Nat.add_mul]; congr 1; omega
        omega
      by_cases hi : (R - e) * p + c < n - e * p
      · have := hL ((R - e) * p + c, (R - e) * p + c + e * p)
          ((hmem _ _).2 ⟨hi, rfl, by rw [hdiv _ c hc]; omega⟩)
        have h2 := this.2
        simp only at h2
        rw [← e1] at h2
        exact h2
      · have : n ≤ R * p + c := by omega
        rw [hpad _ this, hx _ this, Bool.or_true]
    · rw [if_neg he', hO]
      rintro ⟨i, j⟩ hq
      have h1 := (hmem i j).1 hq
      refine ⟨?_, ?_⟩
      · rintro e2
        simp only at e2
        rw [← e2, hdiv R c hc] at h1
        omega
      · rintro e2
        simp only at e2
        have h2 : (i + e * p) / p = R := by rw [← h1.2.1, ← e2]; exact hdiv R c hc
        rw [Nat.add_mul_div_right _ _ hp] at h2
        generalize i / p = z at h2
        omega

/-- Every class modulo `p` (rows `R`, columns `c < p`, `H` rows) is a block of zeros followed by
ones. -/
def ColSorted (H p : Nat) (x : Nat → Bool) : Prop :=
  ∃ F : Nat → Nat, ∀ c, c < p → F c ≤ H ∧ ∀ R, R < H → x (R * p + c) = decide (H ≤ R + F c)

/-- In each class modulo `p` the even rows and the odd rows are sorted; the odd rows hold between
`0` and `D` ones more. -/
def Interleaved (H p D : Nat) (x : Nat → Bool) : Prop :=
  ∃ E O : Nat → Nat, ∀ c, c < p → E c ≤ O c ∧ O c ≤ E c + D ∧ O c ≤ H ∧ ∀ m, m < H →
    x (2 * m * p + c) = decide (H ≤ m + E c) ∧
    x ((2 * m + 1) * p + c) = decide (H ≤ m + O c)

theorem interleaved_done {H p : Nat} {x : Nat → Bool} (h : Interleaved H p 1 x) :
    ColSorted (2 * H) p x := by
  obtain ⟨E, O, h⟩ := h
  refine ⟨fun c => E c + O c, fun c hc => ?_⟩
  obtain ⟨h1, h2, h3, h4⟩ := h c hc
  refine ⟨by simp only; omega, fun R hR => ?_⟩
  obtain ⟨a, b⟩ := h4 (R / 2) (by omega)
  rcases Nat.mod_two_eq_zero_or_one R with e | e
  · rw [show R = 2 * (R / 2) by omega, a]
    congr 1
    simp only [eq_iff_iff]; omega
  · rw [show R = 2 * (R / 2) + 1 by omega, b]
    congr 1
    simp only [eq_iff_iff]; omega

/-- First pass: compare each even row with the next one. -/
theorem me_first {n a H : Nat} {x : Nat → Bool} (hx : Pad n x)
    (h : ColSorted H (2 * 2 ^ a) x) :
    Pad n (runB (mePass n (2 ^ a) 0 (2 ^ a)) x) ∧
    Interleaved H (2 ^ a) H (runB (mePass n (2 ^ a) 0 (2 ^ a)) x) := by
  obtain ⟨h1, h2⟩ := mePass_run (n := n) (a := a) (b := 0) (e := 1) (by omega) (by omega) hx
  rw [Nat.zero_mul, Nat.one_mul] at h1 h2
  refine ⟨h1, ?_⟩
  obtain ⟨F, hF⟩ := h
  generalize 2 ^ a = p at *
  refine ⟨fun c => min (F c) (F (p + c)), fun c => max (F c) (F (p + c)), fun c hc => ?_⟩
  obtain ⟨a1, a2⟩ := hF c (by omega)
  obtain ⟨b1, b2⟩ := hF (p + c) (by omega)
  refine ⟨by simp only; omega, by simp only; omega, by simp only; omega, fun m hm => ?_⟩
  have e1 : m * (2 * p) = 2 * m * p := by rw [← Nat.mul_assoc, Nat.mul_comm m 2]
  have e2 : (2 * m + 1) * p + c = m * (2 * p) + (p + c) := by rw [e1, Nat.add_mul]; omega
  have a2 := a2 m hm
  have b2 := b2 m hm
  rw [← e2] at b2
  rw [e1] at a2
  constructor
  · rw [h2 _ c hc, if_pos (by omega), a2, b2, ← Bool.decide_and]
    congr 1; simp only [eq_iff_iff]; omega
  · rw [h2 _ c hc, if_neg (by omega), if_pos (by omega), Nat.add_sub_cancel, a2, b2,
      ← Bool.decide_or]
    congr 1; simp only [eq_iff_iff]; omega

/-- Next passes: compare odd rows with the even row `2h - 1` further. -/
theorem me_next {n a H h : Nat} {x : Nat → Bool} (hx : Pad n x) (hh : 0 < h)
    (hI : Interleaved H (2 ^ a) (2 * h) x) (hn : n ≤ 2 * H * 2 ^ a) :
    Pad n (runB (mePass n (2 ^ a) (2 ^ a) ((2 * h - 1) * 2 ^ a)) x) ∧
    Interleaved H (2 ^ a) h (runB (mePass n (2 ^ a) (2 ^ a) ((2 * h - 1) * 2 ^ a)) x) := by
  obtain ⟨h1, h2⟩ := mePass_run (n := n) (a := a) (b := 1) (e := 2 * h - 1) (by omega) (by omega) hx
  rw [Nat.one_mul] at h1 h2
  refine ⟨h1, ?_⟩
  obtain ⟨E, O, hI⟩ := hI
  generalize 2 ^ a = p at *
  refine ⟨fun c => if E c + h < O c then O c - h else E c,
    fun c => if E c + h < O c then E c + h else O c, fun c hc => ?_⟩
  obtain ⟨a1, a2, a3, a4⟩ := hI c hc
  simp only
  refine ⟨by split <;> omega, by split <;> omega, by split <;> omega, fun m hm => ?_⟩
  constructor
  · rw [h2 _ c hc, if_neg (by omega)]
    split
    · rw [show 2 * m - (2 * h - 1) = 2 * (m - h) + 1 by omega, (a4 (m - h) (by omega)).2,
        (a4 m hm).1, ← Bool.decide_or]
      congr 1; simp only [eq_iff_iff]
      split <;> omega
    · rw [(a4 m hm).1]
      congr 1; simp only [eq_iff_iff]
      split <;> omega
  · rw [h2 _ c hc, if_pos (by omega), show 2 * m + 1 + (2 * h - 1) = 2 * (m + h) by omega,
      (a4 m hm).2]
    by_cases hm' : m + h < H
    · rw [(a4 _ hm').1, ← Bool.decide_and]
      congr 1; simp only [eq_iff_iff]
      split <;> omega
    · rw [hx, Bool.and_true]
      · congr 1; simp only [eq_iff_iff]
        split <;> omega
      · have : 2 * H * p ≤ 2 * (m + h) * p := Nat.mul_le_mul_right _ (by omega)
        omega

/-- The passes after the first. -/
theorem me_rest {n a H : Nat} (hn : n ≤ 2 * H * 2 ^ a) : ∀ (b : Nat) {x : Nat → Bool}, Pad n x →
    Interleaved H (2 ^ a) (2 ^ b) x →
    Pad n (runB (meWhile n (2 ^ a) (2 ^ (a + b) / 2) (2 ^ a) (2 ^ (a + b) - 2 ^ a)) x) ∧
    Interleaved H (2 ^ a) 1
      (runB (meWhile n (2 ^ a) (2 ^ (a + b) / 2) (2 ^ a) (2 ^ (a + b) - 2 ^ a)) x) := by
  intro b
  induction b with
  | zero =>
    intro x hx hI
    rw [meWhile, if_pos (by simp)]
    exact ⟨hx, hI⟩
  | succ b ih =>
    intro x hx hI
    have hp := Nat.two_pow_pos a
    have hb := Nat.two_pow_pos b
    have e : 2 ^ (a + (b + 1)) = 2 * 2 ^ (a + b) := by rw [← Nat.add_assoc, Nat.pow_succ]; omega
    have ed : 2 ^ (a + (b + 1)) - 2 ^ a = (2 * 2 ^ b - 1) * 2 ^ a := by
      rw [e, Nat.sub_mul, Nat.pow_add]
      congr 1
      · rw [Nat.mul_assoc, Nat.mul_comm (2 ^ a)]
      · omega
    rw [meWhile, if_neg, runB_append]
    · rw [ed]
      obtain ⟨h1, h2⟩ := me_next hx hb (by rw [Nat.mul_comm, ← Nat.pow_succ]; exact hI) hn
      rw [e, Nat.mul_div_cancel_left _ (by omega)]
      exact ih h1 h2
    · rw [ed]
      exact Nat.ne_of_gt (Nat.mul_pos (by omega) hp)

/-- One value of `p`. -/
theorem me_phase {n a b : Nat} {x : Nat → Bool} (hn : n ≤ 2 ^ (a + b + 1)) (hx : Pad n x)
    (h : ColSorted (2 ^ b) (2 ^ (a + 1)) x) :
    Pad n (runB (meWhile n (2 ^ a) (2 ^ (a + b)) 0 (2 ^ a)) x) ∧
    ColSorted (2 ^ (b + 1)) (2 ^ a) (runB (meWhile n (2 ^ a) (2 ^ (a + b)) 0 (2 ^ a)) x) := by
  have hp := Nat.two_pow_pos a
  rw [meWhile, if_neg (by omega), runB_append]
  rw [Nat.pow_succ, Nat.mul_comm] at h
  obtain ⟨h1, h2⟩ := me_first hx h
  have hn' : n ≤ 2 * 2 ^ b * 2 ^ a := by
    rw [Nat.pow_succ, Nat.pow_add] at hn
    calc n ≤ _ := hn
      _ = _ := by ring
  obtain ⟨h3, h4⟩ := me_rest hn' b h1 h2
  refine ⟨h3, ?_⟩
  rw [Nat.pow_succ, Nat.mul_comm]
  exact interleaved_done h4

theorem me_for {n t : Nat} (hn : n ≤ 2 ^ (t + 1)) : ∀ (a : Nat) (_ : a ≤ t) {x : Nat → Bool},
    Pad n x → ColSorted (2 ^ (t - a)) (2 ^ (a + 1)) x →
    ColSorted (2 ^ (t + 1)) 1 (runB (meFor n (t + 1) (2 ^ a)) x) := by
  intro a
  induction a with
  | zero =>
    intro ha x hx h
    obtain ⟨_, h2⟩ := me_phase (a := 0) (b := t) (by simpa using hn) hx (by simpa using h)
    rw [meFor, if_neg (by simp), runB_append, meFor, if_pos (by simp)]
    simp only [Nat.add_sub_cancel, Nat.one_shiftLeft]
    rw [show ∀ y, runB [] y = y from fun _ => rfl]
    simpa using h2
  | succ a ih =>
    intro ha x hx h
    have e : t = a + 1 + (t - (a + 1)) := by omega
    obtain ⟨h1, h2⟩ := me_phase (a := a + 1) (b := t - (a + 1)) (by rw [← e]; exact hn) hx h
    rw [← e] at h1 h2
    rw [meFor, if_neg (Nat.ne_of_gt (Nat.two_pow_pos _)), runB_append]
    simp only [Nat.add_sub_cancel, Nat.one_shiftLeft]
    rw [show 2 ^ (a + 1) / 2 = 2 ^ a by rw [Nat.pow_succ, Nat.mul_div_cancel _ (by omega)]]
    rw [show t - (a + 1) + 1 = t - a by omega] at h2
    exact ih (by omega) h1 h2

theorem ceilLog2Loop_spec : ∀ (n log : Nat), 0 < n →
    ∃ t, ceilLog2Loop n log = log + t + 1 ∧ n < 2 ^ (t + 1) := by
  intro n
  induction n using Nat.strongRecOn with
  | ind n ih =>
    intro log hn
    rw [ceilLog2Loop, if_neg (by omega)]
    by_cases h : n / 2 = 0
    · rw [h, ceilLog2Loop, if_pos rfl]
      exact ⟨0, by omega, by simp; omega⟩
    · obtain ⟨t, h1, h2⟩ := ih (n / 2) (by omega) (log + 1) (by omega)
      refine ⟨t + 1, by omega, ?_⟩
      rw [Nat.pow_succ]; omega

theorem mePass_range {n p r d : Nat} : 0 < d → ∀ q ∈ mePass n p r d, q.1 < q.2 ∧ q.2 < n := by
  intro hd q hq
  unfold mePass at hq
  simp only [List.mem_map, List.mem_filter, List.mem_range] at hq
  obtain ⟨i, ⟨h1, _⟩, rfl⟩ := hq
  simp only; omega

theorem meWhile_range {n p : Nat} : ∀ (q r d : Nat), ∀ c ∈ meWhile n p q r d,
    c.1 < c.2 ∧ c.2 < n := by
  intro q r d
  induction q, r, d using meWhile.induct p with
  | case1 q r => intro c hc; rw [meWhile, if_pos rfl] at hc; cases hc
  | case2 q r d hd ih =>
    intro c hc
    rw [meWhile, if_neg hd, List.mem_append] at hc
    rcases hc with hc | hc
    · exact mePass_range (by omega) c hc
    · exact ih c hc

theorem meFor_range {n t : Nat} : ∀ (p : Nat), ∀ c ∈ meFor n t p, c.1 < c.2 ∧ c.2 < n := by
  intro p
  induction p using meFor.induct with
  | case1 => intro c hc; rw [meFor, if_pos rfl] at hc; cases hc
  | case2 p hp ih =>
    intro c hc
    rw [meFor, if_neg hp, List.mem_append] at hc
    rcases hc with hc | hc
    · exact meWhile_range _ _ _ c hc
    · exact ih c hc

theorem mergeExchange_range (n : Nat) : ∀ c ∈ mergeExchangePairs n, c.1 < c.2 ∧ c.2 < n := by
  unfold mergeExchangePairs
  split
  · intro c hc; cases hc
  · exact meFor_range _

theorem mergeExchange_sorts01 (n : Nat) : Sorts01 n (mergeExchangePairs n) := by
  intro x i j hij hj h
  have hn : ¬ n < 2 := by omega
  have hc : ∀ w, w < n → runB (mergeExchangePairs n) x w =
      runB (mergeExchangePairs n) (fun w => if w < n then x w else true) w := by
    intro w hw
    refine runB_congr (S := List.range n) (fun c hc => ?_) _ _ (fun w hw => ?_) w
      (List.mem_range.2 hw)
    · have := mergeExchange_range n c hc
      simp only [List.mem_range]; omega
    · simp only [List.mem_range.1 hw, if_true]
  rw [hc i (by omega)] at h
  rw [hc j hj]
  clear hc
  generalize hy : (fun w => if w < n then x w else true) = y at h ⊢
  have hp : Pad n y := by
    intro w hw; rw [← hy]; simp only; rw [if_neg (by omega)]
  clear hy
  unfold mergeExchangePairs at h ⊢
  rw [if_neg hn] at h ⊢
  obtain ⟨t, h1, h2⟩ := ceilLog2Loop_spec (n - 1) 0 (by omega)
  have e : ceilLog2 n = t + 1 := by unfold ceilLog2; omega
  rw [e] at h ⊢
  simp only [Nat.add_sub_cancel, Nat.one_shiftLeft] at h ⊢
  obtain ⟨F, hF⟩ := me_for (n := n) (t := t) (by omega) t (Nat.le_refl _) hp (by
    rw [Nat.sub_self]
    refine ⟨fun c => (y c).toNat, fun c hc => ⟨by simp only; exact Bool.toNat_le _, fun R hR => ?_⟩⟩
    have : R = 0 := by simpa using hR
    subst this
    cases hy : y c <;> simp [hy])
  obtain ⟨_, hF⟩ := hF 0 (by omega)
  have hi := hF i (by omega)
  have hj' := hF j (by omega)
  simp only [Nat.mul_one, Nat.add_zero] at hi hj'
  rw [hi] at h
  rw [hj']
  simp only [decide_eq_true_eq] at h ⊢
  omega

/-! ### Odd-even merge -/

theorem oeJ_mem {n p k : Nat} (hk : 0 < k) : ∀ (j : Nat) (c : Nat × Nat), c ∈ oeJ n p k j ↔
    c.2 = c.1 + k ∧ c.1 / (p * 2) = c.2 / (p * 2) ∧
      ∃ m i, i < k ∧ j + m * (2 * k) < n - k ∧ c.1 = i + (j + m * (2 * k)) := by
  intro j
  induction j using oeJ.induct n k with
  | case1 j h ih =>
    intro c
    rw [oeJ, if_pos h, List.mem_append, ih]
    simp only [List.mem_map, List.mem_filter, List.mem_range, beq_iff_eq]
    constructor
    · rintro (⟨i, ⟨h1, h2⟩, rfl⟩ | ⟨h1, h2, m, i, h3, h4, h5⟩)
      · exact ⟨rfl, h2, 0, i, h1, by omega, by omega⟩
      · refine ⟨h1, h2, m + 1, i, h3, ?_, ?_⟩
        · rw [Nat.add_mul]; omega
        · rw [Nat.add_mul]; omega
    · rintro ⟨h1, h2, m, i, h3, h4, h5⟩
      rcases m with _ | m
      · left
        refine ⟨i, ⟨h3, ?_⟩, ?_⟩
        · rw [show i + j = c.1 by omega, ← h1]; exact h2
        · apply Prod.ext
          · simp only; omega
          · simp only; omega
      · right
        rw [Nat.add_mul] at h4 h5
        exact ⟨h1, h2, m, i, h3, by omega, by omega⟩
  | case2 j h =>
    intro c
    rw [oeJ, if_neg h]
    simp only [List.not_mem_nil, false_iff]
    rintro ⟨_, _, m, i, _, h4, _⟩
    exact h ⟨hk, by omega⟩

theorem oeJ_sorted {n p k : Nat} : ∀ (j : Nat),
    (oeJ n p k j).Pairwise (fun p q => p.1 < q.1) := by
  intro j
  induction j using oeJ.induct n k with
  | case1 j h ih =>
    rw [oeJ, if_pos h, List.pairwise_append]
    refine ⟨?_, ih, ?_⟩
    · rw [List.pairwise_map]
      refine List.Pairwise.filter _ (List.Pairwise.imp ?_ List.pairwise_lt_range)
      intro a b hab
      simp only; omega
    · intro a ha b hb
      simp only [List.mem_map, List.mem_filter, List.mem_range] at ha
      obtain ⟨i, ⟨hi, _⟩, rfl⟩ := ha
      obtain ⟨_, _, m, i', _, _, h5⟩ := (oeJ_mem h.1 _ b).1 hb
      simp only; omega
  | case2 j h => rw [oeJ, if_neg h]; exact List.Pairwise.nil

/-- One layer on wires written as row `R` and column `c` of width `k`; `2p = 2mk`, `n = Tk`; `b` is
the parity of the first row. -/
theorem oeJ_run {p k m T b : Nat} (hk : 0 < k) (hm : 0 < m) (hp : p = m * k) (hb : b ≤ 1)
    (hT : 1 < T) (hT2 : T % 2 = 0) (x : Nat → Bool) (R c : Nat) (hc : c < k) (hR : R < T) :
    runB (oeJ (T * k) p k (b * k)) x (R * k + c) =
      if R % 2 = b then
        (if R / (2 * m) = (R + 1) / (2 * m) ∧ R + 1 < T then
          (x (R * k + c) && x ((R + 1) * k + c)) else x (R * k + c))
      else if R / (2 * m) = (R - 1) / (2 * m) ∧ 0 < R then
        (x ((R - 1) * k + c) || x (R * k + c)) else x (R * k + c) := by
  have hdiv : ∀ R c, c < k → (R * k + c) / k = R := by
    intro R c hc
    rw [Nat.add_comm, Nat.add_mul_div_right _ _ hk, Nat.div_eq_of_lt hc, Nat.zero_add]
  have hdp : ∀ R c, c < k → (R * k + c) / (p * 2) = R / (2 * m) := by
    intro R c hc
    rw [hp, show m * k * 2 = k * (2 * m) by ring, ← Nat.div_div_eq_div_mul, hdiv R c hc]
  have hmem : ∀ R c, c < k → R % 2 = b → R / (2 * m) = (R + 1) / (2 * m) → R + 1 < T →
      (R * k + c, R * k + c + k) ∈ oeJ (T * k) p k (b * k) := by
    intro R c hc h1 h2 h3
    rw [oeJ_mem hk]
    refine ⟨rfl, ?_, R / 2, c, hc, ?_, ?_⟩
    · rw [hdp R c hc, show R * k + c + k = (R + 1) * k + c by rw [Nat.add_mul]; omega,
        hdp _ c hc, h2]
    · have e : b * k + R / 2 * (2 * k) = R * k := by
        rw [← Nat.mul_assoc, ← Nat.add_mul]; congr 1; omega
      have : (R + 2) * k ≤ T * k := Nat.mul_le_mul_right _ (by omega)
      rw [Nat.add_mul] at this
      omega
    · have e : b * k + R / 2 * (2 * k) = R * k := by
        rw [← Nat.mul_assoc, ← Nat.add_mul]; congr 1; omega
      omega
  have hinv : ∀ q ∈ oeJ (T * k) p k (b * k), ∃ R c, c < k ∧ R % 2 = b ∧
      R / (2 * m) = (R + 1) / (2 * m) ∧ R + 1 < T ∧ q.1 = R * k + c ∧
      q.2 = (R + 1) * k + c := by
    intro q hq
    obtain ⟨h1, h2, m', i, h3, h4, h5⟩ := (oeJ_mem hk _ q).1 hq
    have e : b * k + m' * (2 * k) = (b + m' * 2) * k := by rw [Nat.add_mul, Nat.mul_assoc]
    have e1 : q.1 = (b + m' * 2) * k + i := by omega
    have e2 : q.2 = (b + m' * 2 + 1) * k + i := by rw [Nat.add_mul _ 1]; omega
    refine ⟨b + m' * 2, i, h3, by omega, ?_, ?_, e1, e2⟩
    · rw [e1, e2, hdp _ i h3, hdp _ i h3] at h2
      exact h2
    · rw [e] at h4
      by_contra hcon
      have : T * k ≤ (b + m' * 2 + 1) * k := Nat.mul_le_mul_right _ (by omega)
      rw [Nat.add_mul _ 1] at this
      omega
  have hL := runB_layer (d := k) hk (P := fun i => i / k % 2 = b)
    (by
      intro i hi
      show ¬ ((i + k) / k % 2 = b)
      rw [Nat.add_div_right _ hk]; omega)
    (ps := oeJ (T * k) p k (b * k))
    (by
      intro q hq
      obtain ⟨R, c, h1, h2, h3, h4, h5, h6⟩ := hinv q hq
      refine ⟨by rw [h6, h5, Nat.add_mul]; omega, ?_⟩
      show q.1 / k % 2 = b
      rw [h5, hdiv R c h1]; exact h2)
    (oeJ_sorted _) x
  have hcol : ∀ R R' c', c' < k → R * k + c = R' * k + c' → R = R' := by
    intro R R' c' hc' e
    have : (R * k + c) / k = (R' * k + c') / k := by rw [e]
    rwa [hdiv R c hc, hdiv R' c' hc'] at this
  by_cases h1 : R % 2 = b
  · rw [if_pos h1]
    by_cases h2 : R / (2 * m) = (R + 1) / (2 * m) ∧ R + 1 < T
    · rw [if_pos h2]
      have := (hL _ (hmem R c hc h1 h2.1 h2.2)).1
      rw [show (R + 1) * k + c = R * k + c + k by rw [Nat.add_mul]; omega]
      exact this
    · rw [if_neg h2, runB_out]
      intro q hq
      obtain ⟨R', c', g1, g2, g3, g4, g5, g6⟩ := hinv q hq
      constructor
      · intro e
        rw [g5] at e
        have := hcol _ _ _ g1 e
        subst this
        exact h2 ⟨g3, g4⟩
      · intro e
        rw [g6] at e
        have := hcol _ _ _ g1 e
        omega
  · rw [if_neg h1]
    by_cases h2 : R / (2 * m) = (R - 1) / (2 * m) ∧ 0 < R
    · rw [if_pos h2]
      have e : R * k + c = (R - 1) * k + c + k := by
        conv_lhs => rw [show R = R - 1 + 1 by omega, Nat.add_mul]
        omega
      have := (hL _ (hmem (R - 1) c hc (by omega)
        (by rw [show R - 1 + 1 = R by omega]; exact h2.1.symm) (by omega))).2
      simp only at this
      rw [← e] at this
      exact this
    · rw [if_neg h2, runB_out]
      intro q hq
      obtain ⟨R', c', g1, g2, g3, g4, g5, g6⟩ := hinv q hq
      constructor
      · intro e
        rw [g5] at e
        have := hcol _ _ _ g1 e
        subst this
        exact h1 g2
      · intro e
        rw [g6] at e
        have := hcol _ _ _ g1 e
        subst this
        exact h2 ⟨by rw [Nat.add_sub_cancel]; exact g3.symm, by omega⟩

/-- Rows of width `W`, blocks of `m` rows: in each block each column is sorted, the numbers of ones
do not decrease from a column to the next and vary by at most 2. -/
def Grid (T m W : Nat) (x : Nat → Bool) : Prop :=
  ∃ u : Nat → Nat → Nat, (∀ B c, u B c ≤ m) ∧ (∀ B c c', c ≤ c' → c' < W → u B c ≤ u B c') ∧
    (∀ B c, c < W → u B c ≤ u B 0 + 2) ∧
    ∀ R c, R < T → c < W → x (R * W + c) = decide (m ≤ R % m + u (R / m) c)

theorem two_mul_div {R m : Nat} (hm : 0 < m) : R / (2 * m) = R / 2 / m ∧
    R % (2 * m) = 2 * (R / 2 % m) + R % 2 := by
  refine ⟨(Nat.div_div_eq_div_mul R 2 m).symm, ?_⟩
  have h1 := Nat.div_add_mod R (2 * m)
  have h2 := Nat.div_add_mod (R / 2) m
  rw [← Nat.div_div_eq_div_mul, Nat.mul_assoc] at h1
  have := Nat.div_add_mod R 2
  omega

/-- The layers after the first one of a merge. -/
theorem oe_next {k m T : Nat} (hk : 0 < k) (hm : 0 < m) (hT : 0 < T) (hTm : T % m = 0)
    {x : Nat → Bool} (hg : Grid T m (2 * k) x) :
    Grid (2 * T) (2 * m) k (runB (oeJ (2 * T * k) (m * k) k (1 * k)) x) := by
  obtain ⟨u, h1, h2, h3, h4⟩ := hg
  refine ⟨fun B c => if c < k then u B c + u B (k + c) else 0, ?_, ?_, ?_, ?_⟩
  · intro B c
    simp only
    split
    · have := h1 B c; have := h1 B (k + c); omega
    · omega
  · intro B c c' hc hc'
    simp only
    rw [if_pos (by omega), if_pos hc']
    have := h2 B c c' hc (by omega)
    have := h2 B (k + c) (k + c') (by omega) (by omega)
    omega
  · intro B c hc
    simp only
    rw [if_pos hc, if_pos hk]
    have := h2 B c (k + 0) (by omega) (by omega)
    have := h3 B (k + c) (by omega)
    omega
  · intro R c hR hc
    have hrow : ∀ R, R < 2 * T → x (R * k + c) = decide (m ≤ R / 2 % m + u (R / 2 / m)
        (R % 2 * k + c)) := by
      intro R hR
      have := h4 (R / 2) (R % 2 * k + c) (by omega) (by
        have := Nat.mod_lt R (show 2 > 0 by omega)
        have : R % 2 * k ≤ 1 * k := Nat.mul_le_mul_right _ (by omega)
        omega)
      rw [← this]
      congr 1
      rw [← Nat.mul_assoc, ← Nat.add_assoc, ← Nat.add_mul]
      congr 2; omega
    rw [oeJ_run (T := 2 * T) hk hm rfl (by omega) (by omega) (by omega) x R c hc hR]
    simp only [hc, if_true]
    obtain ⟨e1, e2⟩ := two_mul_div (R := R) hm
    have hB := h1 (R / 2 / m) c
    have hB' := h1 (R / 2 / m) (k + c)
    have hle := h2 (R / 2 / m) c (k + c) (by omega) (by omega)
    have hle2 := h3 (R / 2 / m) (k + c) (by omega)
    have h0 := h2 (R / 2 / m) 0 c (by omega) (by omega)
    have hmod := Nat.mod_lt (R / 2) hm
    rw [e1, e2]
    by_cases hodd : R % 2 = 1
    · rw [if_pos hodd, hrow R hR, hodd, Nat.one_mul]
      obtain ⟨f1, f2⟩ := two_mul_div (R := R + 1) hm
      have hh : (R + 1) / 2 = R / 2 + 1 := by omega
      rw [f1]
      by_cases hlast : R / 2 % m + 1 = m
      · -- last row of the block
        have hne : (R + 1) / 2 / m ≠ R / 2 / m := by
          rw [hh]
          have a1 := Nat.div_add_mod (R / 2) m
          have : R / 2 + 1 = (R / 2 / m + 1) * m := by
            rw [Nat.add_mul, Nat.mul_comm (R / 2 / m)]; omega
          rw [this, Nat.mul_div_cancel _ hm]; omega
        rw [if_neg (fun h => hne h.1.symm)]
        congr 1; simp only [eq_iff_iff]; omega
      · have a1 := Nat.div_add_mod (R / 2) m
        have hd : (R / 2 + 1) / m = R / 2 / m ∧ (R / 2 + 1) % m = R / 2 % m + 1 := by
          have e : R / 2 + 1 = (R / 2 % m + 1) + m * (R / 2 / m) := by omega
          constructor
          · rw [e, Nat.add_mul_div_left _ _ hm, Nat.div_eq_of_lt (by omega), Nat.zero_add]
          · rw [e, Nat.add_mul_mod_self_left, Nat.mod_eq_of_lt (by omega)]
        have hlt : R + 1 < 2 * T := by
          by_contra hcon
          have : R / 2 + 1 = T := by omega
          rw [← this, hd.2] at hTm
          omega
        rw [hh, hd.1, if_pos ⟨rfl, hlt⟩, hrow (R + 1) hlt, hh, hd.1, hd.2,
          show (R + 1) % 2 = 0 by omega, Nat.zero_mul, Nat.zero_add, ← Bool.decide_and]
        congr 1; simp only [eq_iff_iff]; omega
    · have hev : R % 2 = 0 := by omega
      rw [if_neg hodd, hrow R hR, hev, Nat.zero_mul, Nat.zero_add]
      by_cases hfirst : R / 2 % m = 0
      · have hcond : ¬ (R / 2 / m = (R - 1) / (2 * m) ∧ 0 < R) := by
          rintro ⟨g1, g2⟩
          rw [(two_mul_div (R := R - 1) hm).1] at g1
          have a1 := Nat.div_add_mod (R / 2) m
          have a2 := Nat.div_add_mod ((R - 1) / 2) m
          have a3 := Nat.mod_lt ((R - 1) / 2) hm
          rw [← g1] at a2
          omega
        rw [if_neg hcond]
        congr 1; simp only [eq_iff_iff]; omega
      · have a1 := Nat.div_add_mod (R / 2) m
        have hh : (R - 1) / 2 = R / 2 - 1 := by omega
        have hd : (R / 2 - 1) / m = R / 2 / m ∧ (R / 2 - 1) % m = R / 2 % m - 1 := by
          have e : R / 2 - 1 = (R / 2 % m - 1) + m * (R / 2 / m) := by omega
          constructor
          · rw [e, Nat.add_mul_div_left _ _ hm, Nat.div_eq_of_lt (by omega), Nat.zero_add]
          · rw [e, Nat.add_mul_mod_self_left, Nat.mod_eq_of_lt (by omega)]
        rw [(two_mul_div (R := R - 1) hm).1, hh, hd.1, if_pos ⟨rfl, by omega⟩,
          hrow (R - 1) (by omega), hh, hd.1, hd.2, show (R - 1) % 2 = 1 by omega, Nat.one_mul,
          ← Bool.decide_or]
        congr 1; simp only [eq_iff_iff]; omega

/-- Blocks of size `p` are sorted. -/
def BlockSorted (n p : Nat) (x : Nat → Bool) : Prop :=
  ∃ u : Nat → Nat, (∀ B, u B ≤ p) ∧ ∀ w, w < n → x w = decide (p ≤ w % p + u (w / p))

/-- First layer of a merge. -/
theorem oe_first {p T : Nat} (hp : 0 < p) (hT : 0 < T) {x : Nat → Bool}
    (h : BlockSorted (2 * T * p) p x) :
    Grid (2 * T) 2 p (runB (oeJ (2 * T * p) p p (0 * p)) x) := by
  obtain ⟨u, h1, h2⟩ := h
  refine ⟨fun B c => (if p ≤ c + u (2 * B) then 1 else 0) +
    (if p ≤ c + u (2 * B + 1) then 1 else 0), ?_, ?_, ?_, ?_⟩
  · intro B c
    simp only
    split <;> split <;> omega
  · intro B c c' hc _
    simp only
    split <;> split <;> split <;> split <;> omega
  · intro B c _
    simp only
    split <;> split <;> split <;> split <;> omega
  · intro R c hR hc
    have hrow : ∀ R, R < 2 * T → x (R * p + c) = decide (p ≤ c + u R) := by
      intro R hR
      have hlt : R * p + c < 2 * T * p := by
        have : (R + 1) * p ≤ 2 * T * p := Nat.mul_le_mul_right _ (by omega)
        rw [Nat.add_mul] at this; omega
      rw [h2 _ hlt]
      rw [Nat.add_comm (R * p) c, Nat.add_mul_mod_self_right, Nat.mod_eq_of_lt hc,
        Nat.add_mul_div_right _ _ hp, Nat.div_eq_of_lt hc, Nat.zero_add]
    rw [oeJ_run (m := 1) hp (by omega) (by omega) (by omega) (by omega) (by omega) x R c hc hR]
    simp only [Nat.mul_one]
    by_cases hev : R % 2 = 0
    · rw [if_pos hev, if_pos ⟨by omega, by omega⟩, hrow R hR, hrow (R + 1) (by omega),
        ← Bool.decide_and]
      congr 1; simp only [eq_iff_iff]
      rw [show 2 * (R / 2) = R by omega]
      split <;> split <;> omega
    · rw [if_neg hev, if_pos ⟨by omega, by omega⟩, hrow R hR, hrow (R - 1) (by omega),
        ← Bool.decide_or]
      congr 1; simp only [eq_iff_iff]
      rw [show 2 * (R / 2) = R - 1 by omega, show R - 1 + 1 = R by omega]
      split <;> split <;> omega

theorem grid_one {T m : Nat} {x : Nat → Bool} (h : Grid T m 1 x) : BlockSorted T m x := by
  obtain ⟨u, h1, _, _, h4⟩ := h
  refine ⟨fun B => u B 0, fun B => h1 B 0, fun w hw => ?_⟩
  have := h4 w 0 hw (by omega)
  simpa using this

theorem oeK_zero (n p : Nat) (x : Nat → Bool) : runB (oeK n p 0) x = x := by
  rw [oeK, if_pos rfl]; rfl

theorem oe_rest {n p : Nat} : ∀ (b : Nat) {m T : Nat} {x : Nat → Bool}, 1 < m → 0 < T →
    T % m = 0 → p = m * 2 ^ b → n = 2 * T * 2 ^ b →
    Grid T m (2 * 2 ^ b) x → BlockSorted n (2 * p) (runB (oeK n p (2 ^ b)) x) := by
  intro b
  induction b with
  | zero =>
    intro m T x hm hT hTm hp hn hg
    have hk : (2 : Nat) ^ 0 % p = 1 * 2 ^ 0 := by
      rw [hp]; simp only [Nat.pow_zero, Nat.mul_one]; exact Nat.mod_eq_of_lt hm
    rw [oeK, if_neg (by omega), runB_append, show (2 : Nat) ^ 0 / 2 = 0 by omega, oeK_zero, hk]
    have := oe_next (k := 2 ^ 0) (by omega) (by omega) hT hTm hg
    rw [← hn, ← hp] at this
    have h2 := grid_one this
    have e1 : n = 2 * T := by omega
    have e2 : 2 * p = 2 * m := by omega
    rw [e2]
    rw [e1] at h2 ⊢
    exact h2
  | succ b ih =>
    intro m T x hm hT hTm hp hn hg
    have hpos := Nat.two_pow_pos b
    have hpos' := Nat.two_pow_pos (b + 1)
    have hk : (2 : Nat) ^ (b + 1) % p = 1 * 2 ^ (b + 1) := by
      rw [Nat.one_mul, hp]
      apply Nat.mod_eq_of_lt
      have : 2 * 2 ^ (b + 1) ≤ m * 2 ^ (b + 1) := Nat.mul_le_mul_right _ hm
      omega
    have e : (2 : Nat) ^ (b + 1) = 2 * 2 ^ b := by rw [Nat.pow_succ, Nat.mul_comm]
    rw [oeK, if_neg (by omega), runB_append, hk]
    have := oe_next (k := 2 ^ (b + 1)) (by omega) (by omega) hT hTm hg
    rw [← hn, ← hp] at this
    rw [show (2 : Nat) ^ (b + 1) / 2 = 2 ^ b by omega]
    refine ih (m := 2 * m) (T := 2 * T) (by omega) (by omega) ?_ ?_ ?_ ?_
    · rw [Nat.mul_mod_mul_left, hTm]
    · rw [hp, e]; ring
    · rw [hn, e]; ring
    · rw [← e]; exact this

theorem oe_phase {n e T : Nat} {x : Nat → Bool} (hT : 0 < T) (hn : n = 2 * T * 2 ^ e)
    (h : BlockSorted n (2 ^ e) x) :
    BlockSorted n (2 ^ (e + 1)) (runB (oeK n (2 ^ e) (2 ^ e)) x) := by
  have hpos := Nat.two_pow_pos e
  have := oe_first hpos hT (by rw [← hn]; exact h)
  rw [← hn, Nat.zero_mul] at this
  rw [oeK, if_neg (by omega), runB_append, Nat.mod_self]
  rcases e with _ | e
  · rw [show (2 : Nat) ^ 0 / 2 = 0 by omega, oeK_zero]
    have h2 := grid_one this
    rw [← show n = 2 * T by omega] at h2
    exact h2
  · have ee : (2 : Nat) ^ (e + 1) = 2 * 2 ^ e := by rw [Nat.pow_succ, Nat.mul_comm]
    rw [show (2 : Nat) ^ (e + 1) / 2 = 2 ^ e by omega]
    rw [show (2 : Nat) ^ (e + 1 + 1) = 2 * 2 ^ (e + 1) by rw [Nat.pow_succ 2 (e + 1)]; omega]
    refine oe_rest e (m := 2) (T := 2 * T) (by omega) (by omega) (by omega) ee ?_ ?_
    · rw [hn, ee]; ring
    · rw [← ee]; exact this

theorem oe_for {t : Nat} : ∀ (k e : Nat) {x : Nat → Bool}, e + k = t → BlockSorted (2 ^ t) (2 ^ e) x →
    BlockSorted (2 ^ t) (2 ^ t) (runB (oeP (2 ^ t) (2 ^ e)) x) := by
  intro k
  induction k with
  | zero =>
    intro e x he h
    have : e = t := by omega
    subst this
    rw [oeP, if_neg (by omega)]
    exact h
  | succ k ih =>
    intro e x he h
    have e1 : (2 : Nat) ^ t = 2 * 2 ^ k * 2 ^ e := by
      rw [← he, Nat.pow_add, Nat.pow_succ]; ring
    have hpos := Nat.two_pow_pos e
    have hlt : 2 ^ e < 2 ^ t := Nat.pow_lt_pow_right (by omega) (by omega)
    rw [oeP, if_pos ⟨hpos, hlt⟩, runB_append, ← Nat.pow_succ]
    exact ih (e + 1) (by omega) (oe_phase (Nat.two_pow_pos k) e1 h)

theorem oddEvenMerge_sorts01 (t : Nat) : Sorts01 (2 ^ t) (oddEvenMergePairs (2 ^ t)) := by
  intro x i j hij hj h
  unfold oddEvenMergePairs at h ⊢
  rw [if_neg (by omega)] at h ⊢
  obtain ⟨u, _, h2⟩ := oe_for (t := t) t 0 (x := x) (by omega) (by
    refine ⟨fun w => (x w).toNat, fun w => Bool.toNat_le _, fun w hw => ?_⟩
    cases hy : x w <;> simp [hy, Nat.mod_one])
  rw [Nat.pow_zero] at h2
  rw [h2 i (by omega)] at h
  rw [h2 j hj]
  rw [Nat.mod_eq_of_lt (by omega), Nat.div_eq_of_lt (by omega)] at h ⊢
  simp only [decide_eq_true_eq] at h ⊢
  omega

theorem oeJ_range {T k p j : Nat} (hk : 0 < k) (hj : j % k = 0) :
    ∀ c ∈ oeJ (T * k) p k j, c.1 < c.2 ∧ c.2 < T * k := by
  intro c hc
  obtain ⟨h1, _, m, i, h3, h4, h5⟩ := (oeJ_mem hk j c).1 hc
  refine ⟨by omega, ?_⟩
  obtain ⟨j', rfl⟩ := Nat.dvd_of_mod_eq_zero hj
  have e : k * j' + m * (2 * k) = (j' + m * 2) * k := by ring
  rw [e] at h4 h5
  have : j' + m * 2 + 1 < T := by
    by_contra hcon
    have : T * k ≤ (j' + m * 2 + 1) * k := Nat.mul_le_mul_right _ (by omega)
    rw [Nat.add_mul _ 1] at this
    omega
  have : (j' + m * 2 + 2) * k ≤ T * k := Nat.mul_le_mul_right _ (by omega)
  rw [Nat.add_mul] at this
  omega

theorem oeK_range {t e : Nat} : ∀ (b : Nat), b ≤ e → e ≤ t → ∀ c ∈ oeK (2 ^ t) (2 ^ e) (2 ^ b),
    c.1 < c.2 ∧ c.2 < 2 ^ t := by
  intro b
  have key : ∀ b, b ≤ e → e ≤ t → ∀ c ∈ oeJ (2 ^ t) (2 ^ e) (2 ^ b) (2 ^ b % 2 ^ e),
      c.1 < c.2 ∧ c.2 < 2 ^ t := by
    intro b hb he
    have hpos := Nat.two_pow_pos b
    have e1 : 2 ^ t = 2 ^ (t - b) * 2 ^ b := by rw [← Nat.pow_add]; congr 1; omega
    rw [e1]
    apply oeJ_range hpos
    rcases Nat.lt_or_eq_of_le hb with h | h
    · rw [Nat.mod_eq_of_lt (Nat.pow_lt_pow_right (by omega) h), Nat.mod_self]
    · rw [h, Nat.mod_self, Nat.zero_mod]
  induction b with
  | zero =>
    intro hb he c hc
    rw [oeK, if_neg (by simp), List.mem_append] at hc
    rcases hc with hc | hc
    · exact key 0 hb he c hc
    · rw [show (2 : Nat) ^ 0 / 2 = 0 by omega, oeK, if_pos rfl] at hc; cases hc
  | succ b ih =>
    intro hb he c hc
    rw [oeK, if_neg (Nat.ne_of_gt (Nat.two_pow_pos _)), List.mem_append] at hc
    rcases hc with hc | hc
    · exact key (b + 1) hb he c hc
    · rw [show (2 : Nat) ^ (b + 1) / 2 = 2 ^ b by rw [Nat.pow_succ]; omega] at hc
      exact ih (by omega) he c hc

theorem oeP_range {t : Nat} : ∀ (k e : Nat), e + k = t → ∀ c ∈ oeP (2 ^ t) (2 ^ e),
    c.1 < c.2 ∧ c.2 < 2 ^ t := by
  intro k
  induction k with
  | zero =>
    intro e he c hc
    have : e = t := by omega
    subst this
    rw [oeP, if_neg (by omega)] at hc; cases hc
  | succ k ih =>
    intro e he c hc
    have hpos := Nat.two_pow_pos e
    have hlt : 2 ^ e < 2 ^ t := Nat.pow_lt_pow_right (by omega) (by omega)
    rw [oeP, if_pos ⟨hpos, hlt⟩, List.mem_append, ← Nat.pow_succ] at hc
    rcases hc with hc | hc
    · exact oeK_range e (Nat.le_refl _) (by omega) c hc
    · exact ih (e + 1) (by omega) c hc

theorem oddEvenMerge_range (t : Nat) : ∀ c ∈ oddEvenMergePairs (2 ^ t), c.1 < c.2 ∧ c.2 < 2 ^ t := by
  unfold oddEvenMergePairs
  split
  · intro c hc; cases hc
  · have := oeP_range (t := t) t 0 (by omega)
    rwa [Nat.pow_zero] at this

/-! ### The counting functions give the number of pairs -/

theorem foldl_count {f : Nat → Bool} : ∀ (l : List Nat) (nb : Nat),
    l.foldl (fun nb i => if f i then nb + 1 else nb) nb = nb + (l.filter f).length := by
  intro l
  induction l with
  | nil => intro nb; rfl
  | cons a l ih =>
    intro nb
    rw [List.foldl_cons, ih, List.filter_cons]
    split <;> simp <;> omega

theorem meWhileCount_eq {n p : Nat} : ∀ (q r d nb : Nat),
    meWhileCount n p q r d nb = nb + (meWhile n p q r d).length := by
  intro q r d
  induction q, r, d using meWhile.induct p with
  | case1 q r => intro nb; rw [meWhile, meWhileCount]; simp
  | case2 q r d hd ih =>
    intro nb
    rw [meWhile, meWhileCount, if_neg hd, if_neg hd, ih, foldl_count, List.length_append]
    unfold mePass
    rw [List.length_map]; omega

theorem meForCount_eq {n t : Nat} : ∀ (p nb : Nat),
    meForCount n t p nb = nb + (meFor n t p).length := by
  intro p
  induction p using meFor.induct with
  | case1 => intro nb; rw [meFor, meForCount]; simp
  | case2 p hp ih =>
    intro nb
    rw [meFor, meForCount, if_neg hp, if_neg hp, ih, meWhileCount_eq, List.length_append]; omega

theorem oeJCount_eq {n p k : Nat} : ∀ (j nb : Nat),
    oeJCount n p k j nb = nb + (oeJ n p k j).length := by
  intro j
  induction j using oeJ.induct n k with
  | case1 j h ih =>
    intro nb
    rw [oeJ, oeJCount, if_pos h, if_pos h, ih, foldl_count, List.length_append, List.length_map]
    omega
  | case2 j h => intro nb; rw [oeJ, oeJCount, if_neg h, if_neg h]; rfl

theorem oeKCount_eq {n p : Nat} : ∀ (k nb : Nat),
    oeKCount n p k nb = nb + (oeK n p k).length := by
  intro k
  induction k using oeK.induct with
  | case1 => intro nb; rw [oeK, oeKCount]; simp
  | case2 k h ih =>
    intro nb
    rw [oeK, oeKCount, if_neg h, if_neg h, ih, oeJCount_eq, List.length_append]; omega

theorem oePCount_eq {n : Nat} : ∀ (p nb : Nat),
    oePCount n p nb = nb + (oeP n p).length := by
  intro p
  induction p using oeP.induct n with
  | case1 p h ih =>
    intro nb
    rw [oeP, oePCount, if_pos h, if_pos h, ih, oeKCount_eq, List.length_append]; omega
  | case2 p h => intro nb; rw [oeP, oePCount, if_neg h, if_neg h]; rfl

end CppSort
