import Verif.Proof.NetOptimal
import Mathlib.Algebra.Group.End
import Mathlib.Data.Finset.Max
import Mathlib.Algebra.Order.BigOperators.Group.Finset
/-
Van Voorhis' bound: in a network that sorts `n` elements, the least element meets at least `log2 n`
comparators when it starts from a suitable position; without these comparators, the network sorts the
other `n - 1` elements.
-/
set_option autoImplicit false

namespace CppSort

theorem runB_congr_lt {n : Nat} : ∀ (net : List (Nat × Nat)), (∀ p ∈ net, p.1 < n ∧ p.2 < n) →
    ∀ u w : Nat → Bool, (∀ k < n, u k = w k) → ∀ k < n, runB net u k = runB net w k := by
  intro net
  induction net with
  | nil => intro _ u w h k hk; exact h k hk
  | cons p net ih =>
    intro hp u w h k hk
    refine ih (fun q hq => hp q (by simp [hq])) (ceB p u) (ceB p w) (fun k hk => ?_) k hk
    obtain ⟨h1, h2⟩ := hp p (by simp)
    unfold ceB
    rw [h _ h1, h _ h2, h k hk]

theorem runB_cons (p : Nat × Nat) (net : List (Nat × Nat)) (x : Nat → Bool) :
    runB (p :: net) x = runB net (ceB p x) := rfl

/-! ### Networks with comparators in both directions -/

theorem ceB_perm (σ : Equiv.Perm Nat) (i j : Nat) (x : Nat → Bool) :
    ceB (i, j) (x ∘ σ) = ceB (σ i, σ j) x ∘ σ := by
  funext k
  simp only [ceB, Function.comp, σ.injective.eq_iff]

theorem ceB_swap {i j : Nat} (x : Nat → Bool) (h : i ≠ j) :
    ceB (j, i) x = ceB (i, j) x ∘ Equiv.swap i j := by
  funext k
  simp only [Function.comp]
  by_cases h1 : k = i
  · subst h1
    simp [ceB, h, Ne.symm h, Bool.or_comm]
  · by_cases h2 : k = j
    · subst h2
      simp [ceB, Bool.and_comm]
    · rw [Equiv.swap_apply_of_ne_of_ne h1 h2]
      simp [ceB, h1, h2]

/-- A permutation of the positions below `n`. -/
def WirePerm (n : Nat) (σ : Equiv.Perm Nat) : Prop := ∀ k < n, σ k < n

theorem WirePerm.swap {n i j : Nat} (hi : i < n) (hj : j < n) : WirePerm n (Equiv.swap i j) := by
  intro k hk
  rw [Equiv.swap_apply_def]
  split
  · exact hj
  · split
    · exact hi
    · exact hk

theorem WirePerm.mul {n : Nat} {σ τ : Equiv.Perm Nat} (h1 : WirePerm n σ) (h2 : WirePerm n τ) :
    WirePerm n (σ * τ) := fun k hk => h1 _ (h2 k hk)

/-- A network with comparators in both directions is a network with comparators in one direction,
followed by a permutation. -/
theorem untangle {n : Nat} : ∀ (net : List (Nat × Nat)),
    (∀ p ∈ net, p.1 ≠ p.2 ∧ p.1 < n ∧ p.2 < n) → ∀ σ, WirePerm n σ →
    ∃ net', net'.length = net.length ∧ (∀ p ∈ net', p.1 < p.2 ∧ p.2 < n) ∧ ∃ τ, WirePerm n τ ∧
      ∀ x, runB net (x ∘ σ) = runB net' x ∘ τ := by
  intro net
  induction net with
  | nil => intro _ σ hσ; exact ⟨[], rfl, by simp, σ, hσ, fun x => rfl⟩
  | cons p net ih =>
    intro hp σ hσ
    obtain ⟨h0, h1, h2⟩ := hp p (by simp)
    have hs : σ p.1 ≠ σ p.2 := fun h => h0 (σ.injective h)
    rcases Nat.lt_or_gt_of_ne hs with hlt | hlt
    · obtain ⟨net', e1, e2, τ, e3, e4⟩ := ih (fun q hq => hp q (by simp [hq])) σ hσ
      refine ⟨(σ p.1, σ p.2) :: net', by simp [e1], ?_, τ, e3, fun x => ?_⟩
      · intro q hq
        rcases List.mem_cons.1 hq with rfl | hq
        · exact ⟨hlt, hσ _ h2⟩
        · exact e2 q hq
      · rw [runB_cons, runB_cons, ← e4, ← ceB_perm]
    · obtain ⟨net', e1, e2, τ, e3, e4⟩ := ih (fun q hq => hp q (by simp [hq]))
        (Equiv.swap (σ p.2) (σ p.1) * σ) ((WirePerm.swap (hσ _ h2) (hσ _ h1)).mul hσ)
      refine ⟨(σ p.2, σ p.1) :: net', by simp [e1], ?_, τ, e3, fun x => ?_⟩
      · intro q hq
        rcases List.mem_cons.1 hq with rfl | hq
        · exact ⟨hlt, hσ _ h1⟩
        · exact e2 q hq
      · rw [runB_cons, runB_cons, ← e4]
        congr 1
        rw [show p = (p.1, p.2) from rfl, ceB_perm, ceB_swap x (Ne.symm hs)]
        rfl

/-- A network leaves a sorted input as it is. -/
theorem runB_sorted {n : Nat} : ∀ (net : List (Nat × Nat)), (∀ p ∈ net, p.1 < p.2 ∧ p.2 < n) →
    ∀ x : Nat → Bool, (∀ i j, i < j → x i = true → x j = true) → runB net x = x := by
  intro net
  induction net with
  | nil => intro _ x _; rfl
  | cons p net ih =>
    intro hp x hx
    have : ceB p x = x := by
      funext k
      have h := hx p.1 p.2 (hp p (by simp)).1
      unfold ceB
      split
      · rename_i e
        subst e
        cases e1 : x p.1
        · simp
        · simp [h e1]
      · split
        · rename_i e
          subst e
          cases e1 : x p.1
          · simp
          · simp [h e1]
        · rfl
    rw [runB_cons, this]
    exact ih (fun q hq => hp q (by simp [hq])) x hx

/-- A network whose outputs are sorted when read in a fixed order sorts, with as many comparators. -/
theorem sorts01_of_order {n : Nat} {net : List (Nat × Nat)}
    (hp : ∀ p ∈ net, p.1 ≠ p.2 ∧ p.1 < n ∧ p.2 < n) (f : Nat → Nat) (hf : ∀ k < n, f k < n)
    (hi : ∀ i < n, ∀ j < n, f i = f j → i = j)
    (hs : ∀ x, ∀ i j, i < j → j < n → runB net x (f i) = true → runB net x (f j) = true) :
    ∃ net', net'.length = net.length ∧ (∀ p ∈ net', p.1 < p.2 ∧ p.2 < n) ∧ Sorts01 n net' := by
  obtain ⟨net', e1, e2, τ, e3, e4⟩ := untangle net hp 1 (fun k hk => hk)
  refine ⟨net', e1, e2, ?_⟩
  have e4 : ∀ x k, runB net x k = runB net' x (τ k) := fun x k => congrFun (e4 x) k
  -- the order of reading is increasing
  have mono : ∀ i j, i < j → j < n → τ (f i) < τ (f j) := by
    intro i j hij hj
    have h := hs (fun k => decide (τ (f i) ≤ k)) i j hij hj
    rw [e4, e4, runB_sorted net' e2 _ (fun a b hab h => by
      simp only [decide_eq_true_eq] at h ⊢; omega)] at h
    simp only [decide_eq_true_eq] at h
    have h := h (Nat.le_refl _)
    have : τ (f i) ≠ τ (f j) := fun e => by
      have := hi i (by omega) j hj (τ.injective e)
      omega
    omega
  have lo : ∀ k, k < n → k ≤ τ (f k) := by
    intro k
    induction k with
    | zero => intro _; omega
    | succ k ih =>
      intro hk
      have := mono k (k + 1) (by omega) hk
      have := ih (by omega)
      omega
  have hiq : ∀ d k, k + d + 1 = n → τ (f k) ≤ k := by
    intro d
    induction d with
    | zero =>
      intro k hk
      have := e3 _ (hf k (by omega))
      omega
    | succ d ih =>
      intro k hk
      have := mono k (k + 1) (by omega) (by omega)
      have := ih (k + 1) (by omega)
      omega
  have id : ∀ k, k < n → τ (f k) = k := fun k hk =>
    Nat.le_antisymm (hiq (n - 1 - k) k (by omega)) (lo k hk)
  intro x i j hij hj
  have h := hs x i j hij hj
  rwa [e4, e4, id i (by omega), id j hj] at h

/-! ### The way of the least element -/

/-- Where a comparator sends the least element. -/
def minStep (p : Nat × Nat) (q : Nat) : Nat := if q = p.2 then p.1 else q

/-- Where the least element ends. -/
def minEnd : List (Nat × Nat) → Nat → Nat
  | [], q => q
  | p :: net, q => minEnd net (minStep p q)

/-- Does the least element meet a comparator? -/
def minMeets (p : Nat × Nat) (q : Nat) : Nat := if q = p.1 then 1 else if q = p.2 then 1 else 0

/-- How many comparators the least element meets. -/
def minMet : List (Nat × Nat) → Nat → Nat
  | [], _ => 0
  | p :: net, q => minMeets p q + minMet net (minStep p q)

theorem minEnd_append : ∀ (net : List (Nat × Nat)) (p : Nat × Nat) (q : Nat),
    minEnd (net ++ [p]) q = minStep p (minEnd net q)
  | [], _, _ => rfl
  | r :: net, p, q => minEnd_append net p (minStep r q)

theorem minMet_append : ∀ (net : List (Nat × Nat)) (p : Nat × Nat) (q : Nat),
    minMet (net ++ [p]) q = minMet net q + minMeets p (minEnd net q)
  | [], p, q => by simp [minMet, minEnd]
  | r :: net, p, q => by
    have := minMet_append net p (minStep r q)
    simp only [List.cons_append, minMet, minEnd, this]
    omega

/-- At most `2 ^ d` starting positions lead to a position through `d` comparators or fewer. -/
theorem minMet_card (n : Nat) (net : List (Nat × Nat)) : ∀ q d,
    ((Finset.range n).filter fun w => minEnd net w = q ∧ minMet net w ≤ d).card ≤ 2 ^ d := by
  induction net using List.reverseRecOn with
  | nil =>
    intro q d
    refine (Finset.card_le_card (t := {q}) fun w hw => ?_).trans (by simpa using Nat.one_le_two_pow)
    exact Finset.mem_singleton.2 (Finset.mem_filter.1 hw).2.1
  | append_singleton net p ih =>
    intro q d
    by_cases hq : q = p.1 ∨ q = p.2
    · cases d with
      | zero =>
        refine (Finset.card_le_card (t := ∅) fun w hw => ?_).trans (by simp)
        simp only [Finset.mem_filter, minEnd_append, minMet_append] at hw
        obtain ⟨-, h1, h2⟩ := hw
        unfold minStep at h1
        unfold minMeets at h2
        split at h1 <;> split at h2 <;> omega
      | succ d =>
        have h1 := ih p.1 d
        have h2 := ih p.2 d
        refine (Finset.card_le_card fun w hw => ?_).trans ((Finset.card_union_le
          ((Finset.range n).filter fun w => minEnd net w = p.1 ∧ minMet net w ≤ d)
          ((Finset.range n).filter fun w => minEnd net w = p.2 ∧ minMet net w ≤ d)).trans
          (by rw [Nat.pow_succ]; omega))
        simp only [Finset.mem_filter, minEnd_append, minMet_append, Finset.mem_union] at hw ⊢
        obtain ⟨h0, h1, h2⟩ := hw
        unfold minStep at h1
        unfold minMeets at h2
        simp only [h0, true_and]
        split at h1 <;> split at h2 <;> omega
    · refine (Finset.card_le_card fun w hw => ?_).trans (ih q d)
      simp only [Finset.mem_filter, minEnd_append, minMet_append] at hw ⊢
      obtain ⟨h0, h1, h2⟩ := hw
      unfold minStep at h1
      refine ⟨h0, ?_⟩
      split at h1 <;> omega

/-- The comparators that the least element does not meet. -/
def minRest : List (Nat × Nat) → Nat → Equiv.Perm Nat → List (Nat × Nat) × Equiv.Perm Nat
  | [], _, σ => ([], σ)
  | p :: net, q, σ =>
    if q = p.2 then minRest net p.1 (σ * Equiv.swap p.1 p.2)
    else if q = p.1 then minRest net q σ
    else ((σ p.1, σ p.2) :: (minRest net q σ).1, (minRest net q σ).2)

theorem minRest_spec {n : Nat} : ∀ (net : List (Nat × Nat)) (q : Nat) (σ : Equiv.Perm Nat),
    (∀ p ∈ net, p.1 < p.2 ∧ p.2 < n) → q < n → WirePerm n σ → σ q = n - 1 →
    (minRest net q σ).1.length + minMet net q = net.length ∧
    (∀ p ∈ (minRest net q σ).1, p.1 ≠ p.2 ∧ p.1 < n - 1 ∧ p.2 < n - 1) ∧
    WirePerm n (minRest net q σ).2 ∧ (minRest net q σ).2 (minEnd net q) = n - 1 ∧ minEnd net q < n ∧
    ∀ x : Nat → Bool, x (n - 1) = false →
      runB net (x ∘ σ) = runB (minRest net q σ).1 x ∘ (minRest net q σ).2 := by
  intro net
  induction net with
  | nil => intro q σ _ hq h1 h2; exact ⟨rfl, by simp [minRest], h1, h2, hq, fun x _ => rfl⟩
  | cons p net ih =>
    intro q σ hp hq h1 h2
    obtain ⟨a1, a2⟩ := hp p (by simp)
    have hp' : ∀ r ∈ net, r.1 < r.2 ∧ r.2 < n := fun r hr => hp r (by simp [hr])
    unfold minRest minMet minEnd minStep minMeets
    by_cases c1 : q = p.2
    · have c3 : ¬ p.2 = p.1 := by omega
      simp only [c1, c3, if_true, if_false]
      obtain ⟨b1, b2, b3, b4, b5, b6⟩ := ih p.1 (σ * Equiv.swap p.1 p.2) hp' (by omega)
        (h1.mul (WirePerm.swap (by omega) a2)) (by simp [← c1, h2])
      refine ⟨by simp only [List.length_cons]; omega, b2, b3, b4, b5, fun x hx => ?_⟩
      rw [← b6 x hx, runB_cons]
      congr 1
      funext k
      simp only [ceB, Function.comp, Equiv.Perm.mul_apply]
      have hz : x (σ p.2) = false := by rw [← c1, h2, hx]
      by_cases e1 : k = p.1
      · subst e1; simp [hz]
      · by_cases e2 : k = p.2
        · subst e2; simp [e1, hz]
        · rw [Equiv.swap_apply_of_ne_of_ne e1 e2]; simp [e1, e2]
    · by_cases c2 : q = p.1
      · have c3 : ¬ p.1 = p.2 := by omega
        simp only [c2, c3, if_true, if_false]
        obtain ⟨b1, b2, b3, b4, b5, b6⟩ := ih p.1 σ hp' (by omega) h1 (by rw [← c2, h2])
        refine ⟨by simp only [List.length_cons]; omega, b2, b3, b4, b5, fun x hx => ?_⟩
        rw [← b6 x hx, runB_cons]
        congr 1
        funext k
        simp only [ceB, Function.comp]
        have hz : x (σ p.1) = false := by rw [← c2, h2, hx]
        by_cases e1 : k = p.1
        · subst e1; simp [hz]
        · by_cases e2 : k = p.2
          · subst e2; simp [e1, hz]
          · simp [e1, e2]
      · simp only [c1, c2, if_false]
        obtain ⟨b1, b2, b3, b4, b5, b6⟩ := ih q σ hp' hq h1 h2
        refine ⟨by simp only [List.length_cons]; omega, ?_, b3, b4, b5, fun x hx => ?_⟩
        · intro r hr
          rcases List.mem_cons.1 hr with rfl | hr
          · have i1 : σ p.1 ≠ n - 1 := fun e => c2 (σ.injective (h2.trans e.symm))
            have i2 : σ p.2 ≠ n - 1 := fun e => c1 (σ.injective (h2.trans e.symm))
            have i3 := h1 p.1 (by omega)
            have i4 := h1 p.2 a2
            refine ⟨fun e => ?_, by simp only; omega, by simp only; omega⟩
            have := σ.injective e
            omega
          · exact b2 r hr
        · rw [runB_cons, runB_cons, ← b6 _ ?_, ← ceB_perm]
          have i1 : ¬ n - 1 = σ p.1 := fun e => c2 (σ.injective (h2.trans e))
          have i2 : ¬ n - 1 = σ p.2 := fun e => c1 (σ.injective (h2.trans e))
          simp [ceB, i1, i2, hx]

theorem runB_true : ∀ (net : List (Nat × Nat)) (x : Nat → Bool) {m : Nat}, (∀ k < m, x k = true) →
    (∀ p ∈ net, p.1 < m ∧ p.2 < m) → ∀ k < m, runB net x k = true := by
  intro net x m hx hp k hk
  rw [runB_congr_lt net hp x (fun _ => true) hx k hk]
  clear hp hx
  induction net with
  | nil => rfl
  | cons p net ih =>
    rw [runB_cons, show ceB p (fun _ => true) = fun _ => true by funext k; simp [ceB]]
    exact ih

/-- Van Voorhis' bound. -/
theorem network_drop {n : Nat} {net : List (Nat × Nat)} (hn : 0 < n)
    (hp : ∀ p ∈ net, p.1 < p.2 ∧ p.2 < n) (hs : Sorts01 n net) :
    ∃ d net', n ≤ 2 ^ d ∧ net'.length + d = net.length ∧
      (∀ p ∈ net', p.1 < p.2 ∧ p.2 < n - 1) ∧ Sorts01 (n - 1) net' := by
  have spec := fun w (hw : w < n) => minRest_spec net w (Equiv.swap w (n - 1)) hp hw
    (WirePerm.swap hw (by omega)) (Equiv.swap_apply_left _ _)
  -- the least element ends in the first position
  have end0 : ∀ w < n, minEnd net w = 0 := by
    intro w hw
    obtain ⟨-, b2, b3, b4, b5, b6⟩ := spec w hw
    by_contra h0
    have h := b6 (fun k => decide (k ≠ n - 1)) (by simp)
    have hz := hs ((fun k => decide (k ≠ n - 1)) ∘ Equiv.swap w (n - 1)) 0 (minEnd net w) (by omega) b5
    rw [h] at hz
    simp only [Function.comp] at hz
    rw [b4] at hz
    have j1 : (minRest net w (Equiv.swap w (n - 1))).2 0 ≠ n - 1 := fun e => by
      have := (minRest net w (Equiv.swap w (n - 1))).2.injective (e.trans b4.symm)
      omega
    have j2 := b3 0 hn
    have t := hz (runB_true _ _ (m := n - 1) (fun k hk => by simp; omega)
      (fun p hp => ⟨(b2 p hp).2.1, (b2 p hp).2.2⟩) _ (by omega))
    -- the last wire is not touched
    have keep : ∀ (l : List (Nat × Nat)) (x : Nat → Bool), (∀ p ∈ l, p.1 ≠ p.2 ∧ p.1 < n - 1 ∧ p.2 < n - 1) →
        runB l x (n - 1) = x (n - 1) := by
      intro l
      induction l with
      | nil => intro x _; rfl
      | cons p l ih =>
        intro x hl
        have := hl p (by simp)
        rw [runB_cons, ih _ fun q hq => hl q (by simp [hq])]
        unfold ceB
        rw [if_neg (by omega), if_neg (by omega)]
    rw [keep _ _ b2] at t
    simp at t
  -- some way is long
  obtain ⟨w, hw, hd⟩ : ∃ w < n, n ≤ 2 ^ minMet net w := by
    by_contra hc
    have hc : ∀ w < n, 2 ^ minMet net w < n := fun w hw => by
      by_contra h
      exact hc ⟨w, hw, by omega⟩
    obtain ⟨v, hv, hmax⟩ := Finset.exists_max_image (Finset.range n) (minMet net) ⟨0, by simpa using hn⟩
    have h1 := minMet_card n net 0 (minMet net v)
    rw [Finset.filter_true_of_mem fun w hw => ⟨end0 w (by simpa using hw), hmax w hw⟩,
      Finset.card_range] at h1
    have := hc v (by simpa using hv)
    omega
  obtain ⟨b1, b2, b3, b4, b5, b6⟩ := spec w hw
  rw [end0 w hw] at b4
  set R := minRest net w (Equiv.swap w (n - 1)) with hR
  have ne : ∀ k < n - 1, R.2 (k + 1) < n - 1 := fun k hk => by
    have h1 := b3 (k + 1) (by omega)
    have : R.2 (k + 1) ≠ n - 1 := fun e => by
      have := R.2.injective (e.trans b4.symm)
      omega
    omega
  obtain ⟨net', e1, e2, e3⟩ := sorts01_of_order (n := n - 1) b2 (fun k => R.2 (k + 1)) ne
    (fun i _ j _ e => by have := R.2.injective e; omega) (fun x i j hij hj h => by
      have cg := runB_congr_lt R.1 (fun p hp => (b2 p hp).2) x (fun k => x k && decide (k ≠ n - 1))
        (fun k hk => by simp; omega)
      rw [cg _ (ne i (by omega))] at h
      rw [cg _ (ne j hj)]
      have e := b6 (fun k => x k && decide (k ≠ n - 1)) (by simp)
      have := hs _ (i + 1) (j + 1) (by omega) (by omega) ((congrFun e (i + 1)).trans h)
      exact (congrFun e (j + 1)).symm.trans this)
  exact ⟨minMet net w, net', hd, by omega, e2, e3⟩

end CppSort
