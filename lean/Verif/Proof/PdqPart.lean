import Verif.Proof.Quick
import Verif.Model.Pdq
set_option autoImplicit false

namespace CppSort
variable {α : Type} {lt : α → α → Bool}

/-! ### Scans -/

/-- `test` computes `P` of the elements of `[lo, hi)` with one comparison and changes nothing else. -/
def Tests (test : Nat → M α Bool) (s0 : St α) (v : Nat → α) (lo hi : Nat) (P : α → Bool) : Prop :=
  ∀ k p, lo ≤ p → p < hi → wp (test p) (fun b s' => b = P (v p) ∧ s' = { s0 with cmps := k + 1 })
    { s0 with cmps := k }

theorem tests_below {s0 : St α} {v : Nat → α} {lo hi : Nat} (hh : Holds s0.cell lo hi v) (x : α) :
    Tests (belowPivot (tick lt) x) s0 v lo hi (fun y => lt y x) := by
  intro k p h1 h2
  unfold belowPivot
  apply wp_bind
  refine wp_read (v := v) hh h1 h2 ?_
  apply wp_tick
  exact ⟨rfl, rfl⟩

theorem tests_notBelow {s0 : St α} {v : Nat → α} {lo hi : Nat} (hh : Holds s0.cell lo hi v) (x : α) :
    Tests (notBelowPivot (tick lt) x) s0 v lo hi (fun y => ! lt y x) := by
  intro k p h1 h2
  unfold notBelowPivot
  apply wp_bind
  refine wp_read (v := v) hh h1 h2 ?_
  wtick
  exact wp_pure ⟨rfl, rfl⟩

theorem tests_above {s0 : St α} {v : Nat → α} {lo hi : Nat} (hh : Holds s0.cell lo hi v) (x : α) :
    Tests (abovePivot (tick lt) x) s0 v lo hi (fun y => lt x y) := by
  intro k p h1 h2
  unfold abovePivot
  apply wp_bind
  refine wp_read (v := v) hh h1 h2 ?_
  apply wp_tick
  exact ⟨rfl, rfl⟩

theorem tests_notAbove {s0 : St α} {v : Nat → α} {lo hi : Nat} (hh : Holds s0.cell lo hi v) (x : α) :
    Tests (notAbovePivot (tick lt) x) s0 v lo hi (fun y => ! lt x y) := by
  intro k p h1 h2
  unfold notAbovePivot
  apply wp_bind
  refine wp_read (v := v) hh h1 h2 ?_
  wtick
  exact wp_pure ⟨rfl, rfl⟩

theorem scanUp_spec {test : Nat → M α Bool} {s0 : St α} {v : Nat → α} {lo hi g : Nat} {P : α → Bool}
    (ht : Tests test s0 v lo hi P) (hg : g < hi) (hp : P (v g) = false) :
    ∀ (n p k : Nat), g - p = n → lo ≤ p → p ≤ g →
    wp (scanUp test p) (fun q s' => (∃ k', s' = { s0 with cmps := k' } ∧ k' + p = k + q + 1) ∧ p ≤ q ∧ q ≤ g ∧
      P (v q) = false ∧ ∀ i, p ≤ i → i < q → P (v i) = true) { s0 with cmps := k } := by
  intro n
  induction n with
  | zero =>
    intro p k hn h1 h2
    obtain rfl : p = g := by omega
    rw [scanUp]
    apply wp_bind
    refine wp_mono (ht k p h1 hg) ?_
    rintro _ _ ⟨rfl, rfl⟩
    rw [hp]
    exact wp_pure ⟨⟨_, rfl, by omega⟩, Nat.le_refl _, Nat.le_refl _, hp, fun i a b => by omega⟩
  | succ n ih =>
    intro p k hn h1 h2
    rw [scanUp]
    apply wp_bind
    refine wp_mono (ht k p h1 (by omega)) ?_
    rintro _ _ ⟨rfl, rfl⟩
    split
    · rename_i hc
      refine wp_mono (ih (p + 1) (k + 1) (by omega) (by omega) (by omega)) ?_
      rintro q s' ⟨⟨k', ek, a⟩, b, c, d, e⟩
      refine ⟨⟨k', ek, by omega⟩, by omega, c, d, fun i q1 q2 => ?_⟩
      by_cases hi : i = p
      · rw [hi]; exact hc
      · exact e i (by omega) q2
    · rename_i hc
      exact wp_pure ⟨⟨_, rfl, by omega⟩, Nat.le_refl _, h2, by simpa using hc, fun i a b => by omega⟩

theorem scanDown_spec {test : Nat → M α Bool} {s0 : St α} {v : Nat → α} {lo hi g : Nat}
    {P : α → Bool} (ht : Tests test s0 v lo hi P) (hg : lo ≤ g) (hp : P (v g) = false) :
    ∀ (n l k : Nat), l - g = n → g < l → l ≤ hi →
    wp (scanDown test l) (fun q s' => (∃ k', s' = { s0 with cmps := k' } ∧ k' + q = k + l) ∧ g ≤ q ∧ q < l ∧
      P (v q) = false ∧ ∀ i, q < i → i < l → P (v i) = true) { s0 with cmps := k } := by
  intro n
  induction n with
  | zero => intros; omega
  | succ n ih =>
    intro l k hn h1 h2
    rw [scanDown]
    apply wp_bind
    refine wp_mono (ht k (l - 1) (by omega) (by omega)) ?_
    rintro _ _ ⟨rfl, rfl⟩
    split
    · rename_i hc
      have : l - 1 ≠ g := fun e => by rw [e, hp] at hc; cases hc
      refine wp_mono (ih (l - 1) (k + 1) (by omega) (by omega) (by omega)) ?_
      rintro q s' ⟨⟨k', ek, a⟩, b, c, d, e⟩
      refine ⟨⟨k', ek, by omega⟩, b, by omega, d, fun i q1 q2 => ?_⟩
      by_cases hi : i = l - 1
      · rw [hi]; exact hc
      · exact e i (by omega) (by omega)
    · rename_i hc
      exact wp_pure ⟨⟨_, rfl, by omega⟩, by omega, by omega, by simpa using hc, fun i a b => by omega⟩

theorem scanDownGuarded_spec {test : Nat → M α Bool} {s0 : St α} {v : Nat → α} {lo hi f : Nat}
    {P : α → Bool} (ht : Tests test s0 v lo hi P) (hf : lo ≤ f) :
    ∀ (n l k : Nat), l - f = n → f ≤ l → l ≤ hi →
    wp (scanDownGuarded test f l) (fun q s' => (∃ k', s' = { s0 with cmps := k' } ∧ k' + q = k + l) ∧ f ≤ q ∧
      q ≤ l ∧ (f < l → q < l) ∧ (P (v q) = false ∨ q = f) ∧ ∀ i, q < i → i < l → P (v i) = true)
      { s0 with cmps := k } := by
  intro n
  induction n with
  | zero =>
    intro l k hn h1 h2
    rw [scanDownGuarded, if_neg (by omega)]
    exact wp_pure ⟨⟨_, rfl, by omega⟩, h1, Nat.le_refl _, fun h => by omega, Or.inr (by omega),
      fun i a b => by omega⟩
  | succ n ih =>
    intro l k hn h1 h2
    rw [scanDownGuarded, if_pos (by omega)]
    apply wp_bind
    refine wp_mono (ht k (l - 1) (by omega) (by omega)) ?_
    rintro _ _ ⟨rfl, rfl⟩
    split
    · rename_i hc
      refine wp_mono (ih (l - 1) (k + 1) (by omega) (by omega) (by omega)) ?_
      rintro q s' ⟨⟨k', ek, a⟩, b, c, c', d, e⟩
      refine ⟨⟨k', ek, by omega⟩, b, by omega, fun _ => by omega, d, fun i q1 q2 => ?_⟩
      by_cases hi : i = l - 1
      · rw [hi]; exact hc
      · exact e i (by omega) (by omega)
    · rename_i hc
      exact wp_pure ⟨⟨_, rfl, by omega⟩, by omega, by omega, fun _ => by omega, Or.inl (by simpa using hc),
        fun i a b => by omega⟩

theorem scanUpGuarded_spec {test : Nat → M α Bool} {s0 : St α} {v : Nat → α} {lo hi l : Nat}
    {P : α → Bool} (ht : Tests test s0 v lo hi P) (hl : l < hi) :
    ∀ (n f k : Nat), l - f = n → f ≤ l → lo ≤ f + 1 →
    wp (scanUpGuarded test f l) (fun q s' => (∃ k', s' = { s0 with cmps := k' } ∧ k' + f = k + q) ∧ f ≤ q ∧
      q ≤ l ∧ (f < l → f < q) ∧ (P (v q) = false ∨ q = l) ∧ ∀ i, f < i → i < q → P (v i) = true)
      { s0 with cmps := k } := by
  intro n
  induction n with
  | zero =>
    intro f k hn h1 h2
    rw [scanUpGuarded, if_neg (by omega)]
    exact wp_pure ⟨⟨_, rfl, by omega⟩, Nat.le_refl _, h1, fun h => by omega, Or.inr (by omega),
      fun i a b => by omega⟩
  | succ n ih =>
    intro f k hn h1 h2
    rw [scanUpGuarded, if_pos (by omega)]
    apply wp_bind
    refine wp_mono (ht k (f + 1) (by omega) (by omega)) ?_
    rintro _ _ ⟨rfl, rfl⟩
    split
    · rename_i hc
      refine wp_mono (ih (f + 1) (k + 1) (by omega) (by omega) (by omega)) ?_
      rintro q s' ⟨⟨k', ek, a⟩, b, c, c', d, e⟩
      refine ⟨⟨k', ek, by omega⟩, by omega, c, fun _ => by omega, d, fun i q1 q2 => ?_⟩
      by_cases hi : i = f + 1
      · rw [hi]; exact hc
      · exact e i (by omega) (by omega)
    · rename_i hc
      exact wp_pure ⟨⟨_, rfl, by omega⟩, by omega, by omega, fun _ => by omega, Or.inl (by simpa using hc),
        fun i a b => by omega⟩

/-! ### partition_right -/

theorem prScan_spec {b e g : Nat} {x : α} {s : St α} {v : Nat → α}
    (hh : Holds s.cell (b + 1) e v) (hg : b < g) (hge : g < e) (hgx : lt (v g) x = false) :
    wp (prScan (tick lt) x b e) (fun r s' => (∃ k, s' = { s with cmps := k } ∧ k + b + r.2 = s.cmps + r.1 + e) ∧
      b < r.1 ∧ r.1 < e ∧ b < r.2 ∧ r.2 < e ∧
      (∀ i, b < i → i < r.1 → lt (v i) x = true) ∧ lt (v r.1) x = false ∧
      (∀ i, r.2 < i → i < e → lt (v i) x = false) ∧ (lt (v r.2) x = true ∨ r.2 ≤ r.1)) s := by
  unfold prScan
  apply wp_bind
  refine wp_mono (scanUp_spec (tests_below (lt := lt) hh x) hge hgx _ (b + 1) s.cmps rfl
    (Nat.le_refl _) hg) ?_
  rintro p _ ⟨⟨k, rfl, hk1⟩, a1, a2, a3, a4⟩
  dsimp only
  split
  · apply wp_bind
    refine wp_mono (scanDownGuarded_spec (tests_notBelow (lt := lt) hh x) a1 _ e k rfl (by omega)
      (Nat.le_refl _)) ?_
    rintro q _ ⟨⟨k', rfl, hk2⟩, b1, b2, b3, b4, b5⟩
    have := b3 (by omega)
    refine wp_pure ⟨⟨_, rfl, by dsimp only; omega⟩, a1, by show p < e; omega, by show b < q; omega, this,
      fun i c d => a4 i c d, a3, fun i c d => by simpa using b5 i c d, ?_⟩
    rcases b4 with b4 | b4
    · left; simpa using b4
    · right; show q ≤ p; omega
  · apply wp_bind
    refine wp_mono (scanDown_spec (tests_notBelow (lt := lt) hh x) (g := p - 1) (by omega)
      (by simpa using a4 (p - 1) (by omega) (by omega)) _ e k rfl (by omega) (Nat.le_refl _)) ?_
    rintro q _ ⟨⟨k, rfl, hk2⟩, b1, b2, b3, b4⟩
    exact wp_pure ⟨⟨_, rfl, by dsimp only; omega⟩, a1, by show p < e; omega, by show b < q; omega, b2,
      fun i c d => a4 i c d, a3, fun i c d => by simpa using b4 i c d, Or.inl (by simpa using b3)⟩

theorem prLoop_spec {b e : Nat} {x : α} : ∀ (n p q : Nat) (s : St α) (v : Nat → α), q - p = n →
    b < p → p < e → b < q → q < e → Holds s.cell (b + 1) e v →
    (∀ i, b < i → i < p → lt (v i) x = true) → lt (v p) x = false →
    (∀ i, q < i → i < e → lt (v i) x = false) → (lt (v q) x = true ∨ q ≤ p) →
    wp (prLoop (tick lt) x p q) (fun p' s' => s'.cmps + p ≤ s.cmps + q + 1 ∧ b < p' ∧ p' ≤ e ∧ ∃ v',
      Upd (b + 1) e s s' v v' ∧
      (∀ i, b < i → i < p' → lt (v' i) x = true) ∧
      (∀ i, p' ≤ i → i < e → lt (v' i) x = false)) s := by
  intro n
  induction n using Nat.strongRecOn with
  | _ n ih =>
    intro p q s v hn h1 h2 h3 h4 hh hA hB hC hD
    have hpq1 : p ≤ q + 1 := by
      by_cases hb : p = b + 1
      · omega
      · by_cases hq : q < p - 1
        · have z1 := hA (p - 1) (by omega) (by omega)
          rw [hC (p - 1) hq (by omega)] at z1
          cases z1
        · omega
    rw [prLoop]
    split
    · rename_i hpq
      have hq : lt (v q) x = true := by
        rcases hD with h | h
        · exact h
        · omega
      apply wp_bind
      refine wp_swap_c (v := v) (f := b + 1) (l := e) hh (by omega) (by omega) ?_
      intro s1 u1 hc1 _
      have e1 : swp v p q p = v q := swp_l rfl
      have e2 : swp v p q q = v p := swp_r rfl
      have eo : ∀ i, i ≠ p → i ≠ q → swp v p q i = v i := fun i a b => swp_o a b
      generalize swp v p q = v1 at u1 e1 e2 eo
      apply wp_bind
      refine wp_mono (scanUp_spec (tests_below (lt := lt) u1.holds x) (g := q) h4
        (by rw [e2]; exact hB) _ (p + 1) s1.cmps rfl (by omega) (by omega)) ?_
      rintro p2 _ ⟨⟨k, rfl, hk1⟩, a1, a2, a3, a4⟩
      apply wp_bind
      refine wp_mono (scanDown_spec (tests_notBelow (lt := lt) u1.holds x) (g := p) (by omega)
        (by rw [e1, hq]; rfl) _ q k rfl hpq (by omega)) ?_
      rintro q2 _ ⟨⟨k, rfl, hk2⟩, b1, b2, b3, b4⟩
      refine wp_mono (ih (q2 - p2) (by omega) p2 q2 _ v1 rfl (by omega) (by omega) (by omega)
        (by omega) u1.holds ?_ a3 ?_ (Or.inl (by simpa using b3))) ?_
      · intro i c d
        by_cases e : i < p
        · rw [eo i (by omega) (by omega)]; exact hA i c e
        · by_cases e' : i = p
          · rw [e', e1]; exact hq
          · exact a4 i (by omega) d
      · intro i c d
        by_cases e : i < q
        · simpa using b4 i c e
        · by_cases e' : i = q
          · rw [e', e2]; exact hB
          · rw [eo i (by omega) (by omega)]; exact hC i (by omega) d
      · rintro p' s' ⟨c0, c1, c2, v', u', c3⟩
        dsimp only at c0
        exact ⟨by omega, c1, c2, v', u1.trans u'.tick, c3⟩
    · refine wp_pure ⟨by omega, h1, by omega, v, Upd.refl hh, hA, fun i c d => ?_⟩
      by_cases e : i = p
      · rw [e]; exact hB
      · exact hC i (by omega) d

theorem wp_moveTo_self {Q : Unit → St α → Prop} {s : St α} {h : Nat} (hm : s.cell h = .moved)
    (hQ : Q () { s with movs := s.movs + 1 }) : wp (moveTo h h) Q s := by
  refine ⟨(), _, ?_, hQ⟩
  simp [moveTo, hm]

/-- pdqsort.h 329-332: the pivot moved out of `b` is put in position `p`. -/
theorem placePivot_spec {b e p : Nat} {s0 s1 s2 : St α} {v v2 : Nat → α}
    (hx : HoldsX s1.cell b e b v) (hf : Frame b e s0 s1)
    (u : Upd (b + 1) e s1 s2 v v2) (hbp : b ≤ p) (hpe : p < e) {β : Type} {m : M α β}
    {Q : β → St α → Prop}
    (hQ : ∀ s', Upd b e s0 s' v (swp v2 b p) → s'.cmps = s2.cmps → wp m Q s') :
    wp (do moveTo b p; assign p (v b); m) Q s2 := by
  have hb2 : v2 b = v b := u.perm.out (Or.inl (by omega))
  have hx2 : HoldsX s2.cell b e b v2 := by
    refine ⟨fun i h1 h2 h3 => u.holds i (by omega) h2, ?_, hx.2.2.1, hx.2.2.2⟩
    rw [u.frame.cell b (Or.inl (by omega))]; exact hx.2.1
  have hf2 : Frame b e s0 s2 := hf.trans (u.frame.mono (by omega) (Nat.le_refl _))
  have hperm : PermOn b e v (swp v2 b p) :=
    (u.perm.mono (by omega) (Nat.le_refl _)).trans (PermOn.swp ⟨Nat.le_refl _, by omega⟩ ⟨hbp, hpe⟩)
  apply wp_bind
  by_cases hc : p = b
  · subst hc
    refine wp_moveTo_self hx2.2.1 ?_
    apply wp_bind
    have hx3 : HoldsX ({ s2 with movs := s2.movs + 1 } : St α).cell p e p v2 := hx2
    refine wp_assign hx3 hb2.symm ?_
    intro s3 hh3 fr3 hc3 _
    refine hQ s3 ⟨?_, hperm, hf2.trans ⟨fr3.cell, fr3.brk⟩⟩ hc3
    have : swp v2 p p = v2 := by
      funext k
      unfold swp
      split
      · subst_vars; rfl
      · rfl
    rw [this]; exact hh3
  · refine wp_moveTo hx2 hbp hpe hc ?_
    intro s3 hx3 fr3 hc3 _
    apply wp_bind
    refine wp_assign hx3 (by rw [swp_r rfl, hb2]) ?_
    intro s4 hh4 fr4 hc4 _
    exact hQ s4 ⟨hh4, hperm, (hf2.trans fr3).trans fr4⟩ (hc4.trans hc3)

/-- The result of `partition_right`: strictly less elements, the pivot, the other elements. -/
structure PRight (lt : α → α → Bool) (b p e : Nat) (v : Nat → α) (x : α) : Prop where
  lo : b ≤ p
  hi : p < e
  at_ : v p = x
  left : ∀ i, b ≤ i → i < p → lt (v i) x = true
  right : ∀ i, p < i → i < e → lt (v i) x = false

theorem PRight.of_split {b p e : Nat} {v : Nat → α} {x : α} (h1 : b < p) (h2 : p ≤ e)
    (hb : v b = x) (hl : ∀ i, b < i → i < p → lt (v i) x = true)
    (hr : ∀ i, p ≤ i → i < e → lt (v i) x = false) :
    PRight lt b (p - 1) e (swp v b (p - 1)) x := by
  refine ⟨by omega, by omega, by rw [swp_r rfl]; exact hb, fun i a c => ?_, fun i a c => ?_⟩
  · by_cases e : i = b
    · rw [swp_l e]; exact hl _ (by omega) (by omega)
    · rw [swp_o e (by omega)]; exact hl _ (by omega) (by omega)
  · rw [swp_o (by omega) (by omega)]; exact hr _ (by omega) c

theorem partitionRight_spec {b e g : Nat} {s : St α} {v : Nat → α}
    (hh : Holds s.cell b e v) (hg : b < g) (hge : g < e) (hgx : lt (v g) (v b) = false) :
    wp (partitionRight (tick lt) b e) (fun r s' => s'.cmps ≤ s.cmps + (e - b) + 1 ∧
      ∃ v', Upd b e s s' v v' ∧ PRight lt b r.1 e v' (v b)) s := by
  unfold partitionRight
  apply wp_bind
  refine wp_moveOut hh (Nat.le_refl _) (by omega) ?_
  intro s1 hx fr hcx _
  have hh1 : Holds s1.cell (b + 1) e v := fun i h1 h2 => hx.1 i (by omega) h2 (by omega)
  apply wp_bind
  refine wp_mono (prScan_spec (lt := lt) (x := v b) hh1 hg hge hgx) ?_
  rintro ⟨p, q⟩ _ ⟨⟨k, rfl, hk⟩, a1, a2, a3, a4, a5, a6, a7, a8⟩
  apply wp_bind
  refine wp_mono (prLoop_spec (lt := lt) (x := v b) _ p q { s1 with cmps := k } v rfl a1 a2 a3 a4 hh1 a5 a6 a7 a8) ?_
  rintro p' s2 ⟨c0, c1, c2, v2, u2, c3, c4⟩
  refine placePivot_spec hx fr u2.tick (by omega) (by omega) fun s' u hc => wp_pure ⟨?_, _, u, ?_⟩
  · dsimp only at c0 hk
    omega
  exact PRight.of_split c1 c2 (u2.perm.out (Or.inl (by omega))) c3 c4

/-! ### partition_left -/

theorem plLoop_spec {b e : Nat} {x : α} : ∀ (n p q : Nat) (s : St α) (v : Nat → α), q - p = n →
    b < p → p < e → b < q → q < e → Holds s.cell (b + 1) e v →
    (∀ i, b < i → i < p → lt x (v i) = false) → (lt x (v p) = true ∨ q ≤ p) →
    (∀ i, q < i → i < e → lt x (v i) = true) → lt x (v q) = false →
    wp (plLoop (tick lt) x p q) (fun q' s' => s'.cmps + p ≤ s.cmps + q + 1 ∧ b < q' ∧ q' < e ∧ ∃ v',
      Upd (b + 1) e s s' v v' ∧
      (∀ i, b < i → i ≤ q' → lt x (v' i) = false) ∧
      (∀ i, q' < i → i < e → lt x (v' i) = true)) s := by
  intro n
  induction n using Nat.strongRecOn with
  | _ n ih =>
    intro p q s v hn h1 h2 h3 h4 hh hA hB hC hD
    have hpq1 : p ≤ q + 1 := by
      by_cases hb : p = b + 1
      · omega
      · by_cases hq : q < p - 1
        · have z1 := hA (p - 1) (by omega) (by omega)
          rw [hC (p - 1) hq (by omega)] at z1
          cases z1
        · omega
    rw [plLoop]
    split
    · rename_i hpq
      have hp : lt x (v p) = true := by
        rcases hB with h | h
        · exact h
        · omega
      apply wp_bind
      refine wp_swap_c (v := v) (f := b + 1) (l := e) hh (by omega) (by omega) ?_
      intro s1 u1 hc1 _
      have e1 : swp v p q p = v q := swp_l rfl
      have e2 : swp v p q q = v p := swp_r rfl
      have eo : ∀ i, i ≠ p → i ≠ q → swp v p q i = v i := fun i a b => swp_o a b
      generalize swp v p q = v1 at u1 e1 e2 eo
      apply wp_bind
      refine wp_mono (scanDown_spec (tests_above (lt := lt) u1.holds x) (g := p) (by omega)
        (by rw [e1]; exact hD) _ q s1.cmps rfl hpq (by omega)) ?_
      rintro q2 _ ⟨⟨k, rfl, hk2⟩, b1, b2, b3, b4⟩
      apply wp_bind
      refine wp_mono (scanUp_spec (tests_notAbove (lt := lt) u1.holds x) (g := q) h4
        (by rw [e2, hp]; rfl) _ (p + 1) k rfl (by omega) (by omega)) ?_
      rintro p2 _ ⟨⟨k, rfl, hk1⟩, a1, a2, a3, a4⟩
      refine wp_mono (ih (q2 - p2) (by omega) p2 q2 _ v1 rfl (by omega) (by omega) (by omega)
        (by omega) u1.holds ?_ (Or.inl (by simpa using a3)) ?_ b3) ?_
      · intro i c d
        by_cases e : i < p
        · rw [eo i (by omega) (by omega)]; exact hA i c e
        · by_cases e' : i = p
          · rw [e', e1]; exact hD
          · simpa using a4 i (by omega) d
      · intro i c d
        by_cases e : i < q
        · exact b4 i c e
        · by_cases e' : i = q
          · rw [e', e2]; exact hp
          · rw [eo i (by omega) (by omega)]; exact hC i (by omega) d
      · rintro p' s' ⟨c0, c1, c2, v', u', c3⟩
        dsimp only at c0
        exact ⟨by omega, c1, c2, v', u1.trans u'.tick, c3⟩
    · refine wp_pure ⟨by omega, h3, h4, v, Upd.refl hh, fun i c d => ?_, hC⟩
      by_cases e : i = q
      · rw [e]; exact hD
      · exact hA i c (by omega)

/-- The result of `partition_left`. -/
structure PLeft (lt : α → α → Bool) (b p e : Nat) (v : Nat → α) (x : α) : Prop where
  lo : b ≤ p
  hi : p < e
  at_ : v p = x
  left : ∀ i, b ≤ i → i < p → lt x (v i) = false
  right : ∀ i, p < i → i < e → lt x (v i) = true

theorem partitionLeft_spec {b e g : Nat} {s : St α} {v : Nat → α}
    (hh : Holds s.cell b e v) (hg : b < g) (hge : g < e) (hgx : lt (v b) (v g) = false) :
    wp (partitionLeft (tick lt) b e) (fun r s' => s'.cmps ≤ s.cmps + (e - b) + 1 ∧
      ∃ v', Upd b e s s' v v' ∧ PLeft lt b r e v' (v b)) s := by
  unfold partitionLeft
  apply wp_bind
  refine wp_moveOut hh (Nat.le_refl _) (by omega) ?_
  intro s1 hx fr hcx _
  have hh1 : Holds s1.cell (b + 1) e v := fun i h1 h2 => hx.1 i (by omega) h2 (by omega)
  apply wp_bind
  have hscan : wp (plScan (tick lt) (v b) b e) (fun r s' => (∃ k, s' = { s1 with cmps := k } ∧ k + b + r.2 = s1.cmps + r.1 + e) ∧
      b < r.1 ∧ r.1 < e ∧ b < r.2 ∧ r.2 < e ∧
      (∀ i, b < i → i < r.1 → lt (v b) (v i) = false) ∧ (lt (v b) (v r.1) = true ∨ r.2 ≤ r.1) ∧
      (∀ i, r.2 < i → i < e → lt (v b) (v i) = true) ∧ lt (v b) (v r.2) = false) s1 := by
    unfold plScan
    apply wp_bind
    refine wp_mono (scanDown_spec (tests_above (lt := lt) hh1 (v b)) (g := g) (by omega) hgx _ e
      s1.cmps rfl hge (Nat.le_refl _)) ?_
    rintro q _ ⟨⟨k, rfl, hk2⟩, b1, b2, b3, b4⟩
    dsimp only
    split
    · apply wp_bind
      refine wp_mono (scanUpGuarded_spec (tests_notAbove (lt := lt) hh1 (v b)) b2 _ b k rfl (by omega)
        (Nat.le_refl _)) ?_
      rintro p _ ⟨⟨k', rfl, hk2⟩, a1, a2, a3, a4, a5⟩
      have := a3 (by omega)
      refine wp_pure ⟨⟨_, rfl, by dsimp only; omega⟩, this, by show p < e; omega, by show b < q; omega, b2,
        fun i c d => by simpa using a5 i c d, ?_, b4, b3⟩
      rcases a4 with a4 | a4
      · left; simpa using a4
      · right; show q ≤ p; omega
    · apply wp_bind
      refine wp_mono (scanUp_spec (tests_notAbove (lt := lt) hh1 (v b)) (g := q + 1) (by omega)
        (by rw [b4 (q + 1) (by omega) (by omega)]; rfl) _ (b + 1) k rfl (Nat.le_refl _) (by omega)) ?_
      rintro p _ ⟨⟨k, rfl, hk1⟩, a1, a2, a3, a4⟩
      exact wp_pure ⟨⟨_, rfl, by dsimp only; omega⟩, a1, by show p < e; omega, by show b < q; omega, b2,
        fun i c d => by simpa using a4 i c d, Or.inl (by simpa using a3), b4, b3⟩
  refine wp_mono hscan ?_
  rintro ⟨p, q⟩ _ ⟨⟨k, rfl, hk⟩, a1, a2, a3, a4, a5, a6, a7, a8⟩
  apply wp_bind
  refine wp_mono (plLoop_spec (lt := lt) (x := v b) _ p q { s1 with cmps := k } v rfl a1 a2 a3 a4 hh1 a5 a6 a7 a8) ?_
  rintro p' s2 ⟨c0, c1, c2, v2, u2, c3, c4⟩
  refine placePivot_spec hx fr u2.tick (by omega) (by omega) fun s' u hc => wp_pure ⟨?_, _, u, ?_⟩
  · dsimp only at c0 hk
    omega
  have hb : v2 b = v b := u2.perm.out (Or.inl (by omega))
  refine ⟨by omega, c2, by rw [swp_r rfl]; exact hb, fun i a c => ?_, fun i a c => ?_⟩
  · by_cases e : i = b
    · rw [swp_l e]; exact c3 _ (by omega) (by omega)
    · rw [swp_o e (by omega)]; exact c3 _ (by omega) (by omega)
  · rw [swp_o (by omega) (by omega)]; exact c4 _ (by omega) c

end CppSort
