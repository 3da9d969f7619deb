import Verif.Proof.Rotate
import Mathlib.Data.Nat.GCD.Basic
import Mathlib.Data.Nat.ModEq
import Mathlib.Data.Int.GCD
import Mathlib.Tactic.Ring
set_option autoImplicit false

namespace CppSort
variable {α : Type} {lt : α → α → Bool}

theorem swapRanges_spec {f l : Nat} : ∀ (n f1 l1 f2 : Nat) (s : St α) (v : Nat → α),
    l1 = f1 + n → f ≤ f1 → l1 ≤ f2 → f2 + n ≤ l → Holds s.cell f l v →
    wp (swapRanges f1 l1 f2) (fun r s' => r = f2 + n ∧ ∃ v', Upd f l s s' v v' ∧
      (∀ i, i < n → v' (f1 + i) = v (f2 + i)) ∧ (∀ i, i < n → v' (f2 + i) = v (f1 + i)) ∧
      (∀ i, i < f1 ∨ (l1 ≤ i ∧ i < f2) ∨ f2 + n ≤ i → v' i = v i) ∧ s'.cmps = s.cmps ∧
      s'.movs = s.movs + 3 * n) s := by
  intro n
  induction n with
  | zero =>
    intro f1 l1 f2 s v hn h1 h2 h3 hh
    rw [swapRanges, if_neg (by omega)]
    apply wp_pure
    exact ⟨rfl, v, Upd.refl hh, fun i hi => by omega, fun i hi => by omega, fun _ _ => rfl, rfl, rfl⟩
  | succ n ih =>
    intro f1 l1 f2 s v hn h1 h2 h3 hh
    rw [swapRanges, if_pos (by omega)]
    apply wp_bind
    refine wp_swap_c hh (by omega) (by omega) ?_
    intro s1 hu1 hc1 hm1
    refine wp_mono (ih (f1 + 1) l1 (f2 + 1) s1 _ (by omega) (by omega) (by omega) (by omega)
      hu1.holds) ?_
    rintro r s2 ⟨e, v', a1, a2, a3, a4, a5, a6⟩
    refine ⟨by omega, v', hu1.trans a1, fun i hi => ?_, fun i hi => ?_, fun i hi => ?_, by omega,
      by omega⟩
    · by_cases h0 : i = 0
      · subst h0
        rw [a4 _ (by omega)]; sw; rfl
      · have := a2 (i - 1) (by omega)
        rw [show f1 + 1 + (i - 1) = f1 + i by omega, show f2 + 1 + (i - 1) = f2 + i by omega] at this
        rw [this]; sw
    · by_cases h0 : i = 0
      · subst h0
        rw [a4 _ (by omega)]; sw; rfl
      · have := a3 (i - 1) (by omega)
        rw [show f1 + 1 + (i - 1) = f1 + i by omega, show f2 + 1 + (i - 1) = f2 + i by omega] at this
        rw [this]; sw
    · rw [a4 i (by omega)]; sw

theorem gcdLoop_spec : ∀ (y x : Nat) (s : St α), 0 < y →
    wp (gcdLoop x y) (fun r s' => r = Nat.gcd x y ∧ s' = s) s := by
  intro y
  induction y using Nat.strongRecOn with
  | ind y ih =>
    intro x s hy
    rw [gcdLoop, if_neg (by omega)]
    simp only []
    split
    · rename_i h
      refine wp_mono (ih (x % y) (Nat.mod_lt _ hy) y s (by omega)) ?_
      rintro r s' ⟨e1, e2⟩
      refine ⟨?_, e2⟩
      rw [e1, Nat.gcd_comm x y, Nat.gcd_rec y x, Nat.gcd_comm]
    · rename_i h
      apply wp_pure
      have : x % y = 0 := by omega
      refine ⟨?_, rfl⟩
      rw [Nat.gcd_comm, Nat.gcd_rec, this, Nat.gcd_zero_left]

/-- One cycle of the rotation, along an abstract orbit `q`. -/
theorem rotateCycle_spec {first last m1 n T : Nat} {q : Nat → Nat} {v : Nat → α}
    (hl : last = first + n) (hm : m1 < n) (hqn : ∀ j, q j < n)
    (hq : ∀ j, q (j + 1) = if m1 < n - q j then q j + m1 else q j + m1 - n)
    (hT : q T = q 0) (hinj : ∀ i j, i < T → j < T → q i = q j → i = j) :
    ∀ (k j : Nat) (s : St α) (w : Nat → α), T = j + 1 + k → 0 < k →
    HoldsX s.cell first last (first + q j) w →
    (∀ i, i < j → w (first + q i) = v (first + q (i + 1))) → w (first + q j) = v (first + q 0) →
    (∀ x, (∀ i, i ≤ j → x ≠ first + q i) → w x = v x) →
    wp (rotateCycle first last m1 (first + q 0) (first + q j) (first + q (j + 1)))
      (fun r s' => r = first + q (T - 1) ∧ ∃ w', HoldsX s'.cell first last (first + q (T - 1)) w' ∧
        (∀ i, i < T → w' (first + q i) = v (first + q (i + 1))) ∧
        (∀ x, (∀ i, i < T → x ≠ first + q i) → w' x = v x) ∧
        Frame first last s s' ∧ s'.cmps = s.cmps) s := by
  intro k
  induction k with
  | zero => intros; omega
  | succ k ih =>
    intro j s w hTj _ hx h1 h2 h3
    rw [rotateCycle]
    have hne : q (j + 1) ≠ q j := fun e => by
      have := hinj (j + 1) j (by omega) (by omega) e; omega
    have b1 := hqn j
    have b2 := hqn (j + 1)
    apply wp_bind
    refine wp_moveTo hx (by omega) (by omega) (by omega) ?_
    intro s1 hx1 fr1 hc1 hm1
    have h1' : ∀ i, i < j + 1 →
        swp w (first + q j) (first + q (j + 1)) (first + q i) = v (first + q (i + 1)) := by
      intro i hi
      by_cases e : i = j
      · subst e
        rw [swp_l rfl]
        refine h3 _ fun i' hi' e => ?_
        have := hinj (i + 1) i' (by omega) (by omega) (by omega)
        omega
      · have n1 : q i ≠ q j := fun e' => e (hinj i j (by omega) (by omega) e')
        have n2 : q i ≠ q (j + 1) := fun e' => by
          have := hinj i (j + 1) (by omega) (by omega) e'; omega
        rw [swp_o (by omega) (by omega)]
        exact h1 i (by omega)
    have h2' : swp w (first + q j) (first + q (j + 1)) (first + q (j + 1)) = v (first + q 0) := by
      rw [swp_r rfl, h2]
    have h3' : ∀ x, (∀ i, i ≤ j + 1 → x ≠ first + q i) →
        swp w (first + q j) (first + q (j + 1)) x = v x := by
      intro x hx'
      rw [swp_o (hx' j (by omega)) (hx' (j + 1) (by omega))]
      exact h3 x fun i hi => hx' i (by omega)
    have e2 : (if m1 < last - (first + q (j + 1)) then first + q (j + 1) + m1
        else first + (m1 - (last - (first + q (j + 1))))) = first + q (j + 2) := by
      rw [hq (j + 1)]
      split <;> split <;> omega
    simp only []
    rw [e2]
    split
    · rename_i hc
      have hk : 0 < k := by
        by_contra hk
        have : j + 2 = T := by omega
        rw [this, hT] at hc
        exact hc rfl
      refine wp_mono (ih (j + 1) s1 _ (by omega) hk hx1 h1' h2' h3') ?_
      rintro r s' ⟨e, w', c1, c2, c3, c4, c5⟩
      exact ⟨e, w', c1, c2, c3, fr1.trans c4, by omega⟩
    · rename_i hc
      have hk : T = j + 2 := by
        by_contra hk
        have := hinj (j + 2) 0 (by omega) (by omega) (by omega)
        omega
      have e3 : T - 1 = j + 1 := by omega
      apply wp_pure
      rw [e3]
      refine ⟨rfl, _, hx1, fun i hi => ?_, fun x hx' => h3' x fun i hi => hx' i (by omega), fr1, hc1⟩
      by_cases e : i = j + 1
      · subst e
        rw [h2', ← hT, hk]
      · exact h1' i (by omega)

/-- The orbit of `p` under `+ m1` modulo `n`. -/
def orb (n m1 p j : Nat) : Nat := (p + j * m1) % n

theorem orb_succ {n m1 p : Nat} (hm : m1 < n) (j : Nat) :
    orb n m1 p (j + 1) =
      if m1 < n - orb n m1 p j then orb n m1 p j + m1 else orb n m1 p j + m1 - n := by
  unfold orb
  have h : (p + (j + 1) * m1) % n = ((p + j * m1) % n + m1) % n := by
    rw [Nat.mod_add_mod]; congr 1; ring
  have hlt : (p + j * m1) % n < n := Nat.mod_lt _ (by omega)
  rw [h]
  split
  · exact Nat.mod_eq_of_lt (by omega)
  · rw [Nat.mod_eq_sub_mod (by omega)]
    exact Nat.mod_eq_of_lt (by omega)

theorem orb_period {n m1 p : Nat} : orb n m1 p (n / Nat.gcd m1 n) = orb n m1 p 0 := by
  unfold orb
  obtain ⟨c, hc⟩ := Nat.gcd_dvd_left m1 n
  obtain ⟨d, hd⟩ := Nat.gcd_dvd_right m1 n
  have : n / Nat.gcd m1 n * m1 = n * c := by
    rw [show n / Nat.gcd m1 n * m1 = n / Nat.gcd m1 n * (Nat.gcd m1 n * c) by rw [← hc],
      ← Nat.mul_assoc, Nat.div_mul_cancel (Nat.gcd_dvd_right m1 n)]
  rw [this]
  simp

theorem orb_inj {n m1 p : Nat} (hn : 0 < n) : ∀ i j, i < n / Nat.gcd m1 n →
    j < n / Nat.gcd m1 n → orb n m1 p i = orb n m1 p j → i = j := by
  have key : ∀ i j, i ≤ j → j < n / Nat.gcd m1 n → orb n m1 p i = orb n m1 p j → i = j := by
    intro i j hij hj he
    unfold orb at he
    have h1 : i * m1 ≡ j * m1 [MOD n] := Nat.ModEq.add_left_cancel' p he
    have h2 : n ∣ j * m1 - i * m1 := (Nat.modEq_iff_dvd' (Nat.mul_le_mul_right _ hij)).1 h1
    rw [← Nat.mul_sub_right_distrib] at h2
    have h3 : n / Nat.gcd m1 n ∣ j - i := by
      have hg : 0 < Nat.gcd m1 n := Nat.gcd_pos_of_pos_right _ hn
      have hco : Nat.Coprime (n / Nat.gcd m1 n) (m1 / Nat.gcd m1 n) := by
        have := Nat.coprime_div_gcd_div_gcd hg
        exact this.symm
      apply hco.dvd_of_dvd_mul_right
      obtain ⟨c, hc⟩ := Nat.gcd_dvd_left m1 n
      obtain ⟨d, hd⟩ := Nat.gcd_dvd_right m1 n
      have e1 : m1 / Nat.gcd m1 n = c := Nat.div_eq_of_eq_mul_right hg hc
      have e2 : n / Nat.gcd m1 n = d := Nat.div_eq_of_eq_mul_right hg hd
      rw [e1, e2]
      obtain ⟨k, hk⟩ := h2
      refine ⟨k, ?_⟩
      apply Nat.eq_of_mul_eq_mul_left hg
      calc Nat.gcd m1 n * ((j - i) * c) = (j - i) * (Nat.gcd m1 n * c) := by ring
        _ = (j - i) * m1 := by rw [← hc]
        _ = n * k := hk
        _ = Nat.gcd m1 n * d * k := by rw [← hd]
        _ = Nat.gcd m1 n * (d * k) := by ring
    rcases Nat.eq_zero_or_pos (j - i) with h | h
    · omega
    · have := Nat.le_of_dvd h h3; omega
  intro i j hi hj he
  rcases Nat.le_total i j with h | h
  · exact key i j h hj he
  · exact (key j i h hi he.symm).symm

theorem orb_mod {n m1 p j : Nat} (hp : p < Nat.gcd m1 n) :
    orb n m1 p j % Nat.gcd m1 n = p := by
  unfold orb
  rw [Nat.mod_mod_of_dvd _ (Nat.gcd_dvd_right m1 n)]
  obtain ⟨c, hc⟩ := Nat.gcd_dvd_left m1 n
  rw [show j * m1 = Nat.gcd m1 n * (j * c) by
    rw [show Nat.gcd m1 n * (j * c) = j * (Nat.gcd m1 n * c) by ring, ← hc]]
  rw [Nat.add_mul_mod_self_left]
  exact Nat.mod_eq_of_lt hp

theorem orb_surj {n m1 p x : Nat} (hm : m1 < n) (hm0 : 0 < m1) (hx : x < n)
    (hp : x % Nat.gcd m1 n = p) : ∃ j, j < n / Nat.gcd m1 n ∧ orb n m1 p j = x := by
  have hn : 0 < n := by omega
  have hg : 0 < Nat.gcd m1 n := Nat.gcd_pos_of_pos_right _ hn
  have hgl : Nat.gcd m1 n < n := lt_of_le_of_lt (Nat.gcd_le_left _ hm0) hm
  obtain ⟨m, _, hmm⟩ := Nat.exists_mul_mod_eq_gcd (n := m1) (k := n) hgl
  have hT : 0 < n / Nat.gcd m1 n := Nat.div_pos (by omega) hg
  -- reach x without the bound
  have hj : orb n m1 p (m * (x / Nat.gcd m1 n)) = x := by
    unfold orb
    have e : m * (x / Nat.gcd m1 n) * m1 = m1 * m * (x / Nat.gcd m1 n) := by ring
    rw [e, ← Nat.add_mod_mod, Nat.mul_mod, hmm, Nat.mul_mod_mod, Nat.add_mod_mod, ← hp]
    rw [Nat.mod_add_div]
    exact Nat.mod_eq_of_lt hx
  have hper : ∀ k j, orb n m1 p (j + k * (n / Nat.gcd m1 n)) = orb n m1 p j := by
    intro k j
    have := orb_period (n := n) (m1 := m1) (p := 0)
    unfold orb at this ⊢
    simp only [Nat.zero_add, Nat.zero_mul, Nat.zero_mod] at this
    rw [show p + (j + k * (n / Nat.gcd m1 n)) * m1 =
      p + j * m1 + k * (n / Nat.gcd m1 n * m1) by ring]
    rw [Nat.add_mod, Nat.mul_mod, this]
    simp
  refine ⟨(m * (x / Nat.gcd m1 n)) % (n / Nat.gcd m1 n), Nat.mod_lt _ hT, ?_⟩
  conv_rhs => rw [← hj]
  conv_rhs => rw [← Nat.mod_add_div (m * (x / Nat.gcd m1 n)) (n / Nat.gcd m1 n)]
  rw [Nat.mul_comm (n / Nat.gcd m1 n), hper]

/-- All cycles starting below `p`: the positions whose residue is at least `p` are done. -/
theorem rotateCycles_spec {first last m1 n : Nat} {v : Nat → α}
    (hl : last = first + n) (hm : m1 < n) (hm0 : 0 < m1) :
    ∀ (p : Nat) (s : St α) (w : Nat → α), p ≤ Nat.gcd m1 n → Holds s.cell first last w →
    (∀ x, x < n → w (first + x) =
      if x % Nat.gcd m1 n < p then v (first + x) else v (first + (x + m1) % n)) →
    (∀ x, x < first ∨ last ≤ x → w x = v x) →
    wp (rotateCycles first last m1 (first + p)) (fun _ s' => ∃ w', Holds s'.cell first last w' ∧
      (∀ x, x < n → w' (first + x) = v (first + (x + m1) % n)) ∧
      (∀ x, x < first ∨ last ≤ x → w' x = v x) ∧ Frame first last s s' ∧ s'.cmps = s.cmps) s := by
  have hn : 0 < n := by omega
  have hgl : Nat.gcd m1 n < n := lt_of_le_of_lt (Nat.gcd_le_left _ hm0) hm
  have hg : 0 < Nat.gcd m1 n := Nat.gcd_pos_of_pos_right _ hn
  have hT1 : 1 < n / Nat.gcd m1 n := by
    obtain ⟨d, hd⟩ := Nat.gcd_dvd_right m1 n
    have : n / Nat.gcd m1 n = d := Nat.div_eq_of_eq_mul_right hg hd
    rw [this]
    by_contra hc
    have : d = 0 ∨ d = 1 := by omega
    rcases this with e | e <;> rw [e] at hd <;> omega
  intro p
  induction p with
  | zero =>
    intro s w _ hh h1 h2
    rw [rotateCycles, if_neg (by simp)]
    apply wp_pure
    exact ⟨w, hh, fun x hx => by have := h1 x hx; simpa using this, h2, Frame.refl _ _ _, rfl⟩
  | succ p ih =>
    intro s w hp hh h1 h2
    rw [rotateCycles, if_pos (by omega)]
    simp only []
    rw [show first + (p + 1) - 1 = first + p by omega]
    apply wp_bind
    refine wp_moveOut hh (by omega) (by omega) ?_
    intro s1 hx1 fr1 c1 _
    apply wp_bind
    have q0 : orb n m1 p 0 = p := by
      unfold orb; rw [Nat.zero_mul, Nat.add_zero]; exact Nat.mod_eq_of_lt (by omega)
    have q1 : orb n m1 p 1 = p + m1 := by
      have hle : p + m1 < n := by
        -- p < g and m1 = multiple of g below n = multiple of g
        obtain ⟨c, hc⟩ := Nat.gcd_dvd_left m1 n
        obtain ⟨d, hd⟩ := Nat.gcd_dvd_right m1 n
        have hcd : c < d := by
          have : Nat.gcd m1 n * c < Nat.gcd m1 n * d := by rw [← hc, ← hd]; exact hm
          exact Nat.lt_of_mul_lt_mul_left this
        have : Nat.gcd m1 n * (c + 1) ≤ Nat.gcd m1 n * d := Nat.mul_le_mul_left _ hcd
        rw [Nat.mul_add, ← hc, ← hd] at this
        omega
      unfold orb; rw [Nat.one_mul]; exact Nat.mod_eq_of_lt hle
    have hcyc := rotateCycle_spec (first := first) (last := last) (m1 := m1) (n := n)
      (T := n / Nat.gcd m1 n) (q := orb n m1 p) (v := w) hl hm
      (fun j => Nat.mod_lt _ hn) (orb_succ hm) orb_period (orb_inj hn)
      (n / Nat.gcd m1 n - 1) 0 s1 w (by omega) (by omega) (by rw [q0]; exact hx1)
      (fun i hi => by omega) rfl (fun _ _ => rfl)
    rw [q0, q1, show first + (p + m1) = first + p + m1 by omega] at hcyc
    refine wp_mono hcyc ?_
    rintro r s2 ⟨er, w2, a1, a2, a3, a4, a5⟩
    apply wp_bind
    subst er
    have hv : w (first + p) = w2 (first + orb n m1 p (n / Nat.gcd m1 n - 1)) := by
      rw [a2 _ (by omega), show n / Nat.gcd m1 n - 1 + 1 = n / Nat.gcd m1 n by omega, orb_period, q0]
    refine wp_assign a1 hv ?_
    intro s3 hh3 fr3 c3 _
    have hout : ∀ x, x % Nat.gcd m1 n ≠ p → w2 (first + x) = w (first + x) := by
      intro x hx
      refine a3 _ fun i hi e => hx ?_
      have e' : x = orb n m1 p i := by omega
      rw [e']; exact orb_mod (by omega)
    refine wp_mono (ih s3 w2 (by omega) hh3 ?_ ?_) ?_
    · intro x hx
      by_cases hxp : x % Nat.gcd m1 n = p
      · obtain ⟨j, hj, ej⟩ := orb_surj hm hm0 hx hxp
        rw [if_neg (by omega), ← ej, a2 j hj]
        have e1 : orb n m1 p (j + 1) = (orb n m1 p j + m1) % n := by
          unfold orb; rw [Nat.mod_add_mod]; congr 1; ring
        have e2 : (orb n m1 p j + m1) % n % Nat.gcd m1 n = p := by
          rw [← e1]; exact orb_mod (by omega)
        rw [e1, h1 _ (Nat.mod_lt _ hn), if_pos (by omega)]
      · rw [hout x hxp, h1 x hx]
        by_cases hlt' : x % Nat.gcd m1 n < p
        · rw [if_pos hlt', if_pos (by omega)]
        · rw [if_neg hlt', if_neg (by omega)]
    · intro x hx
      rw [a3 x fun i hi => ?_, h2 x hx]
      have := Nat.mod_lt (p + i * m1) hn
      unfold orb; omega
    · rintro _ s4 ⟨w4, b1, b2, b3, b4, b5⟩
      exact ⟨w4, b1, b2, b3, ((fr1.trans a4).trans fr3).trans b4, by omega⟩

theorem rotateGcd_spec {f m l : Nat} {s : St α} {v : Nat → α} (h1 : f < m) (h2 : m < l)
    (hh : Holds s.cell f l v) :
    wp (rotateGcd f m l) (fun r s' => r = f + (l - m) ∧ ∃ v', RotPost f m l s s' v v') s := by
  unfold rotateGcd
  simp only []
  split
  · rename_i e
    apply wp_bind
    refine wp_mono (swapRanges_spec (f := f) (l := l) (m - f) f m m s v (by omega) (by omega)
      (by omega) (by omega) hh) ?_
    rintro _ s1 ⟨_, v', a1, a2, a3, a4, a5, _⟩
    apply wp_pure
    refine ⟨by omega, v', ⟨a1.holds, ⟨a1.perm.1, fun i b c => ?_, fun i b c => ?_⟩, a1.frame, a5⟩⟩
    · have := a2 (i - f) (by omega)
      rw [show f + (i - f) = i by omega] at this
      rw [this]; congr 1; omega
    · have := a3 (i - m) (by omega)
      rw [show m + (i - m) = i by omega] at this
      rw [this]; congr 1; omega
  · apply wp_bind
    refine wp_mono (gcdLoop_spec _ _ s (by omega)) ?_
    rintro g s1 ⟨eg, rfl⟩
    apply wp_bind
    have eg' : g = Nat.gcd (m - f) (l - f) := by
      rw [eg, show l - f = (l - m) + (m - f) by omega, Nat.gcd_add_self_right]
    rw [eg']
    refine wp_mono (rotateCycles_spec (n := l - f) (v := v) (by omega) (by omega) (by omega)
      (Nat.gcd (m - f) (l - f)) s1 v (Nat.le_refl _) hh ?_ (fun _ _ => rfl)) ?_
    · intro x hx
      rw [if_pos (Nat.mod_lt _ (Nat.gcd_pos_of_pos_right _ (by omega)))]
    · rintro _ s2 ⟨v', a1, a2, a3, a4, a5⟩
      apply wp_pure
      refine ⟨rfl, v', ⟨a1, ⟨a3, fun i b c => ?_, fun i b c => ?_⟩, a4, a5⟩⟩
      · have := a2 (i - f) (by omega)
        rw [Nat.mod_eq_of_lt (by omega), show f + (i - f) = i by omega] at this
        rw [this]; congr 1; omega
      · have := a2 (i - f) (by omega)
        rw [Nat.mod_eq_sub_mod (by omega), Nat.mod_eq_of_lt (by omega),
          show f + (i - f) = i by omega] at this
        rw [this]; congr 1; omega

theorem rotate_spec (c : Cfg) {f m l : Nat} {s : St α} {v : Nat → α} (h1 : f ≤ m) (h2 : m ≤ l)
    (hh : Holds s.cell f l v) :
    wp (rotate c f m l) (fun r s' => r = f + (l - m) ∧ ∃ v', RotPost f m l s s' v v') s := by
  unfold rotate
  split
  · apply wp_pure
    exact ⟨by omega, v, ⟨hh, ⟨fun _ _ => rfl, fun i _ _ => by congr 1; omega,
      fun i _ _ => by omega⟩, Frame.refl _ _ _, rfl⟩⟩
  · split
    · apply wp_pure
      exact ⟨by omega, v, ⟨hh, ⟨fun _ _ => rfl, fun i _ _ => by omega,
        fun i _ _ => by congr 1; omega⟩, Frame.refl _ _ _, rfl⟩⟩
    · have hF := rotateForward_spec (s := s) (v := v) (f := f) (m := m) (l := l) (by omega) (by omega) hh
      have hL : f + 1 = m → wp (rotateLeft f l)
          (fun r s' => r = f + (l - m) ∧ ∃ v', RotPost f m l s s' v v') s := by
        intro e
        refine wp_mono (rotateLeft_spec (by omega) hh) ?_
        rintro r s' ⟨a, v', b, _⟩
        exact ⟨by omega, v', e ▸ b⟩
      have hR : m + 1 = l → wp (rotateRight f l)
          (fun r s' => r = f + (l - m) ∧ ∃ v', RotPost f m l s s' v v') s := by
        intro e
        refine wp_mono (rotateRight_spec (by omega) hh) ?_
        rintro r s' ⟨a, v', b, _⟩
        exact ⟨by omega, v', (show l - 1 = m by omega) ▸ b⟩
      have hG := rotateGcd_spec (s := s) (v := v) (f := f) (m := m) (l := l) (by omega) (by omega) hh
      split
      · split
        · rename_i h; exact hL h.2
        · exact hF
      · split
        · split
          · rename_i h; exact hL h
          · split
            · rename_i h; exact hR h
            · exact hF
        · exact hF
      · split
        · split
          · rename_i h; exact hL h
          · split
            · rename_i h; exact hR h
            · exact hG
        · exact hF

end CppSort
