import Verif.Proof.Ska
import Verif.Proof.Comparators
/-
Helper lemmas about ska_sort: the sub-keys of the types.
-/
set_option autoImplicit false

namespace CppSort

/-! ### The orders of the types -/

theorem Flt.lt_value {ew mw : Nat} (hew : 0 < ew) {x y : Flt ew mw} (hx : x.isNaN = false) (hy : y.isNaN = false) :
    x.lt y = decide (x.value < y.value) := by
  have hinf : ∀ z : Flt ew mw, z.isInf = true → z.expo + 1 = 2 ^ ew ∧ z.mant = 0 := by
    intro z h; unfold Flt.isInf at h; simpa using h
  have hnot : ∀ z : Flt ew mw, z.isNaN = false → z.isInf = false → z.expo + 1 < 2 ^ ew := by
    intro z h1 h2
    have := z.hexpo
    unfold Flt.isNaN at h1
    unfold Flt.isInf at h2
    by_contra hn
    have e : z.expo + 1 = 2 ^ ew := by omega
    simp [e] at h1 h2
    exact h2 h1
  unfold Flt.lt
  rw [hx, hy]
  simp only [Bool.or_self, Bool.false_eq_true, if_false]
  by_cases ix : x.isInf = true
  · rw [if_pos ix]
    obtain ⟨ex, mx⟩ := hinf x ix
    by_cases iy : y.isInf = true
    · obtain ⟨ey, my⟩ := hinf y iy
      have em : x.mag = y.mag := by
        unfold Flt.mag
        rw [show x.expo = y.expo by omega, mx, my]
      have hpos : 0 < y.mag := by
        have h2 : 2 ≤ 2 ^ ew := Nat.pow_le_pow_right (n := 2) (by omega) hew
        have := y.mag_bounds.2 (by omega)
        exact Nat.lt_of_lt_of_le (Nat.pow_pos (by omega)) this
      unfold Flt.value
      rw [iy, em]
      cases x.sign <;> cases y.sign <;> simp <;> omega
    · have := hnot y hy (by simpa using iy)
      have hm : y.mag < x.mag := Flt.mag_expo (by omega)
      rw [Bool.eq_false_iff.2 iy]
      unfold Flt.value
      cases x.sign <;> cases y.sign <;> simp <;> omega
  · rw [if_neg ix]
    by_cases iy : y.isInf = true
    · rw [if_pos iy]
      obtain ⟨ey, my⟩ := hinf y iy
      have := hnot x hx (by simpa using ix)
      have hm : x.mag < y.mag := Flt.mag_expo (by omega)
      unfold Flt.value
      cases x.sign <;> cases y.sign <;> simp <;> omega
    · rw [if_neg iy]


theorem Flt.lt_iff {ew mw : Nat} {x y : Flt ew mw} (hx : x.isNaN = false) (hy : y.isNaN = false) :
    x.lt y = true ↔ weakWeight x < weakWeight y ∨ (weakWeight x = weakWeight y ∧
      (if x.isFinite then x.value else 0) < (if y.isFinite then y.value else 0)) := by
  unfold weakWeight Flt.lt
  rcases x.classes with ⟨a1, a2, a3⟩ | ⟨a1, a2, a3⟩ | ⟨a1, a2, a3⟩ <;>
  rcases y.classes with ⟨b1, b2, b3⟩ | ⟨b1, b2, b3⟩ | ⟨b1, b2, b3⟩ <;>
  simp only [a1, a2, a3, b1, b2, b3, Bool.true_eq_false] at hx hy ⊢ <;> cases hx : x.sign <;> cases hy : y.sign <;>
  simp

theorem pair_sw {γ δ : Type} {la : γ → γ → Bool} {lb : δ → δ → Bool} (ha : StrictWeak la) (hb : StrictWeak lb) :
    StrictWeak (fun x y : γ × δ => la x.1 y.1 || (!la y.1 x.1 && lb x.2 y.2)) := by
  have ht : ∀ x y : γ × δ, (la x.1 y.1 || (!la y.1 x.1 && lb x.2 y.2)) = true ↔
      la x.1 y.1 = true ∨ (la x.1 y.1 = false ∧ la y.1 x.1 = false ∧ lb x.2 y.2 = true) := by
    intro x y
    cases h1 : la x.1 y.1 <;> simp
  have hf : ∀ x y : γ × δ, (la x.1 y.1 || (!la y.1 x.1 && lb x.2 y.2)) = false ↔
      la x.1 y.1 = false ∧ (la y.1 x.1 = true ∨ lb x.2 y.2 = false) := by
    intro x y
    cases h1 : la x.1 y.1 <;> cases h2 : la y.1 x.1 <;> simp
  refine ⟨fun x => ?_, fun x y z h1 h2 => ?_, fun x y z h1 h2 h3 h4 => ?_⟩
  · rw [hf]; exact ⟨ha.irrefl _, Or.inr (hb.irrefl _)⟩
  · rw [ht] at h1 h2 ⊢
    rcases h1 with h1 | ⟨h1, h1', h1''⟩ <;> rcases h2 with h2 | ⟨h2, h2', h2''⟩
    · exact Or.inl (ha.trans _ _ _ h1 h2)
    · exact Or.inl (ha.lt_of_lt_of_le h1 h2')
    · exact Or.inl (ha.lt_of_le_of_lt h1' h2)
    · obtain ⟨e1, e2⟩ := ha.equiv_trans _ _ _ h1 h1' h2 h2'
      exact Or.inr ⟨e1, e2, hb.trans _ _ _ h1'' h2''⟩
  · rw [hf] at h1 h2 h3 h4 ⊢
    rw [hf]
    have a2 : lb x.2 y.2 = false := by
      rcases h1.2 with h | h
      · rw [h2.1] at h; cases h
      · exact h
    have b2 : lb y.2 x.2 = false := by
      rcases h2.2 with h | h
      · rw [h1.1] at h; cases h
      · exact h
    have c2 : lb y.2 z.2 = false := by
      rcases h3.2 with h | h
      · rw [h4.1] at h; cases h
      · exact h
    have d2 : lb z.2 y.2 = false := by
      rcases h4.2 with h | h
      · rw [h3.1] at h; cases h
      · exact h
    obtain ⟨e1, e2⟩ := ha.equiv_trans _ _ _ h1.1 h2.1 h3.1 h4.1
    obtain ⟨f1, f2⟩ := hb.equiv_trans _ _ _ a2 b2 c2 d2
    exact ⟨⟨e1, Or.inr f1⟩, ⟨e2, Or.inr f2⟩⟩

theorem lexLess_cons {γ : Type} {lt : γ → γ → Bool} (h : StrictWeak lt) {x y : γ} {xs ys : List γ} :
    lexLess lt (x :: xs) (y :: ys) = true ↔
      lt x y = true ∨ (lt x y = false ∧ lt y x = false ∧ lexLess lt xs ys = true) := by
  rw [lexLess]
  cases h1 : lt x y
  · cases h2 : lt y x <;> simp
  · simp

theorem lexLess_false {γ : Type} {lt : γ → γ → Bool} (h : StrictWeak lt) {x y : γ} {xs ys : List γ} :
    lexLess lt (x :: xs) (y :: ys) = false ↔
      lt x y = false ∧ (lt y x = true ∨ lexLess lt xs ys = false) := by
  rw [lexLess]
  cases h1 : lt x y
  · cases h2 : lt y x <;> simp
  · simp

theorem lexLess_sw {γ : Type} {lt : γ → γ → Bool} (h : StrictWeak lt) : StrictWeak (lexLess lt) := by
  refine ⟨fun x => ?_, fun x => ?_, fun x => ?_⟩
  · induction x with
    | nil => rfl
    | cons a x ih => rw [lexLess_false h]; exact ⟨h.irrefl _, Or.inr ih⟩
  · induction x with
    | nil =>
      intro y z h1 h2
      cases z with
      | nil => cases y <;> simp [lexLess] at h2
      | cons => rfl
    | cons a x ih =>
      intro y z h1 h2
      cases y with
      | nil => simp [lexLess] at h1
      | cons b y =>
        cases z with
        | nil => simp [lexLess] at h2
        | cons c z =>
          rw [lexLess_cons h] at h1 h2 ⊢
          rcases h1 with h1 | ⟨h1, h1', h1''⟩ <;> rcases h2 with h2 | ⟨h2, h2', h2''⟩
          · exact Or.inl (h.trans _ _ _ h1 h2)
          · exact Or.inl (h.lt_of_lt_of_le h1 h2')
          · exact Or.inl (h.lt_of_le_of_lt h1' h2)
          · obtain ⟨e1, e2⟩ := h.equiv_trans _ _ _ h1 h1' h2 h2'
            exact Or.inr ⟨e1, e2, ih y z h1'' h2''⟩
  · induction x with
    | nil =>
      intro y z h1 h2 h3 h4
      cases y with
      | nil => exact ⟨h3, h4⟩
      | cons => simp [lexLess] at h1
    | cons a x ih =>
      intro y z h1 h2 h3 h4
      cases y with
      | nil => simp [lexLess] at h2
      | cons b y =>
        cases z with
        | nil => simp [lexLess] at h4
        | cons c z =>
          rw [lexLess_false h] at h1 h2 h3 h4 ⊢
          rw [lexLess_false h]
          have k : ∀ {p q : Bool}, p = false → (p = true ∨ q = false) → q = false := by
            intro p q hp hq
            rcases hq with hq | hq
            · rw [hp] at hq; cases hq
            · exact hq
          obtain ⟨e1, e2⟩ := h.equiv_trans _ _ _ h1.1 h2.1 h3.1 h4.1
          obtain ⟨f1, f2⟩ := ih y z (k h2.1 h1.2) (k h1.1 h2.2) (k h4.1 h3.2) (k h3.1 h4.2)
          exact ⟨⟨e1, Or.inr f1⟩, ⟨e2, Or.inr f2⟩⟩

/-- The order of each type is a strict weak order. -/
theorem less_sw : ∀ t : KTy, StrictWeak t.less
  | .bool => ⟨by intro x; cases x <;> rfl, by intro x y z; cases x <;> cases y <;> simp [KTy.less],
      by intro x y z; cases x <;> cases y <;> cases z <;> simp [KTy.less]⟩
  | .uint _ => strictWeak_of_keys (k1 := fun x => (x.1 : Int)) (k2 := fun _ => 0) (by intro x y; simp [KTy.less])
  | .sint _ => strictWeak_of_keys (k1 := fun x => x.1) (k2 := fun _ => 0) (by intro x y; simp [KTy.less])
  | .char _ => strictWeak_of_keys (k1 := fun x => x.1) (k2 := fun _ => 0) (by intro x y; simp [KTy.less])
  | .flt _ _ => strictWeak_of_keys (k1 := fun x => weakWeight x.1)
      (k2 := fun x => if x.1.isFinite then x.1.value else 0) fun x y => Flt.lt_iff x.2 y.2
  | .pair a b => pair_sw (less_sw a) (less_sw b)
  | .list a => lexLess_sw (less_sw a)


/-! ### The keys -/

theorem signedKey_eq {n : Nat} (hn : 0 < n) {x : Int} (h : -(256 ^ n : Nat) ≤ 2 * x ∧ 2 * x < (256 ^ n : Nat)) :
    (signedKey n x : Int) = x + (256 ^ n / 2 : Nat) ∧ signedKey n x < 256 ^ n := by
  obtain ⟨m, rfl⟩ : ∃ m, n = m + 1 := ⟨n - 1, by omega⟩
  have e : 256 ^ (m + 1) = 2 * (128 * 256 ^ m) := by rw [Nat.pow_succ]; omega
  have hp : 0 < 256 ^ (m + 1) := Nat.pow_pos (by omega)
  unfold signedKey
  generalize 256 ^ (m + 1) = N at *
  generalize 128 * 256 ^ m = H at *
  subst e
  refine ⟨?_, Nat.mod_lt _ hp⟩
  rw [show 2 * H / 2 = H by omega]
  by_cases hx : 0 ≤ x
  · have e1 : x % ((2 * H : Nat) : Int) = x := Int.emod_eq_of_lt hx (by omega)
    rw [e1, Nat.mod_eq_of_lt (by omega)]
    omega
  · have e1 : x % ((2 * H : Nat) : Int) = x + (2 * H : Nat) := by
      rw [← Int.add_emod_right, Int.emod_eq_of_lt (by omega) (by omega)]
    rw [e1]
    have e2 : (x + ((2 * H : Nat) : Int)).toNat + H = (x + H).toNat + 2 * H := by omega
    rw [e2, Nat.add_mod_right, Nat.mod_eq_of_lt (by omega)]
    omega

theorem charKey_eq {n : Nat} {x : Int} (h : 2 * x < (256 ^ n : Nat)) (h0 : 0 ≤ x) :
    (charKey n x : Int) = x ∧ charKey n x < 256 ^ n := by
  unfold charKey
  have hp : 0 < 256 ^ n := Nat.pow_pos (by omega)
  generalize 256 ^ n = N at *
  have e1 : x % (N : Int) = x := Int.emod_eq_of_lt h0 (by omega)
  rw [e1]
  omega

/-- The magnitude of the bits. -/
def Flt.low {ew mw : Nat} (x : Flt ew mw) : Nat := x.expo * 2 ^ mw + x.mant

theorem Flt.low_lt {ew mw : Nat} (x : Flt ew mw) : x.low < 2 ^ (ew + mw) := by
  unfold Flt.low
  have h1 := x.hexpo
  have h2 := x.hmant
  rw [Nat.pow_add]
  have : (x.expo + 1) * 2 ^ mw ≤ 2 ^ ew * 2 ^ mw := Nat.mul_le_mul_right _ h1
  rw [Nat.add_mul] at this
  omega

theorem Flt.low_mag {ew mw : Nat} {x y : Flt ew mw} (h : x.low < y.low) : x.mag < y.mag := by
  unfold Flt.low at h
  have hx := x.hmant
  have hy := y.hmant
  have he : ¬ y.expo < x.expo := by
    intro hc
    have : (y.expo + 1) * 2 ^ mw ≤ x.expo * 2 ^ mw := Nat.mul_le_mul_right _ hc
    rw [Nat.add_mul] at this
    omega
  rcases Nat.lt_or_eq_of_le (Nat.le_of_not_lt he) with h1 | h1
  · exact Flt.mag_expo h1
  · rw [h1] at h
    unfold Flt.mag
    rw [h1]
    have hm : x.mant < y.mant := by omega
    split
    · exact hm
    · exact Nat.mul_lt_mul_of_pos_right (by omega) (Nat.pow_pos (by omega))

theorem Flt.low_inj {ew mw : Nat} {x y : Flt ew mw} (h : x.low = y.low) : x.mag = y.mag ∧ x.expo = y.expo ∧ x.mant = y.mant := by
  unfold Flt.low at h
  have hx := x.hmant
  have hy := y.hmant
  have he : x.expo = y.expo := by
    rcases Nat.lt_trichotomy x.expo y.expo with h1 | h1 | h1
    · have : (x.expo + 1) * 2 ^ mw ≤ y.expo * 2 ^ mw := Nat.mul_le_mul_right _ h1
      rw [Nat.add_mul] at this
      omega
    · exact h1
    · have : (y.expo + 1) * 2 ^ mw ≤ x.expo * 2 ^ mw := Nat.mul_le_mul_right _ h1
      rw [Nat.add_mul] at this
      omega
  rw [he] at h
  have hm : x.mant = y.mant := by omega
  exact ⟨by unfold Flt.mag; rw [he, hm], he, hm⟩

theorem fltKey_eq {ew mw : Nat} (x : Flt ew mw) :
    fltKey x = if x.sign then 2 ^ (ew + mw) - 1 - x.low else 2 ^ (ew + mw) + x.low := by
  have hl := x.low_lt
  have hb : x.bits = (if x.sign then 2 ^ (ew + mw) else 0) + x.low := by
    unfold Flt.bits Flt.low; omega
  unfold fltKey
  rw [hb, Nat.pow_succ]
  generalize 2 ^ (ew + mw) = N at *
  have hN : 0 < N := by omega
  cases x.sign
  · have : (0 + x.low) / N = 0 := by rw [Nat.zero_add]; exact Nat.div_eq_of_lt hl
    simp only [Bool.false_eq_true, if_false]
    rw [this, if_neg (by omega)]
    omega
  · have : (N + x.low) / N = 1 := by
      rw [Nat.add_div_left _ hN, Nat.div_eq_of_lt hl]
    simp only [if_true]
    rw [this, if_pos rfl]
    omega

theorem fltKey_lt {ew mw : Nat} (x : Flt ew mw) : fltKey x < 2 ^ (ew + mw + 1) := by
  have hl := x.low_lt
  rw [fltKey_eq, Nat.pow_succ]
  split <;> omega

theorem fltKey_inj {ew mw : Nat} {x y : Flt ew mw} (h : fltKey x = fltKey y) : x = y := by
  have hx := x.low_lt
  have hy := y.low_lt
  rw [fltKey_eq, fltKey_eq] at h
  have : x.sign = y.sign ∧ x.low = y.low := by
    cases ex : x.sign <;> cases ey : y.sign <;> simp only [ex, ey, if_true, if_false, Bool.false_eq_true] at h <;>
      refine ⟨?_, ?_⟩ <;> first | rfl | omega
  exact Flt.ext' this.1 (Flt.low_inj this.2).2.1 (Flt.low_inj this.2).2.2

theorem fltKey_value {ew mw : Nat} {x y : Flt ew mw} (h : fltKey x < fltKey y) : x.value ≤ y.value := by
  have hx := x.low_lt
  have hy := y.low_lt
  rw [fltKey_eq, fltKey_eq] at h
  unfold Flt.value
  cases ex : x.sign <;> cases ey : y.sign <;> simp only [ex, ey, if_true, if_false, Bool.false_eq_true] at h ⊢
  · have := Flt.low_mag (show x.low < y.low by omega); omega
  · omega
  · omega
  · have := Flt.low_mag (show y.low < x.low by omega); omega

/-- Two numbers with the same value are the same, or zeros of different signs. -/
theorem Flt.value_inj {ew mw : Nat} {x y : Flt ew mw} (h : x.value = y.value) : x = y ∨ (x.value = 0 ∧ x.sign ≠ y.sign) := by
  by_cases e : x.sign = y.sign
  · left
    have : x.mag = y.mag := by
      unfold Flt.value at h
      rw [e] at h
      cases hs : y.sign <;> rw [hs] at h
      · simp at h; omega
      · simp at h; omega
    exact Flt.ext' e (Flt.mag_inj this).1 (Flt.mag_inj this).2
  · right
    refine ⟨?_, e⟩
    unfold Flt.value at h ⊢
    cases ex : x.sign <;> cases ey : y.sign <;> simp [ex, ey] at h e ⊢ <;> omega

/-! ### The types that are sorted -/

/-- The types that can be the elements of a list. -/
def KTy.Elt : KTy → Prop
  | .bool => False
  | .uint n => 0 < n
  | .sint n => 0 < n
  | .char n => 0 < n
  | .flt ew mw => 0 < ew ∧ (ew + mw + 1) % 8 = 0
  | .pair _ _ => False
  | .list a => a.Elt

/-- The types whose sub-keys distinguish the values: the elements of lists are neither booleans, nor pairs or tuples. -/
def KTy.Plain : KTy → Prop
  | .bool => True
  | .uint n => 0 < n
  | .sint n => 0 < n
  | .char n => 0 < n
  | .flt ew mw => 0 < ew ∧ (ew + mw + 1) % 8 = 0
  | .pair a b => a.Plain ∧ b.Plain
  | .list a => a.Elt

/-- The values whose sub-keys are ordered as the values: characters are not negative and, unless the sub-key is the last one
(`strict` is false), floating point numbers are not `-0.0`. -/
def KTy.Fit : (strict : Bool) → (t : KTy) → t.Val → Prop
  | _, .bool, _ => True
  | _, .uint _, _ => True
  | _, .sint _, _ => True
  | _, .char _, x => 0 ≤ x.1
  | strict, .flt _ _, x => strict = true → ¬ (x.1.value = 0 ∧ x.1.sign = true)
  | strict, .pair a b, x => a.Fit true x.1 ∧ b.Fit strict x.2
  | _, .list a, x => ∀ e ∈ x, a.Fit true e

theorem pow_bytes {n : Nat} (h : n % 8 = 0) : 256 ^ (n / 8) = 2 ^ n := by
  rw [show (256 : Nat) = 2 ^ 8 from rfl, ← Nat.pow_mul]
  congr 1
  omega

theorem equal_eq : ∀ (t : KTy), t.Plain → ∀ x y, t.Fit true x → t.Fit true y → t.equal x y = true → x = y
  | .bool, _, x, y, _, _, h => by simpa [KTy.equal] using h
  | .uint _, _, x, y, _, _, h => by simp [KTy.equal] at h; exact Subtype.ext h
  | .sint _, _, x, y, _, _, h => by simp [KTy.equal] at h; exact Subtype.ext h
  | .char _, _, x, y, _, _, h => by simp [KTy.equal] at h; exact Subtype.ext h
  | .flt ew mw, hp, x, y, hx, hy, h => by
    simp only [KTy.equal, Bool.and_eq_true, Bool.not_eq_true'] at h
    rw [Flt.lt_value hp.1 x.2 y.2, Flt.lt_value hp.1 y.2 x.2] at h
    simp only [decide_eq_false_iff_not] at h
    have e : x.1.value = y.1.value := by omega
    rcases Flt.value_inj e with h' | ⟨h1, h2⟩
    · exact Subtype.ext h'
    · exfalso
      have a := hx rfl
      have b := hy rfl
      rw [← e] at b
      cases ex : x.1.sign <;> cases ey : y.1.sign
      · exact h2 (by rw [ex, ey])
      · exact b ⟨h1, ey⟩
      · exact a ⟨h1, ex⟩
      · exact h2 (by rw [ex, ey])
  | .pair a b, hp, x, y, hx, hy, h => by
    simp only [KTy.equal, Bool.and_eq_true] at h
    exact Prod.ext (equal_eq a hp.1 _ _ hx.1 hy.1 h.1) (equal_eq b hp.2 _ _ hx.2 hy.2 h.2)
  | .list a, hp, x, y, hx, hy, h => by
    have ha : a.Plain := by cases a <;> first | exact hp | exact hp.elim
    have key : ∀ x y : List a.Val, (∀ e ∈ x, a.Fit true e) → (∀ e ∈ y, a.Fit true e) → lexEq a.equal x y = true → x = y := by
      intro x
      induction x with
      | nil => intro y _ _ h; cases y <;> simp [lexEq] at h ⊢
      | cons c x ih =>
        intro y hx hy h
        cases y with
        | nil => simp [lexEq] at h
        | cons d y =>
          simp only [lexEq, Bool.and_eq_true] at h
          rw [equal_eq a ha c d (hx c (by simp)) (hy d (by simp)) h.1,
            ih y (fun e he => hx e (by simp [he])) (fun e he => hy e (by simp [he])) h.2]
    exact key x y hx hy h

/-! ### The sub-keys of a type -/

/-- What the order of the elements has to do with the values of a type: `g` is the part of an element. -/
structure PartOK {α : Type} (lt : α → α → Bool) (strict : Bool) (t : KTy) (g : α → Option t.Val) (P Q : α → α → Prop) : Prop where
  dom : ∀ x y, P x y → ∃ a, g x = some a ∧ t.Fit strict a
  cross : ∀ x y a b, P x y → P y x → g x = some a → g y = some b →
    (if strict then t.less a b = true else t.less b a = false) → lt y x = false
  tie : ∀ x y a, P x y → P y x → g x = some a → g y = some a → Q x y

section
variable {α : Type} {lt : α → α → Bool}

theorem PartOK.word {strict : Bool} {t : KTy} {g : α → Option t.Val} {P Q : α → α → Prop} (h : PartOK lt strict t g P Q)
    {n : Nat} (hn : 0 < n) (K : t.Val → Nat) (hK : ∀ a, t.Fit strict a → K a < 256 ^ n)
    (hinj : ∀ a b, t.Fit strict a → t.Fit strict b → K a = K b → a = b)
    (hlt : ∀ a b, t.Fit strict a → t.Fit strict b → K a < K b → if strict then t.less a b = true else t.less b a = false) :
    WordOK lt n (fun x => (g x).bind fun a => some (K a)) P Q := by
  refine ⟨hn, fun x y hp => ?_, fun x y a b hp hp' hx hy hab => ?_, fun x y a hp hp' hx hy => ?_⟩
  · obtain ⟨a, e, hf⟩ := h.dom x y hp
    exact ⟨K a, by simp [e], hK a hf⟩
  · obtain ⟨a', e, hf⟩ := h.dom x y hp
    obtain ⟨b', e', hf'⟩ := h.dom y x hp'
    simp [e] at hx
    simp [e'] at hy
    exact h.cross x y a' b' hp hp' e e' (hlt a' b' hf hf' (by omega))
  · obtain ⟨a', e, hf⟩ := h.dom x y hp
    obtain ⟨b', e', hf'⟩ := h.dom y x hp'
    simp [e] at hx
    simp [e'] at hy
    have := hinj a' b' hf hf' (by omega)
    rw [← this] at e'
    exact h.tie x y a' hp hp' e e'

theorem comap_comap {β γ : Type} (g : α → Option β) (g' : β → Option γ) : ∀ k : SubKey γ,
    (k.comap g').comap g = k.comap (fun x => (g x).bind g')
  | .bool key => by simp [SubKey.comap, Option.bind_assoc]
  | .word n key => by simp [SubKey.comap, Option.bind_assoc]
  | .list size elt equal => by
    simp only [SubKey.comap, SubKey.list.injEq]
    refine ⟨by funext x; simp [Option.bind_assoc], by funext i; exact comap_comap g g' (elt i), ?_⟩
    funext x y
    cases hx : g x <;> cases hy : g y <;> simp


theorem lexLess_prefix {γ : Type} {lt : γ → γ → Bool} (h : StrictWeak lt) : ∀ (i : Nat) (x y : List γ), x.take i = y.take i →
    ∀ a b, x[i]? = some a → y[i]? = some b → lt a b = true → lexLess lt x y = true := by
  intro i
  induction i with
  | zero =>
    intro x y _ a b hx hy hab
    cases x <;> cases y <;> simp at hx hy
    rw [hx, hy, lexLess_cons h]
    exact Or.inl hab
  | succ i ih =>
    intro x y ht a b hx hy hab
    cases x with
    | nil => simp at hx
    | cons c x =>
      cases y with
      | nil => simp at hy
      | cons d y =>
        simp at ht hx hy
        rw [lexLess_cons h, ← ht.1]
        exact Or.inr ⟨h.irrefl _, h.irrefl _, ih x y ht.2 a b hx hy hab⟩

theorem lexLess_short {γ : Type} {lt : γ → γ → Bool} (h : StrictWeak lt) : ∀ (x y : List γ), x.length < y.length →
    x = y.take x.length → lexLess lt x y = true := by
  intro x
  induction x with
  | nil =>
    intro y hl _
    cases y with
    | nil => simp at hl
    | cons => rfl
  | cons c x ih =>
    intro y hl ht
    cases y with
    | nil => simp at hl
    | cons d y =>
      simp at ht hl
      rw [lexLess_cons h, ← ht.1]
      exact Or.inr ⟨h.irrefl _, h.irrefl _, ih y hl ht.2⟩

theorem take_succ_eq {γ : Type} {x y : List γ} {i : Nat} (h : x.take i = y.take i) {a : γ} (hx : x[i]? = some a)
    (hy : y[i]? = some a) : x.take (i + 1) = y.take (i + 1) := by
  rw [List.take_add_one, List.take_add_one, h, hx, hy]

theorem PartOK.of_less {strict : Bool} {t : KTy} {a b : t.Val} (h : t.less a b = true) :
    if strict then t.less a b = true else t.less b a = false := by
  cases strict
  · exact (less_sw t).asymm h
  · exact h

theorem comap_same {β : Type} (g : α → Option β) (x y : α) : ∀ k : SubKey β,
    (k.comap g).same x y = (g x).bind fun a => (g y).bind fun b => k.same a b
  | .bool key => by
    simp only [SubKey.comap, SubKey.same]
    cases g x <;> cases g y <;> simp
  | .word n key => by
    simp only [SubKey.comap, SubKey.same]
    cases g x <;> cases g y <;> simp
  | .list size elt equal => rfl

theorem comap_isBool {β : Type} (g : α → Option β) : ∀ k : SubKey β, (k.comap g).isBool = k.isBool
  | .bool _ => rfl
  | .word _ _ => rfl
  | .list _ _ _ => rfl

theorem first_isBool : ∀ t : KTy, t.Elt → t.first.isBool = false
  | .bool, h => h.elim
  | .uint _, _ => rfl
  | .sint _, _ => rfl
  | .char _, _ => rfl
  | .flt _ _, _ => rfl
  | .pair _ _, h => h.elim
  | .list _, _ => rfl

/-- The comparison of the elements of lists. -/
theorem first_same : ∀ (t : KTy), t.Elt → ∀ a b : t.Val, ∃ c, t.first.same a b = some c ∧
    (c = true → t.Fit true a → t.Fit true b → a = b)
  | .bool, h, _, _ => h.elim
  | .pair _ _, h, _, _ => h.elim
  | .uint _, _, a, b => ⟨_, rfl, fun h _ _ => Subtype.ext (by simpa using h)⟩
  | .sint n, hn, a, b => ⟨_, rfl, fun h _ _ => Subtype.ext (by
      have h : signedKey n a.1 = signedKey n b.1 := by simpa using h
      have := (signedKey_eq hn a.2).1
      have := (signedKey_eq hn b.2).1
      omega)⟩
  | .char n, hn, a, b => ⟨_, rfl, fun h ha hb => Subtype.ext (by
      have h : charKey n a.1 = charKey n b.1 := by simpa using h
      have := (charKey_eq a.2.2 ha).1
      have := (charKey_eq b.2.2 hb).1
      omega)⟩
  | .flt ew mw, _, a, b => ⟨_, rfl, fun h _ _ => Subtype.ext (fltKey_inj (by simpa using h))⟩
  | .list t, ht, a, b => ⟨_, rfl, fun h ha hb => equal_eq (.list t) ht a b ha hb h⟩

/-- The first sub-key of a type whose first sub-key is the whole value is consistent with the order. -/
theorem first_ok : ∀ (t : KTy), (t = .bool ∨ t.Elt) → ∀ {α : Type} {lt : α → α → Bool} (strict : Bool)
    (g : α → Option t.Val) (P Q : α → α → Prop), PartOK lt strict t g P Q → (t.first.comap g).OK lt P Q
  | .bool, _, α, lt, strict, g, P, Q, h => by
    refine ⟨fun x y hp => ?_, fun x y hp hp' hx hy => ?_, fun x y a hp hp' hx hy => ?_⟩
    · obtain ⟨a, e, _⟩ := h.dom x y hp
      exact ⟨a, by simp [e]⟩
    · simp at hx hy
      exact h.cross x y false true hp hp' hx hy (by cases strict <;> rfl)
    · simp at hx hy
      exact h.tie x y a hp hp' hx hy
  | .uint n, ht, α, lt, strict, g, P, Q, h => by
    refine h.word (by simpa [KTy.Elt] using ht) (fun a => a.1) (fun a _ => a.2) (fun a b _ _ e => Subtype.ext e)
      fun a b _ _ hab => PartOK.of_less ?_
    simpa [KTy.less] using hab
  | .sint n, ht, α, lt, strict, g, P, Q, h => by
    have hn : 0 < n := by simpa [KTy.Elt] using ht
    refine h.word hn (fun a => signedKey n a.1) (fun a _ => (signedKey_eq hn a.2).2) (fun a b _ _ e => Subtype.ext ?_)
      fun a b _ _ hab => PartOK.of_less ?_
    · have := (signedKey_eq hn a.2).1
      have := (signedKey_eq hn b.2).1
      omega
    · have := (signedKey_eq hn a.2).1
      have := (signedKey_eq hn b.2).1
      simp only [KTy.less, decide_eq_true_eq]
      omega
  | .char n, ht, α, lt, strict, g, P, Q, h => by
    have hn : 0 < n := by simpa [KTy.Elt] using ht
    refine h.word hn (fun a => charKey n a.1) (fun a h0 => (charKey_eq a.2.2 h0).2) (fun a b ha hb e => Subtype.ext ?_)
      fun a b ha hb hab => PartOK.of_less ?_
    · have := (charKey_eq a.2.2 ha).1
      have := (charKey_eq b.2.2 hb).1
      omega
    · have := (charKey_eq a.2.2 ha).1
      have := (charKey_eq b.2.2 hb).1
      simp only [KTy.less, decide_eq_true_eq]
      omega
  | .flt ew mw, ht, α, lt, strict, g, P, Q, h => by
    have ht : 0 < ew ∧ (ew + mw + 1) % 8 = 0 := by simpa [KTy.Elt] using ht
    refine h.word (by omega) (fun a => fltKey a.1) (fun a _ => by rw [pow_bytes ht.2]; exact fltKey_lt a.1)
      (fun a b _ _ e => Subtype.ext (fltKey_inj e)) fun a b ha hb hab => ?_
    have hle := fltKey_value hab
    cases strict with
    | false =>
      simp only [Bool.false_eq_true, if_false, KTy.less]
      rw [Flt.lt_value ht.1 b.2 a.2]
      simpa using hle
    | true =>
      simp only [if_true, KTy.less]
      rw [Flt.lt_value ht.1 a.2 b.2]
      simp only [decide_eq_true_eq]
      by_contra hn
      have e : a.1.value = b.1.value := by omega
      rcases Flt.value_inj e with h' | ⟨h1, h2⟩
      · rw [h'] at hab; omega
      · have ha := ha rfl
        have hb := hb rfl
        rw [← e] at hb
        cases ex : a.1.sign <;> cases ey : b.1.sign
        · exact h2 (by rw [ex, ey])
        · exact hb ⟨h1, ey⟩
        · exact ha ⟨h1, ex⟩
        · exact h2 (by rw [ex, ey])
  | .pair a b, ht, _, _, _, _, _, _, _ => by simp [KTy.Elt] at ht
  | .list t, ht, α, lt, strict, g, P, Q, h => by
    have he : t.Elt := by simpa [KTy.Elt] using ht
    have hpl : t.Plain := by cases t <;> first | exact he | exact he.elim
    have hsw := less_sw t
    have hdom : ∀ x y, P x y → ∃ a, g x = some a ∧ ∀ e ∈ a, t.Fit true e := h.dom
    simp only [KTy.first, SubKey.comap]
    refine ⟨fun i x y => (P x y ∧ P y x) ∧ ∃ a b, g x = some a ∧ g y = some b ∧ i ≤ a.length ∧ i ≤ b.length ∧
      a.take i = b.take i, ⟨?_, ?_, ?_, ?_, ?_, ?_, ?_, ?_⟩, fun i => ⟨?_, ?_⟩⟩
    · intro x y hp hp'
      obtain ⟨a, e, _⟩ := h.dom x y hp
      obtain ⟨b, e', _⟩ := h.dom y x hp'
      exact ⟨⟨hp, hp'⟩, a, b, e, e', Nat.zero_le _, Nat.zero_le _, rfl⟩
    · rintro i x y ⟨_, a, b, e, e', h1, h2, h3⟩
      exact ⟨a.length, by simp [e], h1⟩
    · rintro i x y m n ⟨_, a, b, e, e', h1, h2, h3⟩ hm hn him hin
      simp [e] at hm
      simp [e'] at hn
      obtain ⟨c, hc, _⟩ := first_same t he (a[i]'(by omega)) (b[i]'(by omega))
      refine ⟨c, ?_⟩
      simp only [comap_same, e, e', Option.bind_some]
      rw [List.getElem?_eq_getElem (by omega), List.getElem?_eq_getElem (by omega)]
      simpa using hc
    · rintro i x y m n ⟨hp, a, b, e, e', h1, h2, h3⟩ hm hn him hin hs
      simp [e] at hm
      simp [e'] at hn
      obtain ⟨c, hc, hc'⟩ := first_same t he (a[i]'(by omega)) (b[i]'(by omega))
      simp only [comap_same, e, e', Option.bind_some] at hs
      rw [List.getElem?_eq_getElem (by omega), List.getElem?_eq_getElem (by omega)] at hs
      simp only [Option.bind_some] at hs
      rw [hc] at hs
      obtain ⟨a', ea, ha⟩ := hdom x y hp.1
      obtain ⟨b', eb, hb⟩ := hdom y x hp.2
      rw [e] at ea
      rw [e'] at eb
      cases ea
      cases eb
      have := hc' (by simpa using hs) (ha _ (List.getElem_mem _)) (hb _ (List.getElem_mem _))
      exact ⟨hp, a, b, e, e', by omega, by omega, take_succ_eq h3 (List.getElem?_eq_getElem (by omega))
        (by rw [this]; exact List.getElem?_eq_getElem (by omega))⟩
    · rintro i x m ⟨hp, a, b, e, e', h1, h2, h3⟩ hm him
      rw [e] at e'
      cases e'
      simp [e] at hm
      exact ⟨hp, a, a, e, e, by omega, by omega, rfl⟩
    · rintro k i x y z hk ⟨hp, _⟩ ⟨_, a, b, e, e', h1, h2, h3⟩ ⟨_, a', c, f, f', g1, g2, g3⟩
      rw [e] at f
      cases f
      exact ⟨hp, b, c, e', f', h2, g2, h3.symm.trans g3⟩
    · rintro i x y n ⟨hp, a, b, e, e', h1, h2, h3⟩ hi hn hin
      simp [e] at hi
      simp [e'] at hn
      refine h.cross x y a b hp.1 hp.2 e e' (PartOK.of_less ?_)
      refine lexLess_short hsw a b (by omega) ?_
      rw [hi, ← h3, ← hi, List.take_length]
    · rintro i x y ⟨hp, a, b, e, e', h1, h2, h3⟩ hi hn
      simp [e] at hi
      simp [e'] at hn
      have : a = b := by
        rw [← List.take_length (l := a), ← List.take_length (l := b), hi, hn, h3]
      rw [← this] at e'
      exact h.tie x y a hp.1 hp.2 e e'
    · rw [comap_isBool, comap_isBool, first_isBool t he]
    · beta_reduce
      rw [comap_comap]
      refine first_ok t (Or.inr he) true _ _ _ ⟨?_, ?_, ?_⟩
      · rintro x y ⟨⟨hp, a, b, e, e', h1, h2, h3⟩, ⟨m, hm, him⟩, _⟩
        simp [e] at hm
        obtain ⟨a', ea, ha⟩ := hdom x y hp.1
        rw [e] at ea
        cases ea
        exact ⟨a[i]'(by omega), by simp only [e, Option.bind_some]; exact List.getElem?_eq_getElem (by omega),
          ha _ (List.getElem_mem _)⟩
      · rintro x y c d ⟨⟨hp, a, b, e, e', h1, h2, h3⟩, _⟩ _ hc hd hcd
        simp only [e, e', Option.bind_some] at hc hd
        exact h.cross x y a b hp.1 hp.2 e e' (PartOK.of_less (lexLess_prefix hsw i a b h3 c d hc hd (by simpa using hcd)))
      · rintro x y c ⟨⟨hp, a, b, e, e', h1, h2, h3⟩, ⟨m, hm, him⟩, ⟨n, hn, hin⟩⟩ _ hc hd
        simp [e] at hm
        simp [e'] at hn
        simp only [e, e', Option.bind_some] at hc hd
        exact ⟨hp, a, b, e, e', by omega, by omega, take_succ_eq h3 hc hd⟩

/-- All the sub-keys of a type, and others after them, are consistent with the order. -/
theorem keys_ok : ∀ (t : KTy), t.Plain → ∀ {α : Type} {lt : α → α → Bool} (strict : Bool)
    (g : α → Option t.Val) (P Q : α → α → Prop) (rest : List (SubKey α)), PartOK lt strict t g P Q → KeysOK lt rest Q →
    KeysOK lt ((t.first :: t.more).map (·.comap g) ++ rest) P
  | .bool, _, α, lt, strict, g, P, Q, rest, h, hr => ⟨Q, first_ok .bool (Or.inl rfl) strict g P Q h, hr⟩
  | .uint n, ht, α, lt, strict, g, P, Q, rest, h, hr => ⟨Q, first_ok (.uint n) (Or.inr ht) strict g P Q h, hr⟩
  | .sint n, ht, α, lt, strict, g, P, Q, rest, h, hr => ⟨Q, first_ok (.sint n) (Or.inr ht) strict g P Q h, hr⟩
  | .char n, ht, α, lt, strict, g, P, Q, rest, h, hr => ⟨Q, first_ok (.char n) (Or.inr ht) strict g P Q h, hr⟩
  | .flt ew mw, ht, α, lt, strict, g, P, Q, rest, h, hr => ⟨Q, first_ok (.flt ew mw) (Or.inr ht) strict g P Q h, hr⟩
  | .list t, ht, α, lt, strict, g, P, Q, rest, h, hr => ⟨Q, first_ok (.list t) (Or.inr ht) strict g P Q h, hr⟩
  | .pair a b, ht, α, lt, strict, g, P, Q, rest, h, hr => by
    have ha := less_sw a
    have hdom : ∀ x y, P x y → ∃ c : a.Val × b.Val, g x = some c ∧ a.Fit true c.1 ∧ b.Fit strict c.2 := h.dom
    have hb := keys_ok b ht.2 (lt := lt) strict (fun x => (g x).bind fun c => some c.2)
      (fun x y => (P x y ∧ P y x) ∧ ∃ c d, g x = some c ∧ g y = some d ∧ c.1 = d.1) Q rest ⟨?_, ?_, ?_⟩ hr
    · have hall := keys_ok a ht.1 (lt := lt) true (fun x => (g x).bind fun c => some c.1) P _ _ ⟨?_, ?_, ?_⟩ hb
      · simp only [KTy.first, KTy.more, List.map_cons, List.map_append, List.map_map, Function.comp_def, comap_comap,
          List.cons_append, List.append_assoc] at hall ⊢
        exact hall
      · intro x y hp
        obtain ⟨c, e, h1, h2⟩ := hdom x y hp
        exact ⟨c.1, by simp [e], h1⟩
      · intro x y c d hp hp' hx hy hcd
        obtain ⟨c', e, _⟩ := hdom x y hp
        obtain ⟨d', e', _⟩ := hdom y x hp'
        simp [e] at hx
        simp [e'] at hy
        subst hx hy
        simp only [if_true] at hcd
        refine h.cross x y c' d' hp hp' e e' (PartOK.of_less ?_)
        simp [KTy.less, hcd]
      · intro x y c hp hp' hx hy
        obtain ⟨c', e, _⟩ := hdom x y hp
        obtain ⟨d', e', _⟩ := hdom y x hp'
        simp [e] at hx
        simp [e'] at hy
        exact ⟨⟨hp, hp'⟩, c', d', e, e', hx.trans hy.symm⟩
    · rintro x y ⟨hp, _⟩
      obtain ⟨c, e, h1, h2⟩ := hdom x y hp.1
      exact ⟨c.2, by simp [e], h2⟩
    · rintro x y c d ⟨hp, c', d', e, e', hcd⟩ _ hx hy hlt
      simp [e] at hx
      simp [e'] at hy
      subst hx hy
      refine h.cross x y c' d' hp.1 hp.2 e e' ?_
      simp only [KTy.less, hcd, ha.irrefl, Bool.false_or, Bool.not_false, Bool.true_and]
      exact hlt
    · rintro x y c ⟨hp, c', d', e, e', hcd⟩ _ hx hy
      simp [e] at hx
      simp [e'] at hy
      have : c' = d' := Prod.ext hcd (hx.trans hy.symm)
      rw [← this] at e'
      exact h.tie x y c' hp.1 hp.2 e e'
end
end CppSort
