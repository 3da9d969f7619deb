import Verif.Proof.SpreadRec
import Verif.Proof.Pdq
import Verif.Proof.Counting
/-
Spreadsort on integers.
-/
set_option autoImplicit false

namespace CppSort
variable {α : Type}

theorem minCountLoop_ge (lr : Nat) : ∀ (m o r : Nat), lr - o ≤ m → r ≤ minCountLoop lr o r := by
  intro m
  induction m with
  | zero => intro o r h; rw [minCountLoop, if_neg (by omega)]
  | succ m ih =>
    intro o r h
    rw [minCountLoop]
    split
    · have := ih (o + (r + 1)) (r + 1) (by omega); omega
    · exact Nat.le_refl _

theorem minCount_ge {mean split finish : Nat} (h1 : 2 ≤ mean) (h2 : 2 ≤ finish) (d : Nat) :
    4 ≤ minCount mean split finish d := by
  have hp : ∀ k, 2 ≤ k → 4 ≤ 2 ^ k := fun k hk => Nat.pow_le_pow_right (n := 2) (by omega) hk
  unfold minCount
  simp only []
  split_ifs with g1 g2 g3 g4 g5
  · exact hp _ h2
  · exact hp _ (by omega)
  · exact hp _ (by omega)
  · have := minCountLoop_ge d _ (mean + split) split (Nat.le_refl _)
    exact hp _ (by omega)
  · exact hp _ (by omega)
  · exact hp _ (by omega)

/-- The order of the keys. -/
def keyLt (key : α → Int) (x y : α) : Bool := decide (key x < key y)

theorem keyLt_sw (key : α → Int) : StrictWeak (keyLt key) := by
  refine ⟨fun x => ?_, fun x y z => ?_, fun x y z => ?_⟩ <;> simp only [keyLt, decide_eq_true_eq, decide_eq_false_iff_not] <;> omega

theorem intSortedStart_spec {key : α → Int} {f l : Nat} {v : Nat → α} {s : St α} (hh : Holds s.cell f l v) :
    ∀ (n c : Nat), l - c = n → f ≤ c → c + 1 < l → SortedOn (keyLt key) f (c + 1) v →
    wp (intSortedStart key l c) (fun r s' => s' = s ∧ match r with
      | none => SortedOn (keyLt key) f l v
      | some p => f ≤ p ∧ p + 1 < l ∧ SortedOn (keyLt key) f (p + 1) v) s := by
  intro n
  induction n with
  | zero => intro c h1 h2 h3; omega
  | succ n ih =>
    intro c h1 h2 h3 h4
    rw [intSortedStart]
    apply wp_bind
    refine wp_read hh (by omega) h3 ?_
    apply wp_bind
    refine wp_read hh h2 (by omega) ?_
    by_cases h : key (v (c + 1)) < key (v c)
    · rw [if_pos h]
      exact wp_pure ⟨rfl, h2, h3, h4⟩
    · rw [if_neg h]
      have hs : SortedOn (keyLt key) f (c + 2) v :=
        SortedOn.snoc (keyLt_sw key) h4 fun _ => by simpa [keyLt] using h
      split
      · rename_i e
        rw [show c + 2 = l by omega] at hs
        exact wp_pure ⟨rfl, hs⟩
      · exact ih (c + 1) (by omega) (by omega) (by omega) hs

theorem intExtremesLoop_spec {key : α → Int} {f l : Nat} {v : Nat → α} {s : St α} (hh : Holds s.cell f l v) :
    ∀ (n c mx mn : Nat), l - c = n → f ≤ c → c ≤ l → f ≤ mx → mx < l → f ≤ mn → mn < l →
    (∀ p, f ≤ p → p < c → key (v mn) ≤ key (v p) ∧ key (v p) ≤ key (v mx)) → key (v mn) ≤ key (v mx) →
    wp (intExtremesLoop key l c mx mn) (fun r s' => s' = s ∧ f ≤ r.1 ∧ r.1 < l ∧ f ≤ r.2 ∧ r.2 < l ∧
      ∀ p, f ≤ p → p < l → key (v r.2) ≤ key (v p) ∧ key (v p) ≤ key (v r.1)) s := by
  intro n
  induction n with
  | zero =>
    intro c mx mn h1 h2 h3 h4 h5 h6 h7 h8 _
    rw [intExtremesLoop, if_neg (by omega)]
    exact wp_pure ⟨rfl, h4, h5, h6, h7, fun p a b => h8 p a (by omega)⟩
  | succ n ih =>
    intro c mx mn h1 h2 h3 h4 h5 h6 h7 h8 h9
    rw [intExtremesLoop, if_pos (by omega)]
    apply wp_bind
    refine wp_read hh h2 (by omega) ?_
    apply wp_bind
    refine wp_read hh h4 h5 ?_
    by_cases g : key (v mx) < key (v c)
    · rw [if_pos g]
      refine ih (c + 1) c mn (by omega) (by omega) (by omega) h2 (by omega) h6 h7 (fun p a b => ?_) (by omega)
      by_cases e : p = c
      · rw [e]; omega
      · have := h8 p a (by omega); omega
    · rw [if_neg g]
      apply wp_bind
      refine wp_read hh h6 h7 ?_
      by_cases g2 : key (v c) < key (v mn)
      · rw [if_pos g2]
        refine ih (c + 1) mx c (by omega) (by omega) (by omega) h4 h5 h2 (by omega) (fun p a b => ?_) (by omega)
        by_cases e : p = c
        · rw [e]; omega
        · have := h8 p a (by omega); omega
      · rw [if_neg g2]
        refine ih (c + 1) mx mn (by omega) (by omega) (by omega) h4 h5 h6 h7 (fun p a b => ?_) h9
        by_cases e : p = c
        · rw [e]; omega
        · exact h8 p a (by omega)

theorem intExtremes_spec {key : α → Int} {f l : Nat} {v : Nat → α} {s : St α} (hfl : f + 2 ≤ l) (hh : Holds s.cell f l v) :
    wp (intExtremes key f l) (fun r s' => s' = s ∧ match r with
      | none => SortedOn (keyLt key) f l v
      | some (mx, mn) => ∃ i j, f ≤ i ∧ i < l ∧ f ≤ j ∧ j < l ∧ mx = key (v i) ∧ mn = key (v j) ∧
          ∀ p, f ≤ p → p < l → mn ≤ key (v p) ∧ key (v p) ≤ mx) s := by
  unfold intExtremes
  apply wp_bind
  refine wp_mono (intSortedStart_spec (key := key) hh _ f rfl (Nat.le_refl _) (by omega) (SortedOn.trivial (by omega))) ?_
  rintro r s1 ⟨rfl, hr⟩
  match r, hr with
  | none, hr => exact wp_pure ⟨rfl, hr⟩
  | some p, ⟨h1, h2, h3⟩ =>
    simp only
    apply wp_bind
    have hle : ∀ i j, f ≤ i → i ≤ j → j < p + 1 → key (v i) ≤ key (v j) := by
      intro i j a b c
      by_cases e : i = j
      · rw [e]
      · have := h3 i j a (by omega) c
        simpa [keyLt] using this
    refine wp_mono (intExtremesLoop_spec (key := key) hh _ (p + 1) p f rfl (by omega) (by omega) h1 (by omega) (Nat.le_refl _) (by omega)
      (fun q a b => ⟨hle f q (Nat.le_refl _) a b, hle q p a (by omega) (by omega)⟩) (hle f p (Nat.le_refl _) h1 (by omega))) ?_
    rintro ⟨mx, mn⟩ s2 ⟨rfl, g1, g2, g3, g4, g5⟩
    simp only at g1 g2 g3 g4 g5 ⊢
    apply wp_bind
    refine wp_read hh g1 g2 ?_
    apply wp_bind
    refine wp_read hh g3 g4 ?_
    exact wp_pure ⟨rfl, mx, mn, g1, g2, g3, g4, rfl, rfl, g5⟩

/-! ### The types -/

theorem IntTy.promote_bits32 (t : IntTy) : 32 ≤ t.promote.bits := by
  unfold promote; split
  · exact Nat.le_refl 32
  · omega

theorem IntTy.lo_nonpos (t : IntTy) : t.lo ≤ 0 := by
  unfold lo
  split
  · have : (0 : Int) ≤ 2 ^ (t.bits - 1) := Int.pow_nonneg (by omega)
    omega
  · exact Int.le_refl _

theorem IntTy.hi_bounds {t : IntTy} (h : 32 ≤ t.bits) : 4096 ≤ t.hi ∧ t.hi < 2 ^ t.bits ∧ t.hi - t.lo < 2 ^ t.bits := by
  have h1 : (2 : Int) ^ 31 ≤ 2 ^ (t.bits - 1) := by exact_mod_cast Nat.pow_le_pow_right (by omega : 0 < 2) (show 31 ≤ t.bits - 1 by omega)
  have h2 : (2 : Int) ^ t.bits = 2 ^ (t.bits - 1) * 2 := by
    conv_lhs => rw [show t.bits = (t.bits - 1) + 1 by omega]
    rw [Int.pow_succ]
  rw [h2]
  unfold hi lo
  rw [h2]
  norm_num at h1
  split <;> omega

/-- The values of a type are those of the promoted type. -/
theorem IntTy.Has.promote {t : IntTy} {x : Int} (h : t.Has x) : t.promote.Has x := by
  unfold IntTy.promote
  split
  · rename_i hb
    obtain ⟨h1, h2⟩ := h
    have h3 : (2 : Int) ^ (t.bits - 1) ≤ 2 ^ 31 := by exact_mod_cast Nat.pow_le_pow_right (by omega : 0 < 2) (show t.bits - 1 ≤ 31 by omega)
    have h4 : (2 : Int) ^ t.bits ≤ 2 ^ 31 := by exact_mod_cast Nat.pow_le_pow_right (by omega : 0 < 2) (show t.bits ≤ 31 by omega)
    unfold lo at h1
    unfold hi at h2
    show -(2 : Int) ^ 31 ≤ x ∧ x ≤ 2 ^ 31 - 1
    norm_num at h3 h4 ⊢
    cases ht : t.signed
    · rw [ht] at h1 h2
      simp only [Bool.false_eq_true, if_false] at h1 h2
      omega
    · rw [ht] at h1 h2
      simp only [if_true] at h1 h2
      omega
  · exact h

theorem keyLt_order (key : α → Int) (P : α → Prop) : KeyOrder key (keyLt key) P false := by
  intro x y _ _ h
  simp only [Bool.false_eq_true, if_false] at h
  simp only [keyLt, decide_eq_false_iff_not]
  omega

section
variable {wrapv : Bool} {t : IntTy} {key : α → Int} {bl : Bool}

theorem intSpread_ok (ht : t.bits ≤ 64) {P : α → Prop} (hP : ∀ x, P x → t.Has (key x))
    (hspan : ∀ x y, P x → P y → key x - key y ≤ t.promote.hi ∨ wrapv = true ∧ t.bits = 64) :
    SpreadOK (intSpread wrapv t key bl) (keyLt key) P := by
  have hb := t.promote_bits32
  have hbh := IntTy.hi_bounds hb
  have h64 : t.promote.bits ≤ 64 := by
    unfold IntTy.promote; split
    · exact (by decide : 32 ≤ 64)
    · exact ht
  constructor
  · exact ⟨h64, Nat.le_refl _, show 0 < t.promote.bits by omega⟩
  · exact t.promote.lo_nonpos
  · exact ⟨hbh.1, hbh.2.1⟩
  · intro x y hx hy hle
    rcases hspan x y hx hy with h | ⟨h1, h2⟩
    · exact Or.inl h
    · right
      refine ⟨h1, ?_, ?_⟩
      · show 64 = t.promote.bits
        unfold IntTy.promote
        rw [if_neg (by omega), h2]
      · have a := (hP x hx).promote
        have b := (hP y hy).promote
        have := hbh.2.2
        show key x - key y < 2 ^ t.promote.bits
        obtain ⟨a1, a2⟩ := a
        obtain ⟨b1, b2⟩ := b
        omega
  · intro s f l v hfl hh _
    exact intExtremes_spec hfl hh
  · intro s f l v hfl hh _
    exact pdqsort_spec (lt := keyLt key) (keyLt_sw key) bl hfl hh
  · exact minCount_ge (mean := 2) (split := 9) (finish := 31) (by omega) (by omega)

theorem integerSpreadSort_spec (ht : t.bits ≤ 64) {s : St α} {f l : Nat} {v : Nat → α} (hfl : f ≤ l) (hh : Holds s.cell f l v)
    (hP : ∀ i, f ≤ i → i < l → t.Has (key (v i)))
    (hspan : l - f < 1000 ∨ ∀ i j, f ≤ i → i < l → f ≤ j → j < l → key (v i) - key (v j) ≤ t.promote.hi ∨ wrapv = true ∧ t.bits = 64) :
    wp (integerSpreadSort wrapv t key bl f l) (fun _ s' => ∃ v', Upd f l s s' v v' ∧ SortedOn (keyLt key) f l v') s := by
  unfold integerSpreadSort
  by_cases h : l - f < 1000
  · rw [if_pos h]
    exact pdqsort_spec (lt := keyLt key) (keyLt_sw key) bl hfl hh
  · rw [if_neg h]
    have hspan := hspan.resolve_left h
    have hok := intSpread_ok (wrapv := wrapv) (t := t) (key := key) (bl := bl) ht
      (P := fun x => ∃ i, f ≤ i ∧ i < l ∧ x = v i) (fun x ⟨i, a, b, e⟩ => e ▸ hP i a b)
      (fun x y ⟨i, a, b, e⟩ ⟨j, a', b', e'⟩ => by rw [e, e']; exact hspan i j a b a' b')
    refine spreadRec_spec hok (keyLt_order _ _) 64 s f l v (by omega) hh (fun i a b => ⟨i, a, b, rfl⟩) fun i j a b a' b' => ?_
    show key (v i) - key (v j) < 2 ^ 64
    obtain ⟨c1, c2⟩ := (hP i a b).promote
    obtain ⟨d1, d2⟩ := (hP j a' b').promote
    have hbh := (IntTy.hi_bounds t.promote_bits32).2.2
    have h64 : (2 : Int) ^ t.promote.bits ≤ 2 ^ 64 := by
      have : t.promote.bits ≤ 64 := by
        unfold IntTy.promote; split
        · exact (by decide : 32 ≤ 64)
        · exact ht
      exact_mod_cast Nat.pow_le_pow_right (by omega : 0 < 2) this
    omega

/-! ### Overflows -/

theorem fail_eq {β : Type} (e : Err) (s : St α) : (fail e : M α β) s = some (.error e, s) := rfl

/-- The span of a range that is not sorted is not a value of the type: the subtraction overflows. -/
theorem integerSpreadSort_overflow (hsg : t.promote.signed = true) {s : St α} {f l : Nat} {v : Nat → α} (hfl : f + 1000 ≤ l)
    (hh : Holds s.cell f l v) (hns : ¬ SortedOn (keyLt key) f l v)
    (hbig : ∃ i j, f ≤ i ∧ i < l ∧ f ≤ j ∧ j < l ∧ t.promote.hi < key (v i) - key (v j)) :
    integerSpreadSort false t key bl f l s = some (.error .overflow, s) := by
  unfold integerSpreadSort
  rw [if_neg (by omega), spreadRec]
  refine bind_fails ?_
  unfold spreadHead
  obtain ⟨r, s', hr, rfl, hx⟩ := intExtremes_spec (key := key) (show f + 2 ≤ l by omega) hh
  rw [bind_ok (show (intSpread _ t key bl).extremes f l s' = _ from hr)]
  match r, hx with
  | none, hx => exact absurd hx hns
  | some (mx, mn), ⟨i, j, i1, i2, j1, j2, e1, e2, hp⟩ =>
    simp only
    refine bind_fails ?_
    obtain ⟨a, b, a1, a2, b1, b2, hab⟩ := hbig
    have h1 := hp a a1 a2
    have h2 := hp b b1 b2
    unfold opOver
    show (if t.promote.lo ≤ mx - mn ∧ mx - mn ≤ t.promote.hi then _ else if (false || !t.promote.signed) = true then _ else _ : M α Int) s' = _
    rw [if_neg (by omega), if_neg (by simp [hsg])]
    rfl

/-- With operations that wrap around, the range of an `int` makes the shift counts too great. -/
theorem integerSpreadSort_wrap_overflow (hb : t.bits = 32) (hsg : t.signed = true) {s : St α} {f l : Nat} {v : Nat → α}
    (hfl : f + 1000 ≤ l) (hh : Holds s.cell f l v) (hns : ¬ SortedOn (keyLt key) f l v)
    (hP : ∀ i, f ≤ i → i < l → t.Has (key (v i)))
    (hbig : ∃ i j, f ≤ i ∧ i < l ∧ f ≤ j ∧ j < l ∧ t.hi < key (v i) - key (v j)) :
    integerSpreadSort true t key bl f l s = some (.error .overflow, s) := by
  have htp : t.promote = t := by unfold IntTy.promote; rw [if_neg (by omega)]
  have hlo : t.lo = -2147483648 := by unfold IntTy.lo; rw [hb, hsg]; rfl
  have hhi : t.hi = 2147483647 := by unfold IntTy.hi; rw [hb, hsg]; rfl
  unfold integerSpreadSort
  rw [if_neg (by omega), spreadRec]
  refine bind_fails ?_
  unfold spreadHead
  obtain ⟨r, s', hr, rfl, hx⟩ := intExtremes_spec (key := key) (show f + 2 ≤ l by omega) hh
  rw [bind_ok (show (intSpread _ t key bl).extremes f l s' = _ from hr)]
  match r, hx with
  | none, hx => exact absurd hx hns
  | some (mx, mn), ⟨i, j, i1, i2, j1, j2, e1, e2, hp⟩ =>
    simp only
    obtain ⟨a, b, a1, a2, b1, b2, hab⟩ := hbig
    have h1 := hp a a1 a2
    have h2 := hp b b1 b2
    have hi := hP i i1 i2
    have hj := hP j j1 j2
    unfold IntTy.Has at hi hj
    have hop : opOver (α := α) (intSpread true t key bl).wrapv (intSpread true t key bl).ty (mx - mn) s' =
        some (.ok (mx - mn - 2 ^ 32), s') := by
      unfold opOver
      show (if t.promote.lo ≤ mx - mn ∧ mx - mn ≤ t.promote.hi then _ else if (true || !t.promote.signed) = true then _ else _ : M α Int) s' = _
      rw [htp, if_neg (by omega), if_pos (by simp)]
      show (pure ((mx - mn - t.promote.lo) % 2 ^ t.promote.bits + t.promote.lo) : M α Int) s' = _
      rw [htp, hb, hlo]
      have : (mx - mn - -2147483648) % 2 ^ 32 + -2147483648 = mx - mn - 2 ^ 32 := by
        norm_num
        omega
      rw [this]
      rfl
    rw [bind_ok hop]
    refine bind_fails ?_
    have hN : ((mx - mn - 2 ^ 32) % 2 ^ (intSpread true t key bl).sizeBits).toNat = (mx - mn - 2 ^ 32 + 2 ^ 64).toNat := by
      show ((mx - mn - 2 ^ 32) % 2 ^ 64).toNat = _
      congr 1
      norm_num
      omega
    rw [hN]
    have hN1 : 2 ^ 63 ≤ (mx - mn - 2 ^ 32 + 2 ^ 64).toNat ∧ (mx - mn - 2 ^ 32 + 2 ^ 64).toNat < 2 ^ 64 := by
      norm_num
      omega
    have hlog : roughLog2 (intSpread true t key bl).sizeBits (mx - mn - 2 ^ 32 + 2 ^ 64).toNat = 64 := by
      show roughLogLoop _ 64 0 = 64
      generalize (mx - mn - 2 ^ 32 + 2 ^ 64).toNat = N at hN1 ⊢
      have := roughLogLoop_spec N 64 0 (Or.inl rfl) hN1.2
      by_contra hne
      have hle : roughLogLoop N 64 0 ≤ 63 := by omega
      have h63 := Nat.pow_le_pow_right (n := 2) (by omega) hle
      have := this.2.2.1
      omega
    rw [hlog]
    have hd := logDivisor_spec (count := l - f) (lr := 64) (by omega) (by omega)
    unfold shiftOver
    show (if _ < t.promote.bits then _ else _ : M α Int) s' = _
    rw [htp, if_neg (by omega)]
    rfl

end

end CppSort
