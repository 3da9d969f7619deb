import Verif.Model.Bitops
import Mathlib.Data.Nat.Log
/-
C85, C86: detail/bitops.h and utility/make_integer_range.h.
-/
set_option autoImplicit false

namespace CppSort
namespace Bitops

theorem smear_bits (k : Nat) (n0 : BitVec (2 ^ k)) : ∀ (m j : Nat), m + j = k → ∀ n : BitVec (2 ^ k),
    (∀ b, n.getLsbD b = true ↔ ∃ d, d < 2 ^ j ∧ n0.getLsbD (b + d) = true) →
    ∀ b, (smear (2 ^ k) (2 ^ k / 2) (2 ^ j) n).getLsbD b = true ↔
      ∃ d, d < 2 ^ k ∧ n0.getLsbD (b + d) = true
  | 0, j, e, n, h, b => by
      have : j = k := by omega
      subst this
      have h2 : 0 < 2 ^ j := Nat.two_pow_pos j
      rw [smear, if_neg (by omega)]
      exact h b
  | m + 1, j, e, n, h, b => by
      have h2 : 0 < 2 ^ j := Nat.two_pow_pos j
      have h3 : 2 ^ (j + 1) ≤ 2 ^ k := Nat.pow_le_pow_right (by omega) (by omega)
      have h4 : 2 ^ (j + 1) = 2 * 2 ^ j := by rw [Nat.pow_succ]; omega
      rw [smear, if_pos ⟨by omega, h2⟩, ← h4]
      refine smear_bits k n0 m (j + 1) (by omega) _ (fun b => ?_) b
      rw [BitVec.getLsbD_or, BitVec.getLsbD_ushiftRight, Bool.or_eq_true, h b, h (2 ^ j + b)]
      constructor
      · rintro (⟨d, hd, hb⟩ | ⟨d, hd, hb⟩)
        · exact ⟨d, by omega, hb⟩
        · exact ⟨2 ^ j + d, by omega, by rw [← hb]; congr 1; omega⟩
      · rintro ⟨d, hd, hb⟩
        by_cases hlt : d < 2 ^ j
        · exact .inl ⟨d, hlt, hb⟩
        · exact .inr ⟨d - 2 ^ j, by omega, by rw [← hb]; congr 1; omega⟩

theorem smear_bit (k : Nat) (n : BitVec (2 ^ k)) (b : Nat) :
    (smear (2 ^ k) (2 ^ k / 2) 1 n).getLsbD b = true ↔ 2 ^ b ≤ n.toNat := by
  have := smear_bits k n k 0 (by omega) n (fun b => by
    constructor
    · exact fun h => ⟨0, by simp, h⟩
    · rintro ⟨d, hd, h⟩
      have : d = 0 := by simpa using hd
      subst this
      exact h) b
  rw [Nat.pow_zero] at this
  rw [this]
  constructor
  · rintro ⟨d, _, h⟩
    have h1 : 2 ^ (b + d) ≤ n.toNat := Nat.ge_two_pow_of_testBit h
    exact Nat.le_trans (Nat.pow_le_pow_right (by omega) (by omega)) h1
  · intro h
    obtain ⟨i, hi, hb⟩ := Nat.exists_ge_and_testBit_of_ge_two_pow h
    have hlt : 2 ^ i < 2 ^ (2 ^ k) := Nat.lt_of_le_of_lt (Nat.ge_two_pow_of_testBit hb) n.isLt
    have := (Nat.pow_lt_pow_iff_right (a := 2) (by omega)).1 hlt
    exact ⟨i - b, by omega, by rw [show b + (i - b) = i by omega]; exact hb⟩

theorem le_iff_le_log2 {n : Nat} (hn : n ≠ 0) (b : Nat) : 2 ^ b ≤ n ↔ b ≤ Nat.log2 n :=
  (Nat.le_log2 hn).symm

theorem smear_toNat (k : Nat) (n : BitVec (2 ^ k)) (hn : n.toNat ≠ 0) :
    (smear (2 ^ k) (2 ^ k / 2) 1 n).toNat = 2 ^ (Nat.log2 n.toNat + 1) - 1 := by
  refine Nat.eq_of_testBit_eq fun b => ?_
  have h := smear_bit k n b
  rw [le_iff_le_log2 hn] at h
  rw [Nat.testBit_two_pow_sub_one, Bool.eq_iff_iff, decide_eq_true_iff]
  exact h.trans ⟨fun h => by omega, fun h => by omega⟩

theorem log2_lt_width {w : Nat} (n : BitVec w) (hn : n.toNat ≠ 0) : Nat.log2 n.toNat < w :=
  (Nat.log2_lt hn).2 n.isLt

/-- C85: `hyperfloor` returns 2^⌊log2 n⌋, for every positive value of every unsigned type whose
number of bits is a power of two. -/
theorem C85_hyperfloor (k : Nat) (n : BitVec (2 ^ k)) (hn : n ≠ 0#_) :
    (hyperfloor (2 ^ k) n).toNat = 2 ^ Nat.log 2 n.toNat := by
  have hn' : n.toNat ≠ 0 := fun h => hn (BitVec.eq_of_toNat_eq (by simpa using h))
  have hw := log2_lt_width n hn'
  rw [← Nat.log2_eq_log_two]
  refine Nat.eq_of_testBit_eq fun b => ?_
  rw [Nat.testBit_two_pow]
  show (hyperfloor (2 ^ k) n).getLsbD b = _
  rw [Bool.eq_iff_iff, hyperfloor, BitVec.getLsbD_and, BitVec.getLsbD_not,
    BitVec.getLsbD_ushiftRight]
  have h0 := smear_bit k n b
  have h1 := smear_bit k n (1 + b)
  rw [le_iff_le_log2 hn'] at h0 h1
  simp only [Bool.and_eq_true, decide_eq_true_iff, Bool.not_eq_true', Bool.eq_false_iff, Ne, h0, h1]
  omega

example : (hyperfloor (2 ^ 6) 1000#64).toNat = 512 := by
  have := C85_hyperfloor 6 1000#64 (by decide)
  rwa [show Nat.log 2 (1000#64 : BitVec (2 ^ 6)).toNat = 9 by rw [Nat.log_eq_iff] <;> simp] at this

theorem hyperfloor_zero (k : Nat) : hyperfloor (2 ^ k) 0#_ = 0#_ := by
  have : smear (2 ^ k) (2 ^ k / 2) 1 0#_ = 0#_ := by
    refine BitVec.eq_of_getLsbD_eq fun b _ => ?_
    rw [BitVec.getLsbD_zero, Bool.eq_false_iff]
    intro h
    have := (smear_bit k _ b).1 h
    have h2 := Nat.two_pow_pos b
    rw [BitVec.toNat_zero] at this
    omega
  rw [hyperfloor, this]
  exact BitVec.zero_and

/-- C85: the comment of poplar_sort.h 155-162: the size of the first poplar is 2^⌊log2(n + 1)⌋ - 1
even when `n + 1` wraps around. -/
theorem C85_poplar_size (k : Nat) (n : BitVec (2 ^ k)) :
    (poplarFirst (2 ^ k) n).toNat = 2 ^ Nat.log 2 (n.toNat + 1) - 1 := by
  have hlt := n.isLt
  have hw : 1 < 2 ^ 2 ^ k := Nat.one_lt_two_pow (Nat.two_pow_pos k).ne'
  by_cases hn : n.toNat + 1 = 2 ^ 2 ^ k
  · have h0 : n + 1#_ = 0#_ := by
      refine BitVec.eq_of_toNat_eq ?_
      rw [BitVec.toNat_add, BitVec.toNat_ofNat, BitVec.toNat_ofNat, Nat.mod_eq_of_lt hw, hn]
      simp
    rw [poplarFirst, h0, hyperfloor_zero, hn, Nat.log_pow (by omega), BitVec.toNat_sub,
      BitVec.toNat_ofNat, BitVec.toNat_ofNat, Nat.mod_eq_of_lt hw, Nat.zero_mod, Nat.add_zero,
      Nat.mod_eq_of_lt (by omega)]
  · have h1 : (n + 1#_).toNat = n.toNat + 1 := by
      rw [BitVec.toNat_add, BitVec.toNat_ofNat, Nat.mod_eq_of_lt hw, Nat.mod_eq_of_lt (by omega)]
    have h2 : n + 1#_ ≠ 0#_ := fun e => by
      rw [e] at h1
      simp at h1
    have h3 := C85_hyperfloor k (n + 1#_) h2
    rw [h1] at h3
    have h4 := Nat.two_pow_pos (Nat.log 2 (n.toNat + 1))
    have h5 := (hyperfloor (2 ^ k) (n + 1#_)).isLt
    rw [poplarFirst, BitVec.toNat_sub, BitVec.toNat_ofNat, Nat.mod_eq_of_lt hw, h3]
    rw [h3] at h5
    rw [show 2 ^ 2 ^ k - 1 + 2 ^ Nat.log 2 (n.toNat + 1)
      = 2 ^ Nat.log 2 (n.toNat + 1) - 1 + 2 ^ 2 ^ k by omega, Nat.add_mod_right,
      Nat.mod_eq_of_lt (by omega)]

example : (poplarFirst (2 ^ 6) (-1#64)).toNat = 2 ^ 64 - 1 := by
  have := C85_poplar_size 6 (-1#64)
  rwa [show (-1#64 : BitVec (2 ^ 6)).toNat + 1 = 2 ^ 64 by decide, Nat.log_pow (by omega)] at this

theorem clog_pred {n : Nat} (hn : 2 ≤ n) : Nat.clog 2 n = Nat.log 2 (n - 1) + 1 := by
  refine Nat.le_antisymm ?_ ?_
  · refine (Nat.clog_le_iff_le_pow (by omega)).2 ?_
    have := Nat.lt_pow_succ_log_self (b := 2) (by omega) (n - 1)
    omega
  · refine (Nat.lt_clog_iff_pow_lt (by omega)).2 ?_
    have := Nat.pow_log_le_self 2 (show n - 1 ≠ 0 by omega)
    omega

/-- C85, for the values up to 2^(w-1): `hyperceil` returns 2^⌈log2 n⌉.  For the other values the
result does not fit in the type, see `C85_hyperceil_false`. -/
theorem C85_hyperceil_partial (k : Nat) (n : BitVec (2 ^ k)) (hn : n ≠ 0#_)
    (hmax : n.toNat ≤ 2 ^ (2 ^ k - 1)) :
    (hyperceil (2 ^ k) n).toNat = 2 ^ Nat.clog 2 n.toNat := by
  have hn' : n.toNat ≠ 0 := fun h => hn (BitVec.eq_of_toNat_eq (by simpa using h))
  have hlt := n.isLt
  have hk := Nat.two_pow_pos k
  have hw : 1 < 2 ^ 2 ^ k := Nat.one_lt_two_pow hk.ne'
  have h1 : (n - 1#_).toNat = n.toNat - 1 := by
    rw [BitVec.toNat_sub, BitVec.toNat_ofNat, Nat.mod_eq_of_lt hw,
      show 2 ^ 2 ^ k - 1 + n.toNat = n.toNat - 1 + 2 ^ 2 ^ k by omega, Nat.add_mod_right,
      Nat.mod_eq_of_lt (by omega)]
  by_cases h2 : n.toNat = 1
  · have h3 : n - 1#_ = 0#_ := BitVec.eq_of_toNat_eq (by rw [h1, h2]; simp)
    have h4 : smear (2 ^ k) (2 ^ k / 2) 1 0#_ = 0#_ := by
      refine BitVec.eq_of_getLsbD_eq fun b _ => ?_
      rw [BitVec.getLsbD_zero, Bool.eq_false_iff]
      intro h
      have := (smear_bit k _ b).1 h
      have h2 := Nat.two_pow_pos b
      rw [BitVec.toNat_zero] at this
      omega
    rw [hyperceil, h3, h4, h2, BitVec.toNat_add, BitVec.toNat_ofNat, BitVec.toNat_ofNat,
      Nat.mod_eq_of_lt hw, Nat.zero_mod, Nat.zero_add, Nat.mod_eq_of_lt hw, Nat.clog_one_right]
  · have h3 := smear_toNat k (n - 1#_) (by omega)
    rw [h1] at h3
    have h5 : Nat.log2 (n.toNat - 1) < 2 ^ k - 1 := (Nat.log2_lt (by omega)).2 (by omega)
    have h6 : 2 ^ (Nat.log2 (n.toNat - 1) + 1) < 2 ^ 2 ^ k :=
      Nat.pow_lt_pow_right (by omega) (by omega)
    have h7 := Nat.two_pow_pos (Nat.log2 (n.toNat - 1) + 1)
    have h8 : Nat.clog 2 n.toNat = Nat.log2 (n.toNat - 1) + 1 := by
      rw [Nat.log2_eq_log_two, clog_pred (by omega)]
    rw [hyperceil, BitVec.toNat_add, h3, BitVec.toNat_ofNat, Nat.mod_eq_of_lt hw, h8,
      Nat.sub_add_cancel h7, Nat.mod_eq_of_lt h6]

example : (hyperceil (2 ^ 6) 1000#64).toNat = 1024 := by
  have := C85_hyperceil_partial 6 1000#64 (by decide) (by decide)
  rwa [show Nat.clog 2 (1000#64 : BitVec (2 ^ 6)).toNat = 10 by rw [clog_pred (by decide), Nat.add_right_cancel_iff, Nat.log_eq_iff] <;> simp] at this

/-- C85: above 2^(w-1) `hyperceil` wraps around and returns 0. -/
theorem C85_hyperceil_false (k : Nat) (n : BitVec (2 ^ k)) (hmax : 2 ^ (2 ^ k - 1) < n.toNat) :
    hyperceil (2 ^ k) n = 0#_ := by
  have hlt := n.isLt
  have hk := Nat.two_pow_pos k
  have hw : 1 < 2 ^ 2 ^ k := Nat.one_lt_two_pow hk.ne'
  have hp := Nat.two_pow_pos (2 ^ k - 1)
  have h1 : (n - 1#_).toNat = n.toNat - 1 := by
    rw [BitVec.toNat_sub, BitVec.toNat_ofNat, Nat.mod_eq_of_lt hw,
      show 2 ^ 2 ^ k - 1 + n.toNat = n.toNat - 1 + 2 ^ 2 ^ k by omega, Nat.add_mod_right,
      Nat.mod_eq_of_lt (by omega)]
  have h3 := smear_toNat k (n - 1#_) (by omega)
  have h5 : Nat.log2 (n.toNat - 1) = 2 ^ k - 1 := by
    rw [Nat.log2_eq_iff (by omega), show 2 ^ k - 1 + 1 = 2 ^ k by omega]
    omega
  rw [h1, h5, show 2 ^ k - 1 + 1 = 2 ^ k by omega] at h3
  refine BitVec.eq_of_toNat_eq ?_
  rw [hyperceil, BitVec.toNat_add, h3, BitVec.toNat_ofNat, Nat.mod_eq_of_lt hw,
    Nat.sub_add_cancel (by omega), Nat.mod_self]
  simp

example : hyperceil (2 ^ 6) 0x8000000000000001#64 = 0#64 :=
  C85_hyperceil_false 6 0x8000000000000001#64 (by decide)

theorem log2Loop_eq : ∀ (n log : Nat), log2Loop n log = log + Nat.log 2 n := by
  intro n
  induction n using Nat.strongRecOn with
  | ind n ih =>
    intro log
    rw [log2Loop]
    split
    · rw [ih _ (by omega), Nat.log_of_one_lt_of_le (by omega) (show 2 ≤ n by omega)]
      omega
    · rw [Nat.log_of_lt (by omega)]
      rfl

/-- C85: the generic overload of `log2` returns ⌊log2 n⌋. -/
theorem C85_log2_generic (n : Nat) : log2Generic n = Nat.log 2 n := by
  rw [log2Generic, log2Loop_eq, Nat.zero_add]

example : log2Generic (2 ^ 40 + 3) = 40 := by
  rw [C85_log2_generic]; rw [Nat.log_eq_iff] <;> simp

/-- C85: the overloads of `log2` which count the leading zeros return ⌊log2 n⌋ for every positive
value. -/
theorem C85_log2_clz (w : Nat) (n : BitVec w) (hn : n ≠ 0#w) :
    ∃ r, log2Clz w n = some r ∧ r.toNat = Nat.log 2 n.toNat := by
  have hn' : n.toNat ≠ 0 := fun h => hn (BitVec.eq_of_toNat_eq (by simpa using h))
  refine ⟨_, if_neg hn, ?_⟩
  have hww : w < 2 ^ w := Nat.lt_two_pow_self
  have hw0 : 0 < w := Nat.pos_of_ne_zero fun e => by
    subst e
    exact hn (BitVec.of_length_zero)
  have hlt : n.clz.toNat < w := by
    have := BitVec.lt_def.1 (BitVec.clz_lt_iff_ne_zero.2 hn)
    rwa [BitVec.natCast_eq_ofNat, BitVec.toNat_ofNat, Nat.mod_eq_of_lt hww] at this
  have h1 := BitVec.two_pow_sub_clz_le_toNat_of_ne_zero (x := n) (by omega) (by simpa using hn)
  have h2 := BitVec.toNat_lt_two_pow_sub_clz (x := n)
  have h3 : (BitVec.ofNat w w - n.clz).toNat = w - n.clz.toNat := by
    rw [BitVec.toNat_sub_of_le, BitVec.toNat_ofNat, Nat.mod_eq_of_lt hww]
    rw [BitVec.le_def, BitVec.toNat_ofNat, Nat.mod_eq_of_lt hww]
    omega
  have h4 : (1#w).toNat = 1 := by rw [BitVec.toNat_ofNat, Nat.mod_eq_of_lt (by omega)]
  rw [BitVec.toNat_sub_of_le (by rw [BitVec.le_def, h3, h4]; omega), h3, h4]
  refine ((Nat.log_eq_iff (.inr ⟨by omega, hn'⟩)).2 ⟨?_, ?_⟩).symm
  · rw [show w - n.clz.toNat - 1 = w - 1 - n.clz.toNat by omega]
    exact h1
  · rw [show w - n.clz.toNat - 1 + 1 = w - n.clz.toNat by omega]
    exact h2

example : ∃ r, log2Clz 64 1000#64 = some r ∧ r.toNat = Nat.log 2 1000 :=
  C85_log2_clz 64 1000#64 (by decide)

theorem ceilLog2Loop_eq : ∀ (n log : Nat), ceilLog2Loop n log = log + Nat.clog 2 (n + 1) := by
  intro n
  induction n using Nat.strongRecOn with
  | ind n ih =>
    intro log
    rw [ceilLog2Loop]
    split
    · next h => subst h; simp
    · rw [ih _ (by omega), Nat.clog_of_two_le (by omega) (show 2 ≤ n + 1 by omega)]
      rw [show (n + 1 + 2 - 1) / 2 = n / 2 + 1 by omega]
      omega

/-- C85: `ceil_log2` returns ⌈log2 n⌉ for every positive value. -/
theorem C85_ceil_log2 (n : Nat) (hn : 0 < n) : ceilLog2 n = Nat.clog 2 n := by
  rw [ceilLog2, ceilLog2Loop_eq, Nat.zero_add, Nat.sub_add_cancel hn]

example : ceilLog2 1000 = Nat.clog 2 1000 := C85_ceil_log2 1000 (by omega)

/-- C85: `half` divides by 2 every value of an unsigned type and every non-negative value of a
signed type. -/
theorem C85_half (w : Nat) (hw : 2 ≤ w) (n : BitVec w) :
    (half w n).toNat = n.toNat / 2 ∧ (0 ≤ n.toInt → (half w n).toInt = n.toInt / 2) := by
  have h2 : (2#w).toNat = 2 := by
    rw [BitVec.toNat_ofNat, Nat.mod_eq_of_lt]
    exact Nat.lt_of_lt_of_le (by omega : 2 < 2 ^ 2) (Nat.pow_le_pow_right (by omega) hw)
  have h1 : (half w n).toNat = n.toNat / 2 := by rw [half, BitVec.toNat_udiv, h2]
  refine ⟨h1, fun h => ?_⟩
  have hlt := n.isLt
  have h3 : 2 * n.toNat < 2 ^ w := by
    rw [BitVec.toInt_eq_toNat_cond] at h
    split at h <;> omega
  rw [BitVec.toInt_eq_toNat_of_lt (by rw [h1]; omega), BitVec.toInt_eq_toNat_of_lt h3, h1]
  omega

example : (half 32 1001#32).toInt = 500 := by
  rw [(C85_half 32 (by omega) 1001#32).2 (by decide)]; decide

/-- C85: `has_single_bit` tells whether a value is a power of two. -/
theorem C85_has_single_bit (w : Nat) (n : BitVec w) :
    hasSingleBit w n = true ↔ ∃ k, n.toNat = 2 ^ k := by
  rw [hasSingleBit, Bool.and_eq_true, bne_iff_ne, beq_iff_eq]
  have h0 : n ≠ 0#w ↔ n.toNat ≠ 0 := by rw [Ne, ← BitVec.toNat_inj]; simp
  rw [h0]
  by_cases hn : n.toNat = 0
  · refine ⟨fun h => absurd hn h.1, fun ⟨k, h⟩ => ?_⟩
    have := Nat.two_pow_pos k
    omega
  · have hw : 1 < 2 ^ w := by
      have := n.isLt
      refine Nat.one_lt_two_pow fun e => ?_
      subst e
      omega
    have h1 : (n - 1#w).toNat = n.toNat - 1 := by
      have := n.isLt
      rw [BitVec.toNat_sub, BitVec.toNat_ofNat, Nat.mod_eq_of_lt hw,
        show 2 ^ w - 1 + n.toNat = n.toNat - 1 + 2 ^ w by omega, Nat.add_mod_right,
        Nat.mod_eq_of_lt (by omega)]
    have h2 : (n &&& (n - 1#w)) = 0#w ↔ n.toNat &&& (n.toNat - 1) = 0 := by
      rw [← BitVec.toNat_inj, BitVec.toNat_and, h1]
      simp
    rw [h2]
    exact ⟨fun h => (Nat.and_sub_one_eq_zero_iff_isPowerOfTwo hn).1 h.2,
      fun h => ⟨hn, (Nat.and_sub_one_eq_zero_iff_isPowerOfTwo hn).2 h⟩⟩

example : hasSingleBit 64 (1#64 <<< 40) = true :=
  (C85_has_single_bit 64 _).2 ⟨40, by decide⟩

example : ¬ ∃ k, (12#64).toNat = 2 ^ k := fun h =>
  absurd ((C85_has_single_bit 64 12#64).2 h) (by decide)

/-- C85: `rotl` moves the bit `i` to the position `(i + s) mod w`, for every count between 1 and
`w - 1`. -/
theorem C85_rotl (w : Nat) (x : BitVec w) (s : Nat) (h0 : 0 < s) (hs : s < w) :
    ∃ r, rotl w x s = some r ∧ ∀ i, i < w → r.getLsbD ((i + s) % w) = x.getLsbD i := by
  refine ⟨_, if_pos (by omega), fun i hi => ?_⟩
  rw [show ((s : Int)).toNat = s by omega, BitVec.getLsbD_or, BitVec.getLsbD_shiftLeft,
    BitVec.getLsbD_ushiftRight]
  by_cases h : i + s < w
  · rw [Nat.mod_eq_of_lt h, BitVec.getLsbD_of_ge _ (w - s + (i + s)) (by omega)]
    simp [h]
  · have : (i + s) % w = i + s - w := by
      rw [Nat.mod_eq_sub_mod (by omega), Nat.mod_eq_of_lt (by omega)]
    rw [this, show w - s + (i + s - w) = i by omega]
    simp [show i + s - w < s by omega]

example : ∃ r, rotl 8 0x96#8 3 = some r ∧ ∀ i, i < 8 → r.getLsbD ((i + 3) % 8) = (0x96#8).getLsbD i :=
  C85_rotl 8 0x96#8 3 (by omega) (by omega)

/-- The number of steps between two bounds at a positive distance. -/
theorem tdiv_steps {d s : Int} (hd : 0 < d) (hs : 0 < s) :
    0 < (d - 1).tdiv s + 1 ∧ ∀ k : Int, k < (d - 1).tdiv s + 1 ↔ k * s < d := by
  rw [Int.tdiv_eq_ediv_of_nonneg (by omega)]
  have h := Int.ediv_nonneg (show 0 ≤ d - 1 by omega) hs.le
  refine ⟨by omega, fun k => ?_⟩
  rw [Int.lt_add_one_iff, Int.le_ediv_iff_mul_le hs]
  omega

/-- C86, for distinct bounds: `make_integer_range<Integer, Begin, End, Step>` goes from `Begin` to
`End`, `End` excluded, by steps of `Step`, upwards or downwards; a null step stands for 1.  For equal
bounds see `C86_empty_partial` and `C86_empty_false`. -/
theorem C86_range_partial (b e step : Int) (hs : 0 ≤ step) (hbe : b ≠ e) :
    ∃ l, integerRange b e step = some l ∧
      (b < e → l.Pairwise (· < ·) ∧ ∀ x, x ∈ l ↔ b ≤ x ∧ x < e ∧ max step 1 ∣ x - b) ∧
      (e < b → l.Pairwise (· > ·) ∧ ∀ x, x ∈ l ↔ x ≤ b ∧ e < x ∧ max step 1 ∣ b - x) := by
  have hstep : (if step = 0 then 1 else step) = max step 1 := by split <;> omega
  have hs' : 0 < max step 1 := by omega
  generalize max step 1 = t at *
  obtain ⟨h1, h2⟩ := tdiv_steps (d := if b < e then e - b else b - e) (by split <;> omega) hs'
  rw [integerRange, rangeSizeSigned, hstep]
  generalize (((if b < e then e - b else b - e) - 1).tdiv t) + 1 = size at *
  refine ⟨_, if_neg (by omega), fun h => ?_, fun h => ?_⟩
  · simp only [h, if_true] at h2 ⊢
    refine ⟨List.pairwise_map.2 (List.pairwise_lt_range.imp fun {i j} hij => ?_), fun x => ?_⟩
    · have : (i : Int) * t < (j : Int) * t := Int.mul_lt_mul_of_pos_right (by omega) hs'
      omega
    · simp only [List.mem_map, List.mem_range]
      constructor
      · rintro ⟨k, hk, rfl⟩
        have := (h2 k).1 (by omega)
        have h3 : 0 ≤ (k : Int) * t := Int.mul_nonneg (by omega) hs'.le
        refine ⟨by omega, by omega, k, ?_⟩
        rw [Int.mul_comm]; omega
      · rintro ⟨h3, h4, k, hk⟩
        have h5 : 0 ≤ k := by
          rcases Int.lt_or_le k 0 with hk' | hk'
          · have := Int.mul_neg_of_pos_of_neg hs' hk'
            omega
          · exact hk'
        have h6 := (h2 k).2 (by rw [Int.mul_comm]; omega)
        refine ⟨k.toNat, by omega, ?_⟩
        rw [Int.toNat_of_nonneg h5, Int.mul_comm]
        omega
  · have h' : ¬ b < e := by omega
    simp only [h', if_false] at h2 ⊢
    refine ⟨List.pairwise_map.2 (List.pairwise_lt_range.imp fun {i j} hij => ?_), fun x => ?_⟩
    · have : (i : Int) * t < (j : Int) * t := Int.mul_lt_mul_of_pos_right (by omega) hs'
      omega
    · simp only [List.mem_map, List.mem_range]
      constructor
      · rintro ⟨k, hk, rfl⟩
        have := (h2 k).1 (by omega)
        have h3 : 0 ≤ (k : Int) * t := Int.mul_nonneg (by omega) hs'.le
        refine ⟨by omega, by omega, k, ?_⟩
        rw [Int.mul_comm]; omega
      · rintro ⟨h3, h4, k, hk⟩
        have h5 : 0 ≤ k := by
          rcases Int.lt_or_le k 0 with hk' | hk'
          · have := Int.mul_neg_of_pos_of_neg hs' hk'
            omega
          · exact hk'
        have h6 := (h2 k).2 (by rw [Int.mul_comm]; omega)
        refine ⟨k.toNat, by omega, ?_⟩
        rw [Int.toNat_of_nonneg h5, Int.mul_comm]
        omega

example : integerRange 3 11 4 = some [3, 7] := by decide
example : integerRange 11 3 3 = some [11, 8, 5] := by decide

/-- C86, for a step of 0 or 1: the range between equal bounds is empty. -/
theorem C86_empty_partial (b step : Int) (h0 : 0 ≤ step) (h1 : step ≤ 1) :
    integerRange b b step = some [] := by
  have : (if step = 0 then 1 else step) = 1 := by split <;> omega
  simp [integerRange, rangeSizeSigned, this]

example : integerRange 5 5 1 = some [] := C86_empty_partial 5 1 (by omega) (by omega)

/-- C86 is false for equal bounds and a step of at least 2: the range holds its excluded bound. -/
theorem C86_empty_false (b step : Int) (h : 2 ≤ step) : integerRange b b step = some [b] := by
  have h1 : (if step = 0 then 1 else step) = step := if_neg (by omega)
  have h2 : (-1 : Int).tdiv step = 0 := by
    rw [Int.neg_tdiv, Int.tdiv_eq_zero_of_lt (by omega) (by omega)]; rfl
  simp [integerRange, rangeSizeSigned, h1, h2]

example : integerRange 5 5 2 = some [5] := C86_empty_false 5 2 (by omega)

/-- C86: `make_index_range` holds the same values as the range of integers, for distinct bounds:
nothing overflows. -/
theorem C86_index_range_partial (w : Nat) (b e step : BitVec w) (hbe : b ≠ e) :
    integerRange b.toNat e.toNat step.toNat
      = some ((indexRange w b e step).map fun x => (x.toNat : Int)) := by
  have hb := b.isLt
  have he := e.isLt
  have hne : b.toNat ≠ e.toNat := fun h => hbe (BitVec.eq_of_toNat_eq h)
  have h1 : (1#w).toNat = 1 := by rw [BitVec.toNat_ofNat, Nat.mod_eq_of_lt (by omega)]
  obtain ⟨d, hd⟩ : ∃ d, d = if b < e then e - b else b - e := ⟨_, rfl⟩
  obtain ⟨t, ht⟩ : ∃ t, t = if step = 0#w then 1#w else step := ⟨_, rfl⟩
  have hd' : d.toNat = if b.toNat < e.toNat then e.toNat - b.toNat else b.toNat - e.toNat := by
    rw [hd]
    by_cases h : b < e
    · have := BitVec.lt_def.1 h
      rw [if_pos h, if_pos this]
      exact BitVec.toNat_sub_of_le (BitVec.le_def.2 (by omega))
    · have : ¬ b.toNat < e.toNat := fun h' => h (BitVec.lt_def.2 h')
      rw [if_neg h, if_neg this]
      exact BitVec.toNat_sub_of_le (BitVec.le_def.2 (by omega))
  have hd0 : 0 < d.toNat := by rw [hd']; split <;> omega
  have ht' : t.toNat = if step.toNat = 0 then 1 else step.toNat := by
    rw [ht]
    by_cases h : step = 0#w
    · subst h; rw [if_pos rfl, h1]; simp
    · rw [if_neg h, if_neg fun h0 => h (BitVec.eq_of_toNat_eq (by simpa using h0))]
  have ht0 : 0 < t.toNat := by rw [ht']; split <;> omega
  have htI : (if (step.toNat : Int) = 0 then 1 else (step.toNat : Int)) = (t.toNat : Int) := by
    rw [ht']; split <;> rename_i h
    · rw [if_pos (by omega)]; rfl
    · rw [if_neg (by omega)]
  have hdI : (if (b.toNat : Int) < e.toNat then (e.toNat : Int) - b.toNat else b.toNat - e.toNat)
      = (d.toNat : Int) := by
    rw [hd']; split <;> rename_i h
    · rw [if_pos (by omega)]; omega
    · rw [if_neg (by omega)]; omega
  have hdlt := d.isLt
  have hq : (d.toNat - 1) / t.toNat ≤ d.toNat - 1 := Nat.div_le_self _ _
  have hsize : (rangeSizeUnsigned w b e step).toNat = (d.toNat - 1) / t.toNat + 1 := by
    rw [rangeSizeUnsigned, ← hd, ← ht, BitVec.toNat_add, BitVec.toNat_udiv,
      BitVec.toNat_sub_of_le (BitVec.le_def.2 (by omega)), h1, Nat.mod_eq_of_lt (by omega)]
  have hsizeI : rangeSizeSigned b.toNat e.toNat step.toNat
      = (((d.toNat - 1) / t.toNat + 1 : Nat) : Int) := by
    rw [rangeSizeSigned, hdI, htI, show (d.toNat : Int) - 1 = ((d.toNat - 1 : Nat) : Int) by omega,
      Int.tdiv_eq_ediv_of_nonneg (by omega)]
    push_cast
    rfl
  rw [integerRange, indexRange, hsizeI, htI, hsize, ← ht]
  rw [if_neg (by omega), List.map_map, Int.toNat_natCast]
  congr 1
  refine List.map_congr_left fun k hk => ?_
  have hk' : k ≤ (d.toNat - 1) / t.toNat := by have := List.mem_range.1 hk; omega
  have hkt : k * t.toNat ≤ d.toNat - 1 := (Nat.le_div_iff_mul_le ht0).1 hk'
  have hkw : k < 2 ^ w := by omega
  have hmul : (BitVec.ofNat w k * t).toNat = k * t.toNat := by
    rw [BitVec.toNat_mul, BitVec.toNat_ofNat, Nat.mod_eq_of_lt hkw, Nat.mod_eq_of_lt (by omega)]
  simp only [Function.comp]
  by_cases hlt : b < e
  · have hltN := BitVec.lt_def.1 hlt
    rw [if_pos hltN] at hd'
    rw [if_pos (by omega), if_pos hlt, BitVec.toNat_add, hmul, Nat.mod_eq_of_lt (by omega)]
    push_cast
    rfl
  · have hltN : ¬ b.toNat < e.toNat := fun h => hlt (BitVec.lt_def.2 h)
    rw [if_neg hltN] at hd'
    rw [if_neg (by omega), if_neg hlt,
      BitVec.toNat_sub_of_le (BitVec.le_def.2 (by rw [hmul]; omega)), hmul]
    have : k * t.toNat ≤ b.toNat := by omega
    rw [Int.ofNat_sub this]
    push_cast
    rfl

example : integerRange 11 3 3 = some ((indexRange 64 11#64 3#64 3#64).map fun x => (x.toNat : Int)) :=
  C86_index_range_partial 64 11#64 3#64 3#64 (by decide)

/-- C86 is false for equal bounds and a step of at least 2 in an unsigned type: the range holds
2^w / Step elements, rounded up. -/
theorem C86_index_range_false (w : Nat) (b step : BitVec w) (h : 2 ≤ step.toNat) :
    (indexRange w b b step).length = (2 ^ w - 1) / step.toNat + 1 := by
  have h1 : step ≠ 0#w := fun e => by rw [e] at h; simp at h
  have hlt := step.isLt
  have h2 : (2 ^ w - 1) / step.toNat ≤ (2 ^ w - 1) / 2 := Nat.div_le_div_left h (by omega)
  have h3 : (1#w).toNat = 1 := by rw [BitVec.toNat_ofNat, Nat.mod_eq_of_lt (by omega)]
  have h4 : (b - b - 1#w).toNat = 2 ^ w - 1 := by
    rw [BitVec.sub_self, BitVec.toNat_sub, h3, BitVec.toNat_zero, Nat.add_zero,
      Nat.mod_eq_of_lt (by omega)]
  rw [indexRange, List.length_map, List.length_range, rangeSizeUnsigned, if_neg (BitVec.lt_irrefl b),
    if_neg h1, BitVec.toNat_add, BitVec.toNat_udiv, h4, h3, Nat.mod_eq_of_lt (by omega)]

example : (indexRange 64 5#64 5#64 2#64).length = 2 ^ 63 := C86_index_range_false 64 5#64 2#64 (by decide)

end Bitops
end CppSort
