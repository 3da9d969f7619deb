import Verif.Model.Tim
import Verif.Proof.SpinCost
/-
Comparisons of the merges of timsort.
-/
set_option autoImplicit false

namespace CppSort
variable {α : Type} {lt : α → α → Bool} {N : Nat}

theorem uninitMove_silent (last : Nat) : ∀ first result, Silent (uninitMove first last result : M α Nat) := by
  refine uninitMove.fixpoint_induct last (fun f => ∀ x y, Silent (f x y)) Silent.admissible2 ?_
  intro f ih x y
  dsimp only
  split
  · exact (silent_constructFrom _ _).bind fun _ => ih _ _
  · exact Silent.pure

theorem resizeBuffer_silent (b : TimBuf) (n : Nat) : Silent (resizeBuffer b n : M α TimBuf) := by
  unfold resizeBuffer
  split
  · exact (silent_free _ _).bind fun _ => (silent_alloc _).bind fun _ => Silent.pure
  · exact Silent.pure

theorem gallopLoop_cost {test : Nat → M α Bool} (ht : ∀ o, Cost N (test o) (fun _ c => c = 1)) {maxOfs : Nat} :
    ∀ (lastOfs ofs : Nat), Cost N (gallopLoop test maxOfs lastOfs ofs) (fun r c => ∀ i, lastOfs + 1 = 2 ^ i →
      ofs + 1 = 2 ^ (i + 1) → ∃ j, i ≤ j ∧ r.1 + 1 = 2 ^ j ∧ r.2 + 1 = 2 ^ (j + 1) ∧ c ≤ j - i + 1 ∧
        (j = i ∨ r.1 < maxOfs)) := by
  refine gallopLoop.fixpoint_induct test maxOfs (fun f => ∀ x y, Cost N (f x y) (fun r c => ∀ i, x + 1 = 2 ^ i →
      y + 1 = 2 ^ (i + 1) → ∃ j, i ≤ j ∧ r.1 + 1 = 2 ^ j ∧ r.2 + 1 = 2 ^ (j + 1) ∧ c ≤ j - i + 1 ∧
        (j = i ∨ r.1 < maxOfs))) Cost.admissible2 ?_
  intro f ih x y
  dsimp only
  refine Cost.ite (fun h => ?_) fun _ => Cost.pure fun i h1 h2 => ⟨i, by omega, h1, h2, by omega, .inl rfl⟩
  refine (ht y).bind fun b c e => ?_
  refine Cost.ite (fun _ => ?_) fun _ => Cost.pure fun i h1 h2 => ⟨i, by omega, h1, h2, by omega, .inl rfl⟩
  refine (ih _ _).mono fun r c' hr i h1 h2 => ?_
  obtain ⟨j, g1, g2, g3, g4, g5⟩ := hr (i + 1) h2 (by rw [Nat.pow_succ 2 (i + 1)]; omega)
  refine ⟨j, by omega, g2, g3, by omega, .inr ?_⟩
  rcases g5 with g5 | g5
  · subst g5; omega
  · exact g5

theorem gallopStart_cost {test : Nat → M α Bool} (ht : ∀ o, Cost N (test o) (fun _ c => c = 1)) {maxOfs : Nat}
    (hm : 1 ≤ maxOfs) : Cost N (gallopLoop test maxOfs 0 1) (fun r c => ∃ j, r.1 + 1 = 2 ^ j ∧
      r.2 + 1 = 2 ^ (j + 1) ∧ c ≤ j + 1 ∧ r.1 < maxOfs ∧ j < 2 ^ j) := by
  refine (gallopLoop_cost ht 0 1).mono fun r c h => ?_
  obtain ⟨j, g1, g2, g3, g4, g5⟩ := h 0 rfl rfl
  refine ⟨j, g2, g3, by omega, ?_, Nat.lt_two_pow_self⟩
  rcases g5 with rfl | g5
  · simp at g2; omega
  · exact g5

theorem gallopOne_cost {test : Nat → M α Bool} :
    Cost N (gallopLoop test 1 0 1) (fun r c => c = 0 ∧ r = (0, 1)) := by
  rw [gallopLoop, if_neg (by omega)]
  exact Cost.pure ⟨rfl, rfl⟩

theorem lowerBound_cost {cmp : α → α → M α Bool} (hu : Unit1 N cmp) {v : α} {first last k : Nat}
    (h : last - first < 2 ^ k) :
    Cost N (lowerBound cmp first last v) (fun r c => c ≤ k ∧ first ≤ r ∧ r ≤ first + (last - first)) :=
  lowerBoundN_cost hu k _ _ h

theorem upperBound_cost {cmp : α → α → M α Bool} (hu : Unit1 N cmp) {v : α} {first last k : Nat}
    (h : last - first < 2 ^ k) :
    Cost N (upperBound cmp first last v) (fun r c => c ≤ k ∧ first ≤ r ∧ r ≤ first + (last - first)) :=
  lowerBoundN_cost (spin_unit1_not (unit1_flip hu)) k _ _ h

theorem gallopLeft_front {key : α} {base len : Nat} (hl : 1 ≤ len) :
    Cost N (gallopLeft (tick lt) key base len 0) (fun k c => k ≤ len ∧ c ≤ 2 * k + 1) := by
  unfold gallopLeft
  refine (silent_read _).costBind fun _ => Cost.tickBind fun b => ?_
  refine Cost.ite (fun _ => ?_) fun _ => ?_
  · refine (gallopStart_cost (fun o => (silent_read _).costBind fun _ => Cost.tick rfl) (by omega)).bind ?_
    rintro ⟨l, o⟩ c ⟨j, h1, h2, h3, h4, h5⟩
    dsimp only at h1 h2 h3 h4 ⊢
    rw [Nat.pow_succ] at h2
    refine (lowerBound_cost unit1_tick (k := j) (by omega)).bind fun q c' hq => Cost.pure ?_
    omega
  · refine gallopOne_cost.bind ?_
    rintro ⟨l, o⟩ c ⟨h1, h2⟩
    cases h2
    refine (lowerBound_cost unit1_tick (k := 0) (by simp)).bind fun q c' hq => Cost.pure ?_
    simp at hq ⊢
    omega

theorem gallopRight_front {key : α} {base len : Nat} (hl : 1 ≤ len) :
    Cost N (gallopRight (tick lt) key base len 0) (fun k c => k ≤ len ∧ c ≤ 2 * k + 1) := by
  unfold gallopRight
  refine (silent_read _).costBind fun _ => Cost.tickBind fun b => ?_
  refine Cost.ite (fun _ => ?_) fun _ => ?_
  · refine gallopOne_cost.bind ?_
    rintro ⟨l, o⟩ c ⟨h1, h2⟩
    cases h2
    refine (upperBound_cost unit1_tick (k := 0) (by simp)).bind fun q c' hq => Cost.pure ?_
    simp at hq ⊢
    omega
  · refine (gallopStart_cost (fun o => (silent_read _).costBind fun _ => Cost.tickBind fun _ => Cost.pure rfl)
      (by omega)).bind ?_
    rintro ⟨l, o⟩ c ⟨j, h1, h2, h3, h4, h5⟩
    dsimp only at h1 h2 h3 h4 ⊢
    rw [Nat.pow_succ] at h2
    refine (upperBound_cost unit1_tick (k := j) (by omega)).bind fun q c' hq => Cost.pure ?_
    omega

theorem gallopLeft_back {key : α} {base len : Nat} (hl : 1 ≤ len) :
    Cost N (gallopLeft (tick lt) key base len (len - 1)) (fun k c => k ≤ len ∧ c ≤ 2 * (len - k) + 1) := by
  unfold gallopLeft
  refine (silent_read _).costBind fun _ => Cost.tickBind fun b => ?_
  refine Cost.ite (fun _ => ?_) fun _ => ?_
  · rw [show len - (len - 1) = 1 by omega]
    refine gallopOne_cost.bind ?_
    rintro ⟨l, o⟩ c ⟨h1, h2⟩
    cases h2
    refine (lowerBound_cost unit1_tick (k := 0) (by simp; omega)).bind fun q c' hq => Cost.pure ?_
    simp at hq ⊢
    omega
  · refine (gallopStart_cost (fun o => (silent_read _).costBind fun _ => Cost.tickBind fun _ => Cost.pure rfl)
      (by omega)).bind ?_
    rintro ⟨l, o⟩ c ⟨j, h1, h2, h3, h4, h5⟩
    dsimp only at h1 h2 h3 h4 ⊢
    rw [Nat.pow_succ] at h2
    refine (lowerBound_cost unit1_tick (k := j) (by omega)).bind fun q c' hq => Cost.pure ?_
    omega

theorem gallopRight_back {key : α} {base len : Nat} (hl : 1 ≤ len) :
    Cost N (gallopRight (tick lt) key base len (len - 1)) (fun k c => k ≤ len ∧ c ≤ 2 * (len - k) + 1) := by
  unfold gallopRight
  refine (silent_read _).costBind fun _ => Cost.tickBind fun b => ?_
  refine Cost.ite (fun _ => ?_) fun _ => ?_
  · refine (gallopStart_cost (fun o => (silent_read _).costBind fun _ => Cost.tick rfl) (by omega)).bind ?_
    rintro ⟨l, o⟩ c ⟨j, h1, h2, h3, h4, h5⟩
    dsimp only at h1 h2 h3 h4 ⊢
    rw [Nat.pow_succ] at h2
    refine (upperBound_cost unit1_tick (k := j) (by omega)).bind fun q c' hq => Cost.pure ?_
    omega
  · rw [show len - (len - 1) = 1 by omega]
    refine gallopOne_cost.bind ?_
    rintro ⟨l, o⟩ c ⟨h1, h2⟩
    cases h2
    refine (upperBound_cost unit1_tick (k := 0) (by simp; omega)).bind fun q c' hq => Cost.pure ?_
    simp at hq ⊢
    omega

/-- What is left to merge. -/
def TimCur.left (t : TimCur) : Nat := t.len1 + t.len2

theorem loHot_cost {g : Int} : ∀ (c1 c2 : Nat) (t : TimCur), Cost N (loHot (tick lt) g c1 c2 t)
    (fun r c => 2 ≤ t.len1 → 1 ≤ t.len2 → c + r.1.left = t.left ∧
      (r.2 = false → 2 ≤ r.1.len1 ∧ 1 ≤ r.1.len2)) := by
  refine loHot.fixpoint_induct (tick lt) g (fun f => ∀ x y t, Cost N (f x y t)
    (fun r c => 2 ≤ t.len1 → 1 ≤ t.len2 → c + r.1.left = t.left ∧
      (r.2 = false → 2 ≤ r.1.len1 ∧ 1 ≤ r.1.len2))) Cost.admissible3 ?_
  intro f ih x y t
  dsimp only
  refine (silent_read _).costBind fun _ => (silent_read _).costBind fun _ => Cost.tickBind fun b => ?_
  refine Cost.ite (fun _ => ?_) fun _ => ?_
  · refine (silent_moveTo _ _).costBind fun _ => ?_
    refine Cost.ite (fun h0 => Cost.pure fun h1 h2 => ⟨by simp only [TimCur.left] at *; omega, by simp⟩) fun h0 => ?_
    refine Cost.ite (fun _ => (ih _ _ _).mono fun r c hr h1 h2 => ?_) fun _ => Cost.pure fun h1 h2 => ?_
    · have := hr h1 (by dsimp only; omega)
      simp only [TimCur.left] at this ⊢
      exact ⟨by omega, this.2⟩
    · simp only [TimCur.left]
      exact ⟨by omega, fun _ => ⟨h1, by omega⟩⟩
  · refine (silent_moveTo _ _).costBind fun _ => ?_
    refine Cost.ite (fun h0 => Cost.pure fun h1 h2 => ⟨by simp only [TimCur.left] at *; omega, by simp⟩) fun h0 => ?_
    refine Cost.ite (fun _ => (ih _ _ _).mono fun r c hr h1 h2 => ?_) fun _ => Cost.pure fun h1 h2 => ?_
    · have := hr (by dsimp only; omega) h2
      simp only [TimCur.left] at this ⊢
      exact ⟨by omega, this.2⟩
    · simp only [TimCur.left]
      exact ⟨by omega, fun _ => ⟨by omega, by omega⟩⟩

theorem hiHot_cost {g : Int} : ∀ (c1 c2 : Nat) (t : TimCur), Cost N (hiHot (tick lt) g c1 c2 t)
    (fun r c => 1 ≤ t.len1 → 2 ≤ t.len2 → c + r.1.left = t.left ∧
      (r.2 = false → 1 ≤ r.1.len1 ∧ 2 ≤ r.1.len2)) := by
  refine hiHot.fixpoint_induct (tick lt) g (fun f => ∀ x y t, Cost N (f x y t)
    (fun r c => 1 ≤ t.len1 → 2 ≤ t.len2 → c + r.1.left = t.left ∧
      (r.2 = false → 1 ≤ r.1.len1 ∧ 2 ≤ r.1.len2))) Cost.admissible3 ?_
  intro f ih x y t
  dsimp only
  refine (silent_read _).costBind fun _ => (silent_read _).costBind fun _ => Cost.tickBind fun b => ?_
  refine Cost.ite (fun _ => ?_) fun _ => ?_
  · refine (silent_moveTo _ _).costBind fun _ => ?_
    refine Cost.ite (fun h0 => Cost.pure fun h1 h2 => ⟨by simp only [TimCur.left] at *; omega, by simp⟩) fun h0 => ?_
    refine Cost.ite (fun _ => (ih _ _ _).mono fun r c hr h1 h2 => ?_) fun _ => Cost.pure fun h1 h2 => ?_
    · have := hr (by dsimp only; omega) h2
      simp only [TimCur.left] at this ⊢
      exact ⟨by omega, this.2⟩
    · simp only [TimCur.left]
      exact ⟨by omega, fun _ => ⟨by omega, by omega⟩⟩
  · refine (silent_moveTo _ _).costBind fun _ => ?_
    refine Cost.ite (fun h0 => Cost.pure fun h1 h2 => ⟨by simp only [TimCur.left] at *; omega, by simp⟩) fun h0 => ?_
    refine Cost.ite (fun _ => (ih _ _ _).mono fun r c hr h1 h2 => ?_) fun _ => Cost.pure fun h1 h2 => ?_
    · have := hr h1 (by dsimp only; omega)
      simp only [TimCur.left] at this ⊢
      exact ⟨by omega, this.2⟩
    · simp only [TimCur.left]
      exact ⟨by omega, fun _ => ⟨by omega, by omega⟩⟩

theorem loGallop1_cost {t : TimCur} (h : 2 ≤ t.len1) : Cost N (loGallop1 (tick lt) t) (fun r c =>
    c ≤ 2 * r.2.1 + 1 ∧ r.1.len1 + r.2.1 = t.len1 ∧ r.1.len2 = t.len2 ∧ (r.2.2 = true → 1 ≤ r.2.1) ∧
      (r.2.2 = false → 2 ≤ r.1.len1)) := by
  unfold loGallop1
  refine (silent_read _).costBind fun _ => (gallopRight_front (by omega)).bind fun k c hk => ?_
  refine Cost.ite (fun _ => (moveBackward_silent _ _ _).costBind fun _ => Cost.pure ?_) fun _ => Cost.pure ?_
  · refine ⟨?_, ?_, ?_, ?_, ?_⟩ <;> simp <;> omega
  · refine ⟨?_, ?_, ?_, ?_, ?_⟩ <;> simp <;> omega

theorem loGallop2_cost {t : TimCur} (h : 1 ≤ t.len2) : Cost N (loGallop2 (tick lt) t) (fun r c =>
    c ≤ 2 * r.2.1 + 1 ∧ r.1.len2 + r.2.1 = t.len2 ∧ r.1.len1 = t.len1 ∧ (r.2.2 = true → 1 ≤ r.2.1) ∧
      (r.2.2 = false → 1 ≤ r.1.len2)) := by
  unfold loGallop2
  refine (silent_read _).costBind fun _ => (gallopLeft_front (by omega)).bind fun k c hk => ?_
  refine Cost.ite (fun _ => (moveRange_silent' _ _ _ _ _).costBind fun _ => Cost.pure ?_) fun _ => Cost.pure ?_
  · refine ⟨?_, ?_, ?_, ?_, ?_⟩ <;> simp <;> omega
  · refine ⟨?_, ?_, ?_, ?_, ?_⟩ <;> simp <;> omega

theorem hiGallop1_cost {base1 : Nat} {t : TimCur} (h : 1 ≤ t.len1) : Cost N (hiGallop1 (tick lt) base1 t) (fun r c =>
    c ≤ 2 * r.2.1 + 1 ∧ r.1.len1 + r.2.1 = t.len1 ∧ r.1.len2 = t.len2 ∧ (r.2.2 = true → 1 ≤ r.2.1) ∧
      (r.2.2 = false → 1 ≤ r.1.len1)) := by
  unfold hiGallop1
  refine (silent_read _).costBind fun _ => (gallopRight_back (by omega)).bind fun k c hk => ?_
  refine Cost.ite (fun _ => (moveBackward_silent _ _ _).costBind fun _ => Cost.pure ?_) fun _ => Cost.pure ?_
  · refine ⟨?_, ?_, ?_, ?_, ?_⟩ <;> simp <;> omega
  · refine ⟨?_, ?_, ?_, ?_, ?_⟩ <;> simp <;> omega

theorem hiGallop2_cost {buffer : Nat} {t : TimCur} (h : 2 ≤ t.len2) : Cost N (hiGallop2 (tick lt) buffer t)
    (fun r c => c ≤ 2 * r.2.1 + 1 ∧ r.1.len2 + r.2.1 = t.len2 ∧ r.1.len1 = t.len1 ∧ (r.2.2 = true → 1 ≤ r.2.1) ∧
      (r.2.2 = false → 2 ≤ r.1.len2)) := by
  unfold hiGallop2
  refine (silent_read _).costBind fun _ => (gallopLeft_back (by omega)).bind fun k c hk => ?_
  refine Cost.ite (fun _ => (moveRange_silent' _ _ _ _ _).costBind fun _ => Cost.pure ?_) fun _ => Cost.pure ?_
  · refine ⟨?_, ?_, ?_, ?_, ?_⟩ <;> simp <;> omega
  · refine ⟨?_, ?_, ?_, ?_, ?_⟩ <;> simp <;> omega

theorem loGallop_cost : ∀ (n : Nat) (g : Int) (t : TimCur), t.left ≤ n → 2 ≤ t.len1 → 1 ≤ t.len2 →
    Cost N (loGallop (tick lt) g t) (fun r c => c + 3 * r.1.left ≤ 3 * t.left ∧ r.1.left < t.left ∧
      (r.2.2 = false → 2 ≤ r.1.len1 ∧ 1 ≤ r.1.len2)) := by
  intro n
  induction n with
  | zero => intro g t h h1 h2; unfold TimCur.left at h; omega
  | succ n ih =>
    intro g t h h1 h2
    simp only [TimCur.left] at ih h ⊢
    rw [loGallop]
    refine (loGallop1_cost h1).bind ?_
    rintro ⟨t1, k1, b1⟩ c1 ⟨e1, e2, e3, e4, e5⟩
    dsimp only at e1 e2 e3 e4 e5 ⊢
    refine Cost.ite (fun hb => Cost.pure ?_) fun hb => ?_
    · have := e4 hb
      exact ⟨by dsimp only; omega, by dsimp only; omega, by simp⟩
    have h5 := e5 (by simpa using hb)
    refine (silent_moveTo _ _).costBind fun _ => ?_
    refine Cost.ite (fun h0 => Cost.pure ?_) fun h0 => ?_
    · exact ⟨by dsimp only; omega, by dsimp only; omega, by simp⟩
    refine (loGallop2_cost (by dsimp only; omega)).bind ?_
    rintro ⟨t2, k2, b2⟩ c2 ⟨f1, f2, f3, f4, f5⟩
    dsimp only at f1 f2 f3 f4 f5 ⊢
    refine Cost.ite (fun hb => Cost.pure ?_) fun hb => ?_
    · have := f4 hb
      exact ⟨by dsimp only; omega, by dsimp only; omega, by simp⟩
    have h6 := f5 (by simpa using hb)
    refine (silent_moveTo _ _).costBind fun _ => ?_
    refine Cost.ite (fun h0 => Cost.pure ?_) fun h0 => ?_
    · exact ⟨by dsimp only; omega, by dsimp only; omega, by simp⟩
    refine Cost.ite (fun _ => ?_) fun _ => Cost.pure ?_
    · refine (ih _ _ ?_ ?_ ?_).mono fun r c hr => ⟨?_, ?_, hr.2.2⟩
      all_goals dsimp only at *
      all_goals omega
    · exact ⟨by dsimp only; omega, by dsimp only; omega, fun _ => ⟨by dsimp only; omega, by dsimp only; omega⟩⟩

theorem hiGallop_cost {base1 buffer : Nat} : ∀ (n : Nat) (g : Int) (t : TimCur), t.left ≤ n → 1 ≤ t.len1 →
    2 ≤ t.len2 → Cost N (hiGallop (tick lt) base1 buffer g t) (fun r c => c + 3 * r.1.left ≤ 3 * t.left ∧
      r.1.left < t.left ∧ (r.2.2 = false → 1 ≤ r.1.len1 ∧ 2 ≤ r.1.len2)) := by
  intro n
  induction n with
  | zero => intro g t h h1 h2; unfold TimCur.left at h; omega
  | succ n ih =>
    intro g t h h1 h2
    simp only [TimCur.left] at ih h ⊢
    rw [hiGallop]
    refine (hiGallop1_cost h1).bind ?_
    rintro ⟨t1, k1, b1⟩ c1 ⟨e1, e2, e3, e4, e5⟩
    dsimp only at e1 e2 e3 e4 e5 ⊢
    refine Cost.ite (fun hb => Cost.pure ?_) fun hb => ?_
    · have := e4 hb
      exact ⟨by dsimp only; omega, by dsimp only; omega, by simp⟩
    have h5 := e5 (by simpa using hb)
    refine (silent_moveTo _ _).costBind fun _ => ?_
    refine Cost.ite (fun h0 => Cost.pure ?_) fun h0 => ?_
    · exact ⟨by dsimp only; omega, by dsimp only; omega, by simp⟩
    refine (hiGallop2_cost (by dsimp only; omega)).bind ?_
    rintro ⟨t2, k2, b2⟩ c2 ⟨f1, f2, f3, f4, f5⟩
    dsimp only at f1 f2 f3 f4 f5 ⊢
    refine Cost.ite (fun hb => Cost.pure ?_) fun hb => ?_
    · have := f4 hb
      exact ⟨by dsimp only; omega, by dsimp only; omega, by simp⟩
    have h6 := f5 (by simpa using hb)
    refine (silent_moveTo _ _).costBind fun _ => ?_
    refine Cost.ite (fun h0 => Cost.pure ?_) fun h0 => ?_
    · exact ⟨by dsimp only; omega, by dsimp only; omega, by simp⟩
    refine Cost.ite (fun _ => ?_) fun _ => Cost.pure ?_
    · refine (ih _ _ ?_ ?_ ?_).mono fun r c hr => ⟨?_, ?_, hr.2.2⟩
      all_goals dsimp only at *
      all_goals omega
    · exact ⟨by dsimp only; omega, by dsimp only; omega, fun _ => ⟨by dsimp only; omega, by dsimp only; omega⟩⟩

theorem loOuter_cost : ∀ (n : Nat) (g : Int) (t : TimCur), t.left ≤ n → 2 ≤ t.len1 → 1 ≤ t.len2 →
    Cost N (loOuter (tick lt) g t) (fun _ c => c ≤ 3 * t.left) := by
  intro n
  induction n with
  | zero => intro g t h h1 h2; unfold TimCur.left at h; omega
  | succ n ih =>
    intro g t h h1 h2
    rw [loOuter]
    refine (loHot_cost _ _ _).bind ?_
    rintro ⟨t1, b1⟩ c1 e
    obtain ⟨e1, e2⟩ := e h1 h2
    dsimp only at e1 e2 ⊢
    refine Cost.ite (fun _ => Cost.pure (by omega)) fun hb => ?_
    obtain ⟨e3, e4⟩ := e2 (by simpa using hb)
    refine (loGallop_cost _ _ t1 (Nat.le_refl _) e3 e4).bind ?_
    rintro ⟨t2, g2, b2⟩ c2 ⟨f1, f2, f3⟩
    dsimp only at f1 f2 f3 ⊢
    refine Cost.ite (fun _ => Cost.pure (by omega)) fun hb => ?_
    obtain ⟨f4, f5⟩ := f3 (by simpa using hb)
    exact (ih _ t2 (by omega) f4 f5).mono fun _ c hc => by omega

theorem hiOuter_cost {base1 buffer : Nat} : ∀ (n : Nat) (g : Int) (t : TimCur), t.left ≤ n → 1 ≤ t.len1 →
    2 ≤ t.len2 → Cost N (hiOuter (tick lt) base1 buffer g t) (fun _ c => c ≤ 3 * t.left) := by
  intro n
  induction n with
  | zero => intro g t h h1 h2; unfold TimCur.left at h; omega
  | succ n ih =>
    intro g t h h1 h2
    rw [hiOuter]
    refine (hiHot_cost _ _ _).bind ?_
    rintro ⟨t1, b1⟩ c1 e
    obtain ⟨e1, e2⟩ := e h1 h2
    have e0 : TimCur.left { t with cursor1 := t.cursor1 - 1 } = t.left := rfl
    rw [e0] at e1
    dsimp only at e1 e2 ⊢
    refine Cost.ite (fun _ => Cost.pure (by omega)) fun hb => ?_
    obtain ⟨e3, e4⟩ := e2 (by simpa using hb)
    refine (hiGallop_cost _ _ t1 (Nat.le_refl _) e3 e4).bind ?_
    rintro ⟨t2, g2, b2⟩ c2 ⟨f1, f2, f3⟩
    dsimp only at f1 f2 f3 ⊢
    refine Cost.ite (fun _ => Cost.pure (by omega)) fun hb => ?_
    obtain ⟨f4, f5⟩ := f3 (by simpa using hb)
    exact (ih _ t2 (by omega) f4 f5).mono fun _ c hc => by omega

theorem mergeLo_cost {b : TimBuf} {base1 len1 base2 len2 : Nat} (h1 : 1 ≤ len1) (h2 : 1 ≤ len2) :
    Cost N (mergeLo (tick lt) b base1 len1 base2 len2) (fun _ c => c ≤ 3 * (len1 + len2)) := by
  unfold mergeLo
  refine Cost.ite (fun _ => (rotateLeft_silent _ _).costBind fun _ => Cost.pure (by omega)) fun _ => ?_
  refine Cost.ite (fun _ => (rotateRight_silent _ _).costBind fun _ => Cost.pure (by omega)) fun _ => ?_
  refine (resizeBuffer_silent _ _).costBind fun b => (uninitMove_silent _ _ _).costBind fun _ =>
    (silent_moveTo _ _).costBind fun _ => ?_
  refine (loOuter_cost _ _ _ (Nat.le_refl _) (by dsimp only; omega) (by dsimp only; omega)).bind ?_
  rintro ⟨t, g⟩ c hc
  simp only [TimCur.left] at hc ⊢
  refine Cost.ite (fun _ => ?_) fun _ => ?_
  · exact (moveRange_silent' _ _ _ _ _).costBind fun _ => (silent_moveTo _ _).costBind fun _ =>
      (destroyN_silent _ _).costBind fun _ => Cost.pure (by omega)
  · exact (moveRange_silent' _ _ _ _ _).costBind fun _ => (destroyN_silent _ _).costBind fun _ => Cost.pure (by omega)

theorem mergeHi_cost {b : TimBuf} {base1 len1 base2 len2 : Nat} (h1 : 1 ≤ len1) (h2 : 1 ≤ len2) :
    Cost N (mergeHi (tick lt) b base1 len1 base2 len2) (fun _ c => c ≤ 3 * (len1 + len2)) := by
  unfold mergeHi
  refine Cost.ite (fun _ => (rotateLeft_silent _ _).costBind fun _ => Cost.pure (by omega)) fun _ => ?_
  refine Cost.ite (fun _ => (rotateRight_silent _ _).costBind fun _ => Cost.pure (by omega)) fun _ => ?_
  refine (resizeBuffer_silent _ _).costBind fun b => (uninitMove_silent _ _ _).costBind fun _ =>
    (silent_moveTo _ _).costBind fun _ => ?_
  refine (hiOuter_cost _ _ _ (Nat.le_refl _) (by dsimp only; omega) (by dsimp only; omega)).bind ?_
  rintro ⟨t, g⟩ c hc
  simp only [TimCur.left] at hc ⊢
  refine Cost.ite (fun _ => ?_) fun _ => ?_
  · exact (moveBackward_silent _ _ _).costBind fun _ => (silent_moveTo _ _).costBind fun _ =>
      (destroyN_silent _ _).costBind fun _ => Cost.pure (by omega)
  · exact (moveRange_silent' _ _ _ _ _).costBind fun _ => (destroyN_silent _ _).costBind fun _ => Cost.pure (by omega)

/-- Merging two runs takes a linear number of comparisons. -/
theorem mergeConsecutiveRuns_cost {b : TimBuf} {base1 len1 base2 len2 : Nat} (h1 : 1 ≤ len1) (h2 : 1 ≤ len2) :
    Cost N (mergeConsecutiveRuns (tick lt) b base1 len1 base2 len2) (fun _ c => c ≤ 4 * (len1 + len2)) := by
  unfold mergeConsecutiveRuns
  refine (silent_read _).costBind fun _ => (gallopRight_front h1).bind fun k c hk => ?_
  dsimp only
  refine Cost.ite (fun _ => Cost.pure (by omega)) fun _ => ?_
  refine (silent_read _).costBind fun _ => (gallopLeft_back h2).bind fun k' c' hk' => ?_
  refine Cost.ite (fun _ => Cost.pure (by omega)) fun _ => ?_
  refine Cost.ite (fun _ => ?_) fun _ => ?_
  · exact (mergeLo_cost (by omega) (by omega)).mono fun _ c hc => by omega
  · exact (mergeHi_cost (by omega) (by omega)).mono fun _ c hc => by omega

end CppSort
