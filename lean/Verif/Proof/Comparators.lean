import Verif.Model.Comparators
import Verif.Base.Order
/-
Helper lemmas about the comparators.
-/
set_option autoImplicit false

namespace CppSort
variable {ew mw : Nat}

theorem Flt.mag_bounds (x : Flt ew mw) : x.mag < 2 ^ (mw + x.expo) ∧
    (0 < x.expo → 2 ^ (mw + x.expo - 1) ≤ x.mag) := by
  have h := x.hmant
  unfold Flt.mag
  split
  · rename_i e
    rw [e]
    exact ⟨h, fun h => absurd h (by omega)⟩
  · rename_i e
    have e1 : mw + x.expo - 1 = mw + (x.expo - 1) := by omega
    have e2 : mw + x.expo = mw + 1 + (x.expo - 1) := by omega
    have hp := Nat.two_pow_pos (x.expo - 1)
    constructor
    · rw [e2, Nat.pow_add]
      exact Nat.mul_lt_mul_of_pos_right (by rw [Nat.pow_succ]; omega) hp
    · intro _
      rw [e1, Nat.pow_add]
      exact Nat.mul_le_mul_right _ (by omega)

theorem Flt.mag_expo {x y : Flt ew mw} (h : x.expo < y.expo) : x.mag < y.mag := by
  have h1 := x.mag_bounds.1
  have h2 := y.mag_bounds.2 (by omega)
  have : 2 ^ (mw + x.expo) ≤ 2 ^ (mw + y.expo - 1) := Nat.pow_le_pow_right (by omega) (by omega)
  omega

theorem Flt.mag_inj {x y : Flt ew mw} (h : x.mag = y.mag) : x.expo = y.expo ∧ x.mant = y.mant := by
  have he : x.expo = y.expo := by
    rcases Nat.lt_trichotomy x.expo y.expo with h1 | h1 | h1
    · have := Flt.mag_expo h1; omega
    · exact h1
    · have := Flt.mag_expo h1; omega
  refine ⟨he, ?_⟩
  unfold Flt.mag at h
  rw [he] at h
  split at h
  · exact h
  · have := Nat.eq_of_mul_eq_mul_right (Nat.two_pow_pos _) h
    omega

theorem Flt.ext' {x y : Flt ew mw} (h1 : x.sign = y.sign) (h2 : x.expo = y.expo)
    (h3 : x.mant = y.mant) : x = y := by
  cases x; cases y; simp only at h1 h2 h3; subst h1 h2 h3; rfl

/-- A numeric key for finite values: twice the value, plus one for `+0`. -/
def totalKey (x : Flt ew mw) : Int :=
  if x.isFinite then 2 * x.value + (if x.value = 0 ∧ x.sign = false then 1 else 0) else 0

theorem Flt.classes (x : Flt ew mw) :
    (x.isFinite = true ∧ x.isNaN = false ∧ x.isInf = false) ∨
    (x.isFinite = false ∧ x.isNaN = true ∧ x.isInf = false) ∨
    (x.isFinite = false ∧ x.isNaN = false ∧ x.isInf = true) := by
  unfold Flt.isFinite Flt.isNaN Flt.isInf
  by_cases h : x.expo + 1 = 2 ^ ew
  · by_cases h2 : x.mant = 0 <;> simp [h, h2]
  · simp [h]

theorem totalLess_iff (x y : Flt ew mw) : totalLess x y = true ↔
    totalWeight x < totalWeight y ∨ (totalWeight x = totalWeight y ∧ totalKey x < totalKey y) := by
  unfold totalLess totalKey totalWeight Flt.isZero Flt.lt
  rcases x.classes with ⟨a1, a2, a3⟩ | ⟨a1, a2, a3⟩ | ⟨a1, a2, a3⟩ <;>
  rcases y.classes with ⟨b1, b2, b3⟩ | ⟨b1, b2, b3⟩ | ⟨b1, b2, b3⟩ <;>
  simp only [a1, a2, a3, b1, b2, b3] <;> cases hx : x.sign <;> cases hy : y.sign <;>
  simp <;> (try split) <;> (try simp) <;> (try split) <;> (try split) <;> omega

theorem weakLess_iff (x y : Flt ew mw) : weakLess x y = true ↔
    weakWeight x < weakWeight y ∨ (weakWeight x = weakWeight y ∧
      (if x.isFinite then x.value else 0) < (if y.isFinite then y.value else 0)) := by
  unfold weakLess weakWeight Flt.lt
  rcases x.classes with ⟨a1, a2, a3⟩ | ⟨a1, a2, a3⟩ | ⟨a1, a2, a3⟩ <;>
  rcases y.classes with ⟨b1, b2, b3⟩ | ⟨b1, b2, b3⟩ | ⟨b1, b2, b3⟩ <;>
  simp only [a1, a2, a3, b1, b2, b3] <;> cases hx : x.sign <;> cases hy : y.sign <;>
  simp

/-- An order given by a lexicographic pair of integer keys is a strict weak order. -/
theorem strictWeak_of_keys {α : Type} {lt : α → α → Bool} {k1 k2 : α → Int}
    (h : ∀ x y, lt x y = true ↔ k1 x < k1 y ∨ (k1 x = k1 y ∧ k2 x < k2 y)) : StrictWeak lt := by
  have hf : ∀ x y, lt x y = false ↔ ¬ (k1 x < k1 y ∨ (k1 x = k1 y ∧ k2 x < k2 y)) := by
    intro x y; rw [← h, Bool.not_eq_true]
  constructor
  · intro x; rw [hf]; omega
  · intro x y z; simp only [h]; omega
  · intro x y z; simp only [hf]; omega

/-! ### Lexicographic comparison -/

theorem lexCompare_iff {f : Nat → Nat} : ∀ (xs ys : List Nat),
    lexCompare (charLess f) xs ys = true ↔ xs.map f < ys.map f := by
  intro xs
  induction xs with
  | nil =>
    intro ys
    cases ys with
    | nil => simp [lexCompare]
    | cons y ys => simp [lexCompare]
  | cons x xs ih =>
    intro ys
    cases ys with
    | nil => simp [lexCompare]
    | cons y ys =>
      rw [lexCompare, List.map_cons, List.map_cons, List.cons_lt_cons_iff]
      unfold charLess at ih ⊢
      simp only [decide_eq_true_eq]
      split
      · rename_i h; simp [h]
      · split
        · rename_i h1 h2
          simp only [Bool.false_eq_true, false_iff]; omega
        · rename_i h1 h2
          rw [ih]
          have : f x = f y := by omega
          simp [this]

/-! ### natural_less -/

theorem naturalTail_noDigit {x y : Nat} {xs ys : List Nat} (h : isDigitC x = false ∨ isDigitC y = false) :
    naturalBody (x :: xs) (y :: ys) = some (naturalTail (x :: xs) (y :: ys)) := by
  unfold naturalBody
  simp only
  rw [if_neg]
  rintro ⟨h1, h2⟩
  rcases h with h | h
  · rw [List.takeWhile_cons, h] at h1; simp at h1
  · rw [List.takeWhile_cons, h] at h2; simp at h2

theorem naturalLoop_noDigit : ∀ (xs ys : List Nat) (fuel : Nat), xs.length ≤ fuel →
    (∀ c ∈ xs, isDigitC c = false) → naturalLoop fuel xs ys = some (decide (xs < ys)) := by
  intro xs
  induction xs with
  | nil =>
    intro ys fuel _ _
    unfold naturalLoop
    cases ys <;> simp
  | cons x xs ih =>
    intro ys fuel hf hd
    unfold naturalLoop
    cases ys with
    | nil => simp
    | cons y ys =>
      obtain ⟨fuel, rfl⟩ : ∃ k, fuel = k + 1 := ⟨fuel - 1, by simp at hf; omega⟩
      rw [naturalTail_noDigit (Or.inl (hd x (by simp)))]
      simp only [List.isEmpty_cons, Bool.or_self, Bool.false_eq_true, if_false, naturalTail]
      by_cases h : x = y
      · subst h
        simp only [ne_eq, not_true_eq_false, if_false]
        rw [ih ys fuel (by simp at hf; omega) (fun c hc => hd c (by simp [hc]))]
        congr 2
        simp
      · simp only [ne_eq, h, not_false_eq_true, if_true]
        congr 2
        simp [List.cons_lt_cons_iff, h]

/-- The number denoted by a list of digits. -/
def digitsVal (xs : List Nat) : Nat := xs.foldl (fun n c => 10 * n + (c - 48)) 0

theorem digitsVal_acc : ∀ (xs : List Nat) (a : Nat), xs.foldl (fun n c => 10 * n + (c - 48)) a =
    a * 10 ^ xs.length + digitsVal xs := by
  intro xs
  unfold digitsVal
  induction xs with
  | nil => intro a; simp
  | cons x xs ih =>
    intro a
    rw [List.foldl_cons, List.foldl_cons, ih, ih (10 * 0 + (x - 48)), List.length_cons, Nat.pow_succ]
    rw [Nat.add_mul, Nat.add_mul, Nat.mul_comm 10 a]
    rw [Nat.mul_assoc a 10, Nat.mul_comm 10 (10 ^ xs.length)]
    omega

theorem digitsVal_cons (x : Nat) (xs : List Nat) :
    digitsVal (x :: xs) = (x - 48) * 10 ^ xs.length + digitsVal xs := by
  unfold digitsVal
  rw [List.foldl_cons, digitsVal_acc]; simp [digitsVal]

theorem isDigitC_iff {c : Nat} : isDigitC c = true ↔ 48 ≤ c ∧ c ≤ 57 := by
  unfold isDigitC; simp

theorem digitsVal_lt : ∀ (xs : List Nat), (∀ c ∈ xs, isDigitC c = true) →
    digitsVal xs < 10 ^ xs.length := by
  intro xs
  induction xs with
  | nil => intro _; simp [digitsVal]
  | cons x xs ih =>
    intro h
    have h1 := isDigitC_iff.1 (h x (by simp))
    have h2 := ih (fun c hc => h c (by simp [hc]))
    rw [digitsVal_cons, List.length_cons, Nat.pow_succ]
    have : (x - 48) * 10 ^ xs.length ≤ 9 * 10 ^ xs.length := Nat.mul_le_mul_right _ (by omega)
    omega

theorem skipZeros_spec : ∀ (xs : List Nat), (∀ c ∈ xs, isDigitC c = true) →
    ∃ ys, skipZeros xs xs.length = (ys, ys.length) ∧ digitsVal ys = digitsVal xs ∧
      (∀ c ∈ ys, isDigitC c = true) ∧ (ys ≠ [] → 10 ^ (ys.length - 1) ≤ digitsVal ys) := by
  intro xs
  induction xs with
  | nil => intro _; exact ⟨[], rfl, rfl, by simp, by simp⟩
  | cons x xs ih =>
    intro h
    rw [List.length_cons, skipZeros]
    split
    · rename_i hx
      obtain ⟨ys, h1, h2, h3, h4⟩ := ih (fun c hc => h c (by simp [hc]))
      refine ⟨ys, h1, ?_, h3, h4⟩
      rw [h2, digitsVal_cons, hx]; omega
    · rename_i hx
      refine ⟨x :: xs, rfl, rfl, h, fun _ => ?_⟩
      have h1 := isDigitC_iff.1 (h x (by simp))
      rw [digitsVal_cons, List.length_cons, Nat.add_sub_cancel]
      have : 1 * 10 ^ xs.length ≤ (x - 48) * 10 ^ xs.length := Nat.mul_le_mul_right _ (by omega)
      omega

theorem naturalEqualSizes_digits : ∀ (xs ys : List Nat), xs.length = ys.length →
    (∀ c ∈ xs, isDigitC c = true) → (∀ c ∈ ys, isDigitC c = true) →
    (naturalEqualSizes xs ys = some (.inl (decide (digitsVal xs < digitsVal ys))) ∨
     (naturalEqualSizes xs ys = some (.inr ([], [])) ∧ digitsVal xs = digitsVal ys)) := by
  intro xs
  induction xs with
  | nil =>
    intro ys hl _ _
    cases ys with
    | nil => right; exact ⟨rfl, rfl⟩
    | cons y ys => cases hl
  | cons x xs ih =>
    intro ys hl hx hy
    cases ys with
    | nil => cases hl
    | cons y ys =>
      have hl : xs.length = ys.length := by simpa using hl
      rw [naturalEqualSizes, digitsVal_cons, digitsVal_cons, hl]
      have hx' : ∀ c ∈ xs, isDigitC c = true := fun c hc => hx c (by simp [hc])
      have hy' : ∀ c ∈ ys, isDigitC c = true := fun c hc => hy c (by simp [hc])
      split
      · rename_i hne
        left
        have a1 := digitsVal_lt xs hx'
        have a2 := digitsVal_lt ys hy'
        rw [hl] at a1
        have b1 := isDigitC_iff.1 (hx x (by simp))
        have b2 := isDigitC_iff.1 (hy y (by simp))
        congr 3
        rw [eq_iff_iff]
        generalize hP : 10 ^ ys.length = P at *
        constructor
        · intro h
          have : (x - 48 + 1) * P ≤ (y - 48) * P := Nat.mul_le_mul_right _ (by omega)
          rw [Nat.add_mul] at this; omega
        · intro h
          by_contra hc
          have : (y - 48 + 1) * P ≤ (x - 48) * P := Nat.mul_le_mul_right _ (by omega)
          rw [Nat.add_mul] at this; omega
      · rename_i heq
        have heq : x = y := by simpa using heq
        subst heq
        rcases ih ys (by assumption) hx' hy' with h | h
        · left; rw [h]; simp
        · right; refine ⟨h.1, by rw [h.2]⟩

theorem takeWhile_digits {xs : List Nat} (h : ∀ c ∈ xs, isDigitC c = true) :
    xs.takeWhile isDigitC = xs := by
  induction xs with
  | nil => rfl
  | cons x xs ih =>
    rw [List.takeWhile_cons, h x (by simp), if_pos rfl, ih (fun c hc => h c (by simp [hc]))]

theorem naturalLoop_digits (xs ys : List Nat) (fuel : Nat)
    (hx : ∀ c ∈ xs, isDigitC c = true) (hy : ∀ c ∈ ys, isDigitC c = true) (hx0 : xs ≠ [])
    (hy0 : ys ≠ []) : naturalLoop fuel xs ys = some (decide (digitsVal xs < digitsVal ys)) := by
  unfold naturalLoop
  rw [if_neg (by simp [hx0, hy0])]
  have hb : naturalBody xs ys = some (.inl (decide (digitsVal xs < digitsVal ys))) := by
    unfold naturalBody
    rw [takeWhile_digits hx, takeWhile_digits hy]
    simp only
    rw [if_pos (by simp [hx0, hy0])]
    obtain ⟨xs', a1, a2, a3, a4⟩ := skipZeros_spec xs hx
    obtain ⟨ys', b1, b2, b3, b4⟩ := skipZeros_spec ys hy
    rw [a1, b1]
    simp only
    rw [← a2, ← b2]
    have a5 := digitsVal_lt xs' a3
    have b5 := digitsVal_lt ys' b3
    split
    · rename_i hne
      congr 3
      rw [eq_iff_iff]
      constructor
      · intro h
        have : 10 ^ xs'.length ≤ 10 ^ (ys'.length - 1) := Nat.pow_le_pow_right (by omega) (by omega)
        have := b4 (by rintro rfl; simp at h)
        omega
      · intro h
        by_contra hc
        have : 10 ^ ys'.length ≤ 10 ^ (xs'.length - 1) := Nat.pow_le_pow_right (by omega) (by omega)
        have := a4 (by rintro rfl; simp at hc; exact hne (by rw [hc]))
        omega
    · rename_i heq
      have heq : xs'.length = ys'.length := by simpa using heq
      split
      · rename_i h0
        have e1 : xs' = [] := List.length_eq_zero_iff.1 h0
        have e2 : ys' = [] := List.length_eq_zero_iff.1 (by omega)
        subst e1 e2; simp
      · rcases naturalEqualSizes_digits xs' ys' heq a3 b3 with h | h
        · rw [h]
        · rw [h.1]
          simp only [naturalTail, List.isEmpty_nil, Bool.not_true, h.2]
          simp
  rw [hb]

theorem naturalLoop_prefix : ∀ (w xs ys : List Nat) (fuel : Nat), w.length ≤ fuel →
    (∀ c ∈ w, isDigitC c = false) → (∀ c ∈ xs, isDigitC c = true) →
    (∀ c ∈ ys, isDigitC c = true) → xs ≠ [] → ys ≠ [] →
    naturalLoop fuel (w ++ xs) (w ++ ys) = some (decide (digitsVal xs < digitsVal ys)) := by
  intro w
  induction w with
  | nil => intro xs ys fuel _ _ hx hy hx0 hy0; exact naturalLoop_digits xs ys fuel hx hy hx0 hy0
  | cons c w ih =>
    intro xs ys fuel hf hw hx hy hx0 hy0
    obtain ⟨fuel, rfl⟩ : ∃ k, fuel = k + 1 := ⟨fuel - 1, by simp at hf; omega⟩
    rw [List.cons_append, List.cons_append]
    unfold naturalLoop
    rw [naturalTail_noDigit (Or.inl (hw c (by simp)))]
    simp only [List.isEmpty_cons, Bool.or_self, Bool.false_eq_true, if_false, naturalTail,
      ne_eq, not_true_eq_false]
    exact ih xs ys fuel (by simp at hf; omega) (fun d hd => hw d (by simp [hd])) hx hy hx0 hy0

/-! ### Callables -/

theorem flipCall_call {α : Type} (c : Callable α) : ∀ x y, (flipCall c).call x y = c.call y x := by
  induction c with
  | fn f => intro x y; rfl
  | flipT c ih => intro x y; rfl
  | notT c ih => intro x y; cases c <;> rfl
  | projT c p ih => intro x y; exact ih _ _

theorem notFnC_call {α : Type} (c : Callable α) : ∀ x y, (notFnC c).call x y = !c.call x y := by
  induction c with
  | fn f => intro x y; rfl
  | flipT c ih => intro x y; cases c <;> simp [notFnC, Callable.call]
  | notT c ih => intro x y; simp [notFnC, Callable.call]
  | projT c p ih => intro x y; exact ih _ _

theorem makeProjectionCompare_call {α β : Type} (c : Callable β) (p : Proj α β) (x y : α) :
    (makeProjectionCompare c p).call x y = c.call (p.call x) (p.call y) := by
  cases p <;> rfl

end CppSort
