import Verif.Proof.Comparators
import Verif.Props.Demo
/-
C53–C57: the comparators.
-/
set_option autoImplicit false

namespace CppSort
variable {ew mw : Nat}

/-- C53: `total_less` is a strict weak order on all values of the format; it refines the built-in
`<`, puts -0 before +0, infinities and NaNs at the extremes, and distinguishes any two values that
are not NaNs of the same sign. -/
theorem C53_total_less (ew mw : Nat) :
    StrictWeak (totalLess (ew := ew) (mw := mw)) ∧
    (∀ x y : Flt ew mw, x.lt y = true → totalLess x y = true) ∧
    (∀ x y : Flt ew mw, x.isZero = true → y.isZero = true → x.sign = true → y.sign = false →
      totalLess x y = true) ∧
    (∀ x y : Flt ew mw, x.isNaN = true → x.sign = true → ¬ (y.isNaN = true ∧ y.sign = true) →
      totalLess x y = true) ∧
    (∀ x y : Flt ew mw, y.isNaN = true → y.sign = false → ¬ (x.isNaN = true ∧ x.sign = false) →
      totalLess x y = true) ∧
    (∀ x y : Flt ew mw, x ≠ y → ¬ (x.isNaN = true ∧ y.isNaN = true ∧ x.sign = y.sign) →
      totalLess x y = true ∨ totalLess y x = true) := by
  refine ⟨strictWeak_of_keys totalLess_iff, ?_, ?_, ?_, ?_, ?_⟩
  · intro x y h
    rw [totalLess_iff]
    revert h
    unfold totalKey totalWeight Flt.lt
    rcases x.classes with ⟨a1, a2, a3⟩ | ⟨a1, a2, a3⟩ | ⟨a1, a2, a3⟩ <;>
    rcases y.classes with ⟨b1, b2, b3⟩ | ⟨b1, b2, b3⟩ | ⟨b1, b2, b3⟩ <;>
    simp only [a1, a2, a3, b1, b2, b3] <;> cases hx : x.sign <;> cases hy : y.sign <;>
    simp <;> (try split) <;> (try split) <;> omega
  · intro x y h1 h2 h3 h4
    unfold Flt.isZero at h1 h2
    simp only [Bool.and_eq_true, beq_iff_eq] at h1 h2
    unfold totalLess Flt.isZero
    simp [h1.1, h1.2, h2.1, h2.2, h3, h4]
  · intro x y h1 h2 h3
    rw [totalLess_iff]
    left
    unfold totalWeight
    simp only [h1, h2, if_true]
    rcases y.classes with ⟨b1, b2, b3⟩ | ⟨b1, b2, b3⟩ | ⟨b1, b2, b3⟩ <;>
    simp only [b1, b2, b3] <;> cases hy : y.sign <;> simp
    exact h3 ⟨b2, hy⟩
  · intro x y h1 h2 h3
    rw [totalLess_iff]
    left
    unfold totalWeight
    simp only [h1, h2, if_true]
    rcases x.classes with ⟨b1, b2, b3⟩ | ⟨b1, b2, b3⟩ | ⟨b1, b2, b3⟩ <;>
    simp only [b1, b2, b3] <;> cases hy : x.sign <;> simp
    exact h3 ⟨b2, hy⟩
  · intro x y hne hn
    rw [totalLess_iff, totalLess_iff]
    by_contra hc
    have hw : totalWeight x = totalWeight y := by omega
    have hk : totalKey x = totalKey y := by omega
    clear hc
    unfold totalWeight at hw
    unfold totalKey at hk
    apply hne
    rcases x.classes with ⟨a1, a2, a3⟩ | ⟨a1, a2, a3⟩ | ⟨a1, a2, a3⟩ <;>
    rcases y.classes with ⟨b1, b2, b3⟩ | ⟨b1, b2, b3⟩ | ⟨b1, b2, b3⟩ <;>
    simp only [a1, a2, a3, b1, b2, b3] at hw hk hn <;>
    cases hx : x.sign <;> cases hy : y.sign <;> simp [hx, hy] at hw hk hn
    -- both finite
    all_goals first
      | (have hm : x.mag = y.mag := by
           simp only [Flt.value, hx, hy] at hk
           revert hk
           simp
           (try split) <;> (try split) <;> omega
         have := Flt.mag_inj hm
         exact Flt.ext' (hx.trans hy.symm) this.1 this.2)
      | (exfalso
         simp only [Flt.value, hx, hy] at hk
         revert hk
         simp
         (try split) <;> (try split) <;> omega)
      | (unfold Flt.isInf at a3 b3
         simp only [Bool.and_eq_true, beq_iff_eq] at a3 b3
         exact Flt.ext' (by rw [hx, hy]) (by omega) (by omega))

/-- C53, second part: `total_greater` is the converse of `total_less`. -/
theorem C53_total_greater (x y : Flt ew mw) : totalGreater x y = totalLess y x := by
  unfold totalGreater totalLess
  rw [Bool.and_comm y.isFinite, Bool.and_comm y.isZero]

namespace Demo
/-- `double`: a finite value, an infinity and a NaN. -/
def dOne : Flt 11 52 := ⟨false, 1023, 0, by decide, by decide⟩
def dNegZero : Flt 11 52 := ⟨true, 0, 0, by decide, by decide⟩
def dZero : Flt 11 52 := ⟨false, 0, 0, by decide, by decide⟩
def dNegInf : Flt 11 52 := ⟨true, 2047, 0, by decide, by decide⟩
def dNaN : Flt 11 52 := ⟨false, 2047, 1, by decide, by decide⟩
end Demo

open Demo in
example : totalLess dNegInf dNegZero = true ∧ totalLess dNegZero dZero = true ∧
    totalLess dZero dOne = true ∧ totalLess dOne dNaN = true ∧ dNegZero ≠ dZero := by
  decide +kernel

/-- C54: `weak_less` is a strict weak order on all values of the format, coincides with `<` on
everything but NaNs, equates exactly the values that compare `==` (in particular both zeros) and
NaNs of the same sign, and puts NaNs at the extremes. -/
theorem C54_weak_less (ew mw : Nat) :
    StrictWeak (weakLess (ew := ew) (mw := mw)) ∧
    (∀ x y : Flt ew mw, x.isNaN = false → y.isNaN = false → weakLess x y = x.lt y) ∧
    (∀ x y : Flt ew mw, eqv weakLess x y = true ↔
      x = y ∨ (x.isZero = true ∧ y.isZero = true) ∨
        (x.isNaN = true ∧ y.isNaN = true ∧ x.sign = y.sign)) ∧
    (∀ x y : Flt ew mw, x.isNaN = true → x.sign = true → ¬ (y.isNaN = true ∧ y.sign = true) →
      weakLess x y = true) ∧
    (∀ x y : Flt ew mw, y.isNaN = true → y.sign = false → ¬ (x.isNaN = true ∧ x.sign = false) →
      weakLess x y = true) := by
  refine ⟨strictWeak_of_keys weakLess_iff, ?_, ?_, ?_, ?_⟩
  · intro x y h1 h2
    rw [Bool.eq_iff_iff, weakLess_iff]
    unfold weakWeight Flt.lt
    rcases x.classes with ⟨a1, a2, a3⟩ | ⟨a1, a2, a3⟩ | ⟨a1, a2, a3⟩ <;>
    rcases y.classes with ⟨b1, b2, b3⟩ | ⟨b1, b2, b3⟩ | ⟨b1, b2, b3⟩ <;>
    simp only [a1, a2, a3, b1, b2, b3] <;> cases hx : x.sign <;> cases hy : y.sign <;>
    simp [a2, b2] at h1 h2 ⊢
  · intro x y
    have he : eqv weakLess x y = true ↔ weakWeight x = weakWeight y ∧
        (if x.isFinite then x.value else 0) = (if y.isFinite then y.value else 0) := by
      unfold eqv
      simp only [Bool.and_eq_true, Bool.not_eq_true', ← Bool.not_eq_true]
      rw [weakLess_iff, weakLess_iff]
      omega
    rw [he]
    constructor
    · rintro ⟨hw, hk⟩
      unfold weakWeight at hw
      rcases x.classes with ⟨a1, a2, a3⟩ | ⟨a1, a2, a3⟩ | ⟨a1, a2, a3⟩ <;>
      rcases y.classes with ⟨b1, b2, b3⟩ | ⟨b1, b2, b3⟩ | ⟨b1, b2, b3⟩ <;>
      simp only [a1, a2, a3, b1, b2, b3] at hw hk ⊢ <;>
      cases hx : x.sign <;> cases hy : y.sign <;> simp [hx, hy] at hw hk ⊢
      · left
        simp only [Flt.value, hx, hy] at hk
        have := Flt.mag_inj (x := x) (y := y) (by simp at hk; omega)
        exact Flt.ext' (by rw [hx, hy]) this.1 this.2
      · right
        unfold Flt.isZero
        simp only [a1, b1, Flt.value, hx, hy] at hk ⊢
        simp at hk ⊢
        omega
      · right
        unfold Flt.isZero
        simp only [a1, b1, Flt.value, hx, hy] at hk ⊢
        simp at hk ⊢
        omega
      · left
        simp only [Flt.value, hx, hy] at hk
        have := Flt.mag_inj (x := x) (y := y) (by simp at hk; omega)
        exact Flt.ext' (by rw [hx, hy]) this.1 this.2
      all_goals
        left
        unfold Flt.isInf at a3 b3
        simp only [Bool.and_eq_true, beq_iff_eq] at a3 b3
        exact Flt.ext' (by rw [hx, hy]) (by omega) (by omega)
    · rintro (rfl | ⟨h1, h2⟩ | ⟨h1, h2, h3⟩)
      · exact ⟨rfl, rfl⟩
      · unfold Flt.isZero at h1 h2
        simp only [Bool.and_eq_true, beq_iff_eq] at h1 h2
        unfold weakWeight
        rcases x.classes with ⟨a1, a2, a3⟩ | ⟨a1, a2, a3⟩ | ⟨a1, a2, a3⟩ <;>
        rcases y.classes with ⟨b1, b2, b3⟩ | ⟨b1, b2, b3⟩ | ⟨b1, b2, b3⟩ <;>
        simp [a1, a2, a3, b1, b2, b3] at h1 h2 ⊢
        rw [h1, h2]
      · unfold weakWeight
        rcases x.classes with ⟨a1, a2, a3⟩ | ⟨a1, a2, a3⟩ | ⟨a1, a2, a3⟩ <;>
        rcases y.classes with ⟨b1, b2, b3⟩ | ⟨b1, b2, b3⟩ | ⟨b1, b2, b3⟩ <;>
        simp [a1, a2, a3, b1, b2, b3, h3] at h1 h2 ⊢
  · intro x y h1 h2 h3
    rw [weakLess_iff]
    left
    unfold weakWeight
    simp only [h1, h2, if_true]
    rcases y.classes with ⟨b1, b2, b3⟩ | ⟨b1, b2, b3⟩ | ⟨b1, b2, b3⟩ <;>
    simp only [b1, b2, b3] <;> cases hy : y.sign <;> simp
    exact h3 ⟨b2, hy⟩
  · intro x y h1 h2 h3
    rw [weakLess_iff]
    left
    unfold weakWeight
    simp only [h1, h2, if_true]
    rcases x.classes with ⟨b1, b2, b3⟩ | ⟨b1, b2, b3⟩ | ⟨b1, b2, b3⟩ <;>
    simp only [b1, b2, b3] <;> cases hy : x.sign <;> simp
    exact h3 ⟨b2, hy⟩

/-- C54, second part. -/
theorem C54_weak_greater (x y : Flt ew mw) : weakGreater x y = weakLess y x := by
  unfold weakGreater weakLess
  rw [Bool.and_comm y.isFinite]

open Demo in
example : weakLess dNegInf dZero = true ∧ eqv weakLess dNegZero dZero = true ∧
    weakLess dZero dNaN = true := by decide +kernel

/-- The built-in `<` itself is not a strict weak order once NaNs are allowed: why C54 is needed. -/
theorem C54_builtin_not_weak : ¬ StrictWeak (Flt.lt (ew := 11) (mw := 52)) := by
  intro h
  have := h.equiv_trans Demo.dZero Demo.dNaN Demo.dOne (by decide +kernel) (by decide +kernel)
    (by decide +kernel) (by decide +kernel)
  have h2 : Flt.lt Demo.dZero Demo.dOne = true := by decide +kernel
  rw [h2] at this
  cases this.1

/-- C55, as stated, does not hold: `natural_less("1a", "1")` reads past the end of its second
argument (natural_less.h 62 loops to the end of the first sequence instead of the end of the
number). -/
theorem C55_natural_less_reads_past_end : naturalLess [49, 97] [49] = none := by decide

/-- C55, as stated, does not hold: digit runs after a first pair of equal-sized numbers are compared
character by character, `natural_less("1a10", "1a9")` holds. -/
theorem C55_natural_less_not_numeric :
    naturalLess [49, 97, 49, 48] [49, 97, 57] = some true ∧
    digitsVal [49, 48] > digitsVal [57] := by decide

/-- C55, as stated, does not hold: everything after a number equal to zero is ignored,
"0a" and "0b" are equivalent. -/
theorem C55_natural_less_zero :
    naturalLess [48, 97] [48, 98] = some false ∧ naturalLess [48, 98] [48, 97] = some false := by
  decide

/-- C55, the part that holds: no out-of-bounds read and the lexicographic order when the first
string contains no digit. -/
theorem C55_natural_less_lexicographic_partial (xs ys : List Nat)
    (h : ∀ c ∈ xs, isDigitC c = false) : naturalLess xs ys = some (decide (xs < ys)) :=
  naturalLoop_noDigit xs ys _ (Nat.le_refl _) h

example : naturalLess [97, 98] [97, 99, 49] = some true :=
  C55_natural_less_lexicographic_partial [97, 98] [97, 99, 49] (by decide)

/-- C55, the part that holds: no out-of-bounds read and the numeric order of the final numbers for
strings made of the same digit-free prefix followed by a number (`file9 < file10`). -/
theorem C55_natural_less_numeric_partial (w xs ys : List Nat) (hw : ∀ c ∈ w, isDigitC c = false)
    (hx : ∀ c ∈ xs, isDigitC c = true) (hy : ∀ c ∈ ys, isDigitC c = true) (hx0 : xs ≠ [])
    (hy0 : ys ≠ []) :
    naturalLess (w ++ xs) (w ++ ys) = some (decide (digitsVal xs < digitsVal ys)) :=
  naturalLoop_prefix w xs ys _ (by rw [List.length_append]; omega) hw hx hy hx0 hy0

example : naturalLess [102, 57] [102, 49, 48] = some true :=
  C55_natural_less_numeric_partial [102] [57] [49, 48] (by decide) (by decide) (by decide)
    (by decide) (by decide)

/-- C56: `case_insensitive_less` is the lexicographic order of the lowercased strings, a strict weak
order whose equivalence is equality after lowercasing. -/
theorem C56_case_insensitive_less (tolower : Nat → Nat) :
    (∀ xs ys, caseInsensitiveLess tolower xs ys = true ↔ xs.map tolower < ys.map tolower) ∧
    StrictWeak (caseInsensitiveLess tolower) ∧
    (∀ xs ys, eqv (caseInsensitiveLess tolower) xs ys = true ↔
      xs.map tolower = ys.map tolower) := by
  have h : ∀ xs ys, caseInsensitiveLess tolower xs ys = true ↔ xs.map tolower < ys.map tolower :=
    lexCompare_iff
  have hf : ∀ xs ys, caseInsensitiveLess tolower xs ys = false ↔
      ¬ xs.map tolower < ys.map tolower := by
    intro xs ys; rw [← h, Bool.not_eq_true]
  have he : ∀ a b : List Nat, ¬ a < b → ¬ b < a → a = b := fun a b h1 h2 =>
    List.le_antisymm h2 h1
  refine ⟨h, ⟨?_, ?_, ?_⟩, ?_⟩
  · intro x; rw [hf]; exact List.lt_irrefl _
  · intro x y z; rw [h, h, h]; exact List.lt_trans
  · intro x y z
    rw [hf, hf, hf, hf, hf, hf]
    intro h1 h2 h3 h4
    rw [he _ _ h1 h2, he _ _ h3 h4]
    exact ⟨List.lt_irrefl _, List.lt_irrefl _⟩
  · intro xs ys
    unfold eqv
    simp only [Bool.and_eq_true, Bool.not_eq_true']
    rw [hf, hf]
    constructor
    · rintro ⟨h1, h2⟩; exact he _ _ h1 h2
    · intro e; rw [e]; exact ⟨List.lt_irrefl _, List.lt_irrefl _⟩

example : caseInsensitiveLess (fun c => if 65 ≤ c ∧ c ≤ 90 then c + 32 else c) [65, 98] [97, 67]
    = true := by decide

/-- Expressions built with the library's functions. -/
inductive CallExpr : Type → Type 1
  | leaf {α : Type} (c : Callable α) : CallExpr α
  | flip {α : Type} (e : CallExpr α) : CallExpr α
  | notFn {α : Type} (e : CallExpr α) : CallExpr α
  | proj {α β : Type} (e : CallExpr β) (p : Proj α β) : CallExpr α

/-- What the library builds. -/
def CallExpr.build {α : Type} : CallExpr α → Callable α
  | .leaf c => c
  | .flip e => flipCall e.build
  | .notFn e => notFnC e.build
  | .proj e p => makeProjectionCompare e.build p

/-- The plain composition. -/
def CallExpr.meaning {α : Type} : CallExpr α → α → α → Bool
  | .leaf c, x, y => c.call x y
  | .flip e, x, y => e.meaning y x
  | .notFn e, x, y => !e.meaning x y
  | .proj e p, x, y => e.meaning (p.call x) (p.call y)

/-- C57: for any nesting of `flip`, `not_fn` and `make_projection_compare` around any callable, the
callable built (with the simplifications of double flips, double negations...) behaves as the plain
composition; and `flip` of a strict weak order is one. -/
theorem C57_callables {α : Type} (e : CallExpr α) :
    (∀ x y, e.build.call x y = e.meaning x y) ∧
    (∀ c : Callable α, StrictWeak c.call → StrictWeak (flipCall c).call) := by
  constructor
  · induction e with
    | leaf c => intro x y; rfl
    | flip e ih => intro x y; unfold CallExpr.build; rw [flipCall_call, ih]; rfl
    | notFn e ih => intro x y; unfold CallExpr.build; rw [notFnC_call, ih]; rfl
    | proj e p ih =>
      intro x y; unfold CallExpr.build; rw [makeProjectionCompare_call, ih]; rfl
  · intro c hc
    have : (flipCall c).call = fun x y => c.call y x := by funext x y; exact flipCall_call c x y
    rw [this]
    exact hc.flip

example : (CallExpr.flip (.proj (.flip (.leaf (.fn Demo.natLt))) (.fn (Prod.fst : Nat × Nat → Nat)))).build
    = .projT (.fn Demo.natLt) (.fn Prod.fst) := rfl

end CppSort
