import Verif.Model.SpreadStr
import Verif.Proof.SpreadRec
import Verif.Proof.SkaTypes
import Verif.Proof.Pdq
/-
Spreadsort on strings.
-/
set_option autoImplicit false

namespace CppSort
variable {α : Type}

/-! ### The order of the strings -/

/-- The lexicographical order of the characters. -/
abbrev lexN (x y : List Nat) : Bool := lexLess (fun a b => decide (a < b)) x y

theorem natDec_sw : StrictWeak fun a b : Nat => decide (a < b) := by
  refine ⟨fun x => ?_, fun x y z => ?_, fun x y z => ?_⟩ <;>
    simp only [decide_eq_true_eq, decide_eq_false_iff_not] <;> omega

theorem lexN_sw : StrictWeak lexN := lexLess_sw natDec_sw

theorem lexN_nil_right (x : List Nat) : lexN x [] = false := by cases x <;> rfl

theorem lexN_self (x : List Nat) : lexN x x = false := lexN_sw.irrefl x

theorem lexN_cons (a b : Nat) (x y : List Nat) :
    lexN (a :: x) (b :: y) = (if a < b then true else if b < a then false else lexN x y) := by
  show lexLess _ (a :: x) (b :: y) = _
  rw [lexLess]
  simp only [decide_eq_true_eq]

/-- It is the order of the lists. -/
theorem lexN_eq : ∀ x y : List Nat, lexN x y = decide (x < y) := by
  intro x
  induction x with
  | nil => intro y; cases y with
    | nil => rfl
    | cons b y => simp [lexLess]
  | cons a x ih => intro y; cases y with
    | nil => simp [lexLess]
    | cons b y =>
      rw [lexN_cons, ih]
      simp only [List.cons_lt_cons_iff]
      by_cases h1 : a < b
      · simp [h1]
      · by_cases h2 : b < a
        · have : a ≠ b := by omega
          simp [h1, h2, this]
        · have : a = b := by omega
          simp [this]

theorem lexN_append (p x y : List Nat) : lexN (p ++ x) (p ++ y) = lexN x y := by
  induction p with
  | nil => rfl
  | cons a p ih =>
    rw [List.cons_append, List.cons_append, lexN_cons, if_neg (by omega), if_neg (by omega), ih]

theorem lexN_drop {o : Nat} {x y : List Nat} (h : x.take o = y.take o) : lexN x y = lexN (x.drop o) (y.drop o) := by
  conv_lhs => rw [← List.take_append_drop o x, ← List.take_append_drop o y, h]
  exact lexN_append _ _ _

/-- What `offset_less_than` compares. -/
def offsetKey (o : Nat) (x : List Nat) : List Nat := min x.length o :: x.drop o

theorem offsetLoop_eq (x y : List Nat) : ∀ (m o : Nat), x.length - o = m → offsetLoop x y o = lexN (offsetKey o x) (offsetKey o y) := by
  intro m
  induction m with
  | zero =>
    intro o h
    rw [offsetLoop, dif_neg (by omega)]
    unfold offsetKey
    rw [lexN_cons, List.drop_eq_nil_of_le (show x.length ≤ o by omega)]
    by_cases h1 : x.length < y.length
    · by_cases h2 : x.length < o
      · rw [if_pos (by omega)]; simp [h1]
      · rw [if_neg (by omega), if_neg (by omega)]
        rw [show List.drop o y = y[o]'(by omega) :: List.drop (o + 1) y from List.drop_eq_getElem_cons (by omega),
          decide_eq_true h1]
        rfl
    · by_cases h2 : y.length < x.length
      · rw [if_neg (by omega), if_pos (by omega)]; simp [h1]
      · rw [if_neg (by omega), if_neg (by omega), List.drop_eq_nil_of_le (show y.length ≤ o by omega)]
        simp [h1, lexLess]
  | succ m ih =>
    intro o h
    rw [offsetLoop]
    by_cases hy : o < y.length
    · rw [dif_pos ⟨by omega, hy⟩]
      unfold offsetKey at ih ⊢
      rw [lexN_cons, List.drop_eq_getElem_cons (show o < x.length by omega), List.drop_eq_getElem_cons hy, lexN_cons]
      have e1 : ¬ min x.length o < min y.length o := by omega
      have e2 : ¬ min y.length o < min x.length o := by omega
      by_cases he : x[o] = y[o]
      · rw [ih (o + 1) (by omega), lexN_cons]
        have e3 : ¬ min x.length (o + 1) < min y.length (o + 1) := by omega
        have e4 : ¬ min y.length (o + 1) < min x.length (o + 1) := by omega
        simp only [he, e1, e2, e3, e4, ne_eq, not_true_eq_false, if_false, lt_irrefl]
      · simp only [he, e1, e2, ne_eq, not_false_eq_true, if_true, if_false]
        by_cases h1 : x[o] < y[o]
        · simp only [h1, if_true, decide_true]
        · have h2 : y[o] < x[o] := by omega
          simp only [h1, h2, if_true, if_false, decide_false]
    · rw [dif_neg (by omega)]
      unfold offsetKey
      rw [lexN_cons, List.drop_eq_nil_of_le (show y.length ≤ o by omega), lexN_nil_right]
      simp only [decide_eq_false (show ¬ x.length < y.length by omega)]
      rw [if_neg (by omega)]
      simp

theorem offsetLoop_same {o : Nat} {x y : List Nat} (hx : o ≤ x.length) (hy : o ≤ y.length) (h : x.take o = y.take o) :
    offsetLoop x y o = lexN x y := by
  rw [offsetLoop_eq _ _ _ o rfl, lexN_drop h]
  unfold offsetKey
  rw [lexN_cons, if_neg (by omega), if_neg (by omega)]

/-- The order. -/
def strLt (rv : Bool) (proj : α → List Nat) (x y : α) : Bool := strLess rv (proj x) (proj y)

theorem strLess_sw (rv : Bool) : StrictWeak (strLess rv) := by
  have h := lexN_sw
  cases rv
  · exact ⟨fun x => h.irrefl x, fun x y z => h.trans x y z, fun x y z => h.equiv_trans x y z⟩
  · refine ⟨fun x => h.irrefl x, fun x y z h1 h2 => h.trans z y x h2 h1, fun x y z h1 h2 h3 h4 => ?_⟩
    have := h.equiv_trans x y z h2 h1 h4 h3
    exact ⟨this.2, this.1⟩

theorem strLt_sw (rv : Bool) (proj : α → List Nat) : StrictWeak (strLt rv proj) :=
  ⟨fun _ => (strLess_sw rv).irrefl _, fun _ _ _ => (strLess_sw rv).trans _ _ _, fun _ _ _ => (strLess_sw rv).equiv_trans _ _ _⟩

theorem offsetLess_sw (rv : Bool) (proj : α → List Nat) (o : Nat) : StrictWeak fun x y : α => offsetLess rv o (proj x) (proj y) := by
  have e : (fun x y : α => offsetLess rv o (proj x) (proj y)) = strLt rv fun x => offsetKey o (proj x) := by
    funext x y
    unfold offsetLess strLt strLess
    rw [offsetLoop_eq _ _ _ o rfl, offsetLoop_eq _ _ _ o rfl]
  rw [e]
  exact strLt_sw rv _

theorem offsetLess_same (rv : Bool) {o : Nat} {x y : List Nat} (hx : o ≤ x.length) (hy : o ≤ y.length) (h : x.take o = y.take o) :
    offsetLess rv o x y = strLess rv x y := by
  unfold offsetLess strLess
  rw [offsetLoop_same hx hy h, offsetLoop_same hy hx h.symm]

/-- The bin of a string. -/
def strCode (rv : Bool) (n o : Nat) (x : List Nat) : Nat :=
  match x[o]? with
  | none => emptyBin rv n
  | some c => charBin rv n c

theorem strCode_lt {rv : Bool} {n o : Nat} {x : List Nat} (hx : ∀ c ∈ x, c < n) : strCode rv n o x < n + 1 := by
  unfold strCode
  split
  · unfold emptyBin; split <;> omega
  · rename_i c hc
    have := hx c (List.mem_of_getElem? hc)
    unfold charBin
    split <;> omega

theorem strCode_empty {rv : Bool} {n o : Nat} {x : List Nat} (hx : ∀ c ∈ x, c < n) :
    strCode rv n o x = emptyBin rv n ↔ x.length ≤ o := by
  unfold strCode
  split
  · rename_i h
    simpa using h
  · rename_i c hc
    have h1 := hx c (List.mem_of_getElem? hc)
    have h2 : ¬ x.length ≤ o := fun h => by rw [List.getElem?_eq_none h] at hc; cases hc
    unfold charBin emptyBin
    constructor
    · intro h; split at h <;> omega
    · intro h; exact absurd h h2

/-- Strings in different bins are in the order of the bins. -/
theorem strCode_cross {rv : Bool} {n o : Nat} {x y : List Nat} (hx : ∀ c ∈ x, c < n) (hy : ∀ c ∈ y, c < n)
    (h : x.take o = y.take o) (hlt : strCode rv n o x < strCode rv n o y) : strLess rv y x = false := by
  have hd : ∀ z : List Nat, z.drop o = match z[o]? with | none => [] | some c => c :: z.drop (o + 1) := by
    intro z
    split
    · rename_i hz
      exact List.drop_eq_nil_of_le (by simpa using hz)
    · rename_i c hz
      have hlen : o < z.length := by
        by_contra hc
        rw [List.getElem?_eq_none (by omega)] at hz
        cases hz
      rw [List.getElem?_eq_getElem hlen] at hz
      injection hz with hz
      rw [List.drop_eq_getElem_cons hlen, hz]
  unfold strLess
  rw [show lexLess (fun a b => decide (a < b)) x y = lexN (x.drop o) (y.drop o) from lexN_drop h,
    show lexLess (fun a b => decide (a < b)) y x = lexN (y.drop o) (x.drop o) from lexN_drop h.symm, hd x, hd y]
  unfold strCode emptyBin charBin at hlt
  cases ex : x[o]? <;> cases ey : y[o]? <;> rw [ex, ey] at hlt <;> simp only at hlt ⊢
  · omega
  · cases rv
    · rfl
    · simp only [if_true] at hlt
      omega
  · cases rv
    · simp only [Bool.false_eq_true, if_false] at hlt
      omega
    · rfl
  · have h1 := hx _ (List.mem_of_getElem? ex)
    have h2 := hy _ (List.mem_of_getElem? ey)
    cases rv
    · simp only [Bool.false_eq_true, if_false] at hlt ⊢
      rw [lexN_cons, if_neg (by omega), if_pos (by omega)]
    · simp only [if_true] at hlt ⊢
      rw [lexN_cons, if_neg (by omega), if_pos (by omega)]

/-- Strings in the same bin share one more character. -/
theorem strCode_same {rv : Bool} {n o : Nat} {x y : List Nat} (hx : ∀ c ∈ x, c < n) (hy : ∀ c ∈ y, c < n)
    (h : x.take o = y.take o) (he : strCode rv n o x = strCode rv n o y) (hl : o < x.length) :
    o < y.length ∧ x.take (o + 1) = y.take (o + 1) := by
  have hne := (strCode_empty (rv := rv) hx).not.2 (show ¬ x.length ≤ o by omega)
  have hl' : o < y.length := by
    by_contra hc
    rw [he, (strCode_empty hy).2 (by omega)] at hne
    exact hne rfl
  refine ⟨hl', ?_⟩
  rw [List.take_succ, List.take_succ, h]
  unfold strCode charBin at he
  rw [List.getElem?_eq_getElem hl, List.getElem?_eq_getElem hl'] at he ⊢
  simp only at he
  have h1 := hx _ (List.getElem_mem hl)
  have h2 := hy _ (List.getElem_mem hl')
  have : x[o] = y[o] := by split at he <;> omega
  rw [this]

end CppSort
