import Verif.Proof.AnyCmp
import Verif.Model.Quick
/-
bubble_sort.h, partition.h, introselect.h and quicksort.h with any comparison function: every scan is guarded, and every
call is on a shorter range.
-/
set_option autoImplicit false

namespace CppSort
variable {α : Type} {T : Shape α → Prop} {cmp : α → α → M α Bool}

/-! ### Bubble sort -/

theorem bubblePass_any (hc : AnswersW T cmp) {f l : Nat} : ∀ (n it i size : Nat), f ≤ it → size ≤ i + n →
    it + (size - i) < l → Intact T f l (bubblePass cmp it i size) fun _ => True := by
  intro n
  induction n with
  | zero =>
    intro it i size h1 h2 h3
    rw [bubblePass, if_neg (by omega)]
    keep
  | succ n ih =>
    intro it i size h1 h2 h3
    rw [bubblePass]
    refine Keep.ite (fun h => ?_) fun _ => by keep
    keep
    exact ih _ _ _ (by omega) (by omega) (by omega)

theorem bubbleLoop_any (hc : AnswersW T cmp) {f l first : Nat} (hf : f ≤ first) : ∀ (n size : Nat), size ≤ n →
    first + size ≤ l → 0 < size → Intact T f l (bubbleLoop cmp first size) fun _ => True := by
  intro n
  induction n with
  | zero => intros; omega
  | succ n ih =>
    intro size h1 h2 h3
    rw [bubbleLoop]
    refine Keep.ite (fun h => ?_) fun _ => by keep
    refine (bubblePass_any hc size first 0 (size - 1) hf (by omega) (by omega)).bind ?_
    rintro _ _ ⟨rfl, -⟩
    exact ih _ (by omega) (by omega) (by omega)

theorem bubbleSort_any (hc : AnswersW T cmp) {f l first size : Nat} (hf : f ≤ first) (hl : first + size ≤ l) :
    Intact T f l (bubbleSort cmp first size) fun _ => True := by
  unfold bubbleSort
  exact Keep.ite (fun _ => by keep) fun h => bubbleLoop_any hc hf size size (Nat.le_refl _) hl (by omega)

/-! ### Partitions -/

/-- The predicate can be asked for every element of `[f, l)`; its answers are arbitrary. -/
def AnyPred (T : Shape α → Prop) (F L f l : Nat) (pred : Nat → M α Bool) : Prop :=
  ∀ p, f ≤ p → p < l → Keep T F L .whole (pred p) fun _ P => P = .whole

theorem partSkip_any {F L f l : Nat} {pred : Nat → M α Bool} (hp : AnyPred T F L f l pred) : ∀ (n first : Nat),
    first + n = l → f ≤ first →
    Intact T F L (partSkip pred first l) fun r => ∀ q ∈ r, first ≤ q ∧ q < l := by
  intro n
  induction n with
  | zero =>
    intro first h1 h2
    rw [partSkip, if_pos (by omega)]
    exact Keep.pure ⟨rfl, fun _ h => by cases h⟩
  | succ n ih =>
    intro first h1 h2
    rw [partSkip, if_neg (by omega)]
    refine (hp first h2 (by omega)).next fun b => Keep.ite (fun _ => ?_) fun _ => ?_
    · refine (ih (first + 1) (by omega) (by omega)).mono ?_
      rintro r _ ⟨rfl, h⟩
      exact ⟨rfl, fun q hq => by have := h q hq; omega⟩
    · exact Keep.pure ⟨rfl, fun q hq => by cases hq; omega⟩

theorem partFwdLoop_any {F L f l : Nat} {pred : Nat → M α Bool} (hp : AnyPred T F L f l pred) (hF : F ≤ f) (hL : l ≤ L) :
    ∀ (n first p : Nat), p + n = l → f ≤ first → first ≤ p → p < l →
    Intact T F L (partFwdLoop pred first p l) fun r => first ≤ r ∧ r < l := by
  intro n
  induction n with
  | zero => intros; omega
  | succ n ih =>
    intro first p h1 h2 h3 h4
    rw [partFwdLoop]
    refine Keep.ite (fun h => ?_) fun _ => Keep.pure ⟨rfl, by omega⟩
    refine (hp (p + 1) (by omega) (by omega)).next fun b => Keep.ite (fun _ => ?_) fun _ => ?_
    · keep
      refine (ih (first + 1) (p + 1) (by omega) (by omega) (by omega) (by omega)).mono ?_
      rintro r _ ⟨rfl, h⟩
      exact ⟨rfl, by omega⟩
    · exact ih first (p + 1) (by omega) (by omega) (by omega) (by omega)

theorem partBack_any {F L f l : Nat} {pred : Nat → M α Bool} (hp : AnyPred T F L f l pred) : ∀ (n first last : Nat),
    first + 1 + n = last → f ≤ first → last ≤ l →
    Intact T F L (partBack pred first last) fun r => ∀ q ∈ r, first < q ∧ q < last := by
  intro n
  induction n with
  | zero =>
    intro first last h1 h2 h3
    rw [partBack]
    rw [if_pos (by omega)]
    exact Keep.pure ⟨rfl, fun _ h => by cases h⟩
  | succ n ih =>
    intro first last h1 h2 h3
    rw [partBack]
    rw [if_neg (by omega)]
    refine (hp (last - 1) (by omega) (by omega)).next fun b => Keep.ite (fun _ => ?_) fun _ => ?_
    · exact Keep.pure ⟨rfl, fun q hq => by cases hq; omega⟩
    · refine (ih first (last - 1) (by omega) (by omega) (by omega)).mono ?_
      rintro r _ ⟨rfl, h⟩
      exact ⟨rfl, fun q hq => by have := h q hq; omega⟩

theorem partitionBi_any {F L f l : Nat} {pred : Nat → M α Bool} (hp : AnyPred T F L f l pred) (hF : F ≤ f) (hL : l ≤ L) :
    ∀ (n first last : Nat), last - first < n → f ≤ first → first ≤ last → last ≤ l →
    Intact T F L (partitionBi pred first last) fun r => first ≤ r ∧ r ≤ last := by
  intro n
  induction n with
  | zero => intros; omega
  | succ n ih =>
    intro first last h1 h2 h3 h4
    rw [partitionBi]
    have hp' : AnyPred T F L f last pred := fun p a b => hp p a (by omega)
    refine (partSkip_any hp' (last - first) first (by omega) h2).bind ?_
    rintro r _ ⟨rfl, hr⟩
    cases r with
    | none => exact Keep.pure ⟨rfl, by omega⟩
    | some q =>
      have hq := hr q rfl
      refine (partBack_any hp (last - q - 1) q last (by omega) (by omega) h4).bind ?_
      rintro r _ ⟨rfl, hr⟩
      cases r with
      | none => exact Keep.pure ⟨rfl, by omega⟩
      | some q' =>
        have hq' := hr q' rfl
        simp only []
        keep
        refine (ih (q + 1) q' (by omega) (by omega) (by omega) (by omega)).mono ?_
        rintro r _ ⟨rfl, h⟩
        exact ⟨rfl, by omega⟩

theorem partition_any {F L f l : Nat} {pred : Nat → M α Bool} (cat : Cat) (hp : AnyPred T F L f l pred) (hF : F ≤ f)
    (h : f ≤ l) (hL : l ≤ L) : Intact T F L (partition cat pred f l) fun r => f ≤ r ∧ r ≤ l := by
  have hbi := partitionBi_any hp hF hL (l - f + 1) f l (by omega) (Nat.le_refl _) h (Nat.le_refl _)
  cases cat with
  | forward =>
    unfold partition partitionFwd
    refine (partSkip_any hp (l - f) f (by omega) (Nat.le_refl _)).bind ?_
    rintro r _ ⟨rfl, hr⟩
    cases r with
    | none => exact Keep.pure ⟨rfl, by omega⟩
    | some q =>
      have hq := hr q rfl
      refine (partFwdLoop_any hp hF hL (l - q) q q (by omega) (by omega) (Nat.le_refl _) (by omega)).mono ?_
      rintro r _ ⟨rfl, h⟩
      exact ⟨rfl, by omega⟩
  | bidirectional => exact hbi
  | random => exact hbi

theorem threeWay_any (hc : AnswersW T cmp) (cat : Cat) {f l m : Nat} (hm : f ≤ m ∧ m < l) :
    Intact T f l (threeWay cmp cat f l m (l - 1)) fun r => f ≤ r.1 ∧ r.1 < r.2 ∧ r.2 ≤ l := by
  unfold threeWay
  keep1
  refine (partition_any (F := f) (L := l) cat (fun p a b => by keep1; keep1; exact Keep.cmpW hc) (Nat.le_refl _) (by omega)
    (by omega)).bind ?_
  rintro m1 _ ⟨rfl, h1⟩
  keep1
  refine (partition_any (F := f) (L := l) cat (fun p a b => by keep) (by omega) (by omega) (Nat.le_refl _)).bind ?_
  rintro m2 _ ⟨rfl, h2⟩
  exact Keep.pure ⟨rfl, by simp only []; omega⟩

/-! ### Choice of the pivot -/

theorem iterSort3_any (hc : AnswersW T cmp) {f l a b c : Nat} (h1 : f ≤ a ∧ a < l) (h2 : f ≤ b ∧ b < l)
    (h3 : f ≤ c ∧ c < l) : Intact T f l (iterSort3 cmp a b c) fun r => r = b := by
  unfold iterSort3
  keep

theorem pickPivotGood_any (hc : AnswersW T cmp) {f l : Nat} (h : 8 ≤ l - f) :
    Intact T f l (pickPivotGood cmp f l (l - f)) fun r => (f ≤ r.1 ∧ r.1 < l) ∧ r.2 = l - 1 := by
  unfold pickPivotGood
  refine (iterSort3_any hc (by omega) (by omega) (by omega)).bind ?_
  rintro _ _ ⟨rfl, -⟩
  refine (iterSort3_any hc (by omega) (by omega) (by omega)).bind ?_
  rintro _ _ ⟨rfl, -⟩
  refine (iterSort3_any hc (by omega) (by omega) (by omega)).bind ?_
  rintro _ _ ⟨rfl, -⟩
  refine (iterSort3_any hc (by omega) (by omega) (by omega)).bind ?_
  rintro r _ ⟨rfl, hr⟩
  refine Keep.pure ⟨rfl, ?_, rfl⟩
  show f ≤ r ∧ r < l
  omega

set_option maxRecDepth 4000 in
theorem iterMedian5_any (hc : AnswersW T cmp) {f l a b c d e : Nat} (h1 : f ≤ a ∧ a < l) (h2 : f ≤ b ∧ b < l)
    (h3 : f ≤ c ∧ c < l) (h4 : f ≤ d ∧ d < l) (h5 : f ≤ e ∧ e < l) :
    Intact T f l (iterMedian5 cmp a b c d e) fun r => f ≤ r ∧ r < l := by
  unfold iterMedian5
  dsimp only
  keep

theorem iterMedianRest_any (hc : AnswersW T cmp) {f l a n : Nat} (h : n ≤ 5) (h0 : 0 < n) (ha : f ≤ a) (hl : a + n ≤ l) :
    Intact T f l (iterMedianRest cmp a n) fun r => f ≤ r ∧ r < l := by
  have : n = 1 ∨ n = 2 ∨ n = 3 ∨ n = 4 ∨ n = 5 := by omega
  rcases this with rfl | rfl | rfl | rfl | rfl
  · exact Keep.pure ⟨rfl, by omega⟩
  · exact Keep.pure ⟨rfl, by omega⟩
  · simp only [iterMedianRest]
    keep
  · simp only [iterMedianRest]
    keep
  · exact iterMedian5_any hc (by omega) (by omega) (by omega) (by omega) (by omega)

theorem mediansLoop_any (hc : AnswersW T cmp) {f l : Nat} : ∀ (i it q : Nat), f ≤ q → q ≤ it → it + 5 * i ≤ l →
    Intact T f l (mediansLoop cmp i it q) fun r => r = (it + 5 * i, q + i) := by
  intro i
  induction i with
  | zero => intro it q _ _ _; exact Keep.pure ⟨rfl, rfl⟩
  | succ i ih =>
    intro it q h1 h2 h3
    rw [mediansLoop]
    refine (iterMedian5_any hc (f := f) (l := l) (by omega) (by omega) (by omega) (by omega) (by omega)).bind ?_
    rintro r _ ⟨rfl, hr⟩
    keep1
    refine (ih (it + 5) (q + 1) (by omega) (by omega) (by omega)).mono ?_
    rintro r _ ⟨rfl, rfl⟩
    refine ⟨rfl, ?_⟩
    ext <;> simp only <;> omega

theorem mediansRest_any (hc : AnswersW T cmp) {f l rs n it q : Nat} (h1 : n - rs < 5) (h : rs ≤ n) (hq : f ≤ q)
    (hq2 : q < l ∨ rs = n) (hit : f ≤ it) (hl : it + (n - rs) ≤ l) :
    Intact T f l (mediansRest cmp rs n it q) fun r => r = if rs = n then q else q + 1 := by
  unfold mediansRest
  refine Keep.ite (fun hc' => ?_) (fun hc' => ?_)
  · refine (iterMedianRest_any hc (f := f) (l := l) (by omega) (by omega) hit hl).bind ?_
    rintro r _ ⟨rfl, hr⟩
    keep1
    refine Keep.pure ⟨rfl, ?_⟩
    rw [if_neg hc']
  · refine Keep.pure ⟨rfl, ?_⟩
    rw [if_pos (by omega)]

/-- `introselect` on ranges of less than `N` elements returns the position asked for. -/
def IntroAny (T : Shape α → Prop) (cmp : α → α → M α Bool) (cat : Cat) (N : Nat) : Prop :=
  ∀ (f l nth : Nat), l - f < N → nth < l - f → Intact T f l (introselect cmp cat f l nth (l - f)) fun r => r = f + nth

theorem medianOfMedians_any (hc : AnswersW T cmp) (cat : Cat) {f l N : Nat} (hN : IntroAny T cmp cat N) (hl : l - f ≤ N)
    (h0 : f < l) : Intact T f l (medianOfMedians cmp cat f l (l - f)) fun r => f ≤ r ∧ r < l := by
  rw [medianOfMedians]
  refine Keep.ite (fun h5 => ?_) (fun h5 => ?_)
  · exact iterMedianRest_any hc h5 (by omega) (Nat.le_refl _) (by omega)
  · simp only []
    refine (mediansLoop_any hc (l := l) _ f f (Nat.le_refl _) (Nat.le_refl _) (by omega)).bind ?_
    rintro _ _ ⟨rfl, rfl⟩
    simp only
    refine (mediansRest_any hc (f := f) (l := l) (by omega) (by omega) (by omega) (by omega) (by omega) (by omega)).bind ?_
    rintro _ _ ⟨rfl, rfl⟩
    generalize hsz : (if (l - f) / 5 * 5 = l - f then (l - f) / 5 else (l - f) / 5 + 1) = sz
    have e : (if (l - f) / 5 * 5 = l - f then f + (l - f) / 5 * 5 / 5
        else f + (l - f) / 5 * 5 / 5 + 1) = f + sz := by
      rw [← hsz]; split <;> omega
    rw [e]
    have hs1 : sz < l - f ∧ 0 < sz := by rw [← hsz]; split <;> omega
    have := hN f (f + sz) (sz / 2) (by omega) (by omega)
    rw [show f + sz - f = sz by omega] at this
    refine (this.widen (Nat.le_refl _) (show f + sz ≤ l by omega)).mono ?_
    rintro r _ ⟨rfl, hr⟩
    exact ⟨rfl, by omega⟩

theorem pickPivot_any (hc : AnswersW T cmp) (cat : Cat) {f l N : Nat} (hN : IntroAny T cmp cat N) (hl : l - f ≤ N)
    (h : 8 ≤ l - f) (bad : Int) :
    Intact T f l (pickPivot cmp cat f l (l - f) bad) fun r => (f ≤ r.1 ∧ r.1 < l) ∧ r.2 = l - 1 := by
  rw [pickPivot]
  refine Keep.ite (fun _ => pickPivotGood_any hc h) (fun _ => ?_)
  refine (medianOfMedians_any hc cat hN hl (by omega)).bind ?_
  rintro r _ ⟨rfl, hr⟩
  exact Keep.pure ⟨rfl, hr, rfl⟩

theorem introselectLoop_any (hc : AnswersW T cmp) (cat : Cat) (hi : cat ≠ .forward → Answers T cmp) {N : Nat} (hN : IntroAny T cmp cat N) :
    ∀ (n f l nth : Nat) (bad : Int), l - f < n → l - f ≤ N → nth < l - f →
    Intact T f l (introselectLoop cmp cat f l nth (l - f) bad) fun r => r = f + nth := by
  intro n
  induction n with
  | zero => intros; omega
  | succ n ih =>
    intro f l nth bad hn hl hnth
    rw [introselectLoop]
    refine Keep.ite (fun _ => ?_) fun _ => ?_
    · refine (pickPivot_any hc cat hN hl (by omega) bad).bind ?_
      rintro ⟨m, last1⟩ _ ⟨rfl, hm, rfl⟩
      refine (threeWay_any hc cat hm).bind ?_
      rintro ⟨m1, m2⟩ _ ⟨rfl, lo, mid, hi⟩
      simp only at lo mid hi
      simp only
      have es : l - f - (m1 - f) - (m2 - m1) = l - m2 := by omega
      rw [es]
      refine Keep.ite (fun _ => ?_) fun _ => Keep.ite (fun _ => ?_) fun _ => ?_
      · exact (ih f m1 nth (bad - 1) (by omega) (by omega) (by omega)).widen (Nat.le_refl _) (by omega)
      · refine ((ih m2 l (nth - (m1 - f + (m2 - m1))) (bad - 1) (by omega) (by omega) (by omega)).widen (by omega)
          (Nat.le_refl _)).mono ?_
        rintro r _ ⟨rfl, hr⟩
        exact ⟨rfl, by omega⟩
      · exact Keep.pure ⟨rfl, by omega⟩
    · refine Keep.bind (R := fun _ P => P = .whole ∧ True) ?_ ?_
      · cases cat with
        | forward => exact selectionSort_any hc (by omega)
        | bidirectional => exact insertionSort_any (hi (by simp)) (Nat.le_refl _) (by omega) (Nat.le_refl _)
        | random => exact insertionSort_any (hi (by simp)) (Nat.le_refl _) (by omega) (Nat.le_refl _)
      · rintro _ _ ⟨rfl, -⟩
        exact Keep.pure ⟨rfl, rfl⟩

theorem introAny (hc : AnswersW T cmp) (cat : Cat) (hi : cat ≠ .forward → Answers T cmp) : ∀ N, IntroAny T cmp cat N := by
  intro N
  induction N with
  | zero => intro f l nth h; omega
  | succ N ih =>
    intro f l nth h hn
    rw [introselect]
    exact introselectLoop_any hc cat hi ih (l - f + 1) f l nth _ (by omega) (by omega) hn

/-! ### Quicksort -/

theorem quicksortFallback_any (hc : AnswersW T cmp) (cat : Cat) (hi : cat ≠ .forward → Answers T cmp) {f l : Nat} (h : f ≤ l) :
    Intact T f l (quicksortFallback cmp cat f l (l - f)) fun r => r = false → 10 ≤ l - f := by
  have hbi (hi : Answers T cmp) : Intact T f l (if l - f < 42 then do insertionSort cmp f l; pure true else pure false)
      fun r => r = false → 10 ≤ l - f := by
    refine Keep.ite (fun _ => ?_) fun _ => Keep.pure ⟨rfl, fun _ => by omega⟩
    refine (insertionSort_any hi (Nat.le_refl _) h (Nat.le_refl _)).bind ?_
    rintro _ _ ⟨rfl, -⟩
    exact Keep.pure ⟨rfl, fun e => by cases e⟩
  cases cat with
  | forward =>
    simp only [quicksortFallback]
    refine Keep.ite (fun _ => ?_) fun _ => Keep.pure ⟨rfl, fun _ => by omega⟩
    refine (bubbleSort_any hc (Nat.le_refl _) (by omega)).bind ?_
    rintro _ _ ⟨rfl, -⟩
    exact Keep.pure ⟨rfl, fun e => by cases e⟩
  | bidirectional => exact hbi (hi (by simp))
  | random => exact hbi (hi (by simp))

theorem quicksortLoop_any (hc : AnswersW T cmp) (cat : Cat) (hi : cat ≠ .forward → Answers T cmp) : ∀ (n f l : Nat) (bad : Int), l - f < n → f ≤ l →
    Intact T f l (quicksortLoop cmp cat f l (l - f) bad) fun _ => True := by
  intro n
  induction n with
  | zero => intros; omega
  | succ n ih =>
    intro f l bad hn hfl
    rw [quicksortLoop]
    refine (quicksortFallback_any hc cat hi hfl).bind ?_
    rintro b _ ⟨rfl, hb⟩
    refine Keep.ite (fun _ => by keep) fun hf => ?_
    have hsz := hb (by simpa using hf)
    refine (pickPivot_any hc cat (introAny hc cat hi (l - f)) (Nat.le_refl _) (by omega) bad).bind ?_
    rintro ⟨m, last1⟩ _ ⟨rfl, hm, rfl⟩
    refine (threeWay_any hc cat hm).bind ?_
    rintro ⟨m1, m2⟩ _ ⟨rfl, lo, mid, hi⟩
    simp only at lo mid hi
    simp only
    have es : l - f - (m1 - f) - (m2 - m1) = l - m2 := by omega
    rw [es]
    refine Keep.ite (fun _ => ?_) fun _ => ?_
    · refine ((ih m2 l (bad - 1) (by omega) (by omega)).widen (by omega) (Nat.le_refl _)).bind ?_
      rintro _ _ ⟨rfl, -⟩
      exact (ih f m1 (bad - 1) (by omega) (by omega)).widen (Nat.le_refl _) (by omega)
    · refine ((ih f m1 (bad - 1) (by omega) (by omega)).widen (Nat.le_refl _) (by omega)).bind ?_
      rintro _ _ ⟨rfl, -⟩
      exact (ih m2 l (bad - 1) (by omega) (by omega)).widen (by omega) (Nat.le_refl _)

theorem quicksort_any (hc : AnswersW T cmp) (cat : Cat) (hi : cat ≠ .forward → Answers T cmp) {f l : Nat} (h : f ≤ l) :
    Intact T f l (quicksort cmp cat f l) fun _ => True :=
  quicksortLoop_any hc cat hi (l - f + 1) f l _ (by omega) h

end CppSort
