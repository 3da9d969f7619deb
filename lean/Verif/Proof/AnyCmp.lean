import Verif.Base.AnyCmp
import Verif.Model.Insertion
import Verif.Model.Heap
import Verif.Model.Poplar
/-
insertion_sort.h, selection_sort.h, heapsort.h, d_ary_heapsort.h and poplar_sort.h with any comparison function.
-/
set_option autoImplicit false

namespace CppSort
variable {α : Type} {T : Shape α → Prop} {cmp : α → α → M α Bool}

/-! ### Insertion sort -/

theorem insertionShift_any (hc : Answers T cmp) {f l first : Nat} (hf : f ≤ first) (t : α) :
    ∀ (n sift : Nat), sift ≤ first + n → first < sift → sift < l →
    Keep T f l (.hole sift t) (insertionShift cmp first t sift) fun r P => P = .hole r t := by
  intro n
  induction n with
  | zero => intros; omega
  | succ n ih =>
    intro sift h1 h2 h3
    rw [insertionShift]
    keep1
    refine Keep.ite (fun h => ?_) fun _ => Keep.pure rfl
    keep
    exact ih _ (by omega) (by omega) (by omega)

theorem insertOne_any (hc : Answers T cmp) {f l first cur : Nat} (hf : f ≤ first) (h : first < cur) (hl : cur < l) :
    Intact T f l (insertOne cmp first cur) fun _ => True := by
  unfold insertOne
  keep
  refine (insertionShift_any hc hf _ (cur - first) cur (by omega) h hl).bind ?_
  rintro r _ rfl
  keep

theorem insertionLoop_any (hc : Answers T cmp) {f l first last : Nat} (hf : f ≤ first) (hl : last ≤ l) :
    ∀ (n cur : Nat), cur + n = last → first < cur →
    Intact T f l (insertionLoop cmp first last cur) fun _ => True := by
  intro n
  induction n with
  | zero =>
    intro cur h1 h2
    rw [insertionLoop, if_neg (by omega)]
    keep
  | succ n ih =>
    intro cur h1 h2
    rw [insertionLoop, if_pos (by omega)]
    refine (insertOne_any hc hf h2 (by omega)).bind ?_
    rintro _ _ ⟨rfl, -⟩
    exact ih _ (by omega) (by omega)

theorem insertionSort_any (hc : Answers T cmp) {f l first last : Nat} (hf : f ≤ first) (h : first ≤ last) (hl : last ≤ l) :
    Intact T f l (insertionSort cmp first last) fun _ => True := by
  unfold insertionSort
  refine Keep.ite (fun _ => by keep) fun hn => ?_
  exact insertionLoop_any hc hf hl (last - first - 1) _ (by omega) (by omega)

/-! ### Selection sort -/

theorem minElementLoop_any (hc : AnswersW T cmp) {f l last lo : Nat} (hf : f ≤ lo) (hl : last ≤ l) :
    ∀ (n i m : Nat), i + n = last → lo ≤ i → lo ≤ m → m < last →
    Intact T f l (minElementLoop cmp i last m) fun r => lo ≤ r ∧ r < last := by
  intro n
  induction n with
  | zero =>
    intro i m h1 h2 h3 h4
    rw [minElementLoop, if_neg (by omega)]
    keep
  | succ n ih =>
    intro i m h1 h2 h3 h4
    rw [minElementLoop, if_pos (by omega)]
    keep
    · exact ih _ _ (by omega) (by omega) (by omega) (by omega)
    · exact ih _ _ (by omega) (by omega) (by omega) (by omega)

theorem uncheckedMinElement_any (hc : AnswersW T cmp) {f l first last : Nat} (hf : f ≤ first) (h : first < last)
    (hl : last ≤ l) : Intact T f l (uncheckedMinElement cmp first last) fun r => first ≤ r ∧ r < last :=
  minElementLoop_any hc hf hl (last - first - 1) _ _ (by omega) (by omega) (by omega) (by omega)

theorem selectionSort_any (hc : AnswersW T cmp) {first last : Nat} (h : first ≤ last) :
    Intact T first last (selectionSort cmp first last) fun _ => True := by
  have : ∀ (n it : Nat), it + n = last → first ≤ it →
      Intact T first last (selectionSortLoop cmp last it) fun _ => True := by
    intro n
    induction n with
    | zero =>
      intro it h1 h2
      rw [selectionSortLoop, if_neg (by omega)]
      keep
    | succ n ih =>
      intro it h1 h2
      rw [selectionSortLoop, if_pos (by omega)]
      refine (uncheckedMinElement_any hc h2 (by omega) (Nat.le_refl _)).bind ?_
      rintro m _ ⟨rfl, a, b⟩
      keep
      exact ih _ (by omega) (by omega)
  exact this (last - first) first (by omega) (Nat.le_refl _)

/-! ### Binary heaps -/

theorem heapTopChild_anyX (hc : Answers T cmp) {f l first len c h : Nat} {t : α} (hf : f ≤ first) (hl : first + len ≤ l)
    (h1 : 2 * c + 1 < len) (hh : h ≤ first + c) :
    Keep T f l (.hole h t) (heapTopChild cmp first len c) fun r P => P = .hole h t ∧ c < r ∧ r < len := by
  unfold heapTopChild
  simp only []
  keep

theorem heapTopChild_any (hc : Answers T cmp) {f l first len c : Nat} (hf : f ≤ first) (hl : first + len ≤ l)
    (h1 : 2 * c + 1 < len) :
    Intact T f l (heapTopChild cmp first len c) fun r => c < r ∧ r < len := by
  unfold heapTopChild
  simp only []
  keep

theorem siftDownLoop_any (hc : Answers T cmp) {f l first len : Nat} (hf : f ≤ first) (hl : first + len ≤ l) (t : α) :
    ∀ (n start c : Nat), len ≤ c + n → 0 < c → c < len → start < first + c →
    Keep T f l (.hole start t) (siftDownLoop cmp first len t start c) fun r P => P = .hole r t := by
  intro n
  induction n with
  | zero => intros; omega
  | succ n ih =>
    intro start c h1 h0 h2 h3
    rw [siftDownLoop]
    keep1
    simp only []
    refine Keep.ite (fun _ => Keep.pure rfl) fun hn => ?_
    refine (heapTopChild_anyX hc hf hl (by omega) (Nat.le_refl _)).bind ?_
    rintro c' _ ⟨rfl, a, b⟩
    keep
    exact ih _ _ (by omega) (by omega) (by omega) (by omega)

theorem siftDown_any (hc : Answers T cmp) {f l first len k : Nat} (hf : f ≤ first) (hl : first + len ≤ l) :
    Intact T f l (siftDown cmp first len (first + k)) fun _ => True := by
  unfold siftDown
  simp only [Nat.add_sub_cancel_left]
  refine Keep.ite (fun _ => by keep) fun hn => ?_
  refine (heapTopChild_any hc hf hl (by omega)).bind ?_
  rintro c _ ⟨rfl, a, b⟩
  keep
  refine (siftDownLoop_any hc hf hl _ len _ c (by omega) (by omega) b (by omega)).bind ?_
  rintro r _ rfl
  keep

theorem makeHeapLoop_any (hc : Answers T cmp) {f l first n : Nat} (hf : f ≤ first) (hl : first + n ≤ l) (k : Nat) :
    Intact T f l (makeHeapLoop cmp first n k) fun _ => True := by
  induction k with
  | zero => unfold makeHeapLoop; keep
  | succ k ih =>
    unfold makeHeapLoop
    refine (siftDown_any hc hf hl).bind ?_
    rintro _ _ ⟨rfl, -⟩
    exact ih

theorem floydLoop_any (hc : Answers T cmp) {f l first len : Nat} (hf : f ≤ first) (hl : first + len ≤ l) (t : α) :
    ∀ (n c : Nat), len ≤ c + n → 2 * c + 1 < len →
    Keep T f l (.hole (first + c) t) (floydLoop cmp first len (first + c) c) fun r P =>
      P = .hole r t ∧ first < r ∧ r < first + len := by
  intro n
  induction n with
  | zero => intros; omega
  | succ n ih =>
    intro c h1 h2
    rw [floydLoop]
    refine (heapTopChild_anyX hc hf hl h2 (Nat.le_refl _)).bind ?_
    rintro c' _ ⟨rfl, a, b⟩
    keep
    exact ih _ (by omega) (by omega)

theorem pushHeapLoop_any (hc : Answers T cmp) {f l first : Nat} (hf : f ≤ first) (t : α) :
    ∀ (n last p : Nat), p ≤ n → first + p < last → last < l →
    Keep T f l (.hole last t) (pushHeapLoop cmp first t last p) fun r P => P = .hole r t := by
  intro n
  induction n with
  | zero =>
    intro last p h1 h2 h3
    rw [pushHeapLoop]
    keep1
    simp only []
    rw [if_pos (by omega)]
    keep
  | succ n ih =>
    intro last p h1 h2 h3
    rw [pushHeapLoop]
    keep1
    simp only []
    refine Keep.ite (fun _ => Keep.pure rfl) fun hn => ?_
    keep
    exact ih _ _ (by omega) (by omega) (by omega)

theorem pushHeap_any (hc : Answers T cmp) {f l first last : Nat} (hf : f ≤ first) (h : first ≤ last) (hl : last ≤ l) :
    Intact T f l (pushHeap cmp first last (last - first)) fun _ => True := by
  unfold pushHeap
  keep
  refine (pushHeapLoop_any hc hf _ (last - first) _ _ (by omega) (by omega) (by omega)).bind ?_
  rintro r _ rfl
  keep

theorem popHeap_any (hc : Answers T cmp) {f l first n : Nat} (hf : f ≤ first) (hl : first + n ≤ l) :
    Intact T f l (popHeap cmp first (first + n) n) fun _ => True := by
  unfold popHeap floydSiftDown
  refine Keep.ite (fun hn => ?_) fun _ => by keep
  keep1
  refine (floydLoop_any hc hf hl _ n 0 (by omega) (by omega)).bind ?_
  rintro r _ ⟨rfl, a, b⟩
  simp only []
  keep
  exact pushHeap_any hc hf (by omega) (by omega)

theorem sortHeap_any (hc : Answers T cmp) {f l first : Nat} (hf : f ≤ first) :
    ∀ n, first + n ≤ l → Intact T f l (sortHeap cmp first (first + n) n) fun _ => True := by
  intro n
  induction n with
  | zero =>
    intro h
    rw [sortHeap, if_neg (by omega)]
    keep
  | succ n ih =>
    intro h
    rw [sortHeap]
    refine Keep.ite (fun hn => ?_) fun _ => by keep
    refine (popHeap_any hc hf h).bind ?_
    rintro _ _ ⟨rfl, -⟩
    rw [show first + (n + 1) - 1 = first + n by omega, Nat.add_sub_cancel]
    exact ih (by omega)

theorem heapsort_any (hc : Answers T cmp) {f l first last : Nat} (hf : f ≤ first) (h : first ≤ last) (hl : last ≤ l) :
    Intact T f l (heapsort cmp first last) fun _ => True := by
  obtain ⟨n, rfl⟩ := Nat.exists_eq_add_of_le h
  unfold heapsort makeHeap
  simp only [Nat.add_sub_cancel_left]
  refine Keep.bind (R := fun _ P => P = .whole ∧ True) ?_ ?_
  · exact Keep.ite (fun _ => makeHeapLoop_any hc hf hl _) fun _ => by keep
  · rintro _ _ ⟨rfl, -⟩
    exact sortHeap_any hc hf n hl

/-! ### d-ary heaps -/

theorem dTopChild_any (hc : AnswersW T cmp) {f l D first len p : Nat} (hD : 0 < D) (hf : f ≤ first) (hl : first + len ≤ l)
    (h1 : p * D + 1 < len) :
    Intact T f l (dTopChild cmp D first (first + len) (first + p)) fun r => first + p < r ∧ r < first + len := by
  have hp : p ≤ p * D := Nat.le_mul_of_pos_right p hD
  unfold dTopChild minElement
  simp only [Nat.add_sub_cancel_left]
  have key : ∀ lc, first + p * D + 1 < lc → lc ≤ first + len →
      Intact T f l (uncheckedMinElement (fun x y => cmp y x) (first + p * D + 1) lc) fun r =>
        first + p < r ∧ r < first + len := fun lc a b =>
    (uncheckedMinElement_any hc.flip (by omega) a (by omega)).mono fun r _ ⟨e, x, y⟩ => ⟨e, by omega, by omega⟩
  generalize p * D = q at *
  split
  · rw [if_neg (by omega)]
    exact key _ (by omega) (by omega)
  · rw [if_neg (by omega)]
    exact key _ (by omega) (by omega)

theorem dSiftDown_any (hc : AnswersW T cmp) {f l D first len : Nat} (hD : 0 < D) (hf : f ≤ first) (hl : first + len ≤ l) :
    ∀ (n p : Nat), len ≤ p + n → p < len →
    Intact T f l (dSiftDown cmp D first (first + len) (first + p)) fun _ => True := by
  intro n
  induction n with
  | zero => intros; omega
  | succ n ih =>
    intro p h1 h2
    rw [dSiftDown, Nat.add_sub_cancel_left, show first + len - (first + p) - 1 = len - p - 1 by omega]
    have harith : p * (D - 1) + p = p * D := by
      obtain ⟨d, rfl⟩ : ∃ d, D = d + 1 := ⟨D - 1, by omega⟩
      rw [Nat.add_sub_cancel, Nat.mul_succ]
    refine Keep.ite (fun hn => ?_) fun _ => by keep
    refine (dTopChild_any hc hD hf hl (by omega)).bind ?_
    rintro c _ ⟨rfl, a, b⟩
    keep
    obtain ⟨q, rfl⟩ := Nat.exists_eq_add_of_le (show first ≤ c by omega)
    exact ih q (by omega) (by omega)

theorem dSiftUp_any (hc : AnswersW T cmp) {f l D first : Nat} (hf : f ≤ first) :
    ∀ (n p : Nat), p ≤ n → first + p < l →
    Intact T f l (dSiftUp cmp D first (first + p)) fun _ => True := by
  intro n
  induction n with
  | zero =>
    intro p h1 h2
    rw [dSiftUp, if_neg (by omega)]
    keep
  | succ n ih =>
    intro p h1 h2
    rw [dSiftUp]
    refine Keep.ite (fun hn => ?_) fun _ => by keep
    have hd : (first + p - first - 1) / D ≤ p - 1 := by
      rw [Nat.add_sub_cancel_left]
      exact Nat.div_le_self _ _
    generalize (first + p - first - 1) / D = q at *
    simp only []
    keep
    exact ih q (by omega) (by omega)

theorem dAryHeapsort_any (hc : AnswersW T cmp) {D first last : Nat} (hD : 0 < D) (h : first ≤ last) :
    Intact T first last (dAryHeapsort cmp D first last) fun _ => True := by
  obtain ⟨n, rfl⟩ := Nat.exists_eq_add_of_le h
  have push : ∀ k, 0 < k → k ≤ n →
      Intact T first (first + n) (pushDAryHeap cmp D first (first + k)) fun _ => True := by
    intro k h1 h2
    unfold pushDAryHeap
    rw [show first + k - 1 = first + (k - 1) by omega]
    exact dSiftUp_any hc (Nat.le_refl _) (k - 1) _ (Nat.le_refl _) (by omega)
  have make : ∀ m k, k + m = n → 0 < k →
      Intact T first (first + n) (makeDAryHeapLoop cmp D first (first + n) (first + k)) fun _ => True := by
    intro m
    induction m with
    | zero =>
      intro k h1 h2
      rw [makeDAryHeapLoop, if_neg (by omega)]
      keep
    | succ m ih =>
      intro k h1 h2
      rw [makeDAryHeapLoop, if_pos (by omega)]
      refine (push k h2 (by omega)).bind ?_
      rintro _ _ ⟨rfl, -⟩
      exact ih (k + 1) (by omega) (by omega)
  have sort : ∀ k, k ≤ n → Intact T first (first + n) (sortDAryHeap cmp D first (first + k)) fun _ => True := by
    intro k
    induction k with
    | zero =>
      intro _
      rw [sortDAryHeap, if_neg (by omega)]
      keep
    | succ k ih =>
      intro h1
      rw [sortDAryHeap, if_pos (by omega)]
      unfold popDAryHeap
      simp only [show first + (k + 1) - 1 = first + k by omega]
      refine Keep.bind (R := fun _ P => P = .whole ∧ True) ?_ ?_
      · keep1
        refine Keep.ite (fun _ => by keep) fun hn => ?_
        exact dSiftDown_any hc hD (Nat.le_refl _) (by omega) k 0 (by omega) (by omega)
      · rintro _ _ ⟨rfl, -⟩
        exact ih (by omega)
  unfold dAryHeapsort makeDAryHeap
  refine Keep.bind (R := fun _ P => P = .whole ∧ True) ?_ ?_
  · refine Keep.ite (fun _ => by keep) fun hn => ?_
    refine (make (n - 1) 1 (by omega) (by omega)).bind ?_
    rintro _ _ ⟨rfl, -⟩
    exact push n (by omega) (Nat.le_refl _)
  · rintro _ _ ⟨rfl, -⟩
    exact sort n (Nat.le_refl _)

end CppSort
