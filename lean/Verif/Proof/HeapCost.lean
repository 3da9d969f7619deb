import Verif.Base.Cost
import Verif.Model.Heap
import Mathlib.Tactic.Ring
set_option autoImplicit false

namespace CppSort
variable {α : Type} {lt : α → α → Bool} {N : Nat}

/-- A comparison function that makes one comparison. -/
def Unit1 (N : Nat) (cmp : α → α → M α Bool) : Prop := ∀ x y, Cost N (cmp x y) (fun _ c => c = 1)

theorem unit1_tick : Unit1 N (tick lt) := fun _ _ => Cost.tick rfl

theorem Cost.cmpBind {γ : Type} {cmp : α → α → M α Bool} (hu : Unit1 N cmp) {x y : α} {k : Bool → M α γ}
    {R : γ → Nat → Prop} (h : ∀ b, Cost N (k b) (fun r c => R r (1 + c))) : Cost N (cmp x y >>= k) R :=
  (hu x y).bind fun r c e => by subst e; exact h r

theorem heapTopChild_cost {cmp : α → α → M α Bool} (hu : Unit1 N cmp) {first len child : Nat} :
    Cost N (heapTopChild cmp first len child)
      (fun r c => 2 * child + 1 ≤ r ∧ c ≤ 1 ∧ (len ≤ 2 * child + 2 → c = 0)) := by
  unfold heapTopChild
  refine Cost.ite (fun h => ?_) fun h => Cost.pure (by omega)
  refine (silent_read _).costBind fun _ => (silent_read _).costBind fun _ => Cost.cmpBind hu fun b => ?_
  exact Cost.ite (fun _ => Cost.pure (by omega)) fun _ => Cost.pure (by omega)

theorem siftDownLoop_cost {cmp : α → α → M α Bool} (hu : Unit1 N cmp) {first len : Nat} {top : α} (hl : 2 ≤ len) : ∀ (k start child : Nat),
    len < (child + 1) * 2 ^ (k + 1) →
    Cost N (siftDownLoop cmp first len top start child) (fun _ c => c ≤ 2 * k) := by
  intro k
  induction k with
  | zero =>
    intro start child h
    rw [siftDownLoop]
    refine (silent_moveTo _ _).costBind fun _ => ?_
    dsimp only
    rw [if_pos (by omega)]
    exact Cost.pure (by omega)
  | succ k ih =>
    intro start child h
    rw [siftDownLoop]
    refine (silent_moveTo _ _).costBind fun _ => ?_
    dsimp only
    refine Cost.ite (fun _ => Cost.pure (by omega)) fun hc => ?_
    refine (heapTopChild_cost hu).bind fun r c hr => ?_
    refine (silent_read _).costBind fun _ => Cost.cmpBind hu fun b => ?_
    refine Cost.ite (fun _ => Cost.pure (by omega)) fun _ => (ih _ _ ?_).mono (by omega)
    have : 2 * (child + 1) * 2 ^ (k + 1) ≤ (r + 1) * 2 ^ (k + 1) := Nat.mul_le_mul_right _ (by omega)
    have e : (child + 1) * 2 ^ (k + 1 + 1) = 2 * (child + 1) * 2 ^ (k + 1) := by ring
    omega

theorem siftDown_cost {cmp : α → α → M α Bool} (hu : Unit1 N cmp) {first len start k : Nat} (h : len < 2 ^ (k + 1)) :
    Cost N (siftDown cmp first len start) (fun _ c => c ≤ 2 * k) := by
  unfold siftDown
  dsimp only
  refine Cost.ite (fun _ => Cost.pure (by omega)) fun hc => ?_
  refine (heapTopChild_cost hu).bind fun r c hr => ?_
  have hk : 1 ≤ k := by
    rcases k with _ | k
    · simp at h; omega
    · omega
  refine (silent_read _).costBind fun _ => (silent_read _).costBind fun _ => Cost.cmpBind hu fun b => ?_
  refine Cost.ite (fun _ => Cost.pure (by omega)) fun _ => ?_
  refine (silent_moveOut _).costBind fun _ => ?_
  refine (siftDownLoop_cost hu (by omega) (k - 1) _ _ ?_).bind fun _ c' h' => (silent_assign _ _).cost (by omega)
  rw [show k - 1 + 1 = k by omega]
  have : 2 * 2 ^ k ≤ (r + 1) * 2 ^ k := Nat.mul_le_mul_right _ (by omega)
  have e : 2 ^ (k + 1) = 2 * 2 ^ k := by ring
  omega

theorem floydLoop_cost {cmp : α → α → M α Bool} (hu : Unit1 N cmp) {first len : Nat} : ∀ (k hole child : Nat), len < (child + 1) * 2 ^ (k + 1) →
    Cost N (floydLoop cmp first len hole child) (fun _ c => c ≤ k) := by
  intro k
  induction k with
  | zero =>
    intro hole child h
    rw [floydLoop]
    refine (heapTopChild_cost hu).bind fun r c hr => ?_
    refine (silent_moveTo _ _).costBind fun _ => ?_
    dsimp only
    rw [if_pos (by omega)]
    exact Cost.pure (by omega)
  | succ k ih =>
    intro hole child h
    rw [floydLoop]
    refine (heapTopChild_cost hu).bind fun r c hr => ?_
    refine (silent_moveTo _ _).costBind fun _ => ?_
    dsimp only
    refine Cost.ite (fun _ => Cost.pure (by omega)) fun hc => (ih _ _ ?_).mono (by omega)
    have : 2 * (child + 1) * 2 ^ (k + 1) ≤ (r + 1) * 2 ^ (k + 1) := Nat.mul_le_mul_right _ (by omega)
    have e : (child + 1) * 2 ^ (k + 1 + 1) = 2 * (child + 1) * 2 ^ (k + 1) := by ring
    omega

theorem pushHeapLoop_cost {cmp : α → α → M α Bool} (hu : Unit1 N cmp) {first : Nat} {t : α} : ∀ (k last len : Nat), len + 1 < 2 ^ (k + 1) →
    Cost N (pushHeapLoop cmp first t last len) (fun _ c => c ≤ k) := by
  intro k
  induction k with
  | zero =>
    intro last len h
    rw [pushHeapLoop]
    refine (silent_moveTo _ _).costBind fun _ => ?_
    dsimp only
    rw [if_pos (by simp at h; omega)]
    exact Cost.pure (by omega)
  | succ k ih =>
    intro last len h
    rw [pushHeapLoop]
    refine (silent_moveTo _ _).costBind fun _ => ?_
    dsimp only
    refine Cost.ite (fun _ => Cost.pure (by omega)) fun hc => ?_
    refine (silent_read _).costBind fun _ => Cost.cmpBind hu fun b => ?_
    refine Cost.ite (fun _ => (ih _ _ ?_).mono (by omega)) fun _ => Cost.pure (by omega)
    have e : 2 ^ (k + 1 + 1) = 2 * 2 ^ (k + 1) := by ring
    omega

theorem pushHeap_cost {cmp : α → α → M α Bool} (hu : Unit1 N cmp) {first last len k : Nat} (h : len < 2 ^ (k + 1)) :
    Cost N (pushHeap cmp first last len) (fun _ c => c ≤ k) := by
  unfold pushHeap
  dsimp only
  refine Cost.ite (fun h1 => ?_) fun _ => Cost.pure (by omega)
  have hk : 1 ≤ k := by
    rcases k with _ | k
    · simp at h; omega
    · omega
  refine (silent_read _).costBind fun _ => (silent_read _).costBind fun _ => Cost.cmpBind hu fun b => ?_
  refine Cost.ite (fun _ => ?_) fun _ => Cost.pure (by omega)
  refine (silent_moveOut _).costBind fun _ => ?_
  refine (pushHeapLoop_cost hu (k - 1) _ _ ?_).bind fun _ c' h' => (silent_assign _ _).cost (by omega)
  rw [show k - 1 + 1 = k by omega]
  have e : 2 ^ (k + 1) = 2 * 2 ^ k := by ring
  omega

theorem floydLoop_result {cmp : α → α → M α Bool} (hu : Unit1 N cmp) {first len : Nat} (hl : 2 ≤ len) : ∀ (m hole child : Nat), len - child ≤ m →
    2 * child + 2 ≤ len →
    Cost N (floydLoop cmp first len hole child) (fun r _ => r < first + len) := by
  intro m
  induction m with
  | zero => intro hole child h1 h2; omega
  | succ m ih =>
    intro hole child h1 h2
    rw [floydLoop]
    have g : Cost N (heapTopChild cmp first len child) (fun r c => 2 * child + 1 ≤ r ∧ r < len) := by
      unfold heapTopChild
      refine Cost.ite (fun h => ?_) fun h => Cost.pure (by omega)
      refine (silent_read _).costBind fun _ => (silent_read _).costBind fun _ => Cost.cmpBind hu fun b => ?_
      exact Cost.ite (fun _ => Cost.pure (by omega)) fun _ => Cost.pure (by omega)
    refine g.bind fun r c hr => ?_
    refine (silent_moveTo _ _).costBind fun _ => ?_
    dsimp only
    refine Cost.ite (fun _ => Cost.pure (by omega)) fun hc => (ih _ _ (by omega) (by omega)).mono (by omega)

theorem Cost.and {β : Type} {m : M α β} {R R' : β → Nat → Prop} (h : Cost N m R) (h' : Cost N m R') :
    Cost N m (fun r c => R r c ∧ R' r c) := by
  intro s r s' hs hr
  obtain ⟨h1, c, h2, h3⟩ := h s r s' hs hr
  obtain ⟨-, c', h2', h3'⟩ := h' s r s' hs hr
  obtain rfl : c' = c := by omega
  exact ⟨h1, c', h2, h3, h3'⟩

theorem popHeap_cost {cmp : α → α → M α Bool} (hu : Unit1 N cmp) {first last len k : Nat} (h : len < 2 ^ (k + 1)) :
    Cost N (popHeap cmp first last len) (fun _ c => c ≤ 2 * k) := by
  unfold popHeap
  dsimp only
  refine Cost.ite (fun h1 => ?_) fun _ => Cost.pure (by omega)
  refine (silent_moveOut _).costBind fun _ => ?_
  unfold floydSiftDown
  refine ((floydLoop_cost hu k first 0 (by omega)).and
    (floydLoop_result hu (by omega) len first 0 (by omega) (by omega))).bind fun hole c hc => ?_
  refine Cost.ite (fun _ => (silent_assign _ _).cost (by omega)) fun _ => ?_
  refine (silent_moveTo _ _).costBind fun _ => (silent_assign _ _).costBind fun _ => ?_
  exact (pushHeap_cost hu (k := k) (by omega)).mono (by omega)

theorem makeHeapLoop_cost {first n k : Nat} (h : n < 2 ^ (k + 1)) : ∀ m,
    Cost N (makeHeapLoop (tick lt) first n m) (fun _ c => c ≤ m * (2 * k)) := by
  intro m
  induction m with
  | zero => exact Cost.pure (by omega)
  | succ m ih =>
    rw [makeHeapLoop]
    refine (siftDown_cost unit1_tick h).bind fun _ c hc => ih.mono fun _ c' hc' => ?_
    rw [Nat.succ_mul]
    omega

theorem sortHeap_cost {first k : Nat} : ∀ (n last : Nat), n < 2 ^ (k + 1) →
    Cost N (sortHeap (tick lt) first last n) (fun _ c => c ≤ n * (2 * k)) := by
  intro n
  induction n with
  | zero =>
    intro last h
    rw [sortHeap, if_neg (by omega)]
    exact Cost.pure (by omega)
  | succ n ih =>
    intro last h
    rw [sortHeap]
    refine Cost.ite (fun h1 => ?_) fun _ => Cost.pure (by omega)
    refine (popHeap_cost unit1_tick h).bind fun _ c hc => (ih _ (by omega)).mono fun _ c' hc' => ?_
    rw [Nat.succ_mul]
    omega

theorem heapsort_cost {first last k : Nat} (h : last - first < 2 ^ (k + 1)) :
    Cost N (heapsort (tick lt) first last) (fun _ c => c ≤ 3 * (last - first) * k) := by
  unfold heapsort makeHeap
  dsimp only
  generalize last - first = n at *
  have g : Cost N (if n > 1 then makeHeapLoop (tick lt) first n ((n - 2) / 2 + 1) else pure ())
      (fun _ c => c ≤ n / 2 * (2 * k)) := by
    refine Cost.ite (fun h1 => ?_) fun _ => Cost.pure (by omega)
    rw [show (n - 2) / 2 + 1 = n / 2 by omega]
    exact makeHeapLoop_cost h _
  refine g.bind fun _ c hc => (sortHeap_cost _ _ h).mono fun _ c' hc' => ?_
  have e1 : n / 2 * (2 * k) = (2 * (n / 2)) * k := by ring
  have e2 : 2 * (n / 2) * k ≤ n * k := Nat.mul_le_mul_right _ (by omega)
  have e3 : n * (2 * k) = 2 * (n * k) := by ring
  have e4 : 3 * n * k = 3 * (n * k) := by ring
  omega

end CppSort
