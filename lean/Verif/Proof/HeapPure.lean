import Verif.Base.Order
/- Heaps for an arbitrary parent function. -/
set_option autoImplicit false

namespace CppSort
variable {α : Type} {lt : α → α → Bool} {par : Nat → Nat}

/-- Every node whose parent has index at least `k` is not greater than its parent. -/
def HeapFrom (lt : α → α → Bool) (par : Nat → Nat) (first k len : Nat) (v : Nat → α) : Prop :=
  ∀ i, 0 < i → i < len → k ≤ par i → lt (v (first + par i)) (v (first + i)) = false

/-- Heap except between `p` and its children. -/
def HoleDown (lt : α → α → Bool) (par : Nat → Nat) (first k len p : Nat) (v : Nat → α) : Prop :=
  (∀ i, 0 < i → i < len → k ≤ par i → par i ≠ p → lt (v (first + par i)) (v (first + i)) = false) ∧
  (0 < p → k ≤ par p → ∀ j, 0 < j → j < len → par j = p →
    lt (v (first + par p)) (v (first + j)) = false)

/-- Heap except between `p` and its parent. -/
def HoleUp (lt : α → α → Bool) (par : Nat → Nat) (first len p : Nat) (v : Nat → α) : Prop :=
  (∀ i, 0 < i → i < len → i ≠ p → lt (v (first + par i)) (v (first + i)) = false) ∧
  (0 < p → ∀ j, 0 < j → j < len → par j = p → lt (v (first + par p)) (v (first + j)) = false)

theorem HoleDown.step (hp : ∀ i, 0 < i → par i < i) (hlt : StrictWeak lt)
    {first k len p c : Nat} {v : Nat → α} (h : HoleDown lt par first k len p v) (hk : k ≤ p)
    (hc0 : 0 < c) (hc : c < len) (hcp : par c = p)
    (hmax : ∀ j, 0 < j → j < len → par j = p → lt (v (first + c)) (v (first + j)) = false)
    (hge : lt (v (first + c)) (v (first + p)) = false) :
    HoleDown lt par first k len c (swp v (first + p) (first + c)) := by
  have hpc : p < c := hcp ▸ hp c hc0
  constructor
  · intro i i0 il ik ic
    have hpi := hp i i0
    by_cases h1 : par i = p
    · rw [swp_l (k := first + par i) (by omega)]
      by_cases h2 : i = c
      · subst h2; rw [swp_r rfl]; exact hge
      · rw [swp_o (by omega) (by omega)]
        exact hmax i i0 il h1
    · rw [swp_o (k := first + par i) (by omega) (by omega)]
      by_cases h2 : i = p
      · subst h2
        rw [swp_l rfl]
        exact h.2 i0 ik c hc0 hc hcp
      · rw [swp_o (by omega) (by intro e; apply h1; rw [← hcp]; congr 1; omega)]
        exact h.1 i i0 il ik h1
  · intro _ ck j j0 jl jc
    have hcj : c < j := jc ▸ hp j j0
    rw [swp_l (by omega), swp_o (by omega) (by omega), ← jc]
    exact h.1 j j0 jl (by omega) (by omega)

theorem HoleDown.done {first k len p : Nat} {v : Nat → α} (h : HoleDown lt par first k len p v)
    (hc : ∀ j, 0 < j → j < len → par j = p → lt (v (first + p)) (v (first + j)) = false) :
    HeapFrom lt par first k len v := by
  intro i i0 il ik
  by_cases h1 : par i = p
  · rw [h1]; exact hc i i0 il h1
  · exact h.1 i i0 il ik h1

theorem HeapFrom.holeDown {first k len : Nat} {v : Nat → α} (hp : ∀ i, 0 < i → par i < i)
    (h : HeapFrom lt par first (k + 1) len v) : HoleDown lt par first k len k v := by
  refine ⟨fun i i0 il ik ne => h i i0 il (by omega), fun k0 kk j j0 jl jk => ?_⟩
  have := hp k k0
  omega

/-- Heap except around `p`. -/
def HoleBoth (lt : α → α → Bool) (par : Nat → Nat) (first len p : Nat) (v : Nat → α) : Prop :=
  (∀ i, 0 < i → i < len → i ≠ p → par i ≠ p → lt (v (first + par i)) (v (first + i)) = false) ∧
  (0 < p → ∀ j, 0 < j → j < len → par j = p → lt (v (first + par p)) (v (first + j)) = false)

theorem HoleBoth.step (hp : ∀ i, 0 < i → par i < i) {first len p c : Nat} {v : Nat → α}
    (h : HoleBoth lt par first len p v)
    (hc0 : 0 < c) (hc : c < len) (hcp : par c = p)
    (hmax : ∀ j, 0 < j → j < len → par j = p → lt (v (first + c)) (v (first + j)) = false) :
    HoleBoth lt par first len c (swp v (first + p) (first + c)) := by
  have hpc : p < c := hcp ▸ hp c hc0
  constructor
  · intro i i0 il ic ipc
    have hpi := hp i i0
    by_cases h1 : par i = p
    · rw [swp_l (k := first + par i) (by omega), swp_o (by omega) (by omega)]
      exact hmax i i0 il h1
    · rw [swp_o (k := first + par i) (by omega) (by omega)]
      by_cases h2 : i = p
      · subst h2
        rw [swp_l rfl]
        exact h.2 i0 c hc0 hc hcp
      · rw [swp_o (by omega) (by omega)]
        exact h.1 i i0 il h2 h1
  · intro _ j j0 jl jc
    have hcj : c < j := jc ▸ hp j j0
    rw [swp_l (by omega), swp_o (by omega) (by omega), ← jc]
    exact h.1 j j0 jl (by omega) (by omega)

theorem HoleUp.step (hp : ∀ i, 0 < i → par i < i) (hlt : StrictWeak lt)
    {first len p : Nat} {v : Nat → α} (h : HoleUp lt par first len p v) (hp0 : 0 < p)
    (hpl : p < len)
    (hgt : lt (v (first + par p)) (v (first + p)) = true) :
    HoleUp lt par first len (par p) (swp v (first + p) (first + par p)) := by
  have hpp := hp p hp0
  constructor
  · intro i i0 il ic
    have hpi := hp i i0
    by_cases h1 : i = p
    · subst h1
      rw [swp_l (k := first + i) rfl, swp_r rfl]
      exact hlt.asymm hgt
    · rw [swp_o (k := first + i) (by omega) (by omega)]
      by_cases h2 : par i = p
      · rw [swp_l (by omega)]
        exact h.2 hp0 i i0 il h2
      · by_cases h3 : par i = par p
        · rw [swp_r (by omega)]
          have := h.1 i i0 il h1
          rw [h3] at this
          exact hlt.le_trans this (hlt.asymm hgt)
        · rw [swp_o (by omega) (by omega)]
          exact h.1 i i0 il h1
  · intro q0 j j0 jl jc
    have hq := hp _ q0
    have h0 : lt (v (first + par (par p))) (v (first + par p)) = false :=
      h.1 (par p) q0 (by omega) (by omega)
    rw [swp_o (k := first + par (par p)) (by omega) (by omega)]
    by_cases h1 : j = p
    · subst h1
      rw [swp_l rfl]; exact h0
    · have hj := hp j j0
      rw [swp_o (by omega) (by omega)]
      have := h.1 j j0 jl h1
      rw [jc] at this
      exact hlt.le_trans this h0

theorem HoleUp.done {first len p : Nat} {v : Nat → α} (h : HoleUp lt par first len p v)
    (hc : 0 < p → p < len → lt (v (first + par p)) (v (first + p)) = false) :
    HeapFrom lt par first 0 len v := by
  intro i i0 il ik
  by_cases h1 : i = p
  · subst h1; exact hc i0 il
  · exact h.1 i i0 il h1

theorem HeapFrom.top (hp : ∀ i, 0 < i → par i < i) (hlt : StrictWeak lt)
    {first len : Nat} {v : Nat → α} (h : HeapFrom lt par first 0 len v) :
    ∀ i, i < len → lt (v first) (v (first + i)) = false := by
  intro i
  induction i using Nat.strong_induction_on with
  | _ i ih =>
    intro hi
    by_cases h0 : i = 0
    · subst h0; exact hlt.irrefl _
    · have := hp i (by omega)
      exact hlt.le_trans (h i (by omega) hi (by omega)) (ih _ this (by omega))

/-- A heap does not depend on what lies behind it. -/
theorem HeapFrom.congr {first k len : Nat} {v w : Nat → α} (hp : ∀ i, 0 < i → par i < i)
    (h : HeapFrom lt par first k len v)
    (e : ∀ i, first ≤ i → i < first + len → v i = w i) : HeapFrom lt par first k len w := by
  intro i i0 il ik
  have := hp i i0
  rw [← e _ (by omega) (by omega), ← e _ (by omega) (by omega)]
  exact h i i0 il ik

theorem HeapFrom.sub {first k k' len len' : Nat} {v : Nat → α}
    (h : HeapFrom lt par first k len v) (hl : len' ≤ len) (hk : k ≤ k') :
    HeapFrom lt par first k' len' v :=
  fun i i0 il ik => h i i0 (by omega) (by omega)

end CppSort
