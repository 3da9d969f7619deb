import Verif.Base.Cycles
import Verif.Base.Wp
import Mathlib.Data.Finset.Card
import Mathlib.Data.Finset.Image
set_option autoImplicit false

/-! Moving the elements of an array along the cycles of a permutation, one cycle after the other. -/

namespace CppSort
variable {α : Type}

/-- The first `t` points of the orbit of `i`. -/
def orbit (σ : Nat → Nat) (i t : Nat) : Finset Nat := (Finset.range t).image (fun k => σ^[k] i)

theorem mem_orbit {σ : Nat → Nat} {i t j : Nat} : j ∈ orbit σ i t ↔ ∃ k, k < t ∧ σ^[k] i = j := by
  simp [orbit]

/-- `L` is the length of the cycle of `i`. -/
structure CycleLen (n : Nat) (σ : Nat → Nat) (i L : Nat) : Prop where
  perm : PermBelow n σ
  lt : i < n
  pos : 0 < L
  back : σ^[L] i = i
  inj : ∀ t t', t < L → t' < L → σ^[t] i = σ^[t'] i → t = t'

theorem PermBelow.cycleLen {n : Nat} {σ : Nat → Nat} (h : PermBelow n σ) {i : Nat} (hi : i < n) :
    ∃ L, CycleLen n σ i L :=
  let ⟨L, h1, h2, h3⟩ := h.cycle hi
  ⟨L, h, hi, h1, h2, h3⟩

theorem CycleLen.ne_start {n : Nat} {σ : Nat → Nat} {i L t : Nat} (h : CycleLen n σ i L) (ht : 0 < t)
    (hL : t < L) : σ^[t] i ≠ i := fun e => by
  have := h.inj t 0 hL (by omega) e
  omega

theorem CycleLen.next {n : Nat} {σ : Nat → Nat} {i L t : Nat} (h : CycleLen n σ i L) (hL : t < L) :
    σ (σ^[t] i) ≠ i ↔ t + 1 < L := by
  rw [← Function.iterate_succ_apply' σ]
  constructor
  · intro e
    by_contra hc
    have : t + 1 = L := by omega
    subst this; exact e h.back
  · intro e
    exact h.ne_start (by omega) e

/-- A set of positions made of whole cycles. -/
structure Whole (n : Nat) (σ : Nat → Nat) (D : Finset Nat) : Prop where
  sub : ∀ j, j ∈ D → j < n
  iff : ∀ j, j < n → (j ∈ D ↔ σ j ∈ D)

theorem Whole.empty (n : Nat) (σ : Nat → Nat) : Whole n σ ∅ :=
  ⟨fun _ h => by simp at h, fun _ _ => by simp⟩

theorem Whole.outside {n : Nat} {σ : Nat → Nat} {D : Finset Nat} (h : Whole n σ D) (hp : PermBelow n σ)
    {i : Nat} (hi : i < n) (hd : i ∉ D) : ∀ t, σ^[t] i ∉ D := by
  intro t
  induction t with
  | zero => exact hd
  | succ t ih =>
    rw [Function.iterate_succ_apply', ← h.iff _ (hp.iter_lt hi t)]
    exact ih

theorem Whole.add {n : Nat} {σ : Nat → Nat} {D : Finset Nat} (h : Whole n σ D) {i L : Nat}
    (hc : CycleLen n σ i L) : Whole n σ (D ∪ orbit σ i L) := by
  refine ⟨fun j hj => ?_, fun j hj => ?_⟩
  · rcases Finset.mem_union.1 hj with hj | hj
    · exact h.sub j hj
    · obtain ⟨k, -, rfl⟩ := mem_orbit.1 hj
      exact hc.perm.iter_lt hc.lt k
  · rw [Finset.mem_union, Finset.mem_union, h.iff j hj]
    refine or_congr Iff.rfl ?_
    rw [mem_orbit, mem_orbit]
    constructor
    · rintro ⟨k, hk, rfl⟩
      by_cases e : k + 1 = L
      · refine ⟨0, hc.pos, ?_⟩
        subst e; rw [← Function.iterate_succ_apply' σ]; exact hc.back.symm
      · exact ⟨k + 1, by omega, Function.iterate_succ_apply' σ k i⟩
    · rintro ⟨k, hk, e⟩
      cases k with
      | zero =>
        refine ⟨L - 1, by have := hc.pos; omega, ?_⟩
        apply hc.perm.inj _ _ (hc.perm.iter_lt hc.lt _) hj
        rw [← Function.iterate_succ_apply' σ, show (L - 1).succ = L by have := hc.pos; omega, hc.back]
        exact e
      | succ k =>
        refine ⟨k, by omega, ?_⟩
        rw [Function.iterate_succ_apply'] at e
        exact hc.perm.inj _ _ (hc.perm.iter_lt hc.lt _) hj e

theorem Whole.card_add {n : Nat} {σ : Nat → Nat} {D : Finset Nat} (h : Whole n σ D) {i L : Nat}
    (hc : CycleLen n σ i L) (hd : i ∉ D) : (D ∪ orbit σ i L).card = D.card + L := by
  rw [Finset.card_union_of_disjoint, orbit, Finset.card_image_of_injOn, Finset.card_range]
  · intro a ha b hb e
    exact hc.inj a b (by simpa using ha) (by simpa using hb) e
  · rw [Finset.disjoint_left]
    intro a ha hb
    obtain ⟨k, -, rfl⟩ := mem_orbit.1 hb
    exact h.outside hc.perm hc.lt hd k ha

theorem Whole.card_le {n : Nat} {σ : Nat → Nat} {D : Finset Nat} (h : Whole n σ D) : D.card ≤ n := by
  have : D ⊆ Finset.range n := fun j hj => Finset.mem_range.2 (h.sub j hj)
  simpa using Finset.card_le_card this

/-- The positions of `D` have received their final element, the others have their first one. -/
def Turned (f n : Nat) (σ : Nat → Nat) (D : Finset Nat) (v w : Nat → α) : Prop :=
  ∀ j, j < n → w (f + j) = if j ∈ D then v (f + σ j) else v (f + j)

theorem Turned.start (f n : Nat) (σ : Nat → Nat) (v : Nat → α) : Turned f n σ ∅ v v :=
  fun j _ => by simp

/-- The same in the middle of the cycle of `i`: the next position to fill, `h = σ^[t] i`, stands for the
element taken out first. -/
def TurnedX (f n : Nat) (σ : Nat → Nat) (D : Finset Nat) (i t : Nat) (v w : Nat → α) : Prop :=
  ∀ j, j < n → w (f + j) = if j ∈ D ∪ orbit σ i t then v (f + σ j) else if j = σ^[t] i then v (f + i)
    else v (f + j)

theorem TurnedX.start {f n : Nat} {σ : Nat → Nat} {D : Finset Nat} {v w : Nat → α} (h : Turned f n σ D v w)
    (i : Nat) : TurnedX f n σ D i 0 v w := by
  intro j hj
  rw [h j hj]
  have : orbit σ i 0 = ∅ := by simp [orbit]
  rw [this, Finset.union_empty]
  by_cases h1 : j ∈ D
  · rw [if_pos h1, if_pos h1]
  · rw [if_neg h1, if_neg h1]
    by_cases h2 : j = σ^[0] i
    · rw [if_pos h2, h2]; rfl
    · rw [if_neg h2]

theorem not_mem_step {n : Nat} {σ : Nat → Nat} {D : Finset Nat} (hw : Whole n σ D) {i L t t' : Nat}
    (hc : CycleLen n σ i L) (hd : i ∉ D) (ht : t < L) (ht' : t' ≤ t) : σ^[t] i ∉ D ∪ orbit σ i t' := by
  rw [Finset.mem_union, not_or]
  refine ⟨hw.outside hc.perm hc.lt hd t, fun h => ?_⟩
  obtain ⟨k, hk, e⟩ := mem_orbit.1 h
  have := hc.inj k t (by omega) ht e
  omega

theorem TurnedX.step {f n : Nat} {σ : Nat → Nat} {D : Finset Nat} {i L t : Nat} {v w : Nat → α}
    (h : TurnedX f n σ D i t v w) (hw : Whole n σ D) (hc : CycleLen n σ i L) (hd : i ∉ D) (ht : t + 1 < L) :
    TurnedX f n σ D i (t + 1) v (swp w (f + σ^[t] i) (f + σ (σ^[t] i))) := by
  intro j hj
  have l1 := hc.perm.iter_lt hc.lt t
  have l2 := hc.perm.iter_lt hc.lt (t + 1)
  have es : σ (σ^[t] i) = σ^[t + 1] i := (Function.iterate_succ_apply' σ t i).symm
  have hne : σ^[t] i ≠ σ^[t + 1] i := fun e => by have := hc.inj t (t + 1) (by omega) ht e; omega
  rw [es]
  have mo : ∀ j, j ∈ D ∪ orbit σ i (t + 1) ↔ (j ∈ D ∪ orbit σ i t ∨ j = σ^[t] i) := by
    intro j
    rw [Finset.mem_union, Finset.mem_union, mem_orbit, mem_orbit]
    constructor
    · rintro (h | ⟨k, hk, rfl⟩)
      · exact .inl (.inl h)
      · by_cases e : k = t
        · right; rw [e]
        · exact .inl (.inr ⟨k, by omega, rfl⟩)
    · rintro ((h | ⟨k, hk, rfl⟩) | rfl)
      · exact .inl h
      · exact .inr ⟨k, by omega, rfl⟩
      · exact .inr ⟨t, by omega, rfl⟩
  by_cases e1 : j = σ^[t] i
  · rw [swp_l (by omega), if_pos ((mo j).2 (.inr e1)), h _ l2,
      if_neg (not_mem_step hw hc hd ht (by omega)), if_neg (fun e => hne e.symm), e1, es]
  · by_cases e2 : j = σ^[t + 1] i
    · rw [swp_r (by omega), h _ l1, if_neg (not_mem_step hw hc hd (by omega) (le_refl t)), if_pos rfl,
        if_neg, if_pos e2]
      rw [mo, not_or, e2]
      exact ⟨not_mem_step hw hc hd ht (by omega), fun e => hne e.symm⟩
    · rw [swp_o (by omega) (by omega), h j hj, if_neg e1, if_neg e2]
      by_cases e3 : j ∈ D ∪ orbit σ i t
      · rw [if_pos e3, if_pos ((mo j).2 (.inl e3))]
      · rw [if_neg e3, if_neg]
        rw [mo, not_or]; exact ⟨e3, e1⟩

theorem TurnedX.finish {f n : Nat} {σ : Nat → Nat} {D : Finset Nat} {i L t : Nat} {v w : Nat → α}
    (h : TurnedX f n σ D i t v w) (hw : Whole n σ D) (hc : CycleLen n σ i L) (hd : i ∉ D)
    (ht : t + 1 = L) : Turned f n σ (D ∪ orbit σ i L) v w := by
  intro j hj
  rw [h j hj]
  have eb := hc.back
  rw [← ht, Function.iterate_succ_apply'] at eb
  by_cases e3 : j ∈ D ∪ orbit σ i t
  · rw [if_pos e3, if_pos]
    rw [Finset.mem_union, mem_orbit] at e3 ⊢
    rcases e3 with e3 | ⟨k, hk, e⟩
    · exact .inl e3
    · exact .inr ⟨k, by omega, e⟩
  · rw [if_neg e3]
    by_cases e1 : j = σ^[t] i
    · rw [if_pos e1, if_pos, e1, eb]
      rw [Finset.mem_union, mem_orbit]
      exact .inr ⟨t, by omega, e1.symm⟩
    · rw [if_neg e1, if_neg]
      intro e
      rw [Finset.mem_union, mem_orbit] at e e3
      rcases e with e | ⟨k, hk, e⟩
      · exact e3 (.inl e)
      · by_cases ek : k = t
        · subst ek; exact e1 e.symm
        · exact e3 (.inr ⟨k, by omega, e⟩)

theorem TurnedX.hole {f n : Nat} {σ : Nat → Nat} {D : Finset Nat} {i L t : Nat} {v w : Nat → α}
    (h : TurnedX f n σ D i t v w) (hw : Whole n σ D) (hc : CycleLen n σ i L) (hd : i ∉ D)
    (ht : t < L) : w (f + σ^[t] i) = v (f + i) := by
  rw [h _ (hc.perm.iter_lt hc.lt t), if_neg (not_mem_step hw hc hd ht (le_refl t)), if_pos rfl]

/-- A cycle of one point changes nothing. -/
theorem Turned.fixed {f n : Nat} {σ : Nat → Nat} {D : Finset Nat} {i : Nat} {v w : Nat → α}
    (h : Turned f n σ D v w) (e : σ i = i) : Turned f n σ (D ∪ orbit σ i 1) v w := by
  intro j hj
  rw [h j hj]
  have : orbit σ i 1 = {i} := by simp [orbit]
  rw [this]
  by_cases h1 : j ∈ D
  · rw [if_pos h1, if_pos (Finset.mem_union_left _ h1)]
  · rw [if_neg h1]
    by_cases h2 : j = i
    · rw [if_pos (by simp [h2]), h2, e]
    · rw [if_neg (by simp [h1, h2])]

theorem Turned.done {f n : Nat} {σ : Nat → Nat} {D : Finset Nat} {v w : Nat → α}
    (h : Turned f n σ D v w) (hD : ∀ j, j < n → j ∈ D) (j : Nat) (hj : j < n) : w (f + j) = v (f + σ j) := by
  rw [h j hj, if_pos (hD j hj)]

end CppSort
