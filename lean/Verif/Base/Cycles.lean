import Mathlib.Data.Fintype.Pigeonhole
import Mathlib.Logic.Function.Iterate
set_option autoImplicit false

/-! Cycles of a permutation of `[0, n)` given as a function on natural numbers. -/

namespace CppSort

/-- `σ` permutes `[0, n)`. -/
structure PermBelow (n : Nat) (σ : Nat → Nat) : Prop where
  lt : ∀ i, i < n → σ i < n
  inj : ∀ i j, i < n → j < n → σ i = σ j → i = j

theorem PermBelow.iter_lt {n : Nat} {σ : Nat → Nat} (h : PermBelow n σ) {i : Nat} (hi : i < n) :
    ∀ t, σ^[t] i < n := by
  intro t
  induction t with
  | zero => exact hi
  | succ t ih => rw [Function.iterate_succ_apply']; exact h.lt _ ih

theorem PermBelow.iter_cancel {n : Nat} {σ : Nat → Nat} (h : PermBelow n σ) {i : Nat} (hi : i < n) :
    ∀ t d, σ^[t] i = σ^[t + d] i → i = σ^[d] i := by
  intro t
  induction t with
  | zero => intro d e; rwa [Nat.zero_add] at e
  | succ t ih =>
    intro d e
    rw [show t + 1 + d = (t + d) + 1 by omega, Function.iterate_succ_apply', Function.iterate_succ_apply'] at e
    exact ih d (h.inj _ _ (h.iter_lt hi t) (h.iter_lt hi _) e)

/-- The cycle of `i`: its length `L`, and its points are different. -/
theorem PermBelow.cycle {n : Nat} {σ : Nat → Nat} (h : PermBelow n σ) {i : Nat} (hi : i < n) :
    ∃ L, 0 < L ∧ σ^[L] i = i ∧ ∀ t t', t < L → t' < L → σ^[t] i = σ^[t'] i → t = t' := by
  have ex : ∃ L, 0 < L ∧ σ^[L] i = i := by
    have hc : Fintype.card (Fin n) < Fintype.card (Fin (n + 1)) := by simp
    obtain ⟨a, b, hab, e⟩ := Fintype.exists_ne_map_eq_of_card_lt
      (fun t : Fin (n + 1) => (⟨σ^[t.1] i, h.iter_lt hi t.1⟩ : Fin n)) hc
    have e : σ^[a.1] i = σ^[b.1] i := congrArg Fin.val e
    have hne : a.1 ≠ b.1 := fun e => hab (Fin.ext e)
    rcases Nat.lt_or_gt_of_ne hne with hl | hl
    · exact ⟨b.1 - a.1, by omega, (h.iter_cancel hi a.1 (b.1 - a.1) (by rw [e]; congr 1; omega)).symm⟩
    · exact ⟨a.1 - b.1, by omega, (h.iter_cancel hi b.1 (a.1 - b.1) (by rw [← e]; congr 1; omega)).symm⟩
  classical
  refine ⟨Nat.find ex, (Nat.find_spec ex).1, (Nat.find_spec ex).2, ?_⟩
  have key : ∀ t d, 0 < d → t + d < Nat.find ex → σ^[t] i ≠ σ^[t + d] i := by
    intro t d hd hl e
    exact Nat.find_min ex (m := d) (by omega) ⟨hd, (h.iter_cancel hi t d e).symm⟩
  intro t t' ht ht' e
  rcases Nat.lt_trichotomy t t' with hl | hl | hl
  · exact absurd (by rw [e]; congr 1; omega) (key t (t' - t) (by omega) (by omega))
  · exact hl
  · exact absurd (by rw [← e]; congr 1; omega) (key t' (t - t') (by omega) (by omega))

end CppSort
