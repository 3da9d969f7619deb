import Verif.Base.Cost
/-
Costs of functions defined as fixed points, and costs of runs known to end.
-/
set_option autoImplicit false

namespace CppSort
variable {α β : Type} {N : Nat}
open Lean.Order

/-- A property of costs may be proved by induction on the unfoldings of a recursive function. -/
theorem Cost.admissible {R : β → Nat → Prop} : admissible (fun m : M α β => Cost N m R) := by
  unfold Cost
  apply admissible_pi_apply (α := St α) (β := fun _ => Option (Except Err β × St α))
    (P := fun (s : St α) (x : Option (Except Err β × St α)) => ∀ r s', (∀ i, N ≤ s.grant i) →
      x = some (.ok r, s') → (∀ i, N ≤ s'.grant i) ∧ ∃ c, s'.cmps = s.cmps + c ∧ R r c)
  intro s
  apply admissible_pi
  intro r
  apply admissible_pi
  intro s'
  apply admissible_pi
  intro h
  exact Option.admissible_eq_some _ _

theorem Cost.admissible1 {γ : Type} {R : γ → β → Nat → Prop} :
    Lean.Order.admissible (fun f : γ → M α β => ∀ x, Cost N (f x) (R x)) :=
  admissible_pi_apply (fun x m => Cost N m (R x)) fun _ => Cost.admissible

theorem Cost.admissible2 {γ δ : Type} {R : γ → δ → β → Nat → Prop} :
    Lean.Order.admissible (fun f : γ → δ → M α β => ∀ x y, Cost N (f x y) (R x y)) :=
  admissible_pi_apply (fun x (f : δ → M α β) => ∀ y, Cost N (f y) (R x y)) fun _ => Cost.admissible1

theorem Cost.admissible3 {γ δ ε : Type} {R : γ → δ → ε → β → Nat → Prop} :
    Lean.Order.admissible (fun f : γ → δ → ε → M α β => ∀ x y z, Cost N (f x y z) (R x y z)) :=
  admissible_pi_apply (fun x (f : δ → ε → M α β) => ∀ y z, Cost N (f y z) (R x y z)) fun _ => Cost.admissible2

/-- A run that ends has its cost. -/
theorem wp.cost {m : M α β} {Q : β → St α → Prop} {s : St α} {R : β → Nat → Prop} (h : wp m Q s)
    (hc : Cost 0 m R) : wp m (fun r s' => Q r s' ∧ ∃ c, s'.cmps = s.cmps + c ∧ R r c) s := by
  obtain ⟨r, s', h1, h2⟩ := h
  exact ⟨r, s', h1, h2, (hc s r s' (fun _ => Nat.zero_le _) h1).2⟩

end CppSort
