import Verif.Base.Order
/-
Programs that leave the memory alone: they only compare values and compute.
-/
set_option autoImplicit false

namespace CppSort
variable {α β γ : Type} {lt : α → α → Bool}

/-- `m` returns normally from every state, only comparisons are counted, and the result satisfies
`R`. -/
def Runs (m : M α β) (R : β → Prop) : Prop :=
  ∀ s : St α, ∃ r k, m s = some (.ok r, { s with cmps := k }) ∧ R r

theorem Runs.wp {m : M α β} {R : β → Prop} (h : Runs m R) (s : St α) :
    wp m (fun r s' => (∃ k, s' = { s with cmps := k }) ∧ R r) s := by
  obtain ⟨r, k, h1, h2⟩ := h s
  exact ⟨r, _, h1, ⟨k, rfl⟩, h2⟩

theorem Runs.of_wp {m : M α β} {R : β → Prop}
    (h : ∀ s, CppSort.wp m (fun r s' => (∃ k, s' = { s with cmps := k }) ∧ R r) s) : Runs m R := by
  intro s
  obtain ⟨r, s', h1, ⟨k, rfl⟩, h2⟩ := h s
  exact ⟨r, k, h1, h2⟩

theorem Runs.pure {x : β} {R : β → Prop} (h : R x) : Runs (α := α) (pure x) R :=
  fun s => ⟨x, s.cmps, rfl, h⟩

theorem Runs.bind {m : M α β} {k : β → M α γ} {R : β → Prop} {R' : γ → Prop}
    (h : Runs m R) (hk : ∀ r, R r → Runs (k r) R') : Runs (m >>= k) R' := by
  refine Runs.of_wp fun s => ?_
  apply wp_bind
  refine wp_mono (h.wp s) ?_
  rintro r _ ⟨⟨c, rfl⟩, hr⟩
  refine wp_mono ((hk r hr).wp _) ?_
  rintro r2 _ ⟨⟨c2, rfl⟩, hr2⟩
  exact ⟨⟨c2, rfl⟩, hr2⟩

theorem Runs.mono {m : M α β} {R R' : β → Prop} (h : Runs m R) (hR : ∀ r, R r → R' r) :
    Runs m R' := fun s =>
  let ⟨r, k, h1, h2⟩ := h s
  ⟨r, k, h1, hR r h2⟩

theorem Runs.tick {x y : α} : Runs (tick lt x y) (fun r => r = lt x y) :=
  fun s => ⟨_, s.cmps + 1, rfl, rfl⟩

theorem Runs.ite {c : Prop} [Decidable c] {m m' : M α β} {R : β → Prop}
    (h : c → Runs m R) (h' : ¬ c → Runs m' R) : Runs (if c then m else m') R := by
  split
  · exact h ‹_›
  · exact h' ‹_›

/-- Bind with the test `lt x y`. -/
theorem Runs.tickBind {x y : α} {k : Bool → M α γ} {R' : γ → Prop} (hk : Runs (k (lt x y)) R') :
    Runs (CppSort.tick lt x y >>= k) R' :=
  Runs.tick.bind fun _ h => h ▸ hk

end CppSort
