import Verif.Base.Wp
/-
Partial correctness for the number of comparisons: nothing is said about runs that fail or do not end.
-/
set_option autoImplicit false

namespace CppSort
variable {α β γ : Type} {lt : α → α → Bool}

/-- If the no-throw allocator always grants `N` elements, and `m` returns `r` after `c` comparisons, then
`R r c`. -/
def Cost (N : Nat) (m : M α β) (R : β → Nat → Prop) : Prop :=
  ∀ s r s', (∀ i, N ≤ s.grant i) → m s = some (.ok r, s') →
    (∀ i, N ≤ s'.grant i) ∧ ∃ c, s'.cmps = s.cmps + c ∧ R r c

variable {N : Nat}

theorem Cost.mono {m : M α β} {R R' : β → Nat → Prop} (h : Cost N m R) (hR : ∀ r c, R r c → R' r c) :
    Cost N m R' := fun s r s' hs hr =>
  let ⟨h1, c, h2, h3⟩ := h s r s' hs hr
  ⟨h1, c, h2, hR r c h3⟩

theorem Cost.pure {x : β} {R : β → Nat → Prop} (h : R x 0) : Cost N (pure x : M α β) R := by
  intro s r s' hs hr
  have : (some (.ok x, s) : Option (Except Err β × St α)) = some (.ok r, s') := hr
  simp only [Option.some.injEq, Prod.mk.injEq, Except.ok.injEq] at this
  obtain ⟨rfl, rfl⟩ := this
  exact ⟨hs, 0, rfl, h⟩

theorem bind_inv {m : M α β} {k : β → M α γ} {s s' : St α} {r : γ} (h : (m >>= k) s = some (.ok r, s')) :
    ∃ x s1, m s = some (.ok x, s1) ∧ k x s1 = some (.ok r, s') := by
  have h' : ExceptT.bind m k s = some (.ok r, s') := h
  simp only [ExceptT.bind, ExceptT.mk, bind, StateT.bind, Option.bind] at h'
  cases hm : (m : StateT (St α) Option (Except Err β)) s with
  | none => rw [hm] at h'; cases h'
  | some p =>
    obtain ⟨x, s1⟩ := p
    rw [hm] at h'
    cases x with
    | ok x => exact ⟨x, s1, rfl, h'⟩
    | error e => cases h'

theorem Cost.bind {m : M α β} {k : β → M α γ} {R : β → Nat → Prop} {R' : γ → Nat → Prop} (h : Cost N m R)
    (hk : ∀ r c, R r c → Cost N (k r) (fun r' c' => R' r' (c + c'))) : Cost N (m >>= k) R' := by
  intro s r s' hs hr
  obtain ⟨x, s1, h1, h2⟩ := bind_inv hr
  obtain ⟨g1, c1, e1, r1⟩ := h s x s1 hs h1
  obtain ⟨g2, c2, e2, r2⟩ := hk x c1 r1 s1 r s' g1 h2
  exact ⟨g2, c1 + c2, by omega, r2⟩

theorem Cost.ite {c : Prop} [Decidable c] {m m' : M α β} {R : β → Nat → Prop}
    (h : c → Cost N m R) (h' : ¬ c → Cost N m' R) : Cost N (if c then m else m') R := by
  split
  · exact h ‹_›
  · exact h' ‹_›

theorem Cost.tick {x y : α} {R : Bool → Nat → Prop} (h : R (lt x y) 1) : Cost N (tick lt x y) R := by
  intro s r s' hs hr
  unfold CppSort.tick at hr
  simp only [Option.some.injEq, Prod.mk.injEq, Except.ok.injEq] at hr
  obtain ⟨rfl, rfl⟩ := hr
  exact ⟨hs, 1, rfl, h⟩

/-- An action that makes no comparison. -/
def Silent (m : M α β) : Prop := ∀ s r s', m s = some (.ok r, s') → s'.cmps = s.cmps ∧ s'.grant = s.grant

theorem Silent.cost {m : M α β} (h : Silent m) {R : β → Nat → Prop} (hR : ∀ r, R r 0) : Cost N m R := by
  intro s r s' hs hr
  obtain ⟨h1, h2⟩ := h s r s' hr
  exact ⟨by rw [h2]; exact hs, 0, h1, hR r⟩

theorem Silent.pure {x : β} : Silent (pure x : M α β) := by
  intro s r s' hr
  have : (some (.ok x, s) : Option (Except Err β × St α)) = some (.ok r, s') := hr
  simp only [Option.some.injEq, Prod.mk.injEq, Except.ok.injEq] at this
  obtain ⟨rfl, rfl⟩ := this
  exact ⟨rfl, rfl⟩

theorem Silent.bind {m : M α β} {k : β → M α γ} (h : Silent m) (hk : ∀ r, Silent (k r)) : Silent (m >>= k) := by
  intro s r s' hr
  obtain ⟨x, s1, h1, h2⟩ := bind_inv hr
  obtain ⟨a1, a2⟩ := h s x s1 h1
  obtain ⟨b1, b2⟩ := hk x s1 r s' h2
  exact ⟨b1.trans a1, b2.trans a2⟩

theorem Silent.ite {c : Prop} [Decidable c] {m m' : M α β} (h : Silent m) (h' : Silent m') :
    Silent (if c then m else m') := by
  split <;> assumption

theorem silent_read (i : Nat) : Silent (read i : M α α) := by
  intro s r s' hr
  unfold read at hr
  split at hr <;> simp only [Option.some.injEq, Prod.mk.injEq, reduceCtorEq, false_and, and_false] at hr
  obtain ⟨-, rfl⟩ := hr
  exact ⟨rfl, rfl⟩

theorem silent_moveOut (i : Nat) : Silent (moveOut i : M α α) := by
  intro s r s' hr
  unfold moveOut at hr
  split at hr <;> simp only [Option.some.injEq, Prod.mk.injEq, reduceCtorEq, false_and, and_false] at hr
  obtain ⟨-, rfl⟩ := hr
  exact ⟨rfl, rfl⟩

theorem silent_assign (i : Nat) (x : α) : Silent (assign i x) := by
  intro s r s' hr
  unfold assign at hr
  split at hr <;> simp only [Option.some.injEq, Prod.mk.injEq, reduceCtorEq, false_and, and_false] at hr
  all_goals
    obtain ⟨-, rfl⟩ := hr
    exact ⟨rfl, rfl⟩

theorem silent_moveTo (i j : Nat) : Silent (moveTo i j : M α Unit) := by
  intro s r s' hr
  unfold moveTo at hr
  repeat' split at hr
  all_goals simp only [Option.some.injEq, Prod.mk.injEq, reduceCtorEq, false_and, and_false] at hr
  all_goals
    obtain ⟨-, rfl⟩ := hr
    exact ⟨rfl, rfl⟩

theorem silent_swap (i j : Nat) : Silent (swap i j : M α Unit) := by
  intro s r s' hr
  unfold swap at hr
  repeat' split at hr
  all_goals simp only [Option.some.injEq, Prod.mk.injEq, reduceCtorEq, false_and, and_false] at hr
  all_goals
    obtain ⟨-, rfl⟩ := hr
    exact ⟨rfl, rfl⟩

theorem silent_constructFrom (i j : Nat) : Silent (constructFrom i j : M α Unit) := by
  intro s r s' hr
  unfold constructFrom at hr
  repeat' split at hr
  all_goals simp only [Option.some.injEq, Prod.mk.injEq, reduceCtorEq, false_and, and_false] at hr
  all_goals
    obtain ⟨-, rfl⟩ := hr
    exact ⟨rfl, rfl⟩

theorem silent_construct (i : Nat) (x : α) : Silent (construct i x) := by
  intro s r s' hr
  unfold construct at hr
  repeat' split at hr
  all_goals simp only [Option.some.injEq, Prod.mk.injEq, reduceCtorEq, false_and, and_false] at hr
  all_goals
    obtain ⟨-, rfl⟩ := hr
    exact ⟨rfl, rfl⟩

theorem silent_destroy (i : Nat) : Silent (destroy i : M α Unit) := by
  intro s r s' hr
  unfold destroy at hr
  repeat' split at hr
  all_goals simp only [Option.some.injEq, Prod.mk.injEq, reduceCtorEq, false_and, and_false] at hr
  all_goals
    obtain ⟨-, rfl⟩ := hr
    exact ⟨rfl, rfl⟩

theorem silent_alloc (n : Nat) : Silent (alloc n : M α Nat) := by
  intro s r s' hr
  unfold alloc at hr
  simp only [Option.some.injEq, Prod.mk.injEq] at hr
  obtain ⟨-, rfl⟩ := hr
  exact ⟨rfl, rfl⟩

theorem silent_free (p n : Nat) : Silent (free p n : M α Unit) := by
  intro s r s' hr
  unfold free at hr
  repeat' split at hr
  all_goals simp only [Option.some.injEq, Prod.mk.injEq, reduceCtorEq, false_and, and_false] at hr
  all_goals
    obtain ⟨-, rfl⟩ := hr
    exact ⟨rfl, rfl⟩

theorem Cost.askGrant {R : Nat → Nat → Prop} (h : ∀ g, N ≤ g → R g 0) : Cost (α := α) N askGrant R := by
  intro s r s' hs hr
  unfold CppSort.askGrant at hr
  simp only [Option.some.injEq, Prod.mk.injEq, Except.ok.injEq] at hr
  obtain ⟨rfl, rfl⟩ := hr
  exact ⟨fun i => hs (i + 1), 0, rfl, h _ (hs 0)⟩

/-- A comparison followed by something. -/
theorem Cost.tickBind {x y : α} {k : Bool → M α γ} {R : γ → Nat → Prop}
    (h : ∀ b, Cost N (k b) (fun r c => R r (1 + c))) : Cost N (CppSort.tick lt x y >>= k) R :=
  (Cost.tick (R := fun _ c => c = 1) rfl).bind fun r c e => by subst e; exact h r

/-- An action without comparisons followed by something. -/
theorem Silent.costBind {m : M α β} {k : β → M α γ} {R : γ → Nat → Prop} (hm : Silent m)
    (h : ∀ r, Cost N (k r) R) : Cost N (m >>= k) R :=
  (hm.cost (R := fun _ c => c = 0) fun _ => rfl).bind fun r c e => by
    subst e
    simpa only [Nat.zero_add] using h r

end CppSort
