import Verif.Base.Monad
/-
Heap memory: programs that allocate none, programs that allocate no more than some number of elements.
-/
set_option autoImplicit false

namespace CppSort
variable {α β γ : Type}

/-- However `m` ends, it has not allocated memory: the end of the allocated memory is where it was. -/
class NoAlloc (m : M α β) : Prop where
  brk : ∀ s r s', m s = some (r, s') → s'.brk = s.brk

/-- However `m` ends, it has allocated memory for `k` elements at most. -/
def AllocsLe (k : Nat) (m : M α β) : Prop :=
  ∀ s r s', m s = some (r, s') → s'.brk ≤ s.brk + k

theorem bind_cases {m : M α β} {g : β → M α γ} {s s' : St α} {r : Except Err γ} (h : (m >>= g) s = some (r, s')) :
    (∃ x s1, m s = some (.ok x, s1) ∧ g x s1 = some (r, s')) ∨ ∃ e, m s = some (.error e, s') ∧ r = .error e := by
  have h' : ExceptT.bind m g s = some (r, s') := h
  simp only [ExceptT.bind, ExceptT.mk, bind, StateT.bind, Option.bind] at h'
  cases hm : (m : StateT (St α) Option (Except Err β)) s with
  | none => rw [hm] at h'; cases h'
  | some p =>
    obtain ⟨x, s1⟩ := p
    rw [hm] at h'
    cases x with
    | ok x => exact .inl ⟨x, s1, rfl, h'⟩
    | error e =>
      have h2 : (some (.error e, s1) : Option (Except Err γ × St α)) = some (r, s') := h'
      cases h2
      exact .inr ⟨e, rfl, rfl⟩

theorem NoAlloc.of_step {m : M α β} (h : ∀ s, (m s).elim True fun p => p.2.brk = s.brk) : NoAlloc m where
  brk s r s' hr := by
    have := h s
    rw [hr] at this
    exact this

namespace NoAlloc

instance pure {x : β} : NoAlloc (pure x : M α β) := .of_step fun _ => rfl

instance fail {e : Err} : NoAlloc (CppSort.fail e : M α β) := .of_step fun _ => rfl

instance bind {m : M α β} {g : β → M α γ} [hm : NoAlloc m] [hg : ∀ x, NoAlloc (g x)] : NoAlloc (m >>= g) where
  brk s r s' h := by
    obtain ⟨x, s1, h1, h2⟩ | ⟨e, h1, -⟩ := bind_cases h
    · rw [(hg x).brk _ _ _ h2, hm.brk _ _ _ h1]
    · exact hm.brk _ _ _ h1

instance map {m : M α β} {g : β → γ} [hm : NoAlloc m] : NoAlloc (g <$> m) := by
  have : g <$> m = m >>= fun x => Pure.pure (g x) := map_eq_pure_bind g m
  rw [this]
  infer_instance

instance ite {c : Prop} [Decidable c] {a b : M α β} [ha : NoAlloc a] [hb : NoAlloc b] : NoAlloc (if c then a else b) := by
  split <;> assumption

instance read (i : Nat) : NoAlloc (CppSort.read i : M α α) := .of_step fun s => by
  unfold CppSort.read; split <;> rfl

instance moveOut (i : Nat) : NoAlloc (CppSort.moveOut i : M α α) := .of_step fun s => by
  unfold CppSort.moveOut; split <;> rfl

instance assign (i : Nat) (x : α) : NoAlloc (CppSort.assign i x) := .of_step fun s => by
  unfold CppSort.assign; split <;> rfl

instance moveTo (i j : Nat) : NoAlloc (CppSort.moveTo i j : M α Unit) := .of_step fun s => by
  unfold CppSort.moveTo; repeat' split
  all_goals rfl

instance swap (i j : Nat) : NoAlloc (CppSort.swap i j : M α Unit) := .of_step fun s => by
  unfold CppSort.swap; split <;> rfl

instance constructFrom (i j : Nat) : NoAlloc (CppSort.constructFrom i j : M α Unit) := .of_step fun s => by
  unfold CppSort.constructFrom; repeat' split
  all_goals rfl

instance construct (i : Nat) (x : α) : NoAlloc (CppSort.construct i x) := .of_step fun s => by
  unfold CppSort.construct; split <;> rfl

instance destroy (i : Nat) : NoAlloc (CppSort.destroy i : M α Unit) := .of_step fun s => by
  unfold CppSort.destroy; split <;> rfl

instance free (p n : Nat) : NoAlloc (CppSort.free p n : M α Unit) := .of_step fun s => by
  unfold CppSort.free; split <;> rfl

instance askGrant : NoAlloc (CppSort.askGrant : M α Nat) := .of_step fun _ => rfl

instance tick (lt : α → α → Bool) (x y : α) : NoAlloc (CppSort.tick lt x y) := .of_step fun _ => rfl

theorem admissible : Lean.Order.admissible (fun m : M α β => NoAlloc m) := by
  have e : (fun m : M α β => NoAlloc m) = fun m => ∀ s r s', m s = some (r, s') → s'.brk = s.brk := by
    funext m
    exact propext ⟨fun h => h.brk, fun h => ⟨h⟩⟩
  rw [e]
  apply Lean.Order.admissible_pi_apply (α := St α) (β := fun _ => Option (Except Err β × St α))
    (P := fun (s : St α) (x : Option (Except Err β × St α)) => ∀ r s', x = some (r, s') → s'.brk = s.brk)
  intro s
  apply Lean.Order.admissible_pi
  intro r
  apply Lean.Order.admissible_pi
  intro s'
  exact Lean.Order.Option.admissible_eq_some _ _

set_option synthInstance.maxSize 4096
set_option synthInstance.maxHeartbeats 200000

variable {δ1 δ2 δ3 δ4 δ5 δ6 δ7 δ8 δ9 : Type}

theorem admissible1 : Lean.Order.admissible (fun f : δ1 → M α β => ∀ x, NoAlloc (f x)) :=
  Lean.Order.admissible_pi_apply (fun _ m => NoAlloc m) fun _ => admissible

theorem admissible2 : Lean.Order.admissible (fun f : δ1 → δ2 → M α β => ∀ x y, NoAlloc (f x y)) :=
  Lean.Order.admissible_pi_apply (fun _ (f : δ2 → M α β) => ∀ y, NoAlloc (f y)) fun _ => admissible1

theorem admissible3 : Lean.Order.admissible (fun f : δ1 → δ2 → δ3 → M α β => ∀ x y z, NoAlloc (f x y z)) :=
  Lean.Order.admissible_pi_apply (fun _ (f : δ2 → δ3 → M α β) => ∀ y z, NoAlloc (f y z)) fun _ => admissible2

theorem admissible4 : Lean.Order.admissible (fun f : δ1 → δ2 → δ3 → δ4 → M α β => ∀ x y z u, NoAlloc (f x y z u)) :=
  Lean.Order.admissible_pi_apply (fun _ (f : δ2 → δ3 → δ4 → M α β) => ∀ y z u, NoAlloc (f y z u)) fun _ => admissible3

theorem admissible5 : Lean.Order.admissible (fun f : δ1 → δ2 → δ3 → δ4 → δ5 → M α β =>
    ∀ x y z u v, NoAlloc (f x y z u v)) :=
  Lean.Order.admissible_pi_apply (fun _ (f : δ2 → δ3 → δ4 → δ5 → M α β) => ∀ y z u v, NoAlloc (f y z u v))
    fun _ => admissible4

theorem admissible6 : Lean.Order.admissible (fun f : δ1 → δ2 → δ3 → δ4 → δ5 → δ6 → M α β =>
    ∀ x y z u v w, NoAlloc (f x y z u v w)) :=
  Lean.Order.admissible_pi_apply (fun _ (f : δ2 → δ3 → δ4 → δ5 → δ6 → M α β) => ∀ y z u v w, NoAlloc (f y z u v w))
    fun _ => admissible5

theorem admissible7 : Lean.Order.admissible (fun f : δ1 → δ2 → δ3 → δ4 → δ5 → δ6 → δ7 → M α β =>
    ∀ x y z u v w a, NoAlloc (f x y z u v w a)) :=
  Lean.Order.admissible_pi_apply (fun _ (f : δ2 → δ3 → δ4 → δ5 → δ6 → δ7 → M α β) =>
    ∀ y z u v w a, NoAlloc (f y z u v w a)) fun _ => admissible6

theorem admissible8 : Lean.Order.admissible (fun f : δ1 → δ2 → δ3 → δ4 → δ5 → δ6 → δ7 → δ8 → M α β =>
    ∀ x y z u v w a b, NoAlloc (f x y z u v w a b)) :=
  Lean.Order.admissible_pi_apply (fun _ (f : δ2 → δ3 → δ4 → δ5 → δ6 → δ7 → δ8 → M α β) =>
    ∀ y z u v w a b, NoAlloc (f y z u v w a b)) fun _ => admissible7

theorem admissible9 : Lean.Order.admissible (fun f : δ1 → δ2 → δ3 → δ4 → δ5 → δ6 → δ7 → δ8 → δ9 → M α β =>
    ∀ x y z u v w a b c, NoAlloc (f x y z u v w a b c)) :=
  Lean.Order.admissible_pi_apply (fun _ (f : δ2 → δ3 → δ4 → δ5 → δ6 → δ7 → δ8 → δ9 → M α β) =>
    ∀ y z u v w a b c, NoAlloc (f y z u v w a b c)) fun _ => admissible8

end NoAlloc

/-- Proves that a program allocates nothing from the instances for its parts. -/
syntax "noalloc" : tactic

macro_rules
  | `(tactic| noalloc) => `(tactic| repeat' (first
      | infer_instance
      | refine @NoAlloc.bind _ _ _ _ _ ?_ fun _ => ?_
      | split
      | (dsimp only)
      | intro))

theorem AllocsLe.of {m : M α β} (h : NoAlloc m) (k : Nat) : AllocsLe k m := fun s r s' hr => by
  rw [h.brk _ _ _ hr]; omega

theorem AllocsLe.mono {m : M α β} {k k' : Nat} (h : AllocsLe k m) (hk : k ≤ k') : AllocsLe k' m := fun s r s' hr => by
  have := h _ _ _ hr; omega

theorem AllocsLe.bind {m : M α β} {g : β → M α γ} {k k' : Nat} (hm : AllocsLe k m) (hg : ∀ x, AllocsLe k' (g x)) :
    AllocsLe (k + k') (m >>= g) := fun s r s' h => by
  obtain ⟨x, s1, h1, h2⟩ | ⟨e, h1, -⟩ := bind_cases h
  · have := hm _ _ _ h1
    have := hg x _ _ _ h2
    omega
  · have := hm _ _ _ h1
    omega

theorem AllocsLe.alloc (n : Nat) : AllocsLe n (CppSort.alloc n : M α Nat) := fun s r s' h => by
  have h2 : (some _ : Option (Except Err Nat × St α)) = some (r, s') := h
  cases h2
  exact Nat.le_refl _

end CppSort
