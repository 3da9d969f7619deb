import Verif.Base.Embed
/-
Running concrete inputs in the kernel. The recursive functions of the model are fixed points and do not
compute; a copy of a function with an extra argument bounding the depth of the recursion does, and
whatever the copy returns is what the function returns.
-/
set_option autoImplicit false

namespace CppSort
variable {α β γ δ : Type}

/-- Wherever `m` returns something, `m'` returns the same. -/
def Le (m m' : M α β) : Prop := ∀ s r, m s = some r → m' s = some r

theorem Le.refl (m : M α β) : Le m m := fun _ _ h => h

/-- No fuel left. -/
def noFuel : M α β := fun _ => none

theorem Le.none (m : M α β) : Le (noFuel : M α β) m := fun _ _ h => by simp [noFuel] at h

theorem Le.bind {m m' : M α β} {f f' : β → M α γ} (h : Le m m') (hf : ∀ x, Le (f x) (f' x)) :
    Le (m >>= f) (m' >>= f') := by
  intro s r e
  have key : ∀ (m : M α β) (f : β → M α γ) s, (m >>= f) s = match m s with
      | Option.none => Option.none
      | some (.ok x, s') => f x s'
      | some (.error e, s') => some (.error e, s') := by
    intro m f s
    show (StateT.bind m (ExceptT.bindCont f)) s = _
    simp only [StateT.bind]
    cases m s with
    | none => rfl
    | some p =>
      obtain ⟨r, s'⟩ := p
      cases r <;> rfl
  rw [key] at e ⊢
  cases e1 : m s with
  | none => rw [e1] at e; simp at e
  | some p =>
    obtain ⟨q, s'⟩ := p
    rw [h s _ e1]
    rw [e1] at e
    cases q with
    | error x => exact e
    | ok x => exact hf x s' r e

theorem Le.ite {c : Prop} [Decidable c] {a a' b b' : M α β} (h : Le a a') (h' : Le b b') :
    Le (if c then a else b) (if c then a' else b') := by
  split
  · exact h
  · exact h'

theorem Le.embed {xs : List β} {m m' : M β γ} (h : Le m m') :
    Le (α := α) (embed xs m) (embed xs m') := by
  intro s r e
  unfold CppSort.embed at *
  cases e1 : m (localMem xs s) with
  | none => rw [e1] at e; simp at e
  | some p => rw [e1] at e; rw [h _ _ e1]; exact e

end CppSort
