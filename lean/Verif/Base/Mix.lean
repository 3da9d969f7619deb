import Verif.Base.Order
import Verif.Model.Rotate
/-
Programs that only permute a range, whatever the order (pivot selection and the like).
-/
set_option autoImplicit false

namespace CppSort
variable {α β γ : Type} {lt : α → α → Bool}

/-- `m` only permutes the elements of `[f, l)`, and its result satisfies `R`. -/
def Mixes (f l : Nat) (m : M α β) (R : β → Prop) : Prop :=
  ∀ (s : St α) (v : Nat → α), Holds s.cell f l v →
    wp m (fun r s' => R r ∧ ∃ v', Upd f l s s' v v') s

theorem Mixes.pure {f l : Nat} {x : β} {R : β → Prop} (h : R x) :
    Mixes (α := α) f l (pure x) R := fun _ v hh => wp_pure ⟨h, v, Upd.refl hh⟩

theorem Mixes.bind {f l : Nat} {m : M α β} {k : β → M α γ} {R : β → Prop} {R' : γ → Prop}
    (h : Mixes f l m R) (hk : ∀ r, R r → Mixes f l (k r) R') : Mixes f l (m >>= k) R' := by
  intro s v hh
  apply wp_bind
  refine wp_mono (h s v hh) ?_
  rintro r s1 ⟨hr, v1, u1⟩
  refine wp_mono (hk r hr s1 v1 u1.holds) ?_
  rintro r2 s2 ⟨hr2, v2, u2⟩
  exact ⟨hr2, v2, u1.trans u2⟩

theorem Mixes.mono {f l : Nat} {m : M α β} {R R' : β → Prop} (h : Mixes f l m R)
    (hR : ∀ r, R r → R' r) : Mixes f l m R' := fun s v hh =>
  wp_mono (h s v hh) fun r _ ⟨a, b⟩ => ⟨hR r a, b⟩

theorem Mixes.widen {f l f' l' : Nat} {m : M α β} {R : β → Prop} (h : Mixes f' l' m R)
    (hf : f ≤ f') (hl : l' ≤ l) : Mixes f l m R := fun s v hh =>
  wp_mono (h s v (hh.sub hf hl)) fun _ _ ⟨a, v', u⟩ => ⟨a, v', u.widen hh hf hl⟩

theorem Mixes.read {f l i : Nat} (h1 : f ≤ i) (h2 : i < l) :
    Mixes (α := α) f l (read i) (fun _ => True) := fun _ v hh =>
  wp_read hh h1 h2 ⟨trivial, v, Upd.refl hh⟩

theorem Mixes.tick {f l : Nat} {x y : α} :
    Mixes f l (tick lt x y) (fun _ => True) := fun _ v hh =>
  wp_tick ⟨trivial, v, (Upd.refl hh).tickr⟩

theorem Mixes.swap {f l i j : Nat} (hi : f ≤ i ∧ i < l) (hj : f ≤ j ∧ j < l) :
    Mixes (α := α) f l (swap i j) (fun _ => True) := fun _ _ hh =>
  wp_swap hh hi hj fun _ u => ⟨trivial, _, u⟩

theorem Mixes.ite {f l : Nat} {c : Prop} [Decidable c] {m m' : M α β} {R : β → Prop}
    (h : c → Mixes f l m R) (h' : ¬ c → Mixes f l m' R) : Mixes f l (if c then m else m') R := by
  split
  · exact h ‹_›
  · exact h' ‹_›

theorem Mixes.iterSwapIf {f l i j : Nat} (hi : f ≤ i ∧ i < l) (hj : f ≤ j ∧ j < l) :
    Mixes f l (iterSwapIf (CppSort.tick lt) i j) (fun _ => True) := by
  unfold CppSort.iterSwapIf
  refine (Mixes.read hj.1 hj.2).bind fun _ _ => (Mixes.read hi.1 hi.2).bind fun _ _ =>
    Mixes.tick.bind fun _ _ => Mixes.ite (fun _ => Mixes.swap hi hj) fun _ => Mixes.pure trivial

/-- One step of a mixing program. -/
macro "mix1" : tactic => `(tactic| with_reducible first
  | (refine Mixes.bind (Mixes.read (by omega) (by omega)) fun _ _ => ?_)
  | (refine Mixes.bind Mixes.tick fun _ _ => ?_)
  | (refine Mixes.bind (Mixes.swap (by omega) (by omega)) fun _ _ => ?_)
  | (refine Mixes.bind (Mixes.iterSwapIf (by omega) (by omega)) fun _ _ => ?_)
  | exact Mixes.pure (by first | exact True.intro | (beta_reduce; first | omega | rfl))
  | exact Mixes.iterSwapIf (by omega) (by omega)
  | exact Mixes.swap (by omega) (by omega)
  | (refine Mixes.ite (fun _ => ?_) (fun _ => ?_)))

macro "mix" : tactic => `(tactic| repeat' mix1)

end CppSort
