import Verif.Base.Order
import Verif.Model.Rotate
/-
Programs run with any comparison function at all: the comparisons only have to return, their answers can be inconsistent
with each other, or even depend on the state. Such programs move one element out of the range, shift others into the hole
and put the element back.
-/
set_option autoImplicit false

namespace CppSort
variable {α β γ : Type}

/-- Whether the range is whole, or has a hole at `h` whose element `t` is held outside. -/
inductive Shape (α : Type) where
  | whole
  | hole (h : Nat) (t : α)

/-- The range `[f, l)` has the shape, `v` being its elements (that of the hole included). -/
def Shape.In (f l : Nat) (s : St α) (v : Nat → α) : Shape α → Prop
  | .whole => Holds s.cell f l v
  | .hole h t => HoldsX s.cell f l h v ∧ v h = t

/-- From the shape `P`, the program only permutes `[f, l)`. It runs to its end, its result and the final shape satisfying `R`, or
lets an exception through, in a shape satisfying `T`. -/
def Keep (T : Shape α → Prop) (f l : Nat) (P : Shape α) (m : M α β) (R : β → Shape α → Prop) : Prop :=
  ∀ (s : St α) (v : Nat → α), P.In f l s v → ∃ r s', m s = some (r, s') ∧
    ∃ P' v', P'.In f l s' v' ∧ PermOn f l v v' ∧ Frame f l s s' ∧
      match r with
      | .ok r => R r P'
      | .error e => e = .exn ∧ T P'

/-- The comparison function returns or throws, touching nothing but the count of comparisons. Its answers are arbitrary. It
only throws if an exception is allowed in any shape. -/
def Answers (T : Shape α → Prop) (cmp : α → α → M α Bool) : Prop :=
  ∀ x y s, ∃ k, (∃ b, cmp x y s = some (.ok b, { s with cmps := k })) ∨
    ((∀ P, T P) ∧ cmp x y s = some (.error .exn, { s with cmps := k }))

/-- The same, when exceptions are only allowed while the range is whole. -/
def AnswersW (T : Shape α → Prop) (cmp : α → α → M α Bool) : Prop :=
  ∀ x y s, ∃ k, (∃ b, cmp x y s = some (.ok b, { s with cmps := k })) ∨
    (T .whole ∧ cmp x y s = some (.error .exn, { s with cmps := k }))

theorem answers_tick (T : Shape α → Prop) (lt : α → α → Bool) : Answers T (tick lt) := fun _ _ _ => ⟨_, .inl ⟨_, rfl⟩⟩

theorem Answers.flip {T : Shape α → Prop} {cmp : α → α → M α Bool} (h : Answers T cmp) : Answers T fun x y => cmp y x :=
  fun x y s => h y x s

theorem AnswersW.flip {T : Shape α → Prop} {cmp : α → α → M α Bool} (h : AnswersW T cmp) : AnswersW T fun x y => cmp y x :=
  fun x y s => h y x s

theorem Answers.w {T : Shape α → Prop} {cmp : α → α → M α Bool} (h : Answers T cmp) : AnswersW T cmp := fun x y s => by
  obtain ⟨k, h | ⟨h1, h2⟩⟩ := h x y s
  · exact ⟨k, .inl h⟩
  · exact ⟨k, .inr ⟨h1 _, h2⟩⟩

section
variable {f l : Nat} {P : Shape α} {T : Shape α → Prop}

theorem Keep.of_wp {m : M α β} {R : β → Shape α → Prop} (h : ∀ (s : St α) (v : Nat → α), P.In f l s v →
    wp m (fun r s' => ∃ P', R r P' ∧ ∃ v', P'.In f l s' v' ∧ PermOn f l v v' ∧ Frame f l s s') s) : Keep T f l P m R := by
  intro s v hh
  obtain ⟨r, s', e, P', hr, v', i, p, fr⟩ := h s v hh
  exact ⟨_, s', e, P', v', i, p, fr, hr⟩

theorem Keep.wp {m : M α β} {R : β → Shape α → Prop} (h : Keep (fun _ => False) f l P m R) (s : St α) (v : Nat → α)
    (hh : P.In f l s v) :
    wp m (fun r s' => ∃ P', R r P' ∧ ∃ v', P'.In f l s' v' ∧ PermOn f l v v' ∧ Frame f l s s') s := by
  obtain ⟨r, s', e, P', v', i, p, fr, hr⟩ := h s v hh
  cases r with
  | ok r => exact ⟨r, s', e, P', hr, v', i, p, fr⟩
  | error e => exact hr.2.elim

theorem Keep.pure {x : β} {R : β → Shape α → Prop} (h : R x P) : Keep T f l P (pure x) R := .of_wp fun s v hh =>
  wp_pure ⟨P, h, v, hh, PermOn.refl _ _ _, Frame.refl _ _ _⟩

theorem Keep.bind {m : M α β} {k : β → M α γ} {R : β → Shape α → Prop} {R' : γ → Shape α → Prop}
    (h : Keep T f l P m R) (hk : ∀ r P', R r P' → Keep T f l P' (k r) R') : Keep T f l P (m >>= k) R' := by
  intro s v hh
  obtain ⟨r, s1, e1, P1, v1, i1, p1, f1, hr⟩ := h s v hh
  cases r with
  | error e =>
    refine ⟨.error e, s1, ?_, P1, v1, i1, p1, f1, hr⟩
    show ExceptT.bind m k s = _
    simp only [ExceptT.bind, ExceptT.mk, Bind.bind, StateT.bind, e1]
    rfl
  | ok r =>
    obtain ⟨r2, s2, e2, P2, v2, i2, p2, f2, hr2⟩ := hk r P1 hr s1 v1 i1
    refine ⟨r2, s2, ?_, P2, v2, i2, p1.trans p2, f1.trans f2, hr2⟩
    show ExceptT.bind m k s = _
    simp only [ExceptT.bind, ExceptT.mk, Bind.bind, StateT.bind, e1]
    exact e2

theorem Keep.next {m : M α β} {k : β → M α γ} {Q : β → Shape α} {R' : γ → Shape α → Prop}
    (h : Keep T f l P m fun r P' => P' = Q r) (hk : ∀ r, Keep T f l (Q r) (k r) R') : Keep T f l P (m >>= k) R' :=
  h.bind fun r P' e => e ▸ hk r

theorem Keep.mono {m : M α β} {R R' : β → Shape α → Prop} (h : Keep T f l P m R)
    (hR : ∀ r p, R r p → R' r p) : Keep T f l P m R' := by
  intro s v hh
  obtain ⟨r, s1, e1, P1, v1, i1, p1, f1, hr⟩ := h s v hh
  refine ⟨r, s1, e1, P1, v1, i1, p1, f1, ?_⟩
  cases r with
  | ok r => exact hR _ _ hr
  | error e => exact hr

theorem Keep.ite {c : Prop} [Decidable c] {m m' : M α β} {R : β → Shape α → Prop}
    (h : c → Keep T f l P m R) (h' : ¬ c → Keep T f l P m' R) : Keep T f l P (if c then m else m') R := by
  split
  · exact h ‹_›
  · exact h' ‹_›

theorem Keep.cmp {cmp : α → α → M α Bool} (hc : Answers T cmp) {x y : α} :
    Keep T f l P (cmp x y) fun _ P' => P' = P := by
  intro s v hh
  obtain ⟨k, ⟨b, e⟩ | ⟨ht, e⟩⟩ := hc x y s
  · exact ⟨.ok b, _, e, P, v, by cases P <;> exact hh, PermOn.refl _ _ _, (Frame.refl _ _ _).tickr, rfl⟩
  · exact ⟨.error .exn, _, e, P, v, by cases P <;> exact hh, PermOn.refl _ _ _, (Frame.refl _ _ _).tickr, rfl, ht P⟩

theorem Keep.cmpW {cmp : α → α → M α Bool} (hc : AnswersW T cmp) {x y : α} :
    Keep T f l .whole (cmp x y) fun _ P' => P' = .whole := by
  intro s v hh
  obtain ⟨k, ⟨b, e⟩ | ⟨ht, e⟩⟩ := hc x y s
  · exact ⟨.ok b, _, e, .whole, v, hh, PermOn.refl _ _ _, (Frame.refl _ _ _).tickr, rfl⟩
  · exact ⟨.error .exn, _, e, .whole, v, hh, PermOn.refl _ _ _, (Frame.refl _ _ _).tickr, rfl, ht⟩

theorem Keep.read {i : Nat} (h1 : f ≤ i) (h2 : i < l) :
    Keep (α := α) T f l .whole (read i) fun _ P' => P' = .whole   := .of_wp fun _ v hh =>
  wp_read hh h1 h2 ⟨_, rfl, v, hh, PermOn.refl _ _ _, Frame.refl _ _ _⟩

theorem Keep.readX {i h : Nat} {t : α} (h1 : f ≤ i) (h2 : i < l) (h3 : i ≠ h) :
    Keep T f l (.hole h t) (CppSort.read i) fun _ P' => P' = .hole h t   := .of_wp fun _ v hh =>
  wp_readX hh.1 h1 h2 h3 ⟨_, rfl, v, hh, PermOn.refl _ _ _, Frame.refl _ _ _⟩

theorem Keep.swap {i j : Nat} (hi : f ≤ i ∧ i < l) (hj : f ≤ j ∧ j < l) :
    Keep (α := α) T f l .whole (swap i j) fun _ P' => P' = .whole := .of_wp fun _ _ hh =>
  wp_swap hh hi hj fun _ u => ⟨_, rfl, _, u.holds, u.perm, u.frame⟩

theorem Keep.moveOut {i : Nat} (h1 : f ≤ i) (h2 : i < l) :
    Keep (α := α) T f l .whole (moveOut i) fun r P' => P' = .hole i r   := .of_wp fun _ v hh =>
  wp_moveOut hh h1 h2 fun _ hx fr _ _ => ⟨_, rfl, v, ⟨hx, rfl⟩, PermOn.refl _ _ _, fr⟩

theorem Keep.moveTo {h i : Nat} {t : α} (h1 : f ≤ i) (h2 : i < l) (h3 : i ≠ h) :
    Keep T f l (.hole h t) (moveTo h i) fun _ P' => P' = .hole i t := by
  refine .of_wp ?_
  rintro s v ⟨hh, ht⟩
  refine wp_moveTo hh h1 h2 h3 fun _ hx fr _ _ => ⟨_, rfl, _, ⟨hx, ?_⟩,
    PermOn.swp ⟨hh.2.2.1, hh.2.2.2⟩ ⟨h1, h2⟩, fr⟩
  rw [← ht]
  simp [swp, h3]

theorem Keep.assign {h : Nat} {t : α} :
    Keep T f l (.hole h t) (assign h t) fun _ P' => P' = .whole := by
  refine .of_wp ?_
  rintro s v ⟨hh, ht⟩
  exact wp_assign hh ht.symm fun _ hx fr _ _ => ⟨_, rfl, v, hx, PermOn.refl _ _ _, fr⟩

/-- The program keeps the range whole, and its result satisfies `R`. -/
abbrev Intact (T : Shape α → Prop) (f l : Nat) (m : M α β) (R : β → Prop) : Prop :=
  Keep T f l .whole m fun r P => P = .whole ∧ R r

theorem Shape.In.widen {f' l' : Nat} {s s' : St α} {v v' : Nat → α} {P : Shape α} (hh : Holds s.cell f l v)
    (i : P.In f' l' s' v') (p : PermOn f' l' v v') (fr : Frame f' l' s s') (hf : f ≤ f') (hl : l' ≤ l) :
    P.In f l s' v' ∧ PermOn f l v v' ∧ Frame f l s s' := by
  cases P with
  | whole =>
    have u : Upd f l s s' v v' := Upd.widen ⟨i, p, fr⟩ hh hf hl
    exact ⟨u.holds, u.perm, u.frame⟩
  | hole h t =>
    obtain ⟨⟨i1, i2, i3, i4⟩, ht⟩ := i
    refine ⟨⟨⟨fun j h1 h2 h3 => ?_, i2, by omega, by omega⟩, ht⟩, p.mono hf hl, fr.mono hf hl⟩
    by_cases hj : f' ≤ j ∧ j < l'
    · exact i1 j hj.1 hj.2 h3
    · rw [fr.cell j (by omega), p.1 j (by omega)]
      exact hh j h1 h2

theorem Intact.widen {f' l' : Nat} {m : M α β} {R : β → Prop} (h : Intact T f' l' m R)
    (hf : f ≤ f') (hl : l' ≤ l) : Intact T f l m R := by
  intro s v hh
  obtain ⟨r, s1, e1, P1, v1, i1, p1, f1, hr⟩ := h s v (Holds.sub hh hf hl)
  obtain ⟨i2, p2, f2⟩ := i1.widen hh p1 f1 hf hl
  exact ⟨r, s1, e1, P1, v1, i2, p2, f2, hr⟩

theorem Intact.of_empty {m : M α β} {R : β → Prop} (h : Intact T f f m R) : Intact T f l m R := by
  intro s v hh
  by_cases hl : f ≤ l
  · exact Intact.widen h (Nat.le_refl _) hl s v hh
  · obtain ⟨r, s1, e1, P1, v1, i1, p1, f1, hr⟩ := h s v fun i h1 h2 => absurd h2 (by omega)
    cases P1 with
    | hole j t => exact absurd i1.1.2.2.2 (by have := i1.1.2.2.1; omega)
    | whole =>
      exact ⟨r, s1, e1, .whole, v1, show Holds _ _ _ _ from fun i h1 h2 => absurd h2 (by omega), ⟨fun i _ => p1.1 i (by omega), by
        rw [show lst v1 f l = [] from by simp [lst]; omega, show lst v f l = [] from by simp [lst]; omega]⟩,
        ⟨fun i _ => f1.cell i (by omega), f1.brk⟩, hr⟩
end

theorem Keep.iterSwapIf {T : Shape α → Prop} {cmp : α → α → M α Bool} (hc : AnswersW T cmp) {f l i j : Nat}
    (hi : f ≤ i ∧ i < l) (hj : f ≤ j ∧ j < l) : Keep T f l .whole (iterSwapIf cmp i j) fun _ P' => P' = .whole := by
  unfold CppSort.iterSwapIf
  refine (Keep.read hj.1 hj.2).bind ?_; rintro _ _ rfl
  refine (Keep.read hi.1 hi.2).bind ?_; rintro _ _ rfl
  refine (Keep.cmpW hc).bind ?_; rintro _ _ rfl
  exact Keep.ite (fun _ => Keep.swap hi hj) fun _ => Keep.pure rfl

/-- A sorter which keeps the range whole leaves a permutation of it and touches nothing else. -/
theorem Intact.transforms [Inhabited α] {m : M α Unit} {s : St α} {first : Nat} {xs : List α}
    (h : Intact (fun _ => False) first (first + xs.length) m fun _ => True) (hw : s.WF) (hs : Seg s.cell first xs) :
    Transforms m s first xs fun ys => ys.Perm xs := by
  obtain ⟨v, hv, he⟩ := hs.holds
  obtain ⟨u, s', e, P', ⟨rfl, -⟩, v', i, p, fr⟩ := h.wp s v hv
  refine Upd.transforms (v := v) (v' := v') ⟨i, p, fr⟩ hw hv he e ?_
  rw [← he]
  simpa using p.2

/-- One step of a program whose shape is known. -/
macro "keep1" : tactic => `(tactic| with_reducible first
  | (refine Keep.next (Keep.read (by omega) (by omega)) fun _ => ?_)
  | (refine Keep.next (Keep.readX (by omega) (by omega) (by omega)) fun _ => ?_)
  | (refine Keep.next (Keep.cmp (by first | assumption | exact Answers.flip (by assumption))) fun _ => ?_)
  | (refine Keep.next (Keep.cmpW (by first | assumption | exact AnswersW.flip (by assumption))) fun _ => ?_)
  | (refine Keep.next (Keep.swap (by omega) (by omega)) fun _ => ?_)
  | (refine Keep.next (Keep.iterSwapIf (by first | assumption | exact Answers.w (by assumption)) (by omega) (by omega)) fun _ => ?_)
  | (refine Keep.next (Keep.moveOut (by omega) (by omega)) fun _ => ?_)
  | (refine Keep.next (Keep.moveTo (by omega) (by omega) (by omega)) fun _ => ?_)
  | (refine Keep.next Keep.assign fun _ => ?_)
  | exact Keep.pure (by first | rfl | exact ⟨rfl, trivial⟩ | exact ⟨rfl, by omega⟩)
  | exact (Keep.swap (by omega) (by omega)).mono fun _ _ e => ⟨e, trivial⟩
  | exact (Keep.iterSwapIf (by first | assumption | exact Answers.w (by assumption)) (by omega) (by omega)).mono fun _ _ e => ⟨e, trivial⟩
  | exact Keep.assign.mono fun _ _ e => ⟨e, trivial⟩
  | (refine Keep.ite (fun _ => ?_) (fun _ => ?_)))

macro "keep" : tactic => `(tactic| repeat' keep1)

end CppSort
