import Verif.Props.Probes
/-
Mannila's definition of the measures of presortedness (docs/Measures-of-presortedness.md 7-17) and the values of the
probes.
-/
set_option autoImplicit false

namespace CppSort

/-- From every state, `m` returns `r`. -/
def Gives {α ρ : Type} (m : M α ρ) (r : ρ) : Prop := ∀ s, ∃ s', m s = some (.ok r, s')

/-- The relation between ranges and the value of a measure. -/
abbrev Meas := ∀ (α : Type) [Inhabited α], (α → α → Bool) → List α → Nat → Prop

/-- Same length and same order relations between the positions. -/
def OrderIso {α β : Type} (lt : α → α → Bool) (xs : List α) (lt' : β → β → Bool) (ys : List β) : Prop :=
  ∃ h : xs.length = ys.length, ∀ (i j : Nat) (hi : i < xs.length) (hj : j < xs.length),
    lt xs[i] xs[j] = lt' (ys[i]'(h ▸ hi)) (ys[j]'(h ▸ hj))

namespace Mannila

/-- The measure has one value on every sequence of distinct elements. -/
def Valued (V : Meas) : Prop := ∀ (α : Type) [Inhabited α] (lt : α → α → Bool), StrictWeak lt → ∀ xs, Distinct lt xs →
  ∃ r, V α lt xs r ∧ ∀ r', V α lt xs r' → r' = r

/-- 1. If X is sorted, then M(X) = 0. -/
def Zero (V : Meas) : Prop := ∀ (α : Type) [Inhabited α] (lt : α → α → Bool), StrictWeak lt → ∀ xs, Distinct lt xs →
  SortedList lt xs → V α lt xs 0

/-- 2. If X and Y are order isomorphic, then M(X) = M(Y). -/
def Iso (V : Meas) : Prop := ∀ (α β : Type) [Inhabited α] [Inhabited β] (lt : α → α → Bool) (lt' : β → β → Bool),
  StrictWeak lt → StrictWeak lt' → ∀ xs ys r, Distinct lt xs → Distinct lt' ys → OrderIso lt xs lt' ys →
  V α lt xs r → V β lt' ys r

/-- 3. If X is a subset (a subsequence) of Y, then M(X) ≤ M(Y). -/
def Sub (V : Meas) : Prop := ∀ (α : Type) [Inhabited α] (lt : α → α → Bool), StrictWeak lt → ∀ xs ys a b,
  Distinct lt ys → xs.Sublist ys → V α lt xs a → V α lt ys b → a ≤ b

/-- 4. If every element of X is smaller than every element of Y, then M(X.Y) ≤ M(X) + M(Y). -/
def Cat (V : Meas) : Prop := ∀ (α : Type) [Inhabited α] (lt : α → α → Bool), StrictWeak lt → ∀ xs ys a b c,
  Distinct lt (xs ++ ys) → (∀ x ∈ xs, ∀ y ∈ ys, lt x y = true) → V α lt xs a → V α lt ys b → V α lt (xs ++ ys) c →
  c ≤ a + b

/-- 5. M({x}.X) ≤ |X| + M(X). -/
def Cons (V : Meas) : Prop := ∀ (α : Type) [Inhabited α] (lt : α → α → Bool), StrictWeak lt → ∀ x xs a b,
  Distinct lt (x :: xs) → V α lt xs a → V α lt (x :: xs) b → b ≤ xs.length + a

end Mannila

/-- The five properties. -/
structure IsMop (V : Meas) : Prop where
  valued : Mannila.Valued V
  zero : Mannila.Zero V
  iso : Mannila.Iso V
  sub : Mannila.Sub V
  cat : Mannila.Cat V
  cons : Mannila.Cons V

theorem Gives.unique {α ρ : Type} {m : M α ρ} {r r' : ρ} (h : Gives m r) (h' : Gives m r') : r = r' := by
  obtain ⟨s1, e1⟩ := h (Demo.mem 0 [])
  obtain ⟨s2, e2⟩ := h' (Demo.mem 0 [])
  rw [e1] at e2
  cases e2
  rfl

theorem Keeps.gives {α ρ : Type} {m : M α ρ} {R : ρ → Prop} (h : Keeps m R) (hu : ∀ a b, R a → R b → a = b) :
    ∃ r, Gives m r ∧ R r := by
  obtain ⟨r, k, g, -, h2⟩ := h (Demo.mem 0 [])
  refine ⟨r, fun s => ?_, h2⟩
  obtain ⟨r', k', g', h1', h2'⟩ := h s
  rw [hu r r' h2 h2']
  exact ⟨_, h1'⟩

/-- What is known of the value of a measure. -/
structure Spec (V : Meas) (R : ∀ α : Type, (α → α → Bool) → List α → Nat → Prop) : Prop where
  has : ∀ (α : Type) [Inhabited α] (lt : α → α → Bool), StrictWeak lt → ∀ xs, Distinct lt xs →
    ∃ r, V α lt xs r ∧ R α lt xs r
  one : ∀ (α : Type) [Inhabited α] (lt : α → α → Bool) xs r r', V α lt xs r → V α lt xs r' → r = r'
  uniq : ∀ (α : Type) [Inhabited α] (lt : α → α → Bool), StrictWeak lt → ∀ xs, Distinct lt xs → ∀ r r',
    R α lt xs r → R α lt xs r' → r = r'

namespace Spec
variable {V : Meas} {R : ∀ α : Type, (α → α → Bool) → List α → Nat → Prop}

theorem iff (h : Spec V R) {α : Type} [Inhabited α] {lt : α → α → Bool} (hlt : StrictWeak lt) {xs : List α}
    (hd : Distinct lt xs) {r : Nat} : V α lt xs r ↔ R α lt xs r := by
  obtain ⟨r0, h1, h2⟩ := h.has α lt hlt xs hd
  exact ⟨fun hv => h.one α lt xs _ _ h1 hv ▸ h2, fun hr => h.uniq α lt hlt xs hd _ _ h2 hr ▸ h1⟩

theorem valued (h : Spec V R) : Mannila.Valued V := fun α _ lt hlt xs hd => by
  obtain ⟨r0, h1, h2⟩ := h.has α lt hlt xs hd
  exact ⟨r0, h1, fun r' h' => h.one α lt xs _ _ h' h1⟩

theorem zero (h : Spec V R) (hR : ∀ (α : Type) [Inhabited α] (lt : α → α → Bool), StrictWeak lt → ∀ xs,
    Distinct lt xs → SortedList lt xs → R α lt xs 0) : Mannila.Zero V := fun α _ lt hlt xs hd hs =>
  (h.iff hlt hd).2 (hR α lt hlt xs hd hs)

theorem sub (h : Spec V R) (hR : ∀ (α : Type) (lt : α → α → Bool), StrictWeak lt → ∀ xs ys a b,
    Distinct lt ys → xs.Sublist ys → R α lt xs a → R α lt ys b → a ≤ b) : Mannila.Sub V :=
  fun α _ lt hlt xs ys a b hd hs h1 h2 =>
    hR α lt hlt xs ys a b hd hs ((h.iff hlt (hd.sublist hs)).1 h1) ((h.iff hlt hd).1 h2)

theorem cat (h : Spec V R) (hR : ∀ (α : Type) (lt : α → α → Bool), StrictWeak lt → ∀ xs ys a b c,
    Distinct lt (xs ++ ys) → (∀ x ∈ xs, ∀ y ∈ ys, lt x y = true) → R α lt xs a → R α lt ys b → R α lt (xs ++ ys) c →
    c ≤ a + b) : Mannila.Cat V :=
  fun α _ lt hlt xs ys a b c hd hs h1 h2 h3 =>
    hR α lt hlt xs ys a b c hd hs ((h.iff hlt (hd.sublist (List.sublist_append_left _ _))).1 h1)
      ((h.iff hlt (hd.sublist (List.sublist_append_right _ _))).1 h2) ((h.iff hlt hd).1 h3)

theorem cons (h : Spec V R) (hR : ∀ (α : Type) (lt : α → α → Bool), StrictWeak lt → ∀ x xs a b,
    Distinct lt (x :: xs) → R α lt xs a → R α lt (x :: xs) b → b ≤ xs.length + a) : Mannila.Cons V :=
  fun α _ lt hlt x xs a b hd h1 h2 =>
    hR α lt hlt x xs a b hd ((h.iff hlt (hd.sublist (List.sublist_cons_self _ _))).1 h1) ((h.iff hlt hd).1 h2)

/-- It is enough that the measure goes from positions to elements. -/
theorem iso (h : Spec V R) (hR : ∀ (α β : Type) (lt : α → α → Bool) (g : β → α), StrictWeak lt → ∀ l r,
    R β (fun x y => lt (g x) (g y)) l r → R α lt (l.map g) r) : Mannila.Iso V := by
  intro α β _ _ lt lt' hlt hlt' xs ys r hd hd' ⟨hl, ho⟩ hv
  have key : ∀ (γ : Type) [Inhabited γ] (f : γ → α) (g : γ → β) (l : List γ),
      (fun x y => lt (f x) (f y)) = (fun x y => lt' (g x) (g y)) → l.map f = xs → l.map g = ys → V β lt' ys r := by
    intro γ _ f g l he h1 h2
    have hsw : StrictWeak (fun x y => lt (f x) (f y)) :=
      ⟨fun x => hlt.irrefl _, fun x y z => hlt.trans _ _ _, fun x y z => hlt.equiv_trans _ _ _⟩
    have hdl : Distinct (fun x y => lt (f x) (f y)) l := by
      have := hd
      rw [← h1] at this
      exact List.pairwise_map.1 this
    obtain ⟨r', h3, h4⟩ := h.has γ _ hsw l hdl
    have h5 := hR α γ lt f hlt l r' h4
    rw [h1] at h5
    have e : r' = r := h.uniq α lt hlt xs hd _ _ h5 ((h.iff hlt hd).1 hv)
    subst e
    rw [he] at h4
    have h6 := hR β γ lt' g hlt' l r' h4
    rw [h2] at h6
    exact (h.iff hlt' hd').2 h6
  by_cases hn : xs.length = 0
  · have e1 := List.length_eq_zero_iff.1 hn
    have e2 := List.length_eq_zero_iff.1 (hl.symm.trans hn)
    refine key Unit (fun _ => default) (fun _ => default) [] ?_ e1.symm e2.symm
    funext x y
    rw [hlt.irrefl, hlt'.irrefl]
  · haveI : Inhabited (Fin xs.length) := ⟨⟨0, by omega⟩⟩
    refine key (Fin xs.length) (fun i => xs[i]) (fun i => ys[i.1]'(hl ▸ i.2)) (List.finRange xs.length) ?_ ?_ ?_
    · funext i j
      exact ho i.1 j.1 i.2 j.2
    · exact List.ext_getElem (by simp) fun i h1 h2 => by simp
    · exact List.ext_getElem (by simp [hl]) fun i h1 h2 => by simp

end Spec

/-- Properties kept when one element is inserted are kept in longer sequences. -/
theorem sublist_insert {α : Type} {lt : α → α → Bool} {F : List α → Prop}
    (hF : ∀ P y Q, Distinct lt (P ++ y :: Q) → F (P ++ Q) → F (P ++ y :: Q)) {xs ys : List α}
    (hs : xs.Sublist ys) (hd : Distinct lt ys) (h : F xs) : F ys := by
  have key : ∀ P, Distinct lt (P ++ ys) → F (P ++ xs) → F (P ++ ys) := by
    clear hd h
    induction hs with
    | slnil => exact fun P _ h => h
    | cons a hs ih =>
      intro P hd h
      refine hF P a _ hd (ih P (hd.sublist ?_) h)
      exact List.Sublist.append_left (List.sublist_cons_self _ _) _
    | cons_cons a hs ih =>
      intro P hd h
      have := ih (P ++ [a]) (by simpa using hd) (by simpa using h)
      simpa using this
  simpa using key [] (by simpa using hd) (by simpa using h)

end CppSort
