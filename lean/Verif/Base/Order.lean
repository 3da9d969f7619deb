import Verif.Base.Wp
/-
Order lemmas, sortedness and stability of ranges, and the bridge to the list specification.
-/
set_option autoImplicit false

namespace CppSort
variable {α : Type} {lt : α → α → Bool}

namespace StrictWeak

theorem asymm (h : StrictWeak lt) {x y : α} (a : lt x y = true) : lt y x = false := by
  cases b : lt y x with
  | false => rfl
  | true => have := h.trans _ _ _ a b; rw [h.irrefl] at this; cases this

/-- transitivity of `≤` (`x ≤ y` is `lt y x = false`) -/
theorem le_trans (h : StrictWeak lt) {x y z : α} (a : lt y x = false) (b : lt z y = false) :
    lt z x = false := by
  cases c : lt z x with
  | false => rfl
  | true =>
    cases d : lt x y with
    | true => have := h.trans _ _ _ c d; rw [b] at this; cases this
    | false =>
      cases e : lt y z with
      | true => have := h.trans _ _ _ e c; rw [a] at this; cases this
      | false => have := (h.equiv_trans x y z d a e b).2; rw [c] at this; cases this

theorem lt_of_lt_of_le (h : StrictWeak lt) {x y z : α} (a : lt x y = true) (b : lt z y = false) :
    lt x z = true := by
  cases c : lt x z with
  | true => rfl
  | false => have := h.le_trans b c; rw [a] at this; cases this

theorem lt_of_le_of_lt (h : StrictWeak lt) {x y z : α} (a : lt y x = false) (b : lt y z = true) :
    lt x z = true := by
  cases c : lt x z with
  | true => rfl
  | false => have := h.le_trans c a; rw [b] at this; cases this

theorem le_of_lt (h : StrictWeak lt) {x y : α} (a : lt x y = true) : lt y x = false := h.asymm a

theorem eqv_refl (h : StrictWeak lt) (x : α) : eqv lt x x = true := by simp [eqv, h.irrefl]

theorem eqv_symm {x y : α} (a : eqv lt x y = true) : eqv lt y x = true := by
  simp [eqv] at *; exact ⟨a.2, a.1⟩

theorem eqv_trans (h : StrictWeak lt) {x y z : α} (a : eqv lt x y = true) (b : eqv lt y z = true) :
    eqv lt x z = true := by
  simp [eqv] at *
  exact h.equiv_trans x y z a.1 a.2 b.1 b.2

theorem flip (h : StrictWeak lt) : StrictWeak (fun x y => lt y x) :=
  ⟨h.irrefl, fun x y z a b => h.trans z y x b a,
   fun x y z a b c d => (h.equiv_trans x y z b a d c).symm⟩

end StrictWeak

/-- The range `[f, l)` is sorted. -/
def SortedOn (lt : α → α → Bool) (f l : Nat) (v : Nat → α) : Prop :=
  ∀ i j, f ≤ i → i < j → j < l → lt (v j) (v i) = false

theorem SortedOn.le {f l : Nat} {v : Nat → α} (h : StrictWeak lt) (hs : SortedOn lt f l v)
    {i j : Nat} (h1 : f ≤ i) (h2 : i ≤ j) (h3 : j < l) : lt (v j) (v i) = false := by
  rcases Nat.lt_or_eq_of_le h2 with h' | h'
  · exact hs i j h1 h' h3
  · subst h'; exact h.irrefl _

theorem SortedOn.sub {f l f' l' : Nat} {v : Nat → α} (hs : SortedOn lt f l v)
    (hf : f ≤ f') (hl : l' ≤ l) : SortedOn lt f' l' v :=
  fun i j h1 h2 h3 => hs i j (by omega) h2 (by omega)

theorem SortedOn.congr {f l : Nat} {v w : Nat → α} (hs : SortedOn lt f l v)
    (e : ∀ i, f ≤ i → i < l → v i = w i) : SortedOn lt f l w :=
  fun i j h1 h2 h3 => by
    rw [← e i h1 (by omega), ← e j (by omega) h3]; exact hs i j h1 h2 h3

theorem SortedOn.trivial {f l : Nat} {v : Nat → α} (h : l ≤ f + 1) : SortedOn lt f l v :=
  fun i j h1 h2 h3 => by omega

/-- Concatenation of two sorted ranges. -/
theorem SortedOn.append {f m l : Nat} {v : Nat → α} (h : StrictWeak lt) (h1 : SortedOn lt f m v)
    (h2 : SortedOn lt m l v) (h3 : f < m → m < l → lt (v m) (v (m - 1)) = false) :
    SortedOn lt f l v := by
  intro i j a b c
  by_cases hj : j < m
  · exact h1 i j a b hj
  · by_cases hi : m ≤ i
    · exact h2 i j hi b c
    · have x1 := h1.le h (i := i) (j := m - 1) a (by omega) (by omega)
      have x2 := h2.le h (i := m) (j := j) (by omega) (by omega) c
      exact h.le_trans (h.le_trans x1 (h3 (by omega) (by omega))) x2

theorem SortedOn.snoc {f l : Nat} {v : Nat → α} (h : StrictWeak lt) (h1 : SortedOn lt f l v)
    (h2 : f < l → lt (v l) (v (l - 1)) = false) : SortedOn lt f (l + 1) v :=
  h1.append h (SortedOn.trivial (by omega)) (fun a _ => h2 a)

/-- Sortedness from adjacent elements. -/
theorem SortedOn.of_adjacent {f l : Nat} {v : Nat → α} (h : StrictWeak lt)
    (ha : ∀ i, f ≤ i → i + 1 < l → lt (v (i + 1)) (v i) = false) : SortedOn lt f l v := by
  induction l with
  | zero => intro i j _ _ h3; omega
  | succ l ih =>
    refine SortedOn.snoc h (ih fun i a b => ha i a (by omega)) fun hl => ?_
    have := ha (l - 1) (by omega) (by omega)
    rwa [show l - 1 + 1 = l by omega] at this

theorem sortedOn_iff {f l : Nat} {v : Nat → α} :
    SortedOn lt f l v ↔ SortedList lt (lst v f l) := by
  unfold SortedList
  rw [List.pairwise_iff_getElem]
  simp only [lst, List.length_map, List.length_range', List.getElem_map, List.getElem_range']
  constructor
  · intro h i j hi hj hij
    exact h _ _ (by omega) (by omega) (by omega)
  · intro h i j h1 h2 h3
    have := h (i - f) (j - f) (by omega) (by omega) (by omega)
    rwa [show f + 1 * (i - f) = i by omega, show f + 1 * (j - f) = j by omega] at this

/-- `v'` is a permutation of `v` on `[f, l)` that keeps equivalent elements in order. -/
def SPermOn (lt : α → α → Bool) (f l : Nat) (v v' : Nat → α) : Prop :=
  PermOn f l v v' ∧ SameOrder lt (lst v f l) (lst v' f l)

theorem SPermOn.refl (f l : Nat) (v : Nat → α) : SPermOn lt f l v v :=
  ⟨PermOn.refl _ _ _, fun _ => rfl⟩

theorem SPermOn.trans {f l : Nat} {v v' v'' : Nat → α} (h : SPermOn lt f l v v')
    (h' : SPermOn lt f l v' v'') : SPermOn lt f l v v'' :=
  ⟨h.1.trans h'.1, fun x => (h'.2 x).trans (h.2 x)⟩

theorem SPermOn.mono {f l f' l' : Nat} {v v' : Nat → α} (h : SPermOn lt f' l' v v')
    (hf : f ≤ f') (hl : l' ≤ l) : SPermOn lt f l v v' := by
  refine ⟨h.1.mono hf hl, fun x => ?_⟩
  by_cases hc : f' ≤ l'
  · rw [lst_append (v := v') hf (by omega), lst_append (v := v) hf (by omega),
      lst_append (v := v') hc hl, lst_append (v := v) hc hl]
    rw [lst_congr (v := v') (w := v) (f := f) (fun i _ _ => h.1.out (by omega)),
      lst_congr (v := v') (w := v) (f := l') (fun i _ _ => h.1.out (by omega))]
    simp only [List.filter_append, h.2 x]
  · rw [lst_congr (v := v') (w := v) (fun i _ _ => h.1.out (by omega))]

theorem SPermOn.congr {f l : Nat} {v v' w w' : Nat → α} (h : SPermOn lt f l v v')
    (e : ∀ i, f ≤ i → i < l → v i = w i) (e' : ∀ i, f ≤ i → i < l → v' i = w' i)
    (eo : ∀ i, (i < f ∨ l ≤ i) → w' i = w i) : SPermOn lt f l w w' := by
  refine ⟨h.1.congr e e' eo, ?_⟩
  rw [← lst_congr e, ← lst_congr e']
  exact h.2

/-- Stability of a permutation of the positions. -/
theorem SPermOn.of_equiv {f l : Nat} {v v' : Nat → α} (hlt : StrictWeak lt) (σ : Equiv.Perm Nat)
    (h1 : ∀ i, (i < f ∨ l ≤ i) → σ i = i) (h2 : ∀ i, v' i = v (σ i))
    (h3 : ∀ i j, f ≤ i → i < j → j < l → eqv lt (v' i) (v' j) = true → σ i < σ j) :
    SPermOn lt f l v v' := by
  refine ⟨PermOn.of_equiv σ h1 h2, fun x => ?_⟩
  unfold lst
  rw [List.filter_map, List.filter_map]
  have e : v' = v ∘ σ := funext h2
  have key : ((List.range' f (l - f)).filter (eqv lt x ∘ v')).map σ =
      (List.range' f (l - f)).filter (eqv lt x ∘ v) := by
    apply List.Perm.eq_of_pairwise (le := (· < ·))
    · intro a b _ _ hab hba; omega
    · rw [List.pairwise_map]
      have hp : (List.range' f (l - f)).Pairwise (· < ·) := List.pairwise_lt_range'
      have hp2 := hp.filter (eqv lt x ∘ v')
      refine List.Pairwise.imp_of_mem ?_ hp2
      intro a b ha hb hab
      rw [List.mem_filter, List.mem_range'_1] at ha hb
      refine h3 a b ha.1.1 hab (by omega) ?_
      exact hlt.eqv_trans (StrictWeak.eqv_symm ha.2) hb.2
    · exact (List.pairwise_lt_range').filter _
    · have hm := map_range'_perm h1
      have := hm.filter (eqv lt x ∘ v)
      rw [List.filter_map] at this
      rw [e]
      exact this
  have : (List.filter (eqv lt x ∘ v') (List.range' f (l - f))).map v' =
      ((List.filter (eqv lt x ∘ v') (List.range' f (l - f))).map σ).map v := by
    rw [List.map_map]
    exact List.map_congr_left fun i _ => h2 i
  rw [this, key]

/-- Exchanging two adjacent inequivalent elements is stable. -/
theorem SPermOn.swp {f l i : Nat} {v : Nat → α} (hlt : StrictWeak lt) (h1 : f ≤ i) (h2 : i + 1 < l)
    (hne : lt (v (i + 1)) (v i) = true) : SPermOn lt f l v (swp v i (i + 1)) := by
  refine SPermOn.mono (f' := i) (l' := i + 2) ?_ h1 (by omega)
  refine ⟨PermOn.swp (by omega) (by omega), fun x => ?_⟩
  have e1 : ∀ w : Nat → α, lst w i (i + 2) = [w i, w (i + 1)] := by
    intro w
    rw [lst_cons (by omega), lst_cons (by omega), lst_nil (by omega)]
  rw [e1, e1]
  simp only [CppSort.swp, List.filter_cons, List.filter_nil, if_true]
  rw [if_neg (show ¬ i + 1 = i by omega)]
  by_cases a : eqv lt x (v i) = true
  · have : ¬ eqv lt x (v (i + 1)) = true := by
      intro b
      have := hlt.eqv_trans (StrictWeak.eqv_symm a) b
      simp [eqv, hne] at this
    simp [a, this]
  · simp [a]

/-- Standard postcondition of a stable in-place update. -/
structure SUpd (lt : α → α → Bool) (f l : Nat) (s s' : St α) (v v' : Nat → α) : Prop where
  holds : Holds s'.cell f l v'
  sperm : SPermOn lt f l v v'
  frame : Frame f l s s'

theorem SUpd.upd {f l : Nat} {s s' : St α} {v v' : Nat → α} (h : SUpd lt f l s s' v v') :
    Upd f l s s' v v' := ⟨h.holds, h.sperm.1, h.frame⟩

theorem SUpd.tick {f l : Nat} {s s' : St α} {v v' : Nat → α} {n : Nat}
    (h : SUpd lt f l { s with cmps := n } s' v v') : SUpd lt f l s s' v v' :=
  ⟨h.holds, h.sperm, h.frame.tick⟩

theorem SUpd.tickr {f l : Nat} {s s' : St α} {v v' : Nat → α} {n : Nat}
    (h : SUpd lt f l s s' v v') : SUpd lt f l s { s' with cmps := n } v v' :=
  ⟨h.holds, h.sperm, h.frame.tickr⟩

theorem SUpd.refl {f l : Nat} {s : St α} {v : Nat → α} (h : Holds s.cell f l v) :
    SUpd lt f l s s v v := ⟨h, SPermOn.refl _ _ _, Frame.refl _ _ _⟩

theorem SUpd.trans {f l : Nat} {s s' s'' : St α} {v v' v'' : Nat → α}
    (h : SUpd lt f l s s' v v') (h' : SUpd lt f l s' s'' v' v'') : SUpd lt f l s s'' v v'' :=
  ⟨h'.holds, h.sperm.trans h'.sperm, h.frame.trans h'.frame⟩

theorem SUpd.widen {f l f' l' : Nat} {s s' : St α} {v v' : Nat → α} (h : SUpd lt f' l' s s' v v')
    (hh : Holds s.cell f l v) (hf : f ≤ f') (hl : l' ≤ l) : SUpd lt f l s s' v v' :=
  ⟨(h.upd.widen hh hf hl).holds, h.sperm.mono hf hl, h.frame.mono hf hl⟩

/-! ### Bridge between ranges described by functions and the list specification -/

theorem Seg.holds [Inhabited α] {c : Nat → Cell α} {first : Nat} {xs : List α}
    (h : Seg c first xs) :
    ∃ v, Holds c first (first + xs.length) v ∧ lst v first (first + xs.length) = xs := by
  refine ⟨fun i => xs.getD (i - first) default, fun i h1 h2 => ?_, ?_⟩
  · have := h (i - first) (by omega)
    rw [show first + (i - first) = i by omega] at this
    rw [this]
    simp [List.getD, List.getElem?_eq_getElem (show i - first < xs.length by omega)]
  · apply List.ext_getElem
    · simp
    · intro i h1 h2
      simp [lst, List.getElem?_eq_getElem h2]

theorem Holds.seg {c : Nat → Cell α} {f l : Nat} {v : Nat → α} (h : Holds c f l v) :
    Seg c f (lst v f l) := by
  intro i hi
  rw [lst_length] at hi
  rw [h (f + i) (by omega) (by omega)]
  simp [lst]

/-- Internal form of "sorts". -/
def SortsW (lt : α → α → Bool) (sort : Nat → Nat → M α Unit) : Prop :=
  ∀ (s : St α) (f l : Nat) (v : Nat → α), f ≤ l → s.WF → Holds s.cell f l v →
    wp (sort f l) (fun _ s' => ∃ v', Upd f l s s' v v' ∧ SortedOn lt f l v') s

/-- Internal form of "sorts stably". -/
def SortsStablyW (lt : α → α → Bool) (sort : Nat → Nat → M α Unit) : Prop :=
  ∀ (s : St α) (f l : Nat) (v : Nat → α), f ≤ l → s.WF → Holds s.cell f l v →
    wp (sort f l) (fun _ s' => ∃ v', SUpd lt f l s s' v v' ∧ SortedOn lt f l v') s

theorem sorts_of_w [Inhabited α] {sort : Nat → Nat → M α Unit} (h : SortsW lt sort) :
    Sorts lt sort := by
  intro s first xs hw hs
  obtain ⟨v, hv, he⟩ := hs.holds
  obtain ⟨_, s', hr, v', hu, hso⟩ := h s first _ v (by omega) hw hv
  refine ⟨s', lst v' first (first + xs.length), hr, by simp, hu.holds.seg, ⟨?_, ?_⟩, hu.frame.cell,
    hu.wf hv hw⟩
  · have := hu.perm.2
    rwa [he] at this
  · exact sortedOn_iff.1 hso

theorem Upd.transforms {m : M α Unit} {s s' : St α} {first : Nat} {xs : List α} {v v' : Nat → α}
    {u : Unit} (hu : Upd first (first + xs.length) s s' v v') (hw : s.WF)
    (hv : Holds s.cell first (first + xs.length) v) (he : lst v first (first + xs.length) = xs)
    (hr : m s = some (.ok u, s')) {R : List α → Prop} (hR : R (lst v' first (first + xs.length))) :
    Transforms m s first xs R := by
  refine ⟨s', lst v' first (first + xs.length), hr, by simp, hu.holds.seg, hR, hu.frame.cell,
    hu.wf hv hw⟩

theorem SUpd.transforms {m : M α Unit} {s s' : St α} {first : Nat} {xs : List α} {v v' : Nat → α}
    {u : Unit} (hu : SUpd lt first (first + xs.length) s s' v v') (hw : s.WF)
    (hv : Holds s.cell first (first + xs.length) v) (he : lst v first (first + xs.length) = xs)
    (hr : m s = some (.ok u, s')) (hso : SortedOn lt first (first + xs.length) v') :
    Transforms m s first xs (fun ys => ys.Perm xs ∧ SortedList lt ys ∧ SameOrder lt xs ys) := by
  refine hu.upd.transforms hw hv he hr ⟨?_, sortedOn_iff.1 hso, ?_⟩
  · have := hu.sperm.1.2
    rwa [he] at this
  · have := hu.sperm.2
    rwa [he] at this

/-- Internal form for fixed-size sorters. -/
theorem sortsSized_of_w [Inhabited α] {n : Nat} {sort : Nat → Nat → M α Unit}
    (h : ∀ (s : St α) (f : Nat) (v : Nat → α), s.WF → Holds s.cell f (f + n) v →
      wp (sort f (f + n)) (fun _ s' => ∃ v', Upd f (f + n) s s' v v' ∧
        SortedOn lt f (f + n) v') s) : SortsSized lt n sort := by
  intro s first xs hn hw hs
  obtain ⟨v, hv, he⟩ := hs.holds
  subst hn
  obtain ⟨_, s', hr, v', hu, hso⟩ := h s first v hw hv
  refine hu.transforms hw hv he hr ⟨?_, sortedOn_iff.1 hso⟩
  have := hu.perm.2
  rwa [he] at this

theorem sortsStably_of_w [Inhabited α] {sort : Nat → Nat → M α Unit} (h : SortsStablyW lt sort) :
    SortsStably lt sort := by
  intro s first xs hw hs
  obtain ⟨v, hv, he⟩ := hs.holds
  obtain ⟨_, s', hr, v', hu, hso⟩ := h s first _ v (by omega) hw hv
  refine ⟨s', lst v' first (first + xs.length), hr, by simp, hu.holds.seg, ⟨?_, ?_, ?_⟩,
    hu.frame.cell, hu.upd.wf hv hw⟩
  · have := hu.sperm.1.2
    rwa [he] at this
  · exact sortedOn_iff.1 hso
  · have := hu.sperm.2
    rwa [he] at this

theorem SortsStably.sorts {sort : Nat → Nat → M α Unit} (h : SortsStably lt sort) :
    Sorts lt sort := by
  intro s first xs hw hs
  obtain ⟨s', ys, h1, h2, h3, h4, h5⟩ := h s first xs hw hs
  exact ⟨s', ys, h1, h2, h3, ⟨h4.1, h4.2.1⟩, h5⟩

theorem SortsStablyW.sortsW {sort : Nat → Nat → M α Unit} (h : SortsStablyW lt sort) :
    SortsW lt sort := fun s f l v hfl hw hh =>
  wp_mono (h s f l v hfl hw hh) fun _ _ ⟨v', hu, hs⟩ => ⟨v', hu.upd, hs⟩

end CppSort
