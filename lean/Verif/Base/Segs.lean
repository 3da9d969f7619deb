import Verif.Base.Merge
/-
Ranges of memory described by lists.
-/
set_option autoImplicit false

namespace CppSort
variable {α : Type} {lt : α → α → Bool}

theorem Seg.congr {c c' : Nat → Cell α} {f : Nat} {xs : List α} (h : Seg c f xs)
    (e : ∀ i, f ≤ i → i < f + xs.length → c' i = c i) : Seg c' f xs := by
  intro i hi
  rw [e (f + i) (by omega) (by omega)]
  exact h i hi

theorem Seg.nil {c : Nat → Cell α} {f : Nat} : Seg c f [] := fun i hi => by simp at hi

theorem seg_cons {c : Nat → Cell α} {f : Nat} {x : α} {xs : List α} :
    Seg c f (x :: xs) ↔ c f = .val x ∧ Seg c (f + 1) xs := by
  constructor
  · intro h
    refine ⟨h 0 (by simp), fun i hi => ?_⟩
    have := h (i + 1) (by simp; omega)
    rwa [show f + (i + 1) = f + 1 + i by omega] at this
  · rintro ⟨h1, h2⟩ i hi
    cases i with
    | zero => exact h1
    | succ i =>
      have := h2 i (by simpa using hi)
      rwa [show f + 1 + i = f + (i + 1) by omega] at this

theorem seg_append {c : Nat → Cell α} {f : Nat} {xs ys : List α} :
    Seg c f (xs ++ ys) ↔ Seg c f xs ∧ Seg c (f + xs.length) ys := by
  induction xs generalizing f with
  | nil => simp [Seg.nil]
  | cons x xs ih =>
    rw [List.cons_append, seg_cons, seg_cons, ih, List.length_cons,
      show f + 1 + xs.length = f + (xs.length + 1) by omega, and_assoc]

theorem seg_one {c : Nat → Cell α} {f : Nat} {x : α} : Seg c f [x] ↔ c f = .val x := by
  rw [seg_cons]; exact ⟨fun h => h.1, fun h => ⟨h, Seg.nil⟩⟩

theorem seg_snoc {c : Nat → Cell α} {f : Nat} {xs : List α} {x : α} :
    Seg c f (xs ++ [x]) ↔ Seg c f xs ∧ c (f + xs.length) = .val x := by
  rw [seg_append, seg_one]

/-- An update of a cell outside of the range. -/
theorem Seg.out {c : Nat → Cell α} {f k : Nat} {xs : List α} {x : Cell α} (h : Seg c f xs)
    (hk : k < f ∨ f + xs.length ≤ k) : Seg (setCell c k x) f xs :=
  h.congr fun i h1 h2 => sc_ne (by omega)

theorem Live.out {c : Nat → Cell α} {i k : Nat} {x : Cell α} (h : Live c i) (hk : i ≠ k) :
    Live (setCell c k x) i := by
  unfold Live; rw [sc_ne hk]; exact h

theorem Live.moved {c : Nat → Cell α} {i k : Nat} (e : i = k) : Live (setCell c k .moved) i :=
  .inl (sc_eq e)

theorem Live.val {c : Nat → Cell α} {i k : Nat} {a : α} (e : i = k) : Live (setCell c k (.val a)) i :=
  .inr ⟨a, sc_eq e⟩

theorem Live.keep {c : Nat → Cell α} {i k : Nat} {x : Cell α} (h : Live c i)
    (hx : x = .moved ∨ ∃ a, x = .val a) : Live (setCell c k x) i := by
  by_cases e : i = k
  · unfold Live; rw [sc_eq e]; exact hx
  · exact h.out e

theorem Seg.live {c : Nat → Cell α} {f : Nat} {xs : List α} (h : Seg c f xs) {i : Nat} (h1 : f ≤ i)
    (h2 : i < f + xs.length) : Live c i := by
  have := h (i - f) (by omega)
  rw [show f + (i - f) = i by omega] at this
  exact .of_val this

theorem Seg.below {s : St α} {f : Nat} {xs : List α} (hw : s.WF) (h : Seg s.cell f xs)
    (hx : 0 < xs.length) : f + xs.length ≤ s.brk := by
  by_contra hc
  have := h (xs.length - 1) (by omega)
  rw [hw _ (by omega)] at this
  cases this

theorem Seg.inj {c : Nat → Cell α} {f : Nat} : ∀ {xs ys : List α}, Seg c f xs → Seg c f ys →
    xs.length = ys.length → xs = ys := by
  intro xs ys h h' hl
  apply List.ext_getElem hl
  intro i h1 h2
  have a := h i h1
  rw [h' i h2] at a
  exact (Cell.val.inj a).symm

/-- A use of a sorter. -/
theorem Sorts.run {sort : Nat → Nat → M α Unit} (h : Sorts lt sort) {s : St α} {f l : Nat} {xs : List α}
    (hw : s.WF) (hs : Seg s.cell f xs) (hl : l = f + xs.length) :
    wp (sort f l) (fun _ s' => ∃ ys, ys.Perm xs ∧ SortedList lt ys ∧ Seg s'.cell f ys ∧
      (∀ i, i < f ∨ l ≤ i → s'.cell i = s.cell i) ∧ s'.WF) s := by
  subst hl
  obtain ⟨s', ys, h1, h2, h3, h4, h5, h6⟩ := h s f xs hw hs
  exact ⟨(), s', h1, ys, h4.1, h4.2, h3, h5, h6⟩

/-- A use of a stable sorter. -/
theorem SortsStably.run {sort : Nat → Nat → M α Unit} (h : SortsStably lt sort) {s : St α} {f l : Nat}
    {xs : List α} (hw : s.WF) (hs : Seg s.cell f xs) (hl : l = f + xs.length) :
    wp (sort f l) (fun _ s' => ∃ ys, ys.Perm xs ∧ SortedList lt ys ∧ SameOrder lt xs ys ∧ Seg s'.cell f ys ∧
      (∀ i, i < f ∨ l ≤ i → s'.cell i = s.cell i) ∧ s'.WF) s := by
  subst hl
  obtain ⟨s', ys, h1, h2, h3, h4, h5, h6⟩ := h s f xs hw hs
  exact ⟨(), s', h1, ys, h4.1, h4.2.1, h4.2.2, h3, h5, h6⟩

theorem sortedList_append {xs ys : List α} : SortedList lt (xs ++ ys) ↔
    SortedList lt xs ∧ SortedList lt ys ∧ ∀ x ∈ xs, ∀ y ∈ ys, lt y x = false :=
  List.pairwise_append

theorem sortedList_cons {x : α} {xs : List α} : SortedList lt (x :: xs) ↔
    (∀ y ∈ xs, lt y x = false) ∧ SortedList lt xs := List.pairwise_cons

theorem sortedList_snoc (hlt : StrictWeak lt) {xs : List α} {y x : α} (h : SortedList lt (xs ++ [y]))
    (hx : lt x y = false) : SortedList lt (xs ++ [y] ++ [x]) := by
  refine sortedList_append.2 ⟨h, List.pairwise_singleton _ _, fun z hz w hw => ?_⟩
  rw [List.mem_singleton.1 hw]
  rcases List.mem_append.1 hz with hz | hz
  · exact hlt.le_trans ((sortedList_append.1 h).2.2 z hz y (by simp)) hx
  · rw [List.mem_singleton.1 hz]; exact hx

/-- What code that uses an arbitrary sorter does to a range: like `Upd`, without the answers of the
allocator. -/
structure WUpd (f l : Nat) (s s' : St α) (v v' : Nat → α) : Prop where
  holds : Holds s'.cell f l v'
  perm : PermOn f l v v'
  cell : ∀ i, i < f ∨ l ≤ i → s'.cell i = s.cell i
  wf : s'.WF

theorem Upd.wupd {f l : Nat} {s s' : St α} {v v' : Nat → α} (h : Upd f l s s' v v') (hw : s.WF)
    (hh : Holds s.cell f l v) : WUpd f l s s' v v' := ⟨h.holds, h.perm, h.frame.cell, h.wf hh hw⟩

theorem WUpd.trans {f l : Nat} {s s' s'' : St α} {v v' v'' : Nat → α} (h : WUpd f l s s' v v')
    (h' : WUpd f l s' s'' v' v'') : WUpd f l s s'' v v'' :=
  ⟨h'.holds, h.perm.trans h'.perm, fun i hi => (h'.cell i hi).trans (h.cell i hi), h'.wf⟩

theorem WUpd.widen {f l f' l' : Nat} {s s' : St α} {v v' : Nat → α} (h : WUpd f' l' s s' v v')
    (hh : Holds s.cell f l v) (hf : f ≤ f') (hl : l' ≤ l) : WUpd f l s s' v v' := by
  refine ⟨fun i h1 h2 => ?_, h.perm.mono hf hl, fun i hi => h.cell i (by omega), h.wf⟩
  by_cases hi : f' ≤ i ∧ i < l'
  · exact h.holds i hi.1 hi.2
  · rw [h.cell i (by omega), hh i h1 h2, h.perm.out (by omega)]

theorem WUpd.transforms {m : M α Unit} {s s' : St α} {first : Nat} {xs : List α} {v v' : Nat → α}
    {u : Unit} (hu : WUpd first (first + xs.length) s s' v v')
    (hr : m s = some (.ok u, s')) {R : List α → Prop} (hR : R (lst v' first (first + xs.length))) :
    Transforms m s first xs R :=
  ⟨s', lst v' first (first + xs.length), hr, by simp, hu.holds.seg, hR, hu.cell, hu.wf⟩

/-- A use of a sorter, in terms of functions. -/
theorem Sorts.use [Inhabited α] {sort : Nat → Nat → M α Unit} (h : Sorts lt sort) {s : St α} {f l : Nat}
    {v : Nat → α} (hfl : f ≤ l) (hw : s.WF) (hh : Holds s.cell f l v) :
    wp (sort f l) (fun _ s' => ∃ v', WUpd f l s s' v v' ∧ SortedOn lt f l v') s := by
  refine wp_mono (h.run hw hh.seg (by rw [lst_length]; omega)) ?_
  rintro _ s' ⟨ys, h1, h2, h3, h4, h5⟩
  have hlen := h1.length_eq
  rw [lst_length] at hlen
  obtain ⟨w, hw', he⟩ := h3.holds
  rw [show f + ys.length = l by omega] at hw' he
  have e : ∀ i, f ≤ i → i < l → (if f ≤ i ∧ i < l then w i else v i) = w i := fun i a b => if_pos ⟨a, b⟩
  refine ⟨fun i => if f ≤ i ∧ i < l then w i else v i, ⟨fun i a b => ?_, ⟨fun i hi => ?_, ?_⟩, h4, h5⟩, ?_⟩
  · rw [e i a b]; exact hw' i a b
  · exact if_neg (by omega)
  · rw [lst_congr e, he]; exact h1
  · rw [sortedOn_iff, lst_congr e, he]; exact h2

end CppSort
