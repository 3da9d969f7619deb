import Verif.Base.Order
/-
Lists: the result of a stable sort, the stable merge of two sorted lists, and cell-level rules for
code that moves elements between two places.
-/
set_option autoImplicit false

namespace CppSort
variable {α : Type} {lt : α → α → Bool}

theorem eqv_flip : eqv (fun x y => lt y x) = eqv lt := by
  funext x y
  simp [eqv, Bool.and_comm]

/-- `out` is the stably sorted version of `ins`. -/
def SSorted (lt : α → α → Bool) (ins out : List α) : Prop :=
  out.Perm ins ∧ SortedList lt out ∧ SameOrder lt ins out

theorem SSorted.reverse {ins out : List α} (h : SSorted (fun x y => lt y x) ins out) :
    SSorted lt ins.reverse out.reverse := by
  obtain ⟨h1, h2, h3⟩ := h
  refine ⟨?_, ?_, fun x => ?_⟩
  · exact (List.reverse_perm _).trans (h1.trans (List.reverse_perm _).symm)
  · unfold SortedList; rw [List.pairwise_reverse]; exact h2
  · have := h3 x
    rw [eqv_flip] at this
    rw [List.filter_reverse, List.filter_reverse, this]

/-- Stably sorted versions are unique. -/
theorem SSorted.unique (hlt : StrictWeak lt) : ∀ {a b : List α}, a.Perm b → SortedList lt a →
    SortedList lt b → SameOrder lt a b → a = b := by
  intro a
  induction a with
  | nil => intro b hp _ _ _; exact (List.Perm.nil_eq hp)
  | cons x a ih =>
    intro b hp ha hb ho
    cases b with
    | nil => exact absurd hp (List.cons_ne_nil _ _ ∘ List.Perm.eq_nil)
    | cons y b =>
      have hxy : lt y x = false := by
        have : y ∈ x :: a := hp.mem_iff.2 (by simp)
        rcases List.mem_cons.1 this with e | e
        · rw [e]; exact hlt.irrefl _
        · exact (List.pairwise_cons.1 ha).1 y e
      have hyx : lt x y = false := by
        have : x ∈ y :: b := hp.mem_iff.1 (by simp)
        rcases List.mem_cons.1 this with e | e
        · rw [e]; exact hlt.irrefl _
        · exact (List.pairwise_cons.1 hb).1 x e
      have e : x = y := by
        have := ho x
        rw [List.filter_cons_of_pos (by simp [eqv, hxy, hyx]),
          List.filter_cons_of_pos (by simp [eqv, hlt.irrefl])] at this
        exact (List.cons.inj this).1.symm
      subst e
      congr 1
      refine ih hp.cons_inv (List.pairwise_cons.1 ha).2 (List.pairwise_cons.1 hb).2 fun z => ?_
      have := ho z
      rw [List.filter_cons, List.filter_cons] at this
      split at this
      · exact (List.cons.inj this).2
      · exact this

/-- The stable merge: an element of the second list goes first only when it is strictly less. -/
def mergeL (lt : α → α → Bool) : List α → List α → List α
  | [], ys => ys
  | x :: xs, [] => x :: xs
  | x :: xs, y :: ys => if lt y x then y :: mergeL lt (x :: xs) ys else x :: mergeL lt xs (y :: ys)
termination_by xs ys => xs.length + ys.length

@[simp] theorem mergeL_nil_left (ys : List α) : mergeL lt [] ys = ys := by rw [mergeL]

@[simp] theorem mergeL_nil_right (xs : List α) : mergeL lt xs [] = xs := by
  cases xs <;> rw [mergeL]

theorem mergeL_cons (x y : α) (xs ys : List α) : mergeL lt (x :: xs) (y :: ys) =
    if lt y x then y :: mergeL lt (x :: xs) ys else x :: mergeL lt xs (y :: ys) := by
  rw [mergeL]

theorem mergeL_perm : ∀ xs ys : List α, (mergeL lt xs ys).Perm (xs ++ ys) := by
  intro xs ys
  fun_induction mergeL lt xs ys with
  | case1 ys => simp
  | case2 x xs => simp
  | case3 x xs y ys h ih =>
    exact (ih.cons y).trans (List.perm_middle.symm)
  | case4 x xs y ys h ih => exact ih.cons x

theorem mergeL_ssorted (hlt : StrictWeak lt) : ∀ xs ys : List α, SortedList lt xs →
    SortedList lt ys → SSorted lt (xs ++ ys) (mergeL lt xs ys) := by
  intro xs ys hx hy
  refine ⟨mergeL_perm xs ys, ?_⟩
  fun_induction mergeL lt xs ys with
  | case1 ys => exact ⟨hy, fun _ => rfl⟩
  | case2 x xs => exact ⟨hx, fun _ => by simp⟩
  | case3 x xs y ys h ih =>
    obtain ⟨i1, i2⟩ := ih hx (List.pairwise_cons.1 hy).2
    have hall : ∀ z ∈ x :: xs, lt y z = true := by
      intro z hz
      rcases List.mem_cons.1 hz with e | e
      · rw [e]; exact h
      · exact hlt.lt_of_lt_of_le h ((List.pairwise_cons.1 hx).1 z e)
    constructor
    · refine List.pairwise_cons.2 ⟨fun z hz => ?_, i1⟩
      rcases List.mem_append.1 ((mergeL_perm _ _).mem_iff.1 hz) with e | e
      · exact hlt.asymm (hall z e)
      · exact (List.pairwise_cons.1 hy).1 z e
    · intro z
      have := i2 z
      rw [List.filter_cons, this, List.filter_append, List.filter_append, List.filter_cons (x := y)]
      split
      · rename_i hz
        have : (x :: xs).filter (eqv lt z) = [] := by
          rw [List.filter_eq_nil_iff]
          intro w hw he
          have h1 := hlt.eqv_trans (StrictWeak.eqv_symm hz) he
          have h2 := hall w hw
          simp [eqv, h2] at h1
        rw [this]; simp
      · rfl
  | case4 x xs y ys h ih =>
    obtain ⟨i1, i2⟩ := ih (List.pairwise_cons.1 hx).2 hy
    constructor
    · refine List.pairwise_cons.2 ⟨fun z hz => ?_, i1⟩
      rcases List.mem_append.1 ((mergeL_perm _ _).mem_iff.1 hz) with e | e
      · exact (List.pairwise_cons.1 hx).1 z e
      · have hyx : lt y x = false := by simpa using h
        rcases List.mem_cons.1 e with e | e
        · rw [e]; exact hyx
        · exact hlt.le_trans hyx ((List.pairwise_cons.1 hy).1 z e)
    · intro z
      have := i2 z
      rw [List.filter_cons, this, List.cons_append, List.filter_cons]

theorem lst_inj {v w : Nat → α} {f l : Nat} (h : lst v f l = lst w f l) :
    ∀ i, f ≤ i → i < l → v i = w i := by
  intro i h1 h2
  unfold lst at h
  rw [List.map_inj_left] at h
  exact h i (by rw [List.mem_range'_1]; omega)

/-- Values from a list. -/
theorem lst_shift {v : Nat → α} {f l k : Nat} :
    lst (fun i => v (i + k)) f l = lst v (f + k) (l + k) := by
  unfold lst
  rw [show l + k - (f + k) = l - f by omega]
  rw [show f + k = k + f by omega, ← List.map_add_range', List.map_map]
  apply List.map_congr_left
  intro i _
  simp [Nat.add_comm]

theorem lst_reverse {v : Nat → α} {f l N : Nat} (h : l ≤ N) :
    lst (fun i => v (N - 1 - i)) (N - l) (N - f) = (lst v f l).reverse := by
  by_cases hfl : f ≤ l
  · apply List.ext_getElem
    · simp; omega
    · intro i h1 h2
      have h3 : i < l - f := by simpa using h2
      simp only [lst, List.length_map, List.length_range', List.getElem_map, List.getElem_range',
        List.getElem_reverse]
      congr 1; omega
  · rw [lst_nil (by omega), lst_nil (by omega)]; rfl

theorem SSorted.sperm {f l : Nat} {v v' : Nat → α} (h : SSorted lt (lst v f l) (lst v' f l))
    (ho : ∀ i, (i < f ∨ l ≤ i) → v' i = v i) : SPermOn lt f l v v' ∧ SortedOn lt f l v' :=
  ⟨⟨⟨ho, h.1⟩, h.2.2⟩, sortedOn_iff.2 h.2.1⟩

/-! ### Cells -/

/-- The cell is a live object, with or without a value. -/
def Live (c : Nat → Cell α) (i : Nat) : Prop := c i = .moved ∨ ∃ a, c i = .val a

theorem Live.of_val {c : Nat → Cell α} {i : Nat} {a : α} (h : c i = .val a) : Live c i :=
  Or.inr ⟨a, h⟩

theorem sc_eq {c : Nat → Cell α} {i k : Nat} {x : Cell α} (h : k = i) : setCell c i x k = x := by
  simp [setCell, h]

theorem sc_ne {c : Nat → Cell α} {i k : Nat} {x : Cell α} (h : k ≠ i) : setCell c i x k = c k := by
  simp [setCell, h]

/-- Simplify memory updates. -/
macro "sc" loc:(Lean.Parser.Tactic.location)? : tactic =>
  `(tactic| simp (disch := omega) only [sc_eq, sc_ne] $[$loc]?)

theorem wp_moveTo' {Q : Unit → St α → Prop} {s : St α} {i j : Nat} {a : α}
    (hne : i ≠ j) (hj : s.cell j = .val a) (hi : Live s.cell i)
    (hQ : ∀ s', s'.cell = setCell (setCell s.cell j .moved) i (.val a) → s'.env = s.env →
      s'.cmps = s.cmps → s'.movs = s.movs + 1 → Q () s') :
    wp (moveTo i j) Q s := by
  refine ⟨(), _, ?_, hQ { s with cell := setCell (setCell s.cell j .moved) i (.val a),
                                 movs := s.movs + 1 } rfl rfl rfl rfl⟩
  rcases hi with h | ⟨b, h⟩ <;> simp [moveTo, hne, hj, h]

theorem wp_moveOut' {Q : α → St α → Prop} {s : St α} {i : Nat} {a : α} (h : s.cell i = .val a)
    (hQ : ∀ s', s'.cell = setCell s.cell i .moved → s'.env = s.env →
      s'.cmps = s.cmps → s'.movs = s.movs + 1 → Q a s') :
    wp (moveOut i) Q s :=
  ⟨a, _, by simp only [moveOut, h], 
    hQ { s with cell := setCell s.cell i .moved, movs := s.movs + 1 } rfl rfl rfl rfl⟩

theorem wp_assign' {Q : Unit → St α → Prop} {s : St α} {i : Nat} {a : α} (h : Live s.cell i)
    (hQ : ∀ s', s'.cell = setCell s.cell i (.val a) → s'.env = s.env →
      s'.cmps = s.cmps → s'.movs = s.movs + 1 → Q () s') :
    wp (assign i a) Q s := by
  refine ⟨(), _, ?_, hQ { s with cell := setCell s.cell i (.val a), movs := s.movs + 1 }
    rfl rfl rfl rfl⟩
  rcases h with h | ⟨b, h⟩ <;> simp [assign, h]

theorem wp_constructFrom {Q : Unit → St α → Prop} {s : St α} {i j : Nat} {a : α}
    (hj : s.cell j = .val a) (hi : s.cell i = .raw)
    (hQ : ∀ s', s'.cell = setCell (setCell s.cell j .moved) i (.val a) → s'.env = s.env →
      s'.cmps = s.cmps → s'.movs = s.movs + 1 → Q () s') :
    wp (constructFrom i j) Q s := by
  refine ⟨(), _, ?_, hQ { s with cell := setCell (setCell s.cell j .moved) i (.val a),
                                 movs := s.movs + 1 } rfl rfl rfl rfl⟩
  simp [constructFrom, hj, hi]

theorem wp_construct {Q : Unit → St α → Prop} {s : St α} {i : Nat} {a : α}
    (hi : s.cell i = .raw)
    (hQ : ∀ s', s'.cell = setCell s.cell i (.val a) → s'.env = s.env →
      s'.cmps = s.cmps → s'.movs = s.movs + 1 → Q () s') :
    wp (construct i a) Q s := by
  refine ⟨(), _, ?_, hQ { s with cell := setCell s.cell i (.val a), movs := s.movs + 1 }
    rfl rfl rfl rfl⟩
  simp [construct, hi]

theorem wp_destroy {Q : Unit → St α → Prop} {s : St α} {i : Nat} (h : Live s.cell i)
    (hQ : ∀ s', s'.cell = setCell s.cell i .raw → s'.env = s.env →
      s'.cmps = s.cmps → s'.movs = s.movs → Q () s') : wp (destroy i) Q s := by
  refine ⟨(), _, ?_, hQ { s with cell := setCell s.cell i .raw } rfl rfl rfl rfl⟩
  rcases h with h | ⟨b, h⟩ <;> simp [destroy, h]

theorem wp_swap' {Q : Unit → St α → Prop} {s : St α} {i j : Nat} {a b : α}
    (hi : s.cell i = .val a) (hj : s.cell j = .val b)
    (hQ : ∀ s', s'.cell = setCell (setCell s.cell i (.val b)) j (.val a) → s'.env = s.env →
      s'.cmps = s.cmps → s'.movs = s.movs + 3 → Q () s') : wp (swap i j) Q s := by
  refine ⟨(), _, ?_, hQ { s with cell := setCell (setCell s.cell i (.val b)) j (.val a),
                                 movs := s.movs + 3 } rfl rfl rfl rfl⟩
  simp [swap, hi, hj]

theorem wp_alloc {Q : Nat → St α → Prop} {s : St α} {n : Nat}
    (hQ : ∀ s', (∀ k, s.brk ≤ k → k < s.brk + n → s'.cell k = .raw) →
      (∀ k, k < s.brk ∨ s.brk + n ≤ k → s'.cell k = s.cell k) → s'.brk = s.brk + n → s'.grant = s.grant →
      s'.cmps = s.cmps → s'.movs = s.movs → Q s.brk s') : wp (alloc n) Q s := by
  refine ⟨_, _, rfl, hQ _ ?_ ?_ rfl rfl rfl rfl⟩
  · intro k h1 h2; simp [h1, h2]
  · intro k h; show (if _ then _ else _) = _; rw [if_neg (by omega)]

theorem wp_free {Q : Unit → St α → Prop} {s : St α} {p n : Nat}
    (h : ∀ i, p ≤ i → i < p + n → s.cell i = .raw)
    (hQ : ∀ s', (∀ i, p ≤ i → i < p + n → s'.cell i = .unalloc) →
      (∀ i, i < p ∨ p + n ≤ i → s'.cell i = s.cell i) → s'.env = s.env →
      s'.cmps = s.cmps → s'.movs = s.movs → Q () s') :
    wp (free p n) Q s := by
  refine ⟨(), { s with cell := fun k => if p ≤ k ∧ k < p + n then .unalloc else s.cell k }, ?_,
    hQ _ ?_ ?_ rfl rfl rfl⟩
  · have : (List.range n).all (fun k => (s.cell (p + k)).isRaw) = true := by
      rw [List.all_eq_true]
      intro k hk
      rw [List.mem_range] at hk
      rw [h (p + k) (by omega) (by omega)]
      rfl
    simp only [free, this, if_true]
  · intro k h1 h2; simp [h1, h2]
  · intro k h; show (if _ then _ else _) = _; rw [if_neg (by omega)]

end CppSort
