import Verif.Base.Runs
import Verif.Base.Merge
import Verif.Model.Lists
set_option autoImplicit false

namespace CppSort
variable {α β γ : Type} {lt : α → α → Bool}

theorem Runs.nth {xs : List β} {i : Nat} {x : β} (h : xs[i]? = some x) :
    Runs (α := α) (nth xs i) (fun r => r = x) := by
  unfold CppSort.nth
  rw [h]
  exact Runs.pure rfl

theorem Runs.nthBind {xs : List β} {i : Nat} {x : β} {k : β → M α γ} {R : γ → Prop}
    (h : xs[i]? = some x) (hk : Runs (k x) R) : Runs (CppSort.nth xs i >>= k) R :=
  (Runs.nth h).bind fun _ e => e ▸ hk

theorem lowerBoundBy_runs {test : Nat → M α Bool} {P : Nat → Bool} :
    ∀ (n first size : Nat), size = n →
    (∀ i, first ≤ i → i < first + size → Runs (test i) (fun r => r = P i)) →
    Runs (lowerBoundBy test first size) (fun r => first ≤ r ∧ r ≤ first + size ∧
      (r < first + size → P r = false) ∧ (first < r → P (r - 1) = true)) := by
  intro n
  induction n using Nat.strongRecOn with
  | _ n ih =>
    intro first size hn ht
    rw [lowerBoundBy]
    split
    · simp only
      refine (ht (first + size / 2) (by omega) (by omega)).bind fun r hr => ?_
      subst hr
      split
      · rename_i hp
        refine (ih _ (by omega) (first + size / 2 + 1) _ rfl fun i a c => ht i (by omega) (by omega)).mono ?_
        rintro r ⟨h1, h2, h3, h4⟩
        refine ⟨by omega, by omega, fun h => h3 (by omega), fun h => ?_⟩
        by_cases e : r = first + size / 2 + 1
        · rw [e, Nat.add_sub_cancel]; exact hp
        · exact h4 (by omega)
      · rename_i hp
        refine (ih _ (by omega) first (size / 2) rfl fun i a c => ht i a (by omega)).mono ?_
        rintro r ⟨h1, h2, h3, h4⟩
        refine ⟨by omega, by omega, fun h => ?_, h4⟩
        by_cases e : r = first + size / 2
        · rw [e]; simpa using hp
        · exact h3 (by omega)
    · exact Runs.pure ⟨Nat.le_refl _, by omega, fun h => by omega, fun h => by omega⟩

theorem insertIdx_mid (a c : List α) (x : α) : (a ++ c).insertIdx a.length x = a ++ x :: c := by
  induction a with
  | nil => simp
  | cons y a ih => simp [ih]

theorem eraseIdx_mid (a c : List α) (x : α) : (a ++ x :: c).eraseIdx a.length = a ++ c := by
  induction a with
  | nil => simp
  | cons y a ih => simp [ih]

/-- Relinking a node to an earlier place. -/
theorem splice_runs (a b c : List α) (x : α) :
    Runs (splice (a ++ (b ++ x :: c)) a.length (a.length + b.length))
      (fun r => r = a ++ x :: (b ++ c)) := by
  unfold splice
  refine Runs.nthBind (x := x) ?_ ?_
  · rw [← List.append_assoc, ← List.length_append]; simp
  · rw [if_pos (by omega)]
    refine Runs.pure ?_
    rw [← List.append_assoc, ← List.length_append, eraseIdx_mid, List.append_assoc, insertIdx_mid]

theorem SameOrder.refl (xs : List α) : SameOrder lt xs xs := fun _ => rfl

theorem SameOrder.trans {xs ys zs : List α} (h : SameOrder lt xs ys) (h' : SameOrder lt ys zs) :
    SameOrder lt xs zs := fun x => (h' x).trans (h x)

/-- Moving an element over elements that are greater keeps equivalent elements in order. -/
theorem sameOrder_hop (hlt : StrictWeak lt) (a b c : List α) (x : α)
    (h : ∀ y ∈ b, lt x y = true) : SameOrder lt (a ++ (b ++ x :: c)) (a ++ x :: (b ++ c)) := by
  intro z
  simp only [List.filter_append, List.filter_cons]
  by_cases hz : eqv lt z x = true
  · have : b.filter (eqv lt z) = [] := by
      rw [List.filter_eq_nil_iff]
      intro y hy hzy
      unfold eqv at hz hzy
      simp only [Bool.and_eq_true, Bool.not_eq_true'] at hz hzy
      have h1 := h y hy
      have h2 := (hlt.equiv_trans x z y hz.2 hz.1 hzy.1 hzy.2).1
      simp [h2] at h1
    simp [this]
  · simp [hz]

theorem perm_hop (a b c : List α) (x : α) : (a ++ x :: (b ++ c)).Perm (a ++ (b ++ x :: c)) :=
  (List.Perm.append_left _ (List.perm_middle).symm)

/-- A sorted list with one more element put in the right place. -/
theorem sorted_insert (hlt : StrictWeak lt) {a b : List α} {x : α} (h : SortedList lt (a ++ b))
    (ha : ∀ y ∈ a, lt x y = false) (hb : ∀ y ∈ b, lt y x = false) :
    SortedList lt (a ++ x :: b) := by
  unfold SortedList at *
  rw [List.pairwise_append] at *
  obtain ⟨h1, h2, h3⟩ := h
  refine ⟨h1, List.pairwise_cons.2 ⟨hb, h2⟩, fun y hy z hz => ?_⟩
  rcases List.mem_cons.1 hz with e | e
  · rw [e]; exact ha y hy
  · exact h3 y hy z e

/-- Cutting a list at the place found by the binary search. -/
theorem cut3 (xs : List α) {p it : Nat} (h1 : p ≤ it) (h2 : it < xs.length) :
    ∃ a b c, xs = a ++ (b ++ xs[it] :: c) ∧ a.length = p ∧ a.length + b.length = it ∧
      xs.take it = a ++ b := by
  refine ⟨xs.take p, (xs.take it).drop p, xs.drop (it + 1), ?_, by simp; omega, by simp; omega, ?_⟩
  · rw [← List.append_assoc]
    have : xs.take p ++ (xs.take it).drop p = xs.take it := by
      conv_rhs => rw [← List.take_append_drop p (xs.take it)]
      rw [List.take_take, Nat.min_eq_left h1]
    rw [this]
    conv_lhs => rw [← List.take_append_drop it xs, List.drop_eq_getElem_cons h2]
  · conv_lhs => rw [← List.take_append_drop p (xs.take it)]
    rw [List.take_take, Nat.min_eq_left h1]

/-- One insertion step: what the loops do, given the place. -/
theorem insertStep (hlt : StrictWeak lt) {xs0 xs : List α} {p it : Nat} (hp : p ≤ it)
    (hi : it < xs.length) (hs : SortedList lt (xs.take it)) (hperm : xs.Perm xs0)
    (ho : SameOrder lt xs0 xs)
    (hA : ∀ i (h : i < p), lt xs[it] xs[i] = false)
    (hB : ∀ i (_ : p ≤ i) (h : i < it), lt xs[it] xs[i] = true) :
    Runs (splice xs p it) (fun ys => ys.length = xs.length ∧ SortedList lt (ys.take (it + 1)) ∧
      ys.Perm xs0 ∧ SameOrder lt xs0 ys) ∧
    (p = it → SortedList lt (xs.take (it + 1))) := by
  obtain ⟨a, b, c, h1, h2, h3, h4⟩ := cut3 xs hp hi
  generalize hx : xs[it] = x at *
  have hA' : ∀ y ∈ a, lt x y = false := by
    intro y hy
    obtain ⟨i, hi1, hi2⟩ := List.mem_iff_getElem.1 hy
    have := hA i (by omega)
    rw [← hi2]
    convert this using 2
    simp only [h1]
    rw [List.getElem_append_left hi1]
  have hB' : ∀ y ∈ b, lt x y = true := by
    intro y hy
    obtain ⟨i, hi1, hi2⟩ := List.mem_iff_getElem.1 hy
    have := hB (a.length + i) (by omega) (by omega)
    rw [← hi2]
    convert this using 2
    simp only [h1]
    rw [List.getElem_append_right (by omega)]
    simp only [Nat.add_sub_cancel_left]
    rw [List.getElem_append_left hi1]
  rw [h4] at hs
  have hso := sorted_insert hlt hs hA' (fun y hy => hlt.asymm (hB' y hy))
  constructor
  · rw [← h3, ← h2]
    conv => arg 1; rw [h1]
    refine (splice_runs a b c x).mono ?_
    rintro _ rfl
    refine ⟨by rw [h1]; simp; omega, ?_, (perm_hop a b c x).trans (h1 ▸ hperm),
      ho.trans (h1 ▸ sameOrder_hop hlt a b c x hB')⟩
    have : (a ++ x :: (b ++ c)) = (a ++ x :: b) ++ c := by simp
    rw [this, List.take_append_of_le_length (by simp; omega), List.take_of_length_le (by simp; omega)]
    exact hso
  · intro e
    have hb0 : b = [] := List.eq_nil_of_length_eq_zero (by omega)
    subst hb0
    have : xs = (a ++ [x]) ++ c := by rw [h1]; simp
    rw [this, List.take_append_of_le_length (by simp; omega), List.take_of_length_le (by simp; omega)]
    exact hso

/-- The binary search for the insertion point. -/
theorem upperPlace (hlt : StrictWeak lt) {xs : List α} {it p : Nat} (hi : it < xs.length)
    (hs : SortedList lt (xs.take it)) (hp : p ≤ it)
    (h3 : p < it → (!lt xs[it] (xs.getD p xs[it])) = false)
    (h4 : 0 < p → (!lt xs[it] (xs.getD (p - 1) xs[it])) = true) :
    (∀ i (h : i < p), lt xs[it] xs[i] = false) ∧
    (∀ i (_ : p ≤ i) (h : i < it), lt xs[it] xs[i] = true) := by
  have hle : ∀ i j (h1 : i ≤ j) (h2 : j < it), lt xs[j] xs[i] = false := by
    intro i j h1 h2
    rcases Nat.lt_or_eq_of_le h1 with h | h
    · have := List.pairwise_iff_getElem.1 hs i j (by simp; omega) (by simp; omega) h
      simpa using this
    · subst h; exact hlt.irrefl _
  have hg : ∀ i (h : i < xs.length), xs.getD i xs[it] = xs[i] := by
    intro i h
    rw [List.getD_eq_getElem?_getD, List.getElem?_eq_getElem h]; rfl
  constructor
  · intro i h
    have := h4 (by omega)
    rw [hg _ (by omega)] at this
    exact hlt.le_trans (hle i (p - 1) (by omega) (by omega)) (by simpa using this)
  · intro i h1 h
    have := h3 (by omega)
    rw [hg _ (by omega)] at this
    exact hlt.lt_of_lt_of_le (by simpa using this) (hle p i h1 h)

theorem listInsertionLoop_runs (hlt : StrictWeak lt) {xs0 : List α} :
    ∀ (n it : Nat) (xs : List α), it + n = xs.length → SortedList lt (xs.take it) → xs.Perm xs0 →
    SameOrder lt xs0 xs →
    Runs (listInsertionLoop (tick lt) xs it it) (fun ys => ys.Perm xs0 ∧ SortedList lt ys ∧
      SameOrder lt xs0 ys) := by
  intro n
  induction n with
  | zero =>
    intro it xs h1 hs hp ho
    rw [listInsertionLoop, if_neg (by omega)]
    rw [List.take_of_length_le (by omega)] at hs
    exact Runs.pure ⟨hp, hs, ho⟩
  | succ n ih =>
    intro it xs h1 hs hp ho
    have hi : it < xs.length := by omega
    rw [listInsertionLoop, if_pos (by omega)]
    refine Runs.nthBind (x := xs[it]) (List.getElem?_eq_getElem hi) ?_
    refine (lowerBoundBy_runs (P := fun i => !lt xs[it] (xs.getD i xs[it])) it 0 it rfl
      fun i _ h => ?_).bind fun p hp' => ?_
    · refine Runs.nthBind (x := xs[i]'(by omega)) (List.getElem?_eq_getElem (by omega)) ?_
      refine Runs.tickBind (Runs.pure ?_)
      rw [List.getD_eq_getElem?_getD, List.getElem?_eq_getElem (by omega)]; rfl
    · obtain ⟨-, q2, q3, q4⟩ := hp'
      rw [Nat.zero_add] at q2 q3
      obtain ⟨hA, hB⟩ := upperPlace hlt hi hs q2 q3 q4
      obtain ⟨st1, st2⟩ := insertStep hlt q2 hi hs hp ho hA hB
      split
      · rename_i e
        exact ih (it + 1) xs (by omega) (st2 e) hp ho
      · refine st1.bind fun ys ⟨e1, e2, e3, e4⟩ => ?_
        exact ih (it + 1) ys (by omega) e2 e3 e4

theorem flistSearch_eq (cmp : α → α → M α Bool) (xs : List α) (value : α) :
    ∀ (n p size : Nat), size = n → flistSearch cmp xs value p size =
      lowerBoundBy (fun i => do return !(← cmp value (← nth xs i))) p size := by
  intro n
  induction n using Nat.strongRecOn with
  | _ n ih =>
    intro p size hn
    rw [flistSearch, lowerBoundBy]
    split
    · simp only
      rw [ih (size - (size / 2 + 1)) (by omega) _ _ rfl, ih (size / 2) (by omega) _ _ rfl]
      simp only [bind_assoc, pure_bind]
    · rfl

theorem flistInsertionLoop_runs (hlt : StrictWeak lt) {xs0 : List α} :
    ∀ (n it : Nat) (xs : List α), it + n = xs.length → SortedList lt (xs.take it) → xs.Perm xs0 →
    SameOrder lt xs0 xs →
    Runs (flistInsertionLoop (tick lt) xs it it) (fun ys => ys.Perm xs0 ∧ SortedList lt ys ∧
      SameOrder lt xs0 ys) := by
  intro n
  induction n with
  | zero =>
    intro it xs h1 hs hp ho
    rw [flistInsertionLoop, if_neg (by omega)]
    rw [List.take_of_length_le (by omega)] at hs
    exact Runs.pure ⟨hp, hs, ho⟩
  | succ n ih =>
    intro it xs h1 hs hp ho
    have hi : it < xs.length := by omega
    rw [flistInsertionLoop, if_pos (by omega)]
    refine Runs.nthBind (x := xs[it]) (List.getElem?_eq_getElem hi) ?_
    rw [flistSearch_eq _ _ _ it 0 it rfl]
    refine (lowerBoundBy_runs (P := fun i => !lt xs[it] (xs.getD i xs[it])) it 0 it rfl
      fun i _ h => ?_).bind fun p hp' => ?_
    · refine Runs.nthBind (x := xs[i]'(by omega)) (List.getElem?_eq_getElem (by omega)) ?_
      refine Runs.tickBind (Runs.pure ?_)
      rw [List.getD_eq_getElem?_getD, List.getElem?_eq_getElem (by omega)]; rfl
    · obtain ⟨-, q2, q3, q4⟩ := hp'
      rw [Nat.zero_add] at q2 q3
      obtain ⟨hA, hB⟩ := upperPlace hlt hi hs q2 q3 q4
      obtain ⟨st1, st2⟩ := insertStep hlt q2 hi hs hp ho hA hB
      split
      · rename_i e
        exact ih (it + 1) xs (by omega) (st2 e) hp ho
      · refine st1.bind fun ys ⟨e1, e2, e3, e4⟩ => ?_
        exact ih (it + 1) ys (by omega) e2 e3 e4

/-! ### selection sort -/

/-- `m` is the first minimum of `[lo, hi)`. -/
structure FirstMin (lt : α → α → Bool) (xs : List α) (b e m : Nat) : Prop where
  lo : b ≤ m
  hi : m < e
  len : e ≤ xs.length
  before : ∀ i (_ : b ≤ i) (h : i < m), lt (xs[m]'(by omega)) (xs[i]'(by omega)) = true
  after : ∀ i (_ : m ≤ i) (h : i < e), lt (xs[i]'(by omega)) (xs[m]'(by omega)) = false

theorem FirstMin.step (hlt : StrictWeak lt) {xs : List α} {lo hi m : Nat} (f : FirstMin lt xs lo hi m)
    (h : hi < xs.length) :
    (lt xs[hi] (xs[m]'(by have := f.hi; omega)) = true → FirstMin lt xs lo (hi + 1) hi) ∧
    (lt xs[hi] (xs[m]'(by have := f.hi; omega)) = false → FirstMin lt xs lo (hi + 1) m) := by
  have f1 := f.lo
  have f2 := f.hi
  have hall : ∀ i (_ : lo ≤ i) (h' : i < hi), lt xs[i] (xs[m]'(by omega)) = false := by
    intro i a c
    by_cases e : m ≤ i
    · exact f.after i e c
    · exact hlt.asymm (f.before i a (by omega))
  constructor
  · intro hc
    refine ⟨by omega, by omega, by omega, fun i a c => ?_, fun i a c => ?_⟩
    · exact hlt.lt_of_lt_of_le hc (hall i a c)
    · have : i = hi := by omega
      subst this; exact hlt.irrefl _
  · intro hc
    refine ⟨f1, by omega, by omega, f.before, fun i a c => ?_⟩
    by_cases e : i = hi
    · subst e; exact hc
    · exact f.after i a (by omega)

theorem listMinLoop_runs (hlt : StrictWeak lt) {xs : List α} {lo : Nat} :
    ∀ (n first m : Nat), first + n = xs.length → FirstMin lt xs lo first m →
    Runs (listMinLoop (tick lt) xs first m) (fun r => FirstMin lt xs lo xs.length r) := by
  intro n
  induction n with
  | zero =>
    intro first m h f
    rw [listMinLoop, if_neg (by omega)]
    rw [Nat.add_zero] at h
    exact Runs.pure (h ▸ f)
  | succ n ih =>
    intro first m h f
    have := f.hi
    rw [listMinLoop, if_pos (by omega)]
    refine Runs.nthBind (List.getElem?_eq_getElem (by omega)) ?_
    refine Runs.nthBind (List.getElem?_eq_getElem (by omega)) ?_
    refine Runs.tickBind ?_
    split
    · rename_i hc
      exact ih (first + 1) first (by omega) ((f.step hlt (by omega)).1 hc)
    · rename_i hc
      exact ih (first + 1) m (by omega) ((f.step hlt (by omega)).2 (by simpa using hc))

theorem flistMinLoop_runs (hlt : StrictWeak lt) {xs : List α} {lo : Nat} :
    ∀ (n it m : Nat), it + n = xs.length → FirstMin lt xs lo it m →
    Runs (flistMinLoop (tick lt) xs it m) (fun r => FirstMin lt xs lo xs.length r) := by
  intro n
  induction n with
  | zero =>
    intro first m h f
    rw [flistMinLoop, if_neg (by omega)]
    rw [Nat.add_zero] at h
    exact Runs.pure (h ▸ f)
  | succ n ih =>
    intro first m h f
    have := f.hi
    rw [flistMinLoop, if_pos (by omega)]
    refine Runs.nthBind (List.getElem?_eq_getElem (by omega)) ?_
    refine Runs.nthBind (List.getElem?_eq_getElem (by omega)) ?_
    refine Runs.tickBind ?_
    split
    · rename_i hc
      exact ih (first + 1) first (by omega) ((f.step hlt (by omega)).1 hc)
    · rename_i hc
      exact ih (first + 1) m (by omega) ((f.step hlt (by omega)).2 (by simpa using hc))

theorem FirstMin.single (hlt : StrictWeak lt) {xs : List α} {i : Nat} (h : i < xs.length) :
    FirstMin lt xs i (i + 1) i :=
  ⟨Nat.le_refl _, by omega, by omega, fun j a c => by omega, fun j a c => by
    have : j = i := by omega
    subst this; exact hlt.irrefl _⟩

/-- Invariant of selection sort: the first `k` elements are in place. -/
structure SelInv (lt : α → α → Bool) (xs0 xs : List α) (k : Nat) : Prop where
  len : k ≤ xs.length
  perm : xs.Perm xs0
  order : SameOrder lt xs0 xs
  sorted : SortedList lt (xs.take k)
  below : ∀ y ∈ xs.take k, ∀ z ∈ xs.drop k, lt z y = false

theorem SelInv.step (hlt : StrictWeak lt) {xs0 xs : List α} {k m : Nat} (h : SelInv lt xs0 xs k)
    (f : FirstMin lt xs k xs.length m) :
    Runs (splice xs k m) (fun ys => ys.length = xs.length ∧ SelInv lt xs0 ys (k + 1)) ∧
    (m = k → SelInv lt xs0 xs (k + 1)) := by
  have f1 := f.lo
  have f2 := f.hi
  obtain ⟨a, b, c, h1, h2, h3, h4⟩ := cut3 xs f1 f2
  have hbef := f.before
  have haft := f.after
  generalize hx : xs[m] = x at *
  have hak : xs.take k = a := by
    have := congrArg (List.take k) h4
    rw [List.take_take, Nat.min_eq_left f1, ← h2, List.take_left] at this
    rw [← h2]; exact this
  have hdk : xs.drop k = b ++ x :: c := by rw [h1, ← h2, List.drop_left]
  have hB' : ∀ y ∈ b, lt x y = true := by
    intro y hy
    obtain ⟨i, hi1, hi2⟩ := List.mem_iff_getElem.1 hy
    have := hbef (a.length + i) (by omega) (by omega)
    rw [hx] at this
    rw [← hi2]
    convert this using 2
    simp only [h1]
    rw [List.getElem_append_right (by omega)]
    simp only [Nat.add_sub_cancel_left]
    rw [List.getElem_append_left hi1]
  have hC' : ∀ y ∈ c, lt y x = false := by
    intro y hy
    obtain ⟨i, hi1, hi2⟩ := List.mem_iff_getElem.1 hy
    have hl : xs.length = a.length + (b.length + (c.length + 1)) := by rw [h1]; simp
    have := haft (a.length + b.length + (i + 1)) (by omega) (by omega)
    rw [hx] at this
    rw [← hi2]
    convert this using 2
    simp only [h1]
    rw [List.getElem_append_right (by omega), List.getElem_append_right (by omega)]
    simp only [show a.length + b.length + (i + 1) - a.length - b.length = i + 1 by omega,
      List.getElem_cons_succ]
  have hs := h.sorted
  have hbl := h.below
  rw [hak] at hs hbl
  rw [hdk] at hbl
  have key : SelInv lt xs0 (a ++ x :: (b ++ c)) (k + 1) := by
    have e : a ++ x :: (b ++ c) = (a ++ [x]) ++ (b ++ c) := by simp
    refine ⟨by rw [e]; simp; omega, (perm_hop a b c x).trans (h1 ▸ h.perm),
      h.order.trans (h1 ▸ sameOrder_hop hlt a b c x hB'), ?_, ?_⟩
    · rw [e, List.take_append_of_le_length (by simp; omega), List.take_of_length_le (by simp; omega)]
      have := sorted_insert hlt (a := a) (b := []) (x := x) (by simpa using hs)
        (fun y hy => hbl y hy x (by simp)) (fun y hy => by simp at hy)
      exact this
    · rw [e, List.take_append_of_le_length (by simp; omega), List.take_of_length_le (by simp; omega),
        List.drop_append_of_le_length (by simp; omega), List.drop_of_length_le (by simp; omega)]
      intro y hy z hz
      rcases List.mem_append.1 hy with hy | hy
      · refine hbl y hy z ?_
        simp only [List.nil_append, List.mem_append] at hz
        rcases hz with hz | hz <;> simp [hz]
      · rw [List.mem_singleton.1 hy]
        simp only [List.nil_append, List.mem_append] at hz
        rcases hz with hz | hz
        · exact hlt.asymm (hB' z hz)
        · exact hC' z hz
  constructor
  · rw [← h3, ← h2]
    conv => arg 1; rw [h1]
    refine (splice_runs a b c x).mono ?_
    rintro _ rfl
    exact ⟨by rw [h1]; simp; omega, h2.symm ▸ key⟩
  · intro e
    have hb0 : b = [] := List.eq_nil_of_length_eq_zero (by omega)
    subst hb0
    have : xs = a ++ x :: ([] ++ c) := by rw [h1]; simp
    rw [this]; exact key

theorem listSelectionLoop_runs (hlt : StrictWeak lt) {xs0 : List α} :
    ∀ (n it : Nat) (xs : List α), it + n = xs.length → SelInv lt xs0 xs it →
    Runs (listSelectionLoop (tick lt) xs it) (fun ys => ys.Perm xs0 ∧ SortedList lt ys ∧
      SameOrder lt xs0 ys) := by
  intro n
  induction n with
  | zero =>
    intro it xs h1 hs
    rw [listSelectionLoop, if_neg (by omega)]
    have := hs.sorted
    rw [List.take_of_length_le (by omega)] at this
    exact Runs.pure ⟨hs.perm, this, hs.order⟩
  | succ n ih =>
    intro it xs h1 hs
    rw [listSelectionLoop, if_pos (by omega)]
    refine (listMinLoop_runs hlt (xs.length - (it + 1)) (it + 1) it (by omega)
      (FirstMin.single hlt (by omega))).bind fun m hm => ?_
    obtain ⟨s1, s2⟩ := hs.step hlt hm
    split
    · rename_i e
      exact ih (it + 1) xs (by omega) (s2 e)
    · exact s1.bind fun ys ⟨e1, e2⟩ => ih (it + 1) ys (by omega) e2

theorem flistSelectionLoop_runs (hlt : StrictWeak lt) {xs0 : List α} :
    ∀ (n it : Nat) (xs : List α), it + n = xs.length → SelInv lt xs0 xs it →
    Runs (flistSelectionLoop (tick lt) xs it) (fun ys => ys.Perm xs0 ∧ SortedList lt ys ∧
      SameOrder lt xs0 ys) := by
  intro n
  induction n with
  | zero =>
    intro it xs h1 hs
    rw [flistSelectionLoop, if_neg (by omega)]
    have := hs.sorted
    rw [List.take_of_length_le (by omega)] at this
    exact Runs.pure ⟨hs.perm, this, hs.order⟩
  | succ n ih =>
    intro it xs h1 hs
    rw [flistSelectionLoop, if_pos (by omega)]
    have hm : Runs (flistMinLoop (tick lt) xs it it) (fun r => FirstMin lt xs it xs.length r) := by
      rw [flistMinLoop, if_pos (by omega)]
      refine Runs.nthBind (List.getElem?_eq_getElem (by omega)) ?_
      refine Runs.nthBind (List.getElem?_eq_getElem (by omega)) ?_
      refine Runs.tickBind ?_
      rw [hlt.irrefl]
      exact flistMinLoop_runs hlt (xs.length - (it + 1)) (it + 1) it (by omega)
        (FirstMin.single hlt (by omega))
    refine hm.bind fun m hm => ?_
    obtain ⟨s1, s2⟩ := hs.step hlt hm
    exact s1.bind fun ys ⟨e1, e2⟩ => ih (it + 1) ys (by omega) e2

/-! ### merge -/

theorem listMerge_runs : ∀ (xs ys : List α),
    Runs (listMerge (tick lt) xs ys) (fun r => r = mergeL lt xs ys) := by
  intro xs ys
  fun_induction mergeL lt xs ys with
  | case1 ys => rw [listMerge]; exact Runs.pure rfl
  | case2 x xs => rw [listMerge]; exact Runs.pure rfl
  | case3 x xs y ys h ih =>
    rw [listMerge]
    refine Runs.tickBind ?_
    rw [if_pos h]
    exact ih.bind fun r hr => Runs.pure (by rw [hr])
  | case4 x xs y ys h ih =>
    rw [listMerge]
    refine Runs.tickBind ?_
    rw [if_neg h]
    exact ih.bind fun r hr => Runs.pure (by rw [hr])

theorem listMerge_sorted (hlt : StrictWeak lt) {xs ys : List α} (h1 : SortedList lt xs)
    (h2 : SortedList lt ys) :
    Runs (listMerge (tick lt) xs ys) (fun r => r.Perm (xs ++ ys) ∧ SortedList lt r) :=
  (listMerge_runs xs ys).mono fun r hr => by
    have := mergeL_ssorted hlt xs ys h1 h2
    rw [hr]; exact ⟨this.1, this.2.1⟩

theorem sortedList_short {xs : List α} (h : xs.length < 2) : SortedList lt xs := by
  match xs, h with
  | [], _ => exact List.Pairwise.nil
  | [_], _ => exact List.pairwise_singleton _ _
  | _ :: _ :: _, h => simp at h; omega

theorem listMergeSort_runs (hlt : StrictWeak lt) : ∀ (n : Nat) (xs : List α), xs.length = n →
    Runs (listMergeSort (tick lt) xs) (fun ys => ys.Perm xs ∧ SortedList lt ys) := by
  intro n
  induction n using Nat.strongRecOn with
  | _ n ih =>
    intro xs hn
    rw [listMergeSort]
    split
    · exact Runs.pure ⟨List.Perm.refl _, sortedList_short ‹_›⟩
    · simp only
      refine (ih (xs.length / 2) (by omega) _ (by simp; omega)).bind fun l ⟨l1, l2⟩ => ?_
      refine (ih (xs.length - xs.length / 2) (by omega) _ (by simp)).bind fun r ⟨r1, r2⟩ => ?_
      refine (listMerge_sorted hlt r2 l2).mono fun ys ⟨y1, y2⟩ => ⟨?_, y2⟩
      have := y1.trans ((r1.append l1).trans List.perm_append_comm)
      rwa [List.take_append_drop] at this

theorem flistMergeSort_runs (hlt : StrictWeak lt) : ∀ (n : Nat) (xs : List α), xs.length = n →
    Runs (flistMergeSort (tick lt) xs n) (fun ys => ys.Perm xs ∧ SortedList lt ys) := by
  intro n
  induction n using Nat.strongRecOn with
  | _ n ih =>
    intro xs hn
    rw [flistMergeSort]
    split
    · exact Runs.pure ⟨List.Perm.refl _, sortedList_short (by omega)⟩
    · rw [if_neg (by omega)]
      simp only
      refine (ih (n / 2) (by omega) _ (by simp; omega)).bind fun l ⟨l1, l2⟩ => ?_
      refine (ih (n - n / 2) (by omega) _ (by simp; omega)).bind fun r ⟨r1, r2⟩ => ?_
      refine (listMerge_sorted hlt r2 l2).mono fun ys ⟨y1, y2⟩ => ⟨?_, y2⟩
      have := y1.trans ((r1.append l1).trans List.perm_append_comm)
      rwa [List.take_append_drop] at this

end CppSort
