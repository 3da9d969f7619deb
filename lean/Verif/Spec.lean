import Verif.Base.Monad
/-
The specification vocabulary: what a reader has to know to read the theorems about sorters.
Nothing here refers to an algorithm.
-/
set_option autoImplicit false

namespace CppSort
variable {α : Type}

/-- The requirement on comparators (docs/Sorters.md, standard [alg.sorting]): a strict weak order. -/
structure StrictWeak (lt : α → α → Bool) : Prop where
  irrefl : ∀ x, lt x x = false
  trans : ∀ x y z, lt x y = true → lt y z = true → lt x z = true
  equiv_trans : ∀ x y z, lt x y = false → lt y x = false → lt y z = false → lt z y = false →
    lt x z = false ∧ lt z x = false

/-- Equivalence of two elements for a comparator. -/
def eqv (lt : α → α → Bool) (x y : α) : Bool := !lt x y && !lt y x

/-- A list ordered by the comparator: no later element is less than an earlier one. -/
def SortedList (lt : α → α → Bool) (xs : List α) : Prop :=
  xs.Pairwise (fun x y => lt y x = false)

/-- For each `x`, the elements equivalent to `x` appear in the same order in both lists. -/
def SameOrder (lt : α → α → Bool) (xs ys : List α) : Prop :=
  ∀ x, ys.filter (eqv lt x) = xs.filter (eqv lt x)

/-- The memory cells from address `first` hold the list `xs`. -/
def Seg (c : Nat → Cell α) (first : Nat) (xs : List α) : Prop :=
  ∀ i (h : i < xs.length), c (first + i) = .val xs[i]

/-- Fresh memory exists: everything from the allocation frontier on is unallocated. -/
def St.WF (s : St α) : Prop := ∀ i, s.brk ≤ i → s.cell i = .unalloc

/-- `m`, run on a memory holding `xs` at `first`, returns normally (no divergence, no undefined
behaviour), every cell outside the range is as before — scratch memory released —, and the range
holds a list related to `xs` by `R`. -/
def Transforms (m : M α Unit) (s : St α) (first : Nat) (xs : List α) (R : List α → Prop) : Prop :=
  ∃ s' ys, m s = some (.ok (), s') ∧ ys.length = xs.length ∧ Seg s'.cell first ys ∧ R ys ∧
    (∀ i, i < first ∨ first + xs.length ≤ i → s'.cell i = s.cell i) ∧ s'.WF

/-- `sort` sorts every range: `sort first last` leaves a sorted permutation. -/
def Sorts (lt : α → α → Bool) (sort : Nat → Nat → M α Unit) : Prop :=
  ∀ (s : St α) (first : Nat) (xs : List α), s.WF → Seg s.cell first xs →
    Transforms (sort first (first + xs.length)) s first xs
      (fun ys => ys.Perm xs ∧ SortedList lt ys)

/-- `sort` sorts every range of exactly `n` elements (fixed-size sorters). -/
def SortsSized (lt : α → α → Bool) (n : Nat) (sort : Nat → Nat → M α Unit) : Prop :=
  ∀ (s : St α) (first : Nat) (xs : List α), xs.length = n → s.WF → Seg s.cell first xs →
    Transforms (sort first (first + n)) s first xs (fun ys => ys.Perm xs ∧ SortedList lt ys)

/-- `sort` sorts every range stably. -/
def SortsStably (lt : α → α → Bool) (sort : Nat → Nat → M α Unit) : Prop :=
  ∀ (s : St α) (first : Nat) (xs : List α), s.WF → Seg s.cell first xs →
    Transforms (sort first (first + xs.length)) s first xs
      (fun ys => ys.Perm xs ∧ SortedList lt ys ∧ SameOrder lt xs ys)

end CppSort
