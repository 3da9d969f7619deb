import Verif.Props.BestCase
import Verif.Props.Cartesian
import Verif.Props.Quick
import Verif.Props.Pdq
import Verif.Proof.CartSorted
import Verif.Proof.FlatCost
import Verif.Proof.QuickMergeCost
/-
C75, continued: cartesian_tree_sorter.
C98: quick_sorter and pdq_sorter reach their documented best case of n on the ranges of equivalent elements.
C99: the documented best case of n of quick_merge_sorter is reached by no family of inputs.
-/
set_option autoImplicit false

namespace CppSort
variable {α : Type} {lt : α → α → Bool}

/-- C75 for cartesian_tree_sorter. -/
theorem C75_cartesian_tree_sorter [Inhabited α] (hlt : StrictWeak lt) :
    SortedIn lt (fun _ => True) (cartesianTreeSort lt) (fun n => n - 1) := by
  intro s f xs _ hw hs hso
  obtain ⟨s', ys, h1, -⟩ := C16_cartesian_tree_sorter hlt s f xs hw hs
  obtain ⟨h2, h3⟩ := cartesianTreeSort_sorted hw hs hso h1
  exact ⟨s', h1, h2, h3⟩

example : ∃ s', cartesianTreeSort Demo.byFst 7 12 (Demo.mem 7 Demo.inOrder) = some (.ok (), s') ∧
    Seg s'.cell 7 Demo.inOrder ∧ s'.cmps = 0 + 4 :=
  C75_cartesian_tree_sorter Demo.byFst_sw _ 7 Demo.inOrder trivial (Demo.mem_wf _ _) (Demo.mem_seg _ _)
    Demo.inOrder_sorted

/-- On every range of `n` equivalent elements, `sort` returns after at most `C n` comparisons. -/
def EqualIn (lt : α → α → Bool) (sort : Nat → Nat → M α Unit) (C : Nat → Nat) : Prop :=
  ∀ (s : St α) (first : Nat) (xs : List α), s.WF → Seg s.cell first xs → (∀ x ∈ xs, ∀ y ∈ xs, lt x y = false) →
    ∃ s', sort first (first + xs.length) s = some (.ok (), s') ∧ s'.cmps ≤ s.cmps + C xs.length

theorem EqualIn.intro {sort : Nat → Nat → M α Unit} {C : Nat → Nat} (h0 : ∀ f, sort f f = pure ())
    (h : ∀ (s : St α) f l v, f ≤ l → Holds s.cell f l v → FlatOn lt f l v →
      wp (sort f l) (fun _ s' => s'.cmps ≤ s.cmps + C (l - f)) s) : EqualIn lt sort C := by
  intro s f xs hw hs hx
  obtain _ | ⟨x, t⟩ := xs
  · refine ⟨s, ?_, by omega⟩
    simp only [List.length_nil, Nat.add_zero, h0]
    rfl
  haveI : Inhabited α := ⟨x⟩
  generalize x :: t = xs at *
  obtain ⟨v, hh, he⟩ := hs.holds
  have hm : ∀ i, f ≤ i → i < f + xs.length → v i ∈ xs := by
    intro i h1 h2
    rw [← he]
    simp only [lst, List.mem_map, List.mem_range'_1]
    exact ⟨i, by omega, rfl⟩
  obtain ⟨_, s', h1, h2⟩ := h s f (f + xs.length) v (Nat.le_add_right _ _) hh
    fun i a b j c d => hx _ (hm i a b) _ (hm j c d)
  rw [Nat.add_sub_cancel_left] at h2
  exact ⟨s', h1, h2⟩

/-- C98 for quick_sorter, on forward, bidirectional and random-access iterators. -/
theorem C98_quick_sorter (hlt : StrictWeak lt) (cat : Cat) : EqualIn lt (quicksort (tick lt) cat) (fun n => 5 * n) :=
  EqualIn.intro (fun f => by
      unfold quicksort
      rw [quicksortLoop]
      cases cat <;> simp [quicksortFallback, insertionSort, bubbleSort])
    fun _ _ _ _ hfl hh hv => quicksort_flat hlt cat hfl hh hv

/-- `n` pairs with the same key. -/
def Demo.tied (n : Nat) : List (Nat × Nat) := (List.range n).map fun i => (3, i)

theorem Demo.tied_equal (n : Nat) : ∀ x ∈ Demo.tied n, ∀ y ∈ Demo.tied n, Demo.byFst x y = false := by
  intro x hx y hy
  simp only [Demo.tied, List.mem_map] at hx hy
  obtain ⟨i, -, rfl⟩ := hx
  obtain ⟨j, -, rfl⟩ := hy
  rfl

theorem Demo.tied_length (n : Nat) : (Demo.tied n).length = n := by simp [Demo.tied]

example (n : Nat) : ∃ s', quicksort (tick Demo.byFst) .forward 7 (7 + (Demo.tied n).length) (Demo.mem 7 (Demo.tied n)) =
    some (.ok (), s') ∧ s'.cmps ≤ 0 + 5 * (Demo.tied n).length :=
  C98_quick_sorter Demo.byFst_sw _ _ 7 _ (Demo.mem_wf _ _) (Demo.mem_seg _ _) (Demo.tied_equal n)

/-- C98 for pdq_sorter, with both partitioning functions. -/
theorem C98_pdq_sorter (hlt : StrictWeak lt) (branchless : Bool) :
    EqualIn lt (pdqsort (tick lt) branchless) (fun n => 2 * n + 26) :=
  EqualIn.intro (fun f => by simp [pdqsort])
    fun _ _ _ _ hfl hh hv => pdqsort_flat hlt branchless hfl hh hv

example (n : Nat) : ∃ s', pdqsort (tick Demo.byFst) true 7 (7 + (Demo.tied n).length) (Demo.mem 7 (Demo.tied n)) =
    some (.ok (), s') ∧ s'.cmps ≤ 0 + (2 * (Demo.tied n).length + 26) :=
  C98_pdq_sorter Demo.byFst_sw _ _ 7 _ (Demo.mem_wf _ _) (Demo.mem_seg _ _) (Demo.tied_equal n)

/-! ### C99 -/

/-- A best case of n: some `C` such that, for every size, some range of that size is sorted with at most `C`
comparisons per element. -/
def LinearBestIn (sort : Nat → Nat → M α Unit) : Prop :=
  ∃ C, ∀ n, 0 < n → ∃ (xs : List α) (f : Nat) (s s' : St α), xs.length = n ∧ s.WF ∧ Seg s.cell f xs ∧
    sort f (f + n) s = some (.ok (), s') ∧ s'.cmps ≤ s.cmps + C * n

/-- C99 is false: docs/Sorters.md announces a best case of n for quick_merge_sorter. quick_merge_sort.h merges halves
down to the fallback of internal_mergesort whatever the range: no constant number of comparisons per element is enough,
for any family of ranges, any comparison function and any category of iterators. -/
theorem C99_quick_merge_sorter_best_case_false (lt : α → α → Bool) (cat : Cat) :
    ¬ LinearBestIn (quickMergeSort (tick lt) cat) := by
  rintro ⟨C, hC⟩
  obtain ⟨xs, f, s, s', -, -, -, h1, h2⟩ := hC (66 * 2 ^ (5 * C)) (Nat.mul_pos (by omega) (Nat.two_pow_pos _))
  obtain ⟨c, h3, h4⟩ := (quickMergeSort_least cat (5 * C) f _ (by omega)).run h1
  have h5 : 0 < 2 ^ (5 * C) := Nat.two_pow_pos _
  have e1 : 16 * (5 * C + 1) * 2 ^ (5 * C) = 80 * (C * 2 ^ (5 * C)) + 16 * 2 ^ (5 * C) := by ring
  have e2 : C * (66 * 2 ^ (5 * C)) = 66 * (C * 2 ^ (5 * C)) := by ring
  omega

/-- `LinearBestIn` is reachable: quick_sorter satisfies it. -/
example : LinearBestIn (quicksort (tick Demo.byFst) .random) := by
  refine ⟨5, fun n _ => ?_⟩
  obtain ⟨s', h1, h2⟩ := C98_quick_sorter Demo.byFst_sw .random _ 7 _ (Demo.mem_wf _ _) (Demo.mem_seg 7 _)
    (Demo.tied_equal n)
  rw [Demo.tied_length] at h1 h2
  exact ⟨_, 7, _, s', Demo.tied_length n, Demo.mem_wf _ _, Demo.mem_seg _ _, h1, h2⟩

/-- C99, what holds: up to 32 elements, with iterators at least bidirectional, a sorted range takes n - 1 comparisons
and is left as it was. -/
theorem C99_quick_merge_sorter_partial (cat : Cat) (hc : cat ≠ .forward) :
    SortedIn lt (fun n => n ≤ 32) (quickMergeSort (tick lt) cat) (fun n => n - 1) := by
  have e : ∀ f l, l - f ≤ 32 → quickMergeSort (tick lt) cat f l = insertionSort (tick lt) f l := by
    intro f l h
    unfold quickMergeSort
    rw [quickMergeSortLoop, if_neg (by omega)]
    cases cat <;> first | exact absurd rfl hc | rfl
  refine SortedIn.intro (fun _ => ⟨fun f => by rw [e f f (by omega)]; simp [insertionSort], rfl⟩) ?_
  intro s f l v hfl hp _ hh hn
  rw [e f l hp]
  exact (insertionSort_looks hfl hh hn).wpSeg hh

example : ∃ s', quickMergeSort (tick Demo.byFst) .bidirectional 7 12 (Demo.mem 7 Demo.inOrder) = some (.ok (), s') ∧
    Seg s'.cell 7 Demo.inOrder ∧ s'.cmps = 0 + 4 :=
  C99_quick_merge_sorter_partial _ (by decide) _ 7 Demo.inOrder (by decide) (Demo.mem_wf _ _) (Demo.mem_seg _ _)
    Demo.inOrder_sorted

end CppSort
