import Verif.Props.Demo
import Verif.Props.Pdq
import Verif.Props.Drop
import Verif.Props.Merge
import Verif.Proof.PdqCost
import Verif.Proof.DropCost
import Verif.Proof.SymCost
import Verif.Proof.DAryCost
import Verif.Proof.PoplarCost
import Verif.Proof.SmoothCost
import Verif.Proof.MelCost
import Verif.Proof.Cartesian
import Verif.Props.Simple
import Verif.Props.Poplar
import Verif.Props.Smooth
import Verif.Props.Mel
import Verif.Props.Lists
/-
C73: sorters documented with a worst case of n log n make at most a constant times n log n comparisons, for every
input.
-/
set_option autoImplicit false

namespace CppSort
variable {α : Type} {lt : α → α → Bool}

/-- On every range of `n` elements, `sort` returns after at most `C n` comparisons. -/
def ComparesWithin (sort : Nat → Nat → M α Unit) (C : Nat → Nat) : Prop :=
  ∀ (s : St α) (first : Nat) (xs : List α), s.WF → Seg s.cell first xs →
    ∃ s', sort first (first + xs.length) s = some (.ok (), s') ∧ s'.cmps ≤ s.cmps + C xs.length

theorem Sorts.compares {sort : Nat → Nat → M α Unit} {C : Nat → Nat} (h : Sorts lt sort) (hc : CmpBound sort C) :
    ComparesWithin sort C := by
  intro s f xs hw hs
  obtain ⟨s', ys, h1, -⟩ := h s f xs hw hs
  exact ⟨s', h1, hc s f xs s' hw hs h1⟩

theorem ComparesWithin.bound {sort : Nat → Nat → M α Unit} {C : Nat → Nat} (h : ComparesWithin sort C) :
    CmpBound sort C := by
  intro s f xs s' hw hs hr
  obtain ⟨s1, h1, h2⟩ := h s f xs hw hs
  rw [h1] at hr
  cases hr
  exact h2

theorem nlogn_mono (a b : Nat) {m n : Nat} (h : m ≤ n) : m * (a * m.log2 + b) ≤ n * (a * n.log2 + b) :=
  Nat.mul_le_mul h (Nat.add_le_add_right (Nat.mul_le_mul_left _ (log2_mono h)) _)

/-- C73 for pdq_sorter: at most `n (52 log2 n + 23)` comparisons; no input makes it quadratic. -/
theorem C73_pdq_sorter (hlt : StrictWeak lt) (branchless : Bool) :
    ComparesWithin (pdqsort (tick lt) branchless) (fun n => n * (52 * n.log2 + 23)) := by
  intro s f xs hw hs
  obtain _ | ⟨x, t⟩ := xs
  · refine ⟨s, ?_, by simp⟩
    simp [pdqsort]; rfl
  haveI : Inhabited α := ⟨x⟩
  generalize x :: t = xs at *
  obtain ⟨v, hh, he⟩ := hs.holds
  obtain ⟨_, s', h1, h2⟩ := pdqsort_cost hlt branchless (by omega) hh
  rw [Nat.add_sub_cancel_left] at h2
  exact ⟨s', h1, h2⟩

example : ∃ s', pdqsort (tick Demo.byFst) true 7 12 (Demo.mem 7 Demo.pairs) = some (.ok (), s') ∧
    s'.cmps ≤ 0 + 5 * (52 * 2 + 23) :=
  C73_pdq_sorter Demo.byFst_sw true _ 7 Demo.pairs (Demo.mem_wf _ _) (Demo.mem_seg _ _)

/-- C73 for drop_merge_adapter: a linear number of comparisons on top of those of the adapted sorter. -/
theorem C73_drop_merge_adapter (hlt : StrictWeak lt) (triv : Bool) {sorter : Nat → Nat → M α Unit} {C : Nat → Nat}
    (hC : ∀ m n, m ≤ n → C m ≤ C n) (hs : Sorts lt sorter) (hc : ComparesWithin sorter C) :
    ComparesWithin (dropMergeSort (tick lt) triv sorter) (fun n => 21 * n + C n) :=
  (C19_drop_merge_adapter hlt triv hs).compares (dropMergeSort_cost hlt triv hC hc.bound)

example : ComparesWithin (dropMergeSort (tick Demo.byFst) true (pdqsort (tick Demo.byFst) false))
    (fun n => 21 * n + n * (52 * Nat.log2 n + 23)) :=
  C73_drop_merge_adapter Demo.byFst_sw true
    (fun _ _ => nlogn_mono 52 23)
    (C10_pdq_sorter Demo.byFst_sw false) (C73_pdq_sorter Demo.byFst_sw false)

/-- C73 for drop_merge_sorter. -/
theorem C73_drop_merge_sorter [Inhabited α] (hlt : StrictWeak lt) (triv branchless : Bool) :
    ComparesWithin (dropMergeSort (tick lt) triv (pdqsort (tick lt) branchless))
      (fun n => n * (52 * n.log2 + 44)) := by
  intro s f xs hw hs
  obtain ⟨s', h1, h2⟩ := C73_drop_merge_adapter hlt triv (fun m n => nlogn_mono 52 23) (C10_pdq_sorter hlt branchless)
    (C73_pdq_sorter hlt branchless) s f xs hw hs
  refine ⟨s', h1, ?_⟩
  have e : xs.length * (52 * xs.length.log2 + 44) = xs.length * (52 * xs.length.log2 + 23) + 21 * xs.length := by ring
  dsimp only at h2 ⊢
  omega

example : ∃ s', dropMergeSort (tick Demo.byFst) false (pdqsort (tick Demo.byFst) true) 7 12
    (Demo.mem 7 Demo.pairs) = some (.ok (), s') ∧ s'.cmps ≤ 0 + 5 * (52 * 2 + 44) :=
  C73_drop_merge_sorter Demo.byFst_sw false true _ 7 Demo.pairs (Demo.mem_wf _ _) (Demo.mem_seg _ _)

/-- C73 for split_adapter over random-access iterators: a linear number of comparisons on top of those of the adapted
sorter, whatever memory the final merge gets. -/
theorem C73_split_adapter [Inhabited α] (hlt : StrictWeak lt) (triv : Bool) {sorter : Nat → Nat → M α Unit}
    {C : Nat → Nat} (hC : ∀ m n, m ≤ n → C m ≤ C n) (hs : Sorts lt sorter) (hc : ComparesWithin sorter C) :
    ComparesWithin (splitSort (tick lt) ⟨.random, triv⟩ sorter) (fun n => 4 * n + C n) :=
  (C20_split_adapter hlt _ (by simp) hs).compares (splitSort_cost hlt triv hC hc.bound)

example : ComparesWithin (splitSort (tick Demo.byFst) ⟨.random, true⟩ (pdqsort (tick Demo.byFst) false))
    (fun n => 4 * n + n * (52 * n.log2 + 23)) :=
  C73_split_adapter Demo.byFst_sw true (fun _ _ => nlogn_mono 52 23) (C10_pdq_sorter Demo.byFst_sw false)
    (C73_pdq_sorter Demo.byFst_sw false)

/-- C73 for split_sorter. -/
theorem C73_split_sorter [Inhabited α] (hlt : StrictWeak lt) (triv branchless : Bool) :
    ComparesWithin (splitSort (tick lt) ⟨.random, triv⟩ (pdqsort (tick lt) branchless))
      (fun n => n * (52 * n.log2 + 27)) := by
  intro s f xs hw hs
  obtain ⟨s', h1, h2⟩ := C73_split_adapter hlt triv (fun m n => nlogn_mono 52 23) (C10_pdq_sorter hlt branchless)
    (C73_pdq_sorter hlt branchless) s f xs hw hs
  refine ⟨s', h1, ?_⟩
  have e : xs.length * (52 * xs.length.log2 + 27) = xs.length * (52 * xs.length.log2 + 23) + 4 * xs.length := by ring
  dsimp only at h2 ⊢
  omega

example : ∃ s', splitSort (tick Demo.byFst) ⟨.random, true⟩ (pdqsort (tick Demo.byFst) true) 7 12
    (Demo.mem 7 Demo.pairs) = some (.ok (), s') ∧ s'.cmps ≤ 0 + 5 * (52 * 2 + 27) :=
  C73_split_sorter Demo.byFst_sw true true _ 7 Demo.pairs (Demo.mem_wf _ _) (Demo.mem_seg _ _)

/-- C73 for merge_sorter over random-access iterators, whatever memory it gets (no hypothesis on the allocator). -/
theorem C73_merge_sorter [Inhabited α] (hlt : StrictWeak lt) (triv : Bool) :
    ComparesWithin (mergeSort (tick lt) ⟨.random, triv⟩) (fun n => n * (3 * n.log2 + 19)) := by
  refine (C09_merge_sorter_partial hlt ⟨.random, triv⟩ (by simp)).sorts.compares fun s f xs s' hw hs hr => ?_
  have h2 : Cost 0 (mergeSort (tick lt) ⟨.random, triv⟩ f (f + xs.length))
      (fun _ c => c ≤ xs.length * (3 * xs.length.log2 + 19)) := by
    have hk : xs.length ≤ 39 * 2 ^ xs.length.log2 := by
      have : xs.length < 2 ^ (xs.length.log2 + 1) := Nat.lt_log2_self
      rw [Nat.pow_succ] at this
      omega
    unfold mergeSort
    dsimp only
    rw [Nat.add_sub_cancel_left]
    refine Cost.ite (fun h => ?_) fun h => ?_
    · refine (insertionSort_cost (by omega)).mono fun _ c hc => ?_
      rw [Nat.add_sub_cancel_left] at hc
      have e1 : xs.length * (xs.length - 1) ≤ xs.length * 38 := Nat.mul_le_mul_left _ (by omega)
      have e2 : xs.length * (3 * xs.length.log2 + 19) = xs.length * (3 * xs.length.log2) + xs.length * 19 := by ring
      omega
    · refine (mergeSortBi_cost' _ _ _ _ _ rfl hk).bind fun b c hc => ?_
      exact (release_silent b).cost (by omega)
  obtain ⟨c, h3, h4⟩ := h2.run hr
  omega

example : ∃ s', mergeSort (tick Demo.byFst) ⟨.random, true⟩ 7 12 (Demo.mem 7 Demo.pairs) = some (.ok (), s') ∧
    s'.cmps ≤ 0 + 5 * (3 * 2 + 19) :=
  C73_merge_sorter Demo.byFst_sw true _ 7 Demo.pairs (Demo.mem_wf _ _) (Demo.mem_seg _ _)

/-- C73 for d_ary_heap_sorter<D>. -/
theorem C73_d_ary_heap_sorter [Inhabited α] (hlt : StrictWeak lt) (D : Nat) (hD : 2 ≤ D) :
    ComparesWithin (dAryHeapsort (tick lt) D) (fun n => n * ((D + 1) * n.log2)) := by
  refine (C04_d_ary_heap_sorter hlt D hD).compares fun s f xs s' hw hs hr => ?_
  obtain ⟨c, h3, h4⟩ := (dAryHeapsort_cost (k := xs.length.log2) hD (Nat.le_add_right _ _)
    (by rw [Nat.add_sub_cancel_left]; exact Nat.lt_log2_self)).run hr
  rw [Nat.add_sub_cancel_left] at h4
  omega

example : ∃ s', dAryHeapsort (tick Demo.byFst) 3 7 12 (Demo.mem 7 Demo.pairs) = some (.ok (), s') ∧
    s'.cmps ≤ 0 + 5 * (4 * 2) :=
  C73_d_ary_heap_sorter Demo.byFst_sw 3 (by omega) _ 7 Demo.pairs (Demo.mem_wf _ _) (Demo.mem_seg _ _)

/-- C73 for poplar_sorter. -/
theorem C73_poplar_sorter [Inhabited α] (hlt : StrictWeak lt) :
    ComparesWithin (poplarSort (tick lt)) (fun n => n * (3 * n.log2 + 11)) := by
  refine (C05_poplar_sorter hlt).compares fun s f xs s' hw hs hr => ?_
  obtain ⟨c, h3, h4⟩ := (poplarSort_cost (Nat.le_add_right _ _)).run hr
  rw [Nat.add_sub_cancel_left] at h4
  omega

example : ∃ s', poplarSort (tick Demo.byFst) 7 12 (Demo.mem 7 Demo.pairs) = some (.ok (), s') ∧
    s'.cmps ≤ 0 + 5 * (3 * 2 + 11) :=
  C73_poplar_sorter Demo.byFst_sw _ 7 Demo.pairs (Demo.mem_wf _ _) (Demo.mem_seg _ _)

/-- C73 for smooth_sorter, on the ranges whose length a 64 bits difference type represents. -/
theorem C73_smooth_sorter [Inhabited α] (hlt : StrictWeak lt) (s : St α) (first : Nat) (xs : List α)
    (hn : xs.length < 2 ^ 63) (hw : s.WF) (hs : Seg s.cell first xs) :
    ∃ s', smoothsort (tick lt) first (first + xs.length) s = some (.ok (), s') ∧
      s'.cmps ≤ s.cmps + xs.length * (30 * xs.length.log2 + 24) := by
  obtain ⟨s', ys, h1, -⟩ := C06_smooth_sorter hlt xs.length hn s first xs rfl hw hs
  obtain ⟨v, hh, he⟩ := hs.holds
  have := smoothsort_run hlt (Nat.le_add_right _ _) (by rw [Nat.add_sub_cancel_left]; exact hn) hh h1
  rw [Nat.add_sub_cancel_left] at this
  exact ⟨s', h1, this⟩

example : ∃ s', smoothsort (tick Demo.byFst) 7 12 (Demo.mem 7 Demo.pairs) = some (.ok (), s') ∧
    s'.cmps ≤ 0 + 5 * (30 * 2 + 24) :=
  C73_smooth_sorter Demo.byFst_sw _ 7 Demo.pairs (by decide) (Demo.mem_wf _ _) (Demo.mem_seg _ _)

/-- C73 for cartesian_tree_sorter. -/
theorem C73_cartesian_tree_sorter [Inhabited α] (hlt : StrictWeak lt) :
    ComparesWithin (cartesianTreeSort lt) (fun n => n * (3 * n.log2 + 2)) := by
  intro s f xs hw hs
  obtain ⟨s', ys, h1, -, -, -, -, -, h2⟩ := cartesianTreeSort_run hlt s f xs hw hs
  exact ⟨s', h1, h2⟩

example : ∃ s', cartesianTreeSort Demo.byFst 7 12 (Demo.mem 7 Demo.pairs) = some (.ok (), s') ∧
    s'.cmps ≤ 0 + 5 * (3 * 2 + 2) :=
  C73_cartesian_tree_sorter Demo.byFst_sw _ 7 Demo.pairs (Demo.mem_wf _ _) (Demo.mem_seg _ _)

/-- C73 for mel_sorter. -/
theorem C73_mel_sorter (hlt : StrictWeak lt) (bad : Nat → Nat → Bool) :
    ComparesWithin (melsort (tick lt) bad) (fun n => n * (5 * n.log2 + 6)) := by
  refine (C17_mel_sorter hlt bad).compares fun s f xs s' hw hs hr => ?_
  obtain ⟨c, h3, h4⟩ := melsort_cost.run hr
  omega

example : ∃ s', melsort (tick Demo.byFst) (fun _ _ => true) 7 12 (Demo.mem 7 Demo.pairs) = some (.ok (), s') ∧
    s'.cmps ≤ 0 + 5 * (5 * 2 + 6) :=
  C73_mel_sorter Demo.byFst_sw _ _ 7 Demo.pairs (Demo.mem_wf _ _) (Demo.mem_seg _ _)

/-- On every list of `n` nodes, `sort` returns after at most `C n` comparisons. -/
def RelinksWithin (sort : List α → M α (List α)) (C : Nat → Nat) : Prop :=
  ∀ (s : St α) (xs : List α), ∃ ys s', sort xs s = some (.ok ys, s') ∧ s'.cmps ≤ s.cmps + C xs.length

theorem Relinks.compares {sort : List α → M α (List α)} {R : List α → List α → Prop} {C : Nat → Nat}
    (h : Relinks sort R) (hc : ∀ xs, Cost 0 (sort xs) (fun _ c => c ≤ C xs.length)) : RelinksWithin sort C := by
  intro s xs
  obtain ⟨ys, k, h1, -⟩ := h s xs
  obtain ⟨c, h2, h3⟩ := (hc xs).run h1
  exact ⟨ys, _, h1, by omega⟩

/-- C73 for mel_sorter on std::list and std::forward_list. -/
theorem C73_list_mel_sort (hlt : StrictWeak lt) :
    RelinksWithin (listMelSort (tick lt)) (fun n => n * (5 * n.log2 + 3)) ∧
    RelinksWithin (flistMelSort (tick lt)) (fun n => n * (5 * n.log2 + 3)) :=
  ⟨(C38_list_mel_sort hlt).1.compares fun _ => listMelSort_cost,
    (C38_list_mel_sort hlt).2.compares fun _ => flistMelSort_cost⟩

example : ∃ ys s', flistMelSort (tick Demo.byFst) Demo.pairs (Demo.mem 7 []) = some (.ok ys, s') ∧
    s'.cmps ≤ 0 + 5 * (5 * 2 + 3) :=
  (C73_list_mel_sort Demo.byFst_sw).2 _ Demo.pairs

/-- C73 for merge_sorter on std::list and std::forward_list. -/
theorem C73_list_merge_sort (hlt : StrictWeak lt) :
    RelinksWithin (listMergeSort (tick lt)) (fun n => n * (n.log2 + 1)) ∧
    RelinksWithin (fun xs => flistMergeSort (tick lt) xs xs.length) (fun n => n * (n.log2 + 1)) :=
  ⟨(C37_list_merge_sort_partial hlt).1.compares fun _ =>
      (listMergeSort_cost _ _ (Nat.le_of_lt Nat.lt_log2_self)).mono fun _ _ h => h.2,
    (C37_list_merge_sort_partial hlt).2.compares fun _ =>
      (flistMergeSort_cost _ _ (Nat.le_of_lt Nat.lt_log2_self)).mono fun _ _ h => h.2⟩

example : ∃ ys s', listMergeSort (tick Demo.byFst) Demo.pairs (Demo.mem 7 []) = some (.ok ys, s') ∧
    s'.cmps ≤ 0 + 5 * (2 + 1) :=
  (C73_list_merge_sort Demo.byFst_sw).1 _ Demo.pairs

end CppSort
