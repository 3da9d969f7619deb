import Verif.Proof.AnyPdq
import Verif.Proof.AnyPoplar
import Verif.Proof.AnyFixed
import Verif.Proof.AnySmooth
import Verif.Props.Demo
/-
C102, C103. What the sorters do when the comparison function is not a strict weak order. It is only asked to
return and to touch no element; two calls on the same elements can give different answers.
-/
set_option autoImplicit false

namespace CppSort
variable {α : Type} [Inhabited α] {cmp : α → α → M α Bool}

/-- The comparison function returns, touching nothing but the count of comparisons. Its answers are arbitrary: they need not be
those of an order, nor be the same each time. -/
def Returns (cmp : α → α → M α Bool) : Prop := ∀ x y s, ∃ b k, cmp x y s = some (.ok b, { s with cmps := k })

theorem Returns.answers (h : Returns cmp) (T : Shape α → Prop) : Answers T cmp := fun x y s => by
  obtain ⟨b, k, e⟩ := h x y s
  exact ⟨k, .inl ⟨b, e⟩⟩

/-- On every range whose length satisfies `p`, `sort` returns without undefined behaviour, leaves a permutation of the range
and touches nothing outside of it. -/
def Survives (p : Nat → Prop) (sort : Nat → Nat → M α Unit) : Prop :=
  ∀ (s : St α) (first : Nat) (xs : List α), p xs.length → s.WF → Seg s.cell first xs →
    Transforms (sort first (first + xs.length)) s first xs fun ys => ys.Perm xs

theorem Survives.intro {p : Nat → Prop} {sort : Nat → Nat → M α Unit}
    (h : ∀ f n, p n → Intact (fun _ => False) f (f + n) (sort f (f + n)) fun _ => True) : Survives p sort :=
  fun _ _ _ hp hw hs => (h _ _ hp).transforms hw hs

/-- A comparison function whose answers depend on the number of comparisons made before: it contradicts itself. -/
def Demo.moody : Nat × Nat → Nat × Nat → M (Nat × Nat) Bool := fun _ _ s =>
  some (.ok (s.cmps % 3 == 1), { s with cmps := s.cmps + 1 })

theorem Demo.moody_returns : Returns Demo.moody := fun _ _ _ => ⟨_, _, rfl⟩

/-- C102: `insertion_sorter` with any comparison function. -/
theorem C102_insertion_sorter (hc : Returns cmp) :
    Survives (fun _ => True) (insertionSort cmp) :=
  .intro fun _ _ _ => insertionSort_any (hc.answers _) (Nat.le_refl _) (by omega) (Nat.le_refl _)

example : Transforms (insertionSort Demo.moody 7 12) (Demo.mem 7 Demo.pairs) 7 Demo.pairs fun ys => ys.Perm Demo.pairs :=
  C102_insertion_sorter Demo.moody_returns _ 7 Demo.pairs trivial (Demo.mem_wf _ _) (Demo.mem_seg _ _)

/-- C102: `selection_sorter` with any comparison function. -/
theorem C102_selection_sorter (hc : Returns cmp) :
    Survives (fun _ => True) (selectionSort cmp) :=
  .intro fun _ _ _ => selectionSort_any (hc.answers _).w (by omega)

example : Transforms (selectionSort Demo.moody 7 12) (Demo.mem 7 Demo.pairs) 7 Demo.pairs fun ys => ys.Perm Demo.pairs :=
  C102_selection_sorter Demo.moody_returns _ 7 Demo.pairs trivial (Demo.mem_wf _ _) (Demo.mem_seg _ _)

/-- C102: `heap_sorter` with any comparison function. -/
theorem C102_heap_sorter (hc : Returns cmp) :
    Survives (fun _ => True) (heapsort cmp) :=
  .intro fun _ _ _ => heapsort_any (hc.answers _) (Nat.le_refl _) (by omega) (Nat.le_refl _)

example : Transforms (heapsort Demo.moody 7 12) (Demo.mem 7 Demo.pairs) 7 Demo.pairs fun ys => ys.Perm Demo.pairs :=
  C102_heap_sorter Demo.moody_returns _ 7 Demo.pairs trivial (Demo.mem_wf _ _) (Demo.mem_seg _ _)

/-- C102: `d_ary_heap_sorter` with any comparison function. -/
theorem C102_d_ary_heap_sorter (hc : Returns cmp) (D : Nat) (hD : 0 < D) :
    Survives (fun _ => True) (dAryHeapsort cmp D) :=
  .intro fun _ _ _ => dAryHeapsort_any (hc.answers _).w hD (by omega)

example : Transforms (dAryHeapsort Demo.moody 4 7 12) (Demo.mem 7 Demo.pairs) 7 Demo.pairs fun ys => ys.Perm Demo.pairs :=
  C102_d_ary_heap_sorter Demo.moody_returns 4 (by omega) _ 7 Demo.pairs trivial (Demo.mem_wf _ _) (Demo.mem_seg _ _)

/-- C102: `poplar_sorter` with any comparison function. -/
theorem C102_poplar_sorter (hc : Returns cmp) :
    Survives (fun _ => True) (poplarSort cmp) :=
  .intro fun _ _ _ => poplarSort_any (hc.answers _) (by omega)

example : Transforms (poplarSort Demo.moody 7 12) (Demo.mem 7 Demo.pairs) 7 Demo.pairs fun ys => ys.Perm Demo.pairs :=
  C102_poplar_sorter Demo.moody_returns _ 7 Demo.pairs trivial (Demo.mem_wf _ _) (Demo.mem_seg _ _)

/-- C102: `smooth_sorter` with any comparison function. -/
theorem C102_smooth_sorter (hc : Returns cmp) :
    Survives (fun n => n < 2 ^ 63) (smoothsort cmp) :=
  .intro fun _ _ h => smoothsort_any (hc.answers _).w (by omega) (by omega)

example : Transforms (smoothsort Demo.moody 7 12) (Demo.mem 7 Demo.pairs) 7 Demo.pairs fun ys => ys.Perm Demo.pairs :=
  C102_smooth_sorter Demo.moody_returns _ 7 Demo.pairs (by decide) (Demo.mem_wf _ _) (Demo.mem_seg _ _)

/-- C102: `quick_sorter` with any comparison function whatever the category of the iterators. -/
theorem C102_quick_sorter (hc : Returns cmp) (cat : Cat) :
    Survives (fun _ => True) (quicksort cmp cat) :=
  .intro fun _ _ _ => quicksort_any (hc.answers _).w cat (fun _ => hc.answers _) (by omega)

example : Transforms (quicksort Demo.moody .forward 7 12) (Demo.mem 7 Demo.pairs) 7 Demo.pairs fun ys => ys.Perm Demo.pairs :=
  C102_quick_sorter Demo.moody_returns .forward _ 7 Demo.pairs trivial (Demo.mem_wf _ _) (Demo.mem_seg _ _)

/-- C102: `sorting_network_sorter` with any comparison function. -/
theorem C102_sorting_network_sorter (hc : Returns cmp) (n : Nat) (hn : n ≤ 64) :
    Survives ((· = n)) (networkSort cmp n) :=
  .intro fun _ _ h => h ▸ networkSort_any (hc.answers _).w (by omega)

example : Transforms (networkSort Demo.moody 5 7 12) (Demo.mem 7 Demo.pairs) 7 Demo.pairs fun ys => ys.Perm Demo.pairs :=
  C102_sorting_network_sorter Demo.moody_returns 5 (by omega) _ 7 Demo.pairs (by decide) (Demo.mem_wf _ _) (Demo.mem_seg _ _)

/-- C102: `merge_exchange_network_sorter` with any comparison function. -/
theorem C102_merge_exchange_network_sorter (hc : Returns cmp) (n : Nat) :
    Survives ((· = n)) (mergeExchangeSort cmp n) :=
  .intro fun _ _ h => h ▸ mergeExchangeSort_any (hc.answers _).w

example : Transforms (mergeExchangeSort Demo.moody 5 7 12) (Demo.mem 7 Demo.pairs) 7 Demo.pairs fun ys => ys.Perm Demo.pairs :=
  C102_merge_exchange_network_sorter Demo.moody_returns 5 _ 7 Demo.pairs (by decide) (Demo.mem_wf _ _) (Demo.mem_seg _ _)

/-- C102: `odd_even_merge_network_sorter` with any comparison function. -/
theorem C102_odd_even_merge_network_sorter (hc : Returns cmp) (t : Nat) :
    Survives ((· = 2 ^ t)) (oddEvenMergeSort cmp (2 ^ t)) :=
  .intro fun _ _ h => by subst h; exact oddEvenMergeSort_any (hc.answers _).w

example : Transforms (oddEvenMergeSort Demo.moody (2 ^ 2) 7 11) (Demo.mem 7 (Demo.pairs.take 4)) 7 (Demo.pairs.take 4)
    fun ys => ys.Perm (Demo.pairs.take 4) :=
  C102_odd_even_merge_network_sorter Demo.moody_returns 2 _ 7 (Demo.pairs.take 4) (by decide) (Demo.mem_wf _ _) (Demo.mem_seg _ _)

/-- C102: `low_comparisons_sorter` with any comparison function. -/
theorem C102_low_comparisons_sorter (hc : Returns cmp) (n : Nat) (hn : n ≤ 13) :
    Survives ((· = n)) (lowComparisonsSort cmp n) :=
  .intro fun _ _ h => h ▸ lowComparisonsSort_any (hc.answers _).w (by omega)

example : Transforms (lowComparisonsSort Demo.moody 5 7 12) (Demo.mem 7 Demo.pairs) 7 Demo.pairs fun ys => ys.Perm Demo.pairs :=
  C102_low_comparisons_sorter Demo.moody_returns 5 (by omega) _ 7 Demo.pairs (by decide) (Demo.mem_wf _ _) (Demo.mem_seg _ _)

/-- C102: `low_moves_sorter` with any comparison function. -/
theorem C102_low_moves_sorter (hc : Returns cmp) (n : Nat) :
    Survives ((· = n)) (lowMovesSort cmp n) :=
  .intro fun _ _ h => h ▸ lowMovesSort_any (hc.answers _).w _ _ (Nat.le_refl _) (Nat.le_refl _)

example : Transforms (lowMovesSort Demo.moody 5 7 12) (Demo.mem 7 Demo.pairs) 7 Demo.pairs fun ys => ys.Perm Demo.pairs :=
  C102_low_moves_sorter Demo.moody_returns 5 _ 7 Demo.pairs (by decide) (Demo.mem_wf _ _) (Demo.mem_seg _ _)

/-- C103, false for `pdq_sorter`: if the comparison function says of all the elements that they are before each other, like
`<=` does when they are equal, then from 24 elements on it reads past the end of the range: with either partition function
the run ends with an access to something which holds no value, if there is none after the range. -/
theorem C103_pdq_sorter_any_comparison_false (lt : α → α → Bool) (branchless : Bool) (s : St α) (first : Nat) (xs : List α)
    (hs : Seg s.cell first xs) (hn : 24 ≤ xs.length) (hlt : ∀ x ∈ xs, ∀ y ∈ xs, lt x y = true)
    (hl : ∀ a, s.cell (first + xs.length) ≠ .val a) :
    ∃ s', pdqsort (tick lt) branchless first (first + xs.length) s = some (.error .deref, s') :=
  pdqsort_derefs branchless hs hn hlt hl

example (n : Nat) (h : 24 ≤ n) (branchless : Bool) : ∃ s', pdqsort (tick fun x y : Nat => decide (x ≤ y)) branchless 7
    (7 + (List.replicate n 5).length) (Demo.mem 7 (List.replicate n 5)) = some (.error .deref, s') :=
  C103_pdq_sorter_any_comparison_false _ _ _ _ _ (Demo.mem_seg _ _) (by simpa using h)
    (fun x hx y hy => by rw [List.eq_of_mem_replicate hx, List.eq_of_mem_replicate hy]; rfl)
    (fun a => by simp [Demo.mem])

/-- C103: up to 23 elements `pdq_sorter` is an insertion sort, and survives any comparison function. -/
theorem C103_pdq_sorter_partial (hc : Returns cmp) (branchless : Bool) : Survives (· < 24) (pdqsort cmp branchless) := by
  refine .intro fun f n h => ?_
  unfold pdqsort
  refine Keep.ite (fun _ => by keep) fun _ => ?_
  rw [pdqsortLoop, if_pos (by omega), if_pos rfl]
  exact insertionSort_any (hc.answers _) (Nat.le_refl _) (by omega) (Nat.le_refl _)

example : Transforms (pdqsort Demo.moody true 7 12) (Demo.mem 7 Demo.pairs) 7 Demo.pairs fun ys => ys.Perm Demo.pairs :=
  C103_pdq_sorter_partial Demo.moody_returns true _ 7 Demo.pairs (by decide) (Demo.mem_wf _ _) (Demo.mem_seg _ _)

end CppSort
