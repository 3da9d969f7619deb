import Verif.Proof.QuickMerge
import Verif.Props.Demo
/-
C07: quick_sorter, C08: quick_merge_sorter.
-/
set_option autoImplicit false

namespace CppSort
variable {α : Type} [Inhabited α] {lt : α → α → Bool}

/-- C07: `quick_sorter` sorts every range, for each of the three iterator categories: the range ends
up sorted, a permutation of what it was, and neither the quicksort, nor the introselect fallback, nor
the median-of-medians pivot reads or swaps outside it. -/
theorem C07_quick_sorter (hlt : StrictWeak lt) (cat : Cat) : Sorts lt (quicksort (tick lt) cat) :=
  sorts_of_w fun _ _ _ _ hfl _ hh => quicksort_spec hlt cat hfl hh

example : Transforms (quicksort (tick Demo.byFst) .forward 7 12) (Demo.mem 7 Demo.pairs) 7 Demo.pairs
    (fun ys => ys.Perm Demo.pairs ∧ SortedList Demo.byFst ys) :=
  C07_quick_sorter Demo.byFst_sw _ _ 7 Demo.pairs (Demo.mem_wf _ _) (Demo.mem_seg _ _)

/-- C08: `quick_merge_sorter` sorts every range, for each of the three iterator categories: the
internal mergesort swaps its left runs with the elements of the right third of the range, and
everything is back in the range, in order, at the end. -/
theorem C08_quick_merge_sorter (hlt : StrictWeak lt) (cat : Cat) :
    Sorts lt (quickMergeSort (tick lt) cat) :=
  sorts_of_w fun s f l v hfl _ hh =>
    quickMergeSortLoop_spec hlt cat (l - f) f l s v (by omega) hh

example : Transforms (quickMergeSort (tick Demo.byFst) .random 7 12) (Demo.mem 7 Demo.pairs) 7
    Demo.pairs (fun ys => ys.Perm Demo.pairs ∧ SortedList Demo.byFst ys) :=
  C08_quick_merge_sorter Demo.byFst_sw _ _ 7 Demo.pairs (Demo.mem_wf _ _) (Demo.mem_seg _ _)

/-- C08, the selection `quick_merge_sorter` relies on: `adaptive_quickselect` puts in position `n` an
element with nothing greater before it and nothing less after it. -/
theorem C08_adaptive_quickselect (hlt : StrictWeak lt) (s : St α) (first n : Nat) (xs : List α)
    (hn : n < xs.length) (hw : s.WF) (hs : Seg s.cell first xs) :
    Transforms (adaptiveQuickselect (tick lt) first n xs.length) s first xs (fun ys =>
      ys.Perm xs ∧ ∀ y, ys[n]? = some y → ∀ i z, ys[i]? = some z →
        (i < n → lt y z = false) ∧ (n < i → lt z y = false)) := by
  obtain ⟨v, hv, he⟩ := hs.holds
  obtain ⟨_, s', hr, v', x, hu, hp⟩ := adaptiveQuickselect_spec hlt hn hv
  refine hu.transforms hw hv he hr ⟨by have := hu.perm.2; rwa [he] at this, ?_⟩
  intro y hy i z hz
  obtain ⟨h1, h2⟩ := List.getElem?_eq_some_iff.1 hy
  obtain ⟨h3, h4⟩ := List.getElem?_eq_some_iff.1 hz
  rw [lst_getElem] at h2 h4
  rw [lst_length] at h3
  subst h2 h4
  rw [hp.at_]
  exact ⟨fun h => hp.left _ (by omega) (by omega), fun h => hp.right _ (by omega) (by omega)⟩

example : Transforms (adaptiveQuickselect (tick Demo.byFst) 7 2 5) (Demo.mem 7 Demo.pairs) 7
    Demo.pairs (fun ys => ys.Perm Demo.pairs ∧ ∀ y, ys[2]? = some y → ∀ i z, ys[i]? = some z →
        (i < 2 → Demo.byFst y z = false) ∧ (2 < i → Demo.byFst z y = false)) :=
  C08_adaptive_quickselect Demo.byFst_sw _ 7 2 Demo.pairs (by decide) (Demo.mem_wf _ _)
    (Demo.mem_seg _ _)

end CppSort
