import Verif.Props.AnyCompare
import Verif.Proof.Throwing
/-
C104. Exceptions thrown by the comparison function (or by a projection it calls). `MayThrow cmp` is all that is asked of it: it
returns any answer or throws, and touches no element. The elements' own operations do not throw.
-/
set_option autoImplicit false

namespace CppSort
variable {α : Type} [Inhabited α] {cmp : α → α → M α Bool}

/-- The comparison function returns or throws, touching nothing but the count of comparisons. -/
def MayThrow (cmp : α → α → M α Bool) : Prop :=
  ∀ x y s, ∃ k, (∃ b, cmp x y s = some (.ok b, { s with cmps := k })) ∨ cmp x y s = some (.error .exn, { s with cmps := k })

/-- On every range whose length satisfies `p`, `sort` returns or lets the exception through, without undefined behaviour; in
both cases the range holds a permutation of its elements and nothing else was touched. -/
def ThrowsWhole (p : Nat → Prop) (sort : Nat → Nat → M α Unit) : Prop :=
  ∀ (s : St α) (first : Nat) (xs : List α), p xs.length → s.WF → Seg s.cell first xs →
    ∃ r s' ys, sort first (first + xs.length) s = some (r, s') ∧ (r = .ok () ∨ r = .error .exn) ∧
      ys.Perm xs ∧ Seg s'.cell first ys ∧
      (∀ i, i < first ∨ first + xs.length ≤ i → s'.cell i = s.cell i) ∧ s'.WF

/-- As `ThrowsWhole`, but when an exception was thrown one element may be lost: one position of the range is left
moved from, the others hold all the elements but one. -/
def ThrowsLosing (p : Nat → Prop) (sort : Nat → Nat → M α Unit) : Prop :=
  ∀ (s : St α) (first : Nat) (xs : List α), p xs.length → s.WF → Seg s.cell first xs →
    ∃ r s' ys, sort first (first + xs.length) s = some (r, s') ∧ (r = .ok () ∨ r = .error .exn) ∧
      ys.Perm xs ∧ (Seg s'.cell first ys ∨ r = .error .exn ∧ ∃ k, k < xs.length ∧ s'.cell (first + k) = .moved ∧
        ∀ i (h : i < ys.length), i ≠ k → s'.cell (first + i) = .val ys[i]) ∧
      (∀ i, i < first ∨ first + xs.length ≤ i → s'.cell i = s.cell i) ∧ s'.WF

theorem MayThrow.answers (h : MayThrow cmp) : Answers (fun _ => True) cmp := fun x y s => by
  obtain ⟨k, e | e⟩ := h x y s
  · exact ⟨k, .inl e⟩
  · exact ⟨k, .inr ⟨fun _ => trivial, e⟩⟩

theorem MayThrow.answersW (h : MayThrow cmp) : AnswersW (· = .whole) cmp := fun x y s => by
  obtain ⟨k, e | e⟩ := h x y s
  · exact ⟨k, .inl e⟩
  · exact ⟨k, .inr ⟨rfl, e⟩⟩

theorem ThrowsWhole.intro {p : Nat → Prop} {sort : Nat → Nat → M α Unit}
    (h : ∀ f n, p n → Intact (· = .whole) f (f + n) (sort f (f + n)) fun _ => True) : ThrowsWhole p sort := by
  intro s first xs hp hw hs
  obtain ⟨v, hv, he⟩ := hs.holds
  obtain ⟨r, s', e, P, v', i, q, fr, hr⟩ := h first xs.length hp s v hv
  have hP : P = .whole ∧ (r = .ok () ∨ r = .error .exn) := by
    cases r with
    | ok u => exact ⟨hr.1, .inl rfl⟩
    | error e => exact ⟨hr.2, .inr (by rw [hr.1])⟩
  obtain ⟨rfl, hr'⟩ := hP
  refine ⟨r, s', lst v' first (first + xs.length), e, hr', ?_, Holds.seg i, fr.cell, fr.wf_range hv hw⟩
  rw [← he]
  simpa using q.2

theorem ThrowsLosing.intro {p : Nat → Prop} {sort : Nat → Nat → M α Unit}
    (h : ∀ f n, p n → Intact (fun _ => True) f (f + n) (sort f (f + n)) fun _ => True) : ThrowsLosing p sort := by
  intro s first xs hp hw hs
  obtain ⟨v, hv, he⟩ := hs.holds
  obtain ⟨r, s', e, P, v', i, q, fr, hr⟩ := h first xs.length hp s v hv
  refine ⟨r, s', lst v' first (first + xs.length), e, ?_, ?_, ?_, fr.cell, fr.wf_range hv hw⟩
  · cases r with
    | ok u => exact .inl rfl
    | error e => exact .inr (by rw [hr.1])
  · rw [← he]
    simpa using q.2
  · cases P with
    | whole => exact .inl (Holds.seg i)
    | hole j t =>
      refine .inr ⟨?_, j - first, ?_, ?_, ?_⟩
      · cases r with
        | ok u => cases hr.1
        | error e => rw [hr.1]
      · have := i.1.2.2; omega
      · rw [show first + (j - first) = j by have := i.1.2.2; omega]; exact i.1.2.1
      · intro k hk hkj
        have hk' : k < xs.length := by simpa using hk
        rw [i.1.1 (first + k) (by omega) (by omega) (by have := i.1.2.2; omega)]
        simp [lst]

/-- A comparison function which throws at its fourth call. -/
def Demo.fourth : Nat × Nat → Nat × Nat → M (Nat × Nat) Bool := fun x y s =>
  if s.cmps = 3 then some (.error .exn, s) else some (.ok (Demo.byFst x y), { s with cmps := s.cmps + 1 })

theorem Demo.fourth_throws : MayThrow Demo.fourth := fun x y s => by
  unfold Demo.fourth
  by_cases h : s.cmps = 3
  · exact ⟨s.cmps, .inr (by rw [if_pos h])⟩
  · exact ⟨s.cmps + 1, .inl ⟨Demo.byFst x y, by rw [if_neg h]⟩⟩

/-- C104: `insertion_sorter` when the comparison throws. -/
theorem C104_insertion_sorter (hc : MayThrow cmp) :
    ThrowsLosing (fun _ => True) (insertionSort cmp) :=
  .intro fun _ _ _ => insertionSort_any hc.answers (Nat.le_refl _) (by omega) (Nat.le_refl _)

example : ∃ r s' ys, insertionSort Demo.fourth 7 12 (Demo.mem 7 Demo.pairs) = some (r, s') ∧ (r = .ok () ∨ r = .error .exn) ∧ ys.Perm Demo.pairs ∧
    (Seg s'.cell 7 ys ∨ r = .error .exn ∧ ∃ k, k < 5 ∧ s'.cell (7 + k) = .moved ∧
      ∀ i (h : i < ys.length), i ≠ k → s'.cell (7 + i) = .val ys[i]) ∧
    (∀ i, i < 7 ∨ 12 ≤ i → s'.cell i = (Demo.mem 7 Demo.pairs).cell i) ∧ s'.WF :=
  C104_insertion_sorter Demo.fourth_throws _ 7 Demo.pairs trivial (Demo.mem_wf _ _) (Demo.mem_seg _ _)

/-- C104: `selection_sorter` when the comparison throws. -/
theorem C104_selection_sorter (hc : MayThrow cmp) :
    ThrowsWhole (fun _ => True) (selectionSort cmp) :=
  .intro fun _ _ _ => selectionSort_any hc.answersW (by omega)

example : ∃ r s' ys, selectionSort Demo.fourth 7 12 (Demo.mem 7 Demo.pairs) = some (r, s') ∧ (r = .ok () ∨ r = .error .exn) ∧ ys.Perm Demo.pairs ∧
    Seg s'.cell 7 ys ∧ (∀ i, i < 7 ∨ 12 ≤ i → s'.cell i = (Demo.mem 7 Demo.pairs).cell i) ∧ s'.WF :=
  C104_selection_sorter Demo.fourth_throws _ 7 Demo.pairs trivial (Demo.mem_wf _ _) (Demo.mem_seg _ _)

/-- C104: `heap_sorter` when the comparison throws. -/
theorem C104_heap_sorter (hc : MayThrow cmp) :
    ThrowsLosing (fun _ => True) (heapsort cmp) :=
  .intro fun _ _ _ => heapsort_any hc.answers (Nat.le_refl _) (by omega) (Nat.le_refl _)

example : ∃ r s' ys, heapsort Demo.fourth 7 12 (Demo.mem 7 Demo.pairs) = some (r, s') ∧ (r = .ok () ∨ r = .error .exn) ∧ ys.Perm Demo.pairs ∧
    (Seg s'.cell 7 ys ∨ r = .error .exn ∧ ∃ k, k < 5 ∧ s'.cell (7 + k) = .moved ∧
      ∀ i (h : i < ys.length), i ≠ k → s'.cell (7 + i) = .val ys[i]) ∧
    (∀ i, i < 7 ∨ 12 ≤ i → s'.cell i = (Demo.mem 7 Demo.pairs).cell i) ∧ s'.WF :=
  C104_heap_sorter Demo.fourth_throws _ 7 Demo.pairs trivial (Demo.mem_wf _ _) (Demo.mem_seg _ _)

/-- C104: `d_ary_heap_sorter` when the comparison throws. -/
theorem C104_d_ary_heap_sorter (hc : MayThrow cmp) (D : Nat) (hD : 0 < D) :
    ThrowsWhole (fun _ => True) (dAryHeapsort cmp D) :=
  .intro fun _ _ _ => dAryHeapsort_any hc.answersW hD (by omega)

example : ∃ r s' ys, dAryHeapsort Demo.fourth 4 7 12 (Demo.mem 7 Demo.pairs) = some (r, s') ∧ (r = .ok () ∨ r = .error .exn) ∧ ys.Perm Demo.pairs ∧
    Seg s'.cell 7 ys ∧ (∀ i, i < 7 ∨ 12 ≤ i → s'.cell i = (Demo.mem 7 Demo.pairs).cell i) ∧ s'.WF :=
  C104_d_ary_heap_sorter Demo.fourth_throws 4 (by omega) _ 7 Demo.pairs trivial (Demo.mem_wf _ _) (Demo.mem_seg _ _)

/-- C104: `poplar_sorter` when the comparison throws. -/
theorem C104_poplar_sorter (hc : MayThrow cmp) :
    ThrowsLosing (fun _ => True) (poplarSort cmp) :=
  .intro fun _ _ _ => poplarSort_any hc.answers (by omega)

example : ∃ r s' ys, poplarSort Demo.fourth 7 12 (Demo.mem 7 Demo.pairs) = some (r, s') ∧ (r = .ok () ∨ r = .error .exn) ∧ ys.Perm Demo.pairs ∧
    (Seg s'.cell 7 ys ∨ r = .error .exn ∧ ∃ k, k < 5 ∧ s'.cell (7 + k) = .moved ∧
      ∀ i (h : i < ys.length), i ≠ k → s'.cell (7 + i) = .val ys[i]) ∧
    (∀ i, i < 7 ∨ 12 ≤ i → s'.cell i = (Demo.mem 7 Demo.pairs).cell i) ∧ s'.WF :=
  C104_poplar_sorter Demo.fourth_throws _ 7 Demo.pairs trivial (Demo.mem_wf _ _) (Demo.mem_seg _ _)

/-- C104: `smooth_sorter` when the comparison throws. -/
theorem C104_smooth_sorter (hc : MayThrow cmp) :
    ThrowsWhole (fun n => n < 2 ^ 63) (smoothsort cmp) :=
  .intro fun _ _ h => smoothsort_any hc.answersW (by omega) (by omega)

example : ∃ r s' ys, smoothsort Demo.fourth 7 12 (Demo.mem 7 Demo.pairs) = some (r, s') ∧ (r = .ok () ∨ r = .error .exn) ∧ ys.Perm Demo.pairs ∧
    Seg s'.cell 7 ys ∧ (∀ i, i < 7 ∨ 12 ≤ i → s'.cell i = (Demo.mem 7 Demo.pairs).cell i) ∧ s'.WF :=
  C104_smooth_sorter Demo.fourth_throws _ 7 Demo.pairs (by decide) (Demo.mem_wf _ _) (Demo.mem_seg _ _)

/-- C104: `quick_sorter_forward` for forward iterators (it only swaps elements) when the comparison throws. -/
theorem C104_quick_sorter_forward (hc : MayThrow cmp) :
    ThrowsWhole (fun _ => True) (quicksort cmp .forward) :=
  .intro fun _ _ _ => quicksort_any hc.answersW .forward (fun h => absurd rfl h) (by omega)

example : ∃ r s' ys, quicksort Demo.fourth .forward 7 12 (Demo.mem 7 Demo.pairs) = some (r, s') ∧ (r = .ok () ∨ r = .error .exn) ∧ ys.Perm Demo.pairs ∧
    Seg s'.cell 7 ys ∧ (∀ i, i < 7 ∨ 12 ≤ i → s'.cell i = (Demo.mem 7 Demo.pairs).cell i) ∧ s'.WF :=
  C104_quick_sorter_forward Demo.fourth_throws _ 7 Demo.pairs trivial (Demo.mem_wf _ _) (Demo.mem_seg _ _)

/-- C104: `quick_sorter` when the comparison throws. -/
theorem C104_quick_sorter (hc : MayThrow cmp) (cat : Cat) :
    ThrowsLosing (fun _ => True) (quicksort cmp cat) :=
  .intro fun _ _ _ => quicksort_any hc.answers.w cat (fun _ => hc.answers) (by omega)

example : ∃ r s' ys, quicksort Demo.fourth .random 7 12 (Demo.mem 7 Demo.pairs) = some (r, s') ∧ (r = .ok () ∨ r = .error .exn) ∧ ys.Perm Demo.pairs ∧
    (Seg s'.cell 7 ys ∨ r = .error .exn ∧ ∃ k, k < 5 ∧ s'.cell (7 + k) = .moved ∧
      ∀ i (h : i < ys.length), i ≠ k → s'.cell (7 + i) = .val ys[i]) ∧
    (∀ i, i < 7 ∨ 12 ≤ i → s'.cell i = (Demo.mem 7 Demo.pairs).cell i) ∧ s'.WF :=
  C104_quick_sorter Demo.fourth_throws .random _ 7 Demo.pairs trivial (Demo.mem_wf _ _) (Demo.mem_seg _ _)

/-- C104: `sorting_network_sorter` when the comparison throws. -/
theorem C104_sorting_network_sorter (hc : MayThrow cmp) (n : Nat) (hn : n ≤ 64) :
    ThrowsWhole ((· = n)) (networkSort cmp n) :=
  .intro fun _ _ h => h ▸ networkSort_any hc.answersW (by omega)

example : ∃ r s' ys, networkSort Demo.fourth 5 7 12 (Demo.mem 7 Demo.pairs) = some (r, s') ∧ (r = .ok () ∨ r = .error .exn) ∧ ys.Perm Demo.pairs ∧
    Seg s'.cell 7 ys ∧ (∀ i, i < 7 ∨ 12 ≤ i → s'.cell i = (Demo.mem 7 Demo.pairs).cell i) ∧ s'.WF :=
  C104_sorting_network_sorter Demo.fourth_throws 5 (by omega) _ 7 Demo.pairs (by decide) (Demo.mem_wf _ _) (Demo.mem_seg _ _)

/-- C104: `merge_exchange_network_sorter` when the comparison throws. -/
theorem C104_merge_exchange_network_sorter (hc : MayThrow cmp) (n : Nat) :
    ThrowsWhole ((· = n)) (mergeExchangeSort cmp n) :=
  .intro fun _ _ h => h ▸ mergeExchangeSort_any hc.answersW

example : ∃ r s' ys, mergeExchangeSort Demo.fourth 5 7 12 (Demo.mem 7 Demo.pairs) = some (r, s') ∧ (r = .ok () ∨ r = .error .exn) ∧ ys.Perm Demo.pairs ∧
    Seg s'.cell 7 ys ∧ (∀ i, i < 7 ∨ 12 ≤ i → s'.cell i = (Demo.mem 7 Demo.pairs).cell i) ∧ s'.WF :=
  C104_merge_exchange_network_sorter Demo.fourth_throws 5 _ 7 Demo.pairs (by decide) (Demo.mem_wf _ _) (Demo.mem_seg _ _)

/-- C104: `odd_even_merge_network_sorter` when the comparison throws. -/
theorem C104_odd_even_merge_network_sorter (hc : MayThrow cmp) (t : Nat) :
    ThrowsWhole ((· = 2 ^ t)) (oddEvenMergeSort cmp (2 ^ t)) :=
  .intro fun _ _ h => by subst h; exact oddEvenMergeSort_any hc.answersW

example : ∃ r s' ys, oddEvenMergeSort Demo.fourth (2 ^ 2) 7 11 (Demo.mem 7 (Demo.pairs.take 4)) = some (r, s') ∧ (r = .ok () ∨ r = .error .exn) ∧ ys.Perm (Demo.pairs.take 4) ∧
    Seg s'.cell 7 ys ∧ (∀ i, i < 7 ∨ 11 ≤ i → s'.cell i = (Demo.mem 7 (Demo.pairs.take 4)).cell i) ∧ s'.WF :=
  C104_odd_even_merge_network_sorter Demo.fourth_throws 2 _ 7 (Demo.pairs.take 4) (by decide) (Demo.mem_wf _ _) (Demo.mem_seg _ _)

/-- C104: `low_comparisons_sorter` when the comparison throws. -/
theorem C104_low_comparisons_sorter (hc : MayThrow cmp) (n : Nat) (hn : n ≤ 13) :
    ThrowsWhole ((· = n)) (lowComparisonsSort cmp n) :=
  .intro fun _ _ h => h ▸ lowComparisonsSort_any hc.answersW (by omega)

example : ∃ r s' ys, lowComparisonsSort Demo.fourth 5 7 12 (Demo.mem 7 Demo.pairs) = some (r, s') ∧ (r = .ok () ∨ r = .error .exn) ∧ ys.Perm Demo.pairs ∧
    Seg s'.cell 7 ys ∧ (∀ i, i < 7 ∨ 12 ≤ i → s'.cell i = (Demo.mem 7 Demo.pairs).cell i) ∧ s'.WF :=
  C104_low_comparisons_sorter Demo.fourth_throws 5 (by omega) _ 7 Demo.pairs (by decide) (Demo.mem_wf _ _) (Demo.mem_seg _ _)

/-- C104: `low_moves_sorter` when the comparison throws. -/
theorem C104_low_moves_sorter (hc : MayThrow cmp) (n : Nat) :
    ThrowsWhole ((· = n)) (lowMovesSort cmp n) :=
  .intro fun _ _ h => h ▸ lowMovesSort_any hc.answersW _ _ (Nat.le_refl _) (Nat.le_refl _)

example : ∃ r s' ys, lowMovesSort Demo.fourth 5 7 12 (Demo.mem 7 Demo.pairs) = some (r, s') ∧ (r = .ok () ∨ r = .error .exn) ∧ ys.Perm Demo.pairs ∧
    Seg s'.cell 7 ys ∧ (∀ i, i < 7 ∨ 12 ≤ i → s'.cell i = (Demo.mem 7 Demo.pairs).cell i) ∧ s'.WF :=
  C104_low_moves_sorter Demo.fourth_throws 5 _ 7 Demo.pairs (by decide) (Demo.mem_wf _ _) (Demo.mem_seg _ _)

/-- C104: `insertion_sorter` does lose elements. This comparison answers twice that the element goes before, then throws: on every
range of three elements or more, the second position is then left moved from. -/
theorem C104_insertion_sorter_loses : ∃ cmp : α → α → M α Bool, MayThrow cmp ∧
    ∀ (s : St α) (first : Nat) (xs : List α), Seg s.cell first xs → 3 ≤ xs.length → s.cmps = 0 →
      ∃ s', insertionSort cmp first (first + xs.length) s = some (.error .exn, s') ∧ s'.cell (first + 1) = .moved :=
  ⟨throwThird, fun x y s => by
    unfold throwThird
    by_cases h : s.cmps < 2
    · exact ⟨s.cmps + 1, .inl ⟨true, by rw [if_pos h]⟩⟩
    · exact ⟨s.cmps, .inr (by rw [if_neg h])⟩, fun _ _ _ hs hn h0 => insertionSort_loses hs hn h0⟩

example : ∃ s' : St (Nat × Nat), insertionSort throwThird 7 12 (Demo.mem 7 Demo.pairs) = some (.error .exn, s') ∧
    s'.cell 8 = .moved :=
  insertionSort_loses (xs := Demo.pairs) (Demo.mem_seg _ _) (by decide) rfl

end CppSort
