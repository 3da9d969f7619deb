import Verif.Proof.Batcher
import Verif.Props.Demo
/-
C27, C28: merge_exchange_network_sorter<N> and odd_even_merge_network_sorter<N>.
-/
set_option autoImplicit false

namespace CppSort
variable {α : Type} [Inhabited α] {lt : α → α → Bool}

/-- C27: `merge_exchange_network_sorter<N>` sorts every range of `N` elements, for every `N`. -/
theorem C27_merge_exchange_sorter (hlt : StrictWeak lt) (n : Nat) :
    SortsSized lt n (mergeExchangeSort (tick lt) n) :=
  sortsSized_of_w fun _ _ _ _ hh =>
    wp_mono (swapIndexPairs_sorts hlt (mergeExchange_range n) (mergeExchange_sorts01 n) hh)
      fun _ _ ⟨v', h1, h2, _⟩ => ⟨v', h1, h2⟩

example : Transforms (mergeExchangeSort (tick Demo.byFst) 5 7 12) (Demo.mem 7 Demo.pairs) 7
    Demo.pairs (fun ys => ys.Perm Demo.pairs ∧ SortedList Demo.byFst ys) :=
  C27_merge_exchange_sorter Demo.byFst_sw 5 _ 7 Demo.pairs rfl (Demo.mem_wf _ _)
    (Demo.mem_seg _ _)

/-- C27: the index pairs lie in the range with the smaller index first, exactly fill the array of
size `merge_exchange_pairs_number(n)`, and the sorter makes one comparison for each. -/
theorem C27_merge_exchange_pairs (hlt : StrictWeak lt) (n : Nat) (hn : 2 ≤ n) :
    (∀ p ∈ mergeExchangePairs n, p.1 < p.2 ∧ p.2 < n) ∧
    (mergeExchangePairs n).length = mergeExchangePairsNumber n ∧
    ∀ (s : St α) (first : Nat) (xs : List α), xs.length = n → Seg s.cell first xs →
      ∃ s', mergeExchangeSort (tick lt) n first (first + n) s = some (.ok (), s') ∧
        s'.cmps = s.cmps + mergeExchangePairsNumber n := by
  have hc : (mergeExchangePairs n).length = mergeExchangePairsNumber n := by
    unfold mergeExchangePairs mergeExchangePairsNumber
    rw [if_neg (by omega), meForCount_eq, Nat.zero_add]
  refine ⟨mergeExchange_range n, hc, ?_⟩
  intro s first xs hl hs
  obtain ⟨v, hv, -⟩ := hs.holds
  subst hl
  obtain ⟨_, s', hr, _, _, _, h, _⟩ :=
    swapIndexPairs_sorts hlt (mergeExchange_range _) (mergeExchange_sorts01 _) hv
  exact ⟨s', hr, by rw [h, hc]⟩

example : mergeExchangePairs 2 = [(0, 1)] ∧
    ∃ s', mergeExchangeSort (tick Demo.byFst) 5 7 12 (Demo.mem 7 Demo.pairs) = some (.ok (), s') ∧
      s'.cmps = mergeExchangePairsNumber 5 := by
  refine ⟨?_, ?_⟩
  · simp [mergeExchangePairs, ceilLog2, ceilLog2Loop, meFor, meWhile, mePass, List.range_succ]
  · obtain ⟨s', h1, h2⟩ := (C27_merge_exchange_pairs Demo.byFst_sw 5 (by omega)).2.2
      (Demo.mem 7 Demo.pairs) 7 Demo.pairs rfl (Demo.mem_seg _ _)
    exact ⟨s', h1, by simpa [Demo.mem] using h2⟩

/-- C28: `odd_even_merge_network_sorter<N>` sorts every range of `N` elements, for every power of
two `N`. -/
theorem C28_odd_even_merge_sorter (hlt : StrictWeak lt) (t : Nat) :
    SortsSized lt (2 ^ t) (oddEvenMergeSort (tick lt) (2 ^ t)) :=
  sortsSized_of_w fun _ _ _ _ hh =>
    wp_mono (swapIndexPairs_sorts hlt (oddEvenMerge_range t) (oddEvenMerge_sorts01 t) hh)
      fun _ _ ⟨v', h1, h2, _⟩ => ⟨v', h1, h2⟩

example : Transforms (oddEvenMergeSort (tick Demo.byFst) (2 ^ 2) 7 11)
    (Demo.mem 7 (Demo.pairs.take 4)) 7 (Demo.pairs.take 4)
    (fun ys => ys.Perm (Demo.pairs.take 4) ∧ SortedList Demo.byFst ys) :=
  C28_odd_even_merge_sorter Demo.byFst_sw 2 _ 7 (Demo.pairs.take 4) rfl (Demo.mem_wf _ _)
    (Demo.mem_seg _ _)

/-- C28: the same facts about the index pairs. -/
theorem C28_odd_even_merge_pairs (hlt : StrictWeak lt) (t : Nat) (ht : 0 < t) :
    (∀ p ∈ oddEvenMergePairs (2 ^ t), p.1 < p.2 ∧ p.2 < 2 ^ t) ∧
    (oddEvenMergePairs (2 ^ t)).length = oddEvenMergePairsNumber (2 ^ t) ∧
    ∀ (s : St α) (first : Nat) (xs : List α), xs.length = 2 ^ t → Seg s.cell first xs →
      ∃ s', oddEvenMergeSort (tick lt) (2 ^ t) first (first + 2 ^ t) s = some (.ok (), s') ∧
        s'.cmps = s.cmps + oddEvenMergePairsNumber (2 ^ t) := by
  have hc : (oddEvenMergePairs (2 ^ t)).length = oddEvenMergePairsNumber (2 ^ t) := by
    unfold oddEvenMergePairs oddEvenMergePairsNumber
    have : 2 ^ 1 ≤ 2 ^ t := Nat.pow_le_pow_right (by omega) ht
    rw [if_neg (by omega), oePCount_eq, Nat.zero_add]
  refine ⟨oddEvenMerge_range t, hc, ?_⟩
  intro s first xs hl hs
  obtain ⟨v, hv, -⟩ := hs.holds
  rw [hl] at hv
  obtain ⟨_, s', hr, _, _, _, h, _⟩ :=
    swapIndexPairs_sorts hlt (oddEvenMerge_range t) (oddEvenMerge_sorts01 t) hv
  exact ⟨s', hr, by rw [h, hc]⟩

example : oddEvenMergePairs 4 = [(0, 1), (2, 3), (0, 2), (1, 3), (1, 2)] := by decide +kernel

end CppSort
