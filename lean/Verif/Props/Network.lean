import Verif.Proof.Network
import Verif.Props.Demo
/-
C26, C64: sorting_network_sorter<N>, N = 0, …, 64.
-/
set_option autoImplicit false

namespace CppSort
variable {α : Type} [Inhabited α] {lt : α → α → Bool}

/-- C26: `sorting_network_sorter<N>` sorts every range of `N` elements, `N ≤ 64`. -/
theorem C26_sorting_network_sorter (hlt : StrictWeak lt) (n : Nat) (hn : n ≤ 64) :
    SortsSized lt n (networkSort (tick lt) n) :=
  sortsSized_of_w fun _ _ _ _ hh =>
    wp_mono (networkSort_spec hlt hn hh) fun _ _ ⟨v', h1, h2, _⟩ => ⟨v', h1, h2⟩

example : Transforms (networkSort (tick Demo.byFst) 5 7 12) (Demo.mem 7 Demo.pairs) 7 Demo.pairs
    (fun ys => ys.Perm Demo.pairs ∧ SortedList Demo.byFst ys) :=
  C26_sorting_network_sorter Demo.byFst_sw 5 (by omega) _ 7 Demo.pairs rfl (Demo.mem_wf _ _)
    (Demo.mem_seg _ _)

/-- C26, second part: the pairs returned by `index_pairs()` passed to `swap_index_pairs` sort too,
and lie in the range with the smaller index first. -/
theorem C26_index_pairs (hlt : StrictWeak lt) (n : Nat) (hn : n ≤ 64) :
    SortsSized lt n (fun first _ => swapIndexPairs (tick lt) first (netIndexPairs n)) ∧
      ∀ p ∈ netIndexPairs n, p.1 < p.2 ∧ p.2 < n := by
  rw [netIndexPairs_eq hn]
  exact ⟨C26_sorting_network_sorter hlt n hn, netBody_range hn⟩

example : (7, 21) ∈ netIndexPairs 64 ∨ (0, 2) ∈ netIndexPairs 64 := by decide +kernel

/-- docs/Fixed-size-sorters.md 152-159: the documented number of compare-exchanges for each size. -/
def documentedCEs : List Nat :=
  [0, 0, 1, 3, 5, 9, 12, 16, 19, 25, 29, 35, 39, 45, 51, 56, 60,
   71, 77, 85, 91, 99, 106, 114, 120, 130, 139, 147, 155, 164, 172, 180, 185,
   199, 209, 220, 227, 240, 250, 259, 265, 282, 291, 303, 309, 324, 332, 340, 346,
   365, 376, 387, 395, 411, 421, 432, 438, 454, 465, 476, 483, 497, 506, 515, 521]

/-- C64: on every input, `sorting_network_sorter<N>` performs exactly the documented number of
comparisons and at most three moves for each. -/
theorem C64_network_counts (hlt : StrictWeak lt) (n : Nat) (hn : n ≤ 64) (s : St α) (first : Nat)
    (xs : List α) (hl : xs.length = n) (hs : Seg s.cell first xs) :
    ∃ s', networkSort (tick lt) n first (first + n) s = some (.ok (), s') ∧
      documentedCEs[n]? = some (s'.cmps - s.cmps) ∧ s.cmps ≤ s'.cmps ∧
      s'.movs - s.movs ≤ 3 * (s'.cmps - s.cmps) := by
  obtain ⟨v, hv, -⟩ := hs.holds
  subst hl
  obtain ⟨_, s', hr, _, _, _, hc, hm⟩ := networkSort_spec hlt hn hv
  have hd : ∀ n : Fin 65, documentedCEs[n.1]? = some (netBody n.1).length := by decide +kernel
  have hd := hd ⟨xs.length, by omega⟩
  refine ⟨s', hr, ?_, by omega, ?_⟩
  · rw [hd]; congr 1; simp only; omega
  · omega

example : ∃ s', networkSort (tick Demo.byFst) 5 7 12 (Demo.mem 7 Demo.pairs) = some (.ok (), s') ∧
    s'.cmps = 9 := by
  obtain ⟨s', h1, h2, h3, _⟩ := C64_network_counts Demo.byFst_sw 5 (by omega)
    (Demo.mem 7 Demo.pairs) 7 Demo.pairs rfl (Demo.mem_seg _ _)
  exact ⟨s', h1, by simpa [documentedCEs, Demo.mem] using h2.symm⟩

end CppSort
