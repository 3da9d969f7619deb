import Verif.Proof.HeaplessBlock
import Verif.Proof.HeaplessFixed
import Verif.Props.Simple
import Verif.Props.Poplar
import Verif.Props.Smooth
import Verif.Props.Quick
import Verif.Props.Pdq
import Verif.Props.Grail
import Verif.Props.Wiki
import Verif.Props.FixedSize
import Verif.Props.Network
import Verif.Props.Batcher
import Verif.Props.Splay
import Verif.Props.Cartesian
import Verif.Props.Spin

/-
C101. The column "Memory" of the tables of docs/Sorters.md. `St.brk` is the number of cells allocated so far: `alloc` raises it and
`free` does not lower it, so its growth over a run is the total number of elements for which memory was requested, and it bounds
what is live at any time. What is not an element is not counted: the frames of the stack, the links of the nodes (part of the same
allocation) and the arrays of iterators.
-/

set_option autoImplicit false

namespace CppSort
variable {α : Type} [Inhabited α] {lt : α → α → Bool}

/-- On every range whose length satisfies `p`, `sort` returns and has allocated memory for at most `C n` elements. -/
def Allocates (p : Nat → Prop) (sort : Nat → Nat → M α Unit) (C : Nat → Nat) : Prop :=
  ∀ (s : St α) (first : Nat) (xs : List α), p xs.length → s.WF → Seg s.cell first xs →
    ∃ s', sort first (first + xs.length) s = some (.ok (), s') ∧ s'.brk ≤ s.brk + C xs.length

/-- `sort` allocates nothing on any range. -/
abbrev InPlace (sort : Nat → Nat → M α Unit) : Prop := Allocates (fun _ => True) sort fun _ => 0

theorem Sorts.allocates {sort : Nat → Nat → M α Unit} {C : Nat → Nat} (h : Sorts lt sort)
    (ha : ∀ f n, AllocsLe (C n) (sort f (f + n))) : Allocates (fun _ => True) sort C := fun s f xs _ hw hs => by
  obtain ⟨s', _, h1, -⟩ := h s f xs hw hs
  exact ⟨s', h1, ha _ _ _ _ _ h1⟩

theorem SortsStably.allocates {sort : Nat → Nat → M α Unit} {C : Nat → Nat} (h : SortsStably lt sort)
    (ha : ∀ f n, AllocsLe (C n) (sort f (f + n))) : Allocates (fun _ => True) sort C := fun s f xs _ hw hs => by
  obtain ⟨s', _, h1, -⟩ := h s f xs hw hs
  exact ⟨s', h1, ha _ _ _ _ _ h1⟩

theorem SortsSized.allocates {n : Nat} {sort : Nat → Nat → M α Unit} {C : Nat → Nat} (h : SortsSized lt n sort)
    (ha : ∀ f, AllocsLe (C n) (sort f (f + n))) : Allocates (· = n) sort C := fun s f xs hn hw hs => by
  obtain ⟨s', _, h1, -⟩ := h s f xs hn hw hs
  subst hn
  exact ⟨s', h1, ha _ _ _ _ h1⟩

/-- C101: `insertion_sorter` (docs/Sorters.md 178). -/
theorem C101_insertion_sorter (hlt : StrictWeak lt) : InPlace (insertionSort (tick lt)) :=
  (C01_insertion_sorter hlt).allocates fun _ _ => .of inferInstance _

example : ∃ s', insertionSort (tick Demo.byFst) 7 12 (Demo.mem 7 Demo.pairs) = some (.ok (), s') ∧ s'.brk ≤ (Demo.mem 7 Demo.pairs).brk + 0 :=
  C101_insertion_sorter Demo.byFst_sw _ 7 Demo.pairs trivial (Demo.mem_wf _ _) (Demo.mem_seg _ _)

/-- C101: `selection_sorter` (docs/Sorters.md 337). -/
theorem C101_selection_sorter (hlt : StrictWeak lt) : InPlace (selectionSort (tick lt)) :=
  (C02_selection_sorter hlt).allocates fun _ _ => .of inferInstance _

example : ∃ s', selectionSort (tick Demo.byFst) 7 12 (Demo.mem 7 Demo.pairs) = some (.ok (), s') ∧ s'.brk ≤ (Demo.mem 7 Demo.pairs).brk + 0 :=
  C101_selection_sorter Demo.byFst_sw _ 7 Demo.pairs trivial (Demo.mem_wf _ _) (Demo.mem_seg _ _)

/-- C101: `heap_sorter` (docs/Sorters.md 166). -/
theorem C101_heap_sorter (hlt : StrictWeak lt) : InPlace (heapsort (tick lt)) :=
  (C03_heap_sorter hlt).allocates fun _ _ => .of inferInstance _

example : ∃ s', heapsort (tick Demo.byFst) 7 12 (Demo.mem 7 Demo.pairs) = some (.ok (), s') ∧ s'.brk ≤ (Demo.mem 7 Demo.pairs).brk + 0 :=
  C101_heap_sorter Demo.byFst_sw _ 7 Demo.pairs trivial (Demo.mem_wf _ _) (Demo.mem_seg _ _)

/-- C101: `d_ary_heap_sorter` (docs/Sorters.md 67). -/
theorem C101_d_ary_heap_sorter (hlt : StrictWeak lt) (D : Nat) (hD : 2 ≤ D) : InPlace (dAryHeapsort (tick lt) D) :=
  (C04_d_ary_heap_sorter hlt D hD).allocates fun _ _ => .of inferInstance _

example : ∃ s', dAryHeapsort (tick Demo.byFst) 3 7 12 (Demo.mem 7 Demo.pairs) = some (.ok (), s') ∧ s'.brk ≤ (Demo.mem 7 Demo.pairs).brk + 0 :=
  C101_d_ary_heap_sorter Demo.byFst_sw 3 (by omega) _ 7 Demo.pairs trivial (Demo.mem_wf _ _) (Demo.mem_seg _ _)

/-- C101: `poplar_sorter` (docs/Sorters.md 280). -/
theorem C101_poplar_sorter (hlt : StrictWeak lt) : InPlace (poplarSort (tick lt)) :=
  (C05_poplar_sorter hlt).allocates fun _ _ => .of inferInstance _

example : ∃ s', poplarSort (tick Demo.byFst) 7 12 (Demo.mem 7 Demo.pairs) = some (.ok (), s') ∧ s'.brk ≤ (Demo.mem 7 Demo.pairs).brk + 0 :=
  C101_poplar_sorter Demo.byFst_sw _ 7 Demo.pairs trivial (Demo.mem_wf _ _) (Demo.mem_seg _ _)

/-- C101: `smooth_sorter` (docs/Sorters.md 376). -/
theorem C101_smooth_sorter (hlt : StrictWeak lt) (n : Nat) (hn : n < 2 ^ 63) :
    Allocates (· = n) (smoothsort (tick lt)) fun _ => 0 :=
  (C06_smooth_sorter hlt n hn).allocates fun _ => .of inferInstance _

example : ∃ s', smoothsort (tick Demo.byFst) 7 12 (Demo.mem 7 Demo.pairs) = some (.ok (), s') ∧ s'.brk ≤ (Demo.mem 7 Demo.pairs).brk + 0 :=
  C101_smooth_sorter Demo.byFst_sw 5 (by omega) _ 7 Demo.pairs rfl (Demo.mem_wf _ _) (Demo.mem_seg _ _)

/-- C101: `pdq_sorter` (docs/Sorters.md 264). -/
theorem C101_pdq_sorter (hlt : StrictWeak lt) (branchless : Bool) : InPlace (pdqsort (tick lt) branchless) :=
  (C10_pdq_sorter hlt branchless).allocates fun _ _ => .of inferInstance _

example : ∃ s', pdqsort (tick Demo.byFst) true 7 12 (Demo.mem 7 Demo.pairs) = some (.ok (), s') ∧ s'.brk ≤ (Demo.mem 7 Demo.pairs).brk + 0 :=
  C101_pdq_sorter Demo.byFst_sw true _ 7 Demo.pairs trivial (Demo.mem_wf _ _) (Demo.mem_seg _ _)

/-- C101: `quick_sorter` (docs/Sorters.md 319). -/
theorem C101_quick_sorter (hlt : StrictWeak lt) (cat : Cat) : InPlace (quicksort (tick lt) cat) :=
  (C07_quick_sorter hlt cat).allocates fun _ _ => .of inferInstance _

example : ∃ s', quicksort (tick Demo.byFst) .forward 7 12 (Demo.mem 7 Demo.pairs) = some (.ok (), s') ∧ s'.brk ≤ (Demo.mem 7 Demo.pairs).brk + 0 :=
  C101_quick_sorter Demo.byFst_sw .forward _ 7 Demo.pairs trivial (Demo.mem_wf _ _) (Demo.mem_seg _ _)

/-- C101: `quick_merge_sorter` (docs/Sorters.md 294-295). -/
theorem C101_quick_merge_sorter (hlt : StrictWeak lt) (cat : Cat) : InPlace (quickMergeSort (tick lt) cat) :=
  (C08_quick_merge_sorter hlt cat).allocates fun _ _ => .of inferInstance _

example : ∃ s', quickMergeSort (tick Demo.byFst) .random 7 12 (Demo.mem 7 Demo.pairs) = some (.ok (), s') ∧ s'.brk ≤ (Demo.mem 7 Demo.pairs).brk + 0 :=
  C101_quick_merge_sorter Demo.byFst_sw .random _ 7 Demo.pairs trivial (Demo.mem_wf _ _) (Demo.mem_seg _ _)

theorem AllocsLe.newObjects (n : Nat) : AllocsLe n (CppSort.newObjects n : M α Nat) := fun s r s' h => by
  have h2 : (some _ : Option (Except Err Nat × St α)) = some (r, s') := h
  cases h2
  exact Nat.le_refl _

/-- C101: `grail_sorter` requests what its buffer provider asks for and nothing more, however the run ends. -/
theorem C101_grail_sorter_run (cmp : α → α → M α Bool) [∀ x y, NoAlloc (cmp x y)] (c : Cfg) (size : Nat → Nat) (s s' : St α)
    (f n : Nat) (r : Except Err Unit) (h : grailSort cmp c size f (f + n) s = some (r, s')) : s'.brk ≤ s.brk + size n := by
  have : AllocsLe (size n) (grailSort cmp c size f (f + n)) := by
    unfold grailSort
    refine (AllocsLe.bind (AllocsLe.newObjects _) fun b => AllocsLe.of ?_ 0).mono (by simp)
    noalloc
  exact this _ _ _ h

/-- C101: `grail_sorter` allocates what its buffer provider provides (docs/Sorters.md 141). -/
theorem C101_grail_sorter (hlt : StrictWeak lt) (c : Cfg) {size : Nat → Nat} (h : ∀ n, 16 ≤ n → size n ≠ 1) :
    Allocates (fun _ => True) (grailSort (tick lt) c size) size :=
  (C61_grail_sorter_partial hlt c h).allocates fun f n _ _ _ h => C101_grail_sorter_run _ _ _ _ _ f n _ h

example : ∃ s', grailSort (tick Demo.byFst) ⟨.random, false⟩ (fun n => n / 2) 7 12 (Demo.mem 7 Demo.pairs) = some (.ok (), s') ∧ s'.brk ≤ (Demo.mem 7 Demo.pairs).brk + 2 :=
  C101_grail_sorter Demo.byFst_sw ⟨.random, false⟩ (fun n hn => by omega) _ 7 Demo.pairs trivial (Demo.mem_wf _ _) (Demo.mem_seg _ _)

/-- C101: by default it has no buffer. -/
theorem C101_grail_sorter_default (hlt : StrictWeak lt) (c : Cfg) : InPlace (grailSort (tick lt) c fun _ => 0) :=
  C101_grail_sorter hlt c fun _ _ => by omega

example : ∃ s', grailSort (tick Demo.byFst) ⟨.random, false⟩ (fun _ => 0) 7 12 (Demo.mem 7 Demo.pairs) = some (.ok (), s') ∧ s'.brk ≤ (Demo.mem 7 Demo.pairs).brk + 0 :=
  C101_grail_sorter_default Demo.byFst_sw ⟨.random, false⟩ _ 7 Demo.pairs trivial (Demo.mem_wf _ _) (Demo.mem_seg _ _)

/-- C101: `wiki_sorter` requests what its buffer provider asks for and nothing more, however the run ends. -/
theorem C101_wiki_sorter_run (cmp : α → α → M α Bool) [∀ x y, NoAlloc (cmp x y)] (c : Cfg) (t : TypeTraits) (junk : Nat → Nat → Nat) (size : Nat → Nat) (s s' : St α)
    (f n : Nat) (r : Except Err Unit) (h : wikiSort cmp c t junk size f (f + n) s = some (r, s')) : s'.brk ≤ s.brk + size n := by
  have : AllocsLe (size n) (wikiSort cmp c t junk size f (f + n)) := by
    unfold wikiSort
    refine (AllocsLe.bind (AllocsLe.newObjects _) fun b => AllocsLe.of ?_ 0).mono (by simp)
    noalloc
  exact this _ _ _ h

/-- C101: `wiki_sorter` allocates what its buffer provider provides (docs/Sorters.md 513). -/
theorem C101_wiki_sorter (hlt : StrictWeak lt) (c : Cfg) {t : TypeTraits} {size : Nat → Nat}
    (h : t.trivDtor = true ∨ ∀ n, 15 ≤ n → size n ≤ 4) (junk : Nat → Nat → Nat) :
    Allocates (fun _ => True) (wikiSort (tick lt) c t junk size) size :=
  (C62_wiki_sorter_partial hlt c h junk).allocates fun f n _ _ _ h => C101_wiki_sorter_run _ _ _ _ _ _ _ f n _ h

example : ∃ s', wikiSort (tick Demo.byFst) ⟨.random, false⟩ ⟨true, true⟩ (fun _ _ => 0) (fun n => n / 2) 7 12 (Demo.mem 7 Demo.pairs) = some (.ok (), s') ∧ s'.brk ≤ (Demo.mem 7 Demo.pairs).brk + 2 :=
  C101_wiki_sorter Demo.byFst_sw ⟨.random, false⟩ (.inl rfl) (fun _ _ => 0) _ 7 Demo.pairs trivial (Demo.mem_wf _ _) (Demo.mem_seg _ _)

/-- C101: by default its buffer has room for 512 elements, whatever the size of the range. -/
theorem C101_wiki_sorter_default (hlt : StrictWeak lt) (c : Cfg) {t : TypeTraits} (ht : t.trivDtor = true) (junk : Nat → Nat → Nat) :
    Allocates (fun _ => True) (wikiSort (tick lt) c t junk fun _ => 512) fun _ => 512 :=
  C101_wiki_sorter hlt c (.inl ht) junk

example : ∃ s', wikiSort (tick Demo.byFst) ⟨.random, false⟩ ⟨true, true⟩ (fun _ _ => 0) (fun _ => 512) 7 12 (Demo.mem 7 Demo.pairs) = some (.ok (), s') ∧ s'.brk ≤ (Demo.mem 7 Demo.pairs).brk + 512 :=
  C101_wiki_sorter_default Demo.byFst_sw ⟨.random, false⟩ rfl (fun _ _ => 0) _ 7 Demo.pairs trivial (Demo.mem_wf _ _) (Demo.mem_seg _ _)

/-- C101: `low_moves_sorter`. -/
theorem C101_low_moves_sorter (hlt : StrictWeak lt) (n : Nat) : Allocates (· = n) (lowMovesSort (tick lt) n) fun _ => 0 :=
  (C24_low_moves_sorter hlt n).allocates fun _ => .of inferInstance _

example : ∃ s', lowMovesSort (tick Demo.byFst) 5 7 12 (Demo.mem 7 Demo.pairs) = some (.ok (), s') ∧ s'.brk ≤ (Demo.mem 7 Demo.pairs).brk + 0 :=
  C101_low_moves_sorter Demo.byFst_sw 5 _ 7 Demo.pairs rfl (Demo.mem_wf _ _) (Demo.mem_seg _ _)

/-- C101: `low_comparisons_sorter`. -/
theorem C101_low_comparisons_sorter (hlt : StrictWeak lt) (n : Nat) (hn : n ≤ 13) :
    Allocates (· = n) (lowComparisonsSort (tick lt) n) fun _ => 0 :=
  (C25_low_comparisons_sorter hlt n hn).allocates fun _ => .of inferInstance _

example : ∃ s', lowComparisonsSort (tick Demo.byFst) 5 7 12 (Demo.mem 7 Demo.pairs) = some (.ok (), s') ∧ s'.brk ≤ (Demo.mem 7 Demo.pairs).brk + 0 :=
  C101_low_comparisons_sorter Demo.byFst_sw 5 (by omega) _ 7 Demo.pairs rfl (Demo.mem_wf _ _) (Demo.mem_seg _ _)

/-- C101: `sorting_network_sorter`. -/
theorem C101_sorting_network_sorter (hlt : StrictWeak lt) (n : Nat) (hn : n ≤ 64) :
    Allocates (· = n) (networkSort (tick lt) n) fun _ => 0 :=
  (C26_sorting_network_sorter hlt n hn).allocates fun _ => .of inferInstance _

example : ∃ s', networkSort (tick Demo.byFst) 5 7 12 (Demo.mem 7 Demo.pairs) = some (.ok (), s') ∧ s'.brk ≤ (Demo.mem 7 Demo.pairs).brk + 0 :=
  C101_sorting_network_sorter Demo.byFst_sw 5 (by omega) _ 7 Demo.pairs rfl (Demo.mem_wf _ _) (Demo.mem_seg _ _)

/-- C101: `merge_exchange_network_sorter`. -/
theorem C101_merge_exchange_sorter (hlt : StrictWeak lt) (n : Nat) :
    Allocates (· = n) (mergeExchangeSort (tick lt) n) fun _ => 0 :=
  (C27_merge_exchange_sorter hlt n).allocates fun _ => .of inferInstance _

example : ∃ s', mergeExchangeSort (tick Demo.byFst) 5 7 12 (Demo.mem 7 Demo.pairs) = some (.ok (), s') ∧ s'.brk ≤ (Demo.mem 7 Demo.pairs).brk + 0 :=
  C101_merge_exchange_sorter Demo.byFst_sw 5 _ 7 Demo.pairs rfl (Demo.mem_wf _ _) (Demo.mem_seg _ _)

/-- C101: `odd_even_merge_network_sorter`. -/
theorem C101_odd_even_merge_sorter (hlt : StrictWeak lt) (t : Nat) :
    Allocates (· = 2 ^ t) (oddEvenMergeSort (tick lt) (2 ^ t)) fun _ => 0 :=
  (C28_odd_even_merge_sorter hlt t).allocates fun _ => .of inferInstance _

example : ∃ s', oddEvenMergeSort (tick Demo.byFst) 4 7 11 (Demo.mem 7 (Demo.pairs.take 4)) = some (.ok (), s') ∧
    s'.brk ≤ (Demo.mem 7 (Demo.pairs.take 4)).brk + 0 :=
  C101_odd_even_merge_sorter Demo.byFst_sw 2 _ 7 (Demo.pairs.take 4) rfl (Demo.mem_wf _ _) (Demo.mem_seg _ _)

/-- C101: `splay_sorter` makes one allocation, of a node for each element (docs/Sorters.md 404). -/
theorem C101_splay_sorter (hlt : StrictWeak lt) : Allocates (fun _ => True) (splaysort (tick lt)) id :=
  (C15_splay_sorter hlt).allocates fun f n => by
    unfold splaysort
    simp only [Nat.add_sub_cancel_left]
    split
    · exact .of inferInstance _
    · refine (AllocsLe.bind (AllocsLe.alloc _) fun b => AllocsLe.of ?_ 0).mono (by simp)
      noalloc

example : ∃ s', splaysort (tick Demo.byFst) 7 12 (Demo.mem 7 Demo.pairs) = some (.ok (), s') ∧ s'.brk ≤ (Demo.mem 7 Demo.pairs).brk + 5 :=
  C101_splay_sorter Demo.byFst_sw _ 7 Demo.pairs trivial (Demo.mem_wf _ _) (Demo.mem_seg _ _)

/-- C101: `cartesian_tree_sorter` makes one allocation, of a node for each element (docs/Sorters.md 51). -/
theorem C101_cartesian_tree_sorter (hlt : StrictWeak lt) : Allocates (fun _ => True) (cartesianTreeSort lt) id :=
  (C16_cartesian_tree_sorter hlt).allocates fun f n => by
    unfold cartesianTreeSort
    simp only [Nat.add_sub_cancel_left]
    split
    · exact .of inferInstance _
    · refine (AllocsLe.bind (AllocsLe.alloc _) fun b => AllocsLe.of ?_ 0).mono (by simp)
      noalloc

example : ∃ s', cartesianTreeSort Demo.byFst 7 12 (Demo.mem 7 Demo.pairs) = some (.ok (), s') ∧ s'.brk ≤ (Demo.mem 7 Demo.pairs).brk + 5 :=
  C101_cartesian_tree_sorter Demo.byFst_sw _ 7 Demo.pairs trivial (Demo.mem_wf _ _) (Demo.mem_seg _ _)

/-- C101: `spin_sorter` makes one allocation, of half the range; none for up to 72 elements (docs/Sorters.md 390). -/
theorem C101_spin_sorter (cmp : α → α → M α Bool) [∀ x y, NoAlloc (cmp x y)] (s s' : St α) (f n : Nat) (r : Except Err Unit)
    (h : spinsort cmp f (f + n) s = some (r, s')) : s'.brk ≤ s.brk + if n ≤ 72 then 0 else (n + 1) / 2 := by
  have : AllocsLe (if n ≤ 72 then 0 else (n + 1) / 2) (spinsort cmp f (f + n)) := by
    unfold spinsort
    simp only [Nat.add_sub_cancel_left]
    split
    · exact .of inferInstance _
    · refine (AllocsLe.bind (AllocsLe.alloc _) fun b => AllocsLe.of ?_ 0).mono (by simp)
      noalloc
  exact this _ _ _ h

example : ∃ s', spinsort (tick Demo.byFst) 7 207 (Demo.mem 7 spinDemo) = some (.ok (), s') ∧
    s'.brk ≤ (Demo.mem 7 spinDemo).brk + 100 := by
  obtain ⟨s', _, h, -⟩ := C14_spin_sorter_partial Demo.byFst_sw _ 7 spinDemo (Demo.mem_wf _ _) (Demo.mem_seg _ _)
    (.inr (.inl (by simp [spinDemo])))
  have hl : spinDemo.length = 200 := by simp [spinDemo]
  rw [hl] at h
  have := C101_spin_sorter _ _ _ 7 200 _ h
  exact ⟨s', h, by simpa using this⟩

end CppSort
