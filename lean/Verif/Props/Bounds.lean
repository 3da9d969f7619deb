import Verif.Props.Demo
import Verif.Proof.Insertion
import Verif.Proof.Heap
import Verif.Proof.HeapCost
import Verif.Proof.MergeCost
import Verif.Props.Simple
import Verif.Props.Merge
/-
C65: numbers of comparisons and moves, for every input.
-/
set_option autoImplicit false

namespace CppSort
variable {α : Type} {lt : α → α → Bool} [Inhabited α]

/-- On every range of `n` elements, `sort` returns after at most `C n` comparisons and at most `V n` moves. -/
def CostsAtMost (sort : Nat → Nat → M α Unit) (C V : Nat → Nat) : Prop :=
  ∀ (s : St α) (first : Nat) (xs : List α), s.WF → Seg s.cell first xs →
    ∃ s', sort first (first + xs.length) s = some (.ok (), s') ∧ s'.cmps ≤ s.cmps + C xs.length ∧
      s'.movs ≤ s.movs + V xs.length

/-- C65 for insertion_sorter: at most `n(n-1)/2` comparisons and `n(n+3)/2` moves. -/
theorem C65_insertion_sorter (hlt : StrictWeak lt) :
    CostsAtMost (insertionSort (tick lt)) (fun n => n * (n - 1) / 2) (fun n => n * (n + 3) / 2) := by
  intro s f xs hw hs
  obtain ⟨v, hh, he⟩ := hs.holds
  obtain ⟨_, s', h1, v', h2, h3, h4, h5⟩ := insertionSort_spec hlt (by omega) hh
  rw [show f + xs.length - f = xs.length by omega] at h4 h5
  refine ⟨s', h1, ?_⟩
  dsimp only
  generalize xs.length * (xs.length - 1) = p at *
  generalize xs.length * (xs.length + 3) = q at *
  omega

/-- C65 for selection_sorter: exactly `n(n-1)/2` comparisons and `3n` moves, on every range. -/
theorem C65_selection_sorter (hlt : StrictWeak lt) (s : St α) (first : Nat) (xs : List α)
    (hs : Seg s.cell first xs) :
    ∃ s', selectionSort (tick lt) first (first + xs.length) s = some (.ok (), s') ∧
      s'.cmps = s.cmps + xs.length * (xs.length - 1) / 2 ∧ s'.movs = s.movs + 3 * xs.length := by
  obtain ⟨v, hh, he⟩ := hs.holds
  obtain ⟨_, s', h1, v', h2, h3, h4, h5⟩ := selectionSortLoop_spec hlt first (first + xs.length) xs.length first
    s v rfl (le_refl _) hh (SortedOn.trivial (by omega)) (by omega)
  generalize xs.length * (xs.length - 1) = p at *
  exact ⟨s', h1, by omega, h5⟩

example : ∃ s', insertionSort (tick Demo.byFst) 7 12 (Demo.mem 7 Demo.pairs) = some (.ok (), s') ∧
    s'.cmps ≤ 10 ∧ s'.movs ≤ 20 :=
  C65_insertion_sorter Demo.byFst_sw _ 7 Demo.pairs (Demo.mem_wf _ _) (Demo.mem_seg _ _)

example : ∃ s', selectionSort (tick Demo.byFst) 7 12 (Demo.mem 7 Demo.pairs) = some (.ok (), s') ∧
    s'.cmps = 10 ∧ s'.movs = 15 :=
  C65_selection_sorter Demo.byFst_sw _ 7 Demo.pairs (Demo.mem_seg _ _)

/-- C65 for heap_sorter: at most `3 n log2 n` comparisons. -/
theorem C65_heap_sorter (hlt : StrictWeak lt) (s : St α) (first : Nat) (xs : List α) (hw : s.WF)
    (hs : Seg s.cell first xs) :
    ∃ s', heapsort (tick lt) first (first + xs.length) s = some (.ok (), s') ∧
      s'.cmps ≤ s.cmps + 3 * xs.length * xs.length.log2 := by
  obtain ⟨s', ys, h1, -⟩ := C03_heap_sorter hlt s first xs hw hs
  have hn : xs.length < 2 ^ (xs.length.log2 + 1) := Nat.lt_log2_self
  have h2 := heapsort_cost (N := 0) (lt := lt) (first := first) (last := first + xs.length)
    (k := xs.length.log2) (by omega)
  obtain ⟨-, c, h3, h4⟩ := h2 s () s' (fun _ => Nat.zero_le _) h1
  rw [Nat.add_sub_cancel_left] at h4
  exact ⟨s', h1, by omega⟩

example : ∃ s', heapsort (tick Demo.byFst) 7 12 (Demo.mem 7 Demo.pairs) = some (.ok (), s') ∧
    s'.cmps ≤ 3 * 5 * 2 :=
  C65_heap_sorter Demo.byFst_sw _ 7 Demo.pairs (Demo.mem_wf _ _) (Demo.mem_seg _ _)

/-- C65 for merge_sorter over bidirectional and random-access iterators, when the no-throw allocator grants
the half-size buffer that the sort asks for: `n (k + 19)` comparisons for `n ≤ 39 * 2 ^ k`. -/
theorem C65_merge_sorter (hlt : StrictWeak lt) (c : Cfg) (hc : c.cat ≠ .forward) (s : St α) (first : Nat)
    (xs : List α) (hw : s.WF) (hs : Seg s.cell first xs) (hg : ∀ i, xs.length / 2 ≤ s.grant i)
    (k : Nat) (hk : xs.length ≤ 39 * 2 ^ k) :
    ∃ s', mergeSort (tick lt) c first (first + xs.length) s = some (.ok (), s') ∧
      s'.cmps ≤ s.cmps + xs.length * (k + 19) := by
  obtain ⟨s', ys, h1, -⟩ := C09_merge_sorter_partial hlt c hc s first xs hw hs
  have h2 : Cost (xs.length / 2) (mergeSort (tick lt) c first (first + xs.length))
      (fun _ c => c ≤ xs.length * (k + 19)) := by
    have hb : Cost (xs.length / 2) (if xs.length < 40 then insertionSort (tick lt) first (first + xs.length)
        else do
          let b ← mergeSortBi (tick lt) c first (first + xs.length) xs.length Buf.null
          b.release) (fun _ c => c ≤ xs.length * (k + 19)) := by
      refine Cost.ite (fun h => ?_) fun h => ?_
      · refine (insertionSort_cost (by omega)).mono fun _ c hc => ?_
        rw [Nat.add_sub_cancel_left] at hc
        have e1 : xs.length * (xs.length - 1) ≤ xs.length * 38 := Nat.mul_le_mul_left _ (by omega)
        have e2 : xs.length * (k + 19) = xs.length * k + xs.length * 19 := by ring
        omega
      · refine (mergeSortBi_cost hc k _ _ _ _ rfl hk (le_refl _)).bind fun b c hc => ?_
        exact (silent_free _ _).cost (by omega)
    unfold mergeSort
    dsimp only
    rw [Nat.add_sub_cancel_left]
    split
    · exact absurd ‹_› hc
    · exact hb
  obtain ⟨-, c, h3, h4⟩ := h2 s () s' hg h1
  exact ⟨s', h1, by omega⟩

/-- C65 for merge_sorter over forward iterators, when the no-throw allocator grants a buffer as long as the
range: `n (k + 6)` comparisons for `n ≤ 13 * 2 ^ k`. -/
theorem C65_merge_sorter_forward (hlt : StrictWeak lt) (triv : Bool) (s : St α) (first : Nat)
    (xs : List α) (hw : s.WF) (hs : Seg s.cell first xs) (hg : ∀ i, xs.length ≤ s.grant i)
    (k : Nat) (hk : xs.length ≤ 13 * 2 ^ k) :
    ∃ s', mergeSort (tick lt) ⟨.forward, triv⟩ first (first + xs.length) s = some (.ok (), s') ∧
      s'.cmps ≤ s.cmps + xs.length * (k + 6) := by
  obtain ⟨s', ys, h1, -⟩ := C09_merge_sorter_forward_partial hlt triv s first xs hw hs (.inr hg)
  have h2 : Cost xs.length (mergeSort (tick lt) ⟨.forward, triv⟩ first (first + xs.length))
      (fun _ c => c ≤ xs.length * (k + 6)) := by
    unfold mergeSort
    dsimp only
    rw [Nat.add_sub_cancel_left]
    refine Cost.ite (fun h => ?_) fun h => ?_
    · refine bubbleSort_cost.mono fun _ c hc => ?_
      have e1 : xs.length * (xs.length - 1) ≤ xs.length * 12 := Nat.mul_le_mul_left _ (by omega)
      have e2 : xs.length * (k + 6) = xs.length * k + xs.length * 6 := by ring
      omega
    · refine (mergeSortFwd_cost k _ _ _ hk (by omega)).bind fun b c hc => ?_
      exact (silent_free _ _).cost (by omega)
  obtain ⟨-, c, h3, h4⟩ := h2 s () s' hg h1
  exact ⟨s', h1, by omega⟩

/-- The hypotheses on the allocator hold in a memory whose allocator grants everything. -/
def Demo.granting (n : Nat) : St (Nat × Nat) := { Demo.mem 7 Demo.pairs with grant := fun _ => n }

example : ∃ s', mergeSort (tick Demo.byFst) ⟨.bidirectional, false⟩ 7 12 (Demo.granting 5) = some (.ok (), s') ∧
    s'.cmps ≤ 5 * 19 :=
  C65_merge_sorter Demo.byFst_sw ⟨.bidirectional, false⟩ (by simp) (Demo.granting 5) 7 Demo.pairs (Demo.mem_wf _ _) (Demo.mem_seg _ _)
    (fun _ => (by decide : (_ : Nat) ≤ 5)) 0 (by decide)

example : ∃ s', mergeSort (tick Demo.byFst) ⟨.forward, false⟩ 7 12 (Demo.granting 5) = some (.ok (), s') ∧
    s'.cmps ≤ 5 * 6 :=
  C65_merge_sorter_forward Demo.byFst_sw _ (Demo.granting 5) 7 Demo.pairs (Demo.mem_wf _ _) (Demo.mem_seg _ _)
    (fun _ => (by decide : (_ : Nat) ≤ 5)) 0 (by decide)

end CppSort
