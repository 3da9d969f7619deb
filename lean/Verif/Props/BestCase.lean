import Verif.Props.Demo
import Verif.Props.Lists
import Verif.Proof.SortedCost
import Verif.Proof.ListInsCost
/-
C75: the adaptive sorters documented with a best case of n reach it on every range that is already sorted.
C76: insertion_sorter on lists is documented with a best case of n, which no family of inputs reaches.
-/
set_option autoImplicit false

namespace CppSort
variable {α : Type} {lt : α → α → Bool}

/-- On every range of `n` elements that is already sorted, `n` satisfying `p`, `sort` returns after exactly `C n`
comparisons and leaves the range as it was. -/
def SortedIn (lt : α → α → Bool) (p : Nat → Prop) (sort : Nat → Nat → M α Unit) (C : Nat → Nat) : Prop :=
  ∀ (s : St α) (first : Nat) (xs : List α), p xs.length → s.WF → Seg s.cell first xs → SortedList lt xs →
    ∃ s', sort first (first + xs.length) s = some (.ok (), s') ∧ Seg s'.cell first xs ∧
      s'.cmps = s.cmps + C xs.length

theorem SortedIn.intro {p : Nat → Prop} {sort : Nat → Nat → M α Unit} {C : Nat → Nat}
    (h0 : p 0 → (∀ f, sort f f = pure ()) ∧ C 0 = 0)
    (h : ∀ (s : St α) f l v, f ≤ l → p (l - f) → s.WF → Holds s.cell f l v → Neigh lt f l v →
      wp (sort f l) (fun _ s' => Seg s'.cell f (lst v f l) ∧ s'.cmps = s.cmps + C (l - f)) s) :
    SortedIn lt p sort C := by
  intro s f xs hp hw hs hso
  obtain _ | ⟨x, t⟩ := xs
  · obtain ⟨h1, h2⟩ := h0 hp
    refine ⟨s, ?_, hs, by simp [h2]⟩
    simp only [List.length_nil, Nat.add_zero, h1]
    rfl
  haveI : Inhabited α := ⟨x⟩
  generalize x :: t = xs at *
  obtain ⟨v, hh, he⟩ := hs.holds
  have ho : SortedOn lt f (f + xs.length) v := sortedOn_iff.2 (by rw [he]; exact hso)
  obtain ⟨_, s', h1, h2, h3⟩ := h s f (f + xs.length) v (Nat.le_add_right _ _) (by rwa [Nat.add_sub_cancel_left])
    hw hh fun i h1 h2 => ho i (i + 1) h1 (Nat.lt_succ_self _) h2
  rw [he] at h2
  rw [Nat.add_sub_cancel_left] at h3
  exact ⟨s', h1, h2, h3⟩

theorem Looks.wpSeg {m : M α Unit} {s : St α} {k f l : Nat} {v : Nat → α} (h : Looks s.cell m k ())
    (hh : Holds s.cell f l v) : CppSort.wp m (fun _ s' => Seg s'.cell f (lst v f l) ∧ s'.cmps = s.cmps + k) s := by
  obtain ⟨s', h1, h2, h3⟩ := h s rfl
  exact ⟨(), s', h1, by rw [h2]; exact hh.seg, h3⟩

/-- Five pairs in order, with ties. -/
def Demo.inOrder : List (Nat × Nat) := [(1, 1), (1, 0), (2, 0), (3, 1), (3, 0)]

theorem Demo.inOrder_sorted : SortedList Demo.byFst Demo.inOrder := by
  unfold SortedList Demo.inOrder; decide

/-- C75 for insertion_sorter. -/
theorem C75_insertion_sorter : SortedIn lt (fun _ => True) (insertionSort (tick lt)) (fun n => n - 1) :=
  SortedIn.intro (fun _ => ⟨fun f => by simp [insertionSort], rfl⟩)
    fun s f l v hfl _ _ hh hn => (insertionSort_looks hfl hh hn).wpSeg hh

example : ∃ s', insertionSort (tick Demo.byFst) 7 12 (Demo.mem 7 Demo.inOrder) = some (.ok (), s') ∧
    Seg s'.cell 7 Demo.inOrder ∧ s'.cmps = 0 + 4 :=
  C75_insertion_sorter _ 7 Demo.inOrder trivial (Demo.mem_wf _ _) (Demo.mem_seg _ _) Demo.inOrder_sorted

/-- C75 for tim_sorter. -/
theorem C75_tim_sorter : SortedIn lt (fun _ => True) (timsort (tick lt)) (fun n => n - 1) :=
  SortedIn.intro (fun _ => ⟨fun f => by simp [timsort, timBase], rfl⟩)
    fun s f l v hfl _ _ hh hn => (timsort_looks hfl hh hn).wpSeg hh

example : ∃ s', timsort (tick Demo.byFst) 7 12 (Demo.mem 7 Demo.inOrder) = some (.ok (), s') ∧
    Seg s'.cell 7 Demo.inOrder ∧ s'.cmps = 0 + 4 :=
  C75_tim_sorter _ 7 Demo.inOrder trivial (Demo.mem_wf _ _) (Demo.mem_seg _ _) Demo.inOrder_sorted

/-- C75 for adaptive_shivers_sorter. -/
theorem C75_adaptive_shivers_sorter :
    SortedIn lt (fun _ => True) (adaptiveShiversSort (tick lt)) (fun n => n - 1) :=
  SortedIn.intro (fun _ => ⟨fun f => by simp [adaptiveShiversSort, timBase], rfl⟩)
    fun s f l v hfl _ _ hh hn => (adaptiveShiversSort_looks hfl hh hn).wpSeg hh

example : ∃ s', adaptiveShiversSort (tick Demo.byFst) 7 12 (Demo.mem 7 Demo.inOrder) = some (.ok (), s') ∧
    Seg s'.cell 7 Demo.inOrder ∧ s'.cmps = 0 + 4 :=
  C75_adaptive_shivers_sorter _ 7 Demo.inOrder trivial (Demo.mem_wf _ _) (Demo.mem_seg _ _) Demo.inOrder_sorted

/-- C75 for drop_merge_adapter: the adapted sorter, which may be any program, is not even called. -/
theorem C75_drop_merge_adapter (triv : Bool) (sorter : Nat → Nat → M α Unit) :
    SortedIn lt (fun _ => True) (dropMergeSort (tick lt) triv sorter) (fun n => n - 1) :=
  SortedIn.intro (fun _ => ⟨fun f => by simp [dropMergeSort], rfl⟩)
    fun s f l v hfl _ hw hh hn => wp_mono (dropMergeSort_sorted triv hfl hh hn hw) fun _ _ h => ⟨h.1.seg, h.2⟩

example : ∃ s', dropMergeSort (tick Demo.byFst) false (fun _ _ => fail .deref) 7 12 (Demo.mem 7 Demo.inOrder) =
    some (.ok (), s') ∧ Seg s'.cell 7 Demo.inOrder ∧ s'.cmps = 0 + 4 :=
  C75_drop_merge_adapter _ _ _ 7 Demo.inOrder trivial (Demo.mem_wf _ _) (Demo.mem_seg _ _) Demo.inOrder_sorted

/-- C75 for mel_sorter.  The hypothesis holds of the test of the code, `1 > std::sqrt(n)`. -/
theorem C75_mel_sorter (bad : Nat → Nat → Bool) (hb : ∀ n, 1 ≤ n → bad 1 n = false) :
    SortedIn lt (fun _ => True) (melsort (tick lt) bad) (fun n => n - 1) :=
  SortedIn.intro (fun _ => ⟨fun f => by simp [melsort], rfl⟩)
    fun s f l v hfl _ _ hh hn => by
      by_cases h : f = l
      · subst h
        unfold melsort
        rw [if_pos (Or.inl rfl)]
        exact wp_pure ⟨hh.seg, by omega⟩
      · exact melsort_sorted (hb _ (by omega)) hfl hh hn

example : ∃ s', melsort (tick Demo.byFst) (fun k n => decide (n < k * k)) 7 12 (Demo.mem 7 Demo.inOrder) =
    some (.ok (), s') ∧ Seg s'.cell 7 Demo.inOrder ∧ s'.cmps = 0 + 4 :=
  C75_mel_sorter _ (fun n h => decide_eq_false (by omega)) _ 7 Demo.inOrder trivial (Demo.mem_wf _ _) (Demo.mem_seg _ _)
    Demo.inOrder_sorted

/-- C75 for slab_sorter. -/
theorem C75_slab_sorter (cfg : Cfg) : SortedIn lt (fun _ => True) (slabsort lt cfg) (fun n => n - 1) :=
  SortedIn.intro (fun _ => ⟨fun f => by simp [slabsort], rfl⟩)
    fun s f l v hfl _ _ hh hn => slabsort_sorted cfg hfl hh hn

example : ∃ s', slabsort Demo.byFst ⟨.forward, true⟩ 7 12 (Demo.mem 7 Demo.inOrder) = some (.ok (), s') ∧
    Seg s'.cell 7 Demo.inOrder ∧ s'.cmps = 0 + 4 :=
  C75_slab_sorter _ _ 7 Demo.inOrder trivial (Demo.mem_wf _ _) (Demo.mem_seg _ _) Demo.inOrder_sorted

/-- C75 for verge_adapter and its stable variant over random-access iterators, from 128 elements on (below, the adapted
sorter does everything).  The adapted sorter is not called. -/
theorem C75_verge_adapter (cfg : Cfg) (fb : Nat → Nat → M α Unit) (stable : Bool) :
    SortedIn lt (fun n => 128 ≤ n) (vergesortRandom (tick lt) cfg fb stable) (fun n => n) :=
  SortedIn.intro (fun h => absurd h (by decide))
    fun s f l v hfl hp _ hh hn => (vergesortRandom_looks cfg stable (by omega) hh hn).wpSeg hh

/-- C75 for verge_adapter and its stable variant over bidirectional iterators. -/
theorem C75_verge_adapter_bidirectional (cfg : Cfg) (fb : Nat → Nat → Nat → M α Unit) (stable : Bool) :
    SortedIn lt (fun n => 128 ≤ n) (fun f l => vergesortBi (tick lt) cfg fb stable f l (l - f)) (fun n => n - 1) :=
  SortedIn.intro (fun h => absurd h (by decide))
    fun s f l v hfl hp _ hh hn => (vergesortBi_looks cfg stable (by omega) hh hn).wpSeg hh

/-- Numbers in order. -/
def Demo.numbers (n : Nat) : List Nat := List.range n

theorem Demo.numbers_sorted (n : Nat) : SortedList Demo.natLt (Demo.numbers n) := by
  unfold SortedList Demo.numbers
  refine List.Pairwise.imp ?_ List.pairwise_lt_range
  intro a b h
  simp only [Demo.natLt, decide_eq_false_iff_not]
  omega

example (n : Nat) (h : 128 ≤ n) : ∃ s', vergesortRandom (tick Demo.natLt) ⟨.random, true⟩ (fun _ _ => fail .deref) false 7
    (7 + (Demo.numbers n).length) (Demo.mem 7 (Demo.numbers n)) = some (.ok (), s') ∧ Seg s'.cell 7 (Demo.numbers n) ∧
    s'.cmps = 0 + (Demo.numbers n).length :=
  C75_verge_adapter _ _ _ _ 7 (Demo.numbers n) (by simpa [Demo.numbers] using h) (Demo.mem_wf _ _) (Demo.mem_seg _ _)
    (Demo.numbers_sorted n)

example (n : Nat) (h : 128 ≤ n) : ∃ s', vergesortBi (tick Demo.natLt) ⟨.bidirectional, true⟩ (fun _ _ _ => fail .deref) true 7
    (7 + (Demo.numbers n).length) (7 + (Demo.numbers n).length - 7) (Demo.mem 7 (Demo.numbers n)) = some (.ok (), s') ∧
    Seg s'.cell 7 (Demo.numbers n) ∧ s'.cmps = 0 + ((Demo.numbers n).length - 1) :=
  C75_verge_adapter_bidirectional _ _ _ _ 7 (Demo.numbers n) (by simpa [Demo.numbers] using h) (Demo.mem_wf _ _)
    (Demo.mem_seg _ _) (Demo.numbers_sorted n)

/-- C75 for mel_sorter on std::list and std::forward_list. -/
theorem C75_list_mel_sort (s : St α) (xs : List α) (h : SortedList lt xs) :
    (∃ s', listMelSort (tick lt) xs s = some (.ok xs, s') ∧ s'.cmps = s.cmps + (xs.length - 1)) ∧
    (∃ s', flistMelSort (tick lt) xs s = some (.ok xs, s') ∧ s'.cmps = s.cmps + (xs.length - 1)) := by
  obtain ⟨h1, h2⟩ := listMelSort_looks (c := s.cell) h
  obtain ⟨s1, e1, -, f1⟩ := h1 s rfl
  obtain ⟨s2, e2, -, f2⟩ := h2 s rfl
  exact ⟨⟨s1, e1, f1⟩, s2, e2, f2⟩

example : ∃ s', listMelSort (tick Demo.byFst) Demo.inOrder (Demo.mem 7 []) = some (.ok Demo.inOrder, s') ∧
    s'.cmps = 0 + 4 := (C75_list_mel_sort (Demo.mem 7 []) _ Demo.inOrder_sorted).1

/-- The best case documented for insertion_sorter on lists: some `C` such that, for every size, some list of that size
is sorted with at most `C` comparisons per element. -/
def LinearBest (sort : List α → M α (List α)) : Prop :=
  ∃ C, ∀ n, 0 < n → ∃ (xs ys : List α) (s s' : St α), xs.length = n ∧ sort xs s = some (.ok ys, s') ∧
    s'.cmps ≤ s.cmps + C * n

theorem not_linearBest {sort : List α → M α (List α)}
    (h : ∀ xs, Cost 0 (sort xs) (fun _ c => logSum 1 (xs.length - 1) ≤ c)) : ¬ LinearBest sort := by
  rintro ⟨C, hC⟩
  obtain ⟨n, hn, hb⟩ := logSum_big C
  obtain ⟨xs, ys, s, s', rfl, h1, h2⟩ := hC n hn
  obtain ⟨c, h3, h4⟩ := (h xs).run h1
  omega

/-- C76 is false: docs/Sorters.md 184-185 announce a best case of n for insertion_sorter on std::list and
std::forward_list, but container_aware/insertion_sort.h searches the place of every element by dichotomy, whatever the
list: no constant number of comparisons per element is enough, for any family of lists, and any comparison function. -/
theorem C76_list_insertion_sort_best_case_false (lt : α → α → Bool) :
    ¬ LinearBest (listInsertionSort (tick lt)) ∧ ¬ LinearBest (flistInsertionSort (tick lt)) :=
  ⟨not_linearBest fun xs => (listInsertionSort_costs xs).mono fun _ _ h => h.1,
    not_linearBest fun xs => (flistInsertionSort_costs xs).mono fun _ _ h => h.1⟩

/-- `LinearBest` is reachable: mel_sorter on lists satisfies it. -/
example : LinearBest (listMelSort (tick Demo.natLt)) := by
  refine ⟨1, fun n hn => ?_⟩
  have hs : SortedList Demo.natLt (List.replicate n 0) := by
    unfold SortedList
    rw [List.pairwise_replicate]
    exact Or.inr rfl
  obtain ⟨⟨s', h1, h2⟩, -⟩ := C75_list_mel_sort (Demo.mem 0 []) _ hs
  rw [List.length_replicate] at h2
  exact ⟨_, _, _, s', List.length_replicate .., h1, by omega⟩

/-- C76, what holds: n log n comparisons at most, on every list (the n² of the table is about the iterators). -/
theorem C76_list_insertion_sort_partial (hlt : StrictWeak lt) (s : St α) (xs : List α) :
    (∃ ys s', listInsertionSort (tick lt) xs s = some (.ok ys, s') ∧
      s'.cmps ≤ s.cmps + xs.length * (xs.length.log2 + 1)) ∧
    (∃ ys s', flistInsertionSort (tick lt) xs s = some (.ok ys, s') ∧
      s'.cmps ≤ s.cmps + xs.length * (xs.length.log2 + 1)) := by
  obtain ⟨ys, k, h1, -⟩ := (C35_list_insertion_sort hlt).1 s xs
  obtain ⟨zs, j, h2, -⟩ := (C35_list_insertion_sort hlt).2 s xs
  obtain ⟨c, h3, -, h4⟩ := (listInsertionSort_costs xs).run h1
  obtain ⟨d, h5, -, h6⟩ := (flistInsertionSort_costs xs).run h2
  exact ⟨⟨ys, _, h1, by omega⟩, zs, _, h2, by omega⟩

example : ∃ ys s', listInsertionSort (tick Demo.byFst) Demo.pairs (Demo.mem 7 []) = some (.ok ys, s') ∧
    s'.cmps ≤ 0 + 5 * (2 + 1) := (C76_list_insertion_sort_partial Demo.byFst_sw _ Demo.pairs).1

end CppSort
