import Verif.Proof.LowMoves
import Verif.Props.Demo
/-
C24, C25: low_moves_sorter<N> for every N, low_comparisons_sorter<N> for N = 0, …, 13.
-/
set_option autoImplicit false

namespace CppSort
variable {α : Type} [Inhabited α] {lt : α → α → Bool}

/-- C24: `low_moves_sorter<N>` sorts every range of `N` elements, for every `N`. -/
theorem C24_low_moves_sorter (hlt : StrictWeak lt) (n : Nat) :
    SortsSized lt n (lowMovesSort (tick lt) n) :=
  sortsSized_of_w fun _ f _ _ hh => lowMovesSort_spec hlt n f hh

example : Transforms (lowMovesSort (tick Demo.byFst) 5 7 12) (Demo.mem 7 Demo.pairs) 7 Demo.pairs
    (fun ys => ys.Perm Demo.pairs ∧ SortedList Demo.byFst ys) :=
  C24_low_moves_sorter Demo.byFst_sw 5 _ 7 Demo.pairs rfl (Demo.mem_wf _ _) (Demo.mem_seg _ _)

/-- The size is in the domain of `low_comparisons_sorter` and the program passes the checker. -/
theorem lowComparisonsSort_spec (hlt : StrictWeak lt) {n : Nat} (hn : n ≤ 13) {f : Nat} {s : St α}
    {v : Nat → α} (hh : Holds s.cell f (f + n) v) :
    wp (lowComparisonsSort (tick lt) n f (f + n)) (fun _ s' => ∃ v', Upd f (f + n) s s' v v' ∧
      SortedOn lt f (f + n) v' ∧ s'.cmps ≤ s.cmps + lowComparisonsMax n) s := by
  have key : ∀ (p : DP), lowComparisonsBody n = some p → p.check n (lowComparisonsMax n) = true →
      wp (lowComparisonsSort (tick lt) n f (f + n)) (fun _ s' => ∃ v', Upd f (f + n) s s' v v' ∧
        SortedOn lt f (f + n) v' ∧ s'.cmps ≤ s.cmps + lowComparisonsMax n) s := by
    intro p hp hc
    unfold lowComparisonsSort
    rw [hp]
    apply wp_bind
    refine wp_mono (DP.check_spec hlt hc hh) ?_
    rintro _ s1 h
    exact wp_pure h
  match n, hn, key with
  | 0, _, key => exact key _ rfl (by decide +kernel)
  | 1, _, key => exact key _ rfl (by decide +kernel)
  | 2, _, key => exact key _ rfl check2
  | 3, _, key => exact key _ rfl check3
  | 4, _, key => exact key _ rfl check4
  | 5, _, key => exact key _ rfl check5
  | 6, _, key => exact key _ rfl check6
  | 7, _, key => exact key _ rfl check7
  | 8, _, key => exact key _ rfl check8
  | 9, _, key => exact key _ rfl check9
  | 10, _, key => exact key _ rfl check10
  | 11, _, key => exact key _ rfl check11
  | 12, _, key => exact key _ rfl check12
  | 13, _, key => exact key _ rfl check13
  | n + 14, hn, _ => omega

/-- C25: `low_comparisons_sorter<N>` sorts every range of `N` elements, for every supported `N`. -/
theorem C25_low_comparisons_sorter (hlt : StrictWeak lt) (n : Nat) (hn : n ≤ 13) :
    SortsSized lt n (lowComparisonsSort (tick lt) n) :=
  sortsSized_of_w fun _ _ _ _ hh =>
    wp_mono (lowComparisonsSort_spec hlt hn hh) fun _ _ ⟨v', h1, h2, _⟩ => ⟨v', h1, h2⟩

example : Transforms (lowComparisonsSort (tick Demo.byFst) 5 7 12) (Demo.mem 7 Demo.pairs) 7
    Demo.pairs (fun ys => ys.Perm Demo.pairs ∧ SortedList Demo.byFst ys) :=
  C25_low_comparisons_sorter Demo.byFst_sw 5 (by omega) _ 7 Demo.pairs rfl (Demo.mem_wf _ _)
    (Demo.mem_seg _ _)

/-- C25, second part: an upper bound on the comparisons, over all inputs. Up to nine elements it is
the minimum possible for a comparison sort. -/
theorem C25_low_comparisons_count (hlt : StrictWeak lt) (n : Nat) (hn : n ≤ 13) (s : St α)
    (first : Nat) (xs : List α) (hl : xs.length = n) (hs : Seg s.cell first xs) :
    ∃ s' b, lowComparisonsSort (tick lt) n first (first + n) s = some (.ok (), s') ∧
      [0, 0, 1, 3, 5, 7, 10, 13, 16, 19, 23, 27, 44, 50][n]? = some b ∧ s'.cmps ≤ s.cmps + b := by
  obtain ⟨v, hv, -⟩ := hs.holds
  subst hl
  obtain ⟨_, s', hr, _, _, _, hc⟩ := lowComparisonsSort_spec hlt hn hv
  refine ⟨s', lowComparisonsMax xs.length, hr, ?_, hc⟩
  unfold lowComparisonsMax
  rw [List.getD_eq_getElem?_getD, List.getElem?_eq_getElem (by simp; omega)]
  rfl

example : ∃ s', lowComparisonsSort (tick Demo.byFst) 5 7 12 (Demo.mem 7 Demo.pairs) =
    some (.ok (), s') ∧ s'.cmps ≤ 7 := by
  obtain ⟨s', b, h1, h2, h3⟩ := C25_low_comparisons_count Demo.byFst_sw 5 (by omega)
    (Demo.mem 7 Demo.pairs) 7 Demo.pairs rfl (Demo.mem_seg _ _)
  have : 7 = b := by simpa using h2
  exact ⟨s', h1, by simpa [Demo.mem, ← this] using h3⟩

/-- Comparisons sufficient for `front_insert<N>`. -/
def frontInsertMax (n : Nat) : Nat := [0, 0, 1, 2, 2, 3, 3, 3, 3, 4, 4, 4].getD n 0

theorem frontInsert_spec (hlt : StrictWeak lt) {n : Nat} (hn : n ≤ 11) {f : Nat} {s : St α}
    {v : Nat → α} (hh : Holds s.cell f (f + n) v) (hs : SortedOn lt (f + 1) (f + n) v) :
    wp (frontInsert (tick lt) n f) (fun _ s' => ∃ v', Upd f (f + n) s s' v v' ∧
      SortedOn lt f (f + n) v' ∧ s'.cmps ≤ s.cmps + frontInsertMax n) s := by
  have key : ∀ (p : DP), frontInsertBody n = some p → p.checkTail n (frontInsertMax n) = true →
      wp (frontInsert (tick lt) n f) (fun _ s' => ∃ v', Upd f (f + n) s s' v v' ∧
        SortedOn lt f (f + n) v' ∧ s'.cmps ≤ s.cmps + frontInsertMax n) s := by
    intro p hp hc
    unfold frontInsert
    rw [hp]
    apply wp_bind
    refine wp_mono (DP.checkTail_spec hlt hc hh hs) ?_
    rintro _ s1 h
    exact wp_pure h
  match n, hn, key with
  | 0, _, key => exact key _ rfl (by decide +kernel)
  | 1, _, key => exact key _ rfl (by decide +kernel)
  | 2, _, key => exact key _ rfl (by decide +kernel)
  | 3, _, key => exact key _ rfl (by decide +kernel)
  | 4, _, key => exact key _ rfl (by decide +kernel)
  | 5, _, key => exact key _ rfl (by decide +kernel)
  | 6, _, key => exact key _ rfl (by decide +kernel)
  | 7, _, key => exact key _ rfl (by decide +kernel)
  | 8, _, key => exact key _ rfl (by decide +kernel)
  | 9, _, key => exact key _ rfl (by decide +kernel)
  | 10, _, key => exact key _ rfl (by decide +kernel)
  | 11, _, key => exact key _ rfl (by decide +kernel)
  | n + 12, hn, _ => omega

/-- C68: `front_insert<N>` inserts the first element into the others, when these are sorted, with a
logarithmic number of comparisons. -/
theorem C68_front_insert (hlt : StrictWeak lt) (n : Nat) (hn : n ≤ 11) (s : St α)
    (first : Nat) (xs : List α) (hl : xs.length = n) (hw : s.WF) (hs : Seg s.cell first xs)
    (ho : SortedList lt xs.tail) :
    Transforms (frontInsert (tick lt) n first) s first xs (fun ys => ys.Perm xs ∧ SortedList lt ys) ∧
      ∃ s' b, frontInsert (tick lt) n first s = some (.ok (), s') ∧
        [0, 0, 1, 2, 2, 3, 3, 3, 3, 4, 4, 4][n]? = some b ∧ s'.cmps ≤ s.cmps + b := by
  obtain ⟨v, hv, hvl⟩ := hs.holds
  have ht : SortedOn lt (first + 1) (first + n) v := by
    rw [sortedOn_iff]
    subst hl
    cases xs with
    | nil => rw [show first + ([] : List α).length = first by simp]; simp [lst, SortedList]
    | cons x xs =>
      rw [lst_cons (by simp)] at hvl
      rw [(List.cons.inj hvl).2]
      exact ho
  subst hl
  obtain ⟨_, s', hr, v', hu, hso, hc⟩ := frontInsert_spec hlt hn hv ht
  refine ⟨?_, s', frontInsertMax xs.length, hr, ?_, hc⟩
  · refine hu.transforms hw hv hvl hr ⟨?_, sortedOn_iff.1 hso⟩
    have := hu.perm.2
    rwa [hvl] at this
  · unfold frontInsertMax
    rw [List.getD_eq_getElem?_getD, List.getElem?_eq_getElem (by simp; omega)]
    rfl

example : Transforms (frontInsert (tick Demo.byFst) 3 7) (Demo.mem 7 [(2, 0), (1, 1), (3, 2)]) 7
    [(2, 0), (1, 1), (3, 2)] (fun ys => ys.Perm [(2, 0), (1, 1), (3, 2)] ∧ SortedList Demo.byFst ys) :=
  (C68_front_insert Demo.byFst_sw 3 (by omega) _ 7 _ rfl (Demo.mem_wf _ _) (Demo.mem_seg _ _)
    (by simp [SortedList, Demo.byFst])).1

end CppSort
