import Verif.Proof.SpinSort
/-
C14: spin_sorter.
-/
set_option autoImplicit false

namespace CppSort
variable {α : Type} {lt : α → α → Bool}

/-- C14, the part that holds: `spin_sorter` sorts every range stably, except where its last merge runs off the end
(`C14_spin_sorter_overrun`): ranges of an odd number of elements between 73 and 1023, for which the number of levels
is even, and of which every element of the second half is less than every element of the first one. -/
theorem C14_spin_sorter_partial [Inhabited α] (hlt : StrictWeak lt) (s : St α) (f : Nat) (xs : List α) (hw : s.WF)
    (hs : Seg s.cell f xs)
    (hfit : xs.length ≤ 72 ∨ xs.length % 2 = 0 ∨ 1024 ≤ xs.length ∨
      Nat.log2 ((xs.length + 35) / 36 - 1) % 2 = 1 ∨
      ∃ x ∈ xs.take ((xs.length + 1) / 2), ∃ y ∈ xs.drop ((xs.length + 1) / 2), lt y x = false) :
    Transforms (spinsort (tick lt) f (f + xs.length)) s f xs
      (fun ys => ys.Perm xs ∧ SortedList lt ys ∧ SameOrder lt xs ys) :=
  spinsort_stably hlt hw hs hfit

/-- 200 pairs with many ties, out of order. -/
def spinDemo : List (Nat × Nat) := (List.range 200).map fun i => (i * 7 % 31, i)

example : Transforms (spinsort (tick Demo.byFst) 7 207) (Demo.mem 7 spinDemo) 7 spinDemo
    (fun ys => ys.Perm spinDemo ∧ SortedList Demo.byFst ys ∧ SameOrder Demo.byFst spinDemo ys) := by
  have := C14_spin_sorter_partial Demo.byFst_sw _ 7 spinDemo (Demo.mem_wf _ _) (Demo.mem_seg _ _)
    (.inr (.inl (by simp [spinDemo])))
  simpa [spinDemo] using this

/-- 145 pairs with many ties: an odd number of elements, an even number of levels. -/
def spinDemoOdd : List (Nat × Nat) := (List.range 145).map fun i => (i * 7 % 31, i)

example : Transforms (spinsort (tick Demo.byFst) 7 152) (Demo.mem 7 spinDemoOdd) 7 spinDemoOdd
    (fun ys => ys.Perm spinDemoOdd ∧ SortedList Demo.byFst ys ∧ SameOrder Demo.byFst spinDemoOdd ys) := by
  have := C14_spin_sorter_partial Demo.byFst_sw _ 7 spinDemoOdd (Demo.mem_wf _ _) (Demo.mem_seg _ _)
    (.inr (.inr (.inr (.inr ⟨(0, 0), by decide +kernel, (29, 75), by decide +kernel, by decide⟩))))
  simpa [spinDemoOdd] using this

/-- Outside of the cases of `C14_spin_sorter_partial`, `spin_sorter` reads past the end of the range when what
follows it cannot be read. -/
theorem C14_spin_sorter_overrun [Inhabited α] (hlt : StrictWeak lt) (s : St α) (f : Nat) (xs : List α) (hw : s.WF)
    (hs : Seg s.cell f xs) (h1 : 72 < xs.length) (h2 : xs.length % 2 = 1) (h3 : xs.length < 1024)
    (h4 : Nat.log2 ((xs.length + 35) / 36 - 1) % 2 = 0)
    (hlow : ∀ x ∈ xs.take ((xs.length + 1) / 2), ∀ y ∈ xs.drop ((xs.length + 1) / 2), lt y x = true)
    (hend : s.cell (f + xs.length) = .unalloc) (hb : f + xs.length < s.brk) :
    ∃ s', spinsort (tick lt) f (f + xs.length) s = some (.error .deref, s') :=
  spinsort_overrun hlt hw hs h1 h2 h3 h4 hlow hend hb

/-- 73 numbers followed by 72 smaller ones. -/
def spinBad : List Nat := (List.range 73).map (· + 100) ++ List.range 72

/-- The memory of the counterexample: the range, then one unallocated cell. -/
def spinBadMem : St Nat :=
  { cell := (Demo.mem 0 spinBad).cell, brk := 146, grant := fun _ => 0, cmps := 0, movs := 0 }

/-- C14 is false: `spin_sorter` reads past the end of 73 numbers followed by 72 smaller ones. -/
theorem C14_spin_sorter_not_sorts : ¬ Sorts Demo.natLt (spinsort (tick Demo.natLt)) := by
  intro h
  have hl : spinBad.length = 145 := by simp [spinBad]
  have hc : spinBadMem.cell = (Demo.mem 0 spinBad).cell := by unfold spinBadMem; dsimp only
  have hb : spinBadMem.brk = 146 := by unfold spinBadMem; dsimp only
  have hw : spinBadMem.WF := by
    intro i hi
    rw [hb] at hi
    rw [hc]
    refine Demo.mem_wf 0 spinBad i ?_
    simp only [Demo.mem, hl]; omega
  have hs : Seg spinBadMem.cell 0 spinBad := by rw [hc]; exact Demo.mem_seg 0 spinBad
  obtain ⟨s', ys, h1, -⟩ := h spinBadMem 0 spinBad hw hs
  obtain ⟨s'', h2⟩ := C14_spin_sorter_overrun Demo.natLt_sw spinBadMem 0 spinBad hw hs (by omega) (by omega) (by omega)
    (by rw [hl]; decide +kernel) (by
      rw [hl]
      intro x hx y hy
      rw [show spinBad.take ((145 + 1) / 2) = (List.range 73).map (· + 100) by simp [spinBad]] at hx
      rw [show spinBad.drop ((145 + 1) / 2) = List.range 72 by simp [spinBad]] at hy
      obtain ⟨i, -, rfl⟩ := List.mem_map.1 hx
      simp only [List.mem_range] at hy
      simp only [Demo.natLt, decide_eq_true_eq]
      omega) (by rw [hc]; simp only [Demo.mem]; rw [dif_neg (by omega)]) (by rw [hl, hb]; omega)
  rw [h2] at h1
  cases h1

/-- C14 is false. -/
theorem C14_spin_sorter_false : ¬ SortsStably Demo.natLt (spinsort (tick Demo.natLt)) :=
  fun h => C14_spin_sorter_not_sorts h.sorts

end CppSort
