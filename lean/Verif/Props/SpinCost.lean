import Verif.Props.Spin
import Verif.Props.WorstCase
import Verif.Proof.SpinCost
/-
C89: the comparisons of spin_sorter.
-/
set_option autoImplicit false

namespace CppSort
variable {α : Type} {lt : α → α → Bool}

/-- C89, the part that holds: at most `n (4 log2 n + 22)` comparisons, except on the ranges for which the last merge
runs off the end (`C14_spin_sorter_overrun`). -/
theorem C89_spin_sorter_partial [Inhabited α] (hlt : StrictWeak lt) (s : St α) (f : Nat) (xs : List α) (hw : s.WF)
    (hs : Seg s.cell f xs)
    (hfit : xs.length ≤ 72 ∨ xs.length % 2 = 0 ∨ 1024 ≤ xs.length ∨
      Nat.log2 ((xs.length + 35) / 36 - 1) % 2 = 1 ∨
      ∃ x ∈ xs.take ((xs.length + 1) / 2), ∃ y ∈ xs.drop ((xs.length + 1) / 2), lt y x = false) :
    ∃ s', spinsort (tick lt) f (f + xs.length) s = some (.ok (), s') ∧
      s'.cmps ≤ s.cmps + xs.length * (4 * Nat.log2 xs.length + 22) := by
  obtain ⟨_, s', h1, h2⟩ := spinsort_cmps hlt hw hs hfit
  exact ⟨s', h1, h2⟩

example : ∃ s', spinsort (tick Demo.byFst) 7 152 (Demo.mem 7 spinDemoOdd) = some (.ok (), s') ∧
    s'.cmps ≤ 0 + 145 * (4 * 7 + 22) := by
  have := C89_spin_sorter_partial Demo.byFst_sw _ 7 spinDemoOdd (Demo.mem_wf _ _) (Demo.mem_seg _ _)
    (.inr (.inr (.inr (.inr ⟨(0, 0), by decide +kernel, (29, 75), by decide +kernel, by decide⟩))))
  have hl : spinDemoOdd.length = 145 := by simp [spinDemoOdd]
  have hg : Nat.log2 145 = 7 := by decide +kernel
  rw [hl, hg] at this
  exact this

/-- C89 is false as stated: on 73 numbers followed by 72 smaller ones `spin_sorter` does not return. -/
theorem C89_spin_sorter_false (C : Nat → Nat) : ¬ ComparesWithin (spinsort (tick Demo.natLt)) C := by
  intro h
  have hl : spinBad.length = 145 := by simp [spinBad]
  have hc : spinBadMem.cell = (Demo.mem 0 spinBad).cell := by unfold spinBadMem; dsimp only
  have hb : spinBadMem.brk = 146 := by unfold spinBadMem; dsimp only
  have hw : spinBadMem.WF := by
    intro i hi
    rw [hb] at hi
    rw [hc]
    refine Demo.mem_wf 0 spinBad i ?_
    simp only [Demo.mem, hl]; omega
  have hs : Seg spinBadMem.cell 0 spinBad := by rw [hc]; exact Demo.mem_seg 0 spinBad
  obtain ⟨s', h1, -⟩ := h spinBadMem 0 spinBad hw hs
  obtain ⟨s'', h2⟩ := C14_spin_sorter_overrun Demo.natLt_sw spinBadMem 0 spinBad hw hs (by omega) (by omega) (by omega)
    (by rw [hl]; decide +kernel) (by
      rw [hl]
      intro x hx y hy
      rw [show spinBad.take ((145 + 1) / 2) = (List.range 73).map (· + 100) by simp [spinBad]] at hx
      rw [show spinBad.drop ((145 + 1) / 2) = List.range 72 by simp [spinBad]] at hy
      obtain ⟨i, -, rfl⟩ := List.mem_map.1 hx
      simp only [List.mem_range] at hy
      simp only [Demo.natLt, decide_eq_true_eq]
      omega) (by rw [hc]; simp only [Demo.mem]; rw [dif_neg (by omega)]) (by rw [hl, hb]; omega)
  rw [h2] at h1
  cases h1

end CppSort
