import Verif.Props.BestCase2
import Verif.Props.Smooth
import Verif.Props.SpinCost
import Verif.Proof.SmoothSorted
import Verif.Proof.SpinSorted
import Verif.Proof.SplitSorted
/-
C100: smooth_sorter, spin_sorter and split_adapter on sorted ranges.
-/
set_option autoImplicit false

namespace CppSort
variable {α : Type} {lt : α → α → Bool}

/-- On every range of `n` elements that is already sorted, `n` satisfying `p`, `sort` returns after at most `C n`
comparisons and leaves the range as it was. -/
def SortedWithin (lt : α → α → Bool) (p : Nat → Prop) (sort : Nat → Nat → M α Unit) (C : Nat → Nat) : Prop :=
  ∀ (s : St α) (first : Nat) (xs : List α), p xs.length → s.WF → Seg s.cell first xs → SortedList lt xs →
    ∃ s', sort first (first + xs.length) s = some (.ok (), s') ∧ Seg s'.cell first xs ∧
      s'.cmps ≤ s.cmps + C xs.length

/-- C100 for smooth_sorter; 2^63 elements is more than the table of Leonardo numbers is made for. -/
theorem C100_smooth_sorter (hlt : StrictWeak lt) :
    SortedWithin lt (fun n => n < 2 ^ 63) (smoothsort (tick lt)) (fun n => 15 * n) := by
  intro s f xs hn hw hs hso
  obtain _ | ⟨x, t⟩ := xs
  · refine ⟨s, ?_, hs, by simp⟩
    simp [smoothsort]; rfl
  haveI : Inhabited α := ⟨x⟩
  generalize x :: t = xs at *
  obtain ⟨s', ys, h1, -⟩ := C06_smooth_sorter hlt _ hn s f xs rfl hw hs
  obtain ⟨v, hh, he⟩ := hs.holds
  have ho : SortedOn lt f (f + xs.length) v := sortedOn_iff.2 (by rw [he]; exact hso)
  obtain ⟨h2, h3⟩ := smoothsort_sorted hlt (Nat.le_add_right _ _) (by omega) hh ho h1
  rw [Nat.add_sub_cancel_left] at h3
  exact ⟨s', h1, by rw [h2]; exact hs, h3⟩

example : ∃ s', smoothsort (tick Demo.byFst) 7 12 (Demo.mem 7 Demo.inOrder) = some (.ok (), s') ∧
    Seg s'.cell 7 Demo.inOrder ∧ s'.cmps ≤ 0 + 75 :=
  C100_smooth_sorter Demo.byFst_sw _ 7 Demo.inOrder (by decide) (Demo.mem_wf _ _) (Demo.mem_seg _ _)
    Demo.inOrder_sorted

/-- C100 for spin_sorter: n - 1 comparisons up to 72 elements and from 2050 on, 66 for each element in between. -/
theorem C100_spin_sorter [Inhabited α] (hlt : StrictWeak lt) :
    SortedWithin lt (fun _ => True) (spinsort (tick lt)) (fun n => if 72 < n ∧ n < 2050 then 66 * n else n - 1) := by
  intro s f xs _ hw hs hso
  have hfit : SpinFits lt xs := by
    by_cases h : xs.length ≤ 72
    · exact .inl h
    refine .inr (.inr (.inr (.inr ?_)))
    have hl : 72 < xs.length := by omega
    have := sortedList_append.1 ((List.take_append_drop ((xs.length + 1) / 2) xs).symm ▸ hso)
    have e1 : 0 < (xs.take ((xs.length + 1) / 2)).length := by simp; omega
    have e2 : 0 < (xs.drop ((xs.length + 1) / 2)).length := by simp; omega
    exact ⟨_, List.getElem_mem e1, _, List.getElem_mem e2,
      this.2.2 _ (List.getElem_mem e1) _ (List.getElem_mem e2)⟩
  obtain ⟨s', ys, h1, h2, h3, h4, -⟩ := spinsort_stably hlt hw hs hfit
  have hy : xs = ys := SSorted.unique hlt h4.1.symm hso h4.2.1 h4.2.2
  subst hy
  refine ⟨s', h1, h3, ?_⟩
  dsimp only
  split
  · rename_i hb
    have := (spinsort_cmps hlt hw hs hfit).run h1
    have hlog : Nat.log2 xs.length < 12 := (Nat.log2_lt (by omega)).2 (by omega)
    have : xs.length * (4 * Nat.log2 xs.length + 22) ≤ xs.length * 66 := Nat.mul_le_mul_left _ (by omega)
    omega
  · by_cases hb : xs.length ≤ 72
    · have e : spinsort (tick lt) f (f + xs.length) = insertionSort (tick lt) f (f + xs.length) := by
        unfold spinsort
        dsimp only
        rw [if_pos (by omega)]
      rw [e] at h1
      obtain ⟨s1, e1, -, e3⟩ := C75_insertion_sorter (lt := lt) s f xs trivial hw hs hso
      rw [e1] at h1
      cases h1
      exact Nat.le_of_eq e3
    · exact Nat.le_of_eq ((spinsort_sorted hlt hw hs hso (by omega)).run h1)

example (n : Nat) (h : 2050 ≤ n) : ∃ s', spinsort (tick Demo.natLt) 7 (7 + (Demo.numbers n).length)
    (Demo.mem 7 (Demo.numbers n)) = some (.ok (), s') ∧ Seg s'.cell 7 (Demo.numbers n) ∧ s'.cmps ≤ 0 + (n - 1) := by
  have := C100_spin_sorter Demo.natLt_sw _ 7 _ trivial (Demo.mem_wf 7 (Demo.numbers n)) (Demo.mem_seg 7 (Demo.numbers n))
    (Demo.numbers_sorted n)
  have e : (Demo.numbers n).length = n := by simp [Demo.numbers]
  obtain ⟨s', h1, h2, h3⟩ := this
  dsimp only at h3
  rw [e, if_neg (by omega)] at h3
  exact ⟨s', h1, h2, h3⟩

/-- C100 for split_adapter, over any sorter that returns at once on a range of one element. -/
theorem C100_split_adapter (cfg : Cfg) {sorter : Nat → Nat → M α Unit}
    (hone : ∀ (s : St α) f x, Seg s.cell f [x] → sorter f (f + 1) s = some (.ok (), s)) :
    SortedIn lt (fun _ => True) (splitSort (tick lt) cfg sorter) (fun n => 2 * (n - 1)) := by
  intro s f xs _ hw hs hso
  obtain _ | ⟨x, t⟩ := xs
  · refine ⟨s, ?_, hs, rfl⟩
    simp [splitSort]; rfl
  haveI : Inhabited α := ⟨x⟩
  generalize x :: t = xs at *
  obtain ⟨v, hh, he⟩ := hs.holds
  have ho : SortedOn lt f (f + xs.length) v := sortedOn_iff.2 (by rw [he]; exact hso)
  obtain ⟨s', h1, h2, h3⟩ := splitSort_looks cfg (sorter := sorter) (fun g a ha t ht => ⟨t, hone t g a (by
      intro i hi
      simp only [List.length_singleton] at hi
      obtain rfl : i = 0 := by omega
      rw [ht]; exact ha), ht, rfl⟩) (Nat.le_add_right _ _) hh ho s rfl
  rw [Nat.add_sub_cancel_left] at h3
  exact ⟨s', h1, by rw [h2]; exact hs, h3⟩

/-- C100 for split_sorter. -/
theorem C100_split_sorter (cfg : Cfg) (branchless : Bool) :
    SortedIn lt (fun _ => True) (splitSort (tick lt) cfg (pdqsort (tick lt) branchless)) (fun n => 2 * (n - 1)) :=
  C100_split_adapter cfg fun s f x _ => by
    unfold pdqsort
    rw [if_pos (by omega)]
    rfl

example : ∃ s', splitSort (tick Demo.byFst) ⟨.random, true⟩ (pdqsort (tick Demo.byFst) false) 7 12
    (Demo.mem 7 Demo.inOrder) = some (.ok (), s') ∧ Seg s'.cell 7 Demo.inOrder ∧ s'.cmps = 0 + 8 :=
  C100_split_sorter _ _ _ 7 Demo.inOrder trivial (Demo.mem_wf _ _) (Demo.mem_seg _ _) Demo.inOrder_sorted

end CppSort
