import Verif.Props.Splay
import Verif.Props.BestCase
import Verif.Props.WorstCase
import Verif.Proof.SplayCost
/-
C97: the comparisons of splay_sorter, and its best case (C75).
-/
set_option autoImplicit false

namespace CppSort
variable {α : Type} {lt : α → α → Bool}

/-- C97: `splay_sorter` makes at most `n (8 log2 n + 1)` comparisons. -/
theorem C97_splay_sorter [Inhabited α] (hlt : StrictWeak lt) :
    ComparesWithin (splaysort (tick lt)) (fun n => n * (8 * n.log2 + 1)) := by
  intro s f xs hw hs
  obtain ⟨s', ys, h1, -⟩ := C15_splay_sorter hlt s f xs hw hs
  obtain ⟨-, c, h2, h3⟩ := splaysort_cost (lt := lt) (N := 0) (Nat.le_add_right f xs.length) s () s'
    (fun _ => Nat.zero_le _) h1
  rw [Nat.add_sub_cancel_left] at h3
  exact ⟨s', h1, by dsimp only; omega⟩

example : ∃ s', splaysort (tick Demo.byFst) 7 12 (Demo.mem 7 Demo.pairs) = some (.ok (), s') ∧
    s'.cmps ≤ 0 + 5 * (8 * Nat.log2 5 + 1) :=
  C97_splay_sorter Demo.byFst_sw _ 7 Demo.pairs (Demo.mem_wf _ _) (Demo.mem_seg _ _)

/-- C75 for splay_sorter: the new node is always the right child of the root. -/
theorem C75_splay_sorter [Inhabited α] (hlt : StrictWeak lt) :
    SortedIn lt (fun _ => True) (splaysort (tick lt)) (fun n => n - 1) := by
  intro s f xs _ hw hs hso
  obtain ⟨s', ys, h1, -, h2, ⟨h3, h4, h5⟩, -⟩ := C15_splay_sorter hlt s f xs hw hs
  obtain rfl : xs = ys := SSorted.unique hlt h3.symm hso h4 h5
  exact ⟨s', h1, h2, splaysort_sorted hw hs hso h1⟩

example : ∃ s', splaysort (tick Demo.byFst) 7 12 (Demo.mem 7 Demo.inOrder) = some (.ok (), s') ∧
    Seg s'.cell 7 Demo.inOrder ∧ s'.cmps = 0 + 4 :=
  C75_splay_sorter Demo.byFst_sw _ 7 Demo.inOrder trivial (Demo.mem_wf _ _) (Demo.mem_seg _ _) Demo.inOrder_sorted

end CppSort
