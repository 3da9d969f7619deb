import Verif.Props.Demo
import Verif.Proof.Slab
/-
C18: slab_sorter; C67: detail::stable_partition.
-/
set_option autoImplicit false

namespace CppSort
variable {α : Type} {lt : α → α → Bool}

/-- C67: `stable_partition`, whatever the allocator grants: the elements that satisfy the predicate, then the
others, both in their original order; it returns the position of the first of the others. -/
theorem C67_stable_partition [Inhabited α] (c : Cfg) (P : α → Bool) (s : St α) (first : Nat) (xs : List α)
    (hw : s.WF) (hs : Seg s.cell first xs) :
    ∃ s', stablePartition c (fun i => do return P (← read i)) first (first + xs.length) xs.length s =
        some (.ok (first + (xs.filter P).length), s') ∧
      Seg s'.cell first (xs.filter P ++ xs.filter (!P ·)) ∧
      (∀ i, i < first ∨ first + xs.length ≤ i → s'.cell i = s.cell i) ∧ s'.WF := by
  have hP : PredOk (fun i => do return P (← read i)) P false (first + xs.length) default := by
    intro s i x _ hx
    exact (RunsAt.read hx).bind fun r hr => RunsAt.pure (by rw [hr])
  obtain ⟨r, s', h1, rfl, h2, h3, h4⟩ := stablePartition_spec c hP hw hs (by simp) (by omega)
  exact ⟨s', h1, h2, h3.cell, h4⟩

example : ∃ s', stablePartition ⟨.bidirectional, false⟩ (fun i => do return decide ((← read i).1 < 3)) 7 12 5
      (Demo.mem 7 Demo.pairs) = some (.ok (7 + (Demo.pairs.filter (·.1 < 3)).length), s') ∧
      Seg s'.cell 7 (Demo.pairs.filter (·.1 < 3) ++ Demo.pairs.filter (fun p => !decide (p.1 < 3))) ∧
      (∀ i, i < 7 ∨ 12 ≤ i → s'.cell i = (Demo.mem 7 Demo.pairs).cell i) ∧ s'.WF :=
  C67_stable_partition _ (fun p => p.1 < 3) _ 7 Demo.pairs (Demo.mem_wf _ _) (Demo.mem_seg _ _)

/-- C18: `slab_sorter` sorts every range, whatever the allocator grants to `stable_partition`. -/
theorem C18_slab_sorter [Inhabited α] (hlt : StrictWeak lt) (c : Cfg) : Sorts lt (slabsort lt c) :=
  slabsort_sorts hlt c

example : Transforms (slabsort Demo.byFst ⟨.bidirectional, false⟩ 7 12) (Demo.mem 7 Demo.pairs) 7 Demo.pairs
    (fun ys => ys.Perm Demo.pairs ∧ SortedList Demo.byFst ys) :=
  C18_slab_sorter Demo.byFst_sw _ _ 7 Demo.pairs (Demo.mem_wf _ _) (Demo.mem_seg _ _)

end CppSort
