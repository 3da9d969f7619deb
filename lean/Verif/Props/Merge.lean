import Verif.Proof.MergeFwdBug
/-
C09: merge_sorter.

Full claim: for every iterator category and every behaviour of the allocator, `mergeSort` sorts
stably.  It holds for bidirectional and random-access iterators; for forward iterators it is false
when the allocator grants only part of the requested buffer, and true when it grants all or nothing.
-/
set_option autoImplicit false

namespace CppSort
variable {α : Type} [Inhabited α] {lt : α → α → Bool}

/-- C09, bidirectional and random-access iterators: stable sort, whatever the allocator grants (the
state `s` quantified over inside `SortsStably` carries the answers of the allocator). -/
theorem C09_merge_sorter_partial (hlt : StrictWeak lt) (c : Cfg) (hc : c.cat ≠ .forward) :
    SortsStably lt (mergeSort (tick lt) c) :=
  sortsStably_of_w (mergeSort_spec hlt c hc)

example : Transforms (mergeSort (tick Demo.byFst) ⟨.random, false⟩ 7 12) (Demo.mem 7 Demo.pairs) 7
    Demo.pairs (fun ys => ys.Perm Demo.pairs ∧ SortedList Demo.byFst ys ∧
      SameOrder Demo.byFst Demo.pairs ys) :=
  C09_merge_sorter_partial Demo.byFst_sw _ (by simp) _ 7 Demo.pairs (Demo.mem_wf _ _)
    (Demo.mem_seg _ _)

/-- C09, forward iterators, under the additional hypothesis that the allocator grants nothing or
everything that can be asked for. -/
theorem C09_merge_sorter_forward_partial (hlt : StrictWeak lt) (triv : Bool) (s : St α)
    (first : Nat) (xs : List α) (hw : s.WF) (hs : Seg s.cell first xs)
    (hg : (∀ i, s.grant i = 0) ∨ ∀ i, xs.length ≤ s.grant i) :
    Transforms (mergeSort (tick lt) ⟨.forward, triv⟩ first (first + xs.length)) s first xs
      (fun ys => ys.Perm xs ∧ SortedList lt ys ∧ SameOrder lt xs ys) := by
  obtain ⟨v, hv, he⟩ := hs.holds
  obtain ⟨_, s', hr, v', hu, hso⟩ := mergeSort_fwd_spec hlt ⟨.forward, triv⟩ rfl (by omega) hw hv
    (by rw [Nat.add_sub_cancel_left]; exact hg)
  exact hu.transforms hw hv he hr hso

example : Transforms (mergeSort (tick Demo.byFst) ⟨.forward, true⟩ 7 12) (Demo.mem 7 Demo.pairs) 7
    Demo.pairs (fun ys => ys.Perm Demo.pairs ∧ SortedList Demo.byFst ys ∧
      SameOrder Demo.byFst Demo.pairs ys) :=
  C09_merge_sorter_forward_partial Demo.byFst_sw true _ 7 Demo.pairs (Demo.mem_wf _ _)
    (Demo.mem_seg _ _) (Or.inl fun _ => rfl)

/-- The memory of the counterexample: the range, one unallocated cell, then free storage; the
allocator grants four elements at a time. -/
def overrunMem : St Nat :=
  { Demo.mem 0 overrunInput with brk := 16, grant := fun _ => 4 }

/-- C09 is false for forward iterators: the sort reads past the end of the range. -/
theorem C09_merge_sorter_forward_false (triv : Bool) :
    ¬ SortsStably Demo.natLt (mergeSort (tick Demo.natLt) ⟨.forward, triv⟩) := by
  intro h
  have hw : overrunMem.WF := fun i hi => Demo.mem_wf 0 overrunInput i (by
    simp only [overrunMem] at hi
    simp only [Demo.mem, overrunInput, List.length_cons, List.length_nil]; omega)
  have hs : Seg overrunMem.cell 0 overrunInput := Demo.mem_seg 0 overrunInput
  obtain ⟨s', ys, h1, -⟩ := h overrunMem 0 overrunInput hw hs
  obtain ⟨s'', h2⟩ := mergeSort_fwd_overrun triv (f := 0) hw hs rfl (by decide)
    (fun _ => rfl)
  rw [show 0 + overrunInput.length = 0 + 15 from rfl, h2] at h1
  cases h1

end CppSort
