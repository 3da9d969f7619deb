import Verif.Proof.Verge
import Verif.Model.FuelVerge
import Verif.Props.Simple
/-
C21, C22: vergesort, with any fallback sorter, unstable and stable.
-/
set_option autoImplicit false

namespace CppSort
variable {α : Type} {lt : α → α → Bool}

/-- C21, the part that holds, random-access iterators: `verge_adapter<Sorter>` sorts every range in which no element
stands alone between two big runs: runs of at least `n / log2 n` elements, such that the element neither goes on with
the first nor belongs to the second. (For the other ranges see `C21_verge_adapter_false`.) -/
theorem C21_verge_adapter_partial (hlt : StrictWeak lt) (triv : Bool) {fb : Nat → Nat → M α Unit} (hfb : Sorts lt fb)
    (s : St α) (f : Nat) (xs : List α) (hw : s.WF) (hs : Seg s.cell f xs)
    (hlone : 128 ≤ xs.length →
      ¬ Lone lt false (xs.length / Nat.log2 xs.length) (fun e x c => !goes lt false e x c) xs) :
    Transforms (vergesortRandom (tick lt) ⟨.random, triv⟩ fb false f (f + xs.length)) s f xs
      (fun ys => ys.Perm xs ∧ SortedList lt ys) := by
  have hfb' : FbOk lt false fb := fun s f xs hw hs => by
    obtain ⟨s', ys, h1, h2, h3, h4, h5, h6⟩ := hfb s f xs hw hs
    exact ⟨s', ys, h1, h2, h3, ⟨h4.1, h4.2, by simp⟩, h5, h6⟩
  obtain ⟨_, s', h1, ys, h2, h3⟩ := vergesortRandom_seg hlt ⟨.random, triv⟩ (by simp) hfb' hw hs hlone
  exact ⟨s', ys, h1, h3.len, h3.out, ⟨h2.1, h2.2.1⟩, h3.rest, h3.wf⟩

/-- C21, the part that holds, bidirectional iterators (the fallback is also given the size of its range): the runs have
more than `n / log2 n` elements, and an element equivalent to the first one of a run does not belong to it. -/
theorem C21_verge_adapter_bidirectional_partial (hlt : StrictWeak lt) (triv : Bool) {fb : Nat → Nat → Nat → M α Unit}
    (hfb : ∀ n, SortsSized lt n (fun first last => fb first last n))
    (s : St α) (f : Nat) (xs : List α) (hw : s.WF) (hs : Seg s.cell f xs)
    (hlone : 128 ≤ xs.length →
      ¬ Lone lt false (xs.length / Nat.log2 xs.length + 1) (fun e x c => goes lt false (!e) x c) xs) :
    Transforms (vergesortBi (tick lt) ⟨.bidirectional, triv⟩ fb false f (f + xs.length) xs.length) s f xs
      (fun ys => ys.Perm xs ∧ SortedList lt ys) := by
  have hfb' : FbOkN lt false fb := fun s f xs hw hs => by
    obtain ⟨s', ys, h1, h2, h3, h4, h5, h6⟩ := hfb _ s f xs rfl hw hs
    exact ⟨s', ys, h1, h2, h3, ⟨h4.1, h4.2, by simp⟩, h5, h6⟩
  obtain ⟨_, s', h1, ys, h2, h3⟩ := vergesortBi_seg hlt ⟨.bidirectional, triv⟩ (by simp) hfb' hw hs hlone
  exact ⟨s', ys, h1, h3.len, h3.out, ⟨h2.1, h2.2.1⟩, h3.rest, h3.wf⟩

/-- C22, the part that holds, random-access iterators: `stable_adapter<verge_adapter<Sorter>>` sorts stably every range
in which no element stands alone between two big runs. -/
theorem C22_stable_verge_adapter_partial (hlt : StrictWeak lt) (triv : Bool) {fb : Nat → Nat → M α Unit}
    (hfb : SortsStably lt fb) (s : St α) (f : Nat) (xs : List α) (hw : s.WF) (hs : Seg s.cell f xs)
    (hlone : 128 ≤ xs.length →
      ¬ Lone lt true (xs.length / Nat.log2 xs.length) (fun e x c => !goes lt true e x c) xs) :
    Transforms (vergesortRandom (tick lt) ⟨.random, triv⟩ fb true f (f + xs.length)) s f xs
      (fun ys => ys.Perm xs ∧ SortedList lt ys ∧ SameOrder lt xs ys) := by
  have hfb' : FbOk lt true fb := fun s f xs hw hs => by
    obtain ⟨s', ys, h1, h2, h3, h4, h5, h6⟩ := hfb s f xs hw hs
    exact ⟨s', ys, h1, h2, h3, ⟨h4.1, h4.2.1, fun _ => h4.2.2⟩, h5, h6⟩
  obtain ⟨_, s', h1, ys, h2, h3⟩ := vergesortRandom_seg hlt ⟨.random, triv⟩ (by simp) hfb' hw hs hlone
  exact ⟨s', ys, h1, h3.len, h3.out, ⟨h2.1, h2.2.1, h2.2.2 rfl⟩, h3.rest, h3.wf⟩

/-- C22, the part that holds, bidirectional iterators. -/
theorem C22_stable_verge_adapter_bidirectional_partial (hlt : StrictWeak lt) (triv : Bool)
    {fb : Nat → Nat → Nat → M α Unit}
    (hfb : ∀ (s : St α) (f : Nat) (xs : List α), s.WF → Seg s.cell f xs →
      Transforms (fb f (f + xs.length) xs.length) s f xs
        (fun ys => ys.Perm xs ∧ SortedList lt ys ∧ SameOrder lt xs ys))
    (s : St α) (f : Nat) (xs : List α) (hw : s.WF) (hs : Seg s.cell f xs)
    (hlone : 128 ≤ xs.length →
      ¬ Lone lt true (xs.length / Nat.log2 xs.length + 1) (fun e x c => goes lt true (!e) x c) xs) :
    Transforms (vergesortBi (tick lt) ⟨.bidirectional, triv⟩ fb true f (f + xs.length) xs.length) s f xs
      (fun ys => ys.Perm xs ∧ SortedList lt ys ∧ SameOrder lt xs ys) := by
  have hfb' : FbOkN lt true fb := fun s f xs hw hs => by
    obtain ⟨s', ys, h1, h2, h3, h4, h5, h6⟩ := hfb s f xs hw hs
    exact ⟨s', ys, h1, h2, h3, ⟨h4.1, h4.2.1, fun _ => h4.2.2⟩, h5, h6⟩
  obtain ⟨_, s', h1, ys, h2, h3⟩ := vergesortBi_seg hlt ⟨.bidirectional, triv⟩ (by simp) hfb' hw hs hlone
  exact ⟨s', ys, h1, h3.len, h3.out, ⟨h2.1, h2.2.1, h2.2.2 rfl⟩, h3.rest, h3.wf⟩

/-! ### Ranges satisfying the hypotheses -/

/-- Two neighbours that do not go on in either direction of a long run before them, checked place by place. -/
def breaks (lt : α → α → Bool) (st : Bool) (m : Nat) (xs : List α) (p : Nat) : Bool :=
  decide (m ≤ p) && [true, false].any fun d => decide (((xs.take p).drop (p - m)).IsChain fun x y => goes lt st d x y = true) &&
    match xs[p - 1]?, xs[p]? with
    | some b, some x => !goes lt st d b x
    | _, _ => false

/-- A long run not going on with the element before it. -/
def starts (lt : α → α → Bool) (st : Bool) (m : Nat) (out : Bool → α → α → Bool) (xs : List α) (p : Nat) : Bool :=
  [true, false].any fun e => decide (((xs.drop (p + 1)).take m).IsChain fun x y => goes lt st e x y = true) &&
    match xs[p]?, xs[p + 1]? with
    | some x, some c => out e x c
    | _, _ => false

theorem not_lone {st : Bool} {m : Nat} {out : Bool → α → α → Bool} {xs : List α}
    (h : ((List.range xs.length).all fun p => !(breaks lt st m xs p && starts lt st m out xs p)) = true) :
    ¬ Lone lt st m out xs := by
  rintro ⟨A, B, b, x, c, C, D, d, e, hx, h1, h2, h3, h4, h5, h6⟩
  have hp := List.all_eq_true.1 h (A ++ B).length.succ (by
    rw [List.mem_range, hx]; simp; omega)
  rw [Bool.not_eq_true', ← Bool.not_eq_true] at hp
  apply hp
  rw [Bool.and_eq_true]
  have e1 : xs = ((A ++ B) ++ [b]) ++ x :: (c :: C ++ D) := by rw [hx]; simp
  have l1 : ((A ++ B) ++ [b]).length = (A ++ B).length.succ := by simp; omega
  have g0 : xs[(A ++ B).length.succ - 1]? = some b := by
    rw [e1, List.append_assoc, List.getElem?_append_right (by simp)]; simp
  have g1 : xs[(A ++ B).length.succ]? = some x := by
    rw [e1, ← l1, List.getElem?_append_right (by simp)]; simp
  have g2 : xs[(A ++ B).length.succ + 1]? = some c := by
    rw [e1, ← l1, List.getElem?_append_right (by simp)]; simp
  constructor
  · rw [breaks, Bool.and_eq_true]
    refine ⟨decide_eq_true (by rw [← l1, List.append_assoc, List.length_append]; omega), ?_⟩
    rw [List.any_eq_true]
    refine ⟨d, by cases d <;> simp, ?_⟩
    rw [g0, g1, Bool.and_eq_true]
    refine ⟨decide_eq_true ?_, by simpa using h4⟩
    rw [e1, ← l1, List.take_left]
    have : ∃ B1 B2, B ++ [b] = B1 ++ B2 ∧ (((A ++ B) ++ [b]).drop (((A ++ B) ++ [b]).length - m)) = B2 := by
      refine ⟨(B ++ [b]).take ((B ++ [b]).length - m), (B ++ [b]).drop ((B ++ [b]).length - m),
        (List.take_append_drop _ _).symm, ?_⟩
      rw [List.append_assoc, List.length_append, Nat.add_sub_assoc h1, List.drop_append,
        List.drop_eq_nil_of_le (by omega), Nat.add_sub_cancel_left, List.nil_append]
    obtain ⟨B1, B2, q1, q2⟩ := this
    rw [q2]
    unfold IsRun at h3
    rw [q1] at h3
    exact h3.right_of_append
  · rw [starts, List.any_eq_true]
    refine ⟨e, by cases e <;> simp, ?_⟩
    rw [g1, g2, Bool.and_eq_true]
    refine ⟨decide_eq_true ?_, h5⟩
    rw [show (A ++ B).length.succ + 1 = (((A ++ B) ++ [b]) ++ [x]).length by simp; omega,
      show xs = (((A ++ B) ++ [b]) ++ [x]) ++ (c :: C ++ D) by rw [e1]; simp, List.drop_left,
      List.take_append_of_le_length h2]
    exact List.IsChain.take h6 m

/-- 150 pairs: a descending run with ties, disorder, an ascending run. -/
def vergeDemo : List (Nat × Nat) :=
  (List.range 50).map (fun i => (100 - i / 2, i)) ++ (List.range 50).map (fun i => (i * 7 % 31, i)) ++
    (List.range 50).map (fun i => (i, i))

example : Transforms (vergesortRandom (tick Demo.byFst) ⟨.random, false⟩ (insertionSort (tick Demo.byFst)) false 7 157)
    (Demo.mem 7 vergeDemo) 7 vergeDemo (fun ys => ys.Perm vergeDemo ∧ SortedList Demo.byFst ys) := by
  have := C21_verge_adapter_partial Demo.byFst_sw false (C01_insertion_sorter Demo.byFst_sw).sorts _ 7 vergeDemo
    (Demo.mem_wf _ _) (Demo.mem_seg _ _) fun _ => not_lone (by decide +kernel)
  simpa [vergeDemo] using this

example : Transforms (vergesortBi (tick Demo.byFst) ⟨.bidirectional, false⟩
    (fun first last _ => insertionSort (tick Demo.byFst) first last) false 7 157 150)
    (Demo.mem 7 vergeDemo) 7 vergeDemo (fun ys => ys.Perm vergeDemo ∧ SortedList Demo.byFst ys) := by
  have := C21_verge_adapter_bidirectional_partial Demo.byFst_sw false
    (fb := fun first last _ => insertionSort (tick Demo.byFst) first last)
    (fun n s f xs hn hw hs => hn ▸ (C01_insertion_sorter Demo.byFst_sw).sorts s f xs hw hs) _ 7 vergeDemo
    (Demo.mem_wf _ _) (Demo.mem_seg _ _) fun _ => not_lone (by decide +kernel)
  simpa [vergeDemo] using this

example : Transforms (vergesortRandom (tick Demo.byFst) ⟨.random, false⟩ (insertionSort (tick Demo.byFst)) true 7 157)
    (Demo.mem 7 vergeDemo) 7 vergeDemo
    (fun ys => ys.Perm vergeDemo ∧ SortedList Demo.byFst ys ∧ SameOrder Demo.byFst vergeDemo ys) := by
  have := C22_stable_verge_adapter_partial Demo.byFst_sw false (C01_insertion_sorter Demo.byFst_sw) _ 7 vergeDemo
    (Demo.mem_wf _ _) (Demo.mem_seg _ _) fun _ => not_lone (by decide +kernel)
  simpa [vergeDemo] using this

example : Transforms (vergesortBi (tick Demo.byFst) ⟨.bidirectional, false⟩
    (fun first last _ => insertionSort (tick Demo.byFst) first last) true 7 157 150)
    (Demo.mem 7 vergeDemo) 7 vergeDemo
    (fun ys => ys.Perm vergeDemo ∧ SortedList Demo.byFst ys ∧ SameOrder Demo.byFst vergeDemo ys) := by
  have := C22_stable_verge_adapter_bidirectional_partial Demo.byFst_sw false
    (fb := fun first last _ => insertionSort (tick Demo.byFst) first last)
    (C01_insertion_sorter Demo.byFst_sw) _ 7 vergeDemo
    (Demo.mem_wf _ _) (Demo.mem_seg _ _) fun _ => not_lone (by decide +kernel)
  simpa [vergeDemo] using this

/-! ### The element alone between two runs -/

/-- Two ascending runs, one element, one ascending run. -/
def vergeBad : List Nat :=
  (List.range 30).map (· + 200) ++ (List.range 30).map (· + 100) ++ 50 :: List.range 67

/-- The memory of the counterexample; the allocator grants what it is asked for. -/
def vergeBadMem : St Nat :=
  { cell := (Demo.mem 0 vergeBad).cell, brk := 128, grant := fun _ => 200, cmps := 0, movs := 0 }

/-- What the sort does with the counterexample: it returns with two neighbours in the wrong order. -/
def vergeWrong (st : Bool) : Bool :=
  match vergesortRandomF (tick Demo.natLt) 200 ⟨.random, false⟩ (insertionSortF (tick Demo.natLt) 200) st 0 128
      vergeBadMem with
  | some (.ok _, s) => (List.range 127).any fun i => match s.cell i, s.cell (i + 1) with
    | .val x, .val y => Demo.natLt y x
    | _, _ => false
  | _ => false

theorem vergeWrong_not {st : Bool} (h : vergeWrong st = true) {R : List Nat → Prop}
    (hR : ∀ ys, R ys → SortedList Demo.natLt ys) :
    ¬ Transforms (vergesortRandom (tick Demo.natLt) ⟨.random, false⟩ (insertionSort (tick Demo.natLt)) st 0 128)
      vergeBadMem 0 vergeBad R := by
  rintro ⟨s', ys, h1, h2, h3, h4, -, -⟩
  unfold vergeWrong at h
  split at h
  · rename_i s e
    have e1 := vergesortRandomF_le (tick Demo.natLt) 200 ⟨.random, false⟩ _ _
      (fun f l => insertionSortF_le (tick Demo.natLt) 200 f l) st 0 128 _ _ e
    rw [h1] at e1
    injection e1 with e1
    injection e1 with _ e1
    subst e1
    obtain ⟨i, hi, h⟩ := List.any_eq_true.1 h
    rw [List.mem_range] at hi
    have hl : ys.length = 128 := by rw [h2]; simp [vergeBad]
    have c1 := h3 i (by omega)
    have c2 := h3 (i + 1) (by omega)
    rw [Nat.zero_add] at c1 c2
    rw [c1, c2] at h
    have := List.pairwise_iff_getElem.1 (hR _ h4) i (i + 1) (by omega) (by omega) (by omega)
    simp only at h
    rw [h] at this
    simp at this
  · simp at h

theorem vergeBad_cell : vergeBadMem.cell = (Demo.mem 0 vergeBad).cell := by unfold vergeBadMem; dsimp only

theorem vergeBad_wf : vergeBadMem.WF := by
  intro i hi
  have hl : vergeBad.length = 128 := by simp [vergeBad]
  rw [show vergeBadMem.brk = 128 by unfold vergeBadMem; dsimp only] at hi
  rw [vergeBad_cell]
  refine Demo.mem_wf 0 vergeBad i ?_
  simp only [Demo.mem, hl]; omega

theorem vergeBad_seg : Seg vergeBadMem.cell 0 vergeBad := by rw [vergeBad_cell]; exact Demo.mem_seg 0 vergeBad

/-- C21 is false: over `insertion_sorter`, two ascending runs of 30 numbers, one number and an ascending run of 67
numbers are not sorted. -/
theorem C21_verge_adapter_false : ¬ ∀ fb : Nat → Nat → M Nat Unit, Sorts Demo.natLt fb →
    Sorts Demo.natLt (vergesortRandom (tick Demo.natLt) ⟨.random, false⟩ fb false) := by
  intro h
  have := h _ (C01_insertion_sorter Demo.natLt_sw).sorts vergeBadMem 0 vergeBad vergeBad_wf vergeBad_seg
  rw [show vergeBad.length = 128 by simp [vergeBad]] at this
  exact vergeWrong_not (st := false) (by decide +kernel) (fun _ h => h.2) this

/-- C22 is false too: the same range is not sorted by the stable version. -/
theorem C22_stable_verge_adapter_false : ¬ ∀ fb : Nat → Nat → M Nat Unit, SortsStably Demo.natLt fb →
    SortsStably Demo.natLt (vergesortRandom (tick Demo.natLt) ⟨.random, false⟩ fb true) := by
  intro h
  have := h _ (C01_insertion_sorter Demo.natLt_sw) vergeBadMem 0 vergeBad vergeBad_wf vergeBad_seg
  rw [show vergeBad.length = 128 by simp [vergeBad]] at this
  exact vergeWrong_not (st := true) (by decide +kernel) (fun _ h => h.2.1) this

end CppSort
