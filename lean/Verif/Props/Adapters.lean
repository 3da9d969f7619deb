import Verif.Proof.AdaptersUse
import Verif.Props.Simple
import Verif.Props.Stable
/-
C29-C33, C58, C59: sorter adapters, apply_permutation, sorted_indices and sorted_iterators. The adapted
sorter is an arbitrary program about which only its specification is assumed.
-/
set_option autoImplicit false

namespace CppSort
variable {α δ : Type} {lt : α → α → Bool}

/-- C29: `make_stable<S>` sorts stably whenever `S` sorts the ranges of (element, position) pairs. The
comparison `stable_compare` calls the original comparison on original elements only (`stableLt`). -/
theorem C29_make_stable (hlt : StrictWeak lt) {sorter : Nat → Nat → M (α × Nat) Unit}
    (h : Sorts (stableLt lt) sorter) : SortsStably lt (makeStable sorter) :=
  makeStable_sorts hlt h

/-- C29: the comparison given to the adapted sorter is a strict weak order. -/
theorem C29_stable_compare_strict_weak (hlt : StrictWeak lt) : StrictWeak (stableLt lt) := stableLt_sw hlt

/-- C29: `stable_adapter<S>`, whether or not `S` is declared stable. -/
theorem C29_stable_adapter (hlt : StrictWeak lt) (isStable : Bool) {sorter : Nat → Nat → M α Unit}
    {sorterPairs : Nat → Nat → M (α × Nat) Unit} (h : isStable = true → SortsStably lt sorter)
    (h' : isStable = false → Sorts (stableLt lt) sorterPairs) :
    SortsStably lt (stableAdapter isStable sorter sorterPairs) := by
  cases isStable with
  | true => exact h rfl
  | false => exact makeStable_sorts hlt (h' rfl)

example (isStable : Bool) : SortsStably Demo.byFst (stableAdapter isStable (insertionSort (tick Demo.byFst))
    (selectionSort (tick (stableLt Demo.byFst)))) :=
  C29_stable_adapter Demo.byFst_sw isStable (fun _ => C01_insertion_sorter Demo.byFst_sw)
    (fun _ => C02_selection_sorter (C29_stable_compare_strict_weak Demo.byFst_sw))

/-- The selection sort, which is not stable, made stable. -/
example : SortsStably Demo.byFst (makeStable (selectionSort (tick (stableLt Demo.byFst)))) :=
  C29_make_stable Demo.byFst_sw (C02_selection_sorter (stableLt_sw Demo.byFst_sw))

example : Transforms (makeStable (selectionSort (tick (stableLt Demo.byFst))) 7 12) (Demo.mem 7 Demo.pairs) 7
    Demo.pairs (fun ys => ys.Perm Demo.pairs ∧ SortedList Demo.byFst ys ∧ SameOrder Demo.byFst Demo.pairs ys) :=
  C29_make_stable Demo.byFst_sw (C02_selection_sorter (stableLt_sw Demo.byFst_sw)) _ 7 Demo.pairs
    (Demo.mem_wf _ _) (Demo.mem_seg _ _)

section
variable [Inhabited α]

/-- C30: `indirect_adapter<S>` sorts whenever `S` sorts ranges of iterators (for every iterator category
and both implementations of `scope_success`). -/
theorem C30_indirect_adapter_sorts (randomAccess uncaught : Bool) {sorter : Nat → Nat → M (α × Nat) Unit}
    (h : Sorts (indirectLt lt) sorter) : Sorts lt (indirectAdapter randomAccess uncaught sorter) :=
  fun _ _ xs hw hs => (indirectAdapter_transforms _ _ hw hs (indirect_sorts h xs)).2

example : Sorts Demo.byFst (indirectAdapter true false (selectionSort (tick (indirectLt Demo.byFst)))) :=
  C30_indirect_adapter_sorts true false (C02_selection_sorter (indirectLt_sw Demo.byFst_sw))

/-- C30: it is stable when `S` is. -/
theorem C30_indirect_adapter_stable (hlt : StrictWeak lt) (randomAccess uncaught : Bool)
    {sorter : Nat → Nat → M (α × Nat) Unit} (h : SortsStably (indirectLt lt) sorter) :
    SortsStably lt (indirectAdapter randomAccess uncaught sorter) :=
  fun _ _ xs hw hs => (indirectAdapter_transforms _ _ hw hs (indirect_stable hlt h xs)).2

/-- C30: it moves elements at most `⌊3n/2⌋` times. -/
theorem C30_indirect_adapter_moves (randomAccess uncaught : Bool) {sorter : Nat → Nat → M (α × Nat) Unit}
    (h : Sorts (indirectLt lt) sorter) (s : St α) (first : Nat) (xs : List α) (hw : s.WF)
    (hs : Seg s.cell first xs) :
    ∃ s', indirectAdapter randomAccess uncaught sorter first (first + xs.length) s = some (.ok (), s') ∧
      s'.movs ≤ s.movs + 3 * xs.length / 2 := by
  obtain ⟨s', h1, h2⟩ := (indirectAdapter_transforms randomAccess uncaught hw hs (indirect_sorts h xs)).1
  exact ⟨s', h1, by omega⟩

example : ∃ s', indirectAdapter true true (insertionSort (tick (indirectLt Demo.byFst))) 7 12
    (Demo.mem 7 Demo.pairs) = some (.ok (), s') ∧ s'.movs ≤ 7 :=
  C30_indirect_adapter_moves true true (C01_insertion_sorter (indirectLt_sw Demo.byFst_sw)).sorts
    (Demo.mem 7 Demo.pairs) 7 Demo.pairs (Demo.mem_wf _ _) (Demo.mem_seg _ _)

example : SortsStably Demo.byFst (indirectAdapter false true (insertionSort (tick (indirectLt Demo.byFst)))) :=
  C30_indirect_adapter_stable Demo.byFst_sw false true (C01_insertion_sorter (indirectLt_sw Demo.byFst_sw))

/-- C32: `out_of_place_adapter<S>` sorts whenever `S` does; no cell outside the range is different
afterwards, hence the buffer has been released. -/
theorem C32_out_of_place_sorts {sorter : Nat → Nat → M α Unit} (h : Sorts lt sorter) :
    Sorts lt (outOfPlace sorter) :=
  fun _ _ xs hw hs => outOfPlace_transforms hw hs fun t p ht hp => h t p xs ht hp

example : Sorts Demo.byFst (outOfPlace (selectionSort (tick Demo.byFst))) :=
  C32_out_of_place_sorts (C02_selection_sorter Demo.byFst_sw)

/-- C32: it is stable when `S` is. -/
theorem C32_out_of_place_stable {sorter : Nat → Nat → M α Unit} (h : SortsStably lt sorter) :
    SortsStably lt (outOfPlace sorter) :=
  fun _ _ xs hw hs => outOfPlace_transforms hw hs fun t p ht hp => h t p xs ht hp

example : Transforms (outOfPlace (insertionSort (tick Demo.byFst)) 7 12) (Demo.mem 7 Demo.pairs) 7
    Demo.pairs (fun ys => ys.Perm Demo.pairs ∧ SortedList Demo.byFst ys ∧ SameOrder Demo.byFst Demo.pairs ys) :=
  C32_out_of_place_stable (C01_insertion_sorter Demo.byFst_sw) _ 7 Demo.pairs (Demo.mem_wf _ _)
    (Demo.mem_seg _ _)

end

/-- C31: if sorting the iterators (or, for iterators that are not random-access, the pairs of an iterator and
its index) ends with an exception, then `indirect_adapter` ends with this
exception, every cell of the memory is as it was before the call (so the collection is unchanged and the
temporary memory has been released), and no element has been moved. -/
theorem C31_indirect_adapter_exception (randomAccess uncaught : Bool)
    {sorter : Nat → Nat → M (α × Nat) Unit} {s : St α} {first : Nat} {xs : List α} {e : Err} (hw : s.WF)
    (hs : Seg s.cell first xs)
    (h : ∃ t', sorter 0 xs.length (localMem (xs.zipIdx (if randomAccess then first else 0)) s) =
      some (.error e, t')) :
    ∃ s', indirectAdapter randomAccess uncaught sorter first (first + xs.length) s = some (.error e, s') ∧
      s'.cell = s.cell ∧ s'.movs = s.movs :=
  indirect_exception randomAccess uncaught hw hs h

/-- A sorter whose comparison throws. -/
example (randomAccess uncaught : Bool) : ∃ s', indirectAdapter randomAccess uncaught
      (insertionSort (fun _ _ => fail .exn)) 7 12 (Demo.mem 7 Demo.pairs) = some (.error .exn, s') ∧
    s'.cell = (Demo.mem 7 Demo.pairs).cell ∧ s'.movs = (Demo.mem 7 Demo.pairs).movs := by
  refine C31_indirect_adapter_exception randomAccess uncaught (xs := Demo.pairs) (Demo.mem_wf _ _)
    (Demo.mem_seg _ _) ?_
  rw [insertionSort, insertionLoop]
  cases randomAccess <;> exact ⟨_, rfl⟩

section
variable [Inhabited δ] {ltd : δ → δ → Bool}

/-- C33: `schwartz_adapter<S>` sorts by the projected value whenever `S` sorts the pairs of an element and
its projection by their second component. -/
theorem C33_schwartz_adapter_sorts (g : α → δ) {sorter : Nat → Nat → M (α × δ) Unit}
    (h : Sorts (fun p q => ltd p.2 q.2) sorter) :
    Sorts (fun a b => ltd (g a) (g b)) (sortWithSchwartz (countedProj g) sorter) := by
  intro s f xs hw hs
  obtain ⟨s', ys, h1, h2, h3, ⟨qs, e, h4, h5⟩, h6⟩ := schwartz_transforms hw hs (g := g) fun t ht hp => by
    have := h t f _ ht hp
    rwa [List.length_map] at this
  subst e
  have := schwartz_list h4 h5
  exact ⟨s', _, h1, h2, h3, ⟨this.1, this.2.1⟩, h6⟩

example : Sorts (fun a b : Nat × Nat => Demo.natLt (a.1 % 3) (b.1 % 3))
    (sortWithSchwartz (countedProj fun a => a.1 % 3)
      (selectionSort (tick fun p q : (Nat × Nat) × Nat => Demo.natLt p.2 q.2))) :=
  C33_schwartz_adapter_sorts (ltd := Demo.natLt) _
    (C02_selection_sorter (C40_projection_compare_strict_weak Demo.natLt_sw Prod.snd))

/-- C33: it is stable when `S` is. -/
theorem C33_schwartz_adapter_stable (g : α → δ) {sorter : Nat → Nat → M (α × δ) Unit}
    (h : SortsStably (fun p q => ltd p.2 q.2) sorter) :
    SortsStably (fun a b => ltd (g a) (g b)) (sortWithSchwartz (countedProj g) sorter) := by
  intro s f xs hw hs
  obtain ⟨s', ys, h1, h2, h3, ⟨qs, e, h4, h5, h5'⟩, h6⟩ := schwartz_transforms hw hs (g := g) fun t ht hp => by
    have := h t f _ ht hp
    rwa [List.length_map] at this
  subst e
  have := schwartz_list h4 h5
  exact ⟨s', _, h1, h2, h3, ⟨this.1, this.2.1, this.2.2 h5'⟩, h6⟩

/-- C33: the projection is called exactly once per element. Calls of the projection and of the comparison
increment the same counter: the adapter's counter is the one the sorter ends with, when it is started with
the counter already incremented by the number of elements (the sorter compares data and cannot call
the projection). -/
theorem C33_schwartz_adapter_projects_once (g : α → δ) {sorter : Nat → Nat → M (α × δ) Unit}
    (h : Sorts (fun p q => ltd p.2 q.2) sorter) (s : St α) (first : Nat) (xs : List α) (hw : s.WF)
    (hs : Seg s.cell first xs) :
    ∃ (t t' : St (α × δ)) (s' : St α), Seg t.cell first (xs.map fun x => (x, g x)) ∧
      t.cmps = s.cmps + xs.length ∧ sorter first (first + xs.length) t = some (.ok (), t') ∧
      sortWithSchwartz (countedProj g) sorter first (first + xs.length) s = some (.ok (), s') ∧
      s'.cmps = t'.cmps := by
  obtain ⟨t, t', s', h1, h2, h3, h4, h5, h6, h7, h8⟩ := schwartz_counts hw hs (g := g) fun t ht hp => by
    have := h t first _ ht hp
    rwa [List.length_map] at this
  exact ⟨t, t', s', h2, h3, h5, h6, h7⟩

end

example : ∃ (t t' : St ((Nat × Nat) × Nat)) (s' : St (Nat × Nat)),
    Seg t.cell 7 (Demo.pairs.map fun x => (x, x.1 % 3)) ∧ t.cmps = 0 + 5 ∧
    insertionSort (tick fun p q : (Nat × Nat) × Nat => Demo.natLt p.2 q.2) 7 12 t = some (.ok (), t') ∧
    sortWithSchwartz (countedProj fun a => a.1 % 3)
      (insertionSort (tick fun p q : (Nat × Nat) × Nat => Demo.natLt p.2 q.2)) 7 12 (Demo.mem 7 Demo.pairs) =
        some (.ok (), s') ∧ s'.cmps = t'.cmps :=
  C33_schwartz_adapter_projects_once (ltd := Demo.natLt) _
    (C01_insertion_sorter (C40_projection_compare_strict_weak Demo.natLt_sw Prod.snd)).sorts
    (Demo.mem 7 Demo.pairs) 7 Demo.pairs (Demo.mem_wf _ _) (Demo.mem_seg _ _)

example : SortsStably (fun a b : Nat × Nat => Demo.natLt (a.1 % 3) (b.1 % 3))
    (sortWithSchwartz (countedProj fun a => a.1 % 3)
      (insertionSort (tick fun p q : (Nat × Nat) × Nat => Demo.natLt p.2 q.2))) :=
  C33_schwartz_adapter_stable (ltd := Demo.natLt) _
    (C01_insertion_sorter (C40_projection_compare_strict_weak Demo.natLt_sw Prod.snd))

section
variable [Inhabited α]

/-- C58: for any permutation `ps` of `0..n-1`, `apply_permutation` makes `xs[i]` the old `xs[ps[i]]` and
turns the indices into the identity. It ends normally: there is no self-move, no read of a moved-from
element. It moves elements at most `⌊3n/2⌋` times. -/
theorem C58_apply_permutation {first : Nat} {ps : List Nat} {xs : List α} {s : St α} (hw : s.WF)
    (hs : Seg s.cell first xs) (hp : ps.Perm (List.range xs.length)) :
    ∃ s' ys, applyPermutation first ps s = some (.ok (List.range xs.length), s') ∧ Seg s'.cell first ys ∧
      ys.map some = ps.map (xs[·]?) ∧
      (∀ i, i < first ∨ first + xs.length ≤ i → s'.cell i = s.cell i) ∧
      s'.cmps = s.cmps ∧ s'.movs ≤ s.movs + 3 * xs.length / 2 := by
  obtain ⟨s', ys, h1, h2, h3, h4, h5, h6, h7⟩ := applyPermutation_spec hw hs hp
  exact ⟨s', ys, h1, h2, h3, h4, h6, by omega⟩

example : ∃ s' ys, applyPermutation 7 [2, 0, 1, 4, 3] (Demo.mem 7 Demo.pairs) = some (.ok (List.range 5), s') ∧
    Seg s'.cell 7 ys ∧ ys.map some = [2, 0, 1, 4, 3].map (Demo.pairs[·]?) := by
  obtain ⟨s', ys, h1, h2, h3, -⟩ := C58_apply_permutation (Demo.mem_wf 7 Demo.pairs) (Demo.mem_seg 7 Demo.pairs)
    (ps := [2, 0, 1, 4, 3]) (by decide)
  exact ⟨s', ys, h1, h2, h3⟩

end

/-- C59: `sorted_indices<S>` returns a permutation of `0..n-1` that sorts the range, and leaves the memory
untouched. `ys` is the sequence of the elements designated by the indices. -/
theorem C59_sorted_indices {sorter : Nat → Nat → M (α × Nat) Unit} (h : Sorts (indirectLt lt) sorter)
    {first : Nat} {xs : List α} {s : St α} (hs : Seg s.cell first xs) :
    ∃ ps ys c g, sortedIndices sorter first (first + xs.length) s =
        some (.ok ps, { s with cmps := c, grant := g }) ∧ ps.Perm (List.range xs.length) ∧
      ys.map some = ps.map (xs[·]?) ∧ SortedList lt ys := by
  obtain ⟨ps, ys, c, g, h1, h2, h3, h4, h5⟩ := sortedIts_spec hs (indirect_sorts h xs 0)
  unfold sortedIndices
  rw [show first + xs.length - first = xs.length by omega]
  exact ⟨ps, ys, c, g, h1, by rwa [← List.range_eq_range'] at h2, h3, h5⟩

/-- C59: stably, when `S` is stable: equivalent elements are designated in the order of their indices. -/
theorem C59_sorted_indices_stable (hlt : StrictWeak lt) {sorter : Nat → Nat → M (α × Nat) Unit}
    (h : SortsStably (indirectLt lt) sorter) {first : Nat} {xs : List α} {s : St α}
    (hs : Seg s.cell first xs) :
    ∃ ps ys c g, sortedIndices sorter first (first + xs.length) s =
        some (.ok ps, { s with cmps := c, grant := g }) ∧ ps.Perm (List.range xs.length) ∧
      ys.map some = ps.map (xs[·]?) ∧ SortedList lt ys ∧ SameOrder lt xs ys := by
  obtain ⟨ps, ys, c, g, h1, h2, h3, h4, h5⟩ := sortedIts_spec
    (R := fun ys => SortedList lt ys ∧ SameOrder lt xs ys) hs (indirect_stable hlt h xs 0)
  unfold sortedIndices
  rw [show first + xs.length - first = xs.length by omega]
  exact ⟨ps, ys, c, g, h1, by rwa [← List.range_eq_range'] at h2, h3, h5⟩

/-- C59: `sorted_iterators<S>` likewise returns the iterators of the range, in an order that sorts. -/
theorem C59_sorted_iterators {sorter : Nat → Nat → M (α × Nat) Unit} (h : Sorts (indirectLt lt) sorter)
    {first : Nat} {xs : List α} {s : St α} (hs : Seg s.cell first xs) :
    ∃ ps ys c g, sortedIteratorsOf sorter first (first + xs.length) s =
        some (.ok ps, { s with cmps := c, grant := g }) ∧ ps.Perm (List.range' first xs.length) ∧
      ps.map s.cell = ys.map .val ∧ SortedList lt ys := by
  obtain ⟨ps, ys, c, g, h1, h2, h3, h4, h5⟩ := sortedIts_spec hs (indirect_sorts h xs first)
  unfold sortedIteratorsOf
  rw [show first + xs.length - first = xs.length by omega]
  exact ⟨ps, ys, c, g, h1, h2, cells_of_its hs h2 h3, h5⟩

/-- C59: stably, when `S` is stable. -/
theorem C59_sorted_iterators_stable (hlt : StrictWeak lt) {sorter : Nat → Nat → M (α × Nat) Unit}
    (h : SortsStably (indirectLt lt) sorter) {first : Nat} {xs : List α} {s : St α}
    (hs : Seg s.cell first xs) :
    ∃ ps ys c g, sortedIteratorsOf sorter first (first + xs.length) s =
        some (.ok ps, { s with cmps := c, grant := g }) ∧ ps.Perm (List.range' first xs.length) ∧
      ps.map s.cell = ys.map .val ∧ SortedList lt ys ∧ SameOrder lt xs ys := by
  obtain ⟨ps, ys, c, g, h1, h2, h3, h4, h5⟩ := sortedIts_spec
    (R := fun ys => SortedList lt ys ∧ SameOrder lt xs ys) hs (indirect_stable hlt h xs first)
  unfold sortedIteratorsOf
  rw [show first + xs.length - first = xs.length by omega]
  exact ⟨ps, ys, c, g, h1, h2, cells_of_its hs h2 h3, h5⟩

example : ∃ ps ys c g, sortedIndices (insertionSort (tick (indirectLt Demo.byFst))) 7 12
      (Demo.mem 7 Demo.pairs) = some (.ok ps, { Demo.mem 7 Demo.pairs with cmps := c, grant := g }) ∧
    ps.Perm (List.range 5) ∧ ys.map some = ps.map (Demo.pairs[·]?) ∧ SortedList Demo.byFst ys ∧
    SameOrder Demo.byFst Demo.pairs ys :=
  C59_sorted_indices_stable Demo.byFst_sw (C01_insertion_sorter (indirectLt_sw Demo.byFst_sw))
    (Demo.mem_seg 7 Demo.pairs)

example : ∃ ps ys c g, sortedIndices (selectionSort (tick (indirectLt Demo.byFst))) 7 12
      (Demo.mem 7 Demo.pairs) = some (.ok ps, { Demo.mem 7 Demo.pairs with cmps := c, grant := g }) ∧
    ps.Perm (List.range 5) ∧ ys.map some = ps.map (Demo.pairs[·]?) ∧ SortedList Demo.byFst ys :=
  C59_sorted_indices (C02_selection_sorter (indirectLt_sw Demo.byFst_sw)) (Demo.mem_seg 7 Demo.pairs)

example : ∃ ps ys c g, sortedIteratorsOf (selectionSort (tick (indirectLt Demo.byFst))) 7 12
      (Demo.mem 7 Demo.pairs) = some (.ok ps, { Demo.mem 7 Demo.pairs with cmps := c, grant := g }) ∧
    ps.Perm (List.range' 7 5) ∧ ps.map (Demo.mem 7 Demo.pairs).cell = ys.map .val ∧ SortedList Demo.byFst ys :=
  C59_sorted_iterators (C02_selection_sorter (indirectLt_sw Demo.byFst_sw)) (Demo.mem_seg 7 Demo.pairs)

/-- Sorting by `sorted_indices` and `apply_permutation`. -/
def sortByIndices (sorter : Nat → Nat → M (α × Nat) Unit) (first last : Nat) : M α Unit := do
  let ps ← sortedIndices sorter first last
  let _ ← applyPermutation first ps
  pure ()

section
variable [Inhabited α]

/-- C59: applying the indices returned by `sorted_indices` sorts the range. -/
theorem C59_apply_sorted_indices (sorter : Nat → Nat → M (α × Nat) Unit) (h : Sorts (indirectLt lt) sorter) :
    Sorts lt (sortByIndices sorter) := by
  intro s f xs hw hs
  obtain ⟨ps, ys, c, g, h1, h2, h3, h4⟩ := C59_sorted_indices h hs
  obtain ⟨s', zs, k1, k2, k3, k4, k5, -⟩ := applyPermutation_spec (s := { s with cmps := c, grant := g }) hw hs h2
  have e : zs = ys := List.map_injective_iff.2 (Option.some_injective _) (k3.trans h3.symm)
  subst e
  have hl : zs.length = xs.length := by
    have := congrArg List.length k3
    simpa using this.trans (by simpa using h2.length_eq)
  refine ⟨s', zs, ?_, hl, k2, ⟨perm_of_indices h2 h3, h4⟩, k4, k5⟩
  unfold sortByIndices
  rw [bind_ok h1, bind_ok k1]
  rfl

example : Sorts Demo.byFst (sortByIndices (insertionSort (tick (indirectLt Demo.byFst)))) :=
  C59_apply_sorted_indices _ (C01_insertion_sorter (indirectLt_sw Demo.byFst_sw)).sorts

end

example : ∃ ps ys c g, sortedIteratorsOf (insertionSort (tick (indirectLt Demo.byFst))) 7 12
      (Demo.mem 7 Demo.pairs) = some (.ok ps, { Demo.mem 7 Demo.pairs with cmps := c, grant := g }) ∧
    ps.Perm (List.range' 7 5) ∧ ps.map (Demo.mem 7 Demo.pairs).cell = ys.map .val ∧
    SortedList Demo.byFst ys ∧ SameOrder Demo.byFst Demo.pairs ys :=
  C59_sorted_iterators_stable Demo.byFst_sw (C01_insertion_sorter (indirectLt_sw Demo.byFst_sw))
    (Demo.mem_seg 7 Demo.pairs)

end CppSort
