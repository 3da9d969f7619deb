import Verif.Proof.Compose
import Verif.Props.Spin
import Verif.Props.Demo
/-
C90: compositions of sorters and adapters.
-/
set_option autoImplicit false

namespace CppSort
variable {α : Type} {lt : α → α → Bool} {env : Env} {c : Cat} {e : Sorter}

/-- C90: every composition of sorters and adapters, called with iterators of a category that it accepts,
sorts. Partial: the compositions with a part that is not correct by itself (C06, C09, C14, C21, C61, C62)
are excluded by `Plain`. -/
theorem C90_composition_partial [Inhabited α] (hlt : StrictWeak lt) (h : Plain env c e)
    (hc : e.cat.value ≤ c.value) : Sorts lt (e.run env c α lt) :=
  (Sorter.runOk e.size e (Nat.le_refl _) c α lt hlt (Sorter.good_of_plain h hc)).1

/-- C90: a call that `is_stable` declares to be stable is stable. Partial: for the same compositions, and
those whose stability does not get lost with other iterators (`Steady`). -/
theorem C90_is_stable_partial [Inhabited α] (hlt : StrictWeak lt) (h : Plain env c e)
    (hc : e.cat.value ≤ c.value) (hs : Steady c e) (hst : e.isStable c = true) :
    SortsStably lt (e.run env c α lt) :=
  (Sorter.runOk e.size e (Nat.le_refl _) c α lt hlt (Sorter.good_of_plain h hc)).2 hs (.inl hst)

/-- C90: with random-access iterators, which every sorter accepts, there is no other condition. -/
theorem C90_is_stable_random_partial [Inhabited α] (hlt : StrictWeak lt) (h : Plain env .random e)
    (hst : e.isStable .random = true) : SortsStably lt (e.run env .random α lt) :=
  C90_is_stable_partial hlt h (Sorter.value_le_random _) (Sorter.steady_random e) hst

/-- C90: a sorter that `is_always_stable` declares to be stable is stable. -/
theorem C90_is_always_stable_partial [Inhabited α] (hlt : StrictWeak lt) (h : Plain env c e)
    (hc : e.cat.value ≤ c.value) (hs : Steady c e) (hst : e.alwaysStable = true) :
    SortsStably lt (e.run env c α lt) :=
  (Sorter.runOk e.size e (Nat.le_refl _) c α lt hlt (Sorter.good_of_plain h hc)).2 hs (.inr hst)

/-- C90: `stable_t<e>` declares to be always stable, accepts the same iterators as `e`, and is stable. -/
theorem C90_stable_t_partial [Inhabited α] (hlt : StrictWeak lt) (h : Plain env c e) (h' : Plain env .random e)
    (hc : e.cat.value ≤ c.value) (hs : Steady c e) :
    e.stableT.alwaysStable = true ∧ e.stableT.cat = e.cat ∧ SortsStably lt (e.stableT.run env c α lt) :=
  ⟨Sorter.alwaysStable_stableT e, Sorter.cat_stableT e,
    (Sorter.runOk _ _ (Nat.le_refl _) c α lt hlt (Sorter.good_stableT (Sorter.good_of_plain h hc)
      (Sorter.good_of_plain h' (Sorter.value_le_random _)))).2 (Sorter.steady_stableT hs)
      (.inr (Sorter.alwaysStable_stableT e))⟩

/-- C90: `stable_adapter<e>` too. -/
theorem C90_stable_adapter_partial [Inhabited α] (hlt : StrictWeak lt) (h : Plain env c e)
    (h' : Plain env .random e) (hc : e.cat.value ≤ c.value) (hs : Steady c e) :
    (Sorter.stable e).alwaysStable = true ∧ (Sorter.stable e).cat = e.cat ∧
      SortsStably lt ((Sorter.stable e).run env c α lt) :=
  ⟨by rw [Sorter.alwaysStable], by rw [Sorter.cat],
    C90_is_always_stable_partial hlt (.stable h h') (by rwa [Sorter.cat]) (.stable hs) (by rw [Sorter.alwaysStable])⟩

/-- `stable_adapter<hybrid_adapter<split_adapter<quick_sorter>, out_of_place_adapter<pdq_sorter>,
hybrid_adapter<merge_sorter, drop_merge_adapter<indirect_adapter<heap_sorter>>>>>`. -/
def Demo.composition : Sorter :=
  .stable (.hybrid [.split (.leaf .quick), .outOfPlace (.leaf .pdq),
    .hybrid [.leaf .merge, .dropMerge (.indirect (.leaf .heap))]])

theorem Demo.composition_plain (env : Env) (c : Cat) (hc : c ≠ .forward) : Plain env c Demo.composition := by
  have h : ∀ c, c ≠ .forward → Plain env c (.hybrid [.split (.leaf .quick), .outOfPlace (.leaf .pdq),
      .hybrid [.leaf .merge, .dropMerge (.indirect (.leaf .heap))]]) := by
    intro c hc
    refine .hybrid (by simp) fun e he => ?_
    simp only [List.mem_cons, List.not_mem_nil, or_false] at he
    rcases he with rfl | rfl | rfl
    · exact .split (.leaf trivial)
    · exact .outOfPlace (.leaf trivial)
    · refine .hybrid (by simp) fun e he => ?_
      simp only [List.mem_cons, List.not_mem_nil, or_false] at he
      rcases he with rfl | rfl
      · exact .leaf hc
      · exact .dropMerge (.indirect (.leaf trivial))
  exact .stable (h _ hc) (h _ (by simp))

example (env : Env) : Transforms (Demo.composition.run env .bidirectional (Nat × Nat) Demo.byFst 7 12)
    (Demo.mem 7 Demo.pairs) 7 Demo.pairs
    (fun ys => ys.Perm Demo.pairs ∧ SortedList Demo.byFst ys ∧ SameOrder Demo.byFst Demo.pairs ys) := by
  refine C90_is_always_stable_partial Demo.byFst_sw (Demo.composition_plain env _ (by simp)) (by decide) ?_ rfl
    _ 7 Demo.pairs (Demo.mem_wf _ _) (Demo.mem_seg _ _)
  refine .stable (.hybrid fun e he => ?_)
  simp only [List.mem_cons, List.not_mem_nil, or_false] at he
  rcases he with rfl | rfl | rfl
  · exact .split
  · exact .outOfPlace (by simp [Sorter.isStable, Leaf.alwaysStable]) .leaf
  · refine .hybrid fun e he => ?_
    simp only [List.mem_cons, List.not_mem_nil, or_false] at he
    rcases he with rfl | rfl
    · exact .leaf
    · exact .dropMerge

/-! ### The claim is false in general -/

/-- C90 is false: `spin_sorter` accepts random-access iterators, but does not sort. -/
theorem C90_composition_false (env : Env) :
    ¬ ∀ e : Sorter, e.cat.value ≤ Cat.random.value → Sorts Demo.natLt (e.run env .random Nat Demo.natLt) := by
  intro h
  have := h (.leaf .spin) (by simp [Sorter.cat, Leaf.cat])
  rw [Sorter.run, Leaf.run] at this
  exact C14_spin_sorter_not_sorts this

/-- `out_of_place_adapter<hybrid_adapter<insertion_sorter, heap_sorter>>`. -/
def Demo.mixed : Sorter := .outOfPlace (.hybrid [.leaf .insertion, .leaf .heap])

theorem Demo.mixed_plain (env : Env) (c : Cat) : Plain env c Demo.mixed := by
  refine .outOfPlace (.hybrid (by simp) fun e he => ?_)
  simp only [List.mem_cons, List.not_mem_nil, or_false] at he
  rcases he with rfl | rfl <;> exact .leaf trivial

theorem Demo.mixed_random :
    Sorter.chosen .random [.leaf .insertion, .leaf .heap] = some (.leaf .heap) := by
  unfold Sorter.chosen hybridAdapterCall
  rw [Sorter.flattenFold_flatTuples]; rfl

theorem Demo.mixed_bidirectional :
    Sorter.chosen .bidirectional [.leaf .insertion, .leaf .heap] = some (.leaf .insertion) := by
  unfold Sorter.chosen hybridAdapterCall
  rw [Sorter.flattenFold_flatTuples]; rfl

/-- Three equivalent elements. -/
def Demo.ties : List (Nat × Nat) := [(0, 0), (0, 1), (0, 2)]

/-- `out_of_place_adapter` sorts them with `heap_sorter`, which reorders them. -/
theorem Demo.mixed_not_stable (env : Env) (c : Cat) :
    ¬ SortsStably Demo.byFst (Demo.mixed.run env c (Nat × Nat) Demo.byFst) := by
  intro h
  have e1 : Demo.mixed.run env c (Nat × Nat) Demo.byFst = outOfPlace (heapsort (tick Demo.byFst)) := by
    rw [Demo.mixed, Sorter.run, Sorter.run_hybrid Demo.mixed_random, Sorter.run, Leaf.run]
  have h1 : Transforms (outOfPlace (heapsort (tick Demo.byFst)) 7 (7 + Demo.ties.length)) (Demo.mem 7 Demo.ties) 7
      Demo.ties (fun ys => ys = [(0, 2), (0, 0), (0, 1)]) := by
    refine outOfPlace_transforms (Demo.mem_wf _ _) (Demo.mem_seg _ _) fun t p ht hp => ?_
    obtain ⟨s', h1, h2, h3⟩ := heapsort_three (lt := Demo.byFst) (p := p) (s := t) (a := (0, 0)) (b := (0, 1)) (c := (0, 2))
      (hp 0 (by decide)) (hp 1 (by decide)) (hp 2 (by decide)) rfl rfl rfl
    refine ⟨s', [(0, 2), (0, 0), (0, 1)], h1, rfl, ?_, rfl, ?_, ?_⟩
    · intro i hi
      rw [h2]
      have hi' : i < 3 := hi
      rcases (by omega : i = 0 ∨ i = 1 ∨ i = 2) with rfl | rfl | rfl <;> simp [setCell]
    · intro i hi
      have hl : Demo.ties.length = 3 := rfl
      rw [h2]; simp only [setCell]
      rw [if_neg (by omega), if_neg (by omega), if_neg (by omega)]
    · intro i hi
      rw [h2]; simp only [setCell]
      have hb : ∀ k, k < 3 → p + k < t.brk := by
        intro k hk
        by_contra hc
        have := ht (p + k) (by omega)
        rw [hp k hk] at this
        cases this
      have := hb 0 (by omega)
      have := hb 1 (by omega)
      have := hb 2 (by omega)
      rw [if_neg (by omega), if_neg (by omega), if_neg (by omega)]
      exact ht i (by omega)
  have h2 := h (Demo.mem 7 Demo.ties) 7 Demo.ties (Demo.mem_wf _ _) (Demo.mem_seg _ _)
  rw [e1] at h2
  obtain ⟨s1, y1, r1, l1, g1, rfl, _⟩ := h1
  obtain ⟨s2, y2, r2, l2, g2, ⟨_, _, so⟩, _⟩ := h2
  rw [r1] at r2
  injection r2 with r2; injection r2 with _ r2
  subst r2
  have ey : y2 = [(0, 2), (0, 0), (0, 1)] := by
    refine List.ext_getElem (by rw [l2, l1]) fun i h1 h2 => ?_
    have a1 := g1 i h2
    have a2 := g2 i h1
    rw [a1] at a2
    injection a2 with a2
    exact a2.symm
  have := so (0, 0)
  rw [ey] at this
  revert this
  decide

/-- C90 is false: `is_stable` declares `out_of_place_adapter<hybrid_adapter<insertion_sorter, heap_sorter>>`
to be stable when it is called with bidirectional iterators, because it asks for the stability of
`insertion_sorter`; but the elements are sorted by `heap_sorter`, in a buffer. -/
theorem C90_is_stable_false (env : Env) :
    ∃ e : Sorter, Plain env .bidirectional e ∧ e.cat.value ≤ Cat.bidirectional.value ∧ e.isStable .bidirectional = true ∧
      ¬ SortsStably Demo.byFst (e.run env .bidirectional (Nat × Nat) Demo.byFst) := by
  refine ⟨Demo.mixed, Demo.mixed_plain env _, by decide, ?_, Demo.mixed_not_stable env _⟩
  rw [Demo.mixed, Sorter.isStable, Sorter.isStable_hybrid Demo.mixed_bidirectional, Sorter.isStable,
    Leaf.alwaysStable]

/-- C90 is false: `stable_t` of it is not stable either. -/
theorem C90_stable_t_false (env : Env) :
    ∃ e : Sorter, (∀ c, Plain env c e) ∧ e.cat.value ≤ Cat.bidirectional.value ∧
      ¬ SortsStably Demo.byFst (e.stableT.run env .bidirectional (Nat × Nat) Demo.byFst) := by
  refine ⟨Demo.mixed, Demo.mixed_plain env, by decide, ?_⟩
  have e1 : Demo.mixed.stableT = .stable Demo.mixed := rfl
  have e2 : Demo.mixed.isStable .bidirectional = true := by
    rw [Demo.mixed, Sorter.isStable, Sorter.isStable_hybrid Demo.mixed_bidirectional, Sorter.isStable,
      Leaf.alwaysStable]
  rw [e1, Sorter.run_stable (by simp [Demo.mixed]) (by simp [Demo.mixed]) (by simp [Demo.mixed]), e2]
  exact Demo.mixed_not_stable env _

end CppSort
