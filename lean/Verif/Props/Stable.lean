import Verif.Props.Simple
import Verif.Props.Merge
/-
C39, C40: consequences of the specification: stable sorters agree, projections.
-/
set_option autoImplicit false

namespace CppSort
variable {α : Type} {lt : α → α → Bool}

/-- C39: two stable sorters, each run on some memory holding `xs`, leave the same sequence. -/
theorem C39_stable_sorters_agree (hlt : StrictWeak lt) {sort₁ sort₂ : Nat → Nat → M α Unit}
    (h₁ : SortsStably lt sort₁) (h₂ : SortsStably lt sort₂) (xs : List α) (s₁ s₂ : St α)
    (f₁ f₂ : Nat) (w₁ : s₁.WF) (w₂ : s₂.WF) (g₁ : Seg s₁.cell f₁ xs) (g₂ : Seg s₂.cell f₂ xs) :
    ∃ ys, Transforms (sort₁ f₁ (f₁ + xs.length)) s₁ f₁ xs (· = ys) ∧
      Transforms (sort₂ f₂ (f₂ + xs.length)) s₂ f₂ xs (· = ys) := by
  obtain ⟨s₁', ys, a1, a2, a3, ⟨a4, a5, a6⟩, a7, a8⟩ := h₁ s₁ f₁ xs w₁ g₁
  obtain ⟨s₂', zs, b1, b2, b3, ⟨b4, b5, b6⟩, b7, b8⟩ := h₂ s₂ f₂ xs w₂ g₂
  have : zs = ys := SSorted.unique hlt (b4.trans a4.symm) b5 a5 (fun x => by rw [b6 x, a6 x])
  subst this
  exact ⟨zs, ⟨s₁', zs, a1, a2, a3, rfl, a7, a8⟩, ⟨s₂', zs, b1, b2, b3, rfl, b7, b8⟩⟩

example : ∃ ys, Transforms (insertionSort (tick Demo.byFst) 7 12) (Demo.mem 7 Demo.pairs) 7
      Demo.pairs (· = ys) ∧
    Transforms (mergeSort (tick Demo.byFst) ⟨.random, false⟩ 20 25) (Demo.mem 20 Demo.pairs) 20
      Demo.pairs (· = ys) :=
  C39_stable_sorters_agree Demo.byFst_sw (C01_insertion_sorter Demo.byFst_sw)
    (C09_merge_sorter_partial Demo.byFst_sw ⟨.random, false⟩ (by simp)) Demo.pairs _ _ 7 20
    (Demo.mem_wf _ _) (Demo.mem_wf _ _) (Demo.mem_seg _ _) (Demo.mem_seg _ _)

/-- Models `projection_compare::operator()` (comparators/projection_compare.h, lines 47-50), used by
`sorter_facade` for sorters without projection support (sorter_facade.h, lines 1017-1045); the sorters
that take a projection evaluate the same expression `comp(proj(x), proj(y))` at each comparison. -/
def projectionCompare {β : Type} (comp : β → β → Bool) (proj : α → β) (x y : α) : Bool :=
  comp (proj x) (proj y)

/-- C40: the composed relation is a strict weak order when `comp` is. -/
theorem C40_projection_compare_strict_weak {β : Type} {comp : β → β → Bool} (h : StrictWeak comp)
    (proj : α → β) : StrictWeak (projectionCompare comp proj) :=
  ⟨fun x => h.irrefl (proj x), fun x y z => h.trans (proj x) (proj y) (proj z),
   fun x y z => h.equiv_trans (proj x) (proj y) (proj z)⟩

/-- C40: sorting with the composed comparator leaves a permutation whose projections are sorted by
`comp`, for any sorter that sorts with every strict weak order. -/
theorem C40_projection {β : Type} {comp : β → β → Bool} (h : StrictWeak comp) (proj : α → β)
    (sorter : (α → α → M α Bool) → Nat → Nat → M α Unit)
    (hs : ∀ lt : α → α → Bool, StrictWeak lt → Sorts lt (sorter (tick lt)))
    (s : St α) (first : Nat) (xs : List α) (hw : s.WF) (hseg : Seg s.cell first xs) :
    Transforms (sorter (tick (projectionCompare comp proj)) first (first + xs.length)) s first xs
      (fun ys => ys.Perm xs ∧ SortedList comp (ys.map proj)) := by
  obtain ⟨s', ys, a1, a2, a3, ⟨a4, a5⟩, a7, a8⟩ :=
    hs _ (C40_projection_compare_strict_weak h proj) s first xs hw hseg
  exact ⟨s', ys, a1, a2, a3, ⟨a4, List.pairwise_map.2 a5⟩, a7, a8⟩

example : Transforms (insertionSort (tick (projectionCompare Demo.natLt Prod.fst)) 7 12)
    (Demo.mem 7 Demo.pairs) 7 Demo.pairs
    (fun ys => ys.Perm Demo.pairs ∧ SortedList Demo.natLt (ys.map Prod.fst)) :=
  C40_projection Demo.natLt_sw Prod.fst (fun cmp => insertionSort cmp) (fun _ h => (C01_insertion_sorter h).sorts)
    _ 7 Demo.pairs (Demo.mem_wf _ _) (Demo.mem_seg _ _)

/-- C40, stable sorters: moreover elements with equivalent projections keep their order. -/
theorem C40_projection_stable {β : Type} {comp : β → β → Bool} (h : StrictWeak comp) (proj : α → β)
    (sorter : (α → α → M α Bool) → Nat → Nat → M α Unit)
    (hs : ∀ lt : α → α → Bool, StrictWeak lt → SortsStably lt (sorter (tick lt)))
    (s : St α) (first : Nat) (xs : List α) (hw : s.WF) (hseg : Seg s.cell first xs) :
    Transforms (sorter (tick (projectionCompare comp proj)) first (first + xs.length)) s first xs
      (fun ys => ys.Perm xs ∧ SortedList comp (ys.map proj) ∧
        ∀ x, ys.filter (fun y => eqv comp (proj x) (proj y)) =
          xs.filter (fun y => eqv comp (proj x) (proj y))) := by
  obtain ⟨s', ys, a1, a2, a3, ⟨a4, a5, a6⟩, a7, a8⟩ :=
    hs _ (C40_projection_compare_strict_weak h proj) s first xs hw hseg
  exact ⟨s', ys, a1, a2, a3, ⟨a4, List.pairwise_map.2 a5, a6⟩, a7, a8⟩

example : Transforms (insertionSort (tick (projectionCompare Demo.natLt Prod.fst)) 7 12)
    (Demo.mem 7 Demo.pairs) 7 Demo.pairs
    (fun ys => ys.Perm Demo.pairs ∧ SortedList Demo.natLt (ys.map Prod.fst) ∧
      ∀ x : Nat × Nat, ys.filter (fun y => eqv Demo.natLt x.1 y.1) =
        Demo.pairs.filter (fun y => eqv Demo.natLt x.1 y.1)) :=
  C40_projection_stable Demo.natLt_sw Prod.fst (fun cmp => insertionSort cmp)
    (fun _ h => C01_insertion_sorter h) _ 7 Demo.pairs (Demo.mem_wf _ _) (Demo.mem_seg _ _)

end CppSort
