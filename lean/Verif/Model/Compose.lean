import Verif.Model.Hybrid
import Verif.Model.Adapters
import Verif.Model.Heap
import Verif.Model.Poplar
import Verif.Model.Smooth
import Verif.Model.Quick
import Verif.Model.QuickMerge
import Verif.Model.Merge
import Verif.Model.Pdq
import Verif.Model.MergeInsertion
import Verif.Model.Tim
import Verif.Model.Spin
import Verif.Model.Splay
import Verif.Model.Cartesian
import Verif.Model.Mel
import Verif.Model.Slab
import Verif.Model.Grail
import Verif.Model.Wiki
import Verif.Model.Drop
import Verif.Model.Verge
/-
Compositions of sorters and adapters: the types `adapter<...<sorter>>`, their traits
(`iterator_category`, `is_always_stable`, `is_stable`), `stable_t`, and what a call does.

Only calls with a comparison function are modelled (a projection is part of the comparison, as in
the models of the sorters). The type-only sorters (ska, spread, counting), `small_array_adapter`,
`self_sort_adapter`, `container_aware_adapter` and `default_sorter`, which treat containers or arrays in
a special way, are not part of the compositions.
-/
set_option autoImplicit false

namespace CppSort

/-- The sorters of sorters/*.h that sort any type with any comparison. -/
inductive Leaf where
  | insertion | selection | heap | dAryHeap (D : Nat) | poplar | smooth | quick | quickMerge | merge
  | pdq | mergeInsertion | tim | adaptiveShivers | spin | splay | cartesianTree | mel | slab
  /-- `grail_sorter<utility::fixed_buffer<N>>` -/
  | grail (N : Nat)
  /-- `wiki_sorter<utility::fixed_buffer<N>>` -/
  | wiki (N : Nat)

/-- `iterator_category` of the sorters: adaptive_shivers_sorter.h 59, cartesian_tree_sorter.h 86,
d_ary_heap_sorter.h 60, grail_sorter.h 60, heap_sorter.h 59, insertion_sorter.h 59, mel_sorter.h 86,
merge_insertion_sorter.h 59, merge_sorter.h 86, pdq_sorter.h 59, poplar_sorter.h 59,
quick_merge_sorter.h 86, quick_sorter.h 86, selection_sorter.h 59, slab_sorter.h 86, smooth_sorter.h 59,
spin_sorter.h 59, splay_sorter.h 85, tim_sorter.h 59, wiki_sorter.h 61. -/
def Leaf.cat : Leaf → Cat
  | .insertion | .slab => .bidirectional
  | .selection | .quick | .quickMerge | .merge | .splay | .cartesianTree | .mel => .forward
  | .heap | .dAryHeap _ | .poplar | .smooth | .pdq | .mergeInsertion | .tim | .adaptiveShivers | .spin
  | .grail _ | .wiki _ => .random

/-- `is_always_stable` of the sorters: the lines that follow those of `Leaf.cat`. -/
def Leaf.alwaysStable : Leaf → Bool
  | .insertion | .merge | .tim | .adaptiveShivers | .splay | .grail _ | .wiki _ => true
  | .selection | .heap | .dAryHeap _ | .poplar | .smooth | .quick | .quickMerge | .pdq | .mergeInsertion
  | .spin | .cartesianTree | .mel | .slab => false

/-- A sorter type. -/
inductive Sorter where
  | leaf (l : Leaf)
  /-- `drop_merge_adapter<Sorter>` -/
  | dropMerge (e : Sorter)
  /-- `split_adapter<Sorter>` -/
  | split (e : Sorter)
  /-- `verge_adapter<Sorter>` -/
  | verge (e : Sorter)
  /-- `indirect_adapter<Sorter>` -/
  | indirect (e : Sorter)
  /-- `out_of_place_adapter<Sorter>` -/
  | outOfPlace (e : Sorter)
  /-- `schwartz_adapter<Sorter>` -/
  | schwartz (e : Sorter)
  /-- `counting_adapter<Sorter>` -/
  | counting (e : Sorter)
  /-- `make_stable<Sorter>` -/
  | makeStable (e : Sorter)
  /-- `stable_adapter<Sorter>` -/
  | stable (e : Sorter)
  /-- `hybrid_adapter<Sorters...>` -/
  | hybrid (es : List Sorter)

namespace Sorter

mutual
/-- A measure for the recursive definitions: `stable_adapter` may double the size of the type. -/
def size : Sorter → Nat
  | leaf _ => 1
  | dropMerge e | split e | verge e | indirect e | outOfPlace e | schwartz e | counting e
  | makeStable e => size e + 1
  | stable e => 2 * size e + 1
  | hybrid es => sizes es + 1
/-- See `size`. -/
def sizes : List Sorter → Nat
  | [] => 0
  | e :: es => size e + 1 + sizes es
end

mutual
/-- `iterator_category` of a sorter type: drop_merge_adapter.h 67, split_adapter.h 67 and verge_adapter.h
94 (`bidir_at_best_tag`, sorter_traits.h 271-298), indirect_adapter.h 199, out_of_place_adapter.h 103,
schwartz_adapter.h 101, counting_adapter.h 40, stable_adapter.h 123 and 193 (for the specializations:
verge_adapter.h 110-119, stable_adapter_hybrid_adapter.h 18-19 where `stable_t` does not change the
categories), hybrid_adapter.h 223 (checkers.h 21-40). The empty `hybrid_adapter` has no category (random
access stands for it): it accepts no call. -/
def cat : Sorter → Cat
  | leaf l => l.cat
  | dropMerge _ => .bidirectional
  | split e | verge e => if Cat.bidirectional.value ≤ e.cat.value then e.cat else .bidirectional
  | indirect _ | outOfPlace _ => .forward
  | schwartz e | counting e | makeStable e | stable e => e.cat
  | hybrid es => cats es
/-- The common type of the categories (checkers.h 21-40). -/
def cats : List Sorter → Cat
  | [] => .random
  | e :: es => e.cat.common (cats es)
end

mutual
/-- `is_always_stable` of a sorter type: drop_merge_adapter.h 68, split_adapter.h 68, verge_adapter.h 95
(with `Stable` = `false`), indirect_adapter.h 144, out_of_place_adapter.h 64, schwartz_adapter.h 102,
counting_adapter.h 41, stable_adapter.h 168 and 241-248, hybrid_adapter.h 224 (checkers.h 42-62). -/
def alwaysStable : Sorter → Bool
  | leaf l => l.alwaysStable
  | dropMerge _ | split _ | verge _ => false
  | indirect e | outOfPlace e | schwartz e | counting e => e.alwaysStable
  | makeStable _ | stable _ => true
  | hybrid es => allAlwaysStable es
/-- `check_is_always_stable` (checkers.h 42-62). -/
def allAlwaysStable : List Sorter → Bool
  | [] => true
  | e :: es => e.alwaysStable && allAlwaysStable es
end

mutual
/-- The arguments of a `hybrid_adapter`, as `flatten_fold` (hybrid_adapter.h 303-338) sees them: only
specializations of `hybrid_adapter` itself are flattened. -/
def toNest : Sorter → Nest Sorter
  | hybrid es => .hybrid (toNests es)
  | e => .sorter e
/-- See `toNest`. -/
def toNests : List Sorter → List (Nest Sorter)
  | [] => []
  | e :: es => e.toNest :: toNests es
end

/-- The sorter that a call of `hybrid_adapter<es...>` with iterators of category `c` reaches: see
`hybridAdapterCall`. Every sorter accepts the other arguments (a comparison function). -/
def chosen (c : Cat) (es : List Sorter) : Option Sorter :=
  hybridAdapterCall cat (fun _ => true) c (toNests es)

/-- `stable_t_impl_type_or<stable_adapter<e>>::type` (stable_adapter.h 254-264): the member `type` of
stable_adapter.h 234-238 and 327, which the specializations for `hybrid_adapter`
(stable_adapter_hybrid_adapter.h 17-49) and `verge_adapter` (verge_adapter.h 110-119) do not have. -/
def stableType : Sorter → Sorter
  | stable e => stableType e
  | hybrid es => stable (hybrid es)
  | verge e => stable (verge e)
  | e => if e.alwaysStable then e else stable e

/-- `stable_t` (stable_adapter.h 266-309). -/
def stableT (e : Sorter) : Sorter :=
  if e.alwaysStable then
    match e with
    | stable e' => stableType e'
    | e => e
  else stableType e

theorem size_pos : ∀ e : Sorter, 0 < size e := by
  intro e; cases e <;> simp only [size] <;> omega

theorem size_stableType : ∀ e : Sorter, size (stableType e) ≤ 2 * size e + 1
  | stable e => by
    have := size_stableType e
    simp only [stableType, size]; omega
  | hybrid es => by simp only [stableType, size]; omega
  | verge e => by simp only [stableType, size]; omega
  | leaf l => by simp only [stableType]; split <;> simp only [size] <;> omega
  | dropMerge e | split e | indirect e | outOfPlace e | schwartz e | counting e | makeStable e => by
    simp only [stableType]; split <;> simp only [size] <;> omega

theorem size_stableT (e : Sorter) : size (stableT e) ≤ 2 * size e + 1 := by
  unfold stableT
  split
  · split
    · rename_i e' _
      have := size_stableType e'
      simp only [size]; omega
    · omega
  · exact size_stableType e

theorem sizes_stableT : ∀ es : List Sorter, sizes (es.map stableT) ≤ 2 * sizes es
  | [] => by simp [sizes]
  | e :: es => by
    have := size_stableT e
    have := sizes_stableT es
    simp only [List.map_cons, sizes]; omega

mutual
theorem size_toNest : ∀ (e : Sorter), ∀ x ∈ (toNest e).flatTuple, size x ≤ size e
  | hybrid es, x, h => by
    rw [toNest, Nest.flatTuple] at h
    have := size_toNests es x h
    simp only [size]; omega
  | leaf _, x, h | dropMerge _, x, h | split _, x, h | verge _, x, h | indirect _, x, h
  | outOfPlace _, x, h | schwartz _, x, h | counting _, x, h | makeStable _, x, h | stable _, x, h => by
    simp only [toNest, Nest.flatTuple, List.mem_singleton] at h
    subst h; exact Nat.le_refl _
theorem size_toNests : ∀ (es : List Sorter), ∀ x ∈ Nest.flatTuples (toNests es), size x + 1 ≤ sizes es
  | [], x, h => by simp [toNests, Nest.flatTuples] at h
  | e :: es, x, h => by
    rw [toNests, Nest.flatTuples, List.mem_append] at h
    rw [sizes]
    rcases h with h | h
    · have := size_toNest e x h; omega
    · have := size_toNests es x h; omega
end

theorem flattenFold_flatTuples {σ : Type} (ts : List (Nest σ)) (acc : List σ) :
    flattenFold ts acc = acc ++ Nest.flatTuples ts := by
  have happ : ∀ ts us : List (Nest σ), Nest.flatTuples (ts ++ us) = Nest.flatTuples ts ++ Nest.flatTuples us := by
    intro ts us
    induction ts with
    | nil => simp [Nest.flatTuples]
    | cons t ts ih => rw [List.cons_append, Nest.flatTuples, Nest.flatTuples, ih, List.append_assoc]
  induction ts, acc using flattenFold.induct with
  | case1 acc => simp [flattenFold, Nest.flatTuples]
  | case2 acc inner rest ih => rw [flattenFold, ih, happ, Nest.flatTuples, Nest.flatTuple]
  | case3 acc s rest ih => rw [flattenFold, ih, Nest.flatTuples, Nest.flatTuple, List.append_assoc]

theorem resolve_mem {σ : Type} {inv : σ → Bool} {m : Nat} {ls : List (Nat × σ)} {x : σ}
    (h : resolve inv m ls = some x) : ∃ l ∈ ls, l.2 = x ∧ l.1 ≤ m := by
  unfold resolve at h
  dsimp only at h
  split at h
  · rename_i l e
    have hm : l ∈ [l] := by simp
    rw [← e, List.mem_filter, List.mem_filter] at hm
    refine ⟨l, hm.1.1, by injection h, ?_⟩
    have := hm.1.2
    simp only [Bool.and_eq_true, decide_eq_true_eq] at this
    exact this.1
  · simp at h

theorem hybridLeaves_snd {σ : Type} {cat : σ → Cat} {n : Nat} : ∀ (ss : List σ) (i : Nat) (l : Nat × σ),
    l ∈ hybridLeaves cat n i ss → l.2 ∈ ss
  | [], i, l, h => by simp [hybridLeaves] at h
  | s :: ss, i, l, h => by
    rw [hybridLeaves, List.mem_cons] at h
    rcases h with rfl | h
    · simp
    · exact List.mem_cons_of_mem _ (hybridLeaves_snd ss _ l h)

theorem chosen_mem {c : Cat} {es : List Sorter} {x : Sorter} (h : chosen c es = some x) :
    x ∈ Nest.flatTuples (toNests es) := by
  unfold chosen hybridAdapterCall hybridCall at h
  rw [flattenFold_flatTuples, List.nil_append] at h
  obtain ⟨l, hl, e, _⟩ := resolve_mem h
  have := hybridLeaves_snd _ _ _ hl
  rwa [e] at this

theorem size_chosen {c : Cat} {es : List Sorter} {x : Sorter} (h : chosen c es = some x) :
    size x < size (hybrid es) := by
  have := size_toNests es x (chosen_mem h)
  simp only [size]; omega

/-- `is_stable<e(It, It, Compare)>` for iterators of category `c` (sorter_traits.h 229-238;
indirect_adapter.h 217-220, out_of_place_adapter.h 109-112, schwartz_adapter.h 243-246,
counting_adapter.h 27-30, hybrid_adapter.h 102-108, 280-297, 408-412). A `hybrid_adapter` that cannot be
called has no such trait; `false` stands for it. -/
def isStable (c : Cat) : Sorter → Bool
  | leaf l => l.alwaysStable
  | dropMerge _ | split _ | verge _ => false
  | indirect e | outOfPlace e | schwartz e | counting e => isStable c e
  | makeStable _ | stable _ => true
  | hybrid es =>
    match h : chosen c es with
    | some e => isStable c e
    | none => false
termination_by e => size e
decreasing_by
  all_goals first
    | exact size_chosen h
    | (simp only [size]; omega)

end Sorter

/-- What the sorters find out about the types they are used with, and what is outside their control: see
the models of the sorters. The same answers are given for the elements and for the objects that the
adapters make the sorters sort (a simplification; the theorems hold for every environment). -/
structure Env where
  triv : Bool
  branchless : Bool
  uncaught : Bool
  bad : Nat → Nat → Bool
  traits : TypeTraits
  junk : Nat → Nat → Nat

/-- What a call of a sorter does (sorters/*.h: `operator()` forwards its arguments to the function of
detail/ that implements the algorithm; see the models of these functions). -/
def Leaf.run (env : Env) (c : Cat) {α : Type} (lt : α → α → Bool) : Leaf → Nat → Nat → M α Unit
  | .insertion => insertionSort (tick lt)
  | .selection => selectionSort (tick lt)
  | .heap => heapsort (tick lt)
  | .dAryHeap D => dAryHeapsort (tick lt) D
  | .poplar => poplarSort (tick lt)
  | .smooth => smoothsort (tick lt)
  | .quick => quicksort (tick lt) c
  | .quickMerge => quickMergeSort (tick lt) c
  | .merge => mergeSort (tick lt) ⟨c, env.triv⟩
  | .pdq => pdqsort (tick lt) env.branchless
  | .mergeInsertion => mergeInsertionSort (tick lt)
  | .tim => timsort (tick lt)
  | .adaptiveShivers => adaptiveShiversSort (tick lt)
  | .spin => spinsort (tick lt)
  | .splay => splaysort (tick lt)
  | .cartesianTree => cartesianTreeSort lt
  | .mel => melsort (tick lt) env.bad
  | .slab => slabsort lt ⟨c, env.triv⟩
  | .grail N => grailSort (tick lt) ⟨c, env.triv⟩ fun _ => N
  | .wiki N => wikiSort (tick lt) ⟨c, env.triv⟩ env.traits env.junk fun _ => N

namespace Sorter

/-- A call of `e(first, last, compare)` with iterators of category `c`, on elements of any type. The
adapters that sort objects in a buffer of their own call the sorter they adapt with random-access
iterators, whatever `c` is: drop_merge_sort.h 128, indirect_adapter.h 48-129 and indiesort.h 57-132,
out_of_place_adapter.h 33-61, stable_adapter.h 80-113 (associate_iterator.h 166 on the pointers of
immovable_vector.h 99-103). `split_adapter` (split_sort.h 61) and `verge_adapter` (vergesort.h) call it
with iterators of the range. `schwartz_adapter` without a projection (schwartz_adapter.h 134-182) and
`counting_adapter` call it directly. `stable_adapter` and its specializations: stable_adapter.h 186-248,
317-328, verge_adapter.h 110-119 (vergesort.h 501-513), stable_adapter_hybrid_adapter.h 17-49. A
`hybrid_adapter` with no suitable sorter does not compile: an error stands for it. -/
def run (env : Env) (c : Cat) : (e : Sorter) → (α : Type) → (α → α → Bool) → Nat → Nat → M α Unit
  | leaf l, _, lt => l.run env c lt
  | dropMerge e, α, lt => dropMergeSort (tick lt) env.triv (run env .random e α lt)
  | split e, α, lt => splitSort (tick lt) ⟨c, env.triv⟩ (run env c e α lt)
  | verge e, α, lt =>
    match c with
    | .random => vergesortRandom (tick lt) ⟨.random, env.triv⟩ (run env .random e α lt) false
    | c => fun first last => vergesortBi (tick lt) ⟨c, env.triv⟩ (fun f l _ => run env c e α lt f l) false
        first last (last - first)
  | indirect e, α, lt =>
    indirectAdapter (decide (c = .random)) env.uncaught (run env .random e (α × Nat) (indirectLt lt))
  | outOfPlace e, α, lt => CppSort.outOfPlace (run env .random e α lt)
  | schwartz e, α, lt => run env c e α lt
  | counting e, α, lt => run env c e α lt
  | makeStable e, α, lt => CppSort.makeStable (run env .random e (α × Nat) (stableLt lt))
  | stable (stable e), α, lt => run env c (stable e) α lt
  | stable (hybrid es), α, lt => run env c (hybrid (es.map stableT)) α lt
  | stable (verge e), α, lt =>
    match c with
    | .random => vergesortRandom (tick lt) ⟨.random, env.triv⟩ (run env .random (stableT e) α lt) true
    | c => fun first last => vergesortBi (tick lt) ⟨c, env.triv⟩
        (fun f l _ => run env c (stableT e) α lt f l) true first last (last - first)
  | stable e, α, lt =>
    stableAdapter (isStable c e) (run env c e α lt) (run env .random e (α × Nat) (stableLt lt))
  | hybrid es, α, lt =>
    match h : chosen c es with
    | some e => run env c e α lt
    | none => fun _ _ => fail .deref
termination_by e => size e
decreasing_by
  all_goals first
    | exact size_chosen h
    | (simp only [size]; have := sizes_stableT es; omega)
    | (simp only [size]; have := size_stableT e; omega)
    | (simp only [size]; omega)

end Sorter
end CppSort
