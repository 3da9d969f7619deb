import Verif.Model.Compose
import Verif.Props.Simple
import Verif.Props.Poplar
import Verif.Props.Quick
import Verif.Props.Merge
import Verif.Props.Pdq
import Verif.Props.MergeInsertion
import Verif.Props.Tim
import Verif.Props.Splay
import Verif.Props.Cartesian
import Verif.Props.Mel
import Verif.Props.Slab
import Verif.Props.Grail
import Verif.Props.Wiki
import Verif.Props.Drop
import Verif.Props.Adapters
import Verif.Props.Hybrid
/-
Compositions of sorters and adapters: by induction on the type of the sorter.
-/
set_option autoImplicit false

namespace CppSort
variable {α : Type}

/-- The sorters which are correct when they are called with iterators of category `c`: see C01 to C18, C61
and C62. -/
def Leaf.Plain (env : Env) (c : Cat) (l : Leaf) : Prop :=
  match l with
  | .merge => c ≠ .forward
  | .dAryHeap D => 2 ≤ D
  | .smooth | .spin => False
  | .grail N => N ≠ 1
  | .wiki N => env.traits.trivDtor = true ∨ N ≤ 4
  | _ => True

/-- The compositions without a part that is known not to be correct, when they are called with iterators of
category `c`: no `smooth_sorter`, `spin_sorter`, `verge_adapter`, no `merge_sorter` called with forward
iterators, no empty `hybrid_adapter`, and the parameters of C04, C61 and C62. -/
inductive Plain (env : Env) : Cat → Sorter → Prop
  | leaf {c l} : l.Plain env c → Plain env c (.leaf l)
  | dropMerge {c e} : Plain env .random e → Plain env c (.dropMerge e)
  | split {c e} : Plain env c e → Plain env c (.split e)
  | indirect {c e} : Plain env .random e → Plain env c (.indirect e)
  | outOfPlace {c e} : Plain env .random e → Plain env c (.outOfPlace e)
  | schwartz {c e} : Plain env c e → Plain env c (.schwartz e)
  | counting {c e} : Plain env c e → Plain env c (.counting e)
  | makeStable {c e} : Plain env .random e → Plain env c (.makeStable e)
  | stable {c e} : Plain env c e → Plain env .random e → Plain env c (.stable e)
  | hybrid {c es} : es ≠ [] → (∀ e ∈ es, Plain env c e) → Plain env c (.hybrid es)

/-- The calls of the sorters which are correct. -/
def Leaf.Good (env : Env) (c : Cat) (l : Leaf) : Prop := l.cat.value ≤ c.value ∧ l.Plain env c

/-- The calls that the proof is about: moreover, every call of an adapted sorter is made with iterators that it
accepts. -/
inductive Good (env : Env) : Cat → Sorter → Prop
  | leaf {c l} : l.Good env c → Good env c (.leaf l)
  | dropMerge {c e} : c ≠ .forward → Good env .random e → Good env c (.dropMerge e)
  | split {c e} : c ≠ .forward → Good env c e → Good env c (.split e)
  | indirect {c e} : Good env .random e → Good env c (.indirect e)
  | outOfPlace {c e} : Good env .random e → Good env c (.outOfPlace e)
  | schwartz {c e} : Good env c e → Good env c (.schwartz e)
  | counting {c e} : Good env c e → Good env c (.counting e)
  | makeStable {c e} : Good env .random e → Good env c (.makeStable e)
  | stable {c e} : Good env c e → Good env .random e → Good env c (.stable e)
  | hybrid {c es} : (∃ e ∈ es, e.cat.value ≤ c.value) →
      (∀ e ∈ es, e.cat.value ≤ c.value → Good env c e) → Good env c (.hybrid es)

/-- The stability of the sorters adapted by `indirect_adapter` and `out_of_place_adapter` does not get
lost when they are called with random-access iterators. -/
inductive Steady : Cat → Sorter → Prop
  | leaf {c l} : Steady c (.leaf l)
  | dropMerge {c e} : Steady c (.dropMerge e)
  | split {c e} : Steady c (.split e)
  | verge {c e} : Steady c e → Steady c (.verge e)
  | indirect {c e} : (e.isStable c = true → e.isStable .random = true) → Steady .random e →
      Steady c (.indirect e)
  | outOfPlace {c e} : (e.isStable c = true → e.isStable .random = true) → Steady .random e →
      Steady c (.outOfPlace e)
  | schwartz {c e} : Steady c e → Steady c (.schwartz e)
  | counting {c e} : Steady c e → Steady c (.counting e)
  | makeStable {c e} : Steady c (.makeStable e)
  | stable {c e} : Steady c e → Steady c (.stable e)
  | hybrid {c es} : (∀ e ∈ es, Steady c e) → Steady c (.hybrid es)

namespace Sorter

mutual
theorem steady_random : ∀ e : Sorter, Steady .random e
  | leaf _ => .leaf
  | dropMerge _ => .dropMerge
  | split _ => .split
  | verge e => .verge (steady_random e)
  | indirect e => .indirect id (steady_random e)
  | outOfPlace e => .outOfPlace id (steady_random e)
  | schwartz e => .schwartz (steady_random e)
  | counting e => .counting (steady_random e)
  | makeStable _ => .makeStable
  | stable e => .stable (steady_random e)
  | hybrid es => .hybrid (steady_randoms es)
theorem steady_randoms : ∀ (es : List Sorter), ∀ e ∈ es, Steady .random e
  | [], e, h => by simp at h
  | e' :: es, e, h => by
    rcases List.mem_cons.1 h with h | h
    · exact h ▸ steady_random e'
    · exact steady_randoms es e h
end

theorem value_le_random (c : Cat) : c.value ≤ Cat.random.value := Nat.le_of_lt_succ (Cat.value_lt c)

theorem cats_exists {c : Cat} : ∀ es : List Sorter, es ≠ [] → (cats es).value ≤ c.value →
    ∃ e ∈ es, e.cat.value ≤ c.value
  | [], h, _ => (h rfl).elim
  | [e], _, h => by
    refine ⟨e, by simp, ?_⟩
    rw [cats, cats, Cat.common] at h
    rwa [if_pos (value_le_random _)] at h
  | e :: e' :: es, _, h => by
    rw [cats, Cat.common] at h
    split at h
    · exact ⟨e, by simp, h⟩
    · obtain ⟨x, hx, hc⟩ := cats_exists (e' :: es) (by simp) h
      exact ⟨x, List.mem_cons_of_mem _ hx, hc⟩

theorem good_of_plain {env : Env} {c : Cat} {e : Sorter} (h : Plain env c e) (hc : e.cat.value ≤ c.value) :
    Good env c e := by
  induction h with
  | leaf h => exact .leaf ⟨hc, h⟩
  | dropMerge h ih =>
    refine .dropMerge ?_ (ih (value_le_random _))
    rintro rfl; simp [cat, Cat.value] at hc
  | @split c e h ih =>
    rw [cat] at hc
    split at hc
    · refine .split ?_ (ih hc)
      rintro rfl; rename_i h'
      simp only [Cat.value] at h' hc; omega
    · rename_i h'
      refine .split ?_ (ih (by omega))
      rintro rfl; simp [Cat.value] at hc
  | indirect h ih => exact .indirect (ih (value_le_random _))
  | outOfPlace h ih => exact .outOfPlace (ih (value_le_random _))
  | schwartz h ih => exact .schwartz (ih (by rwa [cat] at hc))
  | counting h ih => exact .counting (ih (by rwa [cat] at hc))
  | makeStable h ih => exact .makeStable (ih (value_le_random _))
  | stable h h' ih ih' => exact .stable (ih (by rwa [cat] at hc)) (ih' (value_le_random _))
  | hybrid hne h ih =>
    rw [cat] at hc
    exact .hybrid (cats_exists _ hne hc) fun e he hec => ih e he hec

theorem common_le (a b : Cat) : (a.common b).value ≤ a.value ∧ (a.common b).value ≤ b.value := by
  cases a <;> cases b <;> decide

/-! ### `stable_t` -/

theorem cat_stableType : ∀ e : Sorter, (stableType e).cat = e.cat
  | stable e => by rw [stableType, cat_stableType e, cat]
  | hybrid es => by rw [stableType, cat]
  | verge e => by simp only [stableType, cat]
  | leaf l => by simp only [stableType]; split <;> simp only [cat]
  | dropMerge e | split e | indirect e | outOfPlace e | schwartz e | counting e | makeStable e => by
    simp only [stableType]; split <;> simp only [cat]

theorem cat_stableT (e : Sorter) : (stableT e).cat = e.cat := by
  unfold stableT
  split
  · split
    · rw [cat_stableType, cat]
    · rfl
  · exact cat_stableType e

theorem alwaysStable_stableType : ∀ e : Sorter, (stableType e).alwaysStable = true
  | stable e => by rw [stableType, alwaysStable_stableType e]
  | hybrid es => by rw [stableType, alwaysStable]
  | verge e => by rw [stableType, alwaysStable]
  | leaf l => by
    simp only [stableType]; split
    · assumption
    · rfl
  | dropMerge e | split e | indirect e | outOfPlace e | schwartz e | counting e | makeStable e => by
    simp only [stableType]; split
    · assumption
    · simp only [alwaysStable]

theorem alwaysStable_stableT (e : Sorter) : (stableT e).alwaysStable = true := by
  unfold stableT
  split
  · split
    · exact alwaysStable_stableType _
    · assumption
  · exact alwaysStable_stableType e

variable {env : Env} {c : Cat}

theorem good_stableType : ∀ e : Sorter, Good env c e → Good env .random e → Good env c (stableType e)
  | stable e, h, h' => by
    cases h with
    | stable h1 h2 => exact good_stableType e h1 h2
  | hybrid es, h, h' => .stable h h'
  | verge e, h, h' => .stable h h'
  | leaf l, h, h' => by simp only [stableType]; split; exacts [h, .stable h h']
  | dropMerge e, h, h' | split e, h, h' | indirect e, h, h' | outOfPlace e, h, h' | schwartz e, h, h'
  | counting e, h, h' | makeStable e, h, h' => by
    simp only [stableType]; split; exacts [h, .stable h h']

theorem good_stableT {e : Sorter} (h : Good env c e) (h' : Good env .random e) : Good env c (stableT e) := by
  unfold stableT
  split
  · split
    · cases h with
      | stable h1 h2 => exact good_stableType _ h1 h2
    · exact h
  · exact good_stableType e h h'

theorem steady_stableType : ∀ e : Sorter, Steady c e → Steady c (stableType e)
  | stable e, h => by
    cases h with
    | stable h1 => exact steady_stableType e h1
  | hybrid es, h => .stable h
  | verge e, h => .stable h
  | leaf l, h => by simp only [stableType]; split; exacts [h, .stable h]
  | dropMerge e, h | split e, h | indirect e, h | outOfPlace e, h | schwartz e, h
  | counting e, h | makeStable e, h => by
    simp only [stableType]; split; exacts [h, .stable h]

theorem steady_stableT {e : Sorter} (h : Steady c e) : Steady c (stableT e) := by
  unfold stableT
  split
  · split
    · cases h with
      | stable h1 => exact steady_stableType _ h1
    · exact h
  · exact steady_stableType e h

/-! ### `hybrid_adapter` -/

mutual
theorem leaf_cat : ∀ (e : Sorter), ∀ x ∈ (toNest e).flatTuple, e.cat.value ≤ x.cat.value
  | hybrid es, x, h => by
    rw [toNest, Nest.flatTuple] at h
    rw [cat]; exact leaf_cats es x h
  | leaf _, x, h | dropMerge _, x, h | split _, x, h | verge _, x, h | indirect _, x, h
  | outOfPlace _, x, h | schwartz _, x, h | counting _, x, h | makeStable _, x, h | stable _, x, h => by
    simp only [toNest, Nest.flatTuple, List.mem_singleton] at h
    subst h; exact Nat.le_refl _
theorem leaf_cats : ∀ (es : List Sorter), ∀ x ∈ Nest.flatTuples (toNests es), (cats es).value ≤ x.cat.value
  | [], x, h => by simp [toNests, Nest.flatTuples] at h
  | e :: es, x, h => by
    rw [toNests, Nest.flatTuples, List.mem_append] at h
    rw [cats]
    have := common_le e.cat (cats es)
    rcases h with h | h
    · have := leaf_cat e x h; omega
    · have := leaf_cats es x h; omega
end

mutual
theorem leaf_good : ∀ (e : Sorter), Good env c e → ∀ x ∈ (toNest e).flatTuple, x.cat.value ≤ c.value → Good env c x
  | hybrid es, hg, x, h, hx => by
    rw [toNest, Nest.flatTuple] at h
    cases hg with
    | hybrid _ hg => exact leaf_goods es hg x h hx
  | leaf _, hg, x, h, _ | dropMerge _, hg, x, h, _ | split _, hg, x, h, _ | verge _, hg, x, h, _
  | indirect _, hg, x, h, _ | outOfPlace _, hg, x, h, _ | schwartz _, hg, x, h, _ | counting _, hg, x, h, _
  | makeStable _, hg, x, h, _ | stable _, hg, x, h, _ => by
    simp only [toNest, Nest.flatTuple, List.mem_singleton] at h
    subst h; exact hg
theorem leaf_goods : ∀ (es : List Sorter), (∀ e ∈ es, e.cat.value ≤ c.value → Good env c e) →
    ∀ x ∈ Nest.flatTuples (toNests es), x.cat.value ≤ c.value → Good env c x
  | [], _, x, h, _ => by simp [toNests, Nest.flatTuples] at h
  | e :: es, hg, x, h, hx => by
    rw [toNests, Nest.flatTuples, List.mem_append] at h
    rcases h with h | h
    · exact leaf_good e (hg e (by simp) (by have := leaf_cat e x h; omega)) x h hx
    · exact leaf_goods es (fun e he => hg e (List.mem_cons_of_mem _ he)) x h hx
end

mutual
theorem leaf_exists : ∀ (e : Sorter), e.cat.value ≤ c.value → Good env c e →
    ∃ x ∈ (toNest e).flatTuple, x.cat.value ≤ c.value
  | hybrid es, _, hg => by
    rw [toNest, Nest.flatTuple]
    cases hg with
    | hybrid h1 h2 => exact leaf_exists' es h1 h2
  | leaf _, hc, hg | dropMerge _, hc, hg | split _, hc, hg | verge _, hc, hg
  | indirect _, hc, hg | outOfPlace _, hc, hg | schwartz _, hc, hg | counting _, hc, hg
  | makeStable _, hc, hg | stable _, hc, hg => by
    simp only [toNest, Nest.flatTuple, List.mem_singleton]
    exact ⟨_, rfl, hc⟩
theorem leaf_exists' : ∀ (es : List Sorter), (∃ e ∈ es, e.cat.value ≤ c.value) →
    (∀ e ∈ es, e.cat.value ≤ c.value → Good env c e) →
    ∃ x ∈ Nest.flatTuples (toNests es), x.cat.value ≤ c.value
  | [], h, _ => by obtain ⟨e, h, _⟩ := h; simp at h
  | e :: es, h, hg => by
    rw [toNests, Nest.flatTuples]
    obtain ⟨e', he', hc⟩ := h
    rcases List.mem_cons.1 he' with he' | he'
    · rw [he'] at hc
      obtain ⟨x, hx, h⟩ := leaf_exists e hc (hg e (by simp) hc)
      exact ⟨x, List.mem_append_left _ hx, h⟩
    · obtain ⟨x, hx, h⟩ := leaf_exists' es ⟨e', he', hc⟩ (fun e he => hg e (List.mem_cons_of_mem _ he))
      exact ⟨x, List.mem_append_right _ hx, h⟩
end

mutual
theorem leaf_steady : ∀ (e : Sorter), Steady c e → ∀ x ∈ (toNest e).flatTuple, Steady c x
  | hybrid es, hg, x, h => by
    rw [toNest, Nest.flatTuple] at h
    cases hg with
    | hybrid hg => exact leaf_steadys es hg x h
  | leaf _, hg, x, h | dropMerge _, hg, x, h | split _, hg, x, h | verge _, hg, x, h
  | indirect _, hg, x, h | outOfPlace _, hg, x, h | schwartz _, hg, x, h | counting _, hg, x, h
  | makeStable _, hg, x, h | stable _, hg, x, h => by
    simp only [toNest, Nest.flatTuple, List.mem_singleton] at h
    subst h; exact hg
theorem leaf_steadys : ∀ (es : List Sorter), (∀ e ∈ es, Steady c e) →
    ∀ x ∈ Nest.flatTuples (toNests es), Steady c x
  | [], _, x, h => by simp [toNests, Nest.flatTuples] at h
  | e :: es, hg, x, h => by
    rw [toNests, Nest.flatTuples, List.mem_append] at h
    rcases h with h | h
    · exact leaf_steady e (hg e (by simp)) x h
    · exact leaf_steadys es (fun e he => hg e (List.mem_cons_of_mem _ he)) x h
end

mutual
theorem leaf_stable : ∀ (e : Sorter), e.alwaysStable = true → ∀ x ∈ (toNest e).flatTuple, x.alwaysStable = true
  | hybrid es, hg, x, h => by
    rw [toNest, Nest.flatTuple] at h
    rw [alwaysStable] at hg
    exact leaf_stables es hg x h
  | leaf _, hg, x, h | dropMerge _, hg, x, h | split _, hg, x, h | verge _, hg, x, h
  | indirect _, hg, x, h | outOfPlace _, hg, x, h | schwartz _, hg, x, h | counting _, hg, x, h
  | makeStable _, hg, x, h | stable _, hg, x, h => by
    simp only [toNest, Nest.flatTuple, List.mem_singleton] at h
    subst h; exact hg
theorem leaf_stables : ∀ (es : List Sorter), allAlwaysStable es = true →
    ∀ x ∈ Nest.flatTuples (toNests es), x.alwaysStable = true
  | [], _, x, h => by simp [toNests, Nest.flatTuples] at h
  | e :: es, hg, x, h => by
    rw [allAlwaysStable, Bool.and_eq_true] at hg
    rw [toNests, Nest.flatTuples, List.mem_append] at h
    rcases h with h | h
    · exact leaf_stable e hg.1 x h
    · exact leaf_stables es hg.2 x h
end

theorem chosen_good {es : List Sorter} (h : Good env c (hybrid es)) :
    ∃ x, chosen c es = some x ∧ Good env c x := by
  cases h with
  | hybrid h1 h2 =>
    obtain ⟨y, hy, hc⟩ := leaf_exists' es h1 h2
    rw [Nest.flatTuples_eq] at hy
    obtain ⟨i, hi, e⟩ := C34_hybrid_dispatch cat (fun _ => true) c (toNests es) ⟨y, hy, rfl, hc⟩
    refine ⟨_, e, leaf_goods es h2 _ ?_ hi.accepts⟩
    rw [Nest.flatTuples_eq]; exact List.getElem_mem _

/-! ### The traits -/

theorem isStable_hybrid {es : List Sorter} {x : Sorter} (h : chosen c es = some x) :
    isStable c (hybrid es) = isStable c x := by
  rw [isStable]
  split
  · rename_i e he; rw [h] at he; injection he with he; rw [he]
  · rename_i he; rw [h] at he; cases he

theorem run_hybrid {es : List Sorter} {x : Sorter} (h : chosen c es = some x) :
    run env c (hybrid es) = run env c x := by
  funext α lt
  rw [run]
  split
  · rename_i e he; rw [h] at he; injection he with he; rw [he]
  · rename_i he; rw [h] at he; cases he

end Sorter

/-! ### The calls -/

theorem Leaf.run_ok [Inhabited α] {env : Env} {c : Cat} {lt : α → α → Bool} (hlt : StrictWeak lt) {l : Leaf}
    (h : l.Good env c) :
    Sorts lt (l.run env c lt) ∧ (l.alwaysStable = true → SortsStably lt (l.run env c lt)) := by
  have st : ∀ {f : Nat → Nat → M α Unit}, SortsStably lt f → Sorts lt f ∧ (l.alwaysStable = true → SortsStably lt f) :=
    fun h => ⟨h.sorts, fun _ => h⟩
  obtain ⟨_, h⟩ := h
  cases l with
  | insertion => exact st (C01_insertion_sorter hlt)
  | selection => exact ⟨C02_selection_sorter hlt, nofun⟩
  | heap => exact ⟨C03_heap_sorter hlt, nofun⟩
  | dAryHeap D => exact ⟨C04_d_ary_heap_sorter hlt D h, nofun⟩
  | poplar => exact ⟨C05_poplar_sorter hlt, nofun⟩
  | smooth => exact h.elim
  | quick => exact ⟨C07_quick_sorter hlt c, nofun⟩
  | quickMerge => exact ⟨C08_quick_merge_sorter hlt c, nofun⟩
  | merge => exact st (C09_merge_sorter_partial hlt _ h)
  | pdq => exact ⟨C10_pdq_sorter hlt _, nofun⟩
  | mergeInsertion => exact ⟨C11_merge_insertion_sorter hlt, nofun⟩
  | tim => exact st (C12_tim_sorter hlt)
  | adaptiveShivers => exact st (C13_adaptive_shivers_sorter hlt)
  | spin => exact h.elim
  | splay => exact st (C15_splay_sorter hlt)
  | cartesianTree => exact ⟨C16_cartesian_tree_sorter hlt, nofun⟩
  | mel => exact ⟨C17_mel_sorter hlt _, nofun⟩
  | slab => exact ⟨C18_slab_sorter hlt _, nofun⟩
  | grail N => exact st (C61_grail_sorter_partial hlt ⟨c, env.triv⟩ (size := fun _ => N) fun _ _ => h)
  | wiki N =>
    have h' : env.traits.trivDtor = true ∨ N ≤ 4 := h
    exact st (C62_wiki_sorter_partial hlt ⟨c, env.triv⟩ (t := env.traits) (size := fun _ => N)
      (h'.imp id fun h _ _ => h) env.junk)

namespace Sorter

/-- What is proved by induction. -/
def RunOk (env : Env) (e : Sorter) : Prop :=
  ∀ (c : Cat) (α : Type) [Inhabited α] (lt : α → α → Bool), StrictWeak lt → Good env c e →
    Sorts lt (run env c e α lt) ∧
    (Steady c e → isStable c e = true ∨ e.alwaysStable = true → SortsStably lt (run env c e α lt))

variable {env : Env}

theorem run_stable {e : Sorter} (h1 : ∀ e', e ≠ stable e') (h2 : ∀ es, e ≠ hybrid es) (h3 : ∀ e', e ≠ verge e')
    {c : Cat} {α : Type} {lt : α → α → Bool} : run env c (stable e) α lt =
      stableAdapter (isStable c e) (run env c e α lt) (run env .random e (α × Nat) (stableLt lt)) := by
  rw [run]
  · exact h1
  · exact h2
  · exact h3

theorem runOk_stable {e : Sorter} (ih : RunOk env e)
    (he : ∀ (c : Cat) (α : Type) (lt : α → α → Bool), run env c (stable e) α lt =
      stableAdapter (isStable c e) (run env c e α lt) (run env .random e (α × Nat) (stableLt lt))) :
    RunOk env (stable e) := by
  intro c α _ lt hlt hg
  cases hg with
  | stable h1 h2 =>
    rw [he]
    have hp := (ih .random (α × Nat) (stableLt lt) (C29_stable_compare_strict_weak hlt) h2).1
    have hs := ih c α lt hlt h1
    cases e1 : isStable c e with
    | true =>
      refine ⟨hs.1, fun hst _ => ?_⟩
      cases hst with
      | stable hst => exact hs.2 hst (.inl e1)
    | false =>
      have := C29_make_stable hlt hp
      exact ⟨this.sorts, fun _ _ => this⟩

theorem allAlwaysStable_map : ∀ es : List Sorter, allAlwaysStable (es.map stableT) = true
  | [] => rfl
  | e :: es => by
    rw [List.map_cons, allAlwaysStable, alwaysStable_stableT, allAlwaysStable_map es]; rfl

theorem good_map {c : Cat} {es : List Sorter} (h : Good env c (hybrid es)) (h' : Good env .random (hybrid es)) :
    Good env c (hybrid (es.map stableT)) := by
  cases h with
  | hybrid h1 h2 =>
  cases h' with
  | hybrid h1' h2' =>
    obtain ⟨e, he, hc⟩ := h1
    refine .hybrid ⟨stableT e, List.mem_map_of_mem he, by rw [cat_stableT]; exact hc⟩ fun x hx hxc => ?_
    obtain ⟨y, hy, rfl⟩ := List.mem_map.1 hx
    rw [cat_stableT] at hxc
    refine good_stableT (h2 y hy hxc) (h2' y hy ?_)
    have := Cat.value_lt y.cat
    exact Nat.le_of_lt_succ this

theorem steady_map {c : Cat} {es : List Sorter} (h : Steady c (hybrid es)) :
    Steady c (hybrid (es.map stableT)) := by
  cases h with
  | hybrid h =>
    refine .hybrid fun x hx => ?_
    obtain ⟨y, hy, rfl⟩ := List.mem_map.1 hx
    exact steady_stableT (h y hy)

theorem runOk (n : Nat) : ∀ e : Sorter, size e ≤ n → RunOk env e := by
  induction n with
  | zero => intro e h; have := size_pos e; omega
  | succ n ih =>
    intro e hn
    cases e with
    | leaf l =>
      intro c α _ lt hlt hg
      cases hg with
      | leaf h =>
        rw [run, isStable, alwaysStable]
        have := Leaf.run_ok hlt h
        exact ⟨this.1, fun _ h => this.2 (h.elim id id)⟩
    | dropMerge e =>
      intro c α _ lt hlt hg
      cases hg with
      | dropMerge hc h =>
        rw [run, isStable, alwaysStable]
        exact ⟨C19_drop_merge_adapter hlt _ (ih e (by simp only [size] at hn; omega) _ _ _ hlt h).1, by simp⟩
    | split e =>
      intro c α _ lt hlt hg
      cases hg with
      | split hc h =>
        rw [run, isStable, alwaysStable]
        exact ⟨C20_split_adapter hlt _ hc (ih e (by simp only [size] at hn; omega) _ _ _ hlt h).1, by simp⟩
    | verge e => intro c α _ lt hlt hg; cases hg
    | indirect e =>
      intro c α _ lt hlt hg
      cases hg with
      | indirect h =>
        rw [run, isStable, alwaysStable]
        have := ih e (by simp only [size] at hn; omega) .random (α × Nat) (indirectLt lt) (indirectLt_sw hlt) h
        refine ⟨C30_indirect_adapter_sorts _ _ this.1, fun hst hs => ?_⟩
        cases hst with
        | indirect h1 h2 => exact C30_indirect_adapter_stable hlt _ _ (this.2 h2 (hs.imp h1 id))
    | outOfPlace e =>
      intro c α _ lt hlt hg
      cases hg with
      | outOfPlace h =>
        rw [run, isStable, alwaysStable]
        have := ih e (by simp only [size] at hn; omega) .random α lt hlt h
        refine ⟨C32_out_of_place_sorts this.1, fun hst hs => ?_⟩
        cases hst with
        | outOfPlace h1 h2 => exact C32_out_of_place_stable (this.2 h2 (hs.imp h1 id))
    | schwartz e =>
      intro c α _ lt hlt hg
      cases hg with
      | schwartz h =>
        rw [run, isStable, alwaysStable]
        have := ih e (by simp only [size] at hn; omega) c α lt hlt h
        refine ⟨this.1, fun hst hs => ?_⟩
        cases hst with
        | schwartz h2 => exact this.2 h2 hs
    | counting e =>
      intro c α _ lt hlt hg
      cases hg with
      | counting h =>
        rw [run, isStable, alwaysStable]
        have := ih e (by simp only [size] at hn; omega) c α lt hlt h
        refine ⟨this.1, fun hst hs => ?_⟩
        cases hst with
        | counting h2 => exact this.2 h2 hs
    | makeStable e =>
      intro c α _ lt hlt hg
      cases hg with
      | makeStable h =>
        rw [run]
        have := C29_make_stable hlt (ih e (by simp only [size] at hn; omega) .random (α × Nat) (stableLt lt)
          (C29_stable_compare_strict_weak hlt) h).1
        exact ⟨this.sorts, fun _ _ => this⟩
    | hybrid es =>
      intro c α _ lt hlt hg
      obtain ⟨x, hx, hgx⟩ := chosen_good hg
      have hxs := size_chosen hx
      have := ih x (by omega) c α lt hlt hgx
      rw [run_hybrid hx, isStable_hybrid hx, alwaysStable]
      refine ⟨this.1, fun hst hs => this.2 ?_ (hs.imp id fun hs => leaf_stables es hs x (chosen_mem hx))⟩
      exact leaf_steady (.hybrid es) hst x (by rw [toNest, Nest.flatTuple]; exact chosen_mem hx)
    | stable e =>
      have hn' : size e ≤ n := by simp only [size] at hn; omega
      cases e with
      | verge e =>
        intro c α _ lt hlt hg
        cases hg with
        | stable h _ => cases h
      | hybrid es =>
        intro c α _ lt hlt hg
        cases hg with
        | stable h1 h2 =>
          rw [run]
          have hl := sizes_stableT es
          have := ih (.hybrid (es.map stableT)) (by simp only [size] at hn ⊢; omega) c α lt hlt (good_map h1 h2)
          refine ⟨this.1, fun hst _ => ?_⟩
          cases hst with
          | stable hst =>
            exact this.2 (steady_map hst) (.inr (by rw [alwaysStable]; exact allAlwaysStable_map es))
      | stable e =>
        intro c α _ lt hlt hg
        cases hg with
        | stable h1 h2 =>
          rw [run]
          have := ih (.stable e) hn' c α lt hlt h1
          refine ⟨this.1, fun hst _ => ?_⟩
          cases hst with
          | stable hst => exact this.2 hst (.inr (by rw [alwaysStable]))
      | leaf l => exact runOk_stable (ih _ hn') fun c α lt => run_stable (by simp) (by simp) (by simp)
      | dropMerge e => exact runOk_stable (ih _ hn') fun c α lt => run_stable (by simp) (by simp) (by simp)
      | split e => exact runOk_stable (ih _ hn') fun c α lt => run_stable (by simp) (by simp) (by simp)
      | indirect e => exact runOk_stable (ih _ hn') fun c α lt => run_stable (by simp) (by simp) (by simp)
      | outOfPlace e => exact runOk_stable (ih _ hn') fun c α lt => run_stable (by simp) (by simp) (by simp)
      | schwartz e => exact runOk_stable (ih _ hn') fun c α lt => run_stable (by simp) (by simp) (by simp)
      | counting e => exact runOk_stable (ih _ hn') fun c α lt => run_stable (by simp) (by simp) (by simp)
      | makeStable e => exact runOk_stable (ih _ hn') fun c α lt => run_stable (by simp) (by simp) (by simp)

end Sorter

/-! ### `heap_sorter` is not stable -/

theorem bindM_eq {β γ : Type} (m : M α β) (k : β → M α γ) (s : St α) :
    (m >>= k) s = match m s with
      | none => none
      | some (.ok r, s') => k r s'
      | some (.error e, s') => some (.error e, s') := by
  simp only [bind, ExceptT.bind, ExceptT.mk, ExceptT.bindCont, StateT.bind, Option.bind]
  cases m s with
  | none => rfl
  | some p => obtain ⟨r, s'⟩ := p; cases r <;> rfl
theorem pureM_eq {β : Type} (x : β) (s : St α) : (pure x : M α β) s = some (.ok x, s) := rfl

/-- `heap_sorter` on three elements: the last of three equivalent elements comes first. -/
theorem heapsort_three {lt : α → α → Bool} {a b c : α} {s : St α} {p : Nat}
    (h1 : s.cell p = .val a) (h2 : s.cell (p+1) = .val b) (h3 : s.cell (p+2) = .val c)
    (hba : lt b a = false) (hbc : lt b c = false) (hac : lt a c = false) :
    ∃ s', heapsort (tick lt) p (p+3) s = some (.ok (), s') ∧
     s'.cell = setCell (setCell (setCell s.cell p (.val c)) (p+1) (.val a)) (p+2) (.val b) ∧ s'.brk = s.brk := by
  have e3 : p + 3 - p = 3 := by omega
  have e4 : p + 3 - 1 = p + 2 := by omega
  have e5 : p + 2 - 1 = p + 1 := by omega
  have e6 : p + 1 + 1 = p + 2 := by omega
  have e7 : p + 2 - p = 2 := by omega
  have n1 : ¬ p + 1 = p := by omega
  have n2 : ¬ p + 2 = p := by omega
  have n3 : ¬ p = p + 1 := by omega
  have n4 : ¬ p = p + 2 := by omega
  have n5 : ¬ p + 1 = p + 2 := by omega
  have n6 : ¬ p + 2 = p + 1 := by omega
  unfold heapsort makeHeap
  simp only [e3]
  rw [if_pos (by omega)]
  rw [sortHeap, sortHeap, sortHeap]
  simp [makeHeapLoop, siftDown, heapTopChild, popHeap, floydSiftDown, pushHeap, e3, e4, e5, bindM_eq, pureM_eq, read, tick, moveOut, h1, h2, h3, hba, hbc, hac]
  rw [siftDownLoop, floydLoop]
  simp [heapTopChild, e4, e5, e6, e7, bindM_eq, pureM_eq, read, tick, moveOut, moveTo, assign, setCell, h1, h2, h3, hba, hbc, hac, n1, n2, n3, n4, n5, n6]
  rw [floydLoop]
  simp [heapTopChild, e4, e5, e6, e7, bindM_eq, pureM_eq, read, tick, moveOut, moveTo, assign, setCell, h1, h2, h3, hba, hbc, hac, n1, n2, n3, n4, n5, n6]
  funext k
  by_cases k1 : k = p
  · subst k1; simp [setCell, n1, n2, n3, n4, n5, n6]
  · by_cases k2 : k = p + 1
    · subst k2; simp [setCell, n1, n2, n3, n4, n5, n6]
    · by_cases k3 : k = p + 2
      · subst k3; simp [setCell]
      · simp [setCell, k1, k2, k3]
end CppSort
