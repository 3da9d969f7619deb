import Verif.Model.Hybrid
import Verif.Base.Order
/-
C34: hybrid_adapter.
-/
set_option autoImplicit false

namespace CppSort
variable {σ : Type}

theorem Cat.value_lt (c : Cat) : c.value < 3 := by cases c <;> decide

theorem hybridLeaves_getElem {cat : σ → Cat} {n : Nat} : ∀ (ss : List σ) (i j : Nat) (h : j < ss.length),
    (hybridLeaves cat n i ss)[j]? = some (leafIndex n (cat ss[j]) (i + j), ss[j]) := by
  intro ss
  induction ss with
  | nil => intro i j h; simp at h
  | cons s ss ih =>
    intro i j h
    cases j with
    | zero => simp [hybridLeaves]
    | succ j =>
      rw [hybridLeaves, List.getElem?_cons_succ, ih (i + 1) j (by simpa using h),
        show i + 1 + j = i + (j + 1) by omega]
      simp

theorem hybridLeaves_length {cat : σ → Cat} {n : Nat} : ∀ (ss : List σ) (i : Nat),
    (hybridLeaves cat n i ss).length = ss.length := by
  intro ss
  induction ss with
  | nil => intro i; rfl
  | cons s ss ih => intro i; rw [hybridLeaves, List.length_cons, ih, List.length_cons]

theorem hybridLeaves_mem {cat : σ → Cat} {ss : List σ} {l : Nat × σ}
    (h : l ∈ hybridLeaves cat ss.length 0 ss) :
    ∃ j, ∃ hj : j < ss.length, l = (leafIndex ss.length (cat ss[j]) j, ss[j]) := by
  obtain ⟨j, hj, e⟩ := List.getElem_of_mem h
  rw [hybridLeaves_length] at hj
  have := hybridLeaves_getElem (cat := cat) (n := ss.length) ss 0 j hj
  rw [List.getElem?_eq_getElem (by rwa [hybridLeaves_length]), e, Nat.zero_add] at this
  exact ⟨j, hj, by injection this⟩

theorem leafIndex_le_choice {n i : Nat} {a c : Cat} (h : i < n) :
    leafIndex n a i ≤ choiceForIt c n ↔ a.value ≤ c.value := by
  unfold leafIndex choiceForIt
  cases a <;> cases c <;> simp only [Cat.value] <;> omega

theorem leafIndex_lt {n i j : Nat} {a b : Cat} (hi : i < n) (hj : j < n) :
    leafIndex n a i ≤ leafIndex n b j ↔ a.value < b.value ∨ (a.value = b.value ∧ j ≤ i) := by
  unfold leafIndex
  obtain ⟨x, rfl⟩ : ∃ x, n = i + 1 + x := ⟨n - (i + 1), by omega⟩
  obtain ⟨y, hy⟩ : ∃ y, i + 1 + x = j + 1 + y := ⟨i + 1 + x - (j + 1), by omega⟩
  have h1 : ∀ p, p + (i + 1 + x) - i - 1 = p + x := fun p => by omega
  have h2 : ∀ p, p + (i + 1 + x) - j - 1 = p + y := fun p => by omega
  rw [h1, h2]
  cases a <;> cases b <;> simp only [Cat.value, true_and] <;> omega

/-- `i` is the position of the sorter that should be called: it can be called and accepts the category; no
sorter which does has a stronger category; none with the same category precedes it. -/
structure Chosen (cat : σ → Cat) (invocable : σ → Bool) (c : Cat) (ss : List σ) (i : Nat) : Prop where
  lt : i < ss.length
  callable : invocable ss[i] = true
  accepts : (cat ss[i]).value ≤ c.value
  strongest : ∀ j (h : j < ss.length), invocable ss[j] = true → (cat ss[j]).value ≤ c.value →
    (cat ss[j]).value ≤ (cat ss[i]).value
  first : ∀ j (h : j < ss.length), invocable ss[j] = true → (cat ss[j]).value = (cat ss[i]).value → i ≤ j

theorem exists_chosen {cat : σ → Cat} {invocable : σ → Bool} {c : Cat} {ss : List σ}
    (h : ∃ i, ∃ hi : i < ss.length, invocable ss[i] = true ∧ (cat ss[i]).value ≤ c.value) :
    ∃ i, Chosen cat invocable c ss i := by
  -- the rank of a candidate; its maximum is reached
  let P : Nat → Prop := fun r => ∃ i, ∃ hi : i < ss.length, invocable ss[i] = true ∧
    (cat ss[i]).value ≤ c.value ∧ leafIndex ss.length (cat ss[i]) i = r
  have hb : ∀ r, P r → r ≤ choiceForIt c ss.length := by
    rintro r ⟨i, hi, h1, h2, rfl⟩
    exact (leafIndex_le_choice hi).2 h2
  have hmax : ∃ r, P r ∧ ∀ r', P r' → r' ≤ r := by
    have key : ∀ d, ∀ r, P r → choiceForIt c ss.length - r ≤ d → ∃ r, P r ∧ ∀ r', P r' → r' ≤ r := by
      intro d
      induction d with
      | zero => intro r hr hd; exact ⟨r, hr, fun r' hr' => by have := hb r' hr'; omega⟩
      | succ d ih =>
        intro r hr hd
        by_cases hx : ∃ r', P r' ∧ r < r'
        · obtain ⟨r', h1, h2⟩ := hx
          exact ih r' h1 (by have := hb r' h1; omega)
        · exact ⟨r, hr, fun r' hr' => by by_contra hc; exact hx ⟨r', hr', by omega⟩⟩
    obtain ⟨i, hi, h1, h2⟩ := h
    exact key _ _ ⟨i, hi, h1, h2, rfl⟩ (le_refl _)
  obtain ⟨r, ⟨i, hi, h1, h2, rfl⟩, hm⟩ := hmax
  refine ⟨i, hi, h1, h2, fun j hj g1 g2 => ?_, fun j hj g1 g2 => ?_⟩
  · have := (leafIndex_lt hj hi).1 (hm _ ⟨j, hj, g1, g2, rfl⟩)
    omega
  · have := (leafIndex_lt hj hi).1 (hm _ ⟨j, hj, g1, by omega, rfl⟩)
    omega

theorem filter_eq_singleton {τ : Type} {p : τ → Bool} : ∀ {l : List τ} {i : Nat} (hi : i < l.length),
    (∀ j (hj : j < l.length), p l[j] = true ↔ j = i) → l.filter p = [l[i]] := by
  intro l
  induction l with
  | nil => intro i hi; simp at hi
  | cons x l ih =>
    intro i hi h
    cases i with
    | zero =>
      have h0 : p x = true := (h 0 (by simp)).2 rfl
      have : l.filter p = [] := by
        rw [List.filter_eq_nil_iff]
        intro y hy
        obtain ⟨j, hj, rfl⟩ := List.getElem_of_mem hy
        intro hp
        have := (h (j + 1) (by simpa using hj)).1 (by simpa using hp)
        omega
      rw [List.filter_cons_of_pos h0, this]
      rfl
    | succ i =>
      have h0 : ¬ p x = true := fun hp => by
        have := (h 0 (by simp)).1 hp
        omega
      rw [List.filter_cons_of_neg h0, ih (by simpa using hi) fun j hj => ?_]
      · simp
      · have := h (j + 1) (by simpa using hj)
        simp only [List.getElem_cons_succ] at this
        rw [this]
        omega

theorem hybridCall_chosen {cat : σ → Cat} {invocable : σ → Bool} {c : Cat} {ss : List σ} {i : Nat}
    (h : Chosen cat invocable c ss i) : hybridCall cat invocable c ss = some (ss[i]'h.lt) := by
  unfold hybridCall resolve
  dsimp only
  set leaves := hybridLeaves cat ss.length 0 ss with hl
  have hlen : leaves.length = ss.length := hybridLeaves_length ss 0
  have hget : ∀ j (hj : j < leaves.length), leaves[j] = (leafIndex ss.length (cat (ss[j]'(by omega))) j, ss[j]'(by omega)) := by
    intro j hj
    have := hybridLeaves_getElem (cat := cat) (n := ss.length) ss 0 j (by omega)
    rw [← hl, List.getElem?_eq_getElem hj, Nat.zero_add] at this
    injection this
  rw [List.filter_filter]
  rw [filter_eq_singleton (i := i) (by have := h.lt; omega) fun j hj => ?_]
  · dsimp only
    rw [hget]
  · rw [hget j hj]
    simp only [Bool.and_eq_true, decide_eq_true_eq, List.all_eq_true, List.mem_filter]
    rw [leafIndex_le_choice (by omega)]
    constructor
    · rintro ⟨h1, h2, h3⟩
      have hi := h.lt
      have := h1 leaves[i] ⟨List.getElem_mem (by omega), by
        rw [hget i (by omega)]
        exact ⟨(leafIndex_le_choice hi).2 h.accepts, h.callable⟩⟩
      rw [hget i (by omega)] at this
      have := (leafIndex_lt hi (by omega)).1 this
      have h4 := h.strongest j (by omega) h3 h2
      have h5 := h.first j (by omega) h3
      omega
    · rintro rfl
      refine ⟨?_, h.accepts, h.callable⟩
      rintro l ⟨hm, h1, h2⟩
      obtain ⟨k, hk, rfl⟩ := hybridLeaves_mem hm
      dsimp only at h1 h2 ⊢
      rw [leafIndex_le_choice hk] at h1
      rw [leafIndex_lt hk h.lt]
      have h4 := h.strongest k hk h2 h1
      have h5 := h.first k hk h2
      omega

mutual
/-- The sorters of a nesting from left to right. -/
def Nest.leaves : Nest σ → List σ
  | .sorter s => [s]
  | .hybrid args => Nest.leavesOf args
/-- The sorters of the arguments from left to right. -/
def Nest.leavesOf : List (Nest σ) → List σ
  | [] => []
  | t :: ts => t.leaves ++ Nest.leavesOf ts
end

theorem Nest.leavesOf_append (ts us : List (Nest σ)) :
    Nest.leavesOf (ts ++ us) = Nest.leavesOf ts ++ Nest.leavesOf us := by
  induction ts with
  | nil => simp [Nest.leavesOf]
  | cons t ts ih => rw [List.cons_append, Nest.leavesOf, Nest.leavesOf, ih, List.append_assoc]

theorem flattenFold_eq (ts : List (Nest σ)) (acc : List σ) :
    flattenFold ts acc = acc ++ Nest.leavesOf ts := by
  induction ts, acc using flattenFold.induct with
  | case1 acc => simp [flattenFold, Nest.leavesOf]
  | case2 acc inner rest ih =>
    rw [flattenFold, ih, Nest.leavesOf_append, Nest.leavesOf, Nest.leaves]
  | case3 acc s rest ih =>
    rw [flattenFold, ih, Nest.leavesOf, Nest.leaves, List.append_assoc]

mutual
theorem Nest.flatTuple_eq : ∀ t : Nest σ, t.flatTuple = t.leaves
  | .sorter s => rfl
  | .hybrid args => by rw [Nest.flatTuple, Nest.leaves, Nest.flatTuples_eq args]
theorem Nest.flatTuples_eq : ∀ ts : List (Nest σ), Nest.flatTuples ts = Nest.leavesOf ts
  | [] => rfl
  | t :: ts => by rw [Nest.flatTuples, Nest.leavesOf, Nest.flatTuple_eq t, Nest.flatTuples_eq ts]
end

/-- C34: whenever some sorter of the (possibly nested) `hybrid_adapter` accepts iterators of category `c`
and the other arguments, the one that is called is, among those sorters from left to right, the first of
those with the strongest category. -/
theorem C34_hybrid_dispatch (cat : σ → Cat) (invocable : σ → Bool) (c : Cat) (args : List (Nest σ))
    (h : ∃ s ∈ Nest.leavesOf args, invocable s = true ∧ (cat s).value ≤ c.value) :
    ∃ i, ∃ hc : Chosen cat invocable c (Nest.leavesOf args) i,
      hybridAdapterCall cat invocable c args = some ((Nest.leavesOf args)[i]'hc.lt) := by
  obtain ⟨s, hs, h1, h2⟩ := h
  obtain ⟨i, hi, rfl⟩ := List.getElem_of_mem hs
  obtain ⟨j, hj⟩ := exists_chosen ⟨i, hi, h1, h2⟩
  refine ⟨j, hj, ?_⟩
  unfold hybridAdapterCall
  rw [flattenFold_eq, List.nil_append]
  exact hybridCall_chosen hj

/-- C34: the call is ill-formed if no sorter accepts the arguments. -/
theorem C34_hybrid_no_sorter (cat : σ → Cat) (invocable : σ → Bool) (c : Cat) (args : List (Nest σ))
    (h : ∀ s ∈ Nest.leavesOf args, invocable s = true → c.value < (cat s).value) :
    hybridAdapterCall cat invocable c args = none := by
  unfold hybridAdapterCall hybridCall resolve
  rw [flattenFold_eq, List.nil_append]
  dsimp only
  have : (hybridLeaves cat (Nest.leavesOf args).length 0 (Nest.leavesOf args)).filter
      (fun l => decide (l.1 ≤ choiceForIt c (Nest.leavesOf args).length) && invocable l.2) = [] := by
    rw [List.filter_eq_nil_iff]
    intro l hl hp
    obtain ⟨j, hj, rfl⟩ := hybridLeaves_mem hl
    simp only [Bool.and_eq_true, decide_eq_true_eq] at hp
    rw [leafIndex_le_choice hj] at hp
    have := h _ (List.getElem_mem hj) hp.2
    omega
  rw [this]
  rfl

/-- C34: a nested `hybrid_adapter` behaves as the flat one, and stores the sorters in the same order. -/
theorem C34_hybrid_flattening (cat : σ → Cat) (invocable : σ → Bool) (c : Cat) (args : List (Nest σ)) :
    hybridAdapterCall cat invocable c args =
        hybridAdapterCall cat invocable c ((Nest.leavesOf args).map .sorter) ∧
      Nest.flatTuples args = Nest.leavesOf args ∧ flattenFold args [] = Nest.leavesOf args := by
  have h : ∀ ss : List σ, Nest.leavesOf (ss.map .sorter) = ss := by
    intro ss
    induction ss with
    | nil => rfl
    | cons s ss ih => rw [List.map_cons, Nest.leavesOf, Nest.leaves, ih]; rfl
  refine ⟨?_, Nest.flatTuples_eq args, by rw [flattenFold_eq]; rfl⟩
  unfold hybridAdapterCall
  rw [flattenFold_eq, flattenFold_eq, h]

/-- C34: the iterator category is the most permissive one: one of the sorters has it, and none has a weaker
one. -/
theorem C34_hybrid_category (cat : σ → Cat) (ss : List σ) (hne : ss ≠ []) :
    ∃ c, hybridCategory cat ss = some c ∧ (∃ s ∈ ss, cat s = c) ∧ ∀ s ∈ ss, c.value ≤ (cat s).value := by
  have key : ∀ (ts : List σ) (c : Cat), let r := ts.foldl (fun c s => c.common (cat s)) c
      (r = c ∨ ∃ s ∈ ts, cat s = r) ∧ r.value ≤ c.value ∧ ∀ s ∈ ts, r.value ≤ (cat s).value := by
    intro ts
    induction ts with
    | nil => intro c; simp
    | cons t ts ih =>
      intro c
      dsimp only
      rw [List.foldl_cons]
      obtain ⟨h1, h2, h3⟩ := ih (c.common (cat t))
      generalize ts.foldl (fun c s => c.common (cat s)) (c.common (cat t)) = r at *
      have hc : (c.common (cat t) = c ∧ c.value ≤ (cat t).value) ∨
          (c.common (cat t) = cat t ∧ (cat t).value ≤ c.value) := by
        unfold Cat.common
        split
        · exact .inl ⟨rfl, ‹_›⟩
        · exact .inr ⟨rfl, by omega⟩
      refine ⟨?_, ?_, fun s hs => ?_⟩
      · rcases h1 with h1 | ⟨s, hs, h1⟩
        · rcases hc with ⟨e, -⟩ | ⟨e, -⟩
          · exact .inl (h1.trans e)
          · exact .inr ⟨t, by simp, (h1.trans e).symm⟩
        · exact .inr ⟨s, by simp [hs], h1⟩
      · rcases hc with ⟨e, -⟩ | ⟨e, h⟩ <;> rw [e] at h2 <;> omega
      · rcases List.mem_cons.1 hs with rfl | hs
        · rcases hc with ⟨e, h⟩ | ⟨e, h⟩ <;> rw [e] at h2 <;> omega
        · exact h3 s hs
  cases ss with
  | nil => exact absurd rfl hne
  | cons s ss =>
    obtain ⟨h1, h2, h3⟩ := key ss (cat s)
    refine ⟨_, rfl, ?_, ?_⟩
    · rcases h1 with h1 | ⟨t, ht, h1⟩
      · exact ⟨s, by simp, h1.symm⟩
      · exact ⟨t, by simp [ht], h1⟩
    · intro t ht
      rcases List.mem_cons.1 ht with rfl | ht
      · exact h2
      · exact h3 t ht

/-- C34: it is always stable if and only if every sorter is. -/
theorem C34_hybrid_always_stable (stable : σ → Bool) (ss : List σ) :
    hybridAlwaysStable stable ss = true ↔ ∀ s ∈ ss, stable s = true := by
  simp [hybridAlwaysStable]

/-- C34: `is_stable` of a call is the stability of the sorter that is called, and a `hybrid_adapter` that is
always stable calls stable sorters only. -/
theorem C34_hybrid_is_stable (cat : σ → Cat) (invocable stable : σ → Bool) (c : Cat) (args : List (Nest σ)) :
    (∀ s, hybridAdapterCall cat invocable c args = some s →
      hybridIsStable cat invocable stable c args = some (stable s) ∧ s ∈ Nest.leavesOf args ∧
      (hybridAlwaysStable stable (flattenFold args []) = true → stable s = true)) := by
  intro s hs
  have hm : s ∈ Nest.leavesOf args := by
    by_cases h : ∃ s ∈ Nest.leavesOf args, invocable s = true ∧ (cat s).value ≤ c.value
    · obtain ⟨i, hc, he⟩ := C34_hybrid_dispatch cat invocable c args h
      rw [hs] at he
      injection he with he
      rw [he]
      exact List.getElem_mem _
    · rw [C34_hybrid_no_sorter cat invocable c args fun s hs hi => by
        by_contra hc; exact h ⟨s, hs, hi, by omega⟩] at hs
      exact absurd hs (by simp)
  refine ⟨by unfold hybridIsStable; rw [hs]; rfl, hm, fun h => ?_⟩
  rw [C34_hybrid_always_stable, flattenFold_eq] at h
  exact h s hm

/-- Sorters of category 0, 1, 2 (and a name), nested; called with bidirectional iterators. -/
example : hybridAdapterCall (σ := Cat × Nat) (·.1) (fun _ => true) .bidirectional
    [.sorter (.random, 0), .hybrid [.sorter (.forward, 1), .hybrid [.sorter (.bidirectional, 2)]],
      .sorter (.bidirectional, 3)] = some (.bidirectional, 2) := by
  rw [(C34_hybrid_flattening _ _ _ _).1]
  unfold hybridAdapterCall
  rw [flattenFold_eq]
  rfl

example : ∃ s ∈ Nest.leavesOf (σ := Cat × Nat) [.sorter (.random, 0), .hybrid [.sorter (.forward, 1)]],
    (fun _ => true) s = true ∧ s.1.value ≤ Cat.bidirectional.value :=
  ⟨(.forward, 1), by simp [Nest.leavesOf, Nest.leaves], rfl, by decide⟩

end CppSort
