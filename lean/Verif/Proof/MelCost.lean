import Verif.Proof.DropCost
import Verif.Proof.SymCost
import Verif.Proof.Mel
set_option autoImplicit false

namespace CppSort
variable {α : Type} {lt : α → α → Bool} {N : Nat}

theorem nth_cost {β : Type} {xs : List β} {i : Nat} :
    Cost (α := α) N (nth xs i) (fun x c => xs[i]? = some x ∧ c = 0) := by
  unfold nth
  split
  · exact Cost.pure ⟨‹_›, rfl⟩
  · intro s r s' _ h; cases h

theorem nth_silent {β : Type} (xs : List β) (i : Nat) : Silent (nth xs i : M α β) := by
  unfold nth
  split
  · exact Silent.pure
  · exact silent_fail _

theorem lowerBoundBy_cost {test : Nat → M α Bool} (ht : ∀ i, Cost N (test i) (fun _ c => c ≤ 1)) :
    ∀ (k first size : Nat), size < 2 ^ k → Cost N (lowerBoundBy test first size) (fun _ c => c ≤ k) := by
  intro k
  induction k with
  | zero =>
    intro first size h
    rw [lowerBoundBy, if_neg (by omega)]
    exact Cost.pure (by omega)
  | succ k ih =>
    intro first size h
    rw [Nat.pow_succ] at h
    rw [lowerBoundBy]
    refine Cost.ite (fun h0 => ?_) fun _ => Cost.pure (by omega)
    dsimp only
    refine (ht _).bind fun b c hc => ?_
    refine Cost.ite (fun _ => ?_) fun _ => ?_
    · exact (ih _ _ (by omega)).mono fun _ c' h' => by omega
    · exact (ih _ _ (by omega)).mono fun _ c' h' => by omega

theorem flatten_set_length {β : Type} : ∀ {L : List (List β)} {i : Nat} {l : List β} (m : List β), L[i]? = some l →
    (L.set i m).flatten.length + l.length = L.flatten.length + m.length := by
  intro L
  induction L with
  | nil => intro i l m h; simp at h
  | cons a L ih =>
    intro i l m h
    cases i with
    | zero =>
      simp only [List.getElem?_cons_zero, Option.some.injEq] at h
      subst h
      simp only [List.set_cons_zero, List.flatten_cons, List.length_append]
      omega
    | succ i =>
      simp only [List.getElem?_cons_succ] at h
      have := ih m h
      simp only [List.set_cons_succ, List.flatten_cons, List.length_append]
      omega

theorem flatten_drop_length {β : Type} {L : List (List β)} {i : Nat} {l : List β} (h : L[i]? = some l) :
    (L.drop i).flatten.length = l.length + (L.drop (i + 1)).flatten.length := by
  obtain ⟨hi, he⟩ := List.getElem?_eq_some_iff.1 h
  rw [List.drop_eq_getElem_cons hi, he]
  simp

theorem flatten_take_length {β : Type} (L : List (List β)) (i : Nat) :
    (L.take i).flatten.length ≤ L.flatten.length := by
  have h := congrArg (fun l => l.flatten.length) (List.take_append_drop i L)
  simp only [List.flatten_append, List.length_append] at h
  omega

/-- A merge of lists that makes at most two comparisons for each node. -/
def MergeCost (N : Nat) (merge : List α → List α → M α (List α)) : Prop :=
  ∀ xs ys, Cost N (merge xs ys) (fun r c => r.length = xs.length + ys.length ∧ c ≤ 2 * (xs.length + ys.length))

theorem listMerge_cost : ∀ (n : Nat) (xs ys : List α), xs.length + ys.length = n →
    Cost N (listMerge (tick lt) xs ys) (fun r c => r.length = xs.length + ys.length ∧ c ≤ xs.length + ys.length) := by
  intro n
  induction n using Nat.strongRecOn with
  | ind n ih =>
    intro xs ys hn
    match xs, ys with
    | [], ys => rw [listMerge]; exact Cost.pure ⟨by simp, by omega⟩
    | x :: xs, [] => rw [listMerge]; exact Cost.pure ⟨by simp, by omega⟩
    | x :: xs, y :: ys =>
      simp only [List.length_cons] at hn ⊢
      rw [listMerge]
      refine Cost.tickBind fun b => ?_
      refine Cost.ite (fun _ => ?_) fun _ => ?_
      · refine (ih _ (by simp only [List.length_cons]; omega) (x :: xs) ys rfl).bind fun r c hc => ?_
        simp only [List.length_cons] at hc
        exact Cost.pure ⟨by simp only [List.length_cons]; omega, by omega⟩
      · refine (ih _ (by simp only [List.length_cons]; omega) xs (y :: ys) rfl).bind fun r c hc => ?_
        simp only [List.length_cons] at hc
        exact Cost.pure ⟨by simp only [List.length_cons]; omega, by omega⟩

theorem listMerge_mergeCost : MergeCost N (listMerge (tick lt)) := fun xs ys =>
  (listMerge_cost _ xs ys rfl).mono fun _ _ h => ⟨h.1, by omega⟩

theorem fslTake_cost {x : α} : ∀ ys : List α, Cost N (fslTake (tick lt) x ys)
    (fun r c => r.1.length + r.2.length = ys.length ∧ c ≤ r.1.length + 1) := by
  intro ys
  induction ys with
  | nil => rw [fslTake]; exact Cost.pure ⟨rfl, by simp⟩
  | cons y ys ih =>
    rw [fslTake]
    refine Cost.tickBind fun b => ?_
    refine Cost.ite (fun _ => ?_) fun _ => Cost.pure ⟨by simp, by simp⟩
    refine ih.bind fun r c hc => ?_
    obtain ⟨t, r⟩ := r
    dsimp only at hc ⊢
    exact Cost.pure ⟨by simp only [List.length_cons]; omega, by simp only [List.length_cons]; omega⟩

theorem fslMerge_cost : ∀ (n : Nat) (xs ys : List α), xs.length + ys.length = n →
    Cost N (fslMerge (tick lt) xs ys)
      (fun r c => r.length = xs.length + ys.length ∧ c ≤ xs.length + 2 * ys.length) := by
  intro n
  induction n using Nat.strongRecOn with
  | ind n ih =>
    intro xs ys hn
    match xs, ys with
    | [], ys => rw [fslMerge]; exact Cost.pure ⟨by simp, by omega⟩
    | x :: xs, [] => rw [fslMerge] <;> first | exact Cost.pure ⟨by simp, by omega⟩ | simp
    | x :: xs, y :: ys =>
      simp only [List.length_cons] at hn ⊢
      rw [fslMerge]
      refine Cost.tickBind fun b => ?_
      refine Cost.ite (fun _ => ?_) fun _ => ?_
      · refine (fslTake_cost ys).bind fun r c hc => ?_
        obtain ⟨t, r⟩ := r
        dsimp only at hc ⊢
        refine (ih _ (by simp only [List.length_cons]; omega) (x :: xs) r rfl).bind fun m c' hc' => ?_
        simp only [List.length_cons] at hc'
        exact Cost.pure ⟨by simp only [List.cons_append, List.length_cons, List.length_append]; omega, by omega⟩
      · refine (ih _ (by simp only [List.length_cons]; omega) xs (y :: ys) rfl).bind fun r c hc => ?_
        simp only [List.length_cons] at hc
        exact Cost.pure ⟨by simp only [List.length_cons]; omega, by omega⟩

theorem fslMerge_mergeCost : MergeCost N (fslMerge (tick lt)) := fun xs ys =>
  (fslMerge_cost _ xs ys rfl).mono fun _ _ h => ⟨h.1, by omega⟩

theorem mergeHalves_cost {merge : List α → List α → M α (List α)} (hm : MergeCost N merge) : ∀ (d : Nat)
    (L : List (List α)) (i j : Nat), L.length - j ≤ d → j ≤ L.length → i < j →
    Cost N (mergeHalves merge L i j) (fun r c => r.length = L.length ∧ r.flatten.length = L.flatten.length ∧
      c ≤ 2 * (L.drop i).flatten.length) := by
  intro d
  induction d with
  | zero =>
    intro L i j hd hj hij
    rw [mergeHalves, if_neg (by omega)]
    exact Cost.pure ⟨rfl, rfl, by omega⟩
  | succ d ih =>
    intro L i j hd hj hij
    rw [mergeHalves]
    refine Cost.ite (fun h => ?_) fun _ => Cost.pure ⟨rfl, rfl, by omega⟩
    refine nth_cost.bind fun a c hc => ?_
    obtain ⟨ha, rfl⟩ := hc
    refine nth_cost.bind fun b c hc => ?_
    obtain ⟨hb, rfl⟩ := hc
    refine (hm a b).bind fun m c hc => ?_
    have e1 := flatten_set_length m ha
    have hb' : (L.set i m)[j]? = some b := by rw [List.getElem?_set_ne (by omega)]; exact hb
    have e2 := flatten_set_length (β := α) [] hb'
    have d1 := flatten_drop_length ha
    have hb2 : (L.drop (i + 1))[j - (i + 1)]? = some b := by
      rw [List.getElem?_drop, show i + 1 + (j - (i + 1)) = j by omega]; exact hb
    have e3 := flatten_set_length (β := α) [] hb2
    have e4 : (((L.set i m).set j []).drop (i + 1)) = (L.drop (i + 1)).set (j - (i + 1)) [] := by
      rw [List.drop_set, if_neg (by omega), List.drop_set_of_lt (by omega)]
    refine (ih ((L.set i m).set j []) (i + 1) (j + 1) (by simp; omega) (by simp; omega) (by omega)).mono
      fun r c' hc' => ?_
    rw [e4] at hc'
    simp only [List.length_set, List.length_nil] at hc' e2 e3
    refine ⟨by omega, by omega, by omega⟩

theorem mergeOdd_cost {merge : List α → List α → M α (List α)} (hm : MergeCost N merge) {L : List (List α)}
    (h2 : 2 ≤ L.length) : Cost N (mergeOdd merge L) (fun r c => r.length = 2 * (L.length / 2) ∧
      r.flatten.length ≤ L.flatten.length ∧ c ≤ 2 * L.flatten.length) := by
  unfold mergeOdd
  refine Cost.ite (fun h => ?_) fun _ => Cost.pure ⟨by omega, by omega, by omega⟩
  refine nth_cost.bind fun a c hc => ?_
  obtain ⟨ha, rfl⟩ := hc
  refine nth_cost.bind fun b c hc => ?_
  obtain ⟨hb, rfl⟩ := hc
  refine (hm a b).bind fun m c hc => ?_
  have e1 := flatten_set_length m ha
  have hb' : (L.set (L.length - 2) m)[L.length - 1]? = some b := by
    rw [List.getElem?_set_ne (by omega)]; exact hb
  have d1 := flatten_drop_length hb'
  have d2 := congrArg (fun l => l.flatten.length) (List.take_append_drop (L.length - 1) (L.set (L.length - 2) m))
  have d3 : (L.drop (L.length - 2)).flatten.length = a.length + (L.drop (L.length - 2 + 1)).flatten.length :=
    flatten_drop_length ha
  rw [show L.length - 2 + 1 = L.length - 1 by omega] at d3
  have d4 := flatten_drop_length hb
  have d5 := congrArg (fun l => l.flatten.length) (List.take_append_drop (L.length - 2) L)
  simp only [List.flatten_append, List.length_append] at d2 d5
  refine Cost.pure ⟨by simp; omega, by omega, by omega⟩

/-- The rounds of merges of `mergeLists` and `melMergeLists`. -/
theorem mergeRound_cost {merge : List α → List α → M α (List α)} (hm : MergeCost N merge) {L : List (List α)}
    (h2 : 2 ≤ L.length) {next : List (List α) → M α (List (List α))} {C : Nat}
    (hn : ∀ R : List (List α), R.length = L.length / 2 → R.flatten.length ≤ L.flatten.length →
      Cost N (next R) (fun r c => r.flatten.length ≤ R.flatten.length ∧ c ≤ C)) :
    Cost N (do
      let lists ← mergeOdd merge L
      let lists ← mergeHalves merge lists 0 (lists.length / 2)
      next (lists.take (lists.length / 2)))
      (fun r c => r.flatten.length ≤ L.flatten.length ∧ c ≤ 4 * L.flatten.length + C) := by
  refine (mergeOdd_cost hm h2).bind fun R c hc => ?_
  refine (mergeHalves_cost hm _ R 0 (R.length / 2) (Nat.le_refl _) (by omega) (by omega)).bind fun R' c' hc' => ?_
  rw [List.drop_zero] at hc'
  have ht := flatten_take_length R' (R'.length / 2)
  refine (hn _ (by rw [List.length_take]; omega) (by omega)).mono fun r c'' h => ⟨by omega, by omega⟩

theorem melMergeLists_cost : ∀ (k : Nat) (L : List (List α)), L.length < 2 ^ (k + 1) →
    Cost N (melMergeLists (tick lt) L)
      (fun r c => r.flatten.length ≤ L.flatten.length ∧ c ≤ 4 * L.flatten.length * k) := by
  intro k
  induction k with
  | zero =>
    intro L h
    rw [melMergeLists, if_neg (by simp at h; omega)]
    exact Cost.pure ⟨Nat.le_refl _, Nat.zero_le _⟩
  | succ k ih =>
    intro L h
    rw [melMergeLists]
    refine Cost.ite (fun h2 => ?_) fun _ => Cost.pure ⟨Nat.le_refl _, Nat.zero_le _⟩
    refine (mergeRound_cost (C := 4 * L.flatten.length * k) fslMerge_mergeCost (by omega) fun R h1 h3 => ?_).mono
      fun r c hc => ⟨hc.1, by rw [Nat.mul_succ]; omega⟩
    refine (ih R (by rw [Nat.pow_succ] at h; omega)).mono fun r c hc => ⟨hc.1, hc.2.trans ?_⟩
    exact Nat.mul_le_mul_right _ (by omega)

theorem mergeLists_cost : ∀ (k : Nat) (L : List (List α)), L.length < 2 ^ (k + 1) →
    Cost N (mergeLists (tick lt) L)
      (fun r c => r.flatten.length ≤ L.flatten.length ∧ c ≤ 4 * L.flatten.length * k) := by
  intro k
  induction k with
  | zero =>
    intro L h
    rw [mergeLists, if_neg (by simp at h; omega)]
    exact Cost.pure ⟨Nat.le_refl _, Nat.zero_le _⟩
  | succ k ih =>
    intro L h
    rw [mergeLists]
    refine Cost.ite (fun h2 => ?_) fun _ => Cost.pure ⟨Nat.le_refl _, Nat.zero_le _⟩
    refine (mergeRound_cost (C := 4 * L.flatten.length * k) listMerge_mergeCost (by omega) fun R h1 h3 => ?_).mono
      fun r c hc => ⟨hc.1, by rw [Nat.mul_succ]; omega⟩
    refine (ih R (by rw [Nat.pow_succ] at h; omega)).mono fun r c hc => ⟨hc.1, hc.2.trans ?_⟩
    exact Nat.mul_le_mul_right _ (by omega)

theorem encroachPlace_cost {β : Type} {get : β → M α α} (hg : ∀ b, Silent (get b)) {L : List (List β)} {value : α}
    {k : Nat} (hL : L.length ≤ 2 ^ k) :
    Cost N (encroachPlace (tick lt) get L value) (fun _ c => c ≤ k + 2) := by
  have hk : L.length - 1 < 2 ^ k := by
    have := Nat.two_pow_pos k
    omega
  unfold encroachPlace
  refine (nth_silent _ _).costBind fun l => (nth_silent _ _).costBind fun b => (hg b).costBind fun x => ?_
  refine Cost.tickBind fun b => ?_
  refine Cost.ite (fun _ => ?_) fun _ => ?_
  · refine (lowerBoundBy_cost (fun i => ?_) k _ _ hk).bind fun p c hc => Cost.pure (by omega)
    refine (nth_silent _ _).costBind fun l => (nth_silent _ _).costBind fun b => (hg b).costBind fun x => ?_
    exact Cost.tick (Nat.le_refl _)
  · refine (nth_silent _ _).costBind fun b => (hg b).costBind fun x => ?_
    refine Cost.tickBind fun b => ?_
    refine Cost.ite (fun _ => ?_) fun _ => Cost.pure (by omega)
    refine (lowerBoundBy_cost (fun i => ?_) k _ _ hk).bind fun p c hc => Cost.pure (by omega)
    refine (nth_silent _ _).costBind fun l => (nth_silent _ _).costBind fun b => (hg b).costBind fun x => ?_
    exact Cost.tick (Nat.le_refl _)

theorem encroachPut_cost {β : Type} {L : List (List β)} {x : β} (p : Place) :
    Cost (α := α) N (encroachPut L x p)
      (fun r c => r.length ≤ L.length + 1 ∧ r.flatten.length = L.flatten.length + 1 ∧ c = 0) := by
  cases p with
  | back i =>
    unfold encroachPut
    refine nth_cost.bind fun l c hc => Cost.pure ⟨by simp, ?_, by omega⟩
    have := flatten_set_length (l ++ [x]) hc.1
    simp only [List.length_append, List.length_cons, List.length_nil] at this
    omega
  | front i =>
    unfold encroachPut
    refine nth_cost.bind fun l c hc => Cost.pure ⟨by simp, ?_, by omega⟩
    have := flatten_set_length (x :: l) hc.1
    simp only [List.length_cons] at this
    omega
  | fresh =>
    unfold encroachPut
    exact Cost.pure ⟨by simp, by simp, rfl⟩

theorem melEncroach_cost {k l : Nat} : ∀ (d it : Nat) (L : List (List α)), l - it ≤ d → it ≤ l →
    L.length + d ≤ 2 ^ k → Cost N (melEncroach (tick lt) L it l) (fun r c => r.length ≤ L.length + d ∧
      r.flatten.length ≤ L.flatten.length + d ∧ c ≤ d * (k + 2)) := by
  intro d
  induction d with
  | zero =>
    intro it L hd hi hL
    rw [melEncroach, if_neg (by omega)]
    exact Cost.pure ⟨by omega, by omega, by omega⟩
  | succ d ih =>
    intro it L hd hi hL
    rw [melEncroach]
    refine Cost.ite (fun h => ?_) fun _ => Cost.pure ⟨by omega, by omega, by omega⟩
    refine (silent_read _).costBind fun v => ?_
    refine (encroachPlace_cost (fun _ => Silent.pure) (k := k) (by omega)).bind fun p c hc => ?_
    refine (silent_moveOut _).costBind fun x => ?_
    refine (encroachPut_cost p).bind fun R c' hc' => ?_
    refine (ih (it + 1) R (by omega) (by omega) (by omega)).mono fun r c'' h'' => ⟨by omega, by omega, ?_⟩
    rw [Nat.succ_mul]
    omega

theorem extractFronts_cost : ∀ L : List (List α), Cost (α := α) N (extractFronts L)
    (fun r c => r.1.length + r.2.flatten.length ≤ L.flatten.length ∧ r.2.length = L.length ∧ c = 0) := by
  intro L
  induction L with
  | nil => rw [extractFronts]; exact Cost.pure ⟨by simp, rfl, rfl⟩
  | cons l L ih =>
    rw [extractFronts]
    refine nth_cost.bind fun x c hc => ?_
    refine ih.bind fun r c' hc' => ?_
    obtain ⟨e, R⟩ := r
    dsimp only at hc' ⊢
    obtain ⟨hl, -⟩ := List.getElem?_eq_some_iff.1 hc.1
    refine Cost.pure ⟨?_, by simp only [List.length_cons]; omega, by omega⟩
    simp only [List.length_cons, List.flatten_cons, List.length_append, List.length_drop]
    omega

theorem extractBacks_cost : ∀ L : List (List α), Cost (α := α) N (extractBacks L)
    (fun r c => r.1.length + r.2.flatten.length ≤ L.flatten.length ∧ r.2.length = L.length ∧ c = 0) := by
  intro L
  induction L with
  | nil => rw [extractBacks]; exact Cost.pure ⟨by simp, rfl, rfl⟩
  | cons l L ih =>
    rw [extractBacks]
    refine ih.bind fun r c' hc' => ?_
    obtain ⟨e, R⟩ := r
    dsimp only at hc' ⊢
    refine nth_cost.bind fun x c hc => ?_
    obtain ⟨hl, -⟩ := List.getElem?_eq_some_iff.1 hc.1
    refine Cost.pure ⟨?_, by simp only [List.length_cons]; omega, by omega⟩
    simp only [List.flatten_cons, List.length_append, List.length_dropLast, List.length_cons, List.length_nil]
    omega

theorem popEmpty_cost {L : List (List α)} : Cost (α := α) N (popEmpty L)
    (fun r c => r.flatten.length ≤ L.flatten.length ∧ r.length ≤ L.length ∧ c = 0) := by
  unfold popEmpty
  refine (nth_silent _ _).costBind fun l => Cost.pure ?_
  split
  · rw [List.dropLast_eq_take]
    exact ⟨flatten_take_length _ _, by simp, rfl⟩
  · exact ⟨Nat.le_refl _, Nat.le_refl _, rfl⟩

theorem extractEdges_cost {L : List (List α)} : Cost (α := α) N (extractEdges L)
    (fun r c => r.1.length + r.2.flatten.length ≤ L.flatten.length ∧ r.2.length ≤ L.length ∧ c = 0) := by
  unfold extractEdges
  refine (extractFronts_cost L).bind fun r c hc => ?_
  obtain ⟨e, R⟩ := r
  dsimp only at hc ⊢
  refine popEmpty_cost.bind fun R' c' hc' => ?_
  refine (extractBacks_cost R').bind fun r c'' hc'' => ?_
  obtain ⟨e', R''⟩ := r
  dsimp only at hc'' ⊢
  refine Cost.pure ⟨?_, ?_, by omega⟩
  · dsimp only
    rw [flatten_filter, List.length_append]
    omega
  · dsimp only
    have := List.length_filter_le (!·.isEmpty) R''
    omega

theorem moveList_silent : ∀ (ys : List α) (f : Nat), Silent (moveList f ys) := by
  intro ys
  induction ys with
  | nil => intro f; rw [moveList]; exact Silent.pure
  | cons y ys ih => intro f; rw [moveList]; exact (silent_assign _ _).bind fun _ => ih _

theorem mergeMoveLists_cost : ∀ (n : Nat) (xs ys : List α) (f : Nat), xs.length + ys.length = n →
    Cost N (mergeMoveLists (tick lt) f xs ys) (fun _ c => c ≤ xs.length + ys.length) := by
  intro n
  induction n using Nat.strongRecOn with
  | ind n ih =>
    intro xs ys f hn
    match xs, ys with
    | [], ys => rw [mergeMoveLists]; exact (moveList_silent _ _).cost (by omega)
    | x :: xs, [] =>
      rw [mergeMoveLists] <;> first | exact (moveList_silent _ _).cost (by omega) | simp
    | x :: xs, y :: ys =>
      simp only [List.length_cons] at hn ⊢
      rw [mergeMoveLists]
      refine Cost.tickBind fun b => ?_
      refine Cost.ite (fun _ => ?_) fun _ => ?_
      · refine (silent_assign _ _).costBind fun _ => ?_
        refine (ih _ (by simp only [List.length_cons]; omega) (x :: xs) ys _ rfl).mono fun r c hc => ?_
        simp only [List.length_cons] at hc
        omega
      · refine (silent_assign _ _).costBind fun _ => ?_
        refine (ih _ (by simp only [List.length_cons]; omega) xs (y :: ys) _ rfl).mono fun r c hc => ?_
        simp only [List.length_cons] at hc
        omega

theorem moveLists_cost {L : List (List α)} {f : Nat} :
    Cost N (moveLists (tick lt) f L) (fun _ c => c ≤ L.flatten.length) := by
  unfold moveLists
  split
  · refine (mergeMoveLists_cost _ _ _ _ rfl).mono fun _ c hc => by simpa using hc
  · exact (moveList_silent _ _).cost (by omega)
  · exact Cost.pure (by omega)

theorem addEdges_cost {L : List (List α)} {e : List α} : Cost N (addEdges (tick lt) L e)
    (fun r c => r.flatten.length ≤ L.flatten.length + e.length ∧ c ≤ 2 * (L.flatten.length + e.length)) := by
  unfold addEdges
  refine Cost.ite (fun _ => Cost.pure ⟨by simp, by omega⟩) fun _ => ?_
  refine nth_cost.bind fun l c hc => ?_
  refine (fslMerge_mergeCost l e).bind fun m c' hc' => ?_
  have h1 := flatten_set_length m hc.1
  have h2 := flatten_drop_length hc.1
  have h3 := congrArg (fun l => l.flatten.length) (List.take_append_drop (L.length - 1) L)
  simp only [List.flatten_append, List.length_append] at h3
  exact Cost.pure ⟨by omega, by omega⟩

theorem mergeEncroachingLists_cost {L : List (List α)} {f k : Nat} {edges : Bool} (hk : L.length < 2 ^ (k + 1)) :
    Cost N (mergeEncroachingLists (tick lt) L f edges) (fun _ c => c ≤ L.flatten.length * (4 * k + 3)) := by
  have e : L.flatten.length * (4 * k + 3) = 4 * L.flatten.length * k + 3 * L.flatten.length := by ring
  rw [e]
  unfold mergeEncroachingLists
  refine Cost.ite (fun _ => ?_) fun _ => ?_
  · refine extractEdges_cost.bind fun r c hc => ?_
    obtain ⟨e, R⟩ := r
    dsimp only at hc ⊢
    refine (melMergeLists_cost k R (by omega)).bind fun R' c1 hc1 => ?_
    refine addEdges_cost.bind fun R2 c2 hc2 => ?_
    refine moveLists_cost.mono fun _ c3 hc3 => ?_
    have : 4 * R.flatten.length * k ≤ 4 * L.flatten.length * k := Nat.mul_le_mul_right _ (by omega)
    omega
  · refine (melMergeLists_cost k L hk).bind fun R' c1 hc1 => ?_
    refine moveLists_cost.mono fun _ c3 hc3 => ?_
    omega

theorem melsort_cost {bad : Nat → Nat → Bool} {f n : Nat} :
    Cost N (melsort (tick lt) bad f (f + n)) (fun _ c => c ≤ n * (5 * n.log2 + 6)) := by
  unfold melsort
  refine Cost.ite (fun _ => Cost.pure (Nat.zero_le _)) fun h => ?_
  have hn : n ≠ 0 := by omega
  have hk : n < 2 ^ (n.log2 + 1) := Nat.lt_log2_self
  refine (silent_moveOut _).costBind fun x => ?_
  refine (melEncroach_cost (k := n.log2 + 1) (n - 1) (f + 1) [[x]] (by omega) (by omega)
    (by simp only [List.length_cons, List.length_nil]; omega)).bind fun L c hc => ?_
  simp only [List.length_cons, List.length_nil, List.flatten_cons, List.flatten_nil, List.length_append] at hc
  refine (mergeEncroachingLists_cost (k := n.log2) (by omega)).mono fun _ c' hc' => ?_
  have h1 : L.flatten.length * (4 * n.log2 + 3) ≤ n * (4 * n.log2 + 3) := Nat.mul_le_mul_right _ (by omega)
  have h2 : (n - 1) * (n.log2 + 1 + 2) ≤ n * (n.log2 + 1 + 2) := Nat.mul_le_mul_right _ (by omega)
  have e : n * (5 * n.log2 + 6) = n * (4 * n.log2 + 3) + n * (n.log2 + 1 + 2) := by ring
  omega

theorem listMergeSort_cost : ∀ (k : Nat) (xs : List α), xs.length ≤ 2 ^ k →
    Cost N (listMergeSort (tick lt) xs) (fun r c => r.length = xs.length ∧ c ≤ xs.length * k) := by
  intro k
  induction k with
  | zero =>
    intro xs h
    rw [listMergeSort, if_pos (by simp at h; omega)]
    exact Cost.pure ⟨rfl, Nat.zero_le _⟩
  | succ k ih =>
    intro xs h
    rw [Nat.pow_succ] at h
    rw [listMergeSort]
    refine Cost.ite (fun _ => Cost.pure ⟨rfl, Nat.zero_le _⟩) fun h2 => ?_
    dsimp only
    refine (ih _ (by rw [List.length_take]; omega)).bind fun l c hc => ?_
    refine (ih _ (by rw [List.length_drop]; omega)).bind fun r c' hc' => ?_
    refine (listMerge_cost _ _ _ rfl).mono fun m c'' hc'' => ?_
    rw [List.length_take] at hc
    rw [List.length_drop] at hc'
    refine ⟨by omega, ?_⟩
    have e : xs.length * (k + 1) = min (xs.length / 2) xs.length * k + (xs.length - xs.length / 2) * k + xs.length := by
      rw [← Nat.add_mul, Nat.mul_succ, show min (xs.length / 2) xs.length + (xs.length - xs.length / 2) = xs.length by omega]
    omega

theorem flistMergeSort_cost : ∀ (k : Nat) (xs : List α), xs.length ≤ 2 ^ k →
    Cost N (flistMergeSort (tick lt) xs xs.length) (fun r c => r.length = xs.length ∧ c ≤ xs.length * k) := by
  intro k
  induction k with
  | zero =>
    intro xs h
    rw [flistMergeSort, if_pos (by simp at h; omega)]
    exact Cost.pure ⟨rfl, Nat.zero_le _⟩
  | succ k ih =>
    intro xs h
    rw [Nat.pow_succ] at h
    rw [flistMergeSort]
    refine Cost.ite (fun _ => Cost.pure ⟨rfl, Nat.zero_le _⟩) fun h2 => ?_
    rw [if_neg (by omega)]
    dsimp only
    have i1 := ih (xs.take (xs.length / 2)) (by rw [List.length_take]; omega)
    have i2 := ih (xs.drop (xs.length / 2)) (by rw [List.length_drop]; omega)
    rw [List.length_take, Nat.min_eq_left (by omega)] at i1
    rw [List.length_drop] at i2
    refine i1.bind fun l c hc => i2.bind fun r c' hc' => ?_
    refine (listMerge_cost _ _ _ rfl).mono fun m c'' hc'' => ?_
    refine ⟨by omega, ?_⟩
    have e : xs.length * (k + 1) = xs.length / 2 * k + (xs.length - xs.length / 2) * k + xs.length := by
      rw [← Nat.add_mul, Nat.mul_succ, show xs.length / 2 + (xs.length - xs.length / 2) = xs.length by omega]
    omega

theorem listEncroach_cost {k : Nat} : ∀ (xs : List α) (L : List (List α)), L.length + xs.length ≤ 2 ^ k →
    Cost N (listEncroach (tick lt) L xs) (fun r c => r.length ≤ L.length + xs.length ∧
      r.flatten.length ≤ L.flatten.length + xs.length ∧ c ≤ xs.length * (k + 2)) := by
  intro xs
  induction xs with
  | nil => intro L _; rw [listEncroach]; exact Cost.pure ⟨by simp, by simp, by simp⟩
  | cons x xs ih =>
    intro L hL
    simp only [List.length_cons] at hL ⊢
    have hk : L.length - 1 < 2 ^ k := by omega
    rw [Nat.succ_mul]
    rw [listEncroach]
    unfold back
    refine (nth_silent _ _).costBind fun l => (nth_silent _ _).costBind fun b => ?_
    refine Cost.tickBind fun b => ?_
    refine Cost.ite (fun _ => ?_) fun _ => ?_
    · refine (lowerBoundBy_cost (fun i => ?_) k _ _ hk).bind fun p c hc => ?_
      · refine (nth_silent _ _).costBind fun l => (nth_silent _ _).costBind fun b => ?_
        exact Cost.tick (Nat.le_refl _)
      · refine nth_cost.bind fun l c' hc' => ?_
        have := flatten_set_length (l ++ [x]) hc'.1
        simp only [List.length_append, List.length_cons, List.length_nil] at this
        refine (ih _ (by simp only [List.length_set]; omega)).mono fun r c'' h => ?_
        simp only [List.length_set] at h
        exact ⟨by omega, by omega, by omega⟩
    · refine (nth_silent _ _).costBind fun b => ?_
      refine Cost.tickBind fun b => ?_
      refine Cost.ite (fun _ => ?_) fun _ => ?_
      · refine (lowerBoundBy_cost (fun i => ?_) k _ _ hk).bind fun p c hc => ?_
        · refine (nth_silent _ _).costBind fun l => (nth_silent _ _).costBind fun b => ?_
          exact Cost.tick (Nat.le_refl _)
        · refine nth_cost.bind fun l c' hc' => ?_
          have := flatten_set_length (x :: l) hc'.1
          simp only [List.length_cons] at this
          refine (ih _ (by simp only [List.length_set]; omega)).mono fun r c'' h => ?_
          simp only [List.length_set] at h
          exact ⟨by omega, by omega, by omega⟩
      · refine (ih _ (by simp; omega)).mono fun r c'' h => ?_
        simp only [List.length_append, List.length_cons, List.length_nil, List.flatten_append, List.flatten_cons,
          List.flatten_nil] at h
        exact ⟨by omega, by omega, by omega⟩

theorem listMelSort_cost {xs : List α} : Cost N (listMelSort (tick lt) xs)
    (fun _ c => c ≤ xs.length * (5 * xs.length.log2 + 3)) := by
  unfold listMelSort
  refine Cost.ite (fun _ => Cost.pure (Nat.zero_le _)) fun h => ?_
  have hk : xs.length < 2 ^ (xs.length.log2 + 1) := Nat.lt_log2_self
  refine (nth_silent _ _).costBind fun x => ?_
  refine (listEncroach_cost (k := xs.length.log2 + 1) (xs.drop 1) [[x]] (by simp; omega)).bind fun L c hc => ?_
  simp only [List.length_cons, List.length_nil, List.flatten_cons, List.flatten_nil, List.length_append,
    List.length_drop] at hc
  refine (mergeLists_cost xs.length.log2 L (by omega)).bind fun R c' hc' => ?_
  refine (nth_silent _ _).cost fun _ => ?_
  have h1 : 4 * L.flatten.length * xs.length.log2 ≤ 4 * xs.length * xs.length.log2 := Nat.mul_le_mul_right _ (by omega)
  have h2 : (xs.length - 1) * (xs.length.log2 + 1 + 2) ≤ xs.length * (xs.length.log2 + 1 + 2) :=
    Nat.mul_le_mul_right _ (by omega)
  have e : xs.length * (5 * xs.length.log2 + 3) =
    4 * xs.length * xs.length.log2 + xs.length * (xs.length.log2 + 1 + 2) := by ring
  omega

theorem flistEncroach_cost {k : Nat} : ∀ (xs : List α) (L : List (List α × Nat)), L.length + xs.length ≤ 2 ^ k →
    Cost N (flistEncroach (tick lt) L xs) (fun r c => r.length ≤ L.length + xs.length ∧
      (r.map (·.1)).flatten.length ≤ (L.map (·.1)).flatten.length + xs.length ∧ c ≤ xs.length * (k + 2)) := by
  intro xs
  induction xs with
  | nil => intro L _; rw [flistEncroach]; exact Cost.pure ⟨by simp, by simp, by simp⟩
  | cons x xs ih =>
    intro L hL
    simp only [List.length_cons] at hL ⊢
    have hk : L.length - 1 < 2 ^ k := by omega
    have set : ∀ (p : Nat) (l : List α × Nat) (m : List α × Nat), L[p]? = some l → m.1.length ≤ l.1.length + 1 →
        ((L.set p m).map (·.1)).flatten.length ≤ (L.map (·.1)).flatten.length + 1 := by
      intro p l m h h'
      rw [List.map_set]
      have := flatten_set_length (L := L.map (·.1)) (i := p) (l := l.1) m.1 (by rw [List.getElem?_map, h]; rfl)
      omega
    rw [Nat.succ_mul]
    rw [flistEncroach]
    refine (nth_silent _ _).costBind fun l => (nth_silent _ _).costBind fun b => ?_
    refine Cost.tickBind fun b => ?_
    refine Cost.ite (fun _ => ?_) fun _ => ?_
    · refine (lowerBoundBy_cost (fun i => ?_) k _ _ hk).bind fun p c hc => ?_
      · refine (nth_silent _ _).costBind fun l => (nth_silent _ _).costBind fun b => ?_
        exact Cost.tick (Nat.le_refl _)
      · refine nth_cost.bind fun l c' hc' => ?_
        have := set p l (l.1.insertIdx (l.2 + 1) x, l.2 + 1) hc'.1 (by
          dsimp only
          rw [List.length_insertIdx]
          split <;> omega)
        refine (ih _ (by simp only [List.length_set]; omega)).mono fun r c'' h => ?_
        simp only [List.length_set] at h
        exact ⟨by omega, by omega, by omega⟩
    · refine (nth_silent _ _).costBind fun b => ?_
      refine Cost.tickBind fun b => ?_
      refine Cost.ite (fun _ => ?_) fun _ => ?_
      · refine (lowerBoundBy_cost (fun i => ?_) k _ _ hk).bind fun p c hc => ?_
        · refine (nth_silent _ _).costBind fun l => (nth_silent _ _).costBind fun b => ?_
          exact Cost.tick (Nat.le_refl _)
        · refine nth_cost.bind fun l c' hc' => ?_
          have := set p l (x :: l.1, l.2 + 1) hc'.1 (by simp)
          refine (ih _ (by simp only [List.length_set]; omega)).mono fun r c'' h => ?_
          simp only [List.length_set] at h
          exact ⟨by omega, by omega, by omega⟩
      · refine (ih _ (by simp; omega)).mono fun r c'' h => ?_
        simp only [List.length_append, List.length_cons, List.length_nil, List.map_append, List.map_cons, List.map_nil,
          List.flatten_append, List.flatten_cons, List.flatten_nil] at h
        exact ⟨by omega, by omega, by omega⟩

theorem flistMelSort_cost {xs : List α} : Cost N (flistMelSort (tick lt) xs)
    (fun _ c => c ≤ xs.length * (5 * xs.length.log2 + 3)) := by
  unfold flistMelSort
  refine Cost.ite (fun _ => Cost.pure (Nat.zero_le _)) fun h => ?_
  have hk : xs.length < 2 ^ (xs.length.log2 + 1) := Nat.lt_log2_self
  refine (nth_silent _ _).costBind fun x => ?_
  refine (flistEncroach_cost (k := xs.length.log2 + 1) (xs.drop 1) [([x], 0)] (by simp; omega)).bind fun L c hc => ?_
  simp only [List.length_cons, List.length_nil, List.map_cons, List.map_nil, List.flatten_cons, List.flatten_nil,
    List.length_append, List.length_drop] at hc
  refine (mergeLists_cost xs.length.log2 (L.map (·.1)) (by rw [List.length_map]; omega)).bind fun R c' hc' => ?_
  refine (nth_silent _ _).cost fun _ => ?_
  have h1 : 4 * (L.map (·.1)).flatten.length * xs.length.log2 ≤ 4 * xs.length * xs.length.log2 :=
    Nat.mul_le_mul_right _ (by omega)
  have h2 : (xs.length - 1) * (xs.length.log2 + 1 + 2) ≤ xs.length * (xs.length.log2 + 1 + 2) :=
    Nat.mul_le_mul_right _ (by omega)
  have e : xs.length * (5 * xs.length.log2 + 3) =
    4 * xs.length * xs.length.log2 + xs.length * (xs.length.log2 + 1 + 2) := by ring
  omega

end CppSort
