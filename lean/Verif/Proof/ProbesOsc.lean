import Verif.Proof.ProbesSorted
import Mathlib.Algebra.BigOperators.Group.List.Basic
import Mathlib.Tactic.Ring
import Mathlib.Tactic.Linarith
set_option autoImplicit false

namespace CppSort
variable {α β γ : Type} {lt : α → α → Bool}

/-- The pair strictly encloses `x`. -/
def between (lt : α → α → Bool) (x : α) (p : α × α) : Bool :=
  (lt p.1 x && lt x p.2) || (lt p.2 x && lt x p.1)

/-- The number of adjacent pairs that strictly enclose `x`. -/
def crossings (lt : α → α → Bool) (xs : List α) (x : α) : Nat :=
  (xs.zip xs.tail).countP (between lt x)

/-- The oscillation measure: the sum over the elements of the number of adjacent pairs that strictly
enclose them. -/
def oscOf (lt : α → α → Bool) (xs : List α) : Nat := (xs.map (crossings lt xs)).sum

theorem pairs_drop {xs : List α} {c : Nat} (h : c + 1 < xs.length) :
    (xs.drop c).zip (xs.drop c).tail =
      (xs[c], xs[c + 1]) :: (xs.drop (c + 1)).zip (xs.drop (c + 1)).tail := by
  rw [List.drop_eq_getElem_cons (show c < xs.length by omega), List.tail_cons,
    List.drop_eq_getElem_cons h, List.zip_cons_cons, List.tail_cons]

theorem pairs_last {xs : List α} {c : Nat} (h : xs.length ≤ c + 1) :
    (xs.drop c).zip (xs.drop c).tail = [] := by
  rw [List.tail_drop, List.drop_of_length_le h, List.zip_nil_right]

theorem oscInner_runs (hlt : StrictWeak lt) {xs : List α} {v : α} : ∀ (n c count : Nat),
    c + 1 + n = xs.length → Runs (oscInner lt xs v c (c + 1) count) (fun r =>
      r = count + ((xs.drop c).zip (xs.drop c).tail).countP (between lt v)) := by
  intro n
  induction n with
  | zero =>
    intro c count h
    rw [oscInner, if_neg (by omega), pairs_last (by omega)]
    exact Runs.pure rfl
  | succ n ih =>
    intro c count h
    have h1 : c + 1 < xs.length := by omega
    have h0 : c < xs.length := by omega
    rw [oscInner, if_pos (by omega), pairs_drop h1, List.countP_cons]
    generalize ha : xs[c] = a
    generalize hb : xs[c + 1] = b
    refine Runs.nthBind (by rw [List.getElem?_eq_getElem h0, ha])
      (Runs.nthBind (by rw [List.getElem?_eq_getElem h1, hb]) (Runs.tickBind ?_))
    have nxt : ∀ k, k = count + (if between lt v (a, b) = true then 1 else 0) →
        Runs (oscInner lt xs v (c + 1) (c + 1 + 1) k) (fun r => r = count +
          (((xs.drop (c + 1)).zip (xs.drop (c + 1)).tail).countP (between lt v) +
            if between lt v (a, b) = true then 1 else 0)) := by
      intro k hk
      refine (ih (c + 1) k (by omega)).mono fun r hr => ?_
      rw [hr, hk]; omega
    have e1 : ∀ k, between lt v (a, b) = true → k = count + 1 →
        k = count + (if between lt v (a, b) = true then 1 else 0) := by
      intro k h hk; rw [if_pos h]; exact hk
    have e0 : between lt v (a, b) = false →
        count = count + (if between lt v (a, b) = true then 1 else 0) := by
      intro h; rw [h]; rfl
    by_cases hba : lt b a = true
    · rw [if_pos hba]
      have hab := hlt.asymm hba
      refine Runs.tickBind (Runs.ite (fun hc => Runs.tickBind ?_) fun hc => nxt _ (e0 ?_))
      · rw [if_neg (by simp [hab])]
        refine Runs.tickBind (Runs.ite (fun hd => nxt _ (e1 _ ?_ rfl)) fun hd => nxt _ (e0 ?_))
        · simp [between, hc, hd]
        · have hd : lt v a = false := by simpa using hd
          simp only [between, hd, Bool.and_false, Bool.or_false, Bool.and_eq_false_iff]
          exact .inr (hlt.asymm hc)
      · have hc : lt b v = false := by simpa using hc
        simp only [between, hc, Bool.false_and, Bool.or_false, Bool.and_eq_false_iff]
        left
        cases e : lt a v with
        | false => rfl
        | true => rw [hlt.trans _ _ _ hba e] at hc; exact absurd hc (by simp)
    · rw [if_neg hba]
      have hba : lt b a = false := by simpa using hba
      refine Runs.tickBind (Runs.ite (fun hc => Runs.tickBind ?_) fun hc => nxt _ (e0 ?_))
      · have hbv : lt b v = true → lt v a = false := fun _ => hlt.asymm hc
        by_cases hab : lt a b = true
        · rw [if_pos hab]
          refine Runs.tickBind (Runs.ite (fun hd => nxt _ (e1 _ ?_ rfl)) fun hd => nxt _ (e0 ?_))
          · simp [between, hc, hd]
          · simp only [between, hlt.asymm hc, Bool.and_false, Bool.or_false, Bool.and_eq_false_iff]
            exact .inr (by simpa using hd)
        · rw [if_neg hab]
          refine Runs.tickBind (Runs.ite (fun hd => ?_) fun hd => nxt _ (e0 ?_))
          · rw [hlt.asymm hc] at hd; exact absurd hd (by simp)
          · simp only [between, hlt.asymm hc, Bool.and_false, Bool.or_false, Bool.and_eq_false_iff]
            right
            have hab : lt a b = false := by simpa using hab
            have := hlt.lt_of_le_of_lt hab hc
            exact hlt.asymm this
      · have hc : lt a v = false := by simpa using hc
        simp only [between, hc, Bool.false_and, Bool.false_or, Bool.and_eq_false_iff]
        cases e : lt b v with
        | false => exact .inl rfl
        | true =>
          have := hlt.lt_of_le_of_lt (show lt b a = false from hba) (hlt.lt_of_lt_of_le e hc)
          exact absurd this (by simp [hlt.irrefl])

theorem oscOuter_runs (hlt : StrictWeak lt) {xs : List α} (h2 : 2 ≤ xs.length) : ∀ (n it count : Nat),
    it + n = xs.length → Runs (oscOuter lt xs it count) (fun r =>
      r = count + ((xs.drop it).map (crossings lt xs)).sum) := by
  intro n
  induction n with
  | zero =>
    intro it count h
    rw [oscOuter, if_neg (by omega), List.drop_of_length_le (by omega)]
    exact Runs.pure rfl
  | succ n ih =>
    intro it count h
    have h0 : it < xs.length := by omega
    rw [oscOuter, if_pos (by omega)]
    refine Runs.nthBind (List.getElem?_eq_getElem h0) ?_
    refine (oscInner_runs hlt (xs.length - 1) 0 count (by omega)).bind fun r hr => ?_
    refine (ih (it + 1) r (by omega)).mono fun r' hr' => ?_
    rw [List.drop_eq_getElem_cons h0, List.map_cons, List.sum_cons, hr', hr]
    simp only [List.drop_zero, crossings]
    omega

theorem oscOf_short {xs : List α} (h : xs.length < 2) : oscOf lt xs = 0 := by
  match xs, h with
  | [], _ => rfl
  | [_], _ => rfl
  | _ :: _ :: _, h => simp at h; omega

theorem oscInplace_runs (hlt : StrictWeak lt) (xs : List α) :
    Runs (oscInplace lt xs) (fun r => r = oscOf lt xs) := by
  unfold oscInplace
  refine Runs.ite (fun h => Runs.pure ?_) fun h => ?_
  · rw [oscOf_short h]; rfl
  · refine (oscOuter_runs hlt (by omega) xs.length 0 0 (by omega)).bind fun r hr => Runs.pure ?_
    rw [hr, List.drop_zero, Nat.zero_add]; rfl

/-! ### The allocating algorithm -/

theorem sum_map_add' (f g : β → Nat) (ps : List β) :
    (ps.map (fun q => f q + g q)).sum = (ps.map f).sum + (ps.map g).sum := by
  induction ps with
  | nil => rfl
  | cons q ps ih => simp only [List.map_cons, List.sum_cons, ih]; omega

theorem sum_map_ite (p : β → Bool) (ps : List β) :
    (ps.map (fun q => if p q = true then 1 else 0)).sum = ps.countP p := by
  induction ps with
  | nil => rfl
  | cons q ps ih => rw [List.map_cons, List.sum_cons, ih, List.countP_cons, Nat.add_comm]

theorem double_count {p : α → β → Bool} (xs : List α) (ps : List β) :
    (xs.map (fun x => ps.countP (p x))).sum = (ps.map (fun q => xs.countP (fun x => p x q))).sum := by
  induction xs with
  | nil =>
    induction ps with
    | nil => rfl
    | cons q ps ih => simp
  | cons x xs ih =>
    simp only [List.map_cons, List.sum_cons, ih, List.countP_cons]
    rw [sum_map_add', sum_map_ite]
    omega

/-- The number of elements strictly between `a` and `b`. -/
theorem count_between (hlt : StrictWeak lt) {a b : α} (h : lt a b = true) (xs : List α) :
    rankLo lt xs b = rankHi lt xs a + xs.countP (fun x => between lt x (a, b)) := by
  unfold rankLo rankHi
  induction xs with
  | nil => rfl
  | cons x xs ih =>
    simp only [List.countP_cons, ih]
    have : ∀ x, (if lt x b = true then 1 else 0) =
        (if (!lt a x) = true then 1 else 0) + (if between lt x (a, b) = true then 1 else 0) := by
      intro x
      simp only [between]
      by_cases hax : lt a x = true
      · simp [hax, hlt.asymm hax]
      · have hax : lt a x = false := by simpa using hax
        have := hlt.lt_of_le_of_lt hax h
        simp [hax, this, hlt.asymm this]
    have := this x
    omega

theorem between_swap (x a b : α) : between lt x (a, b) = between lt x (b, a) := by
  simp [between, Bool.or_comm]

theorem between_eqv (hlt : StrictWeak lt) {a b : α} (h : lt a b = false) (h' : lt b a = false) (x : α) :
    between lt x (a, b) = false := by
  simp only [between, Bool.or_eq_false_iff, Bool.and_eq_false_iff]
  constructor
  · cases e : lt a x with
    | false => exact .inl rfl
    | true => exact .inr (hlt.asymm (hlt.lt_of_le_of_lt h e))
  · cases e : lt b x with
    | false => exact .inl rfl
    | true => exact .inr (hlt.asymm (hlt.lt_of_le_of_lt h' e))

/-- The sum of the partial sums. -/
def wsum : List Int → Int
  | [] => 0
  | c :: cs => (cs.length + 1) * c + wsum cs

theorem partialSums_sum : ∀ (cs : List Int) (acc : Int),
    (partialSums acc cs).sum = acc * cs.length + wsum cs := by
  intro cs
  induction cs with
  | nil => intro acc; simp [partialSums, wsum]
  | cons c cs ih =>
    intro acc
    rw [partialSums, List.sum_cons, ih, wsum, List.length_cons]
    push_cast
    ring

theorem wsum_set : ∀ (cs : List Int) (k : Nat) (h : k < cs.length) (v : Int),
    wsum (cs.set k v) = wsum cs + (cs.length - k) * (v - cs[k]) := by
  intro cs
  induction cs with
  | nil => intro k h; simp at h
  | cons c cs ih =>
    intro k h v
    cases k with
    | zero => simp [wsum]; ring
    | succ k =>
      have h' : k < cs.length := by simpa using h
      rw [List.set_cons_succ, wsum, wsum, ih k h' v, List.length_set]
      simp only [List.getElem_cons_succ, List.length_cons]
      push_cast
      ring

theorem wsum_replicate (n : Nat) : wsum (List.replicate n 0) = 0 := by
  induction n with
  | zero => rfl
  | succ n ih => rw [List.replicate_succ, wsum, ih]; simp

theorem oscCross_runs {cross : List Int} {lo hi n : Nat} (hc : cross.length = n) (hlo : lo < n)
    (hhi : hi < n) : Runs (α := α) (oscCross cross lo hi) (fun r =>
      r.length = n ∧ wsum r = wsum cross + hi - lo) := by
  unfold oscCross
  have h1 : lo < cross.length := by omega
  refine Runs.nthBind (List.getElem?_eq_getElem h1) ?_
  have h2 : hi < (cross.set lo (cross[lo] + 1)).length := by rw [List.length_set]; omega
  refine Runs.nthBind (List.getElem?_eq_getElem h2) (Runs.pure ⟨by simp [hc], ?_⟩)
  rw [wsum_set _ _ h2, wsum_set _ _ h1, List.length_set]
  ring

theorem rankLo_lt (hlt : StrictWeak lt) {xs : List α} {v : α} (h : v ∈ xs) :
    rankLo lt xs v < xs.length := by
  unfold rankLo
  refine lt_of_le_of_ne List.countP_le_length fun e => ?_
  have := List.countP_eq_length.1 e v h
  rw [hlt.irrefl] at this
  exact absurd this (by simp)

theorem rank_eqv (hlt : StrictWeak lt) {a b : α} (h : lt a b = false) (h' : lt b a = false) (xs : List α) :
    rankLo lt xs a = rankLo lt xs b ∧ rankHi lt xs a = rankHi lt xs b := by
  have h1 : ∀ x, lt x a = lt x b := by
    intro x
    cases e : lt x a with
    | true => exact (hlt.lt_of_lt_of_le e h').symm
    | false =>
      cases e' : lt x b with
      | false => rfl
      | true => rw [hlt.lt_of_lt_of_le e' h] at e; exact absurd e (by simp)
  have h2 : ∀ x, lt a x = lt b x := by
    intro x
    cases e : lt a x with
    | true => exact (hlt.lt_of_le_of_lt h e).symm
    | false =>
      cases e' : lt b x with
      | false => rfl
      | true => rw [hlt.lt_of_le_of_lt h' e'] at e; exact absurd e (by simp)
  unfold rankLo rankHi
  simp only [h1, h2, and_self]

theorem oscLoop_runs (hlt : StrictWeak lt) {xs : List α} {its : List (α × Nat)} (hi : SortedIts lt xs its) :
    ∀ (n c : Nat) (b : Nat × Nat) (cross : List Int) (h : c + 1 + n = xs.length),
    b.1 = rankLo lt xs xs[c] → b.2 = rankHi lt xs xs[c] → cross.length = xs.length →
    Runs (oscLoop lt xs its c (c + 1) b cross) (fun r => wsum r = wsum cross +
      ((((xs.drop c).zip (xs.drop c).tail).map
        (fun q => xs.countP (fun x => between lt x q))).sum : Nat)) := by
  intro n
  induction n with
  | zero =>
    intro c b cross h _ _ _
    rw [oscLoop, if_neg (by omega), pairs_last (by omega)]
    exact Runs.pure (by simp)
  | succ n ih =>
    intro c b cross h hb1 hb2 hc
    have h1 : c + 1 < xs.length := by omega
    have h0 : c < xs.length := by omega
    rw [oscLoop, if_pos (by omega), pairs_drop h1, List.map_cons, List.sum_cons]
    have nxt : ∀ b' cross', b'.1 = rankLo lt xs xs[c + 1] → b'.2 = rankHi lt xs xs[c + 1] →
        cross'.length = xs.length →
        wsum cross' = wsum cross + (xs.countP (fun x => between lt x (xs[c], xs[c + 1])) : Nat) →
        Runs (oscLoop lt xs its (c + 1) (c + 1 + 1) b' cross') (fun r => wsum r = wsum cross +
          ((xs.countP (fun x => between lt x (xs[c], xs[c + 1])) +
          (((xs.drop (c + 1)).zip (xs.drop (c + 1)).tail).map
            (fun q => xs.countP (fun x => between lt x q))).sum : Nat) : Int)) := by
      intro b' cross' e1 e2 e3 e4
      refine (ih (c + 1) b' cross' (by omega) e1 e2 e3).mono fun r hr => ?_
      rw [hr, e4]
      push_cast
      ring
    have ma : xs[c] ∈ xs := List.getElem_mem h0
    have mb : xs[c + 1] ∈ xs := List.getElem_mem h1
    have ga : xs[c]? = some xs[c] := List.getElem?_eq_getElem h0
    have gb : xs[c + 1]? = some xs[c + 1] := List.getElem?_eq_getElem h1
    revert nxt hb1 hb2 ma mb ga gb
    generalize xs[c] = a
    generalize xs[c + 1] = d
    intro hb1 hb2 nxt ma mb ga gb
    refine Runs.nthBind ga (Runs.nthBind gb (Runs.tickBind ?_))
    refine Runs.ite (fun hab => ?_) fun hab => Runs.tickBind (Runs.ite (fun hba => ?_) fun hba => ?_)
    · refine (hi.equalRange hlt d).bind fun b' hb' => ?_
      have k := count_between hlt hab xs
      have l := rankLo_lt hlt mb
      refine (oscCross_runs hc (by omega) (by omega)).bind fun cr hcr => ?_
      exact nxt _ _ hb'.1 hb'.2 hcr.1 (by rw [hcr.2]; omega)
    · refine (hi.equalRange hlt d).bind fun b' hb' => ?_
      have k := count_between hlt hba xs
      have l := rankLo_lt hlt ma
      simp only [between_swap (lt := lt) _ d a] at k
      refine (oscCross_runs hc (by omega) (by omega)).bind fun cr hcr => ?_
      exact nxt _ _ hb'.1 hb'.2 hcr.1 (by rw [hcr.2]; omega)
    · have hab : lt a d = false := by simpa using hab
      have hba : lt d a = false := by simpa using hba
      obtain ⟨e1, e2⟩ := rank_eqv hlt hab hba xs
      refine nxt _ _ (by rw [hb1, e1]) (by rw [hb2, e2]) hc ?_
      simp only [between_eqv hlt hab hba]
      simp

theorem oscAllocating_keeps [Inhabited α] (hlt : StrictWeak lt) (bl : Bool) (xs : List α) :
    Keeps (oscAllocating lt bl xs) (fun r => r = oscOf lt xs) := by
  unfold oscAllocating
  refine Keeps.ite (fun h => Keeps.pure ?_) fun h => ?_
  · rw [oscOf_short h]; rfl
  · refine (sortedIterators_keeps hlt bl xs).bind fun its hi => Runs.keeps ?_
    have h0 : 0 < xs.length := by omega
    refine Runs.nthBind (List.getElem?_eq_getElem h0) ?_
    refine (hi.equalRange hlt _).bind fun b hb => ?_
    refine (oscLoop_runs hlt hi (xs.length - 1) 0 b _ (by omega) hb.1 hb.2 (by simp)).bind
      fun cr hcr => Runs.pure ?_
    rw [partialSums_sum, hcr, wsum_replicate, oscOf]
    unfold crossings
    rw [double_count]
    simp

theorem probeOsc_keeps [Inhabited α] (hlt : StrictWeak lt) (bl mem : Bool) (xs : List α) :
    Keeps (probeOsc lt bl mem xs) (fun r => r = oscOf lt xs) := by
  unfold probeOsc
  exact Keeps.ite (fun _ => oscAllocating_keeps hlt bl xs) fun _ => (oscInplace_runs hlt xs).keeps

/-! ### The greatest value -/

theorem zip_fst_sublist : ∀ (xs : List α) (ys : List β), ((xs.zip ys).map (·.1)).Sublist xs
  | [], _ => by simp
  | _ :: _, [] => by simp
  | x :: xs, y :: ys => by simpa using zip_fst_sublist xs ys

theorem zip_snd_sublist : ∀ (xs : List α) (ys : List β), ((xs.zip ys).map (·.2)).Sublist ys
  | [], _ => by simp
  | _ :: _, [] => by simp
  | x :: xs, y :: ys => by simpa using zip_snd_sublist xs ys

theorem countP_pairs_fst (p : α → Bool) (xs : List α) :
    (xs.zip xs.tail).countP (fun q => p q.1) ≤ xs.countP p := by
  have : (xs.zip xs.tail).countP (fun q => p q.1) = ((xs.zip xs.tail).map (·.1)).countP p := by
    rw [List.countP_map]; rfl
  rw [this]
  exact (zip_fst_sublist _ _).countP_le

theorem countP_pairs_snd (p : α → Bool) (xs : List α) :
    (xs.zip xs.tail).countP (fun q => p q.2) ≤ xs.countP p := by
  have : (xs.zip xs.tail).countP (fun q => p q.2) = ((xs.zip xs.tail).map (·.2)).countP p := by
    rw [List.countP_map]; rfl
  rw [this]
  exact ((zip_snd_sublist _ _).trans (List.tail_sublist _)).countP_le

theorem countP_or_le (p q r : β → Bool) (h : ∀ x, p x = true → q x = true ∨ r x = true) (ps : List β) :
    ps.countP p ≤ ps.countP q + ps.countP r := by
  induction ps with
  | nil => simp
  | cons x ps ih =>
    simp only [List.countP_cons]
    by_cases hp : p x = true
    · rcases h x hp with e | e <;> simp [hp, e] <;> omega
    · simp [hp]; omega

theorem crossings_lo (xs : List α) (v : α) : crossings lt xs v ≤ 2 * xs.countP (fun x => lt x v) := by
  unfold crossings
  refine le_trans (countP_or_le _ (fun q => lt q.1 v) (fun q => lt q.2 v) ?_ _) ?_
  · intro q hq
    simp only [between, Bool.or_eq_true, Bool.and_eq_true] at hq
    exact hq.imp And.left And.left
  · have := countP_pairs_fst (fun x => lt x v) xs
    have := countP_pairs_snd (fun x => lt x v) xs
    omega

theorem crossings_hi (xs : List α) (v : α) : crossings lt xs v ≤ 2 * xs.countP (fun x => lt v x) := by
  unfold crossings
  refine le_trans (countP_or_le _ (fun q => lt v q.1) (fun q => lt v q.2) ?_ _) ?_
  · intro q hq
    simp only [between, Bool.or_eq_true, Bool.and_eq_true] at hq
    exact (hq.imp And.right And.right).symm
  · have := countP_pairs_fst (fun x => lt v x) xs
    have := countP_pairs_snd (fun x => lt v x) xs
    omega

theorem crossings_cap (hlt : StrictWeak lt) {xs : List α} {v : α} (h2 : 2 ≤ xs.length) (hv : v ∈ xs) :
    crossings lt xs v ≤ xs.length - 2 := by
  have hlen : (xs.zip xs.tail).length = xs.length - 1 := by simp
  have : crossings lt xs v < (xs.zip xs.tail).length := by
    refine lt_of_le_of_ne List.countP_le_length fun e => ?_
    have all := List.countP_eq_length.1 e
    obtain ⟨i, hi, rfl⟩ := List.getElem_of_mem hv
    by_cases hl : i + 1 < xs.length
    · have := all ((xs.zip xs.tail)[i]'(by omega)) (List.getElem_mem _)
      simp [between, hlt.irrefl] at this
    · have := all ((xs.zip xs.tail)[i - 1]'(by omega)) (List.getElem_mem _)
      simp [between, hlt.irrefl, show i - 1 + 1 = i by omega] at this
  omega

/-- The greatest number of pairs that can enclose the element of rank `k` out of `n`. -/
def oscCap (n k : Nat) : Nat := min (min (2 * k) (2 * (n - 1 - k))) (n - 2)

def oscCaps (n : Nat) : Nat := ((List.range n).map (oscCap n)).sum

theorem oscCaps_step (n : Nat) (h : 2 ≤ n) : oscCaps (n + 2) = oscCaps n + 2 * n := by
  unfold oscCaps
  rw [List.range_succ, List.range_succ_eq_map]
  simp only [List.map_append, List.map_cons, List.map_nil, List.sum_append, List.sum_cons, List.sum_nil,
    List.map_map]
  have e0 : oscCap (n + 2) 0 = 0 := by unfold oscCap; omega
  have e1 : oscCap (n + 2) (n + 1) = 0 := by unfold oscCap; omega
  have e2 : (List.range n).map (oscCap (n + 2) ∘ Nat.succ) =
      (List.range n).map (fun k => oscCap n k + 2) := by
    refine List.map_congr_left fun k hk => ?_
    have := List.mem_range.1 hk
    simp only [Function.comp, oscCap]
    omega
  rw [e0, e1, e2, sum_map_add']
  simp
  omega

theorem oscCaps_le : ∀ n, 2 * oscCaps (n + 2) ≤ (n + 2) * n := by
  intro n
  induction n using Nat.strong_induction_on with
  | _ n ih =>
    match n with
    | 0 => decide
    | 1 => decide
    | n + 2 =>
      have := ih n (by omega)
      rw [oscCaps_step (n + 2) (by omega)]
      nlinarith

theorem sum_range_get (f : α → Nat) (g : Nat → Nat) : ∀ (ys : List α) (off : Nat),
    (∀ k (h : k < ys.length), f ys[k] ≤ g (off + k)) →
    (ys.map f).sum ≤ ((List.range' off ys.length).map g).sum := by
  intro ys
  induction ys with
  | nil => intro off _; simp
  | cons y ys ih =>
    intro off h
    rw [List.length_cons, List.range'_succ, List.map_cons, List.map_cons, List.sum_cons, List.sum_cons]
    have h0 := h 0 (by simp)
    have h1 := ih (off + 1) fun k hk => by
      have := h (k + 1) (by simpa using hk)
      rw [show off + 1 + k = off + (k + 1) by omega]
      exact this
    simp only [List.getElem_cons_zero, Nat.add_zero] at h0
    omega

theorem oscOf_le (hlt : StrictWeak lt) (xs : List α) {ys : List α} (hp : ys.Perm xs)
    (hs : SortedList lt ys) : 2 * oscOf lt xs ≤ xs.length * (xs.length - 2) := by
  by_cases h : xs.length < 2
  · rw [oscOf_short h]; omega
  · have h1 : oscOf lt xs ≤ oscCaps xs.length := by
      unfold oscOf
      rw [← (hp.map _).sum_eq]
      refine le_trans (sum_range_get _ (oscCap xs.length) ys 0 fun k hk => ?_) ?_
      · have a := crossings_lo (lt := lt) xs ys[k]
        have b := crossings_hi (lt := lt) xs ys[k]
        have c := crossings_cap hlt (by omega) (hp.mem_iff.1 (List.getElem_mem hk))
        obtain ⟨r1, r2⟩ := sorted_rank hlt hs ys[k] hk
        rw [hlt.irrefl] at r1 r2
        have r1 : ¬ k < rankLo lt ys ys[k] := fun h => absurd (r1.2 h) (by simp)
        have r2 := r2.1 rfl
        rw [rankLo_perm hp] at r1
        rw [rankHi_perm hp] at r2
        have l := hp.length_eq
        have tot : rankHi lt xs ys[k] + xs.countP (fun x => lt ys[k] x) = xs.length := by
          unfold rankHi
          have := List.length_eq_countP_add_countP (fun x => lt ys[k] x) (l := xs)
          simp only [Bool.not_eq_true, Bool.decide_eq_false] at this
          omega
        unfold rankLo at r1
        rw [oscCap, Nat.zero_add]
        omega
      · rw [hp.length_eq, ← List.range_eq_range']
        exact le_refl _
    obtain ⟨m, hm⟩ : ∃ m, xs.length = m + 2 := ⟨xs.length - 2, by omega⟩
    rw [hm] at h1 ⊢
    have := oscCaps_le m
    rw [show m + 2 - 2 = m by omega]
    omega

end CppSort
