import Verif.Proof.MelCost
import Verif.Proof.SymCost
import Verif.Proof.PdqCost
import Verif.Proof.ProbesExc
import Verif.Proof.ProbesInv
/-
The number of comparisons of the probes.
-/
set_option autoImplicit false

namespace CppSort
variable {α : Type} {lt : α → α → Bool} {N : Nat}

theorem nthBind_cost {β γ : Type} {xs : List β} {i : Nat} {k : β → M α γ} {R : γ → Nat → Prop}
    (h : ∀ x, xs[i]? = some x → Cost N (k x) R) : Cost N (nth xs i >>= k) R :=
  nth_cost.bind fun x c e => by
    obtain ⟨e1, rfl⟩ := e
    simpa only [Nat.zero_add] using h x e1

/-! ### runs -/

theorem runsSkip_cost {xs : List α} : ∀ (n current next : Nat), next + n = xs.length →
    Cost N (runsSkip (tick lt) xs current next) (fun r c => r.2 ≤ xs.length ∧ next + c ≤ r.2 + 1 ∧ next ≤ r.2 ∧
      (r.2 = xs.length → next + c = r.2)) := by
  intro n
  induction n with
  | zero =>
    intro current next h
    rw [runsSkip, if_neg (by omega)]
    exact Cost.pure ⟨by dsimp only; omega, by dsimp only; omega, by dsimp only; omega, fun _ => rfl⟩
  | succ n ih =>
    intro current next h
    rw [runsSkip, if_pos (by omega)]
    refine nthBind_cost fun x _ => nthBind_cost fun y _ => Cost.tickBind fun b => ?_
    refine Cost.ite (fun _ => Cost.pure ⟨by dsimp only; omega, by dsimp only; omega, by dsimp only; omega,
      fun e => by dsimp only at e; omega⟩) fun _ => ?_
    refine (ih (current + 1) (next + 1) (by omega)).mono fun r c hr => ⟨hr.1, by omega, by omega, fun e => ?_⟩
    have := hr.2.2.2 e
    omega

theorem runsLoop_cost {xs : List α} : ∀ (n current next count : Nat), next + n = xs.length →
    Cost N (runsLoop (tick lt) xs current next count) (fun _ c => c ≤ n) := by
  intro n
  induction n using Nat.strong_induction_on with
  | _ n ih =>
    intro current next count h
    rw [runsLoop]
    refine (runsSkip_cost n current next h).bind fun r c hr => ?_
    obtain ⟨cur, nxt⟩ := r
    dsimp only at hr ⊢
    refine Cost.ite (fun e => Cost.pure ?_) fun e => ?_
    · have := hr.2.2.2 e
      omega
    · refine (ih (xs.length - (nxt + 1)) (by omega) (cur + 1) (nxt + 1) (count + 1) (by omega)).mono fun _ c' h' => ?_
      omega

theorem probeRuns_cost {xs : List α} : Cost N (probeRuns (tick lt) xs) (fun _ c => c ≤ xs.length - 1) := by
  unfold probeRuns
  refine Cost.ite (fun _ => Cost.pure (by omega)) fun h => ?_
  exact runsLoop_cost (xs.length - 1) 0 1 0 (by omega)

/-! ### mono -/

theorem monoRun_cost {xs : List α} {up : Bool} : ∀ (n next : Nat), next + 1 + n = xs.length →
    Cost N (monoRun (tick lt) up xs next) (fun r c => match r with
      | none => next + c + 1 = xs.length
      | some p => p.2 < xs.length ∧ next + c = p.2) := by
  intro n
  induction n with
  | zero =>
    intro next h
    rw [monoRun]
    rw [if_pos (by omega)]
    exact Cost.pure (by dsimp only; omega)
  | succ n ih =>
    intro next h
    rw [monoRun]
    rw [if_neg (by omega)]
    have hc : Cost N (if up = true then do tick lt (← nth xs (next + 1)) (← nth xs next)
             else do tick lt (← nth xs next) (← nth xs (next + 1)) : M α Bool) (fun _ c => c = 1) :=
      Cost.ite (fun _ => nthBind_cost fun x _ => nthBind_cost fun y _ => Cost.tick rfl)
        fun _ => nthBind_cost fun x _ => nthBind_cost fun y _ => Cost.tick rfl
    refine hc.bind fun b c e => ?_
    subst e
    refine Cost.ite (fun _ => Cost.pure ⟨by dsimp only; omega, by dsimp only⟩) fun _ => ?_
    refine (ih (next + 1) (by omega)).mono fun r c hr => ?_
    cases r with
    | none => dsimp only at hr ⊢; omega
    | some p => dsimp only at hr ⊢; exact ⟨hr.1, by omega⟩

theorem monoLoop_cost {xs : List α} : ∀ (n current next count : Nat), next + n = xs.length →
    Cost N (monoLoop (tick lt) xs current next count) (fun _ c => c ≤ 2 * n) := by
  intro n
  induction n using Nat.strong_induction_on with
  | _ n ih =>
    intro current next count h
    rw [monoLoop]
    refine Cost.ite (fun h0 => ?_) fun _ => Cost.pure (by omega)
    refine nthBind_cost fun x _ => nthBind_cost fun y _ => Cost.tickBind fun b => ?_
    refine Cost.ite (fun _ => ?_) fun _ => ?_
    · refine (monoRun_cost (n - 1) next (by omega)).bind fun r c hr => ?_
      cases r with
      | none => dsimp only at hr ⊢; exact Cost.pure (by omega)
      | some p =>
        dsimp only at hr ⊢
        obtain ⟨h1, h2⟩ := hr
        refine (ih (xs.length - (p.2 + 1)) ?_ p.2 (p.2 + 1) (count + 1) ?_).mono fun _ c' h' => ?_ <;> omega
    · refine nthBind_cost fun x _ => nthBind_cost fun y _ => Cost.tickBind fun b => ?_
      refine Cost.ite (fun _ => ?_) fun _ => ?_
      · refine (monoRun_cost (n - 1) next (by omega)).bind fun r c hr => ?_
        cases r with
        | none => dsimp only at hr ⊢; exact Cost.pure (by omega)
        | some p =>
          dsimp only at hr ⊢
          obtain ⟨h1, h2⟩ := hr
          refine (ih (xs.length - (p.2 + 1)) ?_ p.2 (p.2 + 1) (count + 1) ?_).mono fun _ c' h' => ?_ <;> omega
      · exact (ih (n - 1) (by omega) next (next + 1) count (by omega)).mono fun _ c' h' => by omega

theorem probeMono_cost {xs : List α} : Cost N (probeMono (tick lt) xs) (fun _ c => c ≤ 2 * (xs.length - 1)) := by
  unfold probeMono
  refine Cost.ite (fun _ => Cost.pure (by omega)) fun h => ?_
  exact monoLoop_cost (xs.length - 1) 0 1 0 (by omega)

/-! ### dis -/

theorem isPSortedLoop_cost {xs : List α} : ∀ (n a it1 maxIt : Nat), it1 + n = xs.length →
    Cost N (isPSortedLoop (tick lt) xs a it1 maxIt) (fun _ c => c ≤ 2 * n) := by
  intro n
  induction n with
  | zero =>
    intro a it1 maxIt h
    rw [isPSortedLoop, if_neg (by omega)]
    exact Cost.pure (by omega)
  | succ n ih =>
    intro a it1 maxIt h
    rw [isPSortedLoop, if_pos (by omega)]
    have hm : Cost N (do if ← tick lt (← nth xs maxIt) (← nth xs a) then pure a else pure maxIt : M α Nat)
        (fun _ c => c = 1) :=
      nthBind_cost fun x _ => nthBind_cost fun y _ => Cost.tickBind fun b =>
        Cost.ite (fun _ => Cost.pure rfl) fun _ => Cost.pure rfl
    refine hm.bind fun m c e => ?_
    subst e
    refine nthBind_cost fun x _ => nthBind_cost fun y _ => Cost.tickBind fun b => ?_
    refine Cost.ite (fun _ => Cost.pure (by omega)) fun _ => ?_
    exact (ih (a + 1) (it1 + 1) m (by omega)).mono fun _ c' h' => by omega

theorem disInplaceLoop_cost {xs : List α} : ∀ (k res size : Nat), size < 2 ^ k → res + size ≤ xs.length →
    Cost N (disInplaceLoop (tick lt) xs res size) (fun _ c => c ≤ k * (2 * xs.length)) := by
  intro k
  induction k with
  | zero =>
    intro res size h _
    rw [disInplaceLoop, if_neg (by omega)]
    exact Cost.pure (by omega)
  | succ k ih =>
    intro res size h h'
    rw [Nat.pow_succ] at h
    rw [disInplaceLoop]
    refine Cost.ite (fun h0 => ?_) fun _ => Cost.pure (by omega)
    dsimp only
    unfold isPSorted
    refine (isPSortedLoop_cost (xs.length - (res + size / 2 + 1)) 0 (res + size / 2 + 1) 0 (by omega)).bind fun b c hc => ?_
    rw [Nat.succ_mul]
    refine Cost.ite (fun _ => ?_) fun _ => ?_
    · exact (ih _ _ (by omega) (by omega)).mono fun _ c' h' => by omega
    · exact (ih _ _ (by omega) (by omega)).mono fun _ c' h' => by omega

theorem disInplace_cost {xs : List α} :
    Cost N (disInplace (tick lt) xs) (fun _ c => c ≤ 2 * xs.length * (xs.length.log2 + 1)) := by
  unfold disInplace
  refine (disInplaceLoop_cost (xs.length.log2 + 1) 0 xs.length Nat.lt_log2_self (by omega)).mono fun _ c h => ?_
  rwa [Nat.mul_comm]

theorem lrCummaxLoop_cost {xs : List α} : ∀ (n it : Nat) (lr : List Nat), it + n = xs.length →
    Cost N (lrCummaxLoop (tick lt) xs it lr) (fun _ c => c ≤ n) := by
  intro n
  induction n with
  | zero =>
    intro it lr h
    rw [lrCummaxLoop, if_neg (by omega)]
    exact Cost.pure (by omega)
  | succ n ih =>
    intro it lr h
    rw [lrCummaxLoop, if_pos (by omega)]
    refine nthBind_cost fun b _ => nthBind_cost fun x _ => nthBind_cost fun y _ => Cost.tickBind fun t => ?_
    refine Cost.ite (fun _ => ?_) fun _ => ?_
    · exact (ih _ _ (by omega)).mono fun _ c' h' => by omega
    · exact (ih _ _ (by omega)).mono fun _ c' h' => by omega

theorem disWhile_cost {xs : List α} {lr : List Nat} {j : Nat} : ∀ (n i rl rlMin res : Nat), i ≤ n →
    Cost N (disWhile (tick lt) xs lr j i rl rlMin res) (fun r c => match r with
      | .inl _ => c ≤ 3 * i + 2
      | .inr p => c + 3 * p.1 ≤ 3 * i + 2) := by
  intro n
  induction n with
  | zero =>
    intro i rl rlMin res h
    rw [disWhile]
    obtain rfl : i = 0 := by omega
    refine Cost.ite (fun _ => ?_) fun _ => Cost.pure (by dsimp only; omega)
    refine nthBind_cost fun a _ => nthBind_cost fun x _ => nthBind_cost fun y _ => Cost.tickBind fun t => ?_
    refine Cost.ite (fun _ => Cost.pure (by dsimp only; omega)) fun _ => ?_
    have h2 : Cost N (if j = 1 then pure false else do tick lt (← nth xs rlMin) (← nth xs (← nth lr (j - 2))) : M α Bool)
        (fun _ c => c ≤ 1) :=
      Cost.ite (fun _ => Cost.pure (by omega)) fun _ => nthBind_cost fun a _ => nthBind_cost fun x _ =>
        nthBind_cost fun y _ => Cost.tick (by omega)
    refine h2.bind fun t c hc => ?_
    refine Cost.ite (fun _ => Cost.pure (by dsimp only; omega)) fun _ => ?_
    dsimp only
    rw [if_pos (by omega)]
    exact Cost.pure (by dsimp only; omega)
  | succ n ih =>
    intro i rl rlMin res h
    rw [disWhile]
    refine Cost.ite (fun _ => ?_) fun _ => Cost.pure (by dsimp only; omega)
    refine nthBind_cost fun a _ => nthBind_cost fun x _ => nthBind_cost fun y _ => Cost.tickBind fun t => ?_
    refine Cost.ite (fun _ => Cost.pure (by dsimp only; omega)) fun _ => ?_
    have h2 : Cost N (if j = 1 then pure false else do tick lt (← nth xs rlMin) (← nth xs (← nth lr (j - 2))) : M α Bool)
        (fun _ c => c ≤ 1) :=
      Cost.ite (fun _ => Cost.pure (by omega)) fun _ => nthBind_cost fun a _ => nthBind_cost fun x _ =>
        nthBind_cost fun y _ => Cost.tick (by omega)
    refine h2.bind fun t c hc => ?_
    refine Cost.ite (fun _ => Cost.pure (by dsimp only; omega)) fun _ => ?_
    dsimp only
    refine Cost.ite (fun _ => Cost.pure (by dsimp only; omega)) fun _ => ?_
    refine nthBind_cost fun x _ => nthBind_cost fun y _ => Cost.tickBind fun t => ?_
    by_cases h0 : i = 0
    · omega
    refine Cost.ite (fun _ => ?_) fun _ => ?_
    all_goals
      refine (ih (i - 1) _ _ _ (by omega)).mono fun r c' hr => ?_
      cases r with
      | inl _ => dsimp only at hr ⊢; omega
      | inr p => dsimp only at hr ⊢; omega

theorem disFor_cost {xs : List α} {lr : List Nat} : ∀ (j i rl rlMin res : Nat),
    Cost N (disFor (tick lt) xs lr j i rl rlMin res) (fun _ c => c ≤ 3 * i + 2 * j) := by
  intro j
  induction j with
  | zero =>
    intro i rl rlMin res
    rw [disFor, if_neg (by omega)]
    exact Cost.pure (by omega)
  | succ j ih =>
    intro i rl rlMin res
    rw [disFor, if_pos (by omega)]
    refine (disWhile_cost i i rl rlMin res (le_refl _)).bind fun r c hr => ?_
    cases r with
    | inl _ => dsimp only at hr ⊢; exact Cost.pure (by omega)
    | inr p =>
      obtain ⟨a, b, d, e⟩ := p
      dsimp only at hr ⊢
      rw [Nat.add_sub_cancel]
      exact (ih a b d e).mono fun _ c' h' => by omega

theorem disAllocating_cost {xs : List α} : Cost N (disAllocating (tick lt) xs) (fun _ c => c ≤ 6 * xs.length) := by
  unfold disAllocating
  refine Cost.ite (fun _ => Cost.pure (by omega)) fun h => ?_
  refine (lrCummaxLoop_cost (xs.length - 1) 1 [0] (by omega)).bind fun lr c hc => ?_
  exact (disFor_cost _ _ _ _ _).mono fun _ c' h' => by omega

/-! ### rem, sus -/

theorem lndsLoop_cost {cmp : α → α → M α Bool} (hu : Unit1 N cmp) {xs : List α} {k : Nat} (hk : xs.length < 2 ^ k) :
    ∀ (n first : Nat) (tops : List Nat), first + n = xs.length → tops.length ≤ first →
    Cost N (lndsLoop cmp xs first tops) (fun _ c => c ≤ n * k) := by
  intro n
  induction n with
  | zero =>
    intro first tops h _
    rw [lndsLoop, if_neg (by omega)]
    exact Cost.pure (by omega)
  | succ n ih =>
    intro first tops h h'
    rw [lndsLoop, if_pos (by omega)]
    refine nthBind_cost fun v _ => ?_
    refine (lowerBoundBy_cost (fun i => nthBind_cost fun a _ => nthBind_cost fun x _ => Cost.cmpBind hu fun b =>
      Cost.pure (by omega)) k 0 tops.length (by omega)).bind fun it c hc => ?_
    rw [Nat.succ_mul]
    refine Cost.ite (fun _ => ?_) fun _ => ?_
    · exact (ih _ _ (by omega) (by simp; omega)).mono fun _ c' h' => by omega
    · exact (ih _ _ (by omega) (by simp; omega)).mono fun _ c' h' => by omega

theorem lnds_cost {cmp : α → α → M α Bool} (hu : Unit1 N cmp) {xs : List α} :
    Cost N (lnds cmp xs) (fun _ c => c ≤ xs.length * (xs.length.log2 + 1)) := by
  unfold lnds
  refine Cost.ite (fun _ => Cost.pure (by omega)) fun _ => Cost.ite (fun _ => Cost.pure (by omega)) fun _ => ?_
  exact (lndsLoop_cost hu Nat.lt_log2_self xs.length 0 [] (by omega) (by simp)).bind fun r c hc => Cost.pure (by omega)

theorem probeRem_cost {xs : List α} :
    Cost N (probeRem (tick lt) xs) (fun _ c => c ≤ xs.length * (xs.length.log2 + 1)) := by
  unfold probeRem
  refine (lnds_cost unit1_tick).bind fun r c hc => ?_
  exact Cost.ite (fun _ => Cost.pure (by omega)) fun _ => Cost.pure (by omega)

theorem probeSus_cost {xs : List α} :
    Cost N (probeSus (tick lt) xs) (fun _ c => c ≤ xs.length * (xs.length.log2 + 1)) := by
  unfold probeSus
  refine (lnds_cost fun x y => Cost.tickBind fun b => Cost.pure rfl).bind fun r c hc => Cost.pure (by omega)

/-! ### enc -/

theorem encLoop_cost {xs : List α} {k : Nat} (hk : xs.length < 2 ^ k) :
    ∀ (n first : Nat) (lists : List (Nat × Nat)), first + n = xs.length → lists.length ≤ first →
    Cost N (encLoop (tick lt) xs first lists) (fun _ c => c ≤ n * (k + 2)) := by
  intro n
  induction n with
  | zero =>
    intro first lists h _
    rw [encLoop, if_neg (by omega)]
    exact Cost.pure (by omega)
  | succ n ih =>
    intro first lists h h'
    rw [encLoop, if_pos (by omega)]
    rw [Nat.succ_mul]
    refine nthBind_cost fun v _ => nthBind_cost fun l _ => nthBind_cost fun x _ => Cost.tickBind fun b => ?_
    refine Cost.ite (fun _ => ?_) fun _ => ?_
    · refine nthBind_cost fun x _ => Cost.tickBind fun b => Cost.ite (fun _ => ?_) fun _ => ?_
      · exact (ih _ _ (by omega) (by simp; omega)).mono fun _ c' h' => by omega
      · refine (lowerBoundBy_cost (fun i => nthBind_cost fun a _ => nthBind_cost fun x _ => Cost.tick (by omega))
          k 0 (lists.length - 1) (by omega)).bind fun it c hc => nthBind_cost fun l _ => ?_
        exact (ih _ _ (by omega) (by simp; omega)).mono fun _ c' h' => by omega
    · refine (lowerBoundBy_cost (fun i => nthBind_cost fun a _ => nthBind_cost fun x _ => Cost.tick (by omega))
        k 0 (lists.length - 1) (by omega)).bind fun it c hc => nthBind_cost fun l _ => ?_
      exact (ih _ _ (by omega) (by simp; omega)).mono fun _ c' h' => by omega

theorem probeEnc_cost {xs : List α} :
    Cost N (probeEnc (tick lt) xs) (fun _ c => c ≤ xs.length * (xs.length.log2 + 3)) := by
  unfold probeEnc
  refine Cost.ite (fun _ => Cost.pure (by omega)) fun h => ?_
  refine (encLoop_cost Nat.lt_log2_self (xs.length - 1) 1 [(0, 0)] (by omega) (by simp)).bind fun r c hc => Cost.pure ?_
  refine Nat.le_trans hc (Nat.mul_le_mul ?_ ?_) <;> omega

/-! ### equal_range -/

theorem equalRange_cost {its : List (α × Nat)} {value : α} : ∀ (k first last len : Nat), first + len = last → len < 2 ^ k →
    Cost N (equalRange lt its value first last len) (fun _ c => c ≤ 2 * k) := by
  intro k
  induction k with
  | zero =>
    intro first last len h h'
    rw [equalRange, if_neg (by omega)]
    exact Cost.pure (by omega)
  | succ k ih =>
    intro first last len h h'
    rw [Nat.pow_succ] at h'
    rw [equalRange]
    refine Cost.ite (fun h0 => ?_) fun _ => Cost.pure (by omega)
    dsimp only
    refine nthBind_cost fun x _ => Cost.tickBind fun b => Cost.ite (fun _ => ?_) fun _ => ?_
    · exact (ih _ _ _ (by omega) (by omega)).mono fun _ c' h' => by omega
    · refine nthBind_cost fun x _ => Cost.tickBind fun b => Cost.ite (fun _ => ?_) fun _ => ?_
      · exact (ih _ _ _ (by omega) (by omega)).mono fun _ c' h' => by omega
      · refine (lowerBoundBy_cost (fun i => nthBind_cost fun x _ => Cost.tick (by omega)) k _ _ (by omega)).bind fun lo c hc => ?_
        refine (lowerBoundBy_cost (fun i => nthBind_cost fun x _ => Cost.tickBind fun b => Cost.pure (by omega)) k _ _
          (by omega)).bind fun hi c' hc' => Cost.pure (by omega)

/-! ### The probes that sort iterators -/

/-- A run that ends makes at most `C` comparisons and its result satisfies `R`. -/
def Upto {β : Type} (m : M α β) (C : Nat) (R : β → Prop) : Prop :=
  ∀ s r s', m s = some (.ok r, s') → s'.cmps ≤ s.cmps + C ∧ R r

theorem Upto.bind {β γ : Type} {m : M α β} {k : β → M α γ} {C D : Nat} {R : β → Prop} {R' : γ → Prop} (h : Upto m C R)
    (hk : ∀ r, R r → Upto (k r) D R') : Upto (m >>= k) (C + D) R' := by
  intro s r s' hr
  obtain ⟨x, s1, h1, h2⟩ := bind_inv hr
  obtain ⟨a1, a2⟩ := h s x s1 h1
  obtain ⟨b1, b2⟩ := hk x a2 s1 r s' h2
  exact ⟨by omega, b2⟩

theorem Cost.upto {β : Type} {m : M α β} {C : Nat} (h : Cost 0 m (fun _ c => c ≤ C)) : Upto m C (fun _ => True) := by
  intro s r s' hr
  obtain ⟨-, c, h1, h2⟩ := h s r s' (fun _ => Nat.zero_le _) hr
  exact ⟨by omega, trivial⟩

theorem Upto.ite {β : Type} {c : Prop} [Decidable c] {m m' : M α β} {C : Nat} {R : β → Prop}
    (h : c → Upto m C R) (h' : ¬ c → Upto m' C R) : Upto (if c then m else m') C R := by
  split
  · exact h ‹_›
  · exact h' ‹_›

theorem Upto.mono {β : Type} {m : M α β} {C D : Nat} {R R' : β → Prop} (h : Upto m C R) (hC : C ≤ D) (hR : ∀ r, R r → R' r) :
    Upto m D R' := fun s r s' hr =>
  let ⟨h1, h2⟩ := h s r s' hr
  ⟨by omega, hR r h2⟩

theorem Upto.pure {β : Type} {x : β} {C : Nat} {R : β → Prop} (h : R x) : Upto (pure x : M α β) C R := by
  intro s r s' hr
  have e : (Pure.pure x : M α β) s = some (.ok x, s) := rfl
  rw [e] at hr
  cases hr
  exact ⟨by omega, h⟩

/-- The bound for the sort of the iterators. -/
abbrev sortCmps (n : Nat) : Nat := n * (52 * n.log2 + 23)

theorem sortedIterators_cost [Inhabited α] (hlt : StrictWeak lt) (bl : Bool) (xs : List α) :
    Upto (sortedIterators lt bl xs) (sortCmps xs.length) (SortedIts lt xs) := by
  intro s r s' hr
  obtain ⟨r0, k, g, h1, h2⟩ := sortedIterators_keeps hlt bl xs s
  have e := hr
  rw [h1] at hr
  cases hr
  refine ⟨?_, h2⟩
  unfold sortedIterators at e
  obtain ⟨x, s1, e1, e2⟩ := bind_inv e
  have e3 : (pure x.2 : M α (List (α × Nat))) s1 = some (.ok x.2, s1) := rfl
  rw [e3] at e2
  simp only [Option.some.injEq, Prod.mk.injEq] at e2
  obtain ⟨-, rfl⟩ := e2
  unfold embed at e1
  have hseg : Seg (localMem xs.zipIdx s).cell 0 xs.zipIdx := by
    intro i hi
    simp only [localMem, Nat.zero_add, List.getElem?_eq_getElem hi]
  obtain ⟨v, hh, he⟩ := hseg.holds
  rw [Nat.zero_add] at hh
  obtain ⟨_, t, t1, t2⟩ := pdqsort_cost (indirectLt_sw hlt) bl (Nat.zero_le _) hh
  rw [t1] at e1
  dsimp only at e1
  split at e1
  · cases e1
    have hc : (localMem xs.zipIdx s).cmps = s.cmps := rfl
    rw [hc, Nat.sub_zero, List.length_zipIdx] at t2
    exact t2
  · cases e1

theorem hamLoop_cost {xs : List α} : ∀ (its : List (α × Nat)) (first count : Nat),
    Cost N (hamLoop lt xs first count its) (fun _ c => c ≤ 2 * its.length) := by
  intro its
  induction its with
  | nil => intro first count; exact Cost.pure (by simp)
  | cons it its ih =>
    intro first count
    unfold hamLoop
    rw [List.length_cons]
    refine nthBind_cost fun x _ => Cost.tickBind fun b => Cost.ite (fun _ => ?_) fun _ => ?_
    · exact (ih _ _).mono fun _ c h => by omega
    · refine Cost.tickBind fun b => Cost.ite (fun _ => ?_) fun _ => ?_
      · exact (ih _ _).mono fun _ c h => by omega
      · exact (ih _ _).mono fun _ c h => by omega

theorem probeHam_cost [Inhabited α] (hlt : StrictWeak lt) (bl : Bool) (xs : List α) :
    Upto (probeHam lt bl xs) (sortCmps xs.length + 2 * xs.length) (fun _ => True) := by
  unfold probeHam
  refine Upto.ite (fun _ => Upto.pure trivial) fun _ => ?_
  refine (sortedIterators_cost hlt bl xs).bind fun its hi => ?_
  have := (hamLoop_cost (N := 0) (lt := lt) (xs := xs) its 0 0).upto
  rwa [hi.length] at this

theorem maxLoop_cost {xs : List α} {its : List (α × Nat)} {k : Nat} (hk : its.length < 2 ^ k) : ∀ (n itPos maxDist : Nat),
    itPos + n = xs.length → Cost N (maxLoop lt xs its itPos maxDist) (fun _ c => c ≤ n * (2 * k)) := by
  intro n
  induction n with
  | zero =>
    intro itPos maxDist h
    rw [maxLoop, if_neg (by omega)]
    exact Cost.pure (by omega)
  | succ n ih =>
    intro itPos maxDist h
    rw [maxLoop, if_pos (by omega), Nat.succ_mul]
    refine nthBind_cost fun v _ => ?_
    refine (equalRange_cost k 0 its.length its.length (by omega) hk).bind fun r c hc => ?_
    dsimp only
    refine Cost.ite (fun _ => ?_) fun _ => Cost.ite (fun _ => ?_) fun _ => ?_
    all_goals exact (ih _ _ (by omega)).mono fun _ c' h' => by omega

theorem probeMax_cost [Inhabited α] (hlt : StrictWeak lt) (bl : Bool) (xs : List α) :
    Upto (probeMax lt bl xs) (sortCmps xs.length + xs.length * (2 * (xs.length.log2 + 1))) (fun _ => True) := by
  unfold probeMax
  refine Upto.ite (fun _ => Upto.pure trivial) fun _ => ?_
  refine (sortedIterators_cost hlt bl xs).bind fun its hi => ?_
  exact (maxLoop_cost (k := xs.length.log2 + 1) (by rw [hi.length]; exact Nat.lt_log2_self) xs.length 0 0 (by omega)).upto

theorem differ_cost {x y : α} : Cost N (differ lt x y) (fun _ c => c ≤ 2) := by
  unfold differ
  refine Cost.tickBind fun b => Cost.ite (fun _ => Cost.pure (by omega)) fun _ => Cost.tick (by omega)

theorem blockLoop_cost {xs : List α} {its : List (α × Nat)} : ∀ (n it count : Nat),
    it + n = its.length - 1 → Cost N (blockLoop lt xs its it count) (fun _ c => c ≤ 2 * n) := by
  intro n
  induction n with
  | zero =>
    intro it count h
    rw [blockLoop, if_neg (by omega)]
    exact Cost.pure (by omega)
  | succ n ih =>
    intro it count h
    rw [blockLoop, if_pos (by omega)]
    refine nthBind_cost fun v _ => ?_
    dsimp only
    refine Cost.ite (fun _ => ?_) fun _ => ?_
    · refine nthBind_cost fun w _ => differ_cost.bind fun b c hc => ?_
      refine Cost.ite (fun _ => ?_) fun _ => ?_
      all_goals exact (ih _ _ (by omega)).mono fun _ c' h' => by omega
    · refine nthBind_cost fun w _ => nthBind_cost fun w' _ => differ_cost.bind fun b c hc => ?_
      refine Cost.ite (fun _ => ?_) fun _ => ?_
      all_goals exact (ih _ _ (by omega)).mono fun _ c' h' => by omega

theorem probeBlock_cost [Inhabited α] (hlt : StrictWeak lt) (bl : Bool) (xs : List α) :
    Upto (probeBlock lt bl xs) (sortCmps xs.length + 2 * (xs.length - 1)) (fun _ => True) := by
  unfold probeBlock
  refine Upto.ite (fun _ => Upto.pure trivial) fun _ => ?_
  refine (sortedIterators_cost hlt bl xs).bind fun its hi => ?_
  have := (blockLoop_cost (N := 0) (lt := lt) (xs := xs) (its := its) (its.length - 1) 0 0 (by omega)).upto
  rwa [hi.length] at this

/-! ### osc -/

theorem oscInner_cost {xs : List α} {value : α} : ∀ (n current next count : Nat), next + n = xs.length →
    Cost N (oscInner lt xs value current next count) (fun _ c => c ≤ 4 * n) := by
  intro n
  induction n with
  | zero =>
    intro current next count h
    rw [oscInner, if_neg (by omega)]
    exact Cost.pure (by omega)
  | succ n ih =>
    intro current next count h
    rw [oscInner, if_pos (by omega)]
    refine nthBind_cost fun a _ => nthBind_cost fun b _ => ?_
    refine Cost.tickBind fun t => Cost.tickBind fun u => Cost.ite (fun _ => ?_) fun _ => ?_
    · refine Cost.tickBind fun t => Cost.tickBind fun u => Cost.ite (fun _ => ?_) fun _ => ?_
      all_goals exact (ih _ _ _ (by omega)).mono fun _ c' h' => by omega
    · exact (ih _ _ _ (by omega)).mono fun _ c' h' => by omega

theorem oscOuter_cost {xs : List α} (h1 : 1 ≤ xs.length) : ∀ (n it count : Nat), it + n = xs.length →
    Cost N (oscOuter lt xs it count) (fun _ c => c ≤ n * (4 * (xs.length - 1))) := by
  intro n
  induction n with
  | zero =>
    intro it count h
    rw [oscOuter, if_neg (by omega)]
    exact Cost.pure (by omega)
  | succ n ih =>
    intro it count h
    rw [oscOuter, if_pos (by omega), Nat.succ_mul]
    refine nthBind_cost fun v _ => (oscInner_cost (xs.length - 1) 0 1 count (by omega)).bind fun r c hc => ?_
    exact (ih _ _ (by omega)).mono fun _ c' h' => by omega

theorem oscInplace_cost {xs : List α} :
    Cost N (oscInplace lt xs) (fun _ c => c ≤ 4 * xs.length * (xs.length - 1)) := by
  unfold oscInplace
  refine Cost.ite (fun _ => Cost.pure (by omega)) fun h => ?_
  refine (oscOuter_cost (by omega) xs.length 0 0 (by omega)).bind fun r c hc => Cost.pure ?_
  rw [Nat.add_zero, Nat.mul_assoc, Nat.mul_left_comm]
  exact hc

theorem oscCross_silent {cross : List Int} {i j : Nat} : Silent (oscCross cross i j : M α (List Int)) := by
  unfold oscCross
  exact (nth_silent _ _).bind fun _ => (nth_silent _ _).bind fun _ => Silent.pure

theorem oscLoop_cost {xs : List α} {its : List (α × Nat)} {k : Nat} (hk : its.length < 2 ^ k) :
    ∀ (n prev current : Nat) (pb : Nat × Nat) (cross : List Int), current + n = xs.length →
    Cost N (oscLoop lt xs its prev current pb cross) (fun _ c => c ≤ n * (2 * k + 2)) := by
  intro n
  induction n with
  | zero =>
    intro prev current pb cross h
    rw [oscLoop, if_neg (by omega)]
    exact Cost.pure (by omega)
  | succ n ih =>
    intro prev current pb cross h
    rw [oscLoop, if_pos (by omega), Nat.succ_mul]
    refine nthBind_cost fun p _ => nthBind_cost fun q _ => Cost.tickBind fun t => Cost.ite (fun _ => ?_) fun _ => ?_
    · refine (equalRange_cost k 0 its.length its.length (by omega) hk).bind fun r c hc => oscCross_silent.costBind fun cr => ?_
      exact (ih _ _ _ _ (by omega)).mono fun _ c' h' => by omega
    · refine Cost.tickBind fun t => Cost.ite (fun _ => ?_) fun _ => ?_
      · refine (equalRange_cost k 0 its.length its.length (by omega) hk).bind fun r c hc => oscCross_silent.costBind fun cr => ?_
        exact (ih _ _ _ _ (by omega)).mono fun _ c' h' => by omega
      · exact (ih _ _ _ _ (by omega)).mono fun _ c' h' => by omega

theorem oscAllocating_cost [Inhabited α] (hlt : StrictWeak lt) (bl : Bool) (xs : List α) :
    Upto (oscAllocating lt bl xs) (sortCmps xs.length + xs.length * (2 * xs.length.log2 + 4)) (fun _ => True) := by
  unfold oscAllocating
  refine Upto.ite (fun _ => Upto.pure trivial) fun h2 => ?_
  refine (sortedIterators_cost hlt bl xs).bind fun its hi => ?_
  have hk : its.length < 2 ^ (xs.length.log2 + 1) := by rw [hi.length]; exact Nat.lt_log2_self
  refine Cost.upto ?_
  refine nthBind_cost fun v _ => ?_
  refine (equalRange_cost (xs.length.log2 + 1) 0 its.length its.length (by omega) hk).bind fun r c hc => ?_
  refine (oscLoop_cost hk (xs.length - 1) 0 1 r _ (by omega)).bind fun cr c' hc' => Cost.pure ?_
  have e : xs.length * (2 * xs.length.log2 + 4) = (xs.length - 1) * (2 * xs.length.log2 + 4) + (2 * xs.length.log2 + 4) := by
    rw [← Nat.succ_mul]
    congr 1
    omega
  have e2 : 2 * (xs.length.log2 + 1) + 2 = 2 * xs.length.log2 + 4 := by omega
  rw [e2] at hc'
  omega

/-! ### exc -/

theorem excWhile_cost {xs : List α} {its : List (α × Nat)} {x : Nat → α} {σ : Nat → Nat} (hi : ItsPerm lt xs its x σ)
    {c : Nat → Nat} {L : Nat} {sorted0 : List Bool}
    (hc : ∀ t, c (t + 1) = σ (c t)) (hcl : ∀ t, c t < xs.length) (hL : c L = c 0)
    (inj : ∀ t t', t < L → t' < L → c t = c t' → t = t') (hun : ∀ t, t < L → ¬ Flag sorted0 (c t)) :
    ∀ (n j cyc : Nat) (sorted : List Bool), j + 1 + n = L →
    sorted.length = xs.length → (∀ i, Flag sorted i ↔ Flag sorted0 i ∨ ∃ t, t ≤ j ∧ i = c t) →
    sorted.count true = sorted0.count true + (j + 1) →
    Cost N (excWhile lt xs its (c 0) (c j) (c (j + 1)) sorted cyc) (fun r k => k ≤ 2 * n ∧ r.1.length = xs.length ∧
      (∀ i, Flag r.1 i ↔ Flag sorted0 i ∨ ∃ t, t < L ∧ i = c t) ∧ r.1.count true = sorted0.count true + L) := by
  intro n
  induction n with
  | zero =>
    intro j cyc sorted hn hlen hflag hcount
    have hj : j + 1 = L := by omega
    rw [excWhile, if_neg (by rw [hj, hL]; simp)]
    refine Cost.pure ⟨by omega, hlen, fun i => ?_, by rw [hcount, hj]⟩
    rw [hflag]
    constructor
    · rintro (h | ⟨t, h, e⟩)
      · exact .inl h
      · exact .inr ⟨t, by omega, e⟩
    · rintro (h | ⟨t, h, e⟩)
      · exact .inl h
      · exact .inr ⟨t, by omega, e⟩
  | succ n ih =>
    intro j cyc sorted hn hlen hflag hcount
    have hne : c (j + 1) ≠ c 0 := fun e => by
      have := inj (j + 1) 0 (by omega) (by omega) e
      omega
    rw [excWhile, if_pos hne]
    have hs : Cost N (do
        if ← tick lt (← nth xs (c (j + 1))) (← nth xs (c j)) then pure false
        else return !(← tick lt (← nth xs (c j)) (← nth xs (c (j + 1)))) : M α Bool) (fun _ k => k ≤ 2) :=
      nthBind_cost fun _ _ => nthBind_cost fun _ _ => Cost.tickBind fun b => Cost.ite (fun _ => Cost.pure (by omega))
        fun _ => nthBind_cost fun _ _ => nthBind_cost fun _ _ => Cost.tickBind fun b => Cost.pure (by omega)
    refine hs.bind fun b k hk => ?_
    refine nthBind_cost fun p hp => ?_
    rw [hi.get _ (hcl (j + 1))] at hp
    cases hp
    rw [show (x (σ (c (j + 1))), σ (c (j + 1))).2 = c (j + 1 + 1) from (hc (j + 1)).symm]
    have hnf : ¬ Flag sorted (c (j + 1)) := by
      rw [hflag]
      rintro (h | ⟨t, h, e⟩)
      · exact hun (j + 1) (by omega) h
      · have := inj (j + 1) t (by omega) (by omega) e
        omega
    have hb : c (j + 1) < sorted.length := by rw [hlen]; exact hcl _
    refine (ih (j + 1) _ (sorted.set (c (j + 1)) true) (by omega) (by simp [hlen]) (fun i => ?_) ?_).mono
      fun r k' h' => ⟨by omega, h'.2⟩
    · rw [flag_set hb, hflag]
      constructor
      · rintro (e | h | ⟨t, h, e⟩)
        · exact .inr ⟨j + 1, le_refl _, e⟩
        · exact .inl h
        · exact .inr ⟨t, by omega, e⟩
      · rintro (h | ⟨t, h, e⟩)
        · exact .inr (.inl h)
        · by_cases ht : t = j + 1
          · exact .inl (ht ▸ e)
          · exact .inr (.inr ⟨t, by omega, e⟩)
    · rw [count_set hb hnf, hcount]; omega

theorem Runs.withCost {β : Type} {m : M α β} {R : β → Prop} {R' : β → Nat → Prop} (h : Runs m R) (hc : Cost N m R') :
    Cost N m (fun r c => R r ∧ R' r c) := by
  intro s r s' hs hr
  obtain ⟨h1, c, h2, h3⟩ := hc s r s' hs hr
  obtain ⟨r0, k, e, h4⟩ := h s
  rw [e] at hr
  cases hr
  exact ⟨h1, c, h2, h4, h3⟩

theorem excFind_silent {xs : List α} {sorted : List Bool} : ∀ (n start : Nat), start + 1 + n = xs.length →
    Cost N (excFind xs sorted start : M α Nat) (fun _ c => c = 0) := by
  intro n
  induction n with
  | zero =>
    intro start h
    rw [excFind]
    rw [if_pos (by omega)]
    exact Cost.pure rfl
  | succ n ih =>
    intro start h
    rw [excFind]
    rw [if_neg (by omega)]
    exact nthBind_cost fun b _ => Cost.ite (fun _ => ih _ (by omega)) fun _ => Cost.pure rfl

theorem excLoop_cost {xs : List α} {its : List (α × Nat)} {x : Nat → α} {σ : Nat → Nat} (hi : ItsPerm lt xs its x σ) :
    ∀ (n start : Nat) (sorted : List Bool) (cycles : Nat), start + n = xs.length → sorted.length = xs.length →
    (start < xs.length → ¬ Flag sorted start) → (∀ i, i < xs.length → Flag sorted i → Flag sorted (σ i)) →
    Cost N (excLoop lt xs its start sorted cycles) (fun _ c => c + 2 * sorted.count true ≤ 2 * xs.length) := by
  intro n
  induction n using Nat.strong_induction_on with
  | _ n ih =>
    intro start sorted cycles hn hlen hcur hclosed
    have hcnt : sorted.count true ≤ xs.length := hlen ▸ List.count_le_length
    rw [excLoop]
    by_cases hs : start = xs.length
    · rw [if_neg (by simpa using hs)]
      exact Cost.pure (by omega)
    · rw [if_pos hs]
      have hsl : start < xs.length := by omega
      refine nthBind_cost fun p hp => ?_
      rw [hi.get start hsl] at hp
      cases hp
      obtain ⟨L, hL0, hL, inj⟩ := hi.perm.cycle hsl
      generalize hcd : (fun t => σ^[t] start) = c
      have c0 : c 0 = start := by rw [← hcd]; rfl
      have hc : ∀ t, c (t + 1) = σ (c t) := fun t => by
        rw [← hcd]; exact Function.iterate_succ_apply' σ t start
      have hcl : ∀ t, c t < xs.length := fun t => by rw [← hcd]; exact hi.perm.iter_lt hsl t
      have hcL : c L = c 0 := by rw [c0, ← hcd]; exact hL
      have hinj : ∀ t t', t < L → t' < L → c t = c t' → t = t' := by rw [← hcd]; exact inj
      have hun : ∀ t, t < L → ¬ Flag sorted (c t) := by
        intro t ht hf
        have key : ∀ d, Flag sorted (c (t + d)) := by
          intro d
          induction d with
          | zero => exact hf
          | succ d ih => rw [show t + (d + 1) = (t + d) + 1 by omega, hc]; exact hclosed _ (hcl _) ih
        have := key (L - t)
        rw [show t + (L - t) = L by omega, hcL, c0] at this
        exact hcur hsl this
      have hb : start < sorted.length := by rw [hlen]; exact hsl
      have w := excWhile_cost (N := N) hi (c := c) (L := L) (sorted0 := sorted)
        hc hcl hcL hinj hun (L - 1) 0 cycles (sorted.set start true) (by omega) (by simp [hlen])
        (fun i => by
          rw [flag_set hb]
          constructor
          · rintro (e | h)
            · exact .inr ⟨0, le_refl _, by rw [c0]; exact e⟩
            · exact .inl h
          · rintro (h | ⟨t, ht, e⟩)
            · exact .inr h
            · rw [show t = 0 by omega, c0] at e; exact .inl e)
        (by rw [count_set hb (hcur hsl)])
      rw [hc 0, c0] at w
      refine w.bind ?_
      rintro ⟨sorted', cyc⟩ k ⟨d0, d1, d2, d3⟩
      dsimp only at *
      refine ((excFind_runs d1 (xs.length - start - 1) start (by omega)).withCost
        (excFind_silent (xs.length - start - 1) start (by omega))).bind fun r k' hr => ?_
      obtain ⟨⟨r1, r2, r3, r4⟩, rfl⟩ := hr
      refine (ih (xs.length - r) (by omega) r sorted' (cyc + 1) (by omega) d1 r4 ?_).mono fun q k'' hq => by omega
      intro i hil hf
      rcases (d2 i).1 hf with h | ⟨t, ht, e⟩
      · exact (d2 _).2 (.inl (hclosed i hil h))
      · refine (d2 _).2 (.inr ?_)
        rw [e, ← hc]
        by_cases h : t + 1 < L
        · exact ⟨t + 1, h, rfl⟩
        · exact ⟨0, hL0, by rw [show t + 1 = L by omega, hcL]⟩

theorem probeExc_cost [Inhabited α] (hlt : StrictWeak lt) (bl : Bool) (xs : List α) :
    Upto (probeExc lt bl xs) (sortCmps xs.length + 2 * xs.length) (fun _ => True) := by
  unfold probeExc
  refine Upto.ite (fun _ => Upto.pure trivial) fun h => ?_
  refine (sortedIterators_cost hlt bl xs).bind fun its hi => ?_
  obtain ⟨x, σ, ip⟩ := hi.itsPerm (by omega)
  refine Cost.upto ?_
  have nf : ∀ i, ¬ Flag (List.replicate xs.length false) i := by
    intro i hf
    unfold Flag at hf
    rw [List.getElem?_replicate] at hf
    split at hf <;> simp at hf
  refine (excLoop_cost ip xs.length 0 (List.replicate xs.length false) 0 (by omega) (by simp) (fun _ => nf _)
    fun i _ hf => absurd hf (nf i)).bind fun r c hc => Cost.pure (by omega)

/-! ### inv -/

theorem invSkip_cost (hlt : StrictWeak lt) {middle : Nat} : ∀ (n first : Nat), first + n = middle →
    Cost N (invSkip (tick lt) first middle) (fun r c => first ≤ r ∧ r ≤ middle ∧ first + c = r + 1) := by
  intro n
  induction n with
  | zero =>
    intro first h
    obtain rfl : first = middle := by omega
    intro s r s' hs hr
    rw [invSkip] at hr
    obtain ⟨x, s1, h1, hr⟩ := bind_inv hr
    obtain ⟨y, s2, h2, hr⟩ := bind_inv hr
    have e1 := silent_read first s x s1 h1
    have q : s1 = s ∧ (read first : M α α) s = some (.ok x, s) := by
      unfold read at h1 ⊢
      split at h1 <;> rename_i hc
      · cases h1; exact ⟨rfl, rfl⟩
      all_goals cases h1
    obtain ⟨rfl, q⟩ := q
    rw [q] at h2
    cases h2
    have w : Cost N (tick lt x x >>= fun b => if b = true then invSkip (tick lt) (first + 1) first else pure first)
        (fun r c => first ≤ r ∧ r ≤ first ∧ first + c = r + 1) :=
      (Cost.tick (R := fun b c => b = false ∧ c = 1) ⟨hlt.irrefl x, rfl⟩).bind fun b c hb => by
        obtain ⟨rfl, rfl⟩ := hb
        rw [if_neg (by simp)]
        exact Cost.pure ⟨by omega, by omega, by omega⟩
    exact w s1 r s' hs hr
  | succ n ih =>
    intro first h
    rw [invSkip]
    refine (silent_read _).costBind fun x => (silent_read _).costBind fun y => Cost.tickBind fun b => ?_
    refine Cost.ite (fun _ => ?_) fun _ => Cost.pure ⟨by omega, by omega, by omega⟩
    exact (ih (first + 1) (by omega)).mono fun r c hr => ⟨by omega, by omega, by omega⟩

theorem invMerge_cost {middle last : Nat} : ∀ (n f1 f2 res inv : Nat), (middle - f1) + (last - f2) = n → f1 ≤ middle →
    f2 ≤ last → Cost N (invMerge (tick lt) middle last f1 f2 res inv) (fun _ c => c ≤ n - 1) := by
  intro n
  induction n with
  | zero =>
    intro f1 f2 res inv hn h1 h2
    rw [invMerge, if_neg (by omega)]
    exact Cost.pure (by omega)
  | succ n ih =>
    intro f1 f2 res inv hn h1 h2
    rw [invMerge]
    refine Cost.ite (fun _ => Cost.ite (fun _ => ?_) fun _ => ?_) fun _ => Cost.pure (by omega)
    · exact (moveRange_silent' _ _ _ _ _).costBind fun _ => Cost.pure (by omega)
    · refine (silent_read _).costBind fun x => (silent_read _).costBind fun y => Cost.tickBind fun b => ?_
      refine Cost.ite (fun _ => ?_) fun _ => ?_
      · exact (silent_moveTo _ _).costBind fun _ => (ih _ _ _ _ (by omega) (by omega) (by omega)).mono fun _ c h => by omega
      · exact (silent_moveTo _ _).costBind fun _ => (ih _ _ _ _ (by omega) (by omega) (by omega)).mono fun _ c h => by omega

theorem countInversionsMerge_cost (hlt : StrictWeak lt) {first middle last cache : Nat} (h1 : first < middle)
    (h2 : middle < last) :
    Cost N (countInversionsMerge (tick lt) first middle last cache) (fun _ c => c ≤ last - first) := by
  unfold countInversionsMerge
  refine (invSkip_cost hlt (middle - first) first (by omega)).bind fun r c hr => ?_
  refine (invMerge_cost ((middle - r) + (last - middle)) r middle cache 0 rfl (by omega) (by omega)).bind fun p c' hp => ?_
  obtain ⟨f2, inv⟩ := p
  exact (moveRange_silent' _ _ _ _ _).costBind fun _ => Cost.pure (by omega)

theorem countInversions_cost (hlt : StrictWeak lt) {cache : Nat} : ∀ (k first last : Nat), last - first ≤ 2 ^ k →
    Cost N (countInversions (tick lt) first last cache) (fun _ c => c ≤ (last - first) * k) := by
  intro k
  induction k with
  | zero =>
    intro first last h
    rw [countInversions]
    dsimp only
    rw [if_pos (by omega)]
    exact Cost.pure (by omega)
  | succ k ih =>
    intro first last h
    rw [Nat.pow_succ] at h
    rw [countInversions]
    dsimp only
    refine Cost.ite (fun _ => Cost.pure (by omega)) fun h2 => ?_
    refine (ih first (first + (last - first) / 2) (by omega)).bind fun a c hc => ?_
    refine (ih (first + (last - first) / 2) last (by omega)).bind fun b c' hc' => ?_
    refine (countInversionsMerge_cost hlt (by omega) (by omega)).bind fun d c'' hc'' => Cost.pure ?_
    have e : (last - first) * (k + 1) = (first + (last - first) / 2 - first) * k +
        (last - (first + (last - first) / 2)) * k + (last - first) := by
      rw [← Nat.add_mul, Nat.mul_succ]
      congr 2
      omega
    omega

theorem probeInv_cost (hlt : StrictWeak lt) (xs : List α) :
    Upto (probeInv lt xs) (xs.length * (xs.length.log2 + 1)) (fun _ => True) := by
  intro s r s' hr
  unfold probeInv at hr
  split at hr
  · cases hr
    exact ⟨by omega, trivial⟩
  · have hk : xs.length - 0 ≤ 2 ^ (xs.length.log2 + 1) := Nat.le_of_lt Nat.lt_log2_self
    have w := countInversions_cost (N := 0) (indirectLt_sw hlt) (cache := xs.length) _ 0 xs.length hk
    split at hr
    · cases hr
    · rename_i r' t ht
      cases hr
      obtain ⟨-, c, e1, e2⟩ := w _ _ _ (fun _ => Nat.zero_le _) ht
      have : (invMem xs.zipIdx s).cmps = s.cmps := rfl
      refine ⟨?_, trivial⟩
      dsimp only
      rw [Nat.sub_zero] at e2
      omega

end CppSort
