import Verif.Base.CostFix
import Verif.Model.Pdq
set_option autoImplicit false

namespace CppSort
variable {α : Type} {lt : α → α → Bool} {N : Nat}

/-! ### comparisons of the block partition -/

theorem silent_fail {β : Type} (e : Err) : Silent (fail e : M α β) := by
  intro s r s' hr
  simp [fail] at hr

theorem setOffset_silent (o : Offsets) (k i : Nat) : Silent (setOffset o k i : M α Offsets) := by
  unfold setOffset
  exact Silent.ite Silent.pure (silent_fail _)

theorem getOffset_silent (o : Offsets) (k : Nat) : Silent (getOffset o k : M α Nat) := by
  unfold getOffset
  split
  · exact Silent.ite Silent.pure (silent_fail _)
  · exact silent_fail _

theorem swapOffsetsSwap_silent {first last startL startR : Nat} {offL offR : Offsets} : ∀ n i,
    Silent (swapOffsetsSwap first last startL startR offL offR n i : M α Unit)
  | 0, _ => Silent.pure
  | n + 1, i => (getOffset_silent _ _).bind fun _ => (getOffset_silent _ _).bind fun _ =>
      (silent_swap _ _).bind fun _ => swapOffsetsSwap_silent n (i + 1)

theorem swapOffsetsCycle_silent {first last startL startR : Nat} {offL offR : Offsets} : ∀ n i r,
    Silent (swapOffsetsCycle first last startL startR offL offR n i r : M α Nat)
  | 0, _, _ => Silent.pure
  | n + 1, i, r => (getOffset_silent _ _).bind fun _ => (silent_moveTo _ _).bind fun _ =>
      (getOffset_silent _ _).bind fun _ => (silent_moveTo _ _).bind fun _ =>
      swapOffsetsCycle_silent n (i + 1) _

theorem swapOffsets_silent {first last startL startR num : Nat} {offL offR : Offsets} {u : Bool} :
    Silent (swapOffsets first last startL startR offL offR num u : M α Unit) := by
  unfold swapOffsets
  refine Silent.ite (swapOffsetsSwap_silent _ _) (Silent.ite ?_ Silent.pure)
  exact (getOffset_silent _ _).bind fun _ => (getOffset_silent _ _).bind fun _ =>
    (silent_moveOut _).bind fun _ => (silent_moveTo _ _).bind fun _ =>
    (swapOffsetsCycle_silent _ _ _).bind fun _ => silent_assign _ _

theorem notBelowPivot_cost {x : α} {p : Nat} {R : Bool → Nat → Prop} (h : ∀ b, R b 1) :
    Cost N (notBelowPivot (tick lt) x p) R := by
  unfold notBelowPivot
  exact (silent_read _).costBind fun _ => Cost.tickBind fun b => Cost.pure (h _)

theorem belowPivot_cost {x : α} {p : Nat} {R : Bool → Nat → Prop} (h : ∀ b, R b 1) :
    Cost N (belowPivot (tick lt) x p) R := by
  unfold belowPivot
  exact (silent_read _).costBind fun _ => Cost.tick (h _)

theorem fillLeft_cost {x : α} : ∀ (n i : Nat) (o : Offsets) (num first : Nat),
    Cost N (fillLeft (tick lt) x n i o num first) (fun r c => c = n ∧ r.2.2 = first + n)
  | 0, _, _, _, _ => Cost.pure ⟨rfl, rfl⟩
  | n + 1, i, o, num, first => by
    rw [fillLeft]
    refine (setOffset_silent _ _ _).costBind fun _ => ?_
    refine (notBelowPivot_cost (R := fun _ c => c = 1) fun _ => rfl).bind fun b c hc => ?_
    exact (fillLeft_cost n _ _ _ _).mono fun r c' h => ⟨by omega, by omega⟩

theorem fillRight_cost {x : α} : ∀ (n i : Nat) (o : Offsets) (num last : Nat),
    Cost N (fillRight (tick lt) x n i o num last) (fun r c => c = n ∧ r.2.2 = last - n)
  | 0, _, _, _, _ => Cost.pure ⟨rfl, rfl⟩
  | n + 1, i, o, num, last => by
    rw [fillRight]
    refine (setOffset_silent _ _ _).costBind fun _ => ?_
    refine (belowPivot_cost (R := fun _ c => c = 1) fun _ => rfl).bind fun b c hc => ?_
    exact (fillRight_cost n _ _ _ _).mono fun r c' h => ⟨by omega, by omega⟩

theorem blkSwap_cost (b : Blk) : Cost (α := α) N (blkSwap b)
    (fun b' c => c = 0 ∧ b'.first = b.first ∧ b'.last = b.last) := by
  unfold blkSwap
  exact swapOffsets_silent.costBind fun _ => Cost.pure ⟨rfl, rfl, rfl⟩

theorem splitSizes_le (b : Blk) : (splitSizes b).1 + (splitSizes b).2 ≤ b.last - b.first := by
  unfold splitSizes
  dsimp only
  repeat' split
  all_goals omega

/-- Every element is compared at most once with the pivot. -/
theorem blkLoop_cost {x : α} : ∀ b, Cost N (blkLoop (tick lt) x b) (fun _ c => c ≤ b.last - b.first) := by
  refine blkLoop.fixpoint_induct (tick lt) x (fun f => ∀ b, Cost N (f b) (fun _ c => c ≤ b.last - b.first))
    Cost.admissible1 ?_
  intro f ih b
  refine Cost.ite (fun h => ?_) fun _ => Cost.pure (Nat.zero_le _)
  have hs := splitSizes_le b
  refine (fillLeft_cost _ _ _ _ _).bind fun r c hr => ?_
  obtain ⟨o1, n1, first⟩ := r
  refine (fillRight_cost _ _ _ _ _).bind fun r c' hr' => ?_
  obtain ⟨o2, n2, last⟩ := r
  dsimp only at *
  refine (blkSwap_cost _).bind fun b' c2 hb => ?_
  refine (ih b').mono fun _ c3 h3 => ?_
  dsimp only at *
  omega

theorem drainLeft_silent {base start : Nat} {o : Offsets} : ∀ n last,
    Silent (drainLeft base start o n last : M α Nat)
  | 0, _ => Silent.pure
  | n + 1, last => (getOffset_silent _ _).bind fun _ => (silent_swap _ _).bind fun _ =>
      drainLeft_silent n _

theorem drainRight_silent {base start : Nat} {o : Offsets} : ∀ n first,
    Silent (drainRight base start o n first : M α Nat)
  | 0, _ => Silent.pure
  | n + 1, first => (getOffset_silent _ _).bind fun _ => (silent_swap _ _).bind fun _ =>
      drainRight_silent n _

theorem blkDrain_silent (b : Blk) : Silent (blkDrain b : M α Nat) := by
  unfold blkDrain
  dsimp only
  split
  · refine (drainLeft_silent _ _).bind fun _ => ?_
    exact Silent.ite (drainRight_silent _ _) Silent.pure
  · refine Silent.pure.bind fun _ => ?_
    exact Silent.ite (drainRight_silent _ _) Silent.pure

theorem branchlessLoop_cost {x : α} {p q : Nat} :
    Cost N (branchlessLoop (tick lt) x p q) (fun _ c => c ≤ q - p) := by
  unfold branchlessLoop
  refine Cost.ite (fun h => ?_) fun _ => Cost.pure (Nat.zero_le _)
  refine (silent_swap _ _).costBind fun _ => (blkLoop_cost _).bind fun b c hc => ?_
  refine (blkDrain_silent _).cost fun _ => ?_
  dsimp only at hc
  omega

end CppSort
