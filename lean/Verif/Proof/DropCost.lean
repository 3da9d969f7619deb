import Verif.Proof.Drop
import Verif.Base.CostFix
set_option autoImplicit false

namespace CppSort
variable {α : Type} {lt : α → α → Bool} {N : Nat}

theorem dropPush_silent (triv : Bool) (dst src : Nat) : Silent (dropPush triv dst src : M α Unit) := by
  unfold dropPush
  exact Silent.ite ((silent_read _).bind fun _ => silent_construct _ _) (silent_constructFrom _ _)

theorem dropMove_silent (triv : Bool) (dst src : Nat) : Silent (dropMove triv dst src : M α Unit) := by
  unfold dropMove
  exact Silent.ite ((silent_read _).bind fun _ => silent_assign _ _) (silent_moveTo _ _)

theorem dropBack_silent {triv : Bool} {base : Nat} : ∀ num rd size,
    Silent (dropBack triv base num rd size : M α Unit)
  | 0, _, _ => Silent.pure
  | num + 1, rd, size => by
    rw [dropBack]
    split
    · exact Silent.pure.bind fun _ => (silent_destroy _).bind fun _ => dropBack_silent num _ _
    · exact (silent_moveTo _ _).bind fun _ => (silent_destroy _).bind fun _ => dropBack_silent num _ _

theorem dropKeep_cost {triv : Bool} {write rd size : Nat} : Cost (α := α) N (dropKeep triv write rd size)
    (fun r c => c = 0 ∧ r = (write + 1, rd + 1, size, 0)) := by
  unfold dropKeep
  split
  · exact (dropMove_silent _ _ _).costBind fun _ => Cost.pure ⟨rfl, rfl⟩
  · split
    · exact (dropMove_silent _ _ _).costBind fun _ => Cost.pure ⟨rfl, rfl⟩
    · exact Cost.pure ⟨rfl, rfl⟩

theorem dropDrop_cost {triv : Bool} {base write rd size num : Nat} :
    Cost (α := α) N (dropDrop triv base write rd size num) (fun r c => c = 0 ∧
      (num < 8 ∧ r = (write, rd + 1, size + 1, num + 1) ∨
       ¬ num < 8 ∧ r = (write - 1, rd - num, size - num + 1, 0))) := by
  unfold dropDrop
  refine Cost.ite (fun h => ?_) fun h => ?_
  · exact (dropPush_silent _ _ _).costBind fun _ => Cost.pure ⟨rfl, .inl ⟨h, rfl⟩⟩
  · exact (dropBack_silent _ _ _).costBind fun _ => (dropPush_silent _ _ _).costBind fun _ =>
      Cost.pure ⟨rfl, .inr ⟨h, rfl⟩⟩

/-- The iterators after a step. -/
def DropNext (start write rd num : Nat) (r : Nat × Nat × Nat × Nat) : Prop :=
  (r.1 = write + 1 ∧ r.2.1 = rd + 1 ∧ r.2.2.2 = 0) ∨
  (start ≠ write ∧ num = 0 ∧ r.1 = write ∧ r.2.1 = rd + 1 ∧ r.2.2.2 = 0) ∨
  (start ≠ write ∧ num < 8 ∧ r.1 = write ∧ r.2.1 = rd + 1 ∧ r.2.2.2 = num + 1) ∨
  (start ≠ write ∧ ¬ num < 8 ∧ r.1 = write - 1 ∧ r.2.1 = rd - num ∧ r.2.2.2 = 0)

theorem dropStep_cost {triv : Bool} {start base write rd size num : Nat} :
    Cost N (dropStep (tick lt) triv start base write rd size num)
      (fun r c => c ≤ 2 ∧ DropNext start write rd num r) := by
  have keep : ∀ k, k ≤ 2 → Cost (α := α) N (dropKeep triv write rd size)
      (fun r c => k + c ≤ 2 ∧ DropNext start write rd num r) := fun k hk =>
    dropKeep_cost.mono fun r c h => by
      obtain ⟨h1, rfl⟩ := h
      exact ⟨by omega, .inl ⟨rfl, rfl, rfl⟩⟩
  have drop : start ≠ write → ∀ k, k ≤ 2 → Cost (α := α) N (dropDrop triv base write rd size num)
      (fun r c => k + c ≤ 2 ∧ DropNext start write rd num r) := fun hne k hk =>
    dropDrop_cost.mono fun r c h => by
      obtain ⟨h1, ⟨h2, rfl⟩ | ⟨h2, rfl⟩⟩ := h
      · exact ⟨by omega, .inr (.inr (.inl ⟨hne, h2, rfl, rfl, rfl⟩))⟩
      · exact ⟨by omega, .inr (.inr (.inr ⟨hne, h2, rfl, rfl, rfl⟩))⟩
  unfold dropStep
  refine Cost.ite (fun hne => ?_) fun _ => (keep 0 (by omega)).mono fun r c h => ⟨by omega, h.2⟩
  refine (silent_read _).costBind fun _ => (silent_read _).costBind fun _ => Cost.tickBind fun b => ?_
  refine Cost.ite (fun _ => ?_) fun _ => keep 1 (by omega)
  refine Cost.ite (fun h0 => ?_) fun _ => drop hne 1 (by omega)
  refine (silent_read _).costBind fun _ => (silent_read _).costBind fun _ => Cost.tickBind fun b => ?_
  refine Cost.ite (fun _ => ?_) fun _ => (drop hne 2 (by omega)).mono fun r c h => ⟨by omega, h.2⟩
  exact (dropPush_silent _ _ _).costBind fun _ => (dropMove_silent _ _ _).costBind fun _ =>
    Cost.pure ⟨by omega, .inr (.inl ⟨hne, h0.1, rfl, rfl, h0.1⟩)⟩

theorem dropLoop_cost {triv : Bool} {start last base : Nat} : ∀ write rd size num,
    Cost N (dropLoop (tick lt) triv start last base write rd size num) (fun _ c =>
      start ≤ write → write + num ≤ rd → rd < last → num ≤ 8 →
      c + 2 * num ≤ 20 * (last - rd + num) + 18 * (write - start)) := by
  refine dropLoop.fixpoint_induct (tick lt) triv start last base (fun f => ∀ write rd size num,
    Cost N (f write rd size num) (fun _ c =>
      start ≤ write → write + num ≤ rd → rd < last → num ≤ 8 →
      c + 2 * num ≤ 20 * (last - rd + num) + 18 * (write - start)))
    (Lean.Order.admissible_pi_apply (fun write (f : Nat → Nat → Nat → M α (Nat × Nat)) => ∀ rd size num,
      Cost N (f rd size num) (fun _ c => start ≤ write → write + num ≤ rd → rd < last → num ≤ 8 →
      c + 2 * num ≤ 20 * (last - rd + num) + 18 * (write - start))) fun _ => Cost.admissible3) ?_
  intro f ih write rd size num
  refine dropStep_cost.bind fun r c hr => ?_
  obtain ⟨write', rd', size', num'⟩ := r
  obtain ⟨hc, hr⟩ := hr
  unfold DropNext at hr
  dsimp only at hr ⊢
  refine Cost.ite (fun hne => ?_) fun hne => Cost.pure (by omega)
  refine (ih write' rd' size' num').mono fun _ c' h h1 h2 h3 h4 => ?_
  have := h (by omega) (by omega) (by omega) (by omega)
  omega

theorem dropShift_cost {triv : Bool} {start dropped : Nat} : ∀ back write,
    Cost N (dropShift (tick lt) triv start dropped back write) (fun r c =>
      start ≤ write → start ≤ r.2 ∧ c + r.2 ≤ write + 1) := by
  refine dropShift.fixpoint_induct (tick lt) triv start dropped (fun f => ∀ back write,
    Cost N (f back write) (fun r c => start ≤ write → start ≤ r.2 ∧ c + r.2 ≤ write + 1)) Cost.admissible2 ?_
  intro f ih back write
  refine Cost.ite (fun hne => ?_) fun hne => Cost.pure fun h => ⟨h, by simp⟩
  refine (silent_read _).costBind fun _ => (silent_read _).costBind fun _ => Cost.tickBind fun b => ?_
  refine Cost.ite (fun _ => ?_) fun _ => Cost.pure fun h => ⟨h, by simp; omega⟩
  refine (dropMove_silent _ _ _).costBind fun _ => (ih _ _).mono fun r c h h1 => ?_
  have := h (by omega)
  omega

theorem dropMerge_cost {triv : Bool} {start base : Nat} : ∀ size back write,
    Cost N (dropMerge (tick lt) triv start base size back write) (fun _ c =>
      0 < size → start ≤ write → c ≤ size + (write - start)) := by
  refine dropMerge.fixpoint_induct (tick lt) triv start base (fun f => ∀ size back write,
    Cost N (f size back write) (fun _ c => 0 < size → start ≤ write → c ≤ size + (write - start)))
    Cost.admissible3 ?_
  intro f ih size back write
  refine (dropShift_cost _ _).bind fun r c hr => ?_
  obtain ⟨back', write'⟩ := r
  dsimp only at hr ⊢
  refine (dropMove_silent _ _ _).costBind fun _ => (silent_destroy _).costBind fun _ => ?_
  refine Cost.ite (fun hne => ?_) fun hne => Cost.pure fun h0 h1 => by have := hr h1; omega
  refine (ih _ _ _).mono fun _ c' h h0 h1 => ?_
  have := hr h1
  have := h (by omega) (by omega)
  omega

/-! ### runs -/

/-- Runs on `n` elements make at most `C n` comparisons. -/
def CmpBound (sort : Nat → Nat → M α Unit) (C : Nat → Nat) : Prop :=
  ∀ (s : St α) (first : Nat) (xs : List α) (s' : St α), s.WF → Seg s.cell first xs →
    sort first (first + xs.length) s = some (.ok (), s') → s'.cmps ≤ s.cmps + C xs.length

/-- What holds of the end of a run. -/
theorem wp.run {β : Type} {m : M α β} {Q : β → St α → Prop} {s s' : St α} {r : β} (h : wp m Q s)
    (e : m s = some (.ok r, s')) : Q r s' := by
  obtain ⟨r', s'', h1, h2⟩ := h
  rw [e] at h1
  cases h1
  exact h2

theorem Cost.run {β : Type} {m : M α β} {R : β → Nat → Prop} {s s' : St α} {r : β} (h : Cost 0 m R)
    (e : m s = some (.ok r, s')) : ∃ c, s'.cmps = s.cmps + c ∧ R r c :=
  (h s r s' (fun _ => Nat.zero_le _) e).2

theorem Silent.run {β : Type} {m : M α β} {s s' : St α} {r : β} (h : Silent m)
    (e : m s = some (.ok r, s')) : s'.cmps = s.cmps := (h s r s' e).1

theorem finallyDo_inv {β : Type} {m : M α β} {fin : M α Unit} {s s' : St α} {r : β}
    (h : finallyDo m fin s = some (.ok r, s')) :
    ∃ s1, m s = some (.ok r, s1) ∧ fin s1 = some (.ok (), s') := by
  unfold finallyDo at h
  split at h
  · cases h
  · rename_i r1 s1 h1
    split at h
    · cases h
    · cases h
    · rename_i h2
      simp only [Option.some.injEq, Prod.mk.injEq] at h
      obtain ⟨rfl, rfl⟩ := h
      exact ⟨s1, h1, h2⟩

theorem dropMergeSort_cost (hlt : StrictWeak lt) (triv : Bool) {sorter : Nat → Nat → M α Unit}
    {C : Nat → Nat} (hC : ∀ m n, m ≤ n → C m ≤ C n) (hsort : CmpBound sorter C) :
    CmpBound (dropMergeSort (tick lt) triv sorter) (fun n => 21 * n + C n) := by
  intro s f xs s' hw hs hrun
  unfold dropMergeSort at hrun
  by_cases hlen : xs.length < 2
  · rw [if_pos (by omega)] at hrun
    have := Silent.pure.run hrun
    omega
  have hbrk := hs.below hw (by omega)
  rw [if_neg (by omega), Nat.add_sub_cancel_left] at hrun
  obtain ⟨base, s1, hal, hrun⟩ := bind_inv hrun
  obtain ⟨s5, hrun, hfree⟩ := finallyDo_inv hrun
  have hc5 := (silent_free _ _).run hfree
  have hc1 := (silent_alloc _).run hal
  obtain ⟨rfl, b1, b2, b3⟩ : base = s.brk ∧ (∀ i, s.brk ≤ i → i < s.brk + xs.length → s1.cell i = .raw) ∧
      (∀ i, i < s.brk ∨ s.brk + xs.length ≤ i → s1.cell i = s.cell i) ∧ s1.brk = s.brk + xs.length :=
    (wp_alloc (Q := fun base s1 => base = s.brk ∧
      (∀ i, s.brk ≤ i → i < s.brk + xs.length → s1.cell i = .raw) ∧
      (∀ i, i < s.brk ∨ s.brk + xs.length ≤ i → s1.cell i = s.cell i) ∧ s1.brk = s.brk + xs.length)
      fun s1 b1 b2 b3 _ _ _ => ⟨rfl, b1, b2, b3⟩).run hal
  have hinv : DropInv triv f s.brk xs.length s1 s1 [] [] [] xs := by
    constructor
    · exact Seg.nil
    · exact Seg.nil
    · simp only [List.length_nil, Nat.add_zero]
      exact hs.congr fun i h1 h2 => b2 i (by omega)
    · intro i h1 h2; simp at h1 h2; omega
    · intro _; exact Seg.nil
    · intro i h1 h2; simp at h1; exact b1 i (by omega) h2
    · simp
    · exact hbrk
    · intro _ _ _; rfl
    · rfl
  have hx : xs ≠ [] := by rintro rfl; simp at hlen
  obtain ⟨r, s2, hloop, hrun⟩ := bind_inv hrun
  obtain ⟨W, D, g1, g2, g3, rfl⟩ := (dropLoop_spec hlt _ [] [] [] xs s1 (Nat.lt_succ_self _) hx hinv (by simp)
    List.Pairwise.nil).run hloop
  obtain ⟨c2, hc2, hb2⟩ := (dropLoop_cost f f 0 0).run hloop
  have hb2 := hb2 (by omega) (by omega) (by omega) (by omega)
  dsimp only at hrun
  have hl := g1.len
  simp only [List.length_nil, Nat.add_zero] at hl
  have hw2 : s2.WF := by
    intro i hi
    rw [St.env_brk g1.env, b3] at hi
    rw [g1.out i (by omega) (by omega), b2 i (by omega)]
    exact hw i (by omega)
  dsimp only
  split at hrun
  · have := Silent.pure.run hrun
    omega
  · rename_i hD
    obtain ⟨_, s3, hrun1, hrun⟩ := bind_inv hrun
    have hsD := g1.segD
    rw [List.append_nil] at hsD
    have h3 := hsort s2 s.brk D s3 hw2 hsD hrun1
    obtain ⟨c4, hc4, hb4⟩ := (dropMerge_cost _ _ _).run hrun
    have hb4 := hb4 (by omega) (by omega)
    have hCD := hC D.length xs.length (by omega)
    omega

end CppSort
