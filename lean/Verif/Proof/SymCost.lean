import Verif.Proof.MergeCost
import Verif.Proof.DropCost
import Verif.Proof.PdqBlockCost
set_option autoImplicit false

namespace CppSort
variable {α : Type} {lt : α → α → Bool} {N : Nat}

/-! ### rotations make no comparison -/

theorem Silent.admissible {β : Type} : Lean.Order.admissible (fun m : M α β => Silent m) := by
  unfold Silent
  apply Lean.Order.admissible_pi_apply (α := St α) (β := fun _ => Option (Except Err β × St α))
    (P := fun (s : St α) (x : Option (Except Err β × St α)) => ∀ r s',
      x = some (.ok r, s') → s'.cmps = s.cmps ∧ s'.grant = s.grant)
  intro s
  apply Lean.Order.admissible_pi
  intro r
  apply Lean.Order.admissible_pi
  intro s'
  exact Lean.Order.Option.admissible_eq_some _ _

theorem Silent.admissible1 {β γ : Type} :
    Lean.Order.admissible (fun f : γ → M α β => ∀ x, Silent (f x)) :=
  Lean.Order.admissible_pi_apply (fun _ m => Silent m) fun _ => Silent.admissible

theorem Silent.admissible2 {β γ δ : Type} :
    Lean.Order.admissible (fun f : γ → δ → M α β => ∀ x y, Silent (f x y)) :=
  Lean.Order.admissible_pi_apply (fun _ (f : δ → M α β) => ∀ y, Silent (f y)) fun _ => Silent.admissible1

theorem Silent.admissible3 {β γ δ ε : Type} :
    Lean.Order.admissible (fun f : γ → δ → ε → M α β => ∀ x y z, Silent (f x y z)) :=
  Lean.Order.admissible_pi_apply (fun _ (f : δ → ε → M α β) => ∀ y z, Silent (f y z)) fun _ => Silent.admissible2

theorem moveBackward_silent (first : Nat) : ∀ last result, Silent (moveBackward first last result : M α Nat) := by
  refine moveBackward.fixpoint_induct first (fun f => ∀ x y, Silent (f x y)) Silent.admissible2 ?_
  intro f ih x y
  dsimp only
  split
  · exact (silent_moveTo _ _).bind fun _ => ih _ _
  · exact Silent.pure

theorem moveRange_silent' (d1 d2 : Nat → Nat) (last : Nat) : ∀ first result,
    Silent (moveRange d1 d2 first last result : M α Nat) := by
  refine moveRange.fixpoint_induct d1 d2 last (fun f => ∀ x y, Silent (f x y)) Silent.admissible2 ?_
  intro f ih x y
  dsimp only
  split
  · exact (silent_moveTo _ _).bind fun _ => ih _ _
  · exact Silent.pure

theorem swapRanges_silent (last1 : Nat) : ∀ first1 first2, Silent (swapRanges first1 last1 first2 : M α Nat) := by
  refine swapRanges.fixpoint_induct last1 (fun f => ∀ x y, Silent (f x y)) Silent.admissible2 ?_
  intro f ih x y
  dsimp only
  split
  · exact (silent_swap _ _).bind fun _ => ih _ _
  · exact Silent.pure

theorem rotateForward1_silent (last : Nat) : ∀ first middle i,
    Silent (rotateForward1 first middle last i : M α (Nat × Nat)) := by
  refine rotateForward1.fixpoint_induct last (fun f => ∀ x y z, Silent (f x y z)) Silent.admissible3 ?_
  intro f ih x y z
  refine (silent_swap _ _).bind fun _ => ?_
  dsimp only
  split
  · exact Silent.pure
  · split <;> exact ih _ _ _

theorem rotateForward2_silent (last : Nat) : ∀ first middle i,
    Silent (rotateForward2 first middle last i : M α Unit) := by
  refine rotateForward2.fixpoint_induct last (fun f => ∀ x y z, Silent (f x y z)) Silent.admissible3 ?_
  intro f ih x y z
  refine (silent_swap _ _).bind fun _ => ?_
  dsimp only
  split
  · split
    · exact Silent.pure
    · exact ih _ _ _
  · split <;> exact ih _ _ _

theorem gcdLoop_silent : ∀ x y, Silent (gcdLoop x y : M α Nat) := by
  refine gcdLoop.fixpoint_induct (fun f => ∀ x y, Silent (f x y)) Silent.admissible2 ?_
  intro f ih x y
  dsimp only
  split
  · exact silent_fail _
  · split
    · exact ih _ _
    · exact Silent.pure

theorem rotateCycle_silent (first last m1 p : Nat) : ∀ p1 p2, Silent (rotateCycle first last m1 p p1 p2 : M α Nat) := by
  refine rotateCycle.fixpoint_induct first last m1 p (fun f => ∀ x y, Silent (f x y)) Silent.admissible2 ?_
  intro f ih x y
  refine (silent_moveTo _ _).bind fun _ => ?_
  dsimp only
  split <;> split <;> first | exact ih _ _ | exact Silent.pure

theorem rotateCycles_silent (first last m1 : Nat) : ∀ p, Silent (rotateCycles first last m1 p : M α Unit) := by
  refine rotateCycles.fixpoint_induct first last m1 (fun f => ∀ x, Silent (f x)) Silent.admissible1 ?_
  intro f ih x
  dsimp only
  split
  · exact (silent_moveOut _).bind fun _ => (rotateCycle_silent _ _ _ _ _ _).bind fun _ =>
      (silent_assign _ _).bind fun _ => ih _
  · exact Silent.pure

theorem rotateLeft_silent (first last : Nat) : Silent (rotateLeft first last : M α Nat) :=
  (silent_moveOut _).bind fun _ => (moveRange_silent' _ _ _ _ _).bind fun _ =>
    (silent_assign _ _).bind fun _ => Silent.pure

theorem rotateRight_silent (first last : Nat) : Silent (rotateRight first last : M α Nat) :=
  (silent_moveOut _).bind fun _ => (moveBackward_silent _ _ _).bind fun _ =>
    (silent_assign _ _).bind fun _ => Silent.pure

theorem rotateForward_silent (first middle last : Nat) : Silent (rotateForward first middle last : M α Nat) := by
  unfold rotateForward
  refine (rotateForward1_silent _ _ _ _).bind fun r => ?_
  dsimp only
  split
  · exact (rotateForward2_silent _ _ _ _).bind fun _ => Silent.pure
  · exact Silent.pure

theorem rotateGcd_silent (first middle last : Nat) : Silent (rotateGcd first middle last : M α Nat) := by
  unfold rotateGcd
  dsimp only
  split
  · exact (swapRanges_silent _ _ _).bind fun _ => Silent.pure
  · exact (gcdLoop_silent _ _).bind fun _ => (rotateCycles_silent _ _ _ _).bind fun _ => Silent.pure

theorem rotate_silent (c : Cfg) (first middle last : Nat) : Silent (rotate c first middle last : M α Nat) := by
  unfold rotate
  repeat' split
  all_goals first
    | exact Silent.pure | exact rotateLeft_silent _ _ | exact rotateRight_silent _ _
    | exact rotateForward_silent _ _ _ | exact rotateGcd_silent _ _ _

/-! ### merging without a buffer -/

theorem log2_half {n : Nat} (h : 2 ≤ n) : Nat.log2 n = Nat.log2 (n / 2) + 1 := by
  rw [Nat.log2_def, if_pos h]

theorem log2_mono {m n : Nat} (h : m ≤ n) : Nat.log2 m ≤ Nat.log2 n := by
  by_cases hm : m = 0
  · subst hm; simp
  · rw [Nat.le_log2 (by omega)]
    exact Nat.le_trans (Nat.log2_self_le hm) h

theorem log2_lt_self {n : Nat} (h : 1 ≤ n) : Nat.log2 n + 1 ≤ n := by
  have := Nat.lt_two_pow_self (n := Nat.log2 n)
  have := Nat.log2_self_le (n := n) (by omega)
  omega

/-- The binary search of symmerge. -/
theorem symmergeBsearch_cost {arr p : Nat} : ∀ l r,
    Cost N (symmergeBsearch (tick lt) arr l r p) (fun x c => l ≤ r → l ≤ x ∧ x ≤ r ∧
      ∀ k, r - l < 2 ^ k → c ≤ k) := by
  refine symmergeBsearch.fixpoint_induct (tick lt) arr p (fun f => ∀ l r,
    Cost N (f l r) (fun x c => l ≤ r → l ≤ x ∧ x ≤ r ∧ ∀ k, r - l < 2 ^ k → c ≤ k)) Cost.admissible2 ?_
  intro f ih l r
  refine Cost.ite (fun h => ?_) fun h => Cost.pure fun h' => ⟨by omega, by omega, fun _ _ => Nat.zero_le _⟩
  refine (silent_read _).costBind fun _ => (silent_read _).costBind fun _ => Cost.tickBind fun b => ?_
  refine Cost.ite (fun _ => (ih _ _).mono fun x c hx h' => ?_) fun _ => (ih _ _).mono fun x c hx h' => ?_
  all_goals
    obtain ⟨h1, h2, h3⟩ := hx (by omega)
    refine ⟨by omega, by omega, fun k hk => ?_⟩
    obtain _ | k := k
    · simp at hk; omega
    have e : 2 ^ (k + 1) = 2 * 2 ^ k := by ring
    have := h3 k (by omega)
    omega

theorem symmerge_cost {c : Cfg} {arr buff buffSize : Nat} : ∀ (n first middle last len1 len2 : Nat),
    last = first + n → first + len1 = middle → middle + len2 = last →
    Cost N (symmerge (tick lt) c arr first middle last len1 len2 buff buffSize)
      (fun _ c => c = 0 ∨ c + Nat.log2 n + 2 ≤ 3 * n) := by
  intro n
  induction n using Nat.strongRecOn with
  | ind n ih =>
    intro first middle last len1 len2 hl h1 h2
    rw [symmerge]
    refine Cost.ite (fun hp => ?_) fun _ => Cost.pure (.inl rfl)
    have hlog := log2_lt_self (n := n) (by omega)
    refine Cost.ite (fun hb => ?_) fun hb => ?_
    · exact (bufferedInplaceMerge_cost (by omega) (by omega) (by omega) (by omega)).mono fun _ c hc => .inr (by omega)
    dsimp only
    have hn2 : last - first = n := by omega
    rw [hn2]
    have hhalf := log2_half (n := n) (by omega)
    have hhalf' := log2_mono (m := n / 2) (n := n - n / 2) (by omega)
    have hlt : n / 2 < 2 ^ Nat.log2 n := by
      rw [hhalf]
      exact Nat.lt_log2_self
    have rest : ∀ start k, first ≤ start → start ≤ middle → start ≤ first + n / 2 → 
        first + n / 2 + middle - start ≤ last → k ≤ Nat.log2 n →
        Cost N (do
          let _ ← rotate c (arr + start) (arr + middle) (arr + (first + n / 2 + middle - start))
          symmerge (tick lt) c arr first start (first + n / 2) (start - first) (first + n / 2 - start) buff buffSize
          symmerge (tick lt) c arr (first + n / 2) (first + n / 2 + middle - start) last
            (first + n / 2 + middle - start - (first + n / 2)) (last - (first + n / 2 + middle - start)) buff buffSize)
          (fun _ c => k + c = 0 ∨ k + c + Nat.log2 n + 2 ≤ 3 * n) := by
      intro start k a1 a2 a3 a4 a5
      refine (rotate_silent _ _ _ _).costBind fun _ => ?_
      refine (ih (n / 2) (by omega) first start (first + n / 2) _ _ rfl (by omega) (by omega)).bind fun _ c1 hc1 => ?_
      refine (ih (n - n / 2) (by omega) (first + n / 2) _ last _ _ (by omega) (by omega) (by omega)).mono fun _ c2 hc2 => ?_
      right
      have := log2_lt_self (n := n / 2) (by omega)
      have := log2_lt_self (n := n - n / 2) (by omega)
      omega
    split
    · refine (symmergeBsearch_cost _ _).bind fun start k hk => ?_
      obtain ⟨g1, g2, g3⟩ := hk (by omega)
      exact rest start k (by omega) (by omega) (by omega) (by omega) (g3 _ (by omega))
    · refine (symmergeBsearch_cost _ _).bind fun start k hk => ?_
      obtain ⟨g1, g2, g3⟩ := hk (by omega)
      exact rest start k (by omega) (by omega) (by omega) (by omega) (g3 _ (by omega))

theorem getTemporaryBuffer_cost (minCount : Nat) : ∀ count,
    Cost N (getTemporaryBuffer count minCount : M α (Option Buf)) (fun _ c => c = 0) := by
  refine getTemporaryBuffer.fixpoint_induct minCount (fun f => ∀ x, Cost N (f x) (fun _ c => c = 0))
    Cost.admissible1 ?_
  intro f ih x
  refine Cost.ite (fun h => ?_) fun _ => Cost.pure rfl
  refine (Cost.askGrant (R := fun g c => c = 0 ∧ N ≤ g) fun g hg => ⟨rfl, hg⟩).bind fun g c hg => ?_
  refine Cost.ite (fun _ => ?_) fun _ => (ih _).mono fun _ c hc => by omega
  exact (silent_alloc _).costBind fun _ => Cost.pure (by omega)

theorem newBuf_cost (count : Nat) : Cost N (newBuf count : M α Buf) (fun _ c => c = 0) := by
  unfold newBuf
  refine (getTemporaryBuffer_cost _ _).bind fun r c hc => ?_
  split <;> exact Cost.pure (by omega)

theorem tryGrow_cost' (b : Buf) (count : Nat) : Cost N (b.tryGrow count : M α Buf) (fun _ c => c = 0) := by
  unfold Buf.tryGrow
  refine (getTemporaryBuffer_cost _ _).bind fun r c hc => ?_
  split
  · exact Cost.pure (by omega)
  · exact (silent_free _ _).costBind fun _ => Cost.pure (by omega)

theorem release_silent (b : Buf) : Silent (b.release : M α Unit) := silent_free _ _

theorem inplaceMergeBuf_cost' {triv : Bool} {first middle last len1 len2 buff buffSize : Nat}
    (h1 : first + len1 = middle) (h2 : middle + len2 = last) :
    Cost N (inplaceMergeBuf (tick lt) ⟨.random, triv⟩ first middle last len1 len2 buff buffSize)
      (fun _ c => c ≤ 3 * (last - first)) := by
  unfold inplaceMergeBuf
  exact (symmerge_cost (last - first) 0 _ _ _ _ (by omega) (by omega) (by omega)).mono fun _ c hc => by omega

theorem inplaceMerge_cost {triv : Bool} {first middle last : Nat} (h1 : first ≤ middle) (h2 : middle ≤ last) :
    Cost N (inplaceMerge (tick lt) ⟨.random, triv⟩ first middle last) (fun _ c => c ≤ 3 * (last - first) + 1) := by
  unfold inplaceMerge
  refine (skipLeft_cost (middle - first) _ (by omega)).bind fun f' c hc => ?_
  refine Cost.ite (fun h => Cost.pure (by omega)) fun h => ?_
  refine (newBuf_cost _).bind fun b c1 hc1 => ?_
  refine (inplaceMergeBuf_cost' (by omega) (by omega)).bind fun _ c2 hc2 => ?_
  exact (release_silent _).cost (by omega)

/-! ### merge_sort with any memory -/

theorem mergeSortBi_cost' {triv : Bool} : ∀ (k size first last : Nat) (b : Buf),
    first + size = last → size ≤ 39 * 2 ^ k →
    Cost N (mergeSortBi (tick lt) ⟨.random, triv⟩ first last size b) (fun _ c => c ≤ size * (3 * k + 19)) := by
  have hbase : ∀ (k size first last : Nat) (b : Buf), first + size = last → size < 40 →
      Cost N (mergeSortBi (tick lt) ⟨.random, triv⟩ first last size b) (fun _ c => c ≤ size * (3 * k + 19)) := by
    intro k size first last b h1 h2
    rw [mergeSortBi, if_pos h2]
    refine (insertionSort_cost (by omega)).bind fun _ c hc => Cost.pure ?_
    rw [show last - first = size by omega] at hc
    have e1 : size * (size - 1) ≤ size * 38 := Nat.mul_le_mul_left _ (by omega)
    have e2 : size * (3 * k + 19) = size * (3 * k) + size * 19 := by ring
    omega
  intro k
  induction k with
  | zero => intro size first last b h1 h2; exact hbase _ _ _ _ _ h1 (by omega)
  | succ k ih =>
    intro size first last b h1 h2
    by_cases hs : size < 40
    · exact hbase _ _ _ _ _ h1 hs
    have hp : 39 * 2 ^ (k + 1) = 2 * (39 * 2 ^ k) := by ring
    rw [mergeSortBi, if_neg hs]
    refine (ih _ _ _ _ rfl (by omega)).bind fun b1 c1 hc1 => ?_
    refine (ih _ _ _ _ (by omega) (by omega)).bind fun b2 c2 hc2 => ?_
    refine (skipLeft_cost (size / 2) _ rfl).bind fun f' c3 hc3 => ?_
    have e : size / 2 * (3 * k + 19) + (size - size / 2) * (3 * k + 19) = size * (3 * k + 19) := by
      rw [← Nat.add_mul]; congr 1; omega
    have e' : size * (3 * (k + 1) + 19) = size * (3 * k + 19) + 3 * size := by ring
    refine Cost.ite (fun h => Cost.pure (by omega)) fun h => ?_
    refine (tryGrow_cost' _ _).bind fun b3 c4 hc4 => ?_
    have hlog := log2_lt_self (n := last - f') (by omega)
    have : Cost N (inplaceMergeBuf (tick lt) ⟨.random, triv⟩ f' (first + size / 2) last (size / 2 - (f' - first))
        (size - size / 2) b3.ptr b3.size) (fun _ c => c + 1 ≤ 3 * (last - f')) := by
      unfold inplaceMergeBuf
      refine (symmerge_cost (last - f') 0 _ _ _ _ (by omega) (by omega) (by omega)).mono fun _ c hc => ?_
      omega
    refine this.bind fun _ c5 hc5 => Cost.pure ?_
    omega

/-! ### split_sort -/

theorem splitLoop_cost {first last : Nat} : ∀ middle reader,
    Cost N (splitLoop (tick lt) first last middle reader) (fun _ c => reader ≤ last → c ≤ last - reader) := by
  refine splitLoop.fixpoint_induct (tick lt) first last (fun f => ∀ middle reader,
    Cost N (f middle reader) (fun _ c => reader ≤ last → c ≤ last - reader)) Cost.admissible2 ?_
  intro f ih middle reader
  refine Cost.ite (fun h => ?_) fun h => Cost.pure fun h' => by omega
  refine (silent_read _).costBind fun _ => (silent_read _).costBind fun _ => Cost.tickBind fun b => ?_
  refine Cost.ite (fun _ => (ih _ _).mono fun x c hx h' => by have := hx (by omega); omega) fun _ => ?_
  exact (silent_swap _ _).costBind fun _ => (ih _ _).mono fun x c hx h' => by have := hx (by omega); omega

theorem splitSort_cost (hlt : StrictWeak lt) (triv : Bool) {sorter : Nat → Nat → M α Unit}
    {C : Nat → Nat} (hC : ∀ m n, m ≤ n → C m ≤ C n) (hsort : CmpBound sorter C) :
    CmpBound (splitSort (tick lt) ⟨.random, triv⟩ sorter) (fun n => 4 * n + C n) := by
  intro s f xs s' hw hs hrun
  unfold splitSort at hrun
  by_cases hlen : xs.length < 2
  · rw [if_pos (by omega)] at hrun
    have := Silent.pure.run hrun
    omega
  obtain _ | ⟨x, t⟩ := xs
  · simp at hlen
  haveI : Inhabited α := ⟨x⟩
  generalize x :: t = xs at *
  rw [if_neg (by omega)] at hrun
  obtain ⟨v, hh, he⟩ := hs.holds
  obtain ⟨m, s1, hr1, hrun⟩ := bind_inv hrun
  obtain ⟨v1, hu1, h1, h2, h3⟩ := (splitLoop_spec hlt (xs.length - 1) f (f + 1) s v (by omega) (Nat.le_refl _)
    (by omega) hh (SortedOn.trivial (Nat.le_refl _))).run hr1
  obtain ⟨c1, hc1, hb1⟩ := (splitLoop_cost _ _).run hr1
  have hb1 := hb1 (by omega)
  have w1 := hu1.wupd hw hh
  obtain ⟨_, s2, hr2, hrun⟩ := bind_inv hrun
  have hseg := (hu1.holds.sub h1 (Nat.le_refl _)).seg
  have hlen2 : (lst v1 m (f + xs.length)).length = f + xs.length - m := by simp [lst]
  have h5 := hsort s1 m _ s2 w1.wf hseg (by rw [hlen2, show m + (f + xs.length - m) = f + xs.length by omega]; exact hr2)
  rw [hlen2] at h5
  have hCD := hC (f + xs.length - m) xs.length (by omega)
  obtain ⟨c3, hc3, hb3⟩ := (inplaceMerge_cost h1 (by omega)).run hrun
  dsimp only
  omega

end CppSort
