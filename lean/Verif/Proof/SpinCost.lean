import Verif.Proof.SpinSort
import Verif.Proof.SymCost
/-
Comparisons of spinsort.
-/
set_option autoImplicit false

namespace CppSort
variable {α : Type} {lt : α → α → Bool} {N : Nat}

theorem spin_unit1_not {cmp : α → α → M α Bool} (h : Unit1 N cmp) : Unit1 N (notC cmp) := by
  intro x y
  unfold notC
  exact (h x y).bind fun b c e => Cost.pure (by omega)

theorem isSortedUntilLoop_cost {cmp : α → α → M α Bool} (hu : Unit1 N cmp) {last : Nat} : ∀ (m first : Nat),
    first + m + 1 = last →
    Cost N (isSortedUntilLoop cmp first last) (fun r c => c ≤ m ∧ first ≤ r ∧ r ≤ last) := by
  intro m
  induction m with
  | zero =>
    intro first h
    rw [isSortedUntilLoop, if_neg (by omega)]
    exact Cost.pure (by omega)
  | succ m ih =>
    intro first h
    rw [isSortedUntilLoop, if_pos (by omega)]
    refine (silent_read _).costBind fun _ => (silent_read _).costBind fun _ => Cost.cmpBind hu fun b => ?_
    exact Cost.ite (fun _ => Cost.pure (by omega)) fun _ => (ih _ (by omega)).mono (by omega)

theorem isSortedUntil_cost {cmp : α → α → M α Bool} (hu : Unit1 N cmp) {first last : Nat} (h : first < last) :
    Cost N (isSortedUntil cmp first last) (fun r c => c + 1 ≤ last - first ∧ first ≤ r ∧ r ≤ last) := by
  unfold isSortedUntil
  rw [if_pos (by omega)]
  exact (isSortedUntilLoop_cost hu (last - first - 1) first (by omega)).mono (by omega)

theorem lowerBoundN_cost {cmp : α → α → M α Bool} (hu : Unit1 N cmp) {v : α} : ∀ (k first size : Nat),
    size < 2 ^ k → Cost N (lowerBoundN cmp first size v) (fun r c => c ≤ k ∧ first ≤ r ∧ r ≤ first + size) := by
  intro k
  induction k with
  | zero =>
    intro first size h
    rw [lowerBoundN, if_neg (by omega)]
    exact Cost.pure (by omega)
  | succ k ih =>
    intro first size h
    rw [Nat.pow_succ] at h
    rw [lowerBoundN]
    refine Cost.ite (fun h0 => ?_) fun _ => Cost.pure (by omega)
    dsimp only
    refine (silent_read _).costBind fun _ => Cost.cmpBind hu fun b => ?_
    refine Cost.ite (fun _ => (ih _ _ (by omega)).mono ?_) fun _ => (ih _ _ (by omega)).mono ?_
    all_goals
      intro r c hr
      omega

theorem insertBounds_cost {data ndata lsup k : Nat} : ∀ (m linf i : Nat), i + m = ndata → linf ≤ lsup →
    lsup - linf < 2 ^ k → Cost N (insertBounds (tick lt) linf lsup data i ndata) (fun _ c => c ≤ m * k) := by
  intro m
  induction m with
  | zero =>
    intro linf i h _ _
    rw [insertBounds, if_neg (by omega)]
    exact Cost.pure (by omega)
  | succ m ih =>
    intro linf i h h1 h2
    rw [insertBounds, if_pos (by omega)]
    refine (silent_read _).costBind fun _ => ?_
    refine (lowerBoundN_cost (spin_unit1_not (unit1_flip unit1_tick)) k _ _ h2).bind fun r c hr => ?_
    refine (ih r (i + 1) (by omega) (by omega) (by omega)).bind fun _ c' hc' => Cost.pure ?_
    rw [Nat.succ_mul]
    omega

theorem insertShift_silent (viter : List Nat) (data : Nat) : ∀ n, Silent (insertShift viter data n : M α Unit) := by
  intro n
  induction n with
  | zero => exact Silent.pure
  | succ n ih =>
    rw [insertShift]
    split
    · exact (moveBackward_silent _ _ _).bind fun _ => (silent_moveTo _ _).bind fun _ => ih
    · exact silent_fail _

theorem insertPartialSort_cost {first mid last aux k : Nat} (h1 : first ≤ mid) (h2 : mid ≤ last)
    (hk : mid - first < 2 ^ k) :
    Cost N (insertPartialSort (tick lt) first mid last aux) (fun _ c => c ≤ (last - mid) * k) := by
  unfold insertPartialSort
  refine Cost.ite (fun _ => Cost.pure (by omega)) fun _ => ?_
  refine (moveRange_silent' _ _ _ _ _).costBind fun _ => ?_
  dsimp only
  refine (insertBounds_cost (last - mid) first 0 (by omega) h1 hk).bind fun v c hc => ?_
  exact (insertShift_silent _ _ _).cost fun _ => by omega

theorem swapRangesRev_silent (last1 : Nat) : ∀ first1 first2,
    Silent (swapRangesRev first1 last1 first2 : M α Unit) := by
  refine swapRangesRev.fixpoint_induct last1 (fun f => ∀ x y, Silent (f x y)) Silent.admissible2 ?_
  intro f ih x y
  dsimp only
  split
  · exact (silent_swap _ _).bind fun _ => ih _ _
  · exact Silent.pure

theorem mergeMoveLoop_cost {cmp : α → α → M α Bool} (hc : Unit1 N cmp) {d1 d2 dr : Nat → Nat} {last1 last2 : Nat} :
    ∀ (m first1 first2 result : Nat), (last1 - first1) + (last2 - first2) ≤ m + 1 → first1 < last1 →
    first2 < last2 → Cost N (mergeMoveLoop cmp d1 d2 dr first1 last1 first2 last2 result) (fun _ c => c ≤ m) := by
  intro m
  induction m with
  | zero => intro first1 first2 result h h1 h2; omega
  | succ m ih =>
    intro first1 first2 result h h1 h2
    rw [mergeMoveLoop]
    refine (silent_read _).costBind fun _ => (silent_read _).costBind fun _ => Cost.cmpBind hc fun b => ?_
    refine Cost.ite (fun _ => (silent_moveTo _ _).costBind fun _ => ?_)
      fun _ => (silent_moveTo _ _).costBind fun _ => ?_
    · exact Cost.ite (fun _ => (moveRange_silent' _ _ _ _ _).cost fun _ => by omega)
        fun _ => (ih _ _ _ (by omega) (by omega) (by omega)).mono (by omega)
    · exact Cost.ite (fun _ => (moveRange_silent' _ _ _ _ _).cost fun _ => by omega)
        fun _ => (ih _ _ _ (by omega) (by omega) (by omega)).mono (by omega)

theorem mergeMove_cost {cmp : α → α → M α Bool} (hc : Unit1 N cmp) {d1 d2 dr : Nat → Nat}
    {first1 last1 first2 last2 result : Nat} (h1 : first1 ≤ last1) (h2 : first2 ≤ last2) :
    Cost N (mergeMove cmp d1 d2 dr first1 last1 first2 last2 result)
      (fun _ c => c ≤ (last1 - first1) + (last2 - first2)) := by
  unfold mergeMove
  refine Cost.ite (fun _ => (moveRange_silent' _ _ _ _ _).cost fun _ => by omega) fun _ => ?_
  refine Cost.ite (fun _ => (moveRange_silent' _ _ _ _ _).cost fun _ => by omega) fun _ => ?_
  exact (mergeMoveLoop_cost hc ((last1 - first1) + (last2 - first2) - 1) _ _ _ (by omega) (by omega)
    (by omega)).mono (by omega)

theorem spinMerge_cost {a e1 b e2 r : Nat} (h1 : a ≤ e1) (h2 : b ≤ e2) :
    Cost N (spinMerge (tick lt) a e1 b e2 r) (fun _ c => c ≤ 2 * ((e1 - a) + (e2 - b))) := by
  unfold spinMerge
  have g : ∀ k : Bool → M α Unit, Cost N (k true) (fun _ c => c = 0) →
      Cost N (k false) (fun _ c => c ≤ (e1 - a) + (e2 - b)) → 1024 ≤ (e1 - a) + (e2 - b) →
      ∀ j, j ≤ 2 → ∀ d : Bool, Cost N (k d) (fun _ c => j + c ≤ 2 * ((e1 - a) + (e2 - b))) := by
    intro k h1 h2 h3 j hj d
    cases d
    · exact h2.mono (by omega)
    · exact h1.mono (by omega)
  have m2 : Cost N (do
      let _ ← mergeMove (tick lt) id id id a e1 b e2 r
      pure () : M α Unit) (fun _ c => c ≤ (e1 - a) + (e2 - b)) :=
    (mergeMove_cost unit1_tick h1 h2).bind fun _ c hc => Cost.pure (by omega)
  refine Cost.bind (R := fun d c => c = 0 ∨ (c ≤ 2 ∧ 1024 ≤ (e1 - a) + (e2 - b))) ?_ ?_
  · refine Cost.ite (fun hb => ?_) fun _ => Cost.pure (by omega)
    refine Cost.ite (fun _ => (moveRange_silent' _ _ _ _ _).costBind fun _ => Cost.pure (by omega)) fun _ => ?_
    refine Cost.ite (fun _ => (moveRange_silent' _ _ _ _ _).costBind fun _ => Cost.pure (by omega)) fun _ => ?_
    refine (silent_read _).costBind fun _ => (silent_read _).costBind fun _ => Cost.tickBind fun b => ?_
    refine Cost.ite (fun _ => (moveRange_silent' _ _ _ _ _).costBind fun _ =>
      (moveRange_silent' _ _ _ _ _).costBind fun _ => Cost.pure (by omega)) fun _ => ?_
    refine (silent_read _).costBind fun _ => (silent_read _).costBind fun _ => Cost.tickBind fun b => ?_
    exact Cost.ite (fun _ => (moveRange_silent' _ _ _ _ _).costBind fun _ =>
      (moveRange_silent' _ _ _ _ _).costBind fun _ => Cost.pure (by omega)) fun _ => Cost.pure (by omega)
  · intro d c hc
    refine Cost.ite (fun _ => Cost.pure (by omega)) fun _ => m2.mono (by omega)

/-! ### the recursion -/

theorem log2_lt_pow {n k : Nat} (h : n < 2 ^ k) (hk : 0 < k) : Nat.log2 n < k := by
  by_cases hn : n = 0
  · subst hn; simpa using hk
  · exact (Nat.log2_lt hn).2 h

/-- What `rangeSort` costs at a level. -/
def RangeCost (N : Nat) (lt : α → α → Bool) (level : Nat) : Prop :=
  ∀ first1 last1 first2 last2, first1 ≤ last1 → last2 - first2 = last1 - first1 → first2 ≤ last2 →
    last1 - first1 ≤ 36 * 2 ^ level →
    Cost N (rangeSort (tick lt) first1 last1 first2 last2 level)
      (fun _ c => c ≤ (last1 - first1) * (4 * level + 40))

theorem sortRangeSort_cost {level : Nat} (ih : ∀ l, l < level → RangeCost N lt l) {first last aux al : Nat}
    (h : first ≤ last) (hs : 32 < last - first → last - first ≤ 8 * 2 ^ level) :
    Cost N (sortRangeSort (tick lt) first last aux al) (fun _ c => c ≤ (last - first) * (4 * level + 40)) := by
  rw [sortRangeSort]
  dsimp only
  generalize hn : last - first = n at *
  refine Cost.ite (fun hle => ?_) fun hgt => ?_
  · refine (insertionSort_cost h).mono fun _ c hc => ?_
    rw [hn] at hc
    have e1 : n * (n - 1) ≤ n * 31 := Nat.mul_le_mul_left _ (by omega)
    have e2 : n * (4 * level + 40) = n * (4 * level) + n * 40 := by ring
    omega
  · have h1 := hs (by omega)
    generalize hk : (n + 31) / 32 - 1 = k
    have hk1 : k ≠ 0 := by omega
    generalize hl : Nat.log2 k + 1 = l
    have up : k < 2 ^ l := by
      rw [← hl]
      exact Nat.lt_log2_self
    have hp : 0 < 2 ^ level := Nat.pow_pos (by omega)
    have hll : l < level := by
      rw [← hl]
      have hlow : 2 ^ (Nat.log2 k) ≤ k := Nat.log2_self_le hk1
      have : 2 ^ (Nat.log2 k + 2) ≤ 2 ^ level := by
        rw [Nat.pow_add]
        omega
      have := (Nat.pow_le_pow_iff_right (by omega : 1 < 2)).1 this
      omega
    have hb : n ≤ 36 * 2 ^ l := by omega
    have mono : n * (4 * l + 40) ≤ n * (4 * level + 40) := Nat.mul_le_mul_left _ (by omega)
    refine Cost.ite (fun _ => ?_) fun _ => ?_
    · refine (ih l hll aux (aux + n) first last (by omega) (by omega) h (by omega)).mono fun _ c hc => ?_
      rw [show aux + n - aux = n by omega] at hc
      omega
    · refine (ih l hll first last aux (aux + n) h (by omega) (by omega) (by omega)).bind fun _ c hc => ?_
      rw [hn] at hc
      exact (moveRange_silent' _ _ _ _ _).costBind fun _ => Cost.pure (by omega)

theorem checkStableSort_cost {level : Nat} (ih : ∀ l, l < level → RangeCost N lt l) {first last aux al : Nat}
    (h : first ≤ last) (hbig : 1024 < last - first) (hs : last - first ≤ 36 * 2 ^ level) :
    Cost N (checkStableSort (tick lt) first last aux al)
      (fun d c => (d = false → c ≤ 2 * (last - first)) ∧
        c ≤ (last - first) * (4 * level + 40)) := by
  rw [checkStableSort]
  dsimp only
  generalize hn : last - first = n at *
  rw [if_neg (by omega), if_neg (by omega)]
  have hlast : last = first + n := by omega
  subst hlast
  have e2 : n * (4 * level + 40) = n * (4 * level) + n * 40 := by ring
  have hp : 2 ^ (level + 6) = 2 ^ level * 64 := Nat.pow_add ..
  -- the rest is sorted and inserted
  have tail : ∀ it, first ≤ it → it ≤ first + n → (first + n) - it < n / 8 → ∀ c0, c0 ≤ 2 * n →
      Cost N (do
        sortRangeSort (tick lt) it (first + n) aux al
        insertPartialSort (tick lt) first it (first + n) aux
        pure true : M α Bool) (fun d c => (d = false → c0 + c ≤ 2 * n) ∧ c0 + c ≤ n * (4 * level + 40)) := by
    intro it h1 h1' h2 c0 hc0
    refine (sortRangeSort_cost ih (by omega) (by omega)).bind fun _ c1 hc1 => ?_
    refine (insertPartialSort_cost (k := level + 6) h1 h1' (by omega)).bind fun _ c2 hc2 => ?_
    refine Cost.pure ⟨by simp, ?_⟩
    generalize hm : first + n - it = m at *
    have g : 8 * (m * (4 * level + 40) + m * (level + 6)) ≤ n * (5 * level + 46) := by
      have : 8 * m * (5 * level + 46) ≤ n * (5 * level + 46) := Nat.mul_le_mul_right _ (by omega)
      calc 8 * (m * (4 * level + 40) + m * (level + 6)) = 8 * m * (5 * level + 46) := by ring
        _ ≤ _ := this
    have g2 : n * (5 * level + 46) = 5 * (n * level) + 46 * n := by ring
    have g3 : n * (4 * level) = 4 * (n * level) := by ring
    omega
  have bnd : ∀ c, c ≤ 2 * n → c ≤ n * (4 * level + 40) := by intro c hc; omega
  refine (isSortedUntil_cost unit1_tick (by omega)).bind fun it c1 ⟨hc1, hi1, hi2⟩ => ?_
  rw [hn] at hc1
  refine Cost.ite (fun _ => Cost.pure ⟨by simp, bnd _ (by omega)⟩) fun _ => ?_
  refine Cost.ite (fun hlt => tail it hi1 hi2 (by omega) c1 (by omega)) fun _ => ?_
  refine Cost.ite (fun _ => Cost.pure ⟨by omega, bnd _ (by omega)⟩) fun _ => ?_
  refine (isSortedUntil_cost (spin_unit1_not unit1_tick) (by omega)).bind fun it' c2 ⟨hc2, hj1, hj2⟩ => ?_
  rw [hn] at hc2
  refine Cost.ite (fun _ => Cost.pure ⟨by omega, bnd _ (by omega)⟩) fun hge => ?_
  refine (swapRangesRev_silent _ _ _).costBind fun _ => ?_
  refine Cost.ite (fun _ => ?_) fun _ => Cost.pure ⟨by simp, bnd _ (by omega)⟩
  exact (tail it' hj1 hj2 (by omega) (c1 + c2) (by omega)).mono fun d c hc => by
    rw [← Nat.add_assoc]; exact hc

theorem rangeSort_cost : ∀ level, RangeCost N lt level := by
  intro level
  induction level using Nat.strongRecOn with
  | _ level ih =>
  intro first1 last1 first2 last2 h1 h2 h3 hs
  generalize hn : last1 - first1 = n at *
  rw [rangeSort]
  rw [hn]
  have hp : 0 < 2 ^ level := Nat.pow_pos (by omega)
  refine Cost.bind (R := fun d c => (d = false → c ≤ 2 * n ∧ (n ≤ 1024 → c = 0)) ∧ c ≤ n * (4 * level + 40)) ?_ ?_
  · refine Cost.ite (fun hb => ?_) fun _ => Cost.pure ⟨by omega, by omega⟩
    refine Cost.ite (fun _ => ?_) fun _ => ?_
    · exact (checkStableSort_cost ih h3 (by omega) (by omega)).mono fun d c ⟨g1, g2⟩ => by
        rw [h2] at g1 g2
        exact ⟨fun e => ⟨g1 e, by omega⟩, g2⟩
    · refine (checkStableSort_cost ih h1 (by omega) (by omega)).bind fun d c ⟨g1, g2⟩ => ?_
      rw [hn] at g1 g2
      refine Cost.ite (fun hd => ?_) fun hd => Cost.pure ⟨fun _ => ⟨?_, by omega⟩, g2⟩
      · exact (moveRange_silent' _ _ _ _ _).costBind fun _ => Cost.pure ⟨by simp, g2⟩
      · exact g1 (by simpa using hd)
  · intro d c0 ⟨g1, g2⟩
    refine Cost.ite (fun _ => Cost.pure (by omega)) fun hd => ?_
    obtain ⟨g3, g4⟩ := g1 (by simpa using hd)
    dsimp only
    generalize hn1 : (n + 1) / 2 = n1
    have hl1 : last1 = first1 + n := by omega
    have hl2 : last2 = first2 + n := by omega
    subst hl1 hl2
    have fin : ∀ c c', c ≤ n * (4 * level + 36) → c' ≤ 2 * n → c0 + c + c' ≤ n * (4 * level + 40) := by
      intro c c' hc hc'
      have : n * (4 * level + 40) = n * (4 * level + 36) + 4 * n := by ring
      omega
    have mrg : ∀ c, c ≤ n * (4 * level + 36) → Cost N
        (spinMerge (tick lt) first1 (first1 + n1) (first1 + n1) (first1 + n) first2)
        (fun _ c' => c0 + (c + c') ≤ n * (4 * level + 40)) := by
      intro c hc
      refine (spinMerge_cost (by omega) (by omega)).mono fun _ c' hc' => ?_
      rw [← Nat.add_assoc]
      exact fin c c' hc (by omega)
    refine Cost.ite (fun hl => ?_) fun hl => ?_
    · have hn72 : n ≤ 72 := by
        have : 2 ^ level ≤ 2 ^ 1 := Nat.pow_le_pow_right (by omega) (by omega)
        omega
      refine (insertionSort_cost (by omega)).bind fun _ c1 hc1 => (insertionSort_cost (by omega)).bind fun _ c2 hc2 => ?_
      rw [show first1 + n1 - first1 = n1 by omega] at hc1
      rw [show first1 + n - (first1 + n1) = n - n1 by omega] at hc2
      have e1 : n1 * (n1 - 1) ≤ n1 * 35 := Nat.mul_le_mul_left _ (by omega)
      have e2 : (n - n1) * (n - n1 - 1) ≤ (n - n1) * 35 := Nat.mul_le_mul_left _ (by omega)
      have e3 : n * (4 * level + 36) = n * (4 * level) + n * 36 := by ring
      exact (mrg (c1 + c2) (by omega)).mono fun _ c' h => by omega
    · obtain ⟨l, rfl⟩ : ∃ l, level = l + 1 := ⟨level - 1, by omega⟩
      rw [Nat.pow_succ] at hs
      rw [Nat.add_sub_cancel]
      refine (ih l (by omega) _ _ _ _ (by omega) (by omega) (by omega) (by omega)).bind fun _ c1 hc1 => ?_
      refine (ih l (by omega) _ _ _ _ (by omega) (by omega) (by omega) (by omega)).bind fun _ c2 hc2 => ?_
      rw [show first2 + n1 - first2 = n1 by omega] at hc1
      rw [show first2 + n - (first2 + n1) = n - n1 by omega] at hc2
      have e3 : n1 * (4 * l + 40) + (n - n1) * (4 * l + 40) = n * (4 * (l + 1) + 36) := by
        rw [← Nat.add_mul, show n1 + (n - n1) = n by omega]
        ring
      exact (mrg (c1 + c2) (by omega)).mono fun _ c' h => by omega

/-! ### the last merge -/

theorem halfMergeBlind_in {s0 : St α} (n : Nat) : ∀ (xs ys : List α) (a r b : Nat) (s : St α),
    Blind lt n xs ys → HalfSegs s0 a r b xs ys s →
    wp (halfMergeBlind (tick lt) id id a b r n)
      (fun q _ => q.1 ≤ a + xs.length ∧ q.2.1 ≤ b + ys.length) s := by
  induction n with
  | zero =>
    intro xs ys a r b s _ _
    rw [halfMergeBlind, if_neg (by simp)]
    exact wp_pure (by dsimp only; omega)
  | succ n ih =>
    intro xs ys a r b s hbl h
    match xs, ys, hbl with
    | [], _, hbl => exact absurd hbl (by simp [Blind])
    | _ :: _, [], hbl => exact absurd hbl (by simp [Blind])
    | x :: xs, y :: ys, hbl =>
    have hb := h.bal
    have hd := h.dis
    simp only [List.length_cons] at hb hd
    have sx1 := (seg_cons.1 h.src1).1
    have sy1 := (seg_cons.1 h.src2).1
    rw [halfMergeBlind, if_pos (by simp)]
    apply wp_bind
    refine wp_read' sy1 ?_
    apply wp_bind
    refine wp_read' sx1 ?_
    apply wp_bind
    refine wp_tick ?_
    unfold Blind at hbl
    have h' : HalfSegs s0 a r b (x :: xs) (y :: ys) { s with cmps := s.cmps + 1 } := ⟨h.1, h.2, h.3, h.4, h.5, h.6⟩
    rw [Nat.add_sub_cancel]
    split
    · rename_i hyx
      rw [if_pos hyx] at hbl
      apply wp_bind
      refine wp_moveTo' (i := r) (j := b) (by omega) sy1 (h.gap r (by omega) (by omega)) ?_
      intro s1 hc1 h1 _ _
      refine wp_mono (ih _ _ _ _ _ _ hbl (h'.take2 (by simp) hc1 h1)) ?_
      intro q _ hq
      simp only [List.length_cons] at hq ⊢
      omega
    · rename_i hyx
      rw [if_neg hyx] at hbl
      apply wp_bind
      refine wp_moveTo' (i := r) (j := a) (by omega) sx1 (h.gap r (by omega) (by omega)) ?_
      intro s1 hc1 h1 _ _
      refine wp_mono (ih _ _ _ _ _ _ hbl (h'.take1 hc1 h1)) ?_
      intro q _ hq
      simp only [List.length_cons] at hq ⊢
      omega

theorem halfInplaceMerge_cmps {s0 : St α} {n : Nat} {xs ys : List α} {a r b e1 e2 : Nat} {s s' : St α}
    (hbl : Blind lt n xs ys) (he1 : e1 = a + xs.length) (he2 : e2 = b + ys.length) (h : HalfSegs s0 a r b xs ys s)
    (hr : halfInplaceMerge (tick lt) id id a e1 b e2 r n s = some (.ok (), s')) :
    s'.cmps ≤ s.cmps + xs.length + ys.length := by
  unfold halfInplaceMerge at hr
  obtain ⟨q, s1, h1, h2⟩ := bind_inv hr
  obtain ⟨q', s1', h1', hq⟩ := halfMergeBlind_in n xs ys a r b s hbl h
  rw [h1] at h1'
  cases h1'
  obtain ⟨-, c, hc, rfl, hq1, hq2, hq3⟩ := halfMergeBlind_cost (N := 0) unit1_tick n a b r s q s1
    (fun _ => Nat.zero_le _) h1
  obtain ⟨f1, f2, res⟩ := q
  dsimp only at h2 hq hq1 hq2 hq3
  have rest : Cost 0 (if f1 = e1 then (pure () : M α Unit)
      else if f2 = e2 then (do
        let _ ← moveRange id id f1 e1 res
        pure ())
      else halfMergeLoop (tick lt) id id f1 e1 f2 e2 res) (fun _ c => c ≤ (e1 - f1) + (e2 - f2)) := by
    refine Cost.ite (fun _ => Cost.pure (by omega)) fun _ => Cost.ite (fun _ => ?_) fun _ => ?_
    · exact (moveRange_silent' _ _ _ _ _).costBind fun _ => Cost.pure (by omega)
    · exact (halfMergeLoop_cost unit1_tick ((e1 - f1) + (e2 - f2) - 1) _ _ _ (by omega) (by omega) (by omega)).mono
        (by omega)
  obtain ⟨-, c', hc', hle⟩ := rest s1 () s' (fun _ => Nat.zero_le _) h2
  omega

theorem spinTests_cost {a e1 b e2 r : Nat} :
    Cost N (spinTests (tick lt) a e1 b e2 r) (fun _ c => c ≤ 2) := by
  unfold spinTests
  refine Cost.ite (fun hb => ?_) fun _ => Cost.pure (by omega)
  refine Cost.ite (fun _ => Cost.pure (by omega)) fun _ => ?_
  refine Cost.ite (fun _ => (moveRange_silent' _ _ _ _ _).costBind fun _ => Cost.pure (by omega)) fun _ => ?_
  refine (silent_read _).costBind fun _ => (silent_read _).costBind fun _ => Cost.tickBind fun b => ?_
  refine Cost.ite (fun _ => (moveRange_silent' _ _ _ _ _).costBind fun _ => Cost.pure (by omega)) fun _ => ?_
  refine (silent_read _).costBind fun _ => (silent_read _).costBind fun _ => Cost.tickBind fun b => ?_
  exact Cost.ite (fun _ => (moveRange_silent' _ _ _ _ _).costBind fun _ =>
    (moveRange_silent' _ _ _ _ _).costBind fun _ => Cost.pure (by omega)) fun _ => Cost.pure (by omega)

theorem spinMergeHalf_cmps (hlt : StrictWeak lt) {xs ys : List α} {a e1 r b e2 : Nat} {s s' : St α}
    (he1 : e1 = a + xs.length) (he2 : e2 = b + ys.length) (h : HalfSegs s a r b xs ys s)
    (ox : SortedList lt xs) (oy : SortedList lt ys) (hf : HalfFits lt xs ys)
    (hr : spinMergeHalf (tick lt) a e1 b e2 r s = some (.ok (), s')) :
    s'.cmps ≤ s.cmps + 2 + xs.length + ys.length := by
  rw [spinMergeHalf_eq] at hr
  obtain ⟨q, s1, h1, h2⟩ := bind_inv hr
  obtain ⟨q', s1', h1', hq⟩ := spinTests_seg hlt he1 he2 h ox oy hf
  rw [h1] at h1'
  cases h1'
  obtain ⟨-, c, hc, hc2⟩ := spinTests_cost (N := 0) s q s1 (fun _ => Nat.zero_le _) h1
  cases q with
  | true =>
    rw [if_pos rfl] at h2
    cases h2
    omega
  | false =>
    rw [if_neg (by simp)] at h2 hq
    obtain ⟨hbl, k, rfl⟩ := hq
    rw [show e1 - a = xs.length by omega] at h2
    have := halfInplaceMerge_cmps (s0 := s) hbl he1 he2 (s := { s with cmps := k }) ⟨h.1, h.2, h.3, h.4, h.5, h.6⟩ h2
    omega

theorem spin_end_cmps (hlt : StrictWeak lt) {f n1 : Nat} {xs xs1 xs2 zs1 zs2 : List α} {s0 s : St α} (hw : s0.WF)
    (hx : xs = xs1 ++ xs2) (hb : f + xs.length ≤ s0.brk) (hn1 : xs1.length ≤ n1)
    (h : SpinMid lt f s0.brk n1 xs1 xs2 zs1 zs2 s0 s) (hf : HalfFits lt xs1 xs2) :
    wp (do
        spinMergeHalf (tick lt) s0.brk (s0.brk + xs1.length) (f + xs1.length) (f + xs.length) f
        destroyN s0.brk n1
        free s0.brk n1) (fun _ s' => s'.cmps ≤ s.cmps + 2 + xs.length) s := by
  obtain ⟨r, s', hr, -⟩ := spin_end hlt hw hx hb hn1 h hf
  refine ⟨r, s', hr, ?_⟩
  obtain ⟨q, s1, h1, h2⟩ := bind_inv hr
  have l1 := h.s1.len
  have l2 := h.s2.len
  have lx : xs.length = xs1.length + xs2.length := by rw [hx, List.length_append]
  have hf' : HalfFits lt zs1 zs2 := by
    unfold HalfFits
    rw [l1, l2]
    rcases hf with hf | ⟨hf, hf' | ⟨x, hx, y, hy, e⟩⟩
    · exact .inl hf
    · exact .inr ⟨hf, .inl hf'⟩
    · exact .inr ⟨hf, .inr ⟨x, h.s1.1.mem_iff.2 hx, y, h.s2.1.mem_iff.2 hy, e⟩⟩
  have := spinMergeHalf_cmps hlt (by omega) (by omega) (h.halfSegs (by omega)) h.s1.2.1 h.s2.2.1 hf' h1
  have sil := ((destroyN_silent n1 s0.brk).bind fun _ => silent_free s0.brk n1) s1 r s' h2
  omega

theorem spin_levels {n : Nat} (h : 72 < n) :
    (n + 1) / 2 ≤ 36 * 2 ^ spinLevels n ∧ spinLevels n + 5 ≤ Nat.log2 n := by
  unfold spinLevels
  generalize hk : (n + 35) / 36 - 1 = k
  have hk0 : k ≠ 0 := by omega
  have up : k < 2 ^ (Nat.log2 k + 1) := Nat.lt_log2_self
  have low : 2 ^ Nat.log2 k ≤ k := Nat.log2_self_le hk0
  rw [Nat.pow_succ] at up
  refine ⟨by omega, ?_⟩
  refine (Nat.le_log2 (by omega)).2 ?_
  rw [Nat.pow_add]
  omega

theorem spinsort_cmps [Inhabited α] (hlt : StrictWeak lt) {s : St α} {f : Nat} {xs : List α} (hw : s.WF)
    (hs : Seg s.cell f xs) (hfit : SpinFits lt xs) :
    wp (spinsort (tick lt) f (f + xs.length))
      (fun _ s' => s'.cmps ≤ s.cmps + xs.length * (4 * Nat.log2 xs.length + 22)) s := by
  by_cases hbig : xs.length ≤ 72
  · obtain ⟨s', ys, h1, -⟩ := spinsort_stably hlt hw hs hfit
    refine ⟨(), s', h1, ?_⟩
    unfold spinsort at h1
    dsimp only at h1
    rw [show f + xs.length - f = xs.length by omega, if_pos hbig] at h1
    obtain ⟨-, c, hc, hc2⟩ := insertionSort_cost (N := 0) (by omega) s () s' (fun _ => Nat.zero_le _) h1
    rw [show f + xs.length - f = xs.length by omega] at hc2
    generalize xs.length = n at *
    have e3 : n * (4 * Nat.log2 n + 22) = n * (4 * Nat.log2 n) + n * 22 := by ring
    by_cases c45 : n ≤ 45
    · have e1 : n * (n - 1) ≤ n * 44 := Nat.mul_le_mul_left _ (by omega)
      omega
    · have e1 : n * (n - 1) ≤ n * 71 := Nat.mul_le_mul_left _ (by omega)
      have : 5 ≤ Nat.log2 n := (Nat.le_log2 (by omega)).2 (by omega)
      have e2 : n * (4 * 5) ≤ n * (4 * Nat.log2 n) := Nat.mul_le_mul_left _ (by omega)
      omega
  · obtain ⟨lv1, lv2⟩ := spin_levels (show 72 < xs.length by omega)
    unfold spinsort
    dsimp only
    rw [show f + xs.length - f = xs.length by omega, if_neg hbig]
    obtain ⟨n1, n2, hn1, hn2, ho, he⟩ := spin_mid hlt hw hs (by omega)
    have hbrk := hs.below hw (by omega)
    rw [← hn1, ← hn2]
    rw [← hn1] at lv1
    generalize hL : spinLevels xs.length = L at *
    have tot : n1 * (4 * L + 40) + n2 * (4 * L + 40) + 2 + xs.length ≤ xs.length * (4 * Nat.log2 xs.length + 22) := by
      rw [← Nat.add_mul, show n1 + n2 = xs.length by omega]
      have : xs.length * (4 * L + 42) ≤ xs.length * (4 * Nat.log2 xs.length + 22) := Nat.mul_le_mul_left _ (by omega)
      have e : xs.length * (4 * L + 42) = xs.length * (4 * L + 40) + 2 * xs.length := by ring
      omega
    by_cases hp : L % 2 = 1
    · simp only [if_pos hp]
      have hx1 : (xs.take n2).length = n2 := by simp; omega
      refine wp_assoc5 (wp_mono ((ho hp).cost (R := fun _ c => c ≤ n1 * (4 * L + 40) + n2 * (4 * L + 40)) ?_) ?_)
      · refine (silent_alloc _).costBind fun buf => (uninitMove_cost n1 _ _ (by omega)).bind fun _ c0 h0 => ?_
        refine (rangeSort_cost L _ _ _ _ (by omega) (by omega) (by omega) (by omega)).bind fun _ c1 h1 => ?_
        refine (rangeSort_cost L _ _ _ _ (by omega) (by omega) (by omega) (by omega)).bind fun _ c2 h2 => Cost.pure ?_
        rw [show buf + n1 - buf = n1 by omega] at h1
        rw [show f + n2 - f = n2 by omega] at h2
        omega
      rintro _ s' ⟨⟨rfl, zs1, zs2, hm⟩, c, hc, hc2⟩
      have := spin_end_cmps hlt hw (List.take_append_drop n2 xs).symm hbrk (by omega) hm
        (.inl (by simp; omega))
      rw [hx1] at this
      exact wp_mono this fun _ s'' h => by omega
    · simp only [if_neg hp]
      have hx1 : (xs.take n1).length = n1 := by simp; omega
      refine wp_assoc5 (wp_mono ((he (by omega)).cost (R := fun _ c => c ≤ n1 * (4 * L + 40) + n2 * (4 * L + 40)) ?_) ?_)
      · refine (silent_alloc _).costBind fun buf => (uninitMove_cost n1 _ _ (by omega)).bind fun _ c0 h0 => ?_
        refine (rangeSort_cost L _ _ _ _ (by omega) (by omega) (by omega) (by omega)).bind fun _ c1 h1 => ?_
        refine (rangeSort_cost L _ _ _ _ (by omega) (by omega) (by omega) (by omega)).bind fun _ c2 h2 => Cost.pure ?_
        rw [show f + n1 - f = n1 by omega] at h1
        rw [show f + n2 - f = n2 by omega] at h2
        omega
      rintro _ s' ⟨⟨rfl, zs1, zs2, hm⟩, c, hc, hc2⟩
      have := spin_end_cmps hlt hw (List.take_append_drop n1 xs).symm hbrk (by omega) hm ?_
      · rw [hx1] at this
        exact wp_mono this fun _ s'' h => by omega
      · unfold HalfFits
        rw [hx1, List.length_drop]
        rcases hfit with h | h | h | h | h
        · omega
        · left; omega
        · by_cases c : xs.length % 2 = 0
          · left; omega
          · right; exact ⟨by omega, .inl (by omega)⟩
        · omega
        · rw [← hn1] at h
          by_cases c : xs.length % 2 = 0
          · left; omega
          · right; exact ⟨by omega, .inr h⟩

end CppSort
