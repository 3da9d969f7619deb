import Verif.Proof.Pdq
import Verif.Proof.HeapCost
import Verif.Proof.MergeCost
set_option autoImplicit false

namespace CppSort
variable {α : Type} {lt : α → α → Bool} {N : Nat}

/-! ### partial insertion sort -/

theorem insertionShift_cost_r {first : Nat} {tmp : α} : ∀ (m sift : Nat), sift = first + m + 1 →
    Cost N (insertionShift (tick lt) first tmp sift) (fun r c => first ≤ r ∧ c + r ≤ sift) := by
  intro m
  induction m with
  | zero =>
    intro sift h
    rw [insertionShift]
    refine (silent_moveTo _ _).costBind fun _ => ?_
    dsimp only
    rw [if_neg (by omega)]
    exact Cost.pure (by omega)
  | succ m ih =>
    intro sift h
    rw [insertionShift]
    refine (silent_moveTo _ _).costBind fun _ => ?_
    dsimp only
    rw [if_pos (by omega)]
    refine (silent_read _).costBind fun _ => Cost.tickBind fun b => ?_
    exact Cost.ite (fun _ => (ih _ (by omega)).mono fun r c h => by omega) fun _ => Cost.pure (by omega)

theorem partialLoop_cost {first last : Nat} : ∀ (n cur limit : Nat), cur + n = last → first < cur →
    Cost N (partialLoop (tick lt) first last cur limit)
      (fun _ c => c ≤ n + (8 - limit) + (last - first)) := by
  intro n
  induction n with
  | zero =>
    intro cur limit h1 h2
    rw [partialLoop, if_neg (by omega)]
    exact Cost.pure (by omega)
  | succ n ih =>
    intro cur limit h1 h2
    rw [partialLoop, if_pos (by omega)]
    refine (silent_read _).costBind fun _ => (silent_read _).costBind fun _ => Cost.tickBind fun b => ?_
    refine Cost.ite (fun _ => ?_) fun _ => ?_
    · refine (silent_moveOut _).costBind fun _ => ?_
      refine (insertionShift_cost_r (cur - first - 1) cur (by omega)).bind fun r c hc => ?_
      refine (silent_assign _ _).costBind fun _ => ?_
      refine Cost.ite (fun _ => Cost.pure (by omega)) fun _ => ?_
      exact (ih (cur + 1) _ (by omega) (by omega)).mono fun _ c' h => by omega
    · refine Cost.ite (fun _ => Cost.pure (by omega)) fun _ => ?_
      exact (ih (cur + 1) _ (by omega) (by omega)).mono fun _ c' h => by omega

theorem partialInsertionSort_cost {first last : Nat} (h : first ≤ last) :
    Cost N (partialInsertionSort (tick lt) first last) (fun _ c => c ≤ 2 * (last - first) + 8) := by
  unfold partialInsertionSort
  refine Cost.ite (fun _ => Cost.pure (by omega)) fun _ => ?_
  exact (partialLoop_cost (last - (first + 1)) (first + 1) 0 (by omega) (by omega)).mono
    fun _ c h => by omega

theorem pdqTryInsertion_cost {already : Bool} {f p l : Nat} (h1 : f ≤ p) (h2 : p < l) :
    Cost N (pdqTryInsertion (tick lt) already f p l) (fun _ c => c ≤ 2 * (l - f) + 16) := by
  unfold pdqTryInsertion
  refine Cost.ite (fun _ => ?_) fun _ => Cost.pure (by omega)
  refine (partialInsertionSort_cost h1).bind fun b c hc => ?_
  refine Cost.ite (fun _ => ?_) fun _ => Cost.pure (by omega)
  exact (partialInsertionSort_cost (by omega)).mono fun _ c h => by omega

/-! ### pivot -/

theorem iterSwapIf_cost {i j : Nat} : Cost N (iterSwapIf (tick lt) i j) (fun _ c => c = 1) := by
  unfold iterSwapIf
  refine (silent_read _).costBind fun _ => (silent_read _).costBind fun _ => Cost.tickBind fun b => ?_
  exact Cost.ite (fun _ => (silent_swap _ _).cost fun _ => rfl) fun _ => Cost.pure rfl

theorem iterSort3_cost {i j k : Nat} : Cost N (iterSort3 (tick lt) i j k) (fun _ c => c = 3) := by
  unfold iterSort3
  exact iterSwapIf_cost.bind fun _ _ h1 => iterSwapIf_cost.bind fun _ _ h2 =>
    iterSwapIf_cost.bind fun _ _ h3 => Cost.pure (by omega)

theorem pdqPivot_cost {f l : Nat} : Cost N (pdqPivot (tick lt) f l) (fun _ c => c ≤ 12) := by
  unfold pdqPivot
  dsimp only
  refine Cost.ite (fun _ => ?_) fun _ => ?_
  · exact iterSort3_cost.bind fun _ _ h1 => iterSort3_cost.bind fun _ _ h2 =>
      iterSort3_cost.bind fun _ _ h3 => iterSort3_cost.bind fun _ _ h4 =>
      (silent_swap _ _).cost fun _ => by omega
  · exact iterSort3_cost.bind fun _ _ h1 => Cost.pure (by omega)

theorem pdqBreakLeft_silent {f p : Nat} : Silent (pdqBreakLeft f p : M α Unit) := by
  unfold pdqBreakLeft
  dsimp only
  refine Silent.ite ?_ Silent.pure
  refine (silent_swap _ _).bind fun _ => (silent_swap _ _).bind fun _ => Silent.ite ?_ Silent.pure
  exact (silent_swap _ _).bind fun _ => (silent_swap _ _).bind fun _ => (silent_swap _ _).bind fun _ =>
    silent_swap _ _

theorem pdqBreakRight_silent {p l : Nat} : Silent (pdqBreakRight p l : M α Unit) := by
  unfold pdqBreakRight
  dsimp only
  refine Silent.ite ?_ Silent.pure
  refine (silent_swap _ _).bind fun _ => (silent_swap _ _).bind fun _ => Silent.ite ?_ Silent.pure
  exact (silent_swap _ _).bind fun _ => (silent_swap _ _).bind fun _ => (silent_swap _ _).bind fun _ =>
    silent_swap _ _

/-- A run without comparisons. -/
theorem wp.silent {β : Type} {m : M α β} {Q : β → St α → Prop} {s : St α} (h : wp m Q s) (hc : Silent m) :
    wp m (fun r s' => Q r s' ∧ s'.cmps = s.cmps) s := by
  obtain ⟨r, s', h1, h2⟩ := h
  exact ⟨r, s', h1, h2, (hc s r s' h1).1⟩

/-! ### main loop -/

/-- The element before the range is less than all the elements of the range. -/
def Below (lt : α → α → Bool) (s : St α) (first last : Nat) (v : Nat → α) : Prop :=
  0 < first ∧ ∃ w, s.cell (first - 1) = .val w ∧ ∀ i, first ≤ i → i < last → lt w (v i) = true

theorem Below.upd {s s' : St α} {first last : Nat} {v v' : Nat → α}
    (h : Below lt s first last v) (u : Upd first last s s' v v') : Below lt s' first last v' := by
  obtain ⟨h0, w, h1, h2⟩ := h
  exact ⟨h0, w, by rw [u.frame.cell _ (by omega)]; exact h1,
    u.perm.forall (P := fun y => lt w y = true) h2⟩

/-- Sizes of balanced parts. -/
theorem pow_step {n m k : Nat} (hm : 8 * m ≤ 7 * n) (h : n * 7 ^ (k + 1) < 24 * 8 ^ (k + 1)) :
    m * 7 ^ k < 24 * 8 ^ k := by
  have h1 : 8 * (m * 7 ^ k) ≤ 7 * n * 7 ^ k := by
    rw [← Nat.mul_assoc]
    exact Nat.mul_le_mul_right _ hm
  have h2 : 7 * n * 7 ^ k = n * 7 ^ (k + 1) := by rw [Nat.pow_succ]; ring
  have h3 : 24 * 8 ^ (k + 1) = 8 * (24 * 8 ^ k) := by rw [Nat.pow_succ]; ring
  omega

theorem pow_mono {n m k : Nat} (hm : m ≤ n) (h : n * 7 ^ k < 24 * 8 ^ k) : m * 7 ^ k < 24 * 8 ^ k :=
  Nat.lt_of_le_of_lt (Nat.mul_le_mul_right _ hm) h

/-- The two recursive calls. -/
theorem pdqRec_cost {f p l : Nat} {x : α} {s : St α} {v : Nat → α} {lm : Bool}
    {ml mr : M α Unit} {Cl Cr : Nat}
    (hh : Holds s.cell f l v) (hl : Lefts lt lm s f l v) (pr : PRight lt f p l v x)
    (hml : ∀ (s : St α) (v : Nat → α), Holds s.cell f p v → Lefts lt lm s f p v →
      wp ml (fun _ s' => (∃ v', Upd f p s s' v v') ∧ s'.cmps ≤ s.cmps + Cl) s)
    (hmr : ∀ (s : St α) (v : Nat → α), Holds s.cell (p + 1) l v → Lefts lt false s (p + 1) l v →
      wp mr (fun _ s' => (∃ v', Upd (p + 1) l s s' v v') ∧ s'.cmps ≤ s.cmps + Cr) s) :
    wp (ml >>= fun _ => mr) (fun _ s' => (∃ v', Upd f l s s' v v') ∧ s'.cmps ≤ s.cmps + (Cl + Cr)) s := by
  have h1 := pr.lo
  have h2 := pr.hi
  apply wp_bind
  refine wp_mono (hml s v (hh.sub (by omega) (by omega)) (hl.left (by omega))) ?_
  rintro _ s1 ⟨⟨v1, u1⟩, e1⟩
  have pr1 := pr.updL u1.perm
  have w1 := u1.widen hh (Nat.le_refl _) (by omega)
  refine wp_mono (hmr s1 v1 (w1.holds.sub (by omega) (by omega))
    (Or.inr ⟨by omega, x, ?_, fun i a c => pr1.right i (by omega) c⟩)) ?_
  · have := w1.holds p (by omega) (by omega)
    rw [pr1.at_] at this
    exact this
  · rintro _ s2 ⟨⟨v2, u2⟩, e2⟩
    exact ⟨⟨v2, w1.trans (u2.widen w1.holds (by omega) (Nat.le_refl _))⟩, by omega⟩

theorem rec_arith {n l r Y : Nat} (h : l + r ≤ n) : l * Y + r * Y ≤ n * Y := by
  rw [← Nat.add_mul]
  exact Nat.mul_le_mul_right _ h

/-- The comparisons of a call on `n` elements that may still meet `b` unbalanced partitions, and `k` balanced
ones. -/
def pdqCost (L k b n : Nat) : Nat := n * (7 * (k + b + 1) + (3 * L + 23))

theorem pdqCost_mono {L k b n m : Nat} (h : m ≤ n) : pdqCost L k b m ≤ pdqCost L k b n :=
  Nat.mul_le_mul_right _ h

theorem pdqCost_bad {L k b n l r : Nat} (h : l + r ≤ n) :
    pdqCost L k b l + pdqCost L k b r + 7 * n ≤ pdqCost L k (b + 1) n := by
  unfold pdqCost
  have := rec_arith (Y := 7 * (k + b + 1) + (3 * L + 23)) h
  have e : n * (7 * (k + (b + 1) + 1) + (3 * L + 23)) = n * (7 * (k + b + 1) + (3 * L + 23)) + 7 * n := by ring
  omega

theorem pdqCost_good {L k b n l r : Nat} (h : l + r ≤ n) :
    pdqCost L k b l + pdqCost L k b r + 7 * n ≤ pdqCost L (k + 1) b n := by
  unfold pdqCost
  have := rec_arith (Y := 7 * (k + b + 1) + (3 * L + 23)) h
  have e : n * (7 * (k + 1 + b + 1) + (3 * L + 23)) = n * (7 * (k + b + 1) + (3 * L + 23)) + 7 * n := by ring
  omega

theorem pdqCost_heap {L k b n : Nat} : 3 * n * L + 30 * n ≤ pdqCost L k b n := by
  unfold pdqCost
  have e : n * (7 * (k + b + 1) + (3 * L + 23)) = 3 * n * L + 30 * n + 7 * (n * (k + b)) := by ring
  omega

theorem pdqEqualPivot_spec {f l : Nat} {lm : Bool} {s : St α} {v : Nat → α}
    (hh : Holds s.cell f l v) (hfl : f < l) (hlm : Lefts lt lm s f l v) :
    wp (pdqEqualPivot (tick lt) lm f) (fun r s' => (∃ k, s' = { s with cmps := k } ∧ k ≤ s.cmps + 1) ∧
      (r = true → lm = false ∧ ∃ w, s.cell (f - 1) = .val w ∧ lt w (v f) = false)) s := by
  unfold pdqEqualPivot
  split
  · exact wp_pure ⟨⟨s.cmps, rfl, by omega⟩, fun h => by simp at h⟩
  · rename_i hb
    obtain ⟨h0, w, hw, hi⟩ := hlm.resolve_left hb
    apply wp_bind
    refine wp_read' hw ?_
    wread hh
    wtick
    exact wp_pure ⟨⟨_, rfl, by omega⟩, fun h => ⟨by simpa using hb, w, hw, by simpa using h⟩⟩

theorem pdqsortLoop_cost (hlt : StrictWeak lt) (bl : Bool) (L : Nat) :
    ∀ (n f l k b : Nat) (lm : Bool) (s : St α) (v : Nat → α), l - f = n → f ≤ l →
    Holds s.cell f l v → Lefts lt lm s f l v → n * 7 ^ k < 24 * 8 ^ k → n < 2 ^ (L + 1) →
    wp (pdqsortLoop (tick lt) bl f l ((b : Int) + 1) lm) (fun _ s' => (∃ v', Upd f l s s' v v') ∧
      s'.cmps ≤ s.cmps + (pdqCost L k b n + 2 * n) ∧
      (lm = true ∨ Below lt s f l v → s'.cmps ≤ s.cmps + pdqCost L k b n)) s := by
  intro n
  induction n using Nat.strongRecOn with
  | _ n ih =>
    intro f l k b lm s v hn hfl hh hlm hk hL
    have hheap := pdqCost_heap (L := L) (k := k) (b := b) (n := n)
    rw [pdqsortLoop]
    split
    · rename_i hsmall
      have hsq : (l - f) * (l - f - 1) ≤ 22 * n := by
        rw [hn, Nat.mul_comm]
        exact Nat.mul_le_mul_right _ (by omega)
      split
      · refine wp_mono ((insertionSort_spec hlt hfl hh).cost (insertionSort_cost hfl)) ?_
        rintro _ s1 ⟨⟨v1, u1, so, -⟩, c, hc1, hc2⟩
        exact ⟨⟨v1, u1.upd⟩, by omega, fun _ => by omega⟩
      · rename_i hb
        refine wp_mono (unguardedInsertionSort_spec hlt hfl hh (hlm.resolve_left hb)) ?_
        rintro _ s1 ⟨hc, v1, u1, -⟩
        rw [← Nat.sub_sub] at hc
        exact ⟨⟨v1, u1⟩, by omega, fun _ => by omega⟩
    · rename_i hbig
      apply wp_bind
      refine wp_mono ((pdqPivot_spec hlt (by omega) hh).cost pdqPivot_cost) ?_
      rintro _ s1 ⟨⟨v1, u1, ⟨g1, a1, a2, a3⟩, ⟨g2, b1, b2, b3⟩⟩, cp, hcp1, hcp2⟩
      have hlm1 := hlm.upd u1
      apply wp_bind
      refine wp_mono (pdqEqualPivot_spec u1.holds (by omega) hlm1) ?_
      rintro r _ ⟨⟨ke, rfl, hke⟩, hr⟩
      split
      · rename_i hrt
        obtain ⟨hb, w, hw0, hw1⟩ := hr hrt
        apply wp_bind
        refine wp_mono (partitionLeft_spec (lt := lt) (s := { s1 with cmps := ke }) u1.holds b1 b2 b3) ?_
        rintro p s2 ⟨hcl, v2, u2, pl⟩
        have c1 := pl.lo
        have c2 := pl.hi
        have u12 := u1.trans u2.tick
        have hcell : s2.cell (p + 1 - 1) = .val (v1 f) := by
          have := u12.holds p (by omega) (by omega)
          rw [pl.at_] at this
          exact this
        refine wp_mono (ih (l - (p + 1)) (by omega) (p + 1) l k b lm s2 v2 rfl (by omega)
          (u12.holds.sub (by omega) (Nat.le_refl _))
          (Or.inr ⟨by omega, v1 f, hcell, fun i a c => hlt.asymm (pl.right i (by omega) c)⟩)
          (pow_mono (by omega) hk) (by omega)) ?_
        rintro _ s3 ⟨⟨v3, u3⟩, -, hc3⟩
        have hc3 := hc3 (Or.inr ⟨by omega, v1 f, hcell, fun i a c => pl.right i (by omega) c⟩)
        have hm := pdqCost_mono (L := L) (k := k) (b := b) (show l - (p + 1) ≤ n by omega)
        dsimp only at hcl
        refine ⟨⟨v3, u12.trans (u3.widen u12.holds (by omega) (Nat.le_refl _))⟩, by omega, fun h => ?_⟩
        rcases h with h | h
        · rw [hb] at h; cases h
        · obtain ⟨-, w', e1, e2⟩ := h.upd u1
          have e3 : w = w' := by
            rw [hw0] at e1
            cases e1
            rfl
          have := e2 f (by omega) (by omega)
          rw [← e3, hw1] at this
          cases this
      · apply wp_bind
        refine wp_mono (pdqPartition_spec (lt := lt) (s := { s1 with cmps := ke }) bl u1.holds a1 a2 a3) ?_
        rintro ⟨p, already⟩ s2 ⟨hcr, v2, u2, pr⟩
        simp only at pr
        have c1 := pr.lo
        have c2 := pr.hi
        have u12 := u1.trans u2.tick
        have hlm2 := hlm.upd u12
        dsimp only at hcr ⊢
        split
        · split
          · refine wp_mono ((heapsort_spec hlt hfl u12.holds).cost (heapsort_cost (k := L) (by omega))) ?_
            rintro _ s3 ⟨⟨v3, u3, so⟩, ch, hch1, hch2⟩
            rw [hn] at hch2
            exact ⟨⟨v3, u12.trans u3⟩, by omega, fun _ => by omega⟩
          · rename_i hb0
            obtain ⟨b', rfl⟩ : ∃ b', b = b' + 1 := ⟨b - 1, by omega⟩
            apply wp_bind
            refine wp_mono ((pdqBreakLeft_mixes s2 v2
              (u12.holds.sub (Nat.le_refl f) (show p ≤ l by omega))).silent pdqBreakLeft_silent) ?_
            rintro _ s3 ⟨⟨-, v3, u3⟩, hb3⟩
            have pr3 := pr.updL u3.perm
            have w3 := u12.trans (u3.widen u12.holds (Nat.le_refl _) (by omega))
            apply wp_bind
            refine wp_mono ((pdqBreakRight_mixes s3 v3
              (w3.holds.sub (show f ≤ p + 1 by omega) (Nat.le_refl _))).silent pdqBreakRight_silent) ?_
            rintro _ s4 ⟨⟨-, v4, u4⟩, hb4⟩
            have pr4 := pr3.updR u4.perm
            have w4 := w3.trans (u4.widen w3.holds (by omega) (Nat.le_refl _))
            have hbb : (((b' + 1 : Nat) : Int) + 1 - 1) = (b' : Int) + 1 := by omega
            rw [hbb]
            refine wp_mono (pdqRec_cost w4.holds (hlm.upd w4) pr4
              (fun s v hh hl => wp_mono (ih (p - f) (by omega) f p k b' lm s v rfl c1 hh hl
                (pow_mono (by omega) hk) (by omega)) fun _ _ h => ⟨h.1, h.2.1⟩)
              (fun s v hh hl => wp_mono (ih (l - (p + 1)) (by omega) (p + 1) l k b' false s v rfl (by omega) hh hl
                (pow_mono (by omega) hk) (by omega)) fun _ _ h => ⟨h.1, h.2.1⟩)) ?_
            rintro _ s5 ⟨⟨v5, u5⟩, h5⟩
            have := pdqCost_bad (L := L) (k := k) (b := b') (show p - f + (l - (p + 1)) ≤ n by omega)
            exact ⟨⟨v5, w4.trans u5⟩, by omega, fun _ => by omega⟩
        · rename_i hbal
          obtain ⟨k', rfl⟩ : ∃ k', k = k' + 1 := by
            refine ⟨k - 1, ?_⟩
            by_cases hk0 : k = 0
            · rw [hk0] at hk
              simp only [Nat.pow_zero] at hk
              omega
            · omega
          apply wp_bind
          refine wp_mono ((pdqTryInsertion_spec hlt already u12.holds pr).cost (pdqTryInsertion_cost c1 c2)) ?_
          rintro r s3 ⟨⟨v3, u3, pr3, so⟩, ct, hct1, hct2⟩
          have w3 := u12.trans u3
          split
          · exact wp_pure ⟨⟨v3, w3⟩, by omega, fun _ => by omega⟩
          · refine wp_mono (pdqRec_cost w3.holds (hlm.upd w3) pr3
              (fun s v hh hl => wp_mono (ih (p - f) (by omega) f p k' b lm s v rfl c1 hh hl
                (pow_step (by omega) hk) (by omega)) fun _ _ h => ⟨h.1, h.2.1⟩)
              (fun s v hh hl => wp_mono (ih (l - (p + 1)) (by omega) (p + 1) l k' b false s v rfl (by omega) hh hl
                (pow_step (by omega) hk) (by omega)) fun _ _ h => ⟨h.1, h.2.1⟩)) ?_
            rintro _ s5 ⟨⟨v5, u5⟩, h5⟩
            have := pdqCost_good (L := L) (k := k') (b := b) (show p - f + (l - (p + 1)) ≤ n by omega)
            exact ⟨⟨v5, w3.trans u5⟩, by omega, fun _ => by omega⟩

/-- `n` is less than `24 (8/7) ^ (6 L)` when it is less than `2 ^ (L + 1)`. -/
theorem pow_start {n : Nat} : ∀ {L : Nat}, n < 2 ^ (L + 1) → n * 7 ^ (6 * L) < 24 * 8 ^ (6 * L) := by
  intro L h
  have key : ∀ L : Nat, 2 ^ L * 7 ^ (6 * L) ≤ 8 ^ (6 * L) := by
    intro L
    rw [Nat.pow_mul, Nat.pow_mul, ← Nat.mul_pow]
    exact Nat.pow_le_pow_left (by decide) _
  have h1 : n * 7 ^ (6 * L) ≤ 2 * (2 ^ L * 7 ^ (6 * L)) := by
    rw [← Nat.mul_assoc]
    exact Nat.mul_le_mul_right _ (by rw [Nat.pow_succ] at h; omega)
  have h2 := key L
  have h3 : 0 < 8 ^ (6 * L) := Nat.pow_pos (by decide)
  omega

theorem pdqsort_cost (hlt : StrictWeak lt) (bl : Bool) {f l : Nat} {s : St α} {v : Nat → α}
    (hfl : f ≤ l) (hh : Holds s.cell f l v) :
    wp (pdqsort (tick lt) bl f l) (fun _ s' =>
      s'.cmps ≤ s.cmps + (l - f) * (52 * Nat.log2 (l - f) + 23)) s := by
  unfold pdqsort
  split
  · exact wp_pure (by omega)
  · rename_i h2
    have hlog : 0 < Nat.log2 (l - f) := by
      rw [Nat.lt_iff_add_one_le, Nat.le_log2 (by omega)]
      omega
    obtain ⟨b, hb⟩ : ∃ b, Nat.log2 (l - f) = b + 1 := ⟨Nat.log2 (l - f) - 1, by omega⟩
    have hlt2 : l - f < 2 ^ (Nat.log2 (l - f) + 1) := Nat.lt_log2_self
    have := pdqsortLoop_cost hlt bl (Nat.log2 (l - f)) (l - f) f l (6 * Nat.log2 (l - f)) b true s v rfl hfl hh
      (Or.inl rfl) (pow_start hlt2) hlt2
    rw [show ((Nat.log2 (l - f) : Nat) : Int) = (b : Int) + 1 by rw [hb]; rfl]
    refine wp_mono this ?_
    rintro _ s' ⟨-, -, h⟩
    refine Nat.le_trans (h (Or.inl rfl)) ?_
    unfold pdqCost
    rw [hb]
    refine Nat.add_le_add_left (Nat.mul_le_mul_left _ ?_) _
    omega

end CppSort
