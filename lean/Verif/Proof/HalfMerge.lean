import Verif.Proof.RotateGcd
import Verif.Proof.Bound
set_option autoImplicit false

namespace CppSort
variable {α : Type} {lt : α → α → Bool}

/-- Address assumptions of a half-in-place merge: source 1 at `d1 [a1, e1)`, source 2 and output at
`d [r0, e2)`, all distinct. -/
structure HMAddr (d1 d : Nat → Nat) (a1 e1 r0 e2 : Nat) : Prop where
  inj1 : ∀ j k, a1 ≤ j → j < e1 → a1 ≤ k → k < e1 → d1 j = d1 k → j = k
  inj : ∀ j k, r0 ≤ j → j < e2 → r0 ≤ k → k < e2 → d j = d k → j = k
  disj : ∀ j k, a1 ≤ j → j < e1 → r0 ≤ k → k < e2 → d1 j ≠ d k

/-- Situation in the middle of a half-in-place merge. -/
structure HMInv (d1 d : Nat → Nat) (i1 e1 i2 e2 r : Nat) (x y : Nat → α) (c : Nat → Cell α) :
    Prop where
  src1 : ∀ k, i1 ≤ k → k < e1 → c (d1 k) = .val (x k)
  src2 : ∀ k, i2 ≤ k → k < e2 → c (d k) = .val (y k)
  gap : ∀ k, r ≤ k → k < i2 → Live c (d k)
  bal : r + (e1 - i1) = i2

/-- Outcome of a half-in-place merge. -/
structure HMPost (lt : α → α → Bool) (d1 d : Nat → Nat) (i1 e1 i2 e2 r : Nat) (x y z : Nat → α)
    (s s' : St α) : Prop where
  out : ∀ k, r ≤ k → k < e2 → s'.cell (d k) = .val (z k)
  merged : lst z r e2 = mergeL lt (lst x i1 e1) (lst y i2 e2)
  buf : ∀ k, i1 ≤ k → k < e1 → s'.cell (d1 k) = .moved
  other : ∀ p, (∀ k, i1 ≤ k → k < e1 → p ≠ d1 k) → (∀ k, r ≤ k → k < e2 → p ≠ d k) →
    s'.cell p = s.cell p
  brk : s'.env = s.env

section
variable {d1 d : Nat → Nat} {a1 e1 r0 e2 : Nat} {x y : Nat → α}

/-- Taking the head of source 1. -/
theorem HMInv.take1 (ha : HMAddr d1 d a1 e1 r0 e2) {i1 i2 r : Nat} {c c' : Nat → Cell α}
    (h : HMInv d1 d i1 e1 i2 e2 r x y c) (b1 : a1 ≤ i1) (b2 : i1 < e1) (b3 : r0 ≤ r) (b4 : i2 ≤ e2)
    (hc : c' = setCell (setCell c (d1 i1) .moved) (d r) (.val (x i1))) :
    HMInv d1 d (i1 + 1) e1 i2 e2 (r + 1) x y c' := by
  have hb := h.bal
  refine ⟨fun k p q => ?_, fun k p q => ?_, fun k p q => ?_, by omega⟩
  · rw [hc, sc_ne (ha.disj k r (by omega) q (by omega) (by omega)),
      sc_ne (fun e => by have := ha.inj1 k i1 (by omega) q (by omega) b2 e; omega)]
    exact h.src1 k (by omega) q
  · rw [hc, sc_ne (fun e => by have := ha.inj k r (by omega) q (by omega) (by omega) e; omega),
      sc_ne (ha.disj i1 k b1 b2 (by omega) q).symm]
    exact h.src2 k (by omega) q
  · have := h.gap k (by omega) q
    unfold Live at this ⊢
    rwa [hc, sc_ne (fun e => by have := ha.inj k r (by omega) (by omega) (by omega) (by omega) e; omega),
      sc_ne (ha.disj i1 k b1 b2 (by omega) (by omega)).symm]

/-- Taking the head of source 2. -/
theorem HMInv.take2 (ha : HMAddr d1 d a1 e1 r0 e2) {i1 i2 r : Nat} {c c' : Nat → Cell α}
    (h : HMInv d1 d i1 e1 i2 e2 r x y c) (b1 : a1 ≤ i1) (b2 : i1 < e1) (b3 : r0 ≤ r) (b4 : i2 < e2)
    (hc : c' = setCell (setCell c (d i2) .moved) (d r) (.val (y i2))) :
    HMInv d1 d i1 e1 (i2 + 1) e2 (r + 1) x y c' := by
  have hb := h.bal
  refine ⟨fun k p q => ?_, fun k p q => ?_, fun k p q => ?_, by omega⟩
  · rw [hc, sc_ne (ha.disj k r (by omega) q (by omega) (by omega)),
      sc_ne (ha.disj k i2 (by omega) q (by omega) (by omega))]
    exact h.src1 k (by omega) q
  · rw [hc, sc_ne (fun e => by have := ha.inj k r (by omega) q (by omega) (by omega) e; omega),
      sc_ne (fun e => by have := ha.inj k i2 (by omega) q (by omega) (by omega) e; omega)]
    exact h.src2 k (by omega) q
  · by_cases e : k = i2
    · left
      rw [hc, e, sc_ne (fun e => by have := ha.inj i2 r (by omega) b4 (by omega) (by omega) e; omega),
        sc_eq rfl]
    · have := h.gap k (by omega) (by omega)
      unfold Live at this ⊢
      rwa [hc, sc_ne (fun e => by have := ha.inj k r (by omega) (by omega) (by omega) (by omega) e; omega),
        sc_ne (fun e => by have := ha.inj k i2 (by omega) (by omega) (by omega) (by omega) e; omega)]

/-- Prepending the element taken from source 1 to the outcome. -/
theorem HMPost.cons1 (ha : HMAddr d1 d a1 e1 r0 e2) {i1 i2 r : Nat} {s s1 s' : St α} {z : Nat → α}
    (hp : HMPost lt d1 d (i1 + 1) e1 i2 e2 (r + 1) x y z s1 s') (b1 : a1 ≤ i1) (b2 : i1 < e1)
    (b3 : r0 ≤ r) (b4 : r < i2) (b5 : i2 < e2)
    (hc : s1.cell = setCell (setCell s.cell (d1 i1) .moved) (d r) (.val (x i1)))
    (hb : s1.env = s.env) (hle : lt (y i2) (x i1) = false) :
    HMPost lt d1 d i1 e1 i2 e2 r x y (upd z r (x i1)) s s' := by
  refine ⟨fun k p q => ?_, ?_, fun k p q => ?_, fun k p q => ?_, hp.brk.trans hb⟩
  · by_cases e : k = r
    · rw [upd_eq e, e, hp.other (d r) (fun k p q => (ha.disj k r (by omega) q (by omega) (by omega)).symm)
        (fun k p q e => by have := ha.inj r k (by omega) (by omega) (by omega) (by omega) e; omega), hc,
        sc_eq rfl]
    · rw [upd_ne e]; exact hp.out k (by omega) q
  · rw [lst_cons (f := r) (by omega), upd_eq rfl,
      lst_congr (v := upd z r (x i1)) (w := z) fun k p q => upd_ne (by omega), hp.merged,
      lst_cons (f := i1) b2, lst_cons (f := i2) b5, mergeL_cons, if_neg (by simp [hle])]
  · by_cases e : k = i1
    · rw [e, hp.other (d1 i1) (fun k p q e => by have := ha.inj1 i1 k b1 b2 (by omega) q e; omega)
        (fun k p q => ha.disj i1 k b1 b2 (by omega) (by omega)), hc,
        sc_ne (ha.disj i1 r b1 b2 (by omega) (by omega)), sc_eq rfl]
    · exact hp.buf k (by omega) q
  · rw [hp.other k (fun j a b => p j (by omega) b) (fun j a b => q j (by omega) b), hc,
      sc_ne (q r (by omega) (by omega)), sc_ne (p i1 (by omega) (by omega))]

/-- Prepending the element taken from source 2 to the outcome. -/
theorem HMPost.cons2 (ha : HMAddr d1 d a1 e1 r0 e2) {i1 i2 r : Nat} {s s1 s' : St α} {z : Nat → α}
    (hp : HMPost lt d1 d i1 e1 (i2 + 1) e2 (r + 1) x y z s1 s') (b1 : a1 ≤ i1) (b2 : i1 < e1)
    (b3 : r0 ≤ r) (b4 : r < i2) (b5 : i2 < e2)
    (hc : s1.cell = setCell (setCell s.cell (d i2) .moved) (d r) (.val (y i2)))
    (hb : s1.env = s.env) (hlt' : lt (y i2) (x i1) = true) :
    HMPost lt d1 d i1 e1 i2 e2 r x y (upd z r (y i2)) s s' := by
  refine ⟨fun k p q => ?_, ?_, hp.buf, fun k p q => ?_, hp.brk.trans hb⟩
  · by_cases e : k = r
    · rw [upd_eq e, e, hp.other (d r) (fun k p q => (ha.disj k r (by omega) q (by omega) (by omega)).symm)
        (fun k p q e => by have := ha.inj r k (by omega) (by omega) (by omega) (by omega) e; omega), hc,
        sc_eq rfl]
    · rw [upd_ne e]; exact hp.out k (by omega) q
  · rw [lst_cons (f := r) (by omega), upd_eq rfl,
      lst_congr (v := upd z r (y i2)) (w := z) fun k p q => upd_ne (by omega), hp.merged,
      lst_cons (f := i1) b2, lst_cons (f := i2) b5, mergeL_cons, if_pos hlt']
  · rw [hp.other k (fun j a b => p j (by omega) b) (fun j a b => q j (by omega) b), hc,
      sc_ne (q r (by omega) (by omega)), sc_ne (q i2 (by omega) (by omega))]

/-- Nothing left in source 1: the rest is in place. -/
theorem HMPost.done1 {i2 r : Nat} {s : St α} (h : HMInv d1 d e1 e1 i2 e2 r x y s.cell) :
    HMPost lt d1 d e1 e1 i2 e2 r x y y s s := by
  have hb := h.bal
  have e : r = i2 := by omega
  subst e
  refine ⟨h.src2, ?_, fun k p q => by omega, fun _ _ _ => rfl, rfl⟩
  rw [lst_nil (f := e1) (by omega)]; simp

/-- Nothing left in source 2: move the rest of source 1. -/
theorem HMPost.done2 (ha : HMAddr d1 d a1 e1 r0 e2) {i1 r : Nat} {s : St α}
    (h : HMInv d1 d i1 e1 e2 e2 r x y s.cell) (b1 : a1 ≤ i1) (b2 : i1 ≤ e1) (b3 : r0 ≤ r) :
    wp (moveRange d1 d i1 e1 r) (fun _ s' => ∃ z, HMPost lt d1 d i1 e1 e2 e2 r x y z s s' ∧
      s'.cmps = s.cmps) s := by
  have hb := h.bal
  refine wp_mono (moveRange_spec (d1 := d1) (d2 := d) (D := fun k => d (r + (k - i1))) (x := x)
    (e1 - i1) i1 e1 r s (by omega) (fun k a b => rfl) h.src1 ?_ ?_ ?_ ?_) ?_
  · intro k a b; exact h.gap _ (by omega) (by omega)
  · intro j k a b c e
    have := ha.inj1 j k (by omega) (by omega) (by omega) c e; omega
  · intro j k a b c e
    have := ha.inj _ _ (by omega) (by omega) (by omega) (by omega) e; omega
  · intro j k a b c
    exact ha.disj k _ (by omega) c (by omega) (by omega)
  · rintro r' s' ⟨-, h2, h3, h4, h5, h6, h7⟩
    refine ⟨fun k => x (i1 + (k - r)), ⟨fun k p q => ?_, ?_, fun k p q => ?_, fun p q1 q2 => ?_, h5⟩,
      h6⟩
    · have := h2 (i1 + (k - r)) (by omega) (by omega)
      rwa [show r + (i1 + (k - r) - i1) = k by omega] at this
    · rw [lst_nil (f := e2) (by omega), mergeL_nil_right]
      apply List.ext_getElem
      · simp; omega
      · intro i p q
        rw [lst_getElem, lst_getElem]; congr 1; omega
    · exact h3 k p q fun j a b => ha.disj k _ (by omega) q (by omega) (by omega)
    · exact h4 p (fun j a b => q2 _ (by omega) (by omega)) q1

theorem halfMergeLoop_spec (ha : HMAddr d1 d a1 e1 r0 e2) : ∀ (n i1 i2 r : Nat) (s : St α),
    (e1 - i1) + (e2 - i2) ≤ n → a1 ≤ i1 → i1 < e1 → r0 ≤ r → i2 < e2 →
    HMInv d1 d i1 e1 i2 e2 r x y s.cell →
    wp (halfMergeLoop (tick lt) d1 d i1 e1 i2 e2 r) (fun _ s' => ∃ z,
      HMPost lt d1 d i1 e1 i2 e2 r x y z s s') s := by
  intro n
  induction n with
  | zero => intros; omega
  | succ n ih =>
    intro i1 i2 r s hn b1 b2 b3 b4 h
    have hb := h.bal
    rw [halfMergeLoop]
    apply wp_bind
    refine wp_read' (h.src2 i2 (by omega) b4) ?_
    apply wp_bind
    refine wp_read' (h.src1 i1 (by omega) b2) ?_
    wtick
    split
    · rename_i hc
      apply wp_bind
      refine wp_moveTo' (fun e => by have := ha.inj r i2 (by omega) (by omega) (by omega) b4 e; omega)
        (h.src2 i2 (by omega) b4) (h.gap r (by omega) (by omega)) ?_
      intro s1 hc1 hb1 _ _
      have hI := h.take2 ha b1 b2 b3 b4 hc1
      split
      · rename_i e
        apply wp_bind
        have hI' := hI
        rw [e] at hI'
        refine wp_mono (HMPost.done2 (lt := lt) ha hI' b1 (by omega) (by omega)) ?_
        rintro _ s2 ⟨z, hz, -⟩
        apply wp_pure
        rw [← e] at hz
        have hz' : HMPost lt d1 d i1 e1 (i2 + 1) e2 (r + 1) x y z s1 s2 := by rw [← e]; exact hz
        exact ⟨_, HMPost.cons2 ha hz' b1 b2 b3 (by omega) b4 hc1 hb1 hc⟩
      · refine wp_mono (ih i1 (i2 + 1) (r + 1) s1 (by omega) b1 b2 (by omega) (by omega) hI) ?_
        rintro _ s2 ⟨z, hz⟩
        exact ⟨_, HMPost.cons2 ha hz b1 b2 b3 (by omega) b4 hc1 hb1 hc⟩
    · rename_i hc
      have hc' : lt (y i2) (x i1) = false := by simpa using hc
      apply wp_bind
      refine wp_moveTo' (ha.disj i1 r b1 b2 (by omega) (by omega)).symm
        (h.src1 i1 (by omega) b2) (h.gap r (by omega) (by omega)) ?_
      intro s1 hc1 hb1 _ _
      have hI := h.take1 ha b1 b2 b3 (by omega) hc1
      split
      · rename_i e
        apply wp_pure
        have hI' := hI
        rw [e] at hI'
        have hz := HMPost.done1 (lt := lt) hI'
        have hz' : HMPost lt d1 d (i1 + 1) e1 i2 e2 (r + 1) x y y s1 s1 := by rw [e]; exact hz
        exact ⟨_, HMPost.cons1 ha hz' b1 b2 b3 (by omega) b4 hc1 hb1 hc'⟩
      · refine wp_mono (ih (i1 + 1) i2 (r + 1) s1 (by omega) (by omega) (by omega) (by omega) b4 hI) ?_
        rintro _ s2 ⟨z, hz⟩
        exact ⟨_, HMPost.cons1 ha hz b1 b2 b3 (by omega) b4 hc1 hb1 hc'⟩

/-- The blind loop, as a transformer of the remaining work. -/
theorem halfMergeBlind_spec (ha : HMAddr d1 d a1 e1 r0 e2) {s0 : St α} : ∀ (n i1 i2 r : Nat) (s : St α),
    a1 ≤ i1 → i1 + n ≤ e1 → r0 ≤ r → i2 + n ≤ e2 →
    HMInv d1 d i1 e1 i2 e2 r x y s.cell →
    wp (halfMergeBlind (tick lt) d1 d i1 i2 r n) (fun q s' =>
      a1 ≤ q.1 ∧ q.1 ≤ e1 ∧ r0 ≤ q.2.2 ∧ q.2.1 ≤ e2 ∧
      HMInv d1 d q.1 e1 q.2.1 e2 q.2.2 x y s'.cell ∧
      ∀ s2 z, HMPost lt d1 d q.1 e1 q.2.1 e2 q.2.2 x y z s' s2 →
        ∃ z', HMPost lt d1 d i1 e1 i2 e2 r x y z' s s2) s := by
  intro n
  induction n with
  | zero =>
    intro i1 i2 r s b1 b2 b3 b4 h
    rw [halfMergeBlind, if_neg (by simp)]
    apply wp_pure
    exact ⟨b1, b2, b3, b4, h, fun s2 z hz => ⟨z, hz⟩⟩
  | succ n ih =>
    intro i1 i2 r s b1 b2 b3 b4 h
    have hb := h.bal
    rw [halfMergeBlind, if_pos (by simp)]
    apply wp_bind
    refine wp_read' (h.src2 i2 (by omega) (by omega)) ?_
    apply wp_bind
    refine wp_read' (h.src1 i1 (by omega) (by omega)) ?_
    wtick
    split
    · rename_i hc
      apply wp_bind
      refine wp_moveTo' (fun e => by have := ha.inj r i2 (by omega) (by omega) (by omega) (by omega) e; omega)
        (h.src2 i2 (by omega) (by omega)) (h.gap r (by omega) (by omega)) ?_
      intro s1 hc1 hb1 _ _
      have hI := h.take2 ha b1 (by omega) b3 (by omega) hc1
      refine wp_mono (ih i1 (i2 + 1) (r + 1) s1 b1 (by omega) (by omega) (by omega) hI) ?_
      rintro q s2 ⟨c1, c2, c3, c4, c5, c6⟩
      refine ⟨c1, c2, c3, c4, c5, fun s3 z hz => ?_⟩
      obtain ⟨z', hz'⟩ := c6 s3 z hz
      exact ⟨_, HMPost.cons2 ha hz' b1 (by omega) b3 (by omega) (by omega) hc1 hb1 hc⟩
    · rename_i hc
      have hc' : lt (y i2) (x i1) = false := by simpa using hc
      apply wp_bind
      refine wp_moveTo' (ha.disj i1 r b1 (by omega) (by omega) (by omega)).symm
        (h.src1 i1 (by omega) (by omega)) (h.gap r (by omega) (by omega)) ?_
      intro s1 hc1 hb1 _ _
      have hI := h.take1 ha b1 (by omega) b3 (by omega) hc1
      refine wp_mono (ih (i1 + 1) i2 (r + 1) s1 (by omega) (by omega) (by omega) (by omega) hI) ?_
      rintro q s2 ⟨c1, c2, c3, c4, c5, c6⟩
      refine ⟨c1, c2, c3, c4, c5, fun s3 z hz => ?_⟩
      obtain ⟨z', hz'⟩ := c6 s3 z hz
      exact ⟨_, HMPost.cons1 ha hz' b1 (by omega) b3 (by omega) (by omega) hc1 hb1 hc'⟩

theorem halfInplaceMerge_spec (ha : HMAddr d1 d a1 e1 r0 e2) {i2 n : Nat} {s : St α}
    (b1 : a1 + n ≤ e1) (b2 : i2 + n ≤ e2) (h : HMInv d1 d a1 e1 i2 e2 r0 x y s.cell) :
    wp (halfInplaceMerge (tick lt) d1 d a1 e1 i2 e2 r0 n) (fun _ s' => ∃ z,
      HMPost lt d1 d a1 e1 i2 e2 r0 x y z s s') s := by
  unfold halfInplaceMerge
  apply wp_bind
  refine wp_mono (halfMergeBlind_spec ha (s0 := s) n a1 i2 r0 s (Nat.le_refl _) b1 (Nat.le_refl _) b2 h) ?_
  rintro ⟨i1', i2', r'⟩ s1 ⟨c1, c2, c3, c4, c5, c6⟩
  simp only at c1 c2 c3 c4 c5 c6 ⊢
  split
  · rename_i e
    apply wp_pure
    subst e
    exact c6 _ _ (HMPost.done1 c5)
  · split
    · rename_i e
      subst e
      apply wp_bind
      refine wp_mono (HMPost.done2 (lt := lt) ha c5 c1 c2 c3) ?_
      rintro _ s2 ⟨z, hz, -⟩
      apply wp_pure
      exact c6 _ _ hz
    · refine wp_mono (halfMergeLoop_spec ha _ i1' i2' r' s1 (Nat.le_refl _) c1 (by omega) c3 (by omega)
        c5) ?_
      rintro _ s2 ⟨z, hz⟩
      exact c6 _ _ hz

end

/-- Moving a range into a raw buffer. -/
theorem uninitMove_spec {x : Nat → α} : ∀ (n first last buf : Nat) (s : St α), last = first + n →
    (∀ k, first ≤ k → k < last → s.cell k = .val (x k)) →
    (∀ k, buf ≤ k → k < buf + n → s.cell k = .raw) →
    wp (uninitMove first last buf) (fun r s' => r = buf + n ∧
      (∀ k, first ≤ k → k < last → s'.cell k = .moved) ∧
      (∀ k, buf ≤ k → k < buf + n → s'.cell k = .val (x (first + (k - buf)))) ∧
      (∀ k, (k < first ∨ last ≤ k) → (k < buf ∨ buf + n ≤ k) → s'.cell k = s.cell k) ∧
      s'.env = s.env ∧ s'.cmps = s.cmps ∧ s'.movs = s.movs + n) s := by
  intro n
  induction n with
  | zero =>
    intro first last buf s hn _ _
    rw [uninitMove, if_neg (by omega)]
    apply wp_pure
    exact ⟨rfl, fun k _ _ => by omega, fun k _ _ => by omega, fun _ _ _ => rfl, rfl, rfl, rfl⟩
  | succ n ih =>
    intro first last buf s hn hs hr
    -- the source and the buffer are disjoint because of their contents
    have hd : ∀ k, first ≤ k → k < last → ¬ (buf ≤ k ∧ k < buf + (n + 1)) := by
      intro k a b hc
      have h1 := hs k a b
      rw [hr k hc.1 hc.2] at h1
      cases h1
    rw [uninitMove, if_pos (by omega)]
    apply wp_bind
    refine wp_constructFrom (hs first (by omega) (by omega)) (hr buf (by omega) (by omega)) ?_
    intro s1 hc1 hb1 hk1 hm1
    have d0 := hd first (by omega) (by omega)
    refine wp_mono (ih (first + 1) last (buf + 1) s1 (by omega) ?_ ?_) ?_
    · intro k a b
      have := hd k (by omega) b
      rw [hc1, sc_ne (by omega), sc_ne (by omega)]
      exact hs k (by omega) b
    · intro k a b
      rw [hc1, sc_ne (by omega), sc_ne (by omega)]
      exact hr k (by omega) (by omega)
    · rintro r s2 ⟨e, a1, a2, a3, a4, a5, a6⟩
      refine ⟨by omega, fun k p q => ?_, fun k p q => ?_, fun k p q => ?_, a4.trans hb1, by omega,
        by omega⟩
      · by_cases e : k = first
        · have := hd k p q
          rw [a3 k (by omega) (by omega), hc1, sc_ne (by omega), sc_eq e]
        · exact a1 k (by omega) q
      · by_cases e : k = buf
        · have : ¬ (first + 1 ≤ k ∧ k < last) := fun hc => hd k (by omega) hc.2 ⟨p, q⟩
          rw [a3 k (by omega) (by omega), hc1, sc_eq e]
          congr 2; omega
        · rw [a2 k (by omega) (by omega)]; congr 2; omega
      · rw [a3 k (by omega) (by omega), hc1, sc_ne (by omega), sc_ne (by omega)]

theorem destroyN_spec : ∀ (n p : Nat) (s : St α), (∀ k, p ≤ k → k < p + n → Live s.cell k) →
    wp (destroyN p n) (fun _ s' => (∀ k, p ≤ k → k < p + n → s'.cell k = .raw) ∧
      (∀ k, (k < p ∨ p + n ≤ k) → s'.cell k = s.cell k) ∧ s'.env = s.env ∧ s'.cmps = s.cmps ∧
      s'.movs = s.movs) s := by
  intro n
  induction n with
  | zero =>
    intro p s _
    rw [destroyN, if_neg (by simp)]
    apply wp_pure
    exact ⟨fun k _ _ => by omega, fun _ _ => rfl, rfl, rfl, rfl⟩
  | succ n ih =>
    intro p s h
    rw [destroyN, if_pos (by simp)]
    apply wp_bind
    refine wp_destroy (h p (by omega) (by omega)) ?_
    intro s1 hc1 hb1 hk1 hm1
    rw [Nat.add_sub_cancel]
    refine wp_mono (ih (p + 1) s1 ?_) ?_
    · intro k a b
      have := h k (by omega) (by omega)
      unfold Live at this ⊢
      rwa [hc1, sc_ne (by omega)]
    · rintro _ s2 ⟨a1, a2, a3, a4, a5⟩
      refine ⟨fun k q r => ?_, fun k q => ?_, a3.trans hb1, by omega, by omega⟩
      · by_cases e : k = p
        · rw [a2 k (by omega), hc1, sc_eq e]
        · exact a1 k (by omega) (by omega)
      · rw [a2 k (by omega), hc1, sc_ne (by omega)]

/-- The cells of a buffer are raw storage. -/
def RawBuf (c : Nat → Cell α) (p n : Nat) : Prop := ∀ k, p ≤ k → k < p + n → c k = .raw

theorem RawBuf.disj {c : Nat → Cell α} {p n f l : Nat} {v : Nat → α} (h : RawBuf c p n)
    (hh : Holds c f l v) : ∀ k, f ≤ k → k < l → (k < p ∨ p + n ≤ k) := by
  intro k a b
  by_contra hc
  have h1 := hh k a b
  rw [h k (by omega) (by omega)] at h1
  cases h1

/-- A stable merge with the left part in the buffer. -/
theorem leftBuffered_spec (hlt : StrictWeak lt) {first middle last buff n2 : Nat} {s : St α}
    {v : Nat → α} (h1 : first ≤ middle) (h2 : middle ≤ last) (hh : Holds s.cell first last v)
    (hn : last - middle = n2) (hle : middle - first ≤ n2 ∨ True)
    (hs1 : SortedOn lt first middle v) (hs2 : SortedOn lt middle last v)
    (hr : RawBuf s.cell buff (middle - first)) {minLen : Nat} (hm1 : minLen ≤ middle - first)
    (hm2 : minLen ≤ n2) :
    wp (do
      let ptr ← uninitMove first middle buff
      halfInplaceMerge (tick lt) id id buff ptr middle last first minLen
      destroyN buff (ptr - buff)) (fun _ s' => ∃ v',
        SUpd lt first last s s' v v' ∧ SortedOn lt first last v') s := by
  have hdis := hr.disj hh
  apply wp_bind
  refine wp_mono (uninitMove_spec (x := v) (middle - first) first middle buff s (by omega)
    (fun k a b => hh k a (by omega)) hr) ?_
  rintro ptr s1 ⟨ep, a1, a2, a3, a4, a5, a6⟩
  subst ep
  apply wp_bind
  have hA : HMAddr id id buff (buff + (middle - first)) first last :=
    ⟨fun j k _ _ _ _ e => e, fun j k _ _ _ _ e => e, fun j k p1 p2 p3 p4 e => by
      have : j = k := e
      have := hdis k p3 p4; omega⟩
  have hI : HMInv id id buff (buff + (middle - first)) middle last first
      (fun k => v (first + (k - buff))) v s1.cell := by
    refine ⟨a2, fun k p q => ?_, fun k p q => Or.inl (a1 k p q), by omega⟩
    rw [show id k = k from rfl, a3 k (by omega) (hdis k (by omega) q)]
    exact hh k (by omega) q
  refine wp_mono (halfInplaceMerge_spec (lt := lt) hA (n := minLen) (by omega) (by omega) hI) ?_
  rintro _ s2 ⟨z, hz⟩
  rw [show buff + (middle - first) - buff = middle - first by omega]
  refine wp_mono (destroyN_spec (middle - first) buff s2
    (fun k p q => Or.inl (hz.buf k p q))) ?_
  rintro _ s3 ⟨b1, b2, b3, b4, b5⟩
  have hL : lst (fun k => v (first + (k - buff))) buff (buff + (middle - first)) =
      lst v first middle := by
    apply List.ext_getElem
    · simp
    · intro i p q
      rw [lst_getElem, lst_getElem]; congr 1; omega
  have hm := hz.merged
  rw [hL] at hm
  have hss : SSorted lt (lst v first last) (lst z first last) := by
    rw [hm, lst_append h1 h2]
    exact mergeL_ssorted hlt _ _ (sortedOn_iff.1 hs1) (sortedOn_iff.1 hs2)
  let v' : Nat → α := fun i => if first ≤ i ∧ i < last then z i else v i
  have ev : lst v' first last = lst z first last := lst_congr fun i p q => if_pos ⟨p, q⟩
  rw [← ev] at hss
  obtain ⟨q1, q2⟩ := hss.sperm (fun i hi => if_neg (by omega))
  refine ⟨v', ⟨fun k p q => ?_, q1, ⟨fun k hk => ?_, ?_⟩⟩, q2⟩
  · rw [b2 k (hdis k p q), show v' k = z k from if_pos ⟨p, q⟩]
    exact hz.out k p q
  · by_cases hb : buff ≤ k ∧ k < buff + (middle - first)
    · rw [b1 k hb.1 hb.2, hr k hb.1 hb.2]
    · rw [b2 k (by omega), hz.other k (fun j p q => by simp; omega) (fun j p q => by simp; omega),
        a3 k (by omega) (by omega)]
  · exact EnvLe.of_env (b3.trans (hz.brk.trans a4))

theorem rev_inj {N j k : Nat} (hj : j < N) (hk : k < N) (h : rev N j = rev N k) : j = k := by
  unfold rev at h; omega

/-- A stable merge with the right part in the buffer, running backwards. -/
theorem rightBuffered_spec (hlt : StrictWeak lt) {first middle last buff : Nat} {s : St α}
    {v : Nat → α} (h1 : first ≤ middle) (h2 : middle ≤ last) (hh : Holds s.cell first last v)
    (hs1 : SortedOn lt first middle v) (hs2 : SortedOn lt middle last v)
    (hr : RawBuf s.cell buff (last - middle)) {minLen : Nat} (hm1 : minLen ≤ last - middle)
    (hm2 : minLen ≤ middle - first) :
    wp (do
      let ptr ← uninitMove middle last buff
      halfInplaceMerge (flipC (tick lt)) (rev ptr) (rev last) 0 (ptr - buff) (last - middle)
        (last - first) 0 minLen
      destroyN buff (ptr - buff)) (fun _ s' => ∃ v',
        SUpd lt first last s s' v v' ∧ SortedOn lt first last v') s := by
  have hdis := hr.disj hh
  apply wp_bind
  refine wp_mono (uninitMove_spec (x := v) (last - middle) middle last buff s (by omega)
    (fun k a b => hh k (by omega) b) hr) ?_
  rintro ptr s1 ⟨ep, a1, a2, a3, a4, a5, a6⟩
  subst ep
  apply wp_bind
  rw [show buff + (last - middle) - buff = last - middle by omega]
  have hA : HMAddr (rev (buff + (last - middle))) (rev last) 0 (last - middle) 0 (last - first) := by
    refine ⟨fun j k _ p _ q e => ?_, fun j k _ p _ q e => ?_, fun j k _ p _ q e => ?_⟩
    · exact rev_inj (by omega) (by omega) e
    · exact rev_inj (by omega) (by omega) e
    · unfold rev at e
      have := hdis (last - 1 - k) (by omega) (by omega); omega
  have hI : HMInv (rev (buff + (last - middle))) (rev last) 0 (last - middle) (last - middle)
      (last - first) 0 (fun k => v (last - 1 - k)) (fun k => v (last - 1 - k)) s1.cell := by
    refine ⟨fun k p q => ?_, fun k p q => ?_, fun k p q => Or.inl ?_, by omega⟩
    · unfold rev
      rw [a2 _ (by omega) (by omega)]; congr 2; omega
    · unfold rev
      rw [a3 _ (by omega) (hdis _ (by omega) (by omega))]
      exact hh _ (by omega) (by omega)
    · unfold rev
      exact a1 _ (by omega) (by omega)
  have ef : flipC (tick lt) = tick (fun x y => lt y x) := rfl
  rw [ef]
  refine wp_mono (halfInplaceMerge_spec (lt := fun x y => lt y x) hA (n := minLen) (by omega)
    (by omega) hI) ?_
  rintro _ s2 ⟨z, hz⟩
  refine wp_mono (destroyN_spec (last - middle) buff s2 (fun k p q => Or.inl ?_)) ?_
  · have := hz.buf (buff + (last - middle) - 1 - k) (by omega) (by omega)
    unfold rev at this
    rwa [show buff + (last - middle) - 1 - (buff + (last - middle) - 1 - k) = k by omega] at this
  rintro _ s3 ⟨b1, b2, b3, b4, b5⟩
  have hm := hz.merged
  have e1 : lst (fun k => v (last - 1 - k)) 0 (last - middle) = (lst v middle last).reverse := by
    rw [← lst_reverse (Nat.le_refl last), Nat.sub_self]
  have e2 : lst (fun k => v (last - 1 - k)) (last - middle) (last - first) =
      (lst v first middle).reverse := by
    rw [← lst_reverse h2]
  rw [e1, e2] at hm
  have hss := mergeL_ssorted hlt.flip (lst v middle last).reverse (lst v first middle).reverse
    (by unfold SortedList; rw [List.pairwise_reverse]; exact sortedOn_iff.1 hs2)
    (by unfold SortedList; rw [List.pairwise_reverse]; exact sortedOn_iff.1 hs1)
  rw [← hm] at hss
  have hss2 := hss.reverse
  rw [List.reverse_append, List.reverse_reverse, List.reverse_reverse, ← lst_append h1 h2] at hss2
  let v' : Nat → α := fun i => if first ≤ i ∧ i < last then z (last - 1 - i) else v i
  have ev : lst v' first last = (lst z 0 (last - first)).reverse := by
    have e3 := lst_reverse (v := z) (f := 0) (l := last - first) (N := last - first) (Nat.le_refl _)
    rw [← e3, Nat.sub_self]
    apply List.ext_getElem
    · simp
    · intro i p q
      simp only [lst_length] at p q
      rw [lst_getElem, lst_getElem, show v' (first + i) = z (last - 1 - (first + i)) from
        if_pos (by omega)]
      congr 1; omega
  rw [← ev] at hss2
  obtain ⟨q1, q2⟩ := hss2.sperm (fun i hi => if_neg (by omega))
  refine ⟨v', ⟨fun k p q => ?_, q1, ⟨fun k hk => ?_, ?_⟩⟩, q2⟩
  · rw [b2 k (hdis k p q), show v' k = z (last - 1 - k) from if_pos ⟨p, q⟩]
    have := hz.out (last - 1 - k) (by omega) (by omega)
    unfold rev at this
    rwa [show last - 1 - (last - 1 - k) = k by omega] at this
  · by_cases hb : buff ≤ k ∧ k < buff + (last - middle)
    · rw [b1 k hb.1 hb.2, hr k hb.1 hb.2]
    · rw [b2 k (by omega), hz.other k (fun j p q => by unfold rev; omega)
        (fun j p q => by unfold rev; omega), a3 k (by omega) (by omega)]
  · exact EnvLe.of_env (b3.trans (hz.brk.trans a4))

theorem bufferedInplaceMerge_spec (hlt : StrictWeak lt) {first middle last buff : Nat} {s : St α}
    {v : Nat → α} (h1 : first ≤ middle) (h2 : middle ≤ last) (hh : Holds s.cell first last v)
    (hs1 : SortedOn lt first middle v) (hs2 : SortedOn lt middle last v)
    (hr : RawBuf s.cell buff (min (middle - first) (last - middle))) :
    wp (bufferedInplaceMerge (tick lt) first middle last (middle - first) (last - middle) buff)
      (fun _ s' => ∃ v', SUpd lt first last s s' v v' ∧ SortedOn lt first last v') s := by
  unfold bufferedInplaceMerge
  split
  · rename_i h
    rw [Nat.min_eq_left h] at hr
    exact leftBuffered_spec hlt h1 h2 hh rfl (Or.inr trivial) hs1 hs2 hr (Nat.le_refl _) h
  · rename_i h
    rw [Nat.min_eq_right (by omega)] at hr
    exact rightBuffered_spec hlt h1 h2 hh hs1 hs2 hr (Nat.le_refl _) (by omega)

end CppSort
