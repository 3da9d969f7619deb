import Verif.Proof.PdqPart
import Verif.Proof.PdqBlockCost
set_option autoImplicit false

namespace CppSort
variable {α : Type} {lt : α → α → Bool}

theorem wp_getOffset {o : Offsets} {k i : Nat} {Q : Nat → St α → Prop} {s : St α}
    (h1 : o k = some i) (h2 : k < 64) (hQ : Q i s) : wp (getOffset o k) Q s := by
  unfold getOffset
  rw [h1]
  simp only [h2, if_true]
  exact wp_pure hQ

theorem wp_setOffset {o : Offsets} {k i : Nat} {Q : Offsets → St α → Prop} {s : St α}
    (h2 : k < 64) (hQ : Q (fun j => if j = k then some i else o j) s) :
    wp (setOffset o k i) Q s := by
  unfold setOffset
  rw [if_pos h2]
  exact wp_pure hQ

/-- The elements of `[b, f)` that are not below the pivot are in positions `p 0 < p 1 < ...`. -/
structure PendL (lt : α → α → Bool) (x : α) (b f n : Nat) (p : Nat → Nat) (v : Nat → α) : Prop where
  mono : ∀ i j, i < j → j < n → p i < p j
  lo : ∀ i, i < n → b ≤ p i
  hi : ∀ i, i < n → p i < f
  bad : ∀ i, i < n → lt (v (p i)) x = false
  ok : ∀ q, b ≤ q → q < f → lt (v q) x = true ∨ ∃ i, i < n ∧ q = p i

/-- The elements of `[l, e)` that are below the pivot are in positions `p 0 > p 1 > ...`. -/
structure PendR (lt : α → α → Bool) (x : α) (l e n : Nat) (p : Nat → Nat) (v : Nat → α) : Prop where
  anti : ∀ i j, i < j → j < n → p j < p i
  lo : ∀ i, i < n → l ≤ p i
  hi : ∀ i, i < n → p i < e
  bad : ∀ i, i < n → lt (v (p i)) x = true
  ok : ∀ q, l ≤ q → q < e → lt (v q) x = false ∨ ∃ i, i < n ∧ q = p i

/-- The array gives the positions. -/
def OffL (o : Offsets) (base start n : Nat) (p : Nat → Nat) : Prop :=
  start + n ≤ 64 ∧ ∀ i, i < n → o (start + i) = some (p i - base) ∧ base ≤ p i

def OffR (o : Offsets) (base start n : Nat) (p : Nat → Nat) : Prop :=
  start + n ≤ 64 ∧ ∀ i, i < n → o (start + i) = some (base - p i) ∧ p i < base

/-- Conclusion of `swap_offsets`: the pairs `i ≤ j < i + n` are exchanged. -/
structure Exch (lt : α → α → Bool) (x : α) (i n : Nat) (pl pr : Nat → Nat) (v v' : Nat → α) :
    Prop where
  left : ∀ j, i ≤ j → j < i + n → lt (v' (pl j)) x = true
  right : ∀ j, i ≤ j → j < i + n → lt (v' (pr j)) x = false
  other : ∀ q, (∀ j, i ≤ j → j < i + n → q ≠ pl j ∧ q ≠ pr j) → v' q = v q

section
variable {b f l e N : Nat} {x : α} {pl pr : Nat → Nat} {baseL baseR startL startR : Nat}
  {offL offR : Offsets}
  (hfl : f ≤ l) (hoL : OffL offL baseL startL N pl) (hoR : OffR offR baseR startR N pr)
  (hmL : ∀ i j, i < j → j < N → pl i < pl j) (hmR : ∀ i j, i < j → j < N → pr j < pr i)
  (hL : ∀ i, i < N → b ≤ pl i ∧ pl i < f) (hR : ∀ i, i < N → l ≤ pr i ∧ pr i < e)
include hfl hoL hoR hmL hmR hL hR

theorem swapOffsetsSwap_spec : ∀ (n i : Nat) (s : St α) (v : Nat → α), i + n = N →
    Holds s.cell b e v → (∀ j, i ≤ j → j < N → lt (v (pl j)) x = false) →
    (∀ j, i ≤ j → j < N → lt (v (pr j)) x = true) →
    wp (swapOffsetsSwap baseL baseR startL startR offL offR n i) (fun _ s' => ∃ v',
      Upd b e s s' v v' ∧ Exch lt x i n pl pr v v') s := by
  intro n
  induction n with
  | zero =>
    intro i s v hn hh hbL hbR
    rw [swapOffsetsSwap]
    exact wp_pure ⟨v, Upd.refl hh, fun j _ _ => by omega, fun j _ _ => by omega, fun _ _ => rfl⟩
  | succ n ih =>
    intro i s v hn hh hbL hbR
    rw [swapOffsetsSwap]
    obtain ⟨l1, l2⟩ := hoL.2 i (by omega)
    obtain ⟨r1, r2⟩ := hoR.2 i (by omega)
    have := hoL.1
    have := hoR.1
    have hl := hL i (by omega)
    have hr := hR i (by omega)
    apply wp_bind
    refine wp_getOffset l1 (by omega) ?_
    apply wp_bind
    refine wp_getOffset r1 (by omega) ?_
    rw [show baseL + (pl i - baseL) = pl i by omega, show baseR - (baseR - pr i) = pr i by omega]
    apply wp_bind
    refine wp_swap (v := v) (f := b) (l := e) hh (by omega) (by omega) ?_
    intro s1 u1
    have neq : ∀ j, i < j → j < N → pl j ≠ pl i ∧ pl j ≠ pr i ∧ pr j ≠ pl i ∧ pr j ≠ pr i := by
      intro j a c
      have h1 := hmL i j a c
      have h2 := hmR i j a c
      have h3 := hL j c
      have h4 := hR j c
      omega
    refine wp_mono (ih (i + 1) s1 _ (by omega) u1.holds ?_ ?_) ?_
    · intro j a c
      have := neq j (by omega) c
      rw [swp_o (by omega) (by omega)]; exact hbL j (by omega) c
    · intro j a c
      have := neq j (by omega) c
      rw [swp_o (by omega) (by omega)]; exact hbR j (by omega) c
    · rintro _ s2 ⟨v2, u2, x2⟩
      have ho : v2 (pl i) = v (pr i) ∧ v2 (pr i) = v (pl i) := by
        constructor
        · rw [x2.other _ fun j a c => ?_, swp_l rfl]
          have := neq j (by omega) (by omega); omega
        · rw [x2.other _ fun j a c => ?_, swp_r rfl]
          have := neq j (by omega) (by omega); omega
      refine ⟨v2, u1.trans u2, fun j a c => ?_, fun j a c => ?_, fun q hq => ?_⟩
      · by_cases ej : j = i
        · rw [ej, ho.1]; exact hbR i (by omega) (by omega)
        · exact x2.left j (by omega) (by omega)
      · by_cases ej : j = i
        · rw [ej, ho.2]; exact hbL i (by omega) (by omega)
        · exact x2.right j (by omega) (by omega)
      · have := hq i (by omega) (by omega)
        rw [x2.other q fun j a c => hq j (by omega) (by omega), swp_o (by omega) (by omega)]

theorem swapOffsetsCycle_spec : ∀ (n i : Nat) (s : St α) (v : Nat → α), i + n = N → 0 < i →
    HoldsX s.cell b e (pr (i - 1)) v → lt (v (pr (i - 1))) x = false →
    (∀ j, i ≤ j → j < N → lt (v (pl j)) x = false) →
    (∀ j, i ≤ j → j < N → lt (v (pr j)) x = true) →
    wp (swapOffsetsCycle baseL baseR startL startR offL offR n i (pr (i - 1))) (fun r s' => ∃ v',
      HoldsX s'.cell b e r v' ∧ v' r = v (pr (i - 1)) ∧ PermOn b e v v' ∧ Frame b e s s' ∧
      lt (v' (pr (i - 1))) x = false ∧
      (∀ j, i ≤ j → j < N → lt (v' (pl j)) x = true) ∧
      (∀ j, i ≤ j → j < N → lt (v' (pr j)) x = false) ∧
      (∀ q, q ≠ pr (i - 1) → (∀ j, i ≤ j → j < N → q ≠ pl j ∧ q ≠ pr j) → v' q = v q)) s := by
  intro n
  induction n with
  | zero =>
    intro i s v hn h0 hx hbr hbL hbR
    rw [swapOffsetsCycle]
    exact wp_pure ⟨v, hx, rfl, PermOn.refl _ _ _, Frame.refl _ _ _, hbr, fun j _ _ => by omega,
      fun j _ _ => by omega, fun _ _ _ => rfl⟩
  | succ n ih =>
    intro i s v hn h0 hx hbr hbL hbR
    rw [swapOffsetsCycle]
    obtain ⟨l1, l2⟩ := hoL.2 i (by omega)
    obtain ⟨r1, r2⟩ := hoR.2 i (by omega)
    have := hoL.1
    have := hoR.1
    have hl := hL i (by omega)
    have hr := hR i (by omega)
    have hr' := hR (i - 1) (by omega)
    have hrr := hmR (i - 1) i (by omega) (by omega)
    apply wp_bind
    refine wp_getOffset l1 (by omega) ?_
    rw [show baseL + (pl i - baseL) = pl i by omega]
    apply wp_bind
    refine wp_moveTo hx (by omega) (by omega) (by omega) ?_
    intro s1 hx1 fr1 _ _
    apply wp_bind
    refine wp_getOffset r1 (by omega) ?_
    rw [show baseR - (baseR - pr i) = pr i by omega]
    apply wp_bind
    refine wp_moveTo hx1 (i := pr i) (by omega) (by omega) (by omega) ?_
    intro s2 hx2 fr2 _ _
    generalize hw : swp (swp v (pr (i - 1)) (pl i)) (pl i) (pr i) = w at hx2
    have w1 : w (pr (i - 1)) = v (pl i) := by
      rw [← hw, swp_o (by omega) (by omega), swp_l rfl]
    have w2 : w (pl i) = v (pr i) := by
      rw [← hw, swp_l rfl, swp_o (by omega) (by omega)]
    have w3 : w (pr i) = v (pr (i - 1)) := by
      rw [← hw, swp_r rfl, swp_r rfl]
    have w4 : ∀ q, q ≠ pr (i - 1) → q ≠ pl i → q ≠ pr i → w q = v q := by
      intro q a c d
      rw [← hw, swp_o c d, swp_o a c]
    have wp0 : PermOn b e v w := by
      rw [← hw]
      exact (PermOn.swp (by omega) (by omega)).trans (PermOn.swp (by omega) (by omega))
    have neq : ∀ j, i < j → j < N → (pl j ≠ pl i ∧ pl j ≠ pr i ∧ pr j ≠ pl i ∧ pr j ≠ pr i) ∧
        pl j ≠ pr (i - 1) ∧ pr j ≠ pr (i - 1) := by
      intro j a c
      have h1 := hmL i j a c
      have h2 := hmR i j a c
      have h3 := hL j c
      have h4 := hR j c
      omega
    have ih' := ih (i + 1) s2 w (by omega) (by omega)
    rw [show i + 1 - 1 = i by omega] at ih'
    refine wp_mono (ih' hx2 (by rw [w3]; exact hbr) ?_ ?_) ?_
    · intro j a c
      have := neq j (by omega) c
      rw [w4 _ (by omega) (by omega) (by omega)]; exact hbL j (by omega) c
    · intro j a c
      have := neq j (by omega) c
      rw [w4 _ (by omega) (by omega) (by omega)]; exact hbR j (by omega) c
    · rintro r s3 ⟨v3, a1, a2, a3, a4, a5, a6, a7, a8⟩
      refine ⟨v3, a1, by rw [a2, w3], wp0.trans a3, (fr1.trans fr2).trans a4, ?_, fun j a c => ?_,
        fun j a c => ?_, fun q h1 hq => ?_⟩
      · rw [a8 _ (by omega) fun j a c => ?_, w1]
        · exact hbL i (by omega) (by omega)
        · have := neq j (by omega) c; omega
      · by_cases ej : j = i
        · rw [ej, a8 _ (by omega) fun j a c => ?_, w2]
          · exact hbR i (by omega) (by omega)
          · have := neq j (by omega) c; omega
        · exact a6 j (by omega) (by omega)
      · by_cases ej : j = i
        · rw [ej]; exact a5
        · exact a7 j (by omega) c
      · have := hq i (by omega) (by omega)
        rw [a8 q (by omega) fun j a c => hq j (by omega) c, w4 q (by omega) (by omega) (by omega)]

theorem swapOffsets_spec (sw : Bool) {s : St α} {v : Nat → α} (hh : Holds s.cell b e v)
    (hbL : ∀ j, j < N → lt (v (pl j)) x = false) (hbR : ∀ j, j < N → lt (v (pr j)) x = true) :
    wp (swapOffsets baseL baseR startL startR offL offR N sw) (fun _ s' => ∃ v',
      Upd b e s s' v v' ∧ Exch lt x 0 N pl pr v v') s := by
  unfold swapOffsets
  split
  · exact swapOffsetsSwap_spec hfl hoL hoR hmL hmR hL hR N 0 s v (by omega) hh
      (fun j _ h => hbL j h) (fun j _ h => hbR j h)
  · split
    · obtain ⟨l1, l2⟩ := hoL.2 0 (by omega)
      obtain ⟨r1, r2⟩ := hoR.2 0 (by omega)
      have := hoL.1
      have := hoR.1
      have hl := hL 0 (by omega)
      have hr := hR 0 (by omega)
      rw [Nat.add_zero] at l1 r1
      apply wp_bind
      refine wp_getOffset l1 (by omega) ?_
      apply wp_bind
      refine wp_getOffset r1 (by omega) ?_
      rw [show baseL + (pl 0 - baseL) = pl 0 by omega, show baseR - (baseR - pr 0) = pr 0 by omega]
      apply wp_bind
      refine wp_moveOut hh (i := pl 0) (by omega) (by omega) ?_
      intro s1 hx1 fr1 _ _
      apply wp_bind
      refine wp_moveTo hx1 (i := pr 0) (by omega) (by omega) (by omega) ?_
      intro s2 hx2 fr2 _ _
      have neq : ∀ j, 0 < j → j < N → pl j ≠ pl 0 ∧ pl j ≠ pr 0 ∧ pr j ≠ pl 0 ∧ pr j ≠ pr 0 := by
        intro j a c
        have h1 := hmL 0 j a c
        have h2 := hmR 0 j a c
        have h3 := hL j c
        have h4 := hR j c
        omega
      apply wp_bind
      have := swapOffsetsCycle_spec (lt := lt) (x := x) hfl hoL hoR hmL hmR hL hR (N - 1) 1 s2
        (swp v (pl 0) (pr 0)) (by omega) (by omega) hx2
        (by rw [swp_r rfl]; exact hbL 0 (by omega))
        (fun j a c => by
          have := neq j (by omega) c
          rw [swp_o (by omega) (by omega)]; exact hbL j c)
        (fun j a c => by
          have := neq j (by omega) c
          rw [swp_o (by omega) (by omega)]; exact hbR j c)
      refine wp_mono this ?_
      rintro r s3 ⟨v3, a1, a2, a3, a4, a5, a6, a7, a8⟩
      rw [show 1 - 1 = 0 from rfl] at a2 a5 a8
      refine wp_assign a1 (by rw [a2, swp_r rfl]) ?_
      intro s4 hh4 fr4 _ _
      refine ⟨v3, ⟨hh4, (PermOn.swp (by omega) (by omega)).trans a3,
        ((fr1.trans fr2).trans a4).trans fr4⟩, fun j a c => ?_, fun j a c => ?_, fun q hq => ?_⟩
      · by_cases ej : j = 0
        · rw [ej, a8 _ (by omega) fun j a c => ?_, swp_l rfl]
          · exact hbR 0 (by omega)
          · have := neq j (by omega) c; omega
        · exact a6 j (by omega) (by omega)
      · by_cases ej : j = 0
        · rw [ej]; exact a5
        · exact a7 j (by omega) (by omega)
      · have := hq 0 (by omega) (by omega)
        rw [a8 q (by omega) fun j a c => hq j (by omega) (by omega), swp_o (by omega) (by omega)]
    · refine wp_pure ⟨v, Upd.refl hh, fun j _ _ => by omega, fun j _ _ => by omega, fun _ _ => rfl⟩
end

/-- Filling the left block, from an empty one. -/
theorem fillLeft_spec {x : α} {b e base : Nat} {s0 : St α} {v : Nat → α}
    (hh : Holds s0.cell b e v) (hb : b ≤ base) :
    ∀ (n i : Nat) (o : Offsets) (num k : Nat) (pl : Nat → Nat), i + n ≤ 64 → base + i + n ≤ e →
    num ≤ i → OffL o base 0 num pl → PendL lt x b (base + i) num pl v →
    wp (fillLeft (tick lt) x n i o num (base + i)) (fun r s' => (∃ k', s' = { s0 with cmps := k' }) ∧
      r.2.2 = base + i + n ∧ ∃ pl', OffL r.1 base 0 r.2.1 pl' ∧
        PendL lt x b (base + i + n) r.2.1 pl' v) { s0 with cmps := k } := by
  intro n
  induction n with
  | zero =>
    intro i o num k pl h1 h2 h3 ho hp
    rw [fillLeft]
    exact wp_pure ⟨⟨k, rfl⟩, rfl, pl, ho, hp⟩
  | succ n ih =>
    intro i o num k pl h1 h2 h3 ho hp
    rw [fillLeft]
    apply wp_bind
    refine wp_setOffset (by omega) ?_
    apply wp_bind
    refine wp_mono (tests_notBelow (lt := lt) hh x k (base + i) (by omega) (by omega)) ?_
    rintro _ _ ⟨rfl, k', rfl⟩
    by_cases hc : lt (v (base + i)) x = true
    · have ih' := ih (i + 1) (fun j => if j = num then some i else o j) num (k + 1) pl (by omega) (by omega) (by omega) ?_ ?_
      · simp only [hc, Bool.not_true, Bool.false_eq_true, if_false]
        refine wp_mono ih' ?_
        rintro r s' ⟨a, c, d⟩
        refine ⟨a, by omega, ?_⟩
        rw [show base + i + (n + 1) = base + (i + 1) + n by omega]; exact d
      · refine ⟨by omega, fun j hj => ?_⟩
        have := ho.2 j hj
        simp only
        rw [if_neg (by omega)]; exact this
      · refine ⟨hp.mono, hp.lo, fun j hj => by have := hp.hi j hj; omega, hp.bad, fun q a c => ?_⟩
        by_cases hq : q = base + i
        · left; rw [hq]; exact hc
        · exact hp.ok q a (by omega)
    · have hc' : lt (v (base + i)) x = false := by simpa using hc
      have ih' := ih (i + 1) (fun j => if j = num then some i else o j) (num + 1) (k + 1)
        (fun j => if j = num then base + i else pl j) (by omega) (by omega) (by omega) ?_ ?_
      · simp only [hc', Bool.not_false, if_true]
        refine wp_mono ih' ?_
        rintro r s' ⟨a, c, d⟩
        refine ⟨a, by omega, ?_⟩
        rw [show base + i + (n + 1) = base + (i + 1) + n by omega]; exact d
      · refine ⟨by omega, fun j hj => ?_⟩
        simp only [Nat.zero_add]
        by_cases ej : j = num
        · rw [if_pos ej, if_pos ej]
          exact ⟨by rw [Nat.add_sub_cancel_left], by omega⟩
        · have := ho.2 j (by omega)
          rw [if_neg ej, if_neg ej]
          simpa using this
      · refine ⟨fun j1 j2 h1 h2 => ?_, fun j hj => ?_, fun j hj => ?_, fun j hj => ?_,
          fun q a c => ?_⟩
        · rw [if_neg (by omega)]
          split
          · have := hp.hi j1 (by omega); omega
          · exact hp.mono j1 j2 h1 (by omega)
        · split
          · omega
          · exact hp.lo j (by omega)
        · split
          · omega
          · have := hp.hi j (by omega); omega
        · split
          · exact hc'
          · exact hp.bad j (by omega)
        · by_cases hq : q = base + i
          · right; exact ⟨num, by omega, by simp [hq]⟩
          · rcases hp.ok q a (by omega) with h | ⟨j, h4, h5⟩
            · exact Or.inl h
            · right
              refine ⟨j, by omega, ?_⟩
              rw [if_neg (by omega)]; exact h5

theorem fillRight_spec {x : α} {b e base : Nat} {s0 : St α} {v : Nat → α}
    (hh : Holds s0.cell b e v) (hb : base ≤ e) :
    ∀ (n i : Nat) (o : Offsets) (num k : Nat) (pr : Nat → Nat), i + n ≤ 64 → b + i + n ≤ base →
    num ≤ i → OffR o base 0 num pr → PendR lt x (base - i) e num pr v →
    wp (fillRight (tick lt) x n i o num (base - i)) (fun r s' => (∃ k', s' = { s0 with cmps := k' }) ∧
      r.2.2 = base - i - n ∧ ∃ pr', OffR r.1 base 0 r.2.1 pr' ∧
        PendR lt x (base - i - n) e r.2.1 pr' v) { s0 with cmps := k } := by
  intro n
  induction n with
  | zero =>
    intro i o num k pr h1 h2 h3 ho hp
    rw [fillRight]
    exact wp_pure ⟨⟨k, rfl⟩, rfl, pr, ho, hp⟩
  | succ n ih =>
    intro i o num k pr h1 h2 h3 ho hp
    rw [fillRight]
    apply wp_bind
    refine wp_setOffset (by omega) ?_
    apply wp_bind
    refine wp_mono (tests_below (lt := lt) hh x k (base - i - 1) (by omega) (by omega)) ?_
    rintro _ _ ⟨rfl, k', rfl⟩
    rw [show base - i - (n + 1) = base - (i + 1) - n by omega]
    rw [show base - i - 1 = base - (i + 1) by omega]
    by_cases hc : lt (v (base - (i + 1))) x = true
    · simp only [hc, if_true]
      refine ih (i + 1) (fun j => if j = num then some (i + 1) else o j) (num + 1) (k + 1)
        (fun j => if j = num then base - (i + 1) else pr j) (by omega) (by omega) (by omega) ?_ ?_
      · refine ⟨by omega, fun j hj => ?_⟩
        simp only [Nat.zero_add]
        by_cases ej : j = num
        · rw [if_pos ej, if_pos ej]
          exact ⟨by congr 1; omega, by omega⟩
        · have := ho.2 j (by omega)
          rw [if_neg ej, if_neg ej]
          simpa using this
      · refine ⟨fun j1 j2 h1 h2 => ?_, fun j hj => ?_, fun j hj => ?_, fun j hj => ?_,
          fun q a c => ?_⟩
        · rw [if_neg (show j1 ≠ num by omega)]
          split
          · have := hp.lo j1 (by omega); omega
          · exact hp.anti j1 j2 h1 (by omega)
        · split
          · omega
          · have := hp.lo j (by omega); omega
        · split
          · omega
          · exact hp.hi j (by omega)
        · split
          · exact hc
          · exact hp.bad j (by omega)
        · by_cases hq : q = base - (i + 1)
          · right; exact ⟨num, by omega, by simp [hq]⟩
          · rcases hp.ok q (by omega) c with h | ⟨j, h4, h5⟩
            · exact Or.inl h
            · right
              refine ⟨j, by omega, ?_⟩
              rw [if_neg (by omega)]; exact h5
    · simp only [hc, Bool.false_eq_true, if_false]
      refine ih (i + 1) (fun j => if j = num then some (i + 1) else o j) num (k + 1) pr (by omega)
        (by omega) (by omega) ?_ ?_
      · refine ⟨by omega, fun j hj => ?_⟩
        have := ho.2 j hj
        simp only
        rw [if_neg (by omega)]; exact this
      · refine ⟨hp.anti, fun j hj => by have := hp.lo j hj; omega, hp.hi, hp.bad, fun q a c => ?_⟩
        by_cases hq : q = base - (i + 1)
        · left; rw [hq]; simpa using hc
        · exact hp.ok q (by omega) c

/-- Invariant of the block loop. -/
structure BInv (lt : α → α → Bool) (x : α) (b e : Nat) (k : Blk) (v : Nat → α) : Prop where
  lo : b ≤ k.first
  mid : k.first ≤ k.last
  hi : k.last ≤ e
  left : ∃ pl, OffL k.offL k.baseL k.startL k.numL pl ∧ PendL lt x b k.first k.numL pl v
  right : ∃ pr, OffR k.offR k.baseR k.startR k.numR pr ∧ PendR lt x k.last e k.numR pr v
  resetL : k.numL = 0 → k.startL = 0 ∧ k.baseL = k.first
  resetR : k.numR = 0 → k.startR = 0 ∧ k.baseR = k.last

theorem blkSwap_spec {x : α} {b e : Nat} {k : Blk} {s : St α} {v : Nat → α}
    (hh : Holds s.cell b e v) (lo : b ≤ k.first) (mid : k.first ≤ k.last) (hi : k.last ≤ e)
    (left : ∃ pl, OffL k.offL k.baseL k.startL k.numL pl ∧ PendL lt x b k.first k.numL pl v)
    (right : ∃ pr, OffR k.offR k.baseR k.startR k.numR pr ∧ PendR lt x k.last e k.numR pr v) :
    wp (blkSwap k) (fun k' s' => ∃ v', Upd b e s s' v v' ∧ BInv lt x b e k' v' ∧
      (k'.numL = 0 ∨ k'.numR = 0) ∧ k'.first = k.first ∧ k'.last = k.last) s := by
  obtain ⟨pl, ol, hl⟩ := left
  obtain ⟨pr, or, hr⟩ := right
  unfold blkSwap
  simp only
  generalize hnum : min k.numL k.numR = num
  have n1 : num ≤ k.numL := by omega
  have n2 : num ≤ k.numR := by omega
  have := ol.1
  have := or.1
  apply wp_bind
  refine wp_mono (swapOffsets_spec (lt := lt) (x := x) (b := b) (e := e) (pl := pl) (pr := pr)
    (N := num) mid
    ⟨by omega, fun i hi => ol.2 i (by omega)⟩ ⟨by omega, fun i hi => or.2 i (by omega)⟩
    (fun i j a c => hl.mono i j a (by omega)) (fun i j a c => hr.anti i j a (by omega))
    (fun i a => ⟨hl.lo i (by omega), hl.hi i (by omega)⟩)
    (fun i a => ⟨hr.lo i (by omega), hr.hi i (by omega)⟩) _ hh
    (fun j a => hl.bad j (by omega)) (fun j a => hr.bad j (by omega))) ?_
  rintro _ s' ⟨v', u, ex⟩
  have hsame : ∀ q, (∀ j, j < num → q ≠ pl j ∧ q ≠ pr j) → v' q = v q :=
    fun q hq => ex.other q fun j _ c => hq j (by omega)
  refine wp_pure ⟨v', u, ⟨lo, mid, hi, ⟨fun i => pl (i + num), ?_, ?_⟩,
    ⟨fun i => pr (i + num), ?_, ?_⟩, ?_, ?_⟩, ?_, rfl, rfl⟩
  · by_cases h0 : k.numL - num = 0
    · simp only [h0, if_true]
      exact ⟨by omega, fun i hi => by omega⟩
    · simp only [h0, if_false]
      refine ⟨by omega, fun i hi => ?_⟩
      have := ol.2 (i + num) (by omega)
      rwa [show k.startL + num + i = k.startL + (i + num) by omega]
  · refine ⟨fun i j a c => ?_, fun i a => ?_, fun i a => ?_, fun i a => ?_, fun q a c => ?_⟩
    · exact hl.mono _ _ (by omega) (by simp only at c; omega)
    · exact hl.lo _ (by simp only at a; omega)
    · exact hl.hi _ (by simp only at a; omega)
    · simp only at a
      rw [hsame _ fun j hj => ?_]
      · exact hl.bad _ (by omega)
      · have h1 := hl.mono j (i + num) (by omega) (by omega)
        have h2 := hr.lo j (by omega)
        have h3 := hl.hi (i + num) (by omega)
        omega
    · simp only at c
      by_cases hq : ∃ j, j < num ∧ q = pl j
      · obtain ⟨j, h1, rfl⟩ := hq
        exact Or.inl (ex.left j (Nat.zero_le _) (by omega))
      · rw [hsame q fun j hj => ?_]
        · rcases hl.ok q a c with h | ⟨i, h1, h2⟩
          · exact Or.inl h
          · right
            refine ⟨i - num, ?_, ?_⟩
            · have : ¬ i < num := fun h => hq ⟨i, h, h2⟩
              simp only; omega
            · have : ¬ i < num := fun h => hq ⟨i, h, h2⟩
              rw [show i - num + num = i by omega]; exact h2
        · refine ⟨fun e => hq ⟨j, hj, e⟩, ?_⟩
          have := hr.lo j (by omega)
          omega
  · by_cases h0 : k.numR - num = 0
    · simp only [h0, if_true]
      exact ⟨by omega, fun i hi => by omega⟩
    · simp only [h0, if_false]
      refine ⟨by omega, fun i hi => ?_⟩
      have := or.2 (i + num) (by omega)
      rwa [show k.startR + num + i = k.startR + (i + num) by omega]
  · refine ⟨fun i j a c => ?_, fun i a => ?_, fun i a => ?_, fun i a => ?_, fun q a c => ?_⟩
    · exact hr.anti _ _ (by omega) (by simp only at c; omega)
    · exact hr.lo _ (by simp only at a; omega)
    · exact hr.hi _ (by simp only at a; omega)
    · simp only at a
      rw [hsame _ fun j hj => ?_]
      · exact hr.bad _ (by omega)
      · have h1 := hr.anti j (i + num) (by omega) (by omega)
        have h2 := hl.hi j (by omega)
        have h3 := hr.lo (i + num) (by omega)
        omega
    · simp only at a
      by_cases hq : ∃ j, j < num ∧ q = pr j
      · obtain ⟨j, h1, rfl⟩ := hq
        exact Or.inl (ex.right j (Nat.zero_le _) (by omega))
      · rw [hsame q fun j hj => ?_]
        · rcases hr.ok q a c with h | ⟨i, h1, h2⟩
          · exact Or.inl h
          · right
            refine ⟨i - num, ?_, ?_⟩
            · have : ¬ i < num := fun h => hq ⟨i, h, h2⟩
              simp only; omega
            · have : ¬ i < num := fun h => hq ⟨i, h, h2⟩
              rw [show i - num + num = i by omega]; exact h2
        · refine ⟨?_, fun e => hq ⟨j, hj, e⟩⟩
          have := hl.hi j (by omega)
          omega
  · intro h; simp only at h; simp [h]
  · intro h; simp only at h; simp [h]
  · simp only; omega

theorem blkLoop_spec {x : α} {b e : Nat} : ∀ (n : Nat) (k : Blk) (s : St α) (v : Nat → α),
    k.last - k.first = n → Holds s.cell b e v → BInv lt x b e k v → (k.numL = 0 ∨ k.numR = 0) →
    wp (blkLoop (tick lt) x k) (fun k' s' => ∃ v', Upd b e s s' v v' ∧ BInv lt x b e k' v' ∧
      (k'.numL = 0 ∨ k'.numR = 0) ∧ k'.first = k'.last) s := by
  intro n
  induction n using Nat.strongRecOn with
  | _ n ih =>
    intro k s v hn hh hi hz
    have h1 := hi.lo
    have h2 := hi.mid
    have h3 := hi.hi
    rw [blkLoop]
    split
    · rename_i hlt'
      -- sizes
      have hsz : (splitSizes k).1 + (splitSizes k).2 ≤ k.last - k.first ∧
          0 < (splitSizes k).1 + (splitSizes k).2 ∧ (splitSizes k).1 ≤ 64 ∧ (splitSizes k).2 ≤ 64 ∧
          (k.numL ≠ 0 → (splitSizes k).1 = 0) ∧ (k.numR ≠ 0 → (splitSizes k).2 = 0) := by
        unfold splitSizes
        simp only
        split_ifs <;> omega
      obtain ⟨z1, z2, z3, z4, z5, z6⟩ := hsz
      generalize (splitSizes k).1 = zl at *
      generalize (splitSizes k).2 = zr at *
      apply wp_bind
      have hfl : wp (fillLeft (tick lt) x zl 0 k.offL k.numL k.first) (fun r s' =>
          (∃ k', s' = { s with cmps := k' }) ∧ r.2.2 = k.first + zl ∧ ∃ pl',
          OffL r.1 k.baseL k.startL r.2.1 pl' ∧ PendL lt x b (k.first + zl) r.2.1 pl' v) s := by
        obtain ⟨pl, ol, pl'⟩ := hi.left
        by_cases h0 : k.numL = 0
        · obtain ⟨r1, r2⟩ := hi.resetL h0
          rw [r1, r2] at ol
          have := fillLeft_spec (lt := lt) (x := x) (base := k.first) hh h1 zl 0 k.offL k.numL s.cmps pl
            (by omega) (by omega) (by omega) ol pl'
          rw [r1, r2]
          exact this
        · have hz0 := z5 h0
          subst hz0
          rw [fillLeft]
          exact wp_pure ⟨⟨s.cmps, rfl⟩, rfl, pl, ol, pl'⟩
      refine wp_mono hfl ?_
      rintro ⟨oL, nL, f'⟩ _ ⟨⟨c, rfl⟩, rfl, hL⟩
      simp only at hL
      apply wp_bind
      have hfr : wp (fillRight (tick lt) x zr 0 k.offR k.numR k.last) (fun r s' =>
          (∃ k', s' = { s with cmps := k' }) ∧ r.2.2 = k.last - zr ∧ ∃ pr',
          OffR r.1 k.baseR k.startR r.2.1 pr' ∧ PendR lt x (k.last - zr) e r.2.1 pr' v)
          { s with cmps := c } := by
        obtain ⟨pr, or, pr'⟩ := hi.right
        by_cases h0 : k.numR = 0
        · obtain ⟨r1, r2⟩ := hi.resetR h0
          rw [r1, r2] at or
          have := fillRight_spec (lt := lt) (x := x) (base := k.last) hh h3 zr 0 k.offR k.numR c pr
            (by omega) (by omega) (by omega) or pr'
          rw [r1, r2]
          exact this
        · have hz0 := z6 h0
          subst hz0
          rw [fillRight]
          exact wp_pure ⟨⟨c, rfl⟩, rfl, pr, or, pr'⟩
      refine wp_mono hfr ?_
      rintro ⟨oR, nR, l'⟩ _ ⟨⟨c', rfl⟩, rfl, hR⟩
      simp only at hR
      apply wp_bind
      refine wp_mono (blkSwap_spec (lt := lt) (x := x) (b := b) (e := e)
        (s := { s with cmps := c' }) hh (by simp only; omega) (by simp only; omega)
        (by simp only; omega) hL hR) ?_
      rintro k2 s2 ⟨v2, u2, i2, q1, q2, q3⟩
      simp only at q2 q3
      refine wp_mono (ih (k2.last - k2.first) (by omega) k2 s2 v2 rfl u2.holds i2 q1) ?_
      rintro k3 s3 ⟨v3, u3, i3⟩
      exact ⟨v3, u2.tick.trans u3, i3⟩
    · exact wp_pure ⟨v, Upd.refl hh, hi, hz, by omega⟩

theorem drainLeft_spec {x : α} {b e base start : Nat} {o : Offsets} {pl : Nat → Nat} :
    ∀ (n last : Nat) (s : St α) (v : Nat → α), Holds s.cell b e v → b ≤ last → last ≤ e →
    OffL o base start n pl → PendL lt x b last n pl v →
    (∀ q, last ≤ q → q < e → lt (v q) x = false) →
    wp (drainLeft base start o n last) (fun p s' => b ≤ p ∧ p ≤ e ∧ ∃ v', Upd b e s s' v v' ∧
      (∀ i, b ≤ i → i < p → lt (v' i) x = true) ∧
      (∀ i, p ≤ i → i < e → lt (v' i) x = false)) s := by
  intro n
  induction n with
  | zero =>
    intro last s v hh h1 h2 ho hp hr
    rw [drainLeft]
    refine wp_pure ⟨h1, h2, v, Upd.refl hh, fun i a c => ?_, hr⟩
    rcases hp.ok i a c with h | ⟨j, h, -⟩
    · exact h
    · omega
  | succ n ih =>
    intro last s v hh h1 h2 ho hp hr
    rw [drainLeft]
    obtain ⟨o1, o2⟩ := ho.2 n (by omega)
    have := ho.1
    have p1 := hp.lo n (by omega)
    have p2 := hp.hi n (by omega)
    apply wp_bind
    refine wp_getOffset o1 (by omega) ?_
    rw [show base + (pl n - base) = pl n by omega]
    apply wp_bind
    refine wp_swap (v := v) (f := b) (l := e) hh (by omega) (by omega) ?_
    intro s1 u1
    refine wp_mono (ih (last - 1) s1 _ u1.holds (by omega) (by omega)
      ⟨by omega, fun i hi => ho.2 i (by omega)⟩ ?_ ?_) ?_
    · refine ⟨fun i j a c => hp.mono i j a (by omega), fun i a => hp.lo i (by omega), fun i a => ?_,
        fun i a => ?_, fun q a c => ?_⟩
      · have := hp.mono i n a (by omega); omega
      · have := hp.mono i n a (by omega)
        rw [swp_o (by omega) (by omega)]; exact hp.bad i (by omega)
      · by_cases hq : q = pl n
        · left
          rw [swp_l hq]
          rcases hp.ok (last - 1) (by omega) (by omega) with h | ⟨i, h3, h4⟩
          · exact h
          · by_cases hi : i = n
            · subst hi; omega
            · have := hp.mono i n (by omega) (by omega); omega
        · rw [swp_o hq (by omega)]
          rcases hp.ok q a (by omega) with h | ⟨i, h3, h4⟩
          · exact Or.inl h
          · right
            refine ⟨i, ?_, h4⟩
            by_cases hi : i = n
            · subst hi; omega
            · omega
    · intro q a c
      by_cases hq : q = last - 1
      · rw [swp_r hq]; exact hp.bad n (by omega)
      · rw [swp_o (by omega) hq]; exact hr q (by omega) c
    · rintro p s2 ⟨a, c, v2, u2, h⟩
      exact ⟨a, c, v2, u1.trans u2, h⟩

theorem drainRight_spec {x : α} {b e base start : Nat} {o : Offsets} {pr : Nat → Nat} :
    ∀ (n first : Nat) (s : St α) (v : Nat → α), Holds s.cell b e v → b ≤ first → first ≤ e →
    OffR o base start n pr → PendR lt x first e n pr v →
    (∀ q, b ≤ q → q < first → lt (v q) x = true) →
    wp (drainRight base start o n first) (fun p s' => b ≤ p ∧ p ≤ e ∧ ∃ v', Upd b e s s' v v' ∧
      (∀ i, b ≤ i → i < p → lt (v' i) x = true) ∧
      (∀ i, p ≤ i → i < e → lt (v' i) x = false)) s := by
  intro n
  induction n with
  | zero =>
    intro first s v hh h1 h2 ho hp hr
    rw [drainRight]
    refine wp_pure ⟨h1, h2, v, Upd.refl hh, hr, fun i a c => ?_⟩
    rcases hp.ok i a c with h | ⟨j, h, -⟩
    · exact h
    · omega
  | succ n ih =>
    intro first s v hh h1 h2 ho hp hr
    rw [drainRight]
    obtain ⟨o1, o2⟩ := ho.2 n (by omega)
    have := ho.1
    have p1 := hp.lo n (by omega)
    have p2 := hp.hi n (by omega)
    apply wp_bind
    refine wp_getOffset o1 (by omega) ?_
    rw [show base - (base - pr n) = pr n by omega]
    apply wp_bind
    refine wp_swap (v := v) (f := b) (l := e) hh (by omega) (by omega) ?_
    intro s1 u1
    refine wp_mono (ih (first + 1) s1 _ u1.holds (by omega) (by omega)
      ⟨by omega, fun i hi => ho.2 i (by omega)⟩ ?_ ?_) ?_
    · refine ⟨fun i j a c => hp.anti i j a (by omega), fun i a => ?_, fun i a => hp.hi i (by omega),
        fun i a => ?_, fun q a c => ?_⟩
      · have := hp.anti i n a (by omega); omega
      · have := hp.anti i n a (by omega)
        rw [swp_o (by omega) (by omega)]; exact hp.bad i (by omega)
      · by_cases hq : q = pr n
        · left
          rw [swp_l hq]
          rcases hp.ok first (by omega) (by omega) with h | ⟨i, h3, h4⟩
          · exact h
          · by_cases hi : i = n
            · subst hi; omega
            · have := hp.anti i n (by omega) (by omega); omega
        · rw [swp_o hq (by omega)]
          rcases hp.ok q (by omega) c with h | ⟨i, h3, h4⟩
          · exact Or.inl h
          · right
            refine ⟨i, ?_, h4⟩
            by_cases hi : i = n
            · subst hi; omega
            · omega
    · intro q a c
      by_cases hq : q = first
      · rw [swp_r hq]; exact hp.bad n (by omega)
      · rw [swp_o (by omega) hq]; exact hr q (by omega) (by omega)
    · rintro p s2 ⟨a, c, v2, u2, h⟩
      exact ⟨a, c, v2, u1.trans u2, h⟩

theorem blkDrain_spec {x : α} {b e : Nat} {k : Blk} {s : St α} {v : Nat → α}
    (hh : Holds s.cell b e v) (hi : BInv lt x b e k v) (hz : k.numL = 0 ∨ k.numR = 0)
    (hfl : k.first = k.last) :
    wp (blkDrain k) (fun p s' => b ≤ p ∧ p ≤ e ∧ ∃ v', Upd b e s s' v v' ∧
      (∀ i, b ≤ i → i < p → lt (v' i) x = true) ∧
      (∀ i, p ≤ i → i < e → lt (v' i) x = false)) s := by
  obtain ⟨pl, ol, hl⟩ := hi.left
  obtain ⟨pr, or, hr⟩ := hi.right
  have h1 := hi.lo
  have h2 := hi.mid
  have h3 := hi.hi
  unfold blkDrain
  by_cases h0 : k.numL = 0
  · have hleft : ∀ q, b ≤ q → q < k.first → lt (v q) x = true := fun q a c => by
      rcases hl.ok q a c with h | ⟨j, h, -⟩
      · exact h
      · omega
    simp only [h0, ne_eq, not_true_eq_false, if_false, pure_bind]
    split
    · exact drainRight_spec _ _ s v hh h1 (by omega) or (by rw [hfl]; exact hr) hleft
    · refine wp_pure ⟨h1, by omega, v, Upd.refl hh, hleft, fun q a c => ?_⟩
      rcases hr.ok q (by omega) c with h | ⟨j, h, -⟩
      · exact h
      · omega
  · have hr0 : k.numR = 0 := by omega
    simp only [h0, hr0, ne_eq, not_true_eq_false, not_false_eq_true, if_true, if_false, bind_pure]
    refine drainLeft_spec _ _ s v hh (by omega) h3 ol (by rw [← hfl]; exact hl) fun q a c => ?_
    rcases hr.ok q a c with h | ⟨j, h, -⟩
    · exact h
    · omega

theorem branchlessLoop_spec {b e : Nat} {x : α} {p q : Nat} {s : St α} {v : Nat → α}
    (h1 : b < p) (h2 : p < e) (h3 : b < q) (h4 : q < e) (hh : Holds s.cell (b + 1) e v)
    (hA : ∀ i, b < i → i < p → lt (v i) x = true) (hB : lt (v p) x = false)
    (hC : ∀ i, q < i → i < e → lt (v i) x = false) (hD : lt (v q) x = true ∨ q ≤ p) :
    wp (branchlessLoop (tick lt) x p q) (fun p' s' => b < p' ∧ p' ≤ e ∧ ∃ v',
      Upd (b + 1) e s s' v v' ∧
      (∀ i, b < i → i < p' → lt (v' i) x = true) ∧
      (∀ i, p' ≤ i → i < e → lt (v' i) x = false)) s := by
  unfold branchlessLoop
  split
  · rename_i hpq
    have hq : lt (v q) x = true := by
      rcases hD with h | h
      · exact h
      · omega
    apply wp_bind
    refine wp_swap (v := v) (f := b + 1) (l := e) hh (by omega) (by omega) ?_
    intro s1 u1
    apply wp_bind
    refine wp_mono (blkLoop_spec (lt := lt) (x := x) (b := b + 1) (e := e) _ _ s1 _ rfl u1.holds ?_
      (Or.inl rfl)) ?_
    · refine ⟨by simp only; omega, by simp only; omega, by simp only; omega,
        ⟨fun _ => 0, ⟨by simp only; omega, fun i hi => by simp only at hi; omega⟩,
          fun i j a c => by simp only at c; omega, fun i a => by simp only at a; omega,
          fun i a => by simp only at a; omega, fun i a => by simp only at a; omega,
          fun r a c => Or.inl ?_⟩,
        ⟨fun _ => 0, ⟨by simp only; omega, fun i hi => by simp only at hi; omega⟩,
          fun i j a c => by simp only at c; omega, fun i a => by simp only at a; omega,
          fun i a => by simp only at a; omega, fun i a => by simp only at a; omega,
          fun r a c => Or.inl ?_⟩, fun _ => ⟨rfl, rfl⟩, fun _ => ⟨rfl, rfl⟩⟩
      · simp only at c
        by_cases hr : r = p
        · rw [swp_l hr]; exact hq
        · rw [swp_o hr (by omega)]; exact hA r (by omega) (by omega)
      · simp only at a
        by_cases hr : r = q
        · rw [swp_r hr]; exact hB
        · rw [swp_o (by omega) hr]; exact hC r (by omega) c
    · rintro k2 s2 ⟨v2, u2, i2, z2, e2⟩
      refine wp_mono (blkDrain_spec u2.holds i2 z2 e2) ?_
      rintro p' s3 ⟨a1, a2, v3, u3, a3⟩
      exact ⟨by omega, a2, v3, (u1.trans u2).trans u3, fun i c d => a3.1 i (by omega) d, a3.2⟩
  · refine wp_pure ⟨h1, by omega, v, Upd.refl hh, hA, fun i c d => ?_⟩
    by_cases e : i = p
    · rw [e]; exact hB
    · exact hC i (by omega) d

theorem partitionRightBranchless_spec {b e g : Nat} {s : St α} {v : Nat → α}
    (hh : Holds s.cell b e v) (hg : b < g) (hge : g < e) (hgx : lt (v g) (v b) = false) :
    wp (partitionRightBranchless (tick lt) b e) (fun r s' => s'.cmps ≤ s.cmps + (e - b) + 1 ∧
      ∃ v', Upd b e s s' v v' ∧ PRight lt b r.1 e v' (v b)) s := by
  unfold partitionRightBranchless
  apply wp_bind
  refine wp_moveOut hh (Nat.le_refl _) (by omega) ?_
  intro s1 hx fr hcx _
  have hh1 : Holds s1.cell (b + 1) e v := fun i h1 h2 => hx.1 i (by omega) h2 (by omega)
  apply wp_bind
  refine wp_mono (prScan_spec (lt := lt) (x := v b) hh1 hg hge hgx) ?_
  rintro ⟨p, q⟩ _ ⟨⟨k, rfl, hk⟩, a1, a2, a3, a4, a5, a6, a7, a8⟩
  apply wp_bind
  refine wp_mono ((branchlessLoop_spec (lt := lt) (x := v b) (s := { s1 with cmps := k }) a1 a2 a3 a4
    hh1 a5 a6 a7 a8).cost branchlessLoop_cost) ?_
  rintro p' s2 ⟨⟨c1, c2, v2, u2, c3, c4⟩, c, c5, c6⟩
  have hpq1 : p ≤ q + 1 := by
    by_cases hb : p = b + 1
    · dsimp only at a3
      omega
    · by_cases hq : q < p - 1
      · have z1 := a5 (p - 1) (by dsimp only at a1; omega) (by dsimp only at a1 ⊢; omega)
        rw [a7 (p - 1) hq (by dsimp only at a2; omega)] at z1
        cases z1
      · omega
  refine placePivot_spec hx fr u2.tick (by omega) (by omega) fun s' u hc => wp_pure ⟨?_, _, u, ?_⟩
  · dsimp only at *
    omega
  exact PRight.of_split c1 c2 (u2.perm.out (Or.inl (by omega))) c3 c4

end CppSort
