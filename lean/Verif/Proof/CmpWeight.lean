import Verif.Proof.MoveWeight
/-
The number of comparisons made by `low_comparisons_sorter<N>`, added up over all the orders of `N`
different elements.
-/
set_option autoImplicit false

namespace CppSort
variable {α β : Type} {lt : α → α → Bool}

/-! ### Bodies as functions -/

/-- The values after the moves through one temporary along a cycle of positions. -/
def cycleVals (v : Nat → α) : List Nat → Nat → α
  | [] => v
  | [_] => v
  | a :: b :: cs => cycleVals (swp v a b) (b :: cs)

/-- Number of comparisons, values at the end, and whether `return` was executed. -/
def DP.ev (lt : α → α → Bool) : DP → Nat → (Nat → α) → Nat × (Nat → α) × Bool
  | .nop, _, v => (0, v, false)
  | .stop, _, v => (0, v, true)
  | .cswap i j, off, v =>
    (1, if lt (v (off + j)) (v (off + i)) then swp v (off + i) (off + j) else v, false)
  | .swap i j, off, v => (0, swp v (off + i) (off + j), false)
  | .rotR m i, off, v => (0, cycleVals v ((List.range' i m).reverse.map (off + ·)), false)
  | .rotL m i, off, v => (0, cycleVals v ((List.range' i m).map (off + ·)), false)
  | .cyc cs, off, v => (0, cycleVals v (cs.map (off + ·)), false)
  | .ite i j t e, off, v =>
    if lt (v (off + i)) (v (off + j)) then ((t.ev lt off v).1 + 1, (t.ev lt off v).2)
    else ((e.ev lt off v).1 + 1, (e.ev lt off v).2)
  | .seq p q, off, v =>
    if (p.ev lt off v).2.2 then p.ev lt off v
    else ((p.ev lt off v).1 + (q.ev lt off (p.ev lt off v).2.1).1, (q.ev lt off (p.ev lt off v).2.1).2)
  | .catch p q, off, v =>
    if (p.ev lt off v).2.2 then ((p.ev lt off v).1, (p.ev lt off v).2.1, false)
    else ((p.ev lt off v).1 + (q.ev lt off (p.ev lt off v).2.1).1, (q.ev lt off (p.ev lt off v).2.1).2)
  | .call k p, off, v => ((p.ev lt (off + k) v).1, (p.ev lt (off + k) v).2.1, false)

/-- Are the positions of a cycle inside the range, consecutive ones being different? -/
def okCycle (n : Nat) : List Nat → Bool
  | [] => true
  | c :: cs => okChain n c cs

/-- Are all the positions inside the range? -/
def DP.inb (n : Nat) : DP → Nat → Bool
  | .nop, _ => true
  | .stop, _ => true
  | .cswap i j, off => decide (off + i < n) && decide (off + j < n)
  | .swap i j, off => decide (off + i < n) && decide (off + j < n)
  | .rotR m i, off => okCycle n ((List.range' i m).reverse.map (off + ·))
  | .rotL m i, off => okCycle n ((List.range' i m).map (off + ·))
  | .cyc cs, off => okCycle n (cs.map (off + ·))
  | .ite i j t e, off =>
    decide (off + i < n) && decide (off + j < n) && t.inb n off && e.inb n off
  | .seq p q, off => p.inb n off && q.inb n off
  | .catch p q, off => p.inb n off && q.inb n off
  | .call k p, off => p.inb n (off + k)

theorem moveChain_ev {f n : Nat} (off : Nat) : ∀ (cs : List Nat) (h : Nat) {s : St α}
    {v : Nat → α}, HoldsX s.cell f (f + n) (f + (off + h)) v →
    okChain n (off + h) (cs.map (off + ·)) = true →
    wp (moveChain (f + off) h cs) (fun r s' => ∃ v', HoldsX s'.cell f (f + n) (f + (off + r)) v' ∧
      PermOn f (f + n) v v' ∧ Frame f (f + n) s s' ∧ s'.cmps = s.cmps ∧ v' (f + (off + r)) =
      v (f + (off + h)) ∧
      ∀ k, v' (f + k) = cycleVals (fun k => v (f + k)) ((h :: cs).map (off + ·)) k) s := by
  intro cs
  induction cs with
  | nil =>
    intro h s v hx _
    exact wp_pure ⟨v, hx, PermOn.refl _ _ _, Frame.refl _ _ _, rfl, rfl, fun k => rfl⟩
  | cons c cs ih =>
    intro h s v hx hok
    simp only [List.map_cons, okChain, Bool.and_eq_true, decide_eq_true_eq] at hok
    obtain ⟨⟨h1, h2⟩, h3⟩ := hok
    have hc : off + c < n := by
      cases cs with
      | nil => simpa [okChain] using h3
      | cons d ds =>
        simp only [List.map_cons, okChain, Bool.and_eq_true, decide_eq_true_eq] at h3
        exact h3.1.1
    rw [moveChain]
    apply wp_bind
    rw [Nat.add_assoc f off h, Nat.add_assoc f off c]
    refine wp_moveTo hx (by omega) (by omega) (by omega) fun s1 hx1 hf1 hc1 _ => ?_
    refine wp_mono (ih c hx1 h3) ?_
    rintro r s2 ⟨v', a1, a2, a3, a4, a5, a6⟩
    refine ⟨v', a1, (PermOn.swp ⟨by omega, by omega⟩ ⟨by omega, by omega⟩).trans a2, hf1.trans a3,
      by omega, ?_, fun k => ?_⟩
    · rw [a5, swp_r rfl]
    · rw [a6]
      simp only [List.map_cons, cycleVals]
      congr 1
      funext k
      exact swp_shift _ _ _ _ _

theorem cycleMoves_ev {f n : Nat} (off : Nat) (cs : List Nat) {s : St α}
    {v : Nat → α} (hh : Holds s.cell f (f + n) v)
    (ha : okCycle n (cs.map (off + ·)) = true) :
    wp (cycleMoves (f + off) cs) (fun _ s' => ∃ v', Upd f (f + n) s s' v v' ∧ s'.cmps = s.cmps ∧
      ∀ k, v' (f + k) = cycleVals (fun k => v (f + k)) (cs.map (off + ·)) k) s := by
  cases cs with
  | nil => exact wp_pure ⟨v, Upd.refl hh, rfl, fun k => rfl⟩
  | cons c cs =>
    simp only [List.map_cons, okCycle] at ha
    have hc : off + c < n := by
      cases cs with
      | nil => simpa [okChain] using ha
      | cons d ds =>
        simp only [List.map_cons, okChain, Bool.and_eq_true, decide_eq_true_eq] at ha
        exact ha.1.1
    unfold cycleMoves
    apply wp_bind
    rw [Nat.add_assoc f off c]
    refine wp_moveOut hh (by omega) (by omega) fun s1 hx1 hf1 hc1 _ => ?_
    apply wp_bind
    refine wp_mono (moveChain_ev off cs c hx1 ha) ?_
    rintro r s2 ⟨v', a1, a2, a3, a4, a5, a6⟩
    rw [Nat.add_assoc f off r]
    refine wp_assign a1 a5.symm fun s3 h3 f3 c3 _ => ?_
    exact ⟨v', ⟨h3, a2, (hf1.trans a3).trans f3⟩, by omega, a6⟩

/-- Running a body is evaluating it. -/
theorem DP.exec_ev {f n : Nat} : ∀ (p : DP) (off : Nat), p.inb n off = true → ∀ {s : St α}
    {v : Nat → α}, Holds s.cell f (f + n) v →
    wp (p.exec (tick lt) (f + off)) (fun r s' => ∃ v', Upd f (f + n) s s' v v' ∧
      (∀ k, v' (f + k) = (p.ev lt off fun k => v (f + k)).2.1 k) ∧
      s'.cmps = s.cmps + (p.ev lt off fun k => v (f + k)).1 ∧
      r = (p.ev lt off fun k => v (f + k)).2.2) s := by
  intro p
  induction p with
  | nop => intro off _ s v hh; exact wp_pure ⟨v, Upd.refl hh, fun k => rfl, rfl, rfl⟩
  | stop => intro off _ s v hh; exact wp_pure ⟨v, Upd.refl hh, fun k => rfl, rfl, rfl⟩
  | cswap i j =>
    intro off hb s v hh
    simp only [DP.inb, Bool.and_eq_true, decide_eq_true_eq] at hb
    rw [DP.exec]
    apply wp_bind
    rw [Nat.add_assoc f off i, Nat.add_assoc f off j]
    unfold iterSwapIf
    wread hh
    wread hh
    wtick
    by_cases hl : lt (v (f + (off + j))) (v (f + (off + i))) = true
    · rw [if_pos hl]
      refine wp_swap_c (s := {s with cmps := s.cmps + 1}) hh ⟨by omega, by omega⟩
        ⟨by omega, by omega⟩ fun s1 hu hc _ => ?_
      refine wp_pure ⟨_, hu.tick, fun k => ?_, hc, rfl⟩
      simp only [DP.ev]
      rw [if_pos hl, swp_shift]
    · rw [if_neg hl]
      refine wp_pure (wp_pure ⟨v, (Upd.refl hh).tickr, fun k => ?_, rfl, rfl⟩)
      simp only [DP.ev]
      rw [if_neg hl]
  | swap i j =>
    intro off hb s v hh
    simp only [DP.inb, Bool.and_eq_true, decide_eq_true_eq] at hb
    rw [DP.exec]
    apply wp_bind
    rw [Nat.add_assoc f off i, Nat.add_assoc f off j]
    refine wp_swap_c hh ⟨by omega, by omega⟩ ⟨by omega, by omega⟩ fun s1 hu hc _ => ?_
    exact wp_pure ⟨_, hu, fun k => swp_shift _ _ _ _ _, hc, rfl⟩
  | rotR m i =>
    intro off hb s v hh
    rw [DP.exec]
    apply wp_bind
    refine wp_mono (cycleMoves_ev off _ hh hb) ?_
    rintro _ s1 ⟨v', a1, a2, a3⟩
    exact wp_pure ⟨v', a1, a3, a2, rfl⟩
  | rotL m i =>
    intro off hb s v hh
    rw [DP.exec]
    apply wp_bind
    refine wp_mono (cycleMoves_ev off _ hh hb) ?_
    rintro _ s1 ⟨v', a1, a2, a3⟩
    exact wp_pure ⟨v', a1, a3, a2, rfl⟩
  | cyc cs =>
    intro off hb s v hh
    rw [DP.exec]
    apply wp_bind
    refine wp_mono (cycleMoves_ev off _ hh hb) ?_
    rintro _ s1 ⟨v', a1, a2, a3⟩
    exact wp_pure ⟨v', a1, a3, a2, rfl⟩
  | ite i j t e iht ihe =>
    intro off hb s v hh
    simp only [DP.inb, Bool.and_eq_true, decide_eq_true_eq] at hb
    obtain ⟨⟨⟨b1, b2⟩, b3⟩, b4⟩ := hb
    rw [DP.exec, Nat.add_assoc f off i, Nat.add_assoc f off j]
    wread hh
    wread hh
    wtick
    by_cases hl : lt (v (f + (off + i))) (v (f + (off + j))) = true
    · rw [if_pos hl]
      refine wp_mono (iht off b3 (s := {s with cmps := s.cmps + 1}) hh) ?_
      rintro r s1 ⟨v', a1, a2, a3, a4⟩
      simp only [DP.ev]
      rw [if_pos hl]
      refine ⟨v', a1.tick, a2, ?_, a4⟩
      rw [a3]
      show s.cmps + 1 + _ = s.cmps + (_ + 1)
      omega
    · rw [if_neg hl]
      refine wp_mono (ihe off b4 (s := {s with cmps := s.cmps + 1}) hh) ?_
      rintro r s1 ⟨v', a1, a2, a3, a4⟩
      simp only [DP.ev]
      rw [if_neg hl]
      refine ⟨v', a1.tick, a2, ?_, a4⟩
      rw [a3]
      show s.cmps + 1 + _ = s.cmps + (_ + 1)
      omega
  | seq p q ihp ihq =>
    intro off hb s v hh
    simp only [DP.inb, Bool.and_eq_true] at hb
    rw [DP.exec]
    apply wp_bind
    refine wp_mono (ihp off hb.1 hh) ?_
    rintro r s1 ⟨v1, a1, a2, a3, rfl⟩
    simp only [DP.ev]
    by_cases hr : (p.ev lt off fun k => v (f + k)).2.2 = true
    · rw [if_pos hr, if_pos hr]
      exact wp_pure ⟨v1, a1, a2, a3, hr.symm⟩
    · rw [if_neg hr, if_neg hr]
      refine wp_mono (ihq off hb.2 a1.holds) ?_
      rintro r s2 ⟨v2, b1, b2, b3, b4⟩
      have e : (fun k => v1 (f + k)) = (p.ev lt off fun k => v (f + k)).2.1 := funext a2
      rw [e] at b2 b3 b4
      exact ⟨v2, a1.trans b1, b2, by rw [b3, a3]; dsimp only; omega, b4⟩
  | «catch» p q ihp ihq =>
    intro off hb s v hh
    simp only [DP.inb, Bool.and_eq_true] at hb
    rw [DP.exec]
    apply wp_bind
    refine wp_mono (ihp off hb.1 hh) ?_
    rintro r s1 ⟨v1, a1, a2, a3, rfl⟩
    simp only [DP.ev]
    by_cases hr : (p.ev lt off fun k => v (f + k)).2.2 = true
    · rw [if_pos hr, if_pos hr]
      exact wp_pure ⟨v1, a1, a2, a3, rfl⟩
    · rw [if_neg hr, if_neg hr]
      refine wp_mono (ihq off hb.2 a1.holds) ?_
      rintro r s2 ⟨v2, b1, b2, b3, b4⟩
      have e : (fun k => v1 (f + k)) = (p.ev lt off fun k => v (f + k)).2.1 := funext a2
      rw [e] at b2 b3 b4
      exact ⟨v2, a1.trans b1, b2, by rw [b3, a3]; dsimp only; omega, b4⟩
  | call k p ih =>
    intro off hb s v hh
    rw [DP.exec]
    apply wp_bind
    rw [Nat.add_assoc f off k]
    refine wp_mono (ih (off + k) hb hh) ?_
    rintro r s1 ⟨v1, a1, a2, a3, -⟩
    exact wp_pure ⟨v1, a1, a2, a3, rfl⟩

/-! ### What a body sees of the elements -/

theorem cycleVals_shift {g : β → α} {d n : Nat} {D : β → Prop} : ∀ (cs : List Nat) {v : Nat → α}
    {w : Nat → β}, okCycle n cs = true → (∀ k, k < n → v (d + k) = g (w k) ∧ D (w k)) →
    (∀ k, k < n → cycleVals v (cs.map (d + ·)) (d + k) = g (cycleVals w cs k) ∧ D (cycleVals w cs k)) ∧
      ∀ k, k < d ∨ d + n ≤ k → cycleVals v (cs.map (d + ·)) k = v k := by
  intro cs
  induction cs with
  | nil => intro v w _ h; exact ⟨h, fun _ _ => rfl⟩
  | cons a cs ih =>
    intro v w hok h
    cases cs with
    | nil => exact ⟨h, fun _ _ => rfl⟩
    | cons b cs =>
      simp only [okCycle, okChain, Bool.and_eq_true, decide_eq_true_eq] at hok
      obtain ⟨⟨h1, h2⟩, h3⟩ := hok
      have hb : b < n := by
        cases cs with
        | nil => simpa [okChain] using h3
        | cons d ds =>
          simp only [okChain, Bool.and_eq_true, decide_eq_true_eq] at h3
          exact h3.1.1
      have hs : ∀ k, k < n → swp v (d + a) (d + b) (d + k) = g (swp w a b k) ∧ D (swp w a b k) := by
        intro k hk
        rw [swp_shift]
        by_cases e1 : k = a
        · rw [swp_l e1, swp_l e1]; exact h b hb
        · by_cases e2 : k = b
          · rw [swp_r e2, swp_r e2]; exact h a h1
          · rw [swp_o e1 e2, swp_o e1 e2]; exact h k hk
      obtain ⟨r1, r2⟩ := ih (by simpa [okCycle] using h3) hs
      refine ⟨r1, fun k hk => ?_⟩
      have := r2 k hk
      simp only [List.map_cons, cycleVals] at this ⊢
      rw [this, swp_o (by omega) (by omega)]

/-- A body sees the elements through their order only, and does the same anywhere. -/
theorem DP.ev_shift {lt' : β → β → Bool} {g : β → α} {d n : Nat} {D : β → Prop}
    (hg : ∀ x y, D x → D y → lt (g x) (g y) = lt' x y) : ∀ (p : DP) (off : Nat) {v : Nat → α}
    {w : Nat → β}, p.inb n off = true → (∀ k, k < n → v (d + k) = g (w k) ∧ D (w k)) →
    (p.ev lt (d + off) v).1 = (p.ev lt' off w).1 ∧
    (p.ev lt (d + off) v).2.2 = (p.ev lt' off w).2.2 ∧
    (∀ k, k < n → (p.ev lt (d + off) v).2.1 (d + k) = g ((p.ev lt' off w).2.1 k) ∧
      D ((p.ev lt' off w).2.1 k)) ∧
    ∀ k, k < d ∨ d + n ≤ k → (p.ev lt (d + off) v).2.1 k = v k := by
  have hswp : ∀ {v : Nat → α} {w : Nat → β} {a b : Nat}, a < n → b < n →
      (∀ k, k < n → v (d + k) = g (w k) ∧ D (w k)) →
      (∀ k, k < n → swp v (d + a) (d + b) (d + k) = g (swp w a b k) ∧ D (swp w a b k)) ∧
      ∀ k, k < d ∨ d + n ≤ k → swp v (d + a) (d + b) k = v k := by
    intro v w a b h1 hb h
    refine ⟨fun k hk => ?_, fun k hk => swp_o (by omega) (by omega)⟩
    rw [swp_shift]
    by_cases e1 : k = a
    · rw [swp_l e1, swp_l e1]; exact h b hb
    · by_cases e2 : k = b
      · rw [swp_r e2, swp_r e2]; exact h a h1
      · rw [swp_o e1 e2, swp_o e1 e2]; exact h k hk
  have hmap : ∀ (off : Nat) (l : List Nat), l.map (d + off + ·) = (l.map (off + ·)).map (d + ·) := by
    intro off l
    rw [List.map_map]
    exact List.map_congr_left fun k _ => Nat.add_assoc _ _ _
  intro p
  induction p with
  | nop => intro off v w _ h; exact ⟨rfl, rfl, h, fun _ _ => rfl⟩
  | stop => intro off v w _ h; exact ⟨rfl, rfl, h, fun _ _ => rfl⟩
  | cswap i j =>
    intro off v w hb h
    simp only [DP.inb, Bool.and_eq_true, decide_eq_true_eq] at hb
    simp only [DP.ev, Nat.add_assoc d off]
    have e : lt (v (d + (off + j))) (v (d + (off + i))) = lt' (w (off + j)) (w (off + i)) := by
      rw [(h _ hb.2).1, (h _ hb.1).1]
      exact hg _ _ (h _ hb.2).2 (h _ hb.1).2
    rw [e]
    refine ⟨trivial, trivial, ?_⟩
    split
    · exact hswp hb.1 hb.2 h
    · exact ⟨h, fun _ _ => rfl⟩
  | swap i j =>
    intro off v w hb h
    simp only [DP.inb, Bool.and_eq_true, decide_eq_true_eq] at hb
    simp only [DP.ev, Nat.add_assoc d off]
    exact ⟨trivial, trivial, hswp hb.1 hb.2 h⟩
  | rotR m i =>
    intro off v w hb h
    simp only [DP.ev, hmap]
    exact ⟨trivial, trivial, cycleVals_shift _ hb h⟩
  | rotL m i =>
    intro off v w hb h
    simp only [DP.ev, hmap]
    exact ⟨trivial, trivial, cycleVals_shift _ hb h⟩
  | cyc cs =>
    intro off v w hb h
    simp only [DP.ev, hmap]
    exact ⟨trivial, trivial, cycleVals_shift _ hb h⟩
  | ite i j t e iht ihe =>
    intro off v w hb h
    simp only [DP.inb, Bool.and_eq_true, decide_eq_true_eq] at hb
    obtain ⟨⟨⟨b1, b2⟩, b3⟩, b4⟩ := hb
    have el : lt (v (d + (off + i))) (v (d + (off + j))) = lt' (w (off + i)) (w (off + j)) := by
      rw [(h _ b1).1, (h _ b2).1]
      exact hg _ _ (h _ b1).2 (h _ b2).2
    simp only [DP.ev]
    rw [Nat.add_assoc d off i, Nat.add_assoc d off j, el]
    by_cases hl : lt' (w (off + i)) (w (off + j)) = true
    · rw [if_pos hl, if_pos hl]
      obtain ⟨r1, r2⟩ := iht off b3 h
      exact ⟨by dsimp only; rw [r1], r2⟩
    · rw [if_neg hl, if_neg hl]
      obtain ⟨r1, r2⟩ := ihe off b4 h
      exact ⟨by dsimp only; rw [r1], r2⟩
  | seq p q ihp ihq =>
    intro off v w hb h
    simp only [DP.inb, Bool.and_eq_true] at hb
    obtain ⟨r1, r2, r3, r4⟩ := ihp off hb.1 h
    obtain ⟨q1, q2, q3, q4⟩ := ihq off hb.2 r3
    simp only [DP.ev]
    rw [r2]
    by_cases hr : (p.ev lt' off w).2.2 = true
    · rw [if_pos hr, if_pos hr]
      exact ⟨r1, r2, r3, r4⟩
    · rw [if_neg hr, if_neg hr]
      exact ⟨by dsimp only; rw [r1, q1], q2, q3, fun k hk => (q4 k hk).trans (r4 k hk)⟩
  | «catch» p q ihp ihq =>
    intro off v w hb h
    simp only [DP.inb, Bool.and_eq_true] at hb
    obtain ⟨r1, r2, r3, r4⟩ := ihp off hb.1 h
    obtain ⟨q1, q2, q3, q4⟩ := ihq off hb.2 r3
    simp only [DP.ev]
    rw [r2]
    by_cases hr : (p.ev lt' off w).2.2 = true
    · rw [if_pos hr, if_pos hr]
      exact ⟨r1, rfl, r3, r4⟩
    · rw [if_neg hr, if_neg hr]
      exact ⟨by dsimp only; rw [r1, q1], q2, q3, fun k hk => (q4 k hk).trans (r4 k hk)⟩
  | call k p ih =>
    intro off v w hb h
    simp only [DP.ev]
    rw [Nat.add_assoc d off k]
    obtain ⟨r1, r2, r3, r4⟩ := ih (off + k) hb h
    exact ⟨r1, trivial, r3, r4⟩

end CppSort
