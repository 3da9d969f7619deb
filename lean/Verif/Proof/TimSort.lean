import Verif.Proof.TimMergeHi
/-
The stack of pending runs of timsort.h, timsort and adaptive shivers sort.
-/
set_option autoImplicit false

namespace CppSort
variable {α : Type} {lt : α → α → Bool}

theorem MergedTo.widen {s0 : St α} {f N a n a' n' : Nat} {us zs ws : List α} {s s' : St α} {b : TimBuf}
    (h : MergedTo s0 f N a' n' zs s b s') (ha : a' = a + us.length) (hn : n = us.length + n' + ws.length)
    (hz : zs.length = n') (hbr : a + n ≤ s0.brk) (su : Seg s.cell a us) (sw : Seg s.cell (a' + n') ws) :
    MergedTo s0 f N a n (us ++ (zs ++ ws)) s b s' := by
  refine ⟨h.buf, seg_append.2 ⟨?_, seg_append.2 ⟨?_, ?_⟩⟩, ?_⟩
  · exact su.congr fun i h1 h2 => h.keep i (by omega) (by omega)
  · rw [← ha]; exact h.out
  · rw [← ha, hz]; exact sw.congr fun i h1 h2 => h.keep i (by omega) (by omega)
  · intro i h1 h2; exact h.keep i h1 (by omega)

theorem mergeConsecutiveRuns_seg (hlt : StrictWeak lt) {s0 : St α} {f N base1 len1 base2 len2 : Nat} {b : TimBuf}
    {xs ys : List α} {s : St α} (hN : f + N ≤ s0.brk) (hb : BufOk s0 f N b s) (l1 : len1 = xs.length) (l2 : len2 = ys.length)
    (hb2 : base2 = base1 + len1) (hf1 : f ≤ base1) (hf2 : base2 + len2 ≤ f + N)
    (sx : Seg s.cell base1 xs) (sy : Seg s.cell base2 ys) (ox : SortedList lt xs) (oy : SortedList lt ys)
    (hx : xs ≠ []) (hy : ys ≠ []) :
    wp (mergeConsecutiveRuns (tick lt) b base1 len1 base2 len2)
      (fun b' s' => MergedTo s0 f N base1 (len1 + len2) (mergeL lt xs ys) s b' s') s := by
  have px := List.length_pos_iff.2 hx
  have py := List.length_pos_iff.2 hy
  obtain ⟨y, ys0, ey⟩ := List.exists_cons_of_ne_nil hy
  have hyle : ∀ z ∈ ys, lt z y = false := by
    rw [ey]; intro z hz
    rcases List.mem_cons.1 hz with rfl | hz
    · exact hlt.irrefl _
    · rw [ey] at oy; exact (List.pairwise_cons.1 oy).1 z hz
  unfold mergeConsecutiveRuns
  apply wp_bind
  refine wp_read' (x := y) (by rw [ey] at sy; exact (seg_cons.1 sy).1) ?_
  apply wp_bind
  refine wp_mono (gallopRight_seg hlt y l1 (by omega) sx ox) ?_
  rintro _ _ ⟨us, xs', k, e, rfl, g1, g2, rfl⟩
  subst e
  rw [List.length_append] at l1 px
  obtain ⟨su, sx'⟩ := seg_append.1 sx
  dsimp only
  split
  · rename_i h0
    have : xs' = [] := List.length_eq_zero_iff.1 (by omega)
    subst this
    rw [List.append_nil] at *
    refine wp_pure ⟨hb.cmps, ?_, fun _ _ _ => rfl⟩
    rw [mergeL_before fun u hu z hz => hlt.le_trans (g1 u hu) (hyle z hz)]
    refine seg_append.2 ⟨sx, ?_⟩
    rw [show base1 + us.length = base2 by simp at l1; omega]; exact sy
  rename_i h0
  have hx' : xs' ≠ [] := by intro e; subst e; simp at l1; omega
  obtain ⟨xi, x, ex⟩ := exists_snoc hx'
  have ox' : SortedList lt xs' := (List.pairwise_append.1 ox).2.1
  apply wp_bind
  refine wp_read' (x := x) ?_ ?_
  · have := sx'
    rw [ex] at this
    rw [show base1 + us.length + (len1 - us.length - 1) = base1 + us.length + xi.length by
      rw [ex] at l1; simp at l1; omega]
    exact (seg_snoc.1 this).2
  apply wp_bind
  refine wp_mono (gallopLeft_seg (s := { s with cmps := k }) hlt x l2 (by omega) sy oy) ?_
  rintro _ _ ⟨ys', ws, k', e, rfl, q1, q2, rfl⟩
  have hy' : ys' ≠ [] := by
    intro e'
    subst e'
    have := g2 x (by rw [ex]; simp)
    rw [q2 y (by rw [← List.nil_append ws, ← e, ey]; simp)] at this
    cases this
  have hyp := List.length_pos_iff.2 hy'
  have hxp := List.length_pos_iff.2 hx'
  rw [if_neg (by omega)]
  have sy' := sy
  rw [e] at sy' l2 oy
  rw [List.length_append] at l2
  obtain ⟨sy1, sy2⟩ := seg_append.1 sy'
  have oy' : SortedList lt ys' := (List.pairwise_append.1 oy).1
  have htop : ∀ z ∈ xs'.getLast?, ∀ w ∈ ys', lt w z = true := by
    intro z hz w hw
    rw [ex] at hz; simp at hz; subst hz
    exact q1 w hw
  have hhead : ys'.head? = some y := by
    have : ys.head? = some y := by rw [ey]; rfl
    rwa [e, List.head?_append_of_ne_nil _ hy'] at this
  have hbot : ∀ z ∈ ys'.head?, ∀ w ∈ xs', lt z w = true := by
    intro z hz w hw
    rw [hhead] at hz; simp at hz; subst hz
    exact g2 w hw
  have hm : mergeL lt (us ++ xs') ys = us ++ (mergeL lt xs' ys' ++ ws) := by
    rw [ey, mergeL_prefix g1, ← ey, e, mergeL_snoc2 fun w hw z hz => hlt.le_trans ?_ (q2 w hw)]
    rw [ex] at hz ox'
    exact sorted_le_last hlt ox' z hz
  have hfin : ∀ b' s', MergedTo s0 f N (base1 + us.length) (len1 - us.length + ys'.length) (mergeL lt xs' ys')
      { s with cmps := k' } b' s' → MergedTo s0 f N base1 (len1 + len2) (mergeL lt (us ++ xs') ys) s b' s' := by
    intro b' s' h
    rw [hm]
    have := h.widen (a := base1) (n := len1 + len2) (us := us) (ws := ws) rfl (by omega)
      (by rw [(mergeL_perm _ _).length_eq, List.length_append]; omega) (by omega) su
      (by rw [show base1 + us.length + (len1 - us.length + ys'.length) = base2 + ys'.length by omega]; exact sy2)
    exact ⟨this.1, this.2, this.3⟩
  split
  · refine wp_mono (mergeLo_seg (s := { s with cmps := k' }) hlt hN hb.cmps (by omega) rfl (by omega) (by omega) (by omega)
      sx' sy1 ox' oy' hx' hy' htop hbot) hfin
  · refine wp_mono (mergeHi_seg (s := { s with cmps := k' }) hlt hN hb.cmps (by omega) rfl (by omega) (by omega) (by omega)
      sx' sy1 ox' oy' hx' hy' htop hbot) hfin

/-- The bases and lengths of consecutive runs. -/
def runsOf (f : Nat) : List (List α) → List (Nat × Nat)
  | [] => []
  | z :: Zs => (f, z.length) :: runsOf (f + z.length) Zs

theorem runsOf_append : ∀ (Zs Ws : List (List α)) (f : Nat),
    runsOf f (Zs ++ Ws) = runsOf f Zs ++ runsOf (f + Zs.flatten.length) Ws
  | [], _, _ => by simp [runsOf]
  | z :: Zs, Ws, f => by
    simp only [List.cons_append, runsOf, runsOf_append Zs Ws, List.flatten_cons, List.length_append]
    rw [show f + z.length + Zs.flatten.length = f + (z.length + Zs.flatten.length) by omega]

theorem runsOf_length : ∀ (Zs : List (List α)) (f : Nat), (runsOf f Zs).length = Zs.length
  | [], _ => rfl
  | _ :: Zs, _ => by simp [runsOf, runsOf_length Zs]

/-- The pending runs: sorted, consecutive, from the start of the range on. -/
structure PendOk (lt : α → α → Bool) (s0 : St α) (f N : Nat) (b : TimBuf) (p : List (Nat × Nat)) (Zs : List (List α))
    (s : St α) : Prop where
  buf : BufOk s0 f N b s
  runs : p = runsOf f Zs
  seg : Seg s.cell f Zs.flatten
  sorted : ∀ z ∈ Zs, z ≠ [] ∧ SortedList lt z
  len : Zs.flatten.length ≤ N

/-- The merges keep what the runs hold, and leave the rest of the range alone. -/
structure PendTo (lt : α → α → Bool) (s0 : St α) (f N : Nat) (Zs : List (List α)) (s : St α) (b' : TimBuf)
    (p' : List (Nat × Nat)) (Zs' : List (List α)) (s' : St α) : Prop where
  ok : PendOk lt s0 f N b' p' Zs' s'
  perm : Zs'.flatten.Perm Zs.flatten
  order : SameOrder lt Zs.flatten Zs'.flatten
  keep : ∀ i, i < s0.brk → (i < f ∨ f + Zs.flatten.length ≤ i) → s'.cell i = s.cell i

theorem PendTo.refl {s0 : St α} {f N : Nat} {b : TimBuf} {p : List (Nat × Nat)} {Zs : List (List α)} {s : St α}
    (h : PendOk lt s0 f N b p Zs s) : PendTo lt s0 f N Zs s b p Zs s := ⟨h, .refl _, fun _ => rfl, fun _ _ _ => rfl⟩

theorem PendTo.trans {s0 : St α} {f N : Nat} {b1 b2 : TimBuf} {p1 p2 : List (Nat × Nat)} {Zs Zs1 Zs2 : List (List α)}
    {s s1 s2 : St α} (h : PendTo lt s0 f N Zs s b1 p1 Zs1 s1) (h' : PendTo lt s0 f N Zs1 s1 b2 p2 Zs2 s2) :
    PendTo lt s0 f N Zs s b2 p2 Zs2 s2 :=
  ⟨h'.ok, h'.perm.trans h.perm, fun x => (h'.order x).trans (h.order x), fun i h1 h2 => by
    rw [h'.keep i h1 (by have := h.perm.length_eq; omega), h.keep i h1 h2]⟩

theorem wp_pendingAt {Q : Nat × Nat → St α → Prop} {p : List (Nat × Nat)} {i : Nat} {s : St α} (h : i < p.length)
    (hQ : ∀ r, p[i]? = some r → Q r s) : wp (pendingAt p i) Q s := by
  unfold pendingAt
  rw [List.getElem?_eq_getElem h]
  exact wp_pure (hQ _ (List.getElem?_eq_getElem h))

theorem split_at {β : Type} {Zs : List β} {i : Nat} (h : i + 1 < Zs.length) :
    ∃ P z1 z2 S, Zs = P ++ z1 :: z2 :: S ∧ P.length = i := by
  refine ⟨Zs.take i, Zs[i], Zs[i + 1], Zs.drop (i + 2), ?_, by rw [List.length_take]; omega⟩
  rw [← List.drop_eq_getElem_cons, ← List.drop_eq_getElem_cons, List.take_append_drop]

theorem mergeAt_seg (hlt : StrictWeak lt) {s0 : St α} {f N i : Nat} {b : TimBuf} {p : List (Nat × Nat)}
    {Zs : List (List α)} {s : St α} (hN : f + N ≤ s0.brk) (h : PendOk lt s0 f N b p Zs s)
    (hi : i + 2 = p.length ∨ i + 3 = p.length) :
    wp (mergeAt (tick lt) b p i) (fun r s' => ∃ Zs', PendTo lt s0 f N Zs s r.2 r.1 Zs' s' ∧ Zs'.length + 1 = Zs.length) s := by
  have hp := h.runs
  have lp : p.length = Zs.length := by rw [hp, runsOf_length]
  obtain ⟨P, z1, z2, S, eZ, hP⟩ := split_at (Zs := Zs) (i := i) (by omega)
  subst eZ
  have hseg := h.seg
  have hlen := h.len
  simp only [List.flatten_append, List.flatten_cons, List.length_append] at hseg hlen
  obtain ⟨sP, sZ⟩ := seg_append.1 hseg
  obtain ⟨s1, sZ⟩ := seg_append.1 sZ
  obtain ⟨s2, sS⟩ := seg_append.1 sZ
  generalize hA : f + P.flatten.length = A at s1 s2 sS
  have hp2 : p = runsOf f P ++ (A, z1.length) :: (A + z1.length, z2.length) :: runsOf (A + z1.length + z2.length) S := by
    rw [hp, runsOf_append, hA]; rfl
  have lP : (runsOf f P).length = i := by rw [runsOf_length, hP]
  have o1 := h.sorted z1 (by simp)
  have o2 := h.sorted z2 (by simp)
  have g1 : p[i]? = some (A, z1.length) := by
    rw [hp2, List.getElem?_append_right (by omega), lP, Nat.sub_self]; rfl
  have g2 : p[i + 1]? = some (A + z1.length, z2.length) := by
    rw [hp2, List.getElem?_append_right (by omega), lP, Nat.add_sub_cancel_left]; rfl
  have hset : p.set i (A, z1.length + z2.length) = runsOf f P ++ (A, z1.length + z2.length) ::
      (A + z1.length, z2.length) :: runsOf (A + z1.length + z2.length) S := by
    rw [hp2, List.set_append_right _ _ (by omega), lP, Nat.sub_self]; rfl
  unfold mergeAt
  apply wp_bind
  refine wp_pendingAt (by omega) ?_
  intro r1 hr1
  rw [g1] at hr1
  obtain rfl := (Option.some.inj hr1).symm
  dsimp only
  apply wp_bind
  refine wp_pendingAt (by omega) ?_
  intro r2 hr2
  rw [g2] at hr2
  obtain rfl := (Option.some.inj hr2).symm
  dsimp only
  have hrest : ∀ p' : List (Nat × Nat), p'.dropLast = runsOf f P ++ (A, z1.length + z2.length) :: runsOf (A + z1.length + z2.length) S →
      wp (do
        let b ← mergeConsecutiveRuns (tick lt) b A z1.length (A + z1.length) z2.length
        pure (p'.dropLast, b)) (fun r s' => ∃ Zs', PendTo lt s0 f N (P ++ z1 :: z2 :: S) s r.2 r.1 Zs' s' ∧
          Zs'.length + 1 = (P ++ z1 :: z2 :: S).length) s := by
    intro p' hp'
    apply wp_bind
    refine wp_mono (mergeConsecutiveRuns_seg hlt hN h.buf rfl rfl rfl (by omega) (by omega) s1 s2 o1.2 o2.2 o1.1 o2.1) ?_
    intro b' s' M
    have lm : (mergeL lt z1 z2).length = z1.length + z2.length := by
      rw [(mergeL_perm _ _).length_eq, List.length_append]
    have ss := mergeL_ssorted hlt z1 z2 o1.2 o2.2
    refine wp_pure ⟨P ++ mergeL lt z1 z2 :: S, ⟨⟨M.buf, ?_, ?_, ?_, ?_⟩, ?_, ?_, ?_⟩, by simp; omega⟩
    · rw [hp', runsOf_append, hA]
      simp only [runsOf, lm, Nat.add_assoc]
    · simp only [List.flatten_append, List.flatten_cons]
      refine seg_append.2 ⟨?_, seg_append.2 ⟨?_, ?_⟩⟩
      · exact sP.congr fun i h1 h2 => M.keep i (by omega) (by omega)
      · rw [hA]; exact M.out
      · rw [hA, lm, show A + (z1.length + z2.length) = A + z1.length + z2.length by omega]
        exact sS.congr fun i h1 h2 => M.keep i (by omega) (by omega)
    · intro z hz
      simp only [List.mem_append, List.mem_cons] at hz
      rcases hz with hz | rfl | hz
      · exact h.sorted z (by simp [hz])
      · refine ⟨?_, ss.2.1⟩
        intro e
        rw [e] at lm
        have := List.length_pos_iff.2 o1.1
        simp at lm; omega
      · exact h.sorted z (by simp [hz])
    · simp only [List.flatten_append, List.flatten_cons, List.length_append, lm]; omega
    · simp only [List.flatten_append, List.flatten_cons]
      refine List.Perm.append_left _ ?_
      rw [← List.append_assoc]
      exact ss.1.append_right _
    · intro x
      simp only [List.flatten_append, List.flatten_cons, List.filter_append]
      have := ss.2.2 x
      rw [List.filter_append] at this
      rw [this, List.append_assoc]
    · intro i h1 h2
      simp only [List.flatten_append, List.flatten_cons, List.length_append] at h2
      exact M.keep i h1 (by omega)
  rw [hset]
  have lS : p.length = i + 2 + S.length := by
    rw [lp, List.length_append, hP]; simp; omega
  split
  · obtain ⟨z3, rfl⟩ : ∃ z3, S = [z3] := List.length_eq_one_iff.1 (by omega)
    apply wp_bind
    have gl : i + 2 < (runsOf f P ++ (A, z1.length + z2.length) :: (A + z1.length, z2.length) ::
        runsOf (A + z1.length + z2.length) [z3]).length := by simp [runsOf, lP]
    refine wp_pendingAt gl ?_
    intro r hr
    rw [List.getElem?_append_right (by omega), lP, Nat.add_sub_cancel_left] at hr
    simp [runsOf] at hr
    subst hr
    apply wp_bind
    refine wp_pure (hrest _ ?_)
    rw [List.set_append_right _ _ (by omega), lP, Nat.add_sub_cancel_left]
    rw [List.dropLast_append_of_ne_nil (by simp)]
    simp [runsOf]
  · have : S = [] := List.length_eq_zero_iff.1 (by omega)
    subst this
    apply wp_bind
    refine wp_pure (hrest _ ?_)
    rw [List.dropLast_append_of_ne_nil (by simp)]
    simp [runsOf]

/-- What is used of `mergeCollapse`. -/
def Collapses (lt : α → α → Bool) (collapse : TimBuf → List (Nat × Nat) → M α (List (Nat × Nat) × TimBuf)) : Prop :=
  ∀ (s0 : St α) (f N : Nat) (b : TimBuf) (p : List (Nat × Nat)) (Zs : List (List α)) (s : St α), f + N ≤ s0.brk →
    PendOk lt s0 f N b p Zs s →
    wp (collapse b p) (fun r s' => ∃ Zs', PendTo lt s0 f N Zs s r.2 r.1 Zs' s') s

theorem wp_collapseTest {p : List (Nat × Nat)} {n : Nat} {s : St α} (h : n + 2 = p.length) :
    wp (collapseTest p n) (fun r s' => s' = s ∧ (r = true → 0 < n)) s := by
  unfold collapseTest
  extract_lets jp
  have hj : ∀ r, (r = true → 0 < n) → wp (jp r) (fun r s' => s' = s ∧ (r = true → 0 < n)) s := by
    intro r hr
    dsimp only [jp]
    split
    · exact wp_pure ⟨rfl, fun _ => hr ‹_›⟩
    · split
      · apply wp_bind; refine wp_pendingAt (by omega) fun r1 _ => ?_
        apply wp_bind; refine wp_pendingAt (by omega) fun r2 _ => ?_
        apply wp_bind; refine wp_pendingAt (by omega) fun r3 _ => ?_
        exact wp_pure ⟨rfl, fun _ => by omega⟩
      · exact wp_pure ⟨rfl, by simp⟩
  split
  · apply wp_bind; refine wp_pendingAt (by omega) fun r1 _ => ?_
    apply wp_bind; refine wp_pendingAt (by omega) fun r2 _ => ?_
    apply wp_bind; refine wp_pendingAt (by omega) fun r3 _ => ?_
    apply wp_bind
    exact wp_pure (hj _ fun _ => by omega)
  · apply wp_bind
    exact wp_pure (hj _ (by simp))

theorem timCollapse_ok (hlt : StrictWeak lt) : Collapses lt (timCollapse (tick lt)) := by
  intro s0 f N b p Zs s hN h
  induction hn : Zs.length generalizing b p Zs s with
  | zero =>
    have lp : p.length = Zs.length := by rw [h.runs, runsOf_length]
    rw [timCollapse, if_neg (by omega)]
    exact wp_pure ⟨Zs, .refl h⟩
  | succ n ih =>
    have lp : p.length = Zs.length := by rw [h.runs, runsOf_length]
    have rec1 : ∀ i, i + 2 = p.length ∨ i + 3 = p.length → wp (do
        let (p, b) ← mergeAt (tick lt) b p i
        timCollapse (tick lt) b p) (fun r s' => ∃ Zs', PendTo lt s0 f N Zs s r.2 r.1 Zs' s') s := by
      intro i hi
      apply wp_bind
      refine wp_mono (mergeAt_seg hlt hN h hi) ?_
      rintro ⟨p1, b1⟩ s1 ⟨Zs1, k1, k2⟩
      refine wp_mono (ih b1 p1 Zs1 s1 k1.ok (by omega)) ?_
      rintro r s' ⟨Zs', k3⟩
      exact ⟨Zs', k1.trans k3⟩
    rw [timCollapse]
    split
    · rename_i hp
      apply wp_bind
      refine wp_mono (wp_collapseTest (by omega)) ?_
      rintro c _ ⟨rfl, hc⟩
      split
      · have := hc ‹_›
        apply wp_bind; refine wp_pendingAt (by omega) fun r1 _ => ?_
        apply wp_bind; refine wp_pendingAt (by omega) fun r2 _ => ?_
        refine rec1 _ ?_
        split <;> omega
      · apply wp_bind; refine wp_pendingAt (by omega) fun r1 _ => ?_
        apply wp_bind; refine wp_pendingAt (by omega) fun r2 _ => ?_
        dsimp only
        split
        · exact rec1 _ (by omega)
        · exact wp_pure ⟨Zs, .refl h⟩
    · exact wp_pure ⟨Zs, .refl h⟩

theorem shiversCollapse_ok (hlt : StrictWeak lt) : Collapses lt (shiversCollapse (tick lt)) := by
  intro s0 f N b p Zs s hN h
  induction hn : Zs.length generalizing b p Zs s with
  | zero =>
    have lp : p.length = Zs.length := by rw [h.runs, runsOf_length]
    rw [shiversCollapse, if_neg (by omega)]
    exact wp_pure ⟨Zs, .refl h⟩
  | succ n ih =>
    have lp : p.length = Zs.length := by rw [h.runs, runsOf_length]
    rw [shiversCollapse]
    split
    · rename_i hp
      apply wp_bind; refine wp_pendingAt (by omega) fun r1 _ => ?_
      apply wp_bind; refine wp_pendingAt (by omega) fun r2 _ => ?_
      dsimp only
      split
      · exact wp_pure ⟨Zs, .refl h⟩
      · apply wp_bind; refine wp_pendingAt (by omega) fun r3 _ => ?_
        split
        · exact wp_pure ⟨Zs, .refl h⟩
        · apply wp_bind
          refine wp_mono (mergeAt_seg hlt hN h (by omega)) ?_
          rintro ⟨p1, b1⟩ s1 ⟨Zs1, k1, k2⟩
          refine wp_mono (ih b1 p1 Zs1 s1 k1.ok (by omega)) ?_
          rintro r s' ⟨Zs', k3⟩
          exact ⟨Zs', k1.trans k3⟩
    · exact wp_pure ⟨Zs, .refl h⟩

theorem forceCollapse_seg (hlt : StrictWeak lt) {s0 : St α} {f N : Nat} (hN : f + N ≤ s0.brk) (n : Nat) :
    ∀ (b : TimBuf) (p : List (Nat × Nat)) (Zs : List (List α)) (s : St α), Zs.length = n → PendOk lt s0 f N b p Zs s →
    wp (forceCollapse (tick lt) b p) (fun r s' => ∃ Zs', PendTo lt s0 f N Zs s r.2 r.1 Zs' s' ∧ Zs'.length ≤ 1) s := by
  induction n with
  | zero =>
    intro b p Zs s hn h
    have lp : p.length = Zs.length := by rw [h.runs, runsOf_length]
    rw [forceCollapse, if_neg (by omega)]
    exact wp_pure ⟨Zs, .refl h, by omega⟩
  | succ n ih =>
    intro b p Zs s hn h
    have lp : p.length = Zs.length := by rw [h.runs, runsOf_length]
    rw [forceCollapse]
    split
    · rename_i hp
      apply wp_bind
      refine wp_mono (Q := fun r s' => s' = s ∧ (r = true → 0 < p.length - 2)) ?_ ?_
      · unfold forceTest
        split
        · apply wp_bind; refine wp_pendingAt (by omega) fun r1 _ => ?_
          apply wp_bind; refine wp_pendingAt (by omega) fun r2 _ => ?_
          exact wp_pure ⟨rfl, fun _ => by omega⟩
        · exact wp_pure ⟨rfl, by simp⟩
      · rintro c _ ⟨rfl, hc⟩
        apply wp_bind
        refine wp_mono (mergeAt_seg hlt hN h ?_) ?_
        · split
          · have := hc ‹_›; omega
          · omega
        rintro ⟨p1, b1⟩ s1 ⟨Zs1, k1, k2⟩
        refine wp_mono (ih b1 p1 Zs1 s1 (by omega) k1.ok) ?_
        rintro r s' ⟨Zs', k3, k4⟩
        exact ⟨Zs', k1.trans k3, k4⟩
    · exact wp_pure ⟨Zs, .refl h, by omega⟩

theorem SSorted.trans_append {us us' vs zs : List α} (h1 : SSorted lt us us') (h2 : SSorted lt (us' ++ vs) zs) :
    SSorted lt (us ++ vs) zs := by
  refine ⟨h2.1.trans (h1.1.append_right _), h2.2.1, fun x => ?_⟩
  rw [h2.2.2 x, List.filter_append, h1.2.2 x, List.filter_append]

/-- The first run of the rest, brought to at least the minimal length. -/
theorem nextRun_seg (hlt : StrictWeak lt) {xs : List α} {cur hi minRun nRem : Nat} {s : St α} (hx : xs ≠ [])
    (hl : hi = cur + xs.length) (hr : nRem = xs.length) (hs : Seg s.cell cur xs)
    {β : Type} {Q : β → St α → Prop} {k : Nat → M α β}
    (hQ : ∀ us zs vs s', xs = us ++ vs → us ≠ [] → SSorted lt us zs → SegTo cur us.length zs s s' →
      wp (k us.length) Q s') :
    wp (do
      let runLen ← countRun (tick lt) cur hi
      let runLen ← if runLen < minRun then do
          let force := min nRem minRun
          binarySort (tick lt) cur (cur + force) (cur + runLen)
          pure force
        else pure runLen
      k runLen) Q s := by
  apply wp_bind
  refine wp_mono (countRun_seg hlt hx hl hs) ?_
  rintro _ s1 ⟨us, us', vs, rfl, hu, rfl, h1, h2⟩
  have lu := h1.len
  simp only [List.length_append] at hl hr
  split
  · rename_i hlt'
    dsimp only
    apply wp_bind
    have e : vs = vs.take (min nRem minRun - us.length) ++ vs.drop (min nRem minRun - us.length) :=
      (List.take_append_drop _ _).symm
    have le : (vs.take (min nRem minRun - us.length)).length = min nRem minRun - us.length := by
      rw [List.length_take]; omega
    obtain ⟨su, sv⟩ := seg_append.1 hs
    rw [e] at sv
    obtain ⟨sv, -⟩ := seg_append.1 sv
    refine wp_mono (binarySort_seg hlt (xs := us') (ys := vs.take (min nRem minRun - us.length))
      (start := cur + us.length) (hi := cur + min nRem minRun)
      (by intro e; subst e; exact hu (List.length_eq_zero_iff.1 lu.symm)) (by omega) (by omega) ?_ h1.2.1) ?_
    · refine seg_append.2 ⟨h2.out, ?_⟩
      rw [lu]
      exact sv.congr fun i k1 k2 => h2.rest i (by omega)
    rintro _ s2 ⟨zs, z1, z2⟩
    apply wp_bind
    refine wp_pure ?_
    rw [show min nRem minRun = (us ++ vs.take (min nRem minRun - us.length)).length by
      rw [List.length_append, le]; omega]
    refine hQ _ zs (vs.drop (min nRem minRun - us.length)) s2 ?_ (by simp [hu]) (h1.trans_append z1) ?_
    · rw [List.append_assoc, ← e]
    · refine ⟨z2.1, ?_, by rw [z2.3, h2.3]⟩
      intro i hi
      rw [List.length_append] at hi
      rw [z2.2 i (by omega), h2.2 i (by omega)]
  · apply wp_bind
    exact wp_pure (hQ us us' vs s1 rfl hu h1 h2)

theorem timLoop_seg (hlt : StrictWeak lt) {collapse : TimBuf → List (Nat × Nat) → M α (List (Nat × Nat) × TimBuf)}
    (hcol : Collapses lt collapse) {s0 : St α} {f N hi minRun : Nat} (hN : f + N ≤ s0.brk) (n : Nat) :
    ∀ (b : TimBuf) (p : List (Nat × Nat)) (Zs : List (List α)) (xs : List α) (cur nRem : Nat) (s : St α), xs.length = n →
    xs ≠ [] → nRem = xs.length → cur = f + Zs.flatten.length → hi = cur + xs.length → hi = f + N →
    PendOk lt s0 f N b p Zs s → Seg s.cell cur xs →
    wp (timLoop (tick lt) collapse hi minRun b p cur nRem) (fun r s' => ∃ Zs', PendOk lt s0 f N r.2 r.1 Zs' s' ∧
      Zs'.flatten.Perm (Zs.flatten ++ xs) ∧ SameOrder lt (Zs.flatten ++ xs) Zs'.flatten) s := by
  induction n using Nat.strongRecOn with
  | _ n ih =>
    intro b p Zs xs cur nRem s hn hx hr hc hhi hhf h hs
    rw [timLoop]
    refine nextRun_seg hlt hx hhi hr hs ?_
    intro us zs vs s1 e hu h1 h2
    have lz := h1.len
    have pu := List.length_pos_iff.2 hu
    have le := congrArg List.length e
    rw [List.length_append] at le
    have hP : PendOk lt s0 f N b (p ++ [(cur, us.length)]) (Zs ++ [zs]) s1 := by
      refine ⟨h.buf.of_rest hN (a := cur) (n := us.length) (by omega) (by omega) h2.rest h2.env, ?_, ?_, ?_, ?_⟩
      · rw [runsOf_append, h.runs, ← hc, ← lz]; rfl
      · simp only [List.flatten_append, List.flatten_cons, List.flatten_nil, List.append_nil]
        refine seg_append.2 ⟨h.seg.congr fun i k1 k2 => h2.rest i (by omega), ?_⟩
        rw [← hc]; exact h2.out
      · intro z hz
        rcases List.mem_append.1 hz with hz | hz
        · exact h.sorted z hz
        · simp at hz; subst hz
          exact ⟨by intro e; subst e; simp at lz; omega, h1.2.1⟩
      · simp only [List.flatten_append, List.flatten_cons, List.flatten_nil, List.append_nil, List.length_append]
        omega
    apply wp_bind
    refine wp_mono (hcol s0 f N b _ _ s1 hN hP) ?_
    rintro ⟨p2, b2⟩ s2 ⟨Zs2, T⟩
    dsimp only at T ⊢
    have lT := T.perm.length_eq
    have kT := T.keep
    have pT := T.perm
    have oT := T.order
    simp only [List.flatten_append, List.flatten_cons, List.flatten_nil, List.append_nil, List.length_append] at lT kT pT
    have oT' : SameOrder lt (Zs.flatten ++ zs) Zs2.flatten := by
      simpa only [List.flatten_append, List.flatten_cons, List.flatten_nil, List.append_nil] using oT
    split
    · rename_i hne
      have hv : vs ≠ [] := by intro e'; subst e'; simp at le; omega
      refine wp_mono (ih vs.length (by omega) b2 p2 Zs2 vs (cur + us.length) (nRem - us.length) s2 rfl hv (by omega)
        (by omega) (by omega) hhf T.ok ?_) ?_
      · have sv := hs
        rw [e] at sv
        refine (seg_append.1 sv).2.congr fun i k1 k2 => ?_
        rw [kT i (by omega) (by omega), h2.rest i (by omega)]
      · rintro r s' ⟨Zs', k1, k2, k3⟩
        refine ⟨Zs', k1, ?_, ?_⟩
        · refine k2.trans ((pT.append_right _).trans ?_)
          rw [List.append_assoc, e]
          exact List.Perm.append_left _ (h1.1.append_right _)
        · intro x
          rw [k3 x, List.filter_append, oT' x, e]
          simp only [List.filter_append]
          rw [h1.2.2 x, List.append_assoc]
    · rename_i hne
      have hv : vs = [] := List.length_eq_zero_iff.1 (by omega)
      subst hv
      rw [List.append_nil] at e
      subst e
      refine wp_pure ⟨Zs2, T.ok, pT.trans (List.Perm.append_left _ h1.1), ?_⟩
      intro x
      rw [oT' x, List.filter_append, h1.2.2 x, List.filter_append]

theorem timBase_stably (hlt : StrictWeak lt) {collapse : TimBuf → List (Nat × Nat) → M α (List (Nat × Nat) × TimBuf)}
    (hcol : Collapses lt collapse) : SortsStably lt (timBase (tick lt) collapse) := by
  intro s f xs hw hs
  have main : wp (timBase (tick lt) collapse f (f + xs.length)) (fun _ s' => ∃ ys, SSorted lt xs ys ∧ Seg s'.cell f ys ∧
      (∀ i, i < f ∨ f + xs.length ≤ i → s'.cell i = s.cell i) ∧ s'.WF) s := by
    have hof : ∀ ys s', SSorted lt xs ys → SegTo f xs.length ys s s' → ∃ ys, SSorted lt xs ys ∧ Seg s'.cell f ys ∧
        (∀ i, i < f ∨ f + xs.length ≤ i → s'.cell i = s.cell i) ∧ s'.WF := by
      intro ys s' h1 h2
      refine ⟨ys, h1, h2.out, h2.rest, hw.of_live (St.env_brk h2.env) fun i => ?_⟩
      by_cases c : i < f ∨ f + xs.length ≤ i
      · exact .inl (h2.rest i c)
      · exact .inr (hs.live (by omega) (by omega))
    unfold timBase
    rw [Nat.add_sub_cancel_left]
    dsimp only
    split
    · refine wp_pure ⟨xs, .refl ?_, hs, fun _ _ => rfl, hw⟩
      match xs, ‹xs.length < 2› with
      | [], _ => exact List.Pairwise.nil
      | [x], _ => exact List.pairwise_singleton _ _
    split
    · have hx : xs ≠ [] := by intro e; subst e; simp at *
      apply wp_bind
      refine wp_mono (countRun_seg hlt hx rfl hs) ?_
      rintro _ s1 ⟨us, us', vs, e, hu, rfl, h1, h2⟩
      have lu := h1.len
      have le := congrArg List.length e
      rw [List.length_append] at le
      rw [e] at hs
      refine wp_mono (binarySort_seg hlt (xs := us') (ys := vs) (start := f + us.length) (hi := f + xs.length)
        (by intro e; subst e; exact hu (List.length_eq_zero_iff.1 lu.symm)) (by omega) (by omega) ?_ h1.2.1) ?_
      · refine seg_append.2 ⟨h2.out, ?_⟩
        rw [lu]
        exact (seg_append.1 hs).2.congr fun i k1 k2 => h2.rest i (by omega)
      rintro _ s2 ⟨zs, z1, z2⟩
      refine hof zs s2 (by rw [e]; exact h1.trans_append z1) ⟨z2.1, ?_, by rw [z2.3, h2.3]⟩
      intro i hi
      rw [z2.2 i (by omega), h2.2 i (by omega)]
    · rename_i h2 h32
      have hx : xs ≠ [] := by intro e; subst e; simp at *
      have hN : f + xs.length ≤ s.brk := hs.below hw (by omega)
      have hP : PendOk lt s f xs.length { minGallop := 7, ptr := 0, size := 0 } [] [] s := by
        refine ⟨⟨Nat.le_refl _, fun h => by simp at h, fun h => by simp at h, fun i h1 h2 => by simp at h2,
          fun i h1 h2 => hw i h1, fun _ _ _ => rfl⟩, rfl, Seg.nil, by simp, by simp⟩
      apply wp_bind
      refine wp_mono (timLoop_seg hlt hcol hN _ _ _ [] xs f xs.length s rfl hx rfl (by simp) rfl rfl hP hs) ?_
      rintro ⟨p, b⟩ s1 ⟨Zs, k1, k2, k3⟩
      dsimp only at k1 ⊢
      rw [List.flatten_nil, List.nil_append] at k2 k3
      apply wp_bind
      refine wp_mono (forceCollapse_seg hlt hN _ b p Zs s1 rfl k1) ?_
      rintro ⟨p2, b2⟩ s2 ⟨Zs2, T, hone⟩
      dsimp only at T ⊢
      have hp := T.perm.trans k2
      obtain ⟨zs, rfl⟩ : ∃ zs, Zs2 = [zs] := by
        match Zs2, hone with
        | [zs], _ => exact ⟨zs, rfl⟩
        | [], _ =>
          have := hp.length_eq
          simp at this; omega
      have ho := T.order
      have hsg := T.ok.seg
      simp only [List.flatten_cons, List.flatten_nil, List.append_nil] at hp ho hsg
      have lz := hp.length_eq
      have B := T.ok.buf
      have b1 := B.brk
      have b2' := B.ptr
      have b3 := B.fit
      refine wp_free B.raw ?_
      intro s3 m1 m2 m3 _ _
      have hun : ∀ i, s.brk ≤ i → s3.cell i = .unalloc := by
        intro i hi
        by_cases c : b2.ptr ≤ i ∧ i < b2.ptr + b2.size
        · exact m1 i c.1 c.2
        · rw [m2 i (by omega)]; exact B.fresh i hi (by omega)
      refine ⟨zs, ⟨hp, (T.ok.sorted zs (by simp)).2, fun x => (ho x).trans (k3 x)⟩, ?_, ?_, ?_⟩
      · exact hsg.congr fun i h1 h2 => m2 i (by omega)
      · intro i hi
        by_cases c : i < s.brk
        · rw [m2 i (by omega)]; exact B.rest i c hi
        · rw [hun i (by omega), hw i (by omega)]
      · intro i hi
        rw [St.env_brk m3] at hi
        exact hun i (by omega)
  obtain ⟨_, s', e, ys, h1, h2, h3, h4⟩ := main
  exact ⟨s', ys, e, h1.len, h2, ⟨h1.1, h1.2.1, h1.2.2⟩, h3, h4⟩

theorem timsort_stably (hlt : StrictWeak lt) : SortsStably lt (timsort (tick lt)) :=
  timBase_stably hlt (timCollapse_ok hlt)

theorem adaptiveShiversSort_stably (hlt : StrictWeak lt) : SortsStably lt (adaptiveShiversSort (tick lt)) :=
  timBase_stably hlt (shiversCollapse_ok hlt)

end CppSort
