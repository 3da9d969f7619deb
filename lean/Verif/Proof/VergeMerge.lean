import Verif.Model.Verge
import Verif.Proof.MergeSort
import Verif.Proof.SegRuns
/-
Merging the runs of vergesort.
-/
set_option autoImplicit false

namespace CppSort
variable {α : Type} {lt : α → α → Bool}

/-- The range `[a, a+n)` now holds `ys`; nothing else changed, but memory may have been allocated and freed. -/
structure VTo (a n : Nat) (ys : List α) (s s' : St α) : Prop where
  len : ys.length = n
  out : Seg s'.cell a ys
  rest : ∀ i, i < a ∨ a + n ≤ i → s'.cell i = s.cell i
  wf : s'.WF

theorem SegTo.vto {a n : Nat} {xs ys : List α} {s s' : St α} (h : SegTo a n ys s s') (hw : s.WF) (hs : Seg s.cell a xs)
    (hx : xs.length = n) (hy : ys.length = n) : VTo a n ys s s' := by
  refine ⟨hy, h.out, h.rest, hw.of_live (St.env_brk h.env) fun i => ?_⟩
  by_cases c : i < a ∨ a + n ≤ i
  · exact .inl (h.rest i c)
  · exact .inr (hs.live (by omega) (by omega))

theorem VTo.cmps {a n k : Nat} {ys : List α} {s s' : St α} (h : VTo a n ys { s with cmps := k } s') : VTo a n ys s s' :=
  ⟨h.1, h.2, h.3, h.4⟩

theorem VTo.cmpsr {a n k : Nat} {ys : List α} {s s' : St α} (h : VTo a n ys s s') : VTo a n ys s { s' with cmps := k } :=
  ⟨h.1, h.2, h.3, h.4⟩

theorem VTo.refl {a n : Nat} {ys : List α} {s : St α} (hw : s.WF) (hs : Seg s.cell a ys) (hn : ys.length = n) :
    VTo a n ys s s := ⟨hn, hs, fun _ _ => rfl, hw⟩

/-- Changing a part of the range. -/
theorem VTo.step {f N a n : Nat} {A B B' C : List α} {s0 s s' : St α} (h : VTo f N (A ++ (B ++ C)) s0 s)
    (h' : VTo a n B' s s') (ha : a = f + A.length) (hn : B.length = n) : VTo f N (A ++ (B' ++ C)) s0 s' := by
  have h1 := h.len
  have h2 := h'.len
  have h3 := h.out
  simp only [List.length_append] at h1
  obtain ⟨sA, sB⟩ := seg_append.1 h3
  obtain ⟨-, sC⟩ := seg_append.1 sB
  refine ⟨by simp only [List.length_append]; omega, seg_append.2 ⟨?_, seg_append.2 ⟨?_, ?_⟩⟩, ?_, h'.wf⟩
  · exact sA.congr fun i k1 k2 => h'.rest i (by omega)
  · rw [← ha]; exact h'.out
  · rw [show f + A.length + B'.length = f + A.length + B.length by omega]
    exact sC.congr fun i k1 k2 => h'.rest i (by omega)
  · intro i hi
    rw [h'.rest i (by omega), h.rest i hi]

/-- The part of the range to work on. -/
theorem VTo.part {f N : Nat} {A B C : List α} {s0 s : St α} (h : VTo f N (A ++ (B ++ C)) s0 s) :
    Seg s.cell (f + A.length) B := (seg_append.1 (seg_append.1 h.out).2).1

theorem inplaceMergeLen_seg (hlt : StrictWeak lt) (c : Cfg) (hc : c.cat ≠ .forward) {xs ys : List α}
    {a m l : Nat} {s : St α} (hw : s.WF) (hx0 : xs ≠ []) (hm : m = a + xs.length) (hl : l = m + ys.length) (hs : Seg s.cell a (xs ++ ys))
    (hx : SortedList lt xs) (hy : SortedList lt ys) :
    wp (inplaceMergeLen (tick lt) c a m l xs.length ys.length)
      (fun _ s' => ∃ zs, SSorted lt (xs ++ ys) zs ∧ VTo a (xs.length + ys.length) zs s s') s := by
  obtain ⟨x0, _, _⟩ := List.exists_cons_of_ne_nil hx0
  haveI : Inhabited α := ⟨x0⟩
  obtain ⟨v, hh, he⟩ := hs.holds
  have hL : a + (xs ++ ys).length = l := by rw [List.length_append]; omega
  rw [hL] at hh he
  have he1 : lst v a m ++ lst v m l = xs ++ ys := by rw [← he]; exact (lst_append (by omega) (by omega)).symm
  obtain ⟨e1, e2⟩ := List.append_inj he1 (by simp; omega)
  unfold inplaceMergeLen
  apply wp_bind
  refine wp_mono (newBuf_spec (f := a) (l := a) hw) ?_
  intro b s2 hb
  have hnull : RawBuf s.cell Buf.null.ptr Buf.null.size := by
    intro i p q; simp only [Buf.null] at p q; omega
  have hh2 : Holds s2.cell a l v := hb.holds hnull (f' := a) (l' := l) hh (by omega)
  apply wp_bind
  refine wp_mono (inplaceMergeBuf_spec hlt c hc (buff := b.ptr) (buffSize := b.size) hm hl s2 v hh2
    (sortedOn_iff.2 (by rw [e1]; exact hx)) (sortedOn_iff.2 (by rw [e2]; exact hy)) hb.raw) ?_
  rintro _ s3 ⟨v3, u3, o3⟩
  have hbf := (hb.mono (f := a) (l := l) (by omega) (by omega)).trans (BFrame.of_upd hb.wf hb.raw hh2 u3.upd)
  refine wp_mono (Buf.release_spec hbf) ?_
  rintro _ s4 ⟨d1, d2, d3⟩
  have U : SUpd lt a l s s4 v v3 := ⟨d3 _ u3.holds, u3.sperm, ⟨fun i hi => by rw [d1 i hi, hide_null], d2⟩⟩
  refine ⟨lst v3 a l, ⟨?_, sortedOn_iff.1 o3, ?_⟩, ⟨by simp; omega, U.holds.seg, ?_, U.upd.wf hh hw⟩⟩
  · have := U.sperm.1.2; rwa [he] at this
  · have := U.sperm.2; rwa [he] at this
  · intro i hi; exact U.frame.cell i (by omega)

theorem vergeMerge_seg (hlt : StrictWeak lt) (c : Cfg) (hc : c.cat ≠ .forward) {xs ys : List α} {first a : Nat} {r r' : VRun}
    {s : St α} (hw : s.WF) (h1 : r.size = xs.length) (h2 : r'.size = ys.length) (h3 : r.stop = a + xs.length)
    (h4 : r'.stop = r.stop + ys.length) (hs : Seg s.cell a (xs ++ ys)) (hx0 : xs ≠ []) (hy0 : ys ≠ [])
    (hx : SortedList lt xs) (hy : SortedList lt ys) (hone : first = a ∨ xs.length ≠ 1) :
    wp (vergeMerge (tick lt) c first a r r')
      (fun _ s' => ∃ zs, SSorted lt (xs ++ ys) zs ∧ VTo a (xs.length + ys.length) zs s s') s := by
  have px := List.length_pos_iff.2 hx0
  have py := List.length_pos_iff.2 hy0
  obtain ⟨sx, sy⟩ := seg_append.1 hs
  have hid : ∀ k, SortedList lt (xs ++ ys) →
      ∃ zs, SSorted lt (xs ++ ys) zs ∧ VTo a (xs.length + ys.length) zs s { s with cmps := k } := fun k ho =>
    ⟨xs ++ ys, .refl ho, (VTo.refl hw hs List.length_append).cmpsr⟩
  unfold vergeMerge
  split
  · rename_i e
    obtain ⟨x, rfl⟩ : ∃ x, xs = [x] := List.length_eq_one_iff.1 (by omega)
    obtain ⟨y, ys', rfl⟩ := List.exists_cons_of_ne_nil hy0
    obtain rfl : first = a := by simpa using hone
    apply wp_bind
    refine wp_read' (x := x) (seg_one.1 sx) ?_
    apply wp_bind
    refine wp_read' (x := y) (by rw [h3]; exact (seg_cons.1 sy).1) ?_
    apply wp_bind
    apply wp_tick
    split
    · rename_i hyx
      apply wp_bind
      rw [show r'.size = r'.stop - r.stop by omega]
      refine wp_mono (lowerBound_seg (s := { s with cmps := s.cmps + 1 }) hlt x h4 (by rw [h3]; exact sy) hy) ?_
      rintro _ _ ⟨us, vs, k, e, rfl, g1, g2, rfl⟩
      rw [e] at hs hy ⊢
      have V : VTo first ([x].length + (us ++ vs).length) ([] ++ ((x :: us) ++ vs)) s { s with cmps := k } :=
        (VTo.refl hw (by simpa using hs) (by simp; omega)).cmpsr
      apply wp_bind
      refine wp_mono (rotateLeft_seg (x := x) (xs := us) (s := { s with cmps := k }) (by simp at h3; omega) V.part) ?_
      intro _ s' R
      refine wp_pure ⟨us ++ x :: vs, ⟨?_, ?_, ?_⟩, ?_⟩
      · simp only [List.singleton_append]
        exact List.perm_middle
      · have h5 := List.pairwise_append.1 hy
        refine List.pairwise_append.2 ⟨h5.1, List.pairwise_cons.2 ⟨g2, h5.2.1⟩, ?_⟩
        intro u hu w hw'
        rcases List.mem_cons.1 hw' with rfl | hw'
        · exact hlt.le_of_lt (g1 u hu)
        · exact h5.2.2 u hu w hw'
      · intro z
        simp only [List.filter_append, List.filter_cons, List.filter_nil]
        split
        · rename_i hz
          have : us.filter (eqv lt z) = [] := by
            rw [List.filter_eq_nil_iff]
            intro u hu hz'
            have := hlt.eqv_trans (StrictWeak.eqv_symm hz') hz
            simp [eqv, g1 u hu] at this
          rw [this]; rfl
        · rfl
      · simpa using V.step (R.vto V.wf V.part (by simp) (by simp)) rfl (by simp)
    · rename_i hyx
      refine wp_pure (hid _ ?_)
      refine List.pairwise_append.2 ⟨hx, hy, ?_⟩
      intro u hu w hw'
      simp at hu; subst hu
      have h0 : lt y u = false := by simpa using hyx
      rcases List.mem_cons.1 hw' with rfl | hw'
      · exact h0
      · exact hlt.le_trans h0 ((List.pairwise_cons.1 hy).1 w hw')
  · rename_i e
    split
    · rename_i e'
      obtain ⟨y, rfl⟩ : ∃ y, ys = [y] := List.length_eq_one_iff.1 (by omega)
      obtain ⟨xs', x, rfl⟩ := exists_snoc hx0
      simp only [List.length_append, List.length_cons, List.length_nil] at h1 h2 h3 h4
      have s1 := (seg_snoc.1 sx).2
      apply wp_bind
      refine wp_read' (x := y) ?_ ?_
      · have := seg_one.1 sy
        simp only [List.length_append, List.length_cons, List.length_nil] at this
        rw [show r'.stop - 1 = a + (xs'.length + (0 + 1)) by omega]; exact this
      apply wp_bind
      refine wp_read' (x := x) (by rw [show r.stop - 1 = a + xs'.length by omega]; exact s1) ?_
      apply wp_bind
      apply wp_tick
      split
      · apply wp_bind
        rw [show r.size = r.stop - a by omega]
        refine wp_mono (upperBound_seg (s := { s with cmps := s.cmps + 1 }) hlt y (by simp; omega) sx hx) ?_
        rintro _ _ ⟨us, vs, k, e, rfl, g1, g2, rfl⟩
        have le := congrArg List.length e
        simp only [List.length_append, List.length_cons, List.length_nil] at le
        rw [e] at hs hx ⊢
        have V : VTo a ((us ++ vs).length + [y].length) (us ++ ((vs ++ [y]) ++ [])) s { s with cmps := k } :=
          (VTo.refl hw (by simpa using hs) (by simp; omega)).cmpsr
        apply wp_bind
        refine wp_mono (rotateRight_seg (x := y) (xs := vs) (s := { s with cmps := k }) (by omega) V.part) ?_
        intro _ s' R
        refine wp_pure ⟨us ++ y :: vs, ⟨?_, ?_, ?_⟩, ?_⟩
        · rw [List.append_assoc]
          exact List.Perm.append_left _ (List.perm_append_singleton _ _).symm
        · have h5 := List.pairwise_append.1 hx
          refine List.pairwise_append.2 ⟨h5.1, List.pairwise_cons.2 ⟨fun w hw' => hlt.le_of_lt (g2 w hw'), h5.2.1⟩, ?_⟩
          intro u hu w hw'
          rcases List.mem_cons.1 hw' with rfl | hw'
          · exact g1 u hu
          · exact h5.2.2 u hu w hw'
        · intro z
          simp only [List.filter_append, List.filter_cons, List.filter_nil, List.append_assoc]
          split
          · rename_i hz
            have : vs.filter (eqv lt z) = [] := by
              rw [List.filter_eq_nil_iff]
              intro u hu hz'
              have := hlt.eqv_trans (StrictWeak.eqv_symm hz) hz'
              simp [eqv, g2 u hu] at this
            rw [this]; rfl
          · simp
        · simpa using V.step (R.vto V.wf V.part (by simp) (by simp)) rfl (by simp)
      · rename_i hyx
        refine wp_pure (hid _ ?_)
        refine List.pairwise_append.2 ⟨hx, hy, ?_⟩
        intro u hu w hw'
        simp at hw'; subst hw'
        have h0 : lt w x = false := by simpa using hyx
        rcases List.mem_append.1 hu with hu | hu
        · exact hlt.le_trans ((List.pairwise_append.1 hx).2.2 u hu x (by simp)) h0
        · simp at hu; subst hu; exact h0
    · rw [h1, h2]
      exact inplaceMergeLen_seg hlt c hc hw hx0 h3 h4 hs hx hy

/-- The runs of consecutive lists. -/
def vrunsOf (f : Nat) : List (List α) → List VRun
  | [] => []
  | z :: Zs => ⟨f + z.length, z.length⟩ :: vrunsOf (f + z.length) Zs

theorem vrunsOf_append : ∀ (Zs Ws : List (List α)) (f : Nat),
    vrunsOf f (Zs ++ Ws) = vrunsOf f Zs ++ vrunsOf (f + Zs.flatten.length) Ws
  | [], _, _ => by simp [vrunsOf]
  | z :: Zs, Ws, f => by
    simp only [List.cons_append, vrunsOf, vrunsOf_append Zs Ws, List.flatten_cons, List.length_append]
    rw [show f + z.length + Zs.flatten.length = f + (z.length + Zs.flatten.length) by omega]

theorem vrunsOf_length : ∀ (Zs : List (List α)) (f : Nat), (vrunsOf f Zs).length = Zs.length
  | [], _ => rfl
  | _ :: Zs, _ => by simp [vrunsOf, vrunsOf_length Zs]

/-- Merging lists of runs. -/
structure VMerged (lt : α → α → Bool) (Zs Ws : List (List α)) : Prop where
  perm : Ws.flatten.Perm Zs.flatten
  order : SameOrder lt Zs.flatten Ws.flatten
  sorted : ∀ w ∈ Ws, w ≠ [] ∧ SortedList lt w

theorem vergePass_seg (hlt : StrictWeak lt) (c : Cfg) (hc : c.cat ≠ .forward) {f N : Nat} {s0 : St α} (n : Nat) :
    ∀ (Zs : List (List α)) (A : List α) (start : Nat) (s : St α), Zs.length = n → start = f + A.length →
    VTo f N (A ++ Zs.flatten) s0 s → (∀ z ∈ Zs, z ≠ [] ∧ SortedList lt z) → (∀ z ∈ Zs.tail.dropLast, z.length ≠ 1) →
    (A ≠ [] → 2 ≤ Zs.length → ∀ z ∈ Zs.head?, z.length ≠ 1) →
    wp (vergePass (tick lt) c f start (vrunsOf start Zs)) (fun r s' => ∃ Ws, r = vrunsOf start Ws ∧ VMerged lt Zs Ws ∧
      VTo f N (A ++ Ws.flatten) s0 s' ∧ (∀ w ∈ Ws.dropLast, w.length ≠ 1) ∧ 2 * Ws.length ≤ Zs.length + 1) s := by
  induction n using Nat.strongRecOn with
  | _ n ih =>
    intro Zs A start s hn hst V hso h1 h2
    match Zs with
    | [] =>
      exact wp_pure ⟨[], rfl, ⟨.refl _, fun _ => rfl, hso⟩, V, by simp, by simp⟩
    | [z] =>
      exact wp_pure ⟨[z], rfl, ⟨.refl _, fun _ => rfl, hso⟩, V, by simp, by simp⟩
    | z1 :: z2 :: Zs =>
      simp only [List.length_cons] at hn
      have o1 := hso z1 (by simp)
      have o2 := hso z2 (by simp)
      have p1 := List.length_pos_iff.2 o1.1
      have p2 := List.length_pos_iff.2 o2.1
      have V' : VTo f N (A ++ ((z1 ++ z2) ++ Zs.flatten)) s0 s := by simpa using V
      rw [show vrunsOf start (z1 :: z2 :: Zs) = ⟨start + z1.length, z1.length⟩ ::
        ⟨start + z1.length + z2.length, z2.length⟩ :: vrunsOf (start + z1.length + z2.length) Zs from rfl]
      unfold vergePass
      apply wp_bind
      refine wp_mono (vergeMerge_seg hlt c hc V'.wf rfl rfl rfl rfl (by rw [hst]; exact V'.part) o1.1 o2.1 o1.2 o2.2 ?_) ?_
      · by_cases hA : A = []
        · left; rw [hst, hA]; rfl
        · right; exact h2 hA (by simp) z1 (by simp)
      rintro _ s1 ⟨zs, m1, m2⟩
      have lz := m2.len
      have V1 : VTo f N ((A ++ zs) ++ Zs.flatten) s0 s1 := by
        have := V'.step m2 hst (by simp)
        simpa using this
      apply wp_bind
      dsimp only
      refine wp_mono (ih Zs.length (by omega) Zs (A ++ zs) (start + z1.length + z2.length) s1 rfl ?_ V1
        (fun z hz => hso z (by simp [hz])) ?_ ?_) ?_
      · rw [List.length_append]; omega
      · intro z hz
        refine h1 z ?_
        match Zs with
        | [] => simp at hz
        | [_] => simp at hz
        | a :: b :: Zs => simp at hz ⊢; exact .inr (.inr hz)
      · intro _ hl z hz
        refine h1 z ?_
        match Zs with
        | [] => simp at hz
        | [_] => simp at hl
        | a :: b :: Zs => simp at hz ⊢; exact .inr (.inl hz.symm)
      rintro _ s2 ⟨Ws, rfl, k1, k2, k3, k4⟩
      refine wp_pure ⟨zs :: Ws, ?_, ⟨?_, ?_, ?_⟩, ?_, ?_, ?_⟩
      · show _ = VRun.mk (start + zs.length) zs.length :: vrunsOf (start + zs.length) Ws
        rw [lz, show start + z1.length + z2.length = start + (z1.length + z2.length) by omega,
          show z2.length + z1.length = z1.length + z2.length by omega]
      · simp only [List.flatten_cons]
        rw [← List.append_assoc]
        exact m1.1.append k1.perm
      · intro x
        simp only [List.flatten_cons, List.filter_append]
        have := m1.2.2 x
        rw [List.filter_append] at this
        rw [this, k1.order x, List.append_assoc]
      · intro w hw
        rcases List.mem_cons.1 hw with rfl | hw
        · exact ⟨by intro e; subst e; simp at lz; omega, m1.2.1⟩
        · exact k1.sorted w hw
      · simpa using k2
      · intro w hw
        match Ws with
        | [] => simp at hw
        | a :: Ws =>
          simp only [List.dropLast_cons₂, List.mem_cons] at hw
          rcases hw with rfl | hw
          · omega
          · exact k3 w hw
      · simp only [List.length_cons]; omega

theorem vergeMergeLoop_seg (hlt : StrictWeak lt) (c : Cfg) (hc : c.cat ≠ .forward) {f N : Nat} {s0 : St α} (n : Nat) :
    ∀ (Zs : List (List α)) (s : St α), Zs.length = n → 2 ≤ n →
    VTo f N Zs.flatten s0 s → (∀ z ∈ Zs, z ≠ [] ∧ SortedList lt z) → (∀ z ∈ Zs.tail.dropLast, z.length ≠ 1) →
    wp (vergeMergeLoop (tick lt) c f (vrunsOf f Zs)) (fun _ s' => ∃ zs, SSorted lt Zs.flatten zs ∧ VTo f N zs s0 s') s := by
  induction n using Nat.strongRecOn with
  | _ n ih =>
    intro Zs s hn h2 V hso h1
    rw [vergeMergeLoop]
    apply wp_bind
    refine wp_mono (vergePass_seg hlt c hc Zs.length Zs [] f s rfl rfl V hso h1 (by simp)) ?_
    rintro _ s1 ⟨Ws, rfl, k1, k2, k3, k4⟩
    rw [vrunsOf_length]
    rw [List.nil_append] at k2
    split
    · refine wp_mono (ih Ws.length (by omega) Ws s1 rfl (by omega) k2 k1.sorted ?_) ?_
      · intro z hz
        refine k3 z ?_
        match Ws with
        | [] => simp at hz
        | [_] => simp at hz
        | a :: b :: Ws => simp at hz ⊢; exact .inr hz
      · rintro _ s' ⟨zs, q1, q2⟩
        exact ⟨zs, ⟨q1.1.trans k1.perm, q1.2.1, fun x => (q1.2.2 x).trans (k1.order x)⟩, q2⟩
    · obtain ⟨zs, rfl⟩ : ∃ zs, Ws = [zs] := by
        have hl : ¬ 1 < Ws.length := ‹_›
        match Ws, hl with
        | _ :: _ :: _, hl => simp at hl
        | [zs], _ => exact ⟨zs, rfl⟩
        | [], _ =>
          have := k1.perm.length_eq
          match Zs with
          | z :: Zs =>
            have := List.length_pos_iff.2 (hso z (by simp)).1
            simp at *; omega
          | [] => simp at hn; omega
      have q1 := k1.perm
      have q2 := k1.order
      simp only [List.flatten_cons, List.flatten_nil, List.append_nil] at q1 q2 k2
      exact wp_pure ⟨zs, ⟨q1, (k1.sorted zs (by simp)).2, q2⟩, k2⟩

theorem vergeMergeRuns_seg (hlt : StrictWeak lt) (c : Cfg) (hc : c.cat ≠ .forward) {f N : Nat} {s0 s : St α}
    {Zs : List (List α)} (V : VTo f N Zs.flatten s0 s) (hso : ∀ z ∈ Zs, z ≠ [] ∧ SortedList lt z)
    (h1 : ∀ z ∈ Zs.tail.dropLast, z.length ≠ 1) :
    wp (vergeMergeRuns (tick lt) c f (vrunsOf f Zs)) (fun _ s' => ∃ zs, SSorted lt Zs.flatten zs ∧ VTo f N zs s0 s') s := by
  unfold vergeMergeRuns
  rw [vrunsOf_length]
  split
  · refine wp_pure ⟨Zs.flatten, .refl ?_, V⟩
    match Zs with
    | [] => exact List.Pairwise.nil
    | [z] => simpa using (hso z (by simp)).2
    | _ :: _ :: _ => exact absurd ‹_› (by simp)
  · exact vergeMergeLoop_seg hlt c hc _ Zs s rfl (by omega) V hso h1

end CppSort
