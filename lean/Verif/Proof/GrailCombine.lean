import Verif.Proof.GrailBlocks
/-
grail_sort.h 320-455: merging the blocks of two streams.
-/
set_option autoImplicit false

namespace CppSort
variable {α : Type} {lt : α → α → Bool} [Inhabited α]

/-- The length of the buffer before the elements. -/
def GapLen (b : GrailBuf) (lb n : Nat) : Prop := (b = .none → n = 0) ∧ (b ≠ .none → n = lb ∧ 0 < lb)

theorem emit_spec {b : GrailBuf} {lb o p : Nat} {R J : List α} {s : St α} (hJ : GapLen b lb J.length) (hp : p = o + J.length)
    (g : Gap b s.cell o J) (sr : Seg s.cell p R) :
    wp (b.emit p R.length lb) (fun _ s' => ∃ J', J'.Perm J ∧ Seg s'.cell o R ∧ Gap b s'.cell (o + R.length) J' ∧
      Frame o (p + R.length) s s') s := by
  unfold GrailBuf.emit
  split
  · rename_i h
    have h0 := hJ.1 h
    have : J = [] := List.length_eq_zero_iff.1 h0
    subst this
    refine wp_pure ⟨[], .refl _, ?_, Gap.nil, Frame.refl _ _ _⟩
    rw [hp] at sr
    simpa using sr
  · rename_i h
    obtain ⟨h1, h2⟩ := hJ.2 h
    rw [show p - lb = o by omega]
    exact putRange_spec R J o p (p + R.length) s hp rfl (by omega) g sr

theorem smart_spec (hlt : StrictWeak lt) (c : Cfg) {b : GrailBuf} {frag : Bool} {lb o p : Nat} {R Y J : List α} {s : St α}
    (hJ : GapLen b lb J.length) (hp : p = o + J.length) (hR : R ≠ []) (hY : Y.length = lb) (hlb : 0 < lb) (oR : SortedList lt R)
    (oY : SortedList lt Y) (g : Gap b s.cell o J) (sr : Seg s.cell p R) (sy : Seg s.cell (p + R.length) Y) :
    wp (b.smart (tick lt) c p R.length lb frag) (fun r s' => ∃ E R' J', J'.Perm J ∧ r.1 = R'.length ∧ R' ≠ [] ∧
      E.length + R'.length = R.length + Y.length ∧ Seg s'.cell o E ∧ Gap b s'.cell (o + E.length) J' ∧
      Seg s'.cell (o + E.length + J'.length) R' ∧ SmartRel lt frag R Y E R' r.2 ∧ Frame o (p + R.length + Y.length) s s') s := by
  have hY0 : Y ≠ [] := List.length_pos_iff.1 (by omega)
  unfold GrailBuf.smart
  rw [← Nat.add_assoc]
  split
  · rename_i h
    have h0 := hJ.1 h
    have : J = [] := List.length_eq_zero_iff.1 h0
    subst this
    simp only [List.length_nil, Nat.add_zero] at hp
    subst hp
    refine wp_mono (smartMergeWithout_spec hlt c rfl (by omega) hR hY0 oR oY (seg_append.2 ⟨sr, sy⟩)) ?_
    rintro r s' ⟨E, R', q1, q2, q3, q4, q5, q6⟩
    obtain ⟨q7, q8⟩ := seg_append.1 q4
    exact ⟨E, R', [], .refl _, q1, q2, q3, q7, Gap.nil, by simpa using q8, q5, q6.mono (Nat.le_refl _) (by omega)⟩
  · rename_i h
    obtain ⟨h1, h2⟩ := hJ.2 h
    refine wp_mono (smartMerge_spec hlt (frag := frag) (by omega) (by omega) rfl (by omega) hY hR hY0 g sr sy) ?_
    rintro r s' ⟨E, R', J', q1, q2, q3, q4, q5, q6, q7, q8, q9⟩
    exact ⟨E, R', J', q1, q2, q3, q4, q5, q6, q7, q8, q9.mono (Nat.le_refl _) (by omega)⟩

theorem final_spec (hlt : StrictWeak lt) (c : Cfg) {b : GrailBuf} {lb o first middle last : Nat} {X Y J : List α} {s : St α}
    (hJ : GapLen b lb J.length) (hf : first = o + J.length) (hm : middle = first + X.length) (hl : last = middle + Y.length)
    (hY : Y.length ≤ lb) (oX : SortedList lt X) (oY : SortedList lt Y) (g : Gap b s.cell o J) (sx : Seg s.cell first X) (sy : Seg s.cell middle Y) :
    wp (b.final (tick lt) c first middle last lb) (fun _ s' => ∃ J', J'.Perm J ∧ Seg s'.cell o (mergeL lt X Y) ∧
      Gap b s'.cell (o + (X.length + Y.length)) J' ∧ Frame o last s s') s := by
  unfold GrailBuf.final
  split
  · rename_i h
    have h0 := hJ.1 h
    have : J = [] := List.length_eq_zero_iff.1 h0
    subst this
    simp only [List.length_nil, Nat.add_zero] at hf
    subst hf
    refine wp_mono (mergeWithoutBuffer_spec hlt c hm hl oX oY (seg_append.2 ⟨sx, by rw [← hm]; exact sy⟩)) ?_
    rintro _ s' ⟨q1, q2⟩
    exact ⟨[], .refl _, q1, Gap.nil, q2⟩
  · rename_i h
    obtain ⟨h1, h2⟩ := hJ.2 h
    rw [show first - lb = o by omega]
    exact mergeLeft_spec hlt hf hm hl (by omega) g sx sy

theorem bools_length {lb : Nat} : ∀ {P : List (Bool × List α)}, (∀ p ∈ P, p.2.length = lb) → (P.flatMap (·.2)).length = P.length * lb
  | [], _ => by simp
  | p :: P, h => by
    rw [List.flatMap_cons, List.length_append, bools_length fun q hq => h q (List.mem_cons_of_mem _ hq), h p List.mem_cons_self,
      List.length_cons, Nat.succ_mul]
    omega

theorem grailStream_spec {keys midkey i : Nat} {x m : α} {s : St α} {Q : Bool → St α → Prop} (hx : s.cell (keys + i) = .val x)
    (hm : s.cell midkey = .val m) (hQ : ∀ k, Q (!lt x m) { s with cmps := k }) : wp (grailStream (tick lt) keys midkey i) Q s := by
  unfold grailStream
  apply wp_bind
  refine grailCmp3At_spec hx hm fun k => ?_
  rw [cmp3_neg]
  exact wp_pure (hQ k)

theorem mergeBuffersLoop_spec (hlt : StrictWeak lt) (c : Cfg) {b : GrailBuf} {keys midkey nblock lb : Nat} {m : α} (hlb : 0 < lb)
    (qs : List (Bool × List α)) : ∀ (bs : List (Bool × List α)) (ks R J : List α) (fr : Bool) (cidx pidx o : Nat) (s : St α),
    nblock = cidx + bs.length → (∀ q ∈ bs, q.2.length = lb) → GapLen b lb J.length → R ≠ [] → pidx = o + J.length + R.length →
    keys + nblock ≤ o → (midkey < o ∨ pidx + bs.length * lb ≤ midkey) → (bs ++ qs).Pairwise (Before lt) → SidesSorted lt ((fr, R) :: (bs ++ qs)) →
    s.cell midkey = .val m → Seg s.cell (keys + cidx) ks → ks.map (fun k => !lt k m) = bs.map (·.1) →
    Gap b s.cell o J → Seg s.cell (o + J.length) R → Seg s.cell pidx (bs.flatMap (·.2)) →
    wp (mergeBuffersLoop (tick lt) c b keys midkey nblock lb cidx pidx R.length fr) (fun r s' => ∃ F R' J', J'.Perm J ∧
      r.1 = pidx + bs.length * lb ∧ r.2.1 = R'.length ∧ R' ≠ [] ∧ o + F.length + J'.length + R'.length = r.1 ∧
      Seg s'.cell o F ∧ Gap b s'.cell (o + F.length) J' ∧ Seg s'.cell (o + F.length + J'.length) R' ∧
      Mg lt ((fr, R) :: (bs ++ qs)) = F ++ Mg lt ((r.2.2, R') :: qs) ∧ SidesSorted lt ((r.2.2, R') :: qs) ∧ Frame o r.1 s s') s := by
  intro bs
  induction bs with
  | nil =>
    intro ks R J fr cidx pidx o s hn hb hJ hR hp hk hmk ho hss sm sk ek g sr sb
    simp only [List.length_nil] at hn
    rw [mergeBuffersLoop, if_neg (by omega)]
    refine wp_pure ⟨[], R, J, .refl _, by simp, rfl, hR, by simp; omega, Seg.nil, by simpa using g, by simpa using sr, rfl, hss, Frame.refl _ _ _⟩
  | cons q bs ih =>
    intro ks R J fr cidx pidx o s hn hb hJ hR hp hk hmk ho hss sm sk ek g sr sb
    obtain ⟨t, Y⟩ := q
    have hY : Y.length = lb := hb _ List.mem_cons_self
    have hY0 : Y ≠ [] := List.length_pos_iff.1 (by omega)
    cases ks with
    | nil => simp at ek
    | cons k ks =>
      simp only [List.map_cons, List.cons.injEq] at ek
      obtain ⟨et, ek⟩ := ek
      simp only [List.length_cons, Nat.succ_mul] at hn hmk
      obtain ⟨sk1, sk2⟩ := seg_cons.1 sk
      rw [List.flatMap_cons, seg_append] at sb
      obtain ⟨sy, sb⟩ := sb
      simp only at sy
      have hR0 := List.length_pos_iff.2 hR
      have hbl : (bs.flatMap (·.2)).length = bs.length * lb := bools_length fun q hq => hb q (List.mem_cons_of_mem _ hq)
      rw [List.cons_append] at ho hss
      obtain ⟨ho1, ho2⟩ := List.pairwise_cons.1 ho
      have hks := congrArg List.length ek
      simp only [List.length_map] at hks
      have hwell : pidx - R.length = o + J.length := by omega
      rw [mergeBuffersLoop, if_pos (by omega)]
      apply wp_bind
      refine grailStream_spec sk1 sm fun kk => ?_
      rw [et]
      split
      · rename_i e
        subst e
        rw [hwell]
        apply wp_bind
        refine wp_mono (emit_spec hJ rfl g sr) ?_
        rintro _ s1 ⟨J1, q1, q2, q3, q4⟩
        have hJ1 := q1.length_eq
        have := ih ks Y J1 t (cidx + 1) (pidx + lb) (o + R.length) s1 (by omega) (fun q hq => hb q (List.mem_cons_of_mem _ hq))
          (by rw [hJ1]; exact hJ) hY0 (by omega) (by omega) (by omega) ho2 hss.tail ?_ ?_ ek q3 ?_ ?_
        rw [hY] at this
        refine wp_mono this ?_
        rotate_left
        · rw [q4.cell _ (by omega)]; exact sm
        · exact sk2.congr fun i h1 h2 => q4.cell i (by omega)
        · rw [show o + R.length + J1.length = pidx by omega]
          exact sy.congr fun i h1 h2 => q4.cell i (by omega)
        · rw [hY] at sb
          exact sb.congr fun i h1 h2 => q4.cell i (by omega)
        · rintro r s2 ⟨F, R', J', p1, p2, p3, p4, p5, p6, p7, p8, p9, p10, p11⟩
          have hJ' := p1.length_eq
          refine ⟨R ++ F, R', J', p1.trans q1, ?_, p3, p4, ?_, seg_append.2 ⟨?_, p6⟩, ?_, ?_, ?_, p10, ?_⟩
          · rw [p2, List.length_cons, Nat.succ_mul]; omega
          · rw [List.length_append]; omega
          · exact q2.congr fun i h1 h2 => p11.cell i (by omega)
          · rw [List.length_append, ← Nat.add_assoc]; exact p7
          · rw [List.length_append, ← Nat.add_assoc]; exact p8
          · rw [List.cons_append, Mg_same hlt hY0 hss ho1, p9, List.append_assoc]
          · exact (q4.tick.mono (Nat.le_refl _) (by omega)).trans (p11.mono (by omega) (Nat.le_refl _))
      · rename_i e
        have e : t = !fr := by cases t <;> cases fr <;> simp at e ⊢
        subst e
        rw [hwell]
        apply wp_bind
        refine wp_mono (smart_spec hlt c (frag := fr) hJ rfl hR hY hlb hss.first ?_ g sr ?_) ?_
        · exact hss.tail.first
        · rw [show o + J.length + R.length = pidx by omega]; exact sy
        rintro ⟨lr, fr'⟩ s1 ⟨E, R1, J1, q1, q2, q3, q4, q5, q6, q7, q8, q9⟩
        simp only at q2 q8 ⊢
        subst q2
        have hJ1 := q1.length_eq
        have hR1 := List.length_pos_iff.2 q3
        refine wp_mono (ih ks R1 J1 fr' (cidx + 1) (pidx + lb) (o + E.length) s1 (by omega) (fun q hq => hb q (List.mem_cons_of_mem _ hq))
          (by rw [hJ1]; exact hJ) q3 (by omega) (by omega) (by omega) ho2 (SidesSorted.smart q8 hss) ?_ ?_ ek q6 q7 ?_) ?_
        · rw [q9.cell _ (by omega)]; exact sm
        · exact sk2.congr fun i h1 h2 => q9.cell i (by omega)
        · rw [hY] at sb
          exact sb.congr fun i h1 h2 => q9.cell i (by omega)
        · rintro r s2 ⟨F, R', J', p1, p2, p3, p4, p5, p6, p7, p8, p9, p10, p11⟩
          have hJ' := p1.length_eq
          refine ⟨E ++ F, R', J', p1.trans q1, ?_, p3, p4, ?_, seg_append.2 ⟨?_, p6⟩, ?_, ?_, ?_, p10, ?_⟩
          · rw [p2, List.length_cons, Nat.succ_mul]; omega
          · rw [List.length_append]; omega
          · exact q5.congr fun i h1 h2 => p11.cell i (by omega)
          · rw [List.length_append, ← Nat.add_assoc]; exact p7
          · rw [List.length_append, ← Nat.add_assoc]; exact p8
          · rw [List.cons_append, Mg_smart q8, p9, List.append_assoc]
          · exact (q9.tick.mono (Nat.le_refl _) (by omega)).trans (p11.mono (by omega) (Nat.le_refl _))

theorem mergeBuffersEnd_spec (hlt : StrictWeak lt) (c : Cfg) {b : GrailBuf} {lb nb2 o pidx : Nat} {fr : Bool} {R J T : List α}
    {tr : List (Bool × List α)} {s : St α} (hJ : GapLen b lb J.length) (hp : pidx = o + J.length + R.length)
    (hT : T.length < lb) (htr : tr.length = nb2) (hT0 : T = [] → tr = []) (hlen : ∀ q ∈ tr, q.2.length = lb) (hall : ∀ q ∈ tr, q.1 = false)
    (hss : SidesSorted lt ((fr, R) :: (true, T) :: tr)) (hb : ∀ q ∈ tr, Before lt (true, T) q) (g : Gap b s.cell o J)
    (sr : Seg s.cell (o + J.length) R) (st : Seg s.cell pidx (tr.flatMap (·.2) ++ T)) :
    wp (mergeBuffersEnd (tick lt) c b lb nb2 T.length pidx R.length fr) (fun _ s' => ∃ J', J'.Perm J ∧
      Seg s'.cell o (Mg lt ((fr, R) :: (true, T) :: tr)) ∧ Gap b s'.cell (o + (R.length + nb2 * lb + T.length)) J' ∧
      Frame o (pidx + nb2 * lb + T.length) s s') s := by
  have htl : (tr.flatMap (·.2)).length = nb2 * lb := by rw [bools_length hlen, htr]
  have hwell : pidx - R.length = o + J.length := by omega
  obtain ⟨st1, st2⟩ := seg_append.1 st
  rw [htl] at st2
  obtain ⟨hs1, hs2⟩ := side_all hall
  unfold mergeBuffersEnd
  rw [hwell, Nat.mul_comm lb nb2]
  split
  · rename_i h0
    have hT1 : T ≠ [] := List.length_pos_iff.1 (by omega)
    have oT : SortedList lt T := hss.tail.first
    have oF := hss false
    split
    · rename_i e
      subst e
      rw [side_other (by simp), side_other (by simp), hs1] at oF
      apply wp_bind
      refine wp_mono (emit_spec hJ rfl g sr) ?_
      rintro _ s1 ⟨J1, q1, q2, q3, q4⟩
      have hJ1 := q1.length_eq
      refine wp_mono (final_spec hlt c (o := o + R.length) (X := tr.flatMap (·.2)) (Y := T) (by rw [hJ1]; exact hJ) (by omega) (by omega) (by omega)
        (by omega) oF oT q3 ?_ ?_) ?_
      · exact st1.congr fun i h1 h2 => q4.cell i (by omega)
      · exact st2.congr fun i h1 h2 => q4.cell i (by omega)
      rintro _ s2 ⟨J2, r1, r2, r3, r4⟩
      refine ⟨J2, r1.trans q1, ?_, ?_, (q4.mono (Nat.le_refl _) (by omega)).trans (r4.mono (by omega) (by omega))⟩
      · rw [Mg_end_right hlt hT1 hall hss hb, seg_append]
        exact ⟨q2.congr fun i h1 h2 => r4.cell i (by omega), r2⟩
      · rw [show o + (R.length + nb2 * lb + T.length) = o + R.length + ((tr.flatMap (·.2)).length + T.length) by omega]; exact r3
    · rename_i e
      have e : fr = false := by simpa using e
      subst e
      rw [side_same, side_other (by simp), hs1] at oF
      refine wp_mono (final_spec hlt c (X := R ++ tr.flatMap (·.2)) (Y := T) hJ rfl (by rw [List.length_append]; omega) (by omega)
        (by omega) oF oT g (seg_append.2 ⟨sr, ?_⟩) ?_) ?_
      · rw [show o + J.length + R.length = pidx by omega]; exact st1
      · rw [show o + J.length + (R.length + nb2 * lb) = pidx + nb2 * lb by omega]; exact st2
      rintro _ s2 ⟨J2, r1, r2, r3, r4⟩
      refine ⟨J2, r1, ?_, ?_, r4.mono (Nat.le_refl _) (by omega)⟩
      · rw [Mg_end_left hall]; exact r2
      · rw [List.length_append, htl] at r3; exact r3
  · rename_i h0
    have hT1 : T = [] := List.length_eq_zero_iff.1 (by omega)
    have := hT0 hT1
    subst this
    subst hT1
    simp only [List.length_nil] at htr
    subst htr
    refine wp_mono (emit_spec hJ rfl g sr) ?_
    rintro _ s1 ⟨J1, q1, q2, q3, q4⟩
    refine ⟨J1, q1, ?_, by simpa using q3, q4.mono (Nat.le_refl _) (by simp; omega)⟩
    have : Mg lt [(fr, R), (true, [])] = R := by
      rw [Mg_eq fr]
      cases fr
      · rw [side_same, side_other (by simp), side_other (by simp), Bool.not_false, side_same]; simp [mrg]
      · rw [side_same, side_same, side_other (by simp), side_other (by simp)]; simp [mrg]
    rw [this]; exact q2

theorem mergeBuffersLeft_spec (hlt : StrictWeak lt) (c : Cfg) {b : GrailBuf} {keys midkey nblock lb nb2 arr o : Nat} {m : α} (hlb : 0 < lb)
    {bs tr : List (Bool × List α)} {ks J T : List α} {s : St α} (hn : bs.length = nblock) (htr : tr.length = nb2)
    (hb : ∀ q ∈ bs, q.2.length = lb) (hlen : ∀ q ∈ tr, q.2.length = lb) (hall : ∀ q ∈ tr, q.1 = false) (hT : T.length < lb)
    (hT0 : T = [] → tr = []) (hJ : GapLen b lb J.length) (ha : arr = o + J.length) (hk : keys + nblock ≤ o)
    (hmk : midkey < o ∨ arr + nblock * lb + nb2 * lb + T.length ≤ midkey)
    (ho : (bs ++ (true, T) :: tr).Pairwise (Before lt)) (hss : SidesSorted lt (bs ++ (true, T) :: tr))
    (sm : s.cell midkey = .val m) (sk : Seg s.cell keys ks) (ek : ks.map (fun k => !lt k m) = bs.map (·.1))
    (g : Gap b s.cell o J) (sb : Seg s.cell arr (bs.flatMap (·.2) ++ (tr.flatMap (·.2) ++ T))) :
    wp (mergeBuffersLeft (tick lt) c b keys midkey arr nblock lb nb2 T.length) (fun _ s' => ∃ J', J'.Perm J ∧
      Seg s'.cell o (Mg lt (bs ++ (true, T) :: tr)) ∧ Gap b s'.cell (o + (nblock * lb + nb2 * lb + T.length)) J' ∧
      Frame o (arr + nblock * lb + nb2 * lb + T.length) s s') s := by
  have htl : (tr.flatMap (·.2)).length = nb2 * lb := by rw [bools_length hlen, htr]
  unfold mergeBuffersLeft
  split
  · rename_i h0
    have : bs = [] := List.length_eq_zero_iff.1 (by omega)
    subst this
    rw [List.nil_append] at *
    subst h0
    simp only [List.flatMap_nil, List.nil_append] at sb
    obtain ⟨st1, st2⟩ := seg_append.1 sb
    rw [htl] at st2
    obtain ⟨hs1, hs2⟩ := side_all hall
    have oF := hss false
    rw [side_other (by simp), hs1] at oF
    refine wp_mono (final_spec hlt c (X := tr.flatMap (·.2)) (Y := T) hJ ha (by omega) rfl (by omega) oF hss.first g st1 st2) ?_
    rintro _ s2 ⟨J2, r1, r2, r3, r4⟩
    refine ⟨J2, r1, ?_, ?_, r4.mono (Nat.le_refl _) (by omega)⟩
    · have : Mg lt ((true, T) :: tr) = mergeL lt (tr.flatMap (·.2)) T := by
        show mergeL lt _ _ = _
        rw [side_same, side_other (by simp), hs1, show side true tr = [] from hs2, List.append_nil]
      rw [this]; exact r2
    · rw [htl] at r3; simpa using r3
  · rename_i h0
    obtain ⟨⟨t, R⟩, bs, rfl⟩ := List.exists_cons_of_ne_nil (l := bs) (List.length_pos_iff.1 (by omega))
    simp only [List.length_cons] at hn
    cases ks with
    | nil => simp at ek
    | cons k ks =>
      simp only [List.map_cons, List.cons.injEq] at ek
      obtain ⟨et, ek⟩ := ek
      obtain ⟨sk1, sk2⟩ := seg_cons.1 sk
      have hR : R.length = lb := hb _ List.mem_cons_self
      have hR0 : R ≠ [] := List.length_pos_iff.1 (by omega)
      have hbs : ∀ q ∈ bs, q.2.length = lb := fun q hq => hb q (List.mem_cons_of_mem _ hq)
      have hbl : (bs.flatMap (·.2)).length = bs.length * lb := bools_length hbs
      have hmul : nblock * lb = lb + bs.length * lb := by rw [← hn, Nat.succ_mul]; omega
      rw [List.flatMap_cons, List.append_assoc, seg_append, seg_append, hbl] at sb
      simp only [hR] at sb
      obtain ⟨sr, sb, st⟩ := sb
      rw [List.cons_append] at ho hss
      have hks := congrArg List.length ek
      simp only [List.length_map] at hks
      apply wp_bind
      refine grailStream_spec sk1 sm fun kk => ?_
      rw [et]
      apply wp_bind
      have := mergeBuffersLoop_spec hlt c (b := b) (keys := keys) (midkey := midkey) (nblock := nblock) (m := m) hlb ((true, T) :: tr) bs ks R J t 1
        (arr + lb) o { s with cmps := kk } (by omega) hbs hJ hR0 (by omega) hk (by omega) (List.pairwise_cons.1 ho).2 hss sm sk2 ek g
        (by rw [← ha]; exact sr) sb
      rw [hR] at this
      refine wp_mono this ?_
      rintro ⟨p', l', f'⟩ s1 ⟨F, R', J', p1, p2, p3, p4, p5, p6, p7, p8, p9, p10, p11⟩
      simp only at p2 p3 p5 p9 p10 p11 ⊢
      subst p3
      have hJ' := p1.length_eq
      have ho3 : ((true, T) :: tr).Pairwise (Before lt) := (List.pairwise_append.1 (List.pairwise_cons.1 ho).2).2.1
      refine wp_mono (mergeBuffersEnd_spec hlt c (by rw [hJ']; exact hJ) p5.symm hT htr hT0 hlen hall p10
        (List.pairwise_cons.1 ho3).1 p7 p8 ?_) ?_
      · rw [p2]
        refine st.congr fun i h1 h2 => p11.cell i ?_
        omega
      · rintro _ s2 ⟨J2, r1, r2, r3, r4⟩
        refine ⟨J2, r1.trans p1, ?_, ?_, ?_⟩
        · rw [List.cons_append, p9, seg_append]
          exact ⟨p6.congr fun i h1 h2 => r4.cell i (by omega), r2⟩
        · rw [show o + (nblock * lb + nb2 * lb + T.length) = o + F.length + (R'.length + nb2 * lb + T.length) by omega]; exact r3
        · exact (p11.tick.mono (Nat.le_refl _) (by omega)).trans (r4.mono (by omega) (by omega))

end CppSort
