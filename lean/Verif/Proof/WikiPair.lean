import Verif.Proof.WikiRoll
/-
wiki_sort.h 730-863: merging two ranges without having them fit in the cache.
-/
set_option autoImplicit false

namespace CppSort
variable {α : Type} {lt : α → α → Bool}

/-- Cutting values in blocks of `n` values, and giving them tags. -/
theorem mkBlocks {n : Nat} (hn : 0 < n) : ∀ (q : Nat) (C K : List α), C.length = n * q → q ≤ K.length →
    ∃ R : List (ABlk α), cks R = C ∧ R.map (·.tag) = K.take q ∧ (∀ b ∈ R, b.tail.length + 1 = n) := by
  intro q
  induction q with
  | zero =>
    intro C K hC _
    have : C = [] := List.length_eq_zero_iff.1 (by simpa using hC)
    exact ⟨[], by rw [this]; rfl, by simp, by simp⟩
  | succ q ih =>
    intro C K hC hK
    rw [Nat.mul_succ] at hC
    cases K with
    | nil => simp at hK
    | cons k K =>
      obtain ⟨R, h1, h2, h3⟩ := ih (C.drop n) K (by rw [List.length_drop]; omega) (by simpa using hK)
      cases hc : C.take n with
      | nil => have := congrArg List.length hc; rw [List.length_take, List.length_nil] at this; omega
      | cons h t =>
        have hl := congrArg List.length hc
        rw [List.length_take, List.length_cons] at hl
        refine ⟨⟨k, h, t⟩ :: R, ?_, by simp [h2], ?_⟩
        · rw [cks_cons, h1]
          show (h :: t) ++ C.drop n = C
          rw [← hc, List.take_append_drop]
        · intro b hb
          rcases List.mem_cons.1 hb with rfl | hb
          · show t.length + 1 = n; omega
          · exact h3 b hb

theorem wikiTag_spec {bs : Nat} (hbs : 0 < bs) : ∀ (R : List (ABlk α)) (j i stop : Nat) (s : St α), stop = i + (cks R).length → (∀ b ∈ R, b.tail.length + 1 = bs) →
    (j + R.length ≤ i ∨ stop ≤ j) → Seg s.cell j (R.map (·.tag)) → Seg s.cell i (cks R) →
    wp (wikiTag bs stop j i) (fun _ s' => Seg s'.cell j (R.map (·.head)) ∧ Seg s'.cell i (tgs R) ∧
      (∀ k, (k < j ∨ j + R.length ≤ k) → (k < i ∨ stop ≤ k) → s'.cell k = s.cell k) ∧ s'.env = s.env) s := by
  intro R
  induction R with
  | nil =>
    intro j i stop s hst _ _ hj hi
    rw [wikiTag, if_neg (by rw [cks_nil] at hst; simp at hst; omega)]
    exact wp_pure ⟨hj, hi, fun _ _ _ => rfl, rfl⟩
  | cons b R ih =>
    intro j i stop s hst hb hd hj hi
    have hb0 := hb b (by simp)
    rw [cks_cons, List.length_append, ck_length] at hst
    rw [cks_cons, seg_append, ck_length] at hi
    rw [List.map_cons, seg_cons] at hj
    simp only [List.length_cons] at hd
    obtain ⟨i1, i2⟩ := seg_cons.1 hi.1
    rw [wikiTag, if_pos (by omega)]
    apply wp_bind
    refine wp_swap' hj.1 i1 fun s1 hc he _ _ => ?_
    have d3 : ∀ k, k ≠ j → k ≠ i → s1.cell k = s.cell k := fun k h1 h2 => by rw [hc]; sc
    refine wp_mono (ih (j + 1) (i + bs) stop s1 (by omega) (fun b h => hb b (by simp [h])) (by omega)
      (hj.2.congr fun k u v => d3 k (by omega) (by rw [List.length_map] at v; omega)) ?_) ?_
    · rw [hb0] at hi
      exact hi.2.congr fun k u v => d3 k (by omega) (by omega)
    · rintro _ s2 ⟨q1, q2, q3, q4⟩
      refine ⟨?_, ?_, fun k h1 h2 => ?_, q4.trans he⟩
      · rw [List.map_cons, seg_cons]
        refine ⟨?_, q1⟩
        rw [q3 j (by omega) (by omega), hc]; sc
      · rw [tgs_cons, seg_append, tg_length, hb0]
        refine ⟨seg_cons.2 ⟨?_, i2.congr fun k u v => ?_⟩, q2⟩
        · rw [q3 i (by omega) (by omega), hc]; sc
        · rw [q3 k (by omega) (by omega), d3 k (by omega) (by omega)]
      · simp only [List.length_cons] at h1
        rw [q3 k (by omega) (by omega), d3 k (by omega) (by omega)]

theorem cks_length : ∀ {R : List (ABlk α)} {n : Nat}, (∀ b ∈ R, b.tail.length + 1 = n) → (cks R).length = (tgs R).length ∧ (tgs R).length = n * R.length
  | [], n, _ => by simp [cks_nil, tgs_nil]
  | b :: R, n, h => by
    have h1 := h b (by simp)
    have ⟨h2, h3⟩ := cks_length (R := R) (n := n) fun b hb => h b (by simp [hb])
    rw [cks_cons, tgs_cons, List.length_append, List.length_append, ck_length, tg_length, List.length_cons, Nat.mul_succ]
    omega

theorem wikiBlocks_spec (hlt : StrictWeak lt) (c : Cfg) {w : WMerge} {K1 K2 A B : List α} {first b1 a m e : Nat} {s : St α} (hw : WOk w K2)
    (ha : WApart w K2 a e) (hb1 : WApart w K2 b1 (b1 + K1.length)) (hd : b1 + K1.length ≤ a ∨ e ≤ b1) (hm : m = a + A.length) (he : e = m + B.length)
    (hB : B ≠ []) (hK : A.length / w.bs ≤ K1.length) (oK : StrictList lt K1) (oA : SortedList lt A) (oB : SortedList lt B)
    (sA : Seg s.cell a (A ++ B)) (sK : Seg s.cell b1 K1) (hi : Idle w K2 s.cell) :
    wp (wikiBlocks (tick lt) c w first b1 a m e) (fun _ s' => Seg s'.cell a (mergeL lt A B) ∧ Idle w K2 s'.cell ∧ WFr w K2 a e s s') s := by
  have hc := ha.cache
  have hb := ha.buf
  have hbs := hw.bs
  have hkc := hb1.cache
  have hkb := hb1.buf
  have hmod := Nat.mod_lt A.length hbs
  have hdm := Nat.div_add_mod A.length w.bs
  obtain ⟨F, C, hAFC, hF⟩ : ∃ F C, A = F ++ C ∧ F.length = A.length % w.bs :=
    ⟨A.take (A.length % w.bs), A.drop (A.length % w.bs), (List.take_append_drop _ _).symm, by rw [List.length_take]; have := Nat.mod_le A.length w.bs; omega⟩
  have hlA : A.length = F.length + C.length := by rw [hAFC, List.length_append]
  obtain ⟨R, r1, r2, r3⟩ := mkBlocks hbs (A.length / w.bs) C K1 (by omega) hK
  obtain ⟨r4, r5⟩ := cks_length r3
  have r6 : R.length = A.length / w.bs := by
    have := congrArg List.length r2
    rw [List.length_map, List.length_take] at this; omega
  have e0 : K1 = R.map (·.tag) ++ K1.drop R.length := by rw [r2, r6, List.take_append_drop]
  have hRK : R.length ≤ K1.length := by omega
  have sK' := sK
  rw [e0, seg_append, List.length_map] at sK
  rw [r1] at r4
  rw [hAFC, seg_append, seg_append] at sA
  obtain ⟨⟨sF, sC⟩, sB⟩ := sA
  rw [← hAFC, ← hm] at sB
  unfold wikiBlocks
  rw [show m - a = A.length by omega, ← hF]
  apply wp_bind
  refine wp_mono (wikiTag_spec hbs R b1 (a + F.length) m s (by rw [r1]; omega) r3 (by omega) sK.1 (by rw [r1]; exact sC)) ?_
  rintro _ s1 ⟨q1, q2, q3, q4⟩
  apply wp_bind
  have hi1 : Idle w K2 s1.cell := by
    obtain ⟨i1, K, i2, i3⟩ := hi
    have := i2.length_eq
    exact ⟨fun i u v => (i1 i u v).same (q3 i (by omega) (by omega)), K, i2, i3.congr fun i u v => q3 i (by omega) (by omega)⟩
  refine wp_mono (wikiSave_spec hw (la := a) (X := F) rfl (ha.mono (Nat.le_refl _) (by omega)) (by omega) hi1 (sF.congr fun i u v => q3 i (by omega) (by omega))) ?_
  rintro _ s2 ⟨p1, p2⟩
  have p2c : ∀ i, (i < a ∨ a + F.length ≤ i) → (i < w.cache ∨ w.cache + w.cs ≤ i) → (i < w.b2.start ∨ w.b2.start + K2.length ≤ i) → s2.cell i = s1.cell i := p2.cell
  have t1 : Seg s2.cell (a + F.length) (tgs R) := q2.congr fun i u v => p2c i (by omega) (by omega) (by omega)
  have t2 : Seg s2.cell m B := sB.congr fun i u v => by rw [p2c i (by omega) (by omega) (by omega), q3 i (by omega) (by omega)]
  have t3 : Seg s2.cell b1 (R.map (·.head)) := q1.congr fun i u v => by
    rw [List.length_map] at v; exact p2c i (by omega) (by omega) (by omega)
  have oF := (sortedList_append.1 (by rw [hAFC] at oA; exact oA)).1
  apply wp_bind
  have hroll : wp (wikiRollAll (tick lt) c w first b1 a (a + F.length) m e)
      (fun r s' => ∃ D' X' L, RollDone lt w K2 a e b1 (mergeL lt A B) (R.map (·.tag)) r s2 s' D' X' L) s2 := by
    unfold wikiRollAll
    have hBp := List.length_pos_iff.2 hB
    split
    · rename_i hlt1
      refine wikiRoll_spec hlt c hw ha _ b1 a (a + F.length) first first (a + F.length) m m (m + min w.bs (e - m)) [] F [] [] B R R s2 rfl ?_
        ⟨by simp, rfl, by simp, .inr ⟨rfl, rfl, hB⟩, by omega, he, .inr ⟨hB, rfl, by omega⟩, by simp, Seg.nil, p1, Seg.nil,
          seg_append.2 ⟨t1, by rw [show a + F.length + (tgs R).length = m by omega]; exact t2⟩, t3, .refl _⟩
        ⟨by rw [r1, ← hAFC]; rfl, by rw [r1, ← hAFC]; exact oA, oB, ?_, r3, by simp⟩ (hb1.mono (Nat.le_refl _) (by omega)) (by omega)
      · intro e1; subst e1; have : C.length = 0 := by rw [r4]; rfl
        omega
      · rw [r2]; exact List.Pairwise.sublist (List.take_sublist _ _) oK
    · rename_i hlt1
      have hR : R = [] := tgs_eq_nil (by omega)
      subst hR
      have hC : C = [] := by rw [← r1]; rfl
      subst hC
      rw [List.append_nil] at hAFC
      subst hAFC
      refine wp_pure ⟨[], A, B, ⟨by simp, rfl, by show e = a + A.length + B.length; omega, rfl, oF, oB, Seg.nil, p1, ?_, Seg.nil, fun i _ _ _ _ => rfl, .refl _⟩⟩
      show Seg s2.cell (a + A.length) B
      rw [← hm]; exact t2
  refine wp_mono hroll ?_
  rintro ⟨la, le⟩ s3 ⟨D, X, L, h⟩
  have h1 : la = a + D.length := h.start
  have h2 : le = la + X.length := h.stop
  have h3 : e = le + L.length := h.he
  refine wp_mono (wikiLocal_spec (la := la) (le := le) hlt c hw h2 h3 (ha.mono (by omega) (Nat.le_refl _)) h.oX h.oL h.st h.sL) ?_
  rintro _ s4 ⟨u1, u2, u3⟩
  have u3c : ∀ i, (i < la ∨ e ≤ i) → (i < w.cache ∨ w.cache + w.cs ≤ i) → (i < w.b2.start ∨ w.b2.start + K2.length ≤ i) → s4.cell i = s3.cell i := u3.cell
  refine ⟨?_, u2, ⟨fun i h4 h5 h6 => ?_, ((EnvLe.of_env q4).trans p2.brk).trans (h.brk.trans u3.brk)⟩⟩
  · rw [← h.res]
    refine seg_append.2 ⟨h.sD.congr fun i u v => u3c i (by omega) (by omega) (by omega), by rw [← h1]; exact u1⟩
  · rw [u3c i (by omega) h5 h6]
    by_cases h7 : b1 ≤ i ∧ i < b1 + R.length
    · have v1 := sK.1 (i - b1) (by rw [List.length_map]; omega)
      have v2 := h.sT (i - b1) (by rw [List.length_map]; omega)
      rw [show b1 + (i - b1) = i by omega] at v1 v2
      rw [v1, v2]
    · have := h.rest i h4 h5 h6 (by rw [List.length_map]; omega)
      rw [this, p2c i (by omega) h5 h6, q3 i (by omega) (by omega)]

theorem wikiMerge_of (hlt : StrictWeak lt) (c : Cfg) {w : WMerge} {K2 A B : List α} {first b1 a m e : Nat} {s : St α}
    (ha : WApart w K2 a e) (hm : m = a + A.length) (he : e = m + B.length)
    (hA : A ≠ []) (hB : B ≠ []) (oA : SortedList lt A) (oB : SortedList lt B) (sA : Seg s.cell a (A ++ B)) (hi : Idle w K2 s.cell)
    (hbl : lt (B.getLast hB) (A.head hA) = false → lt (B.head hB) (A.getLast hA) = true → ∀ s1 : St α, s1.cell = s.cell → s1.env = s.env →
      wp (wikiBlocks (tick lt) c w first b1 a m e) (fun _ s' => Seg s'.cell a (mergeL lt A B) ∧ Idle w K2 s'.cell ∧ WFr w K2 a e s s') s1) :
    wp (wikiMerge (tick lt) c w first b1 a m e) (fun _ s' => Seg s'.cell a (mergeL lt A B) ∧ Idle w K2 s'.cell ∧ WFr w K2 a e s s') s := by
  haveI : Inhabited α := ⟨A.head hA⟩
  obtain ⟨sA1, sB⟩ := seg_append.1 sA
  rw [← hm] at sB
  unfold wikiMerge
  apply wp_bind
  refine wp_wikiLt (by rw [he]; exact seg_last sB hB) (seg_head sA1 hA) ?_
  split
  · rename_i h1
    apply wp_bind
    refine wp_mono (rotate_seg c (s := { s with cmps := s.cmps + 1 }) sA hm (by omega)) ?_
    rintro _ s1 ⟨-, q1, q2⟩
    have q3 : Frame a e s s1 := Frame.trans (Frame.of_env (s := s) (s' := { s with cmps := s.cmps + 1 }) rfl fun _ _ => rfl) q2
    exact wp_pure ⟨by rw [mergeL_reversed hlt oA oB hA hB h1]; exact q1, hi.keep q3 ha, q3.w⟩
  · rename_i h1
    apply wp_bind
    refine wp_wikiLt (s := { s with cmps := s.cmps + 1 }) (seg_head sB hB) (by rw [hm]; exact seg_last sA1 hA) ?_
    split
    · rename_i h2
      exact hbl (by simpa using h1) h2 { s with cmps := s.cmps + 1 + 1 } rfl rfl
    · rename_i h2
      exact wp_pure ⟨by rw [mergeL_ordered hlt oA oB hA hB (by simpa using h2)]; exact sA, hi, .of_cell rfl rfl⟩

end CppSort
