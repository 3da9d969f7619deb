import Verif.Proof.WikiCache
/-
wiki_sort.h 736-862: where the current block of A is while it waits to be merged.
-/
set_option autoImplicit false

namespace CppSort
variable {α : Type} {lt : α → α → Bool}

/-- The cache and the second buffer, with the values `K2`. -/
structure WOk (w : WMerge) (K2 : List α) : Prop where
  stop : w.b2.stop = w.b2.start + K2.length
  dis : w.cache + w.cs ≤ w.b2.start ∨ w.b2.start + K2.length ≤ w.cache
  bs : 0 < w.bs
  big : K2 = [] ∨ w.bs ≤ K2.length

/-- The range does not overlap the cache or the second buffer. -/
structure WApart (w : WMerge) (K2 : List α) (f l : Nat) : Prop where
  cache : w.cache + w.cs ≤ f ∨ l ≤ w.cache
  buf : w.b2.start + K2.length ≤ f ∨ l ≤ w.b2.start

theorem WApart.mono {w : WMerge} {K2 : List α} {f l f' l' : Nat} (h : WApart w K2 f l) (hf : f ≤ f') (hl : l' ≤ l) : WApart w K2 f' l' :=
  ⟨by have := h.cache; omega, by have := h.buf; omega⟩

/-- The cache has objects, the second buffer has its values in any order. -/
structure Idle (w : WMerge) (K2 : List α) (c : Nat → Cell α) : Prop where
  live : ∀ i, w.cache ≤ i → i < w.cache + w.cs → Live c i
  buf : ∃ K : List α, K.Perm K2 ∧ Seg c w.b2.start K

/-- The values `X` of a block at `la` are in the cache, in the second buffer or in place. -/
inductive Stash (w : WMerge) (K2 : List α) (la : Nat) (X : List α) (c : Nat → Cell α) : Prop
  | cache (h : 0 < w.cs ∧ X.length ≤ w.cs) (sX : Seg c w.cache X) (hole : ∀ i, la ≤ i → i < la + X.length → Live c i) (idle : Idle w K2 c)
  | buf (h : ¬ (0 < w.cs ∧ X.length ≤ w.cs)) (h2 : K2 ≠ []) (J J2 : List α) (len : J.length = X.length) (perm : (J ++ J2).Perm K2)
      (sJ : Seg c la J) (sX : Seg c w.b2.start (X ++ J2)) (live : ∀ i, w.cache ≤ i → i < w.cache + w.cs → Live c i)
  | here (h : ¬ (0 < w.cs ∧ X.length ≤ w.cs)) (h2 : K2 = []) (sX : Seg c la X) (live : ∀ i, w.cache ≤ i → i < w.cache + w.cs → Live c i)

/-- Changes are in the range, the cache and the second buffer. -/
structure WFr (w : WMerge) (K2 : List α) (f l : Nat) (s s' : St α) : Prop where
  cell : ∀ i, (i < f ∨ l ≤ i) → (i < w.cache ∨ w.cache + w.cs ≤ i) → (i < w.b2.start ∨ w.b2.start + K2.length ≤ i) → s'.cell i = s.cell i
  brk : EnvLe s s'

theorem WFr.trans {w : WMerge} {K2 : List α} {f l : Nat} {s s' s'' : St α} (h : WFr w K2 f l s s') (h' : WFr w K2 f l s' s'') : WFr w K2 f l s s'' :=
  ⟨fun i h1 h2 h3 => (h'.cell i h1 h2 h3).trans (h.cell i h1 h2 h3), h.brk.trans h'.brk⟩

theorem WFr.mono {w : WMerge} {K2 : List α} {f l f' l' : Nat} {s s' : St α} (h : WFr w K2 f' l' s s') (hf : f ≤ f') (hl : l' ≤ l) : WFr w K2 f l s s' :=
  ⟨fun i h1 h2 h3 => h.cell i (by omega) h2 h3, h.brk⟩

theorem Frame.w {w : WMerge} {K2 : List α} {f l : Nat} {s s' : St α} (h : Frame f l s s') : WFr w K2 f l s s' := ⟨fun i h1 _ _ => h.cell i h1, h.brk⟩

theorem WFr.of_cell {w : WMerge} {K2 : List α} {f l : Nat} {s s' : St α} (h : s'.cell = s.cell) (he : s'.env = s.env) : WFr w K2 f l s s' :=
  ⟨fun i _ _ _ => by rw [h], EnvLe.of_env he⟩

/-- A range that the changes do not touch. -/
theorem WFr.seg {w : WMerge} {K2 X : List α} {f l a : Nat} {s s' : St α} (h : WFr w K2 f l s s') (hs : Seg s.cell a X) (hd : a + X.length ≤ f ∨ l ≤ a)
    (ha : WApart w K2 a (a + X.length)) : Seg s'.cell a X :=
  hs.congr fun i h1 h2 => h.cell i (by omega) (by have := ha.cache; omega) (by have := ha.buf; omega)

theorem Idle.keep {w : WMerge} {K2 : List α} {f l : Nat} {s s' : St α} (h : Idle w K2 s.cell) (hf : Frame f l s s') (ha : WApart w K2 f l) :
    Idle w K2 s'.cell := by
  obtain ⟨h1, K, h2, h3⟩ := h
  have hc := ha.cache
  have hb := ha.buf
  have hk := h2.length_eq
  exact ⟨fun i u v => (h1 i u v).same (hf.cell i (by omega)), K, h2, h3.congr fun i u v => hf.cell i (by omega)⟩

theorem Stash.keep {w : WMerge} {K2 X : List α} {f l la : Nat} {s s' : St α} (h : Stash w K2 la X s.cell) (hf : Frame f l s s') (ha : WApart w K2 f l)
    (hd : la + X.length ≤ f ∨ l ≤ la) : Stash w K2 la X s'.cell := by
  have hc := ha.cache
  have hb := ha.buf
  cases h with
  | cache h sX hole idle =>
    exact .cache h (sX.congr fun i u v => hf.cell i (by omega)) (fun i u v => (hole i u v).same (hf.cell i (by omega))) (idle.keep hf ha)
  | buf h h2 J J2 len perm sJ sX live =>
    have hk := perm.length_eq
    simp only [List.length_append] at hk
    exact .buf h h2 J J2 len perm (sJ.congr fun i u v => hf.cell i (by omega)) (sX.congr fun i u v => hf.cell i (by simp at v; omega))
      (fun i u v => (live i u v).same (hf.cell i (by omega)))
  | here h h2 sX live =>
    exact .here h h2 (sX.congr fun i u v => hf.cell i (by omega)) (fun i u v => (live i u v).same (hf.cell i (by omega)))

theorem WOk.len {w : WMerge} {K2 : List α} (h : WOk w K2) : w.b2.stop - w.b2.start = K2.length := by have := h.stop; omega

theorem wikiSave_spec {w : WMerge} {K2 X : List α} {la le : Nat} {s : St α} (hw : WOk w K2) (hle : le = la + X.length) (ha : WApart w K2 la le)
    (hX : X.length < w.bs) (hi : Idle w K2 s.cell) (sX : Seg s.cell la X) :
    wp (wikiSave w la le) (fun _ s' => Stash w K2 la X s'.cell ∧ WFr w K2 la le s s') s := by
  obtain ⟨h1, K, h2, h3⟩ := hi
  have hc := ha.cache
  have hb := ha.buf
  have hdis := hw.dis
  have hk := h2.length_eq
  unfold wikiSave
  rw [show le - la = X.length by omega, hw.len]
  split
  · rename_i hcs
    apply wp_bind
    by_cases hX0 : X = []
    · subst hX0
      rw [moveRange, if_neg (by simp at hle; omega)]
      exact wp_pure (wp_pure ⟨.cache hcs Seg.nil (fun i u v => by simp at v; omega) ⟨h1, K, h2, h3⟩, .of_cell rfl rfl⟩)
    have := List.length_pos_iff.2 hX0
    refine wp_mono (moveRange_seg (s0 := s) X la le w.cache s hle (by omega) sX (fun i u v => h1 i u (by omega)) rfl) ?_
    rintro _ s1 ⟨-, q1, q2, q3, q4, -⟩
    refine wp_pure ⟨.cache hcs q1 (fun i u v => .inl (q2 i u v (by omega))) ⟨fun i u v => ?_, K, h2, h3.congr fun i u v => q3 i (by omega) (by omega)⟩,
      fun i u v x => q3 i (by omega) (by omega), EnvLe.of_env q4⟩
    by_cases hi : i < w.cache + X.length
    · exact q1.live u hi
    · exact (h1 i u v).same (q3 i (by omega) (by omega))
  · rename_i hcs
    split
    · rename_i hk2
      have hbig : w.bs ≤ K2.length := by
        rcases hw.big with e | e
        · subst e; simp at hk2
        · exact e
      apply wp_bind
      have e0 : K = K.take X.length ++ K.drop X.length := (List.take_append_drop _ _).symm
      have e1 : (K.take X.length).length = X.length := by rw [List.length_take]; omega
      rw [e0, seg_append, e1] at h3
      refine wp_mono (swapRanges_dis X (K.take X.length) la le w.b2.start s e1.symm hle (by omega) sX h3.1) ?_
      rintro _ s1 ⟨q1, q2, q3, q4⟩
      refine wp_pure ⟨.buf hcs (by intro e; subst e; simp at hk2) _ _ e1 (by rw [← e0]; exact h2) q1 (seg_append.2 ⟨q2, ?_⟩)
        (fun i u v => (h1 i u v).same (q3 i (by omega) (by omega))), fun i u v x => q3 i (by omega) (by omega), EnvLe.of_env q4⟩
      exact h3.2.congr fun i u v => q3 i (by simp at v; omega) (by omega)
    · rename_i hk2
      exact wp_pure ⟨.here hcs (List.length_eq_zero_iff.1 (by omega)) sX h1, .of_cell rfl rfl⟩

theorem wikiLocal_spec (hlt : StrictWeak lt) (c : Cfg) {w : WMerge} {K2 X Y : List α} {la le be : Nat} {s : St α} (hw : WOk w K2)
    (hle : le = la + X.length) (hbe : be = le + Y.length) (ha : WApart w K2 la be) (oX : SortedList lt X) (oY : SortedList lt Y)
    (hs : Stash w K2 la X s.cell) (sY : Seg s.cell le Y) :
    wp (wikiLocal (tick lt) c w la le be) (fun _ s' => Seg s'.cell la (mergeL lt X Y) ∧ Idle w K2 s'.cell ∧ WFr w K2 la be s s') s := by
  have hc := ha.cache
  have hb := ha.buf
  have hdis := hw.dis
  unfold wikiLocal
  rw [show le - la = X.length by omega, hw.len]
  cases hs with
  | cache h sX hole idle =>
    rw [if_pos h]
    obtain ⟨h1, K, h2, h3⟩ := idle
    have hk := h2.length_eq
    refine wp_mono (halfInplaceMerge_seg (s0 := s) _ X Y w.cache la le _ be s (blind_short _ _ _ (by omega) (by omega)) rfl hbe
      ⟨by omega, by omega, sX, sY, fun i u v => hole i u (by omega), rfl⟩) ?_
    rintro _ s1 h4
    have hr := h4.rest
    refine ⟨h4.out, ⟨fun i u v => ?_, K, h2, h3.congr fun i u v => hr i (by omega) (by omega)⟩, fun i u v x => hr i (by omega) (by omega), EnvLe.of_env h4.env⟩
    by_cases hi : i < w.cache + X.length
    · exact h4.buf i u hi
    · exact (h1 i u v).same (hr i (by omega) (by omega))
  | buf h h2 J J2 len perm sJ sX live =>
    have hk := perm.length_eq
    simp only [List.length_append] at hk
    have := List.length_pos_iff.2 h2
    rw [if_neg h, if_pos (by omega)]
    obtain ⟨sX1, sX2⟩ := seg_append.1 sX
    refine wp_mono (mergeInternal_spec (lt := lt) len hle hbe rfl (by omega) sX1 sJ sY) ?_
    rintro _ s1 ⟨J', p1, p2, p3, p4, p5⟩
    have hJ' := p1.length_eq
    refine ⟨p2, ⟨fun i u v => (live i u v).same (p4 i (by omega) (by omega)), J' ++ J2, (p1.append_right _).trans perm, seg_append.2 ⟨p3, ?_⟩⟩,
      fun i u v x => p4 i (by omega) (by omega), EnvLe.of_env p5⟩
    rw [hJ', len]
    exact sX2.congr fun i u v => p4 i (by omega) (by omega)
  | here h h2 sX live =>
    subst h2
    rw [if_neg h, if_neg (by simp)]
    refine wp_mono (mergeInPlace_spec hlt c hle hbe oX oY (seg_append.2 ⟨sX, by rw [← hle]; exact sY⟩)) ?_
    rintro _ s1 ⟨p1, p2⟩
    exact ⟨p1, ⟨fun i u v => (live i u v).same (p2.cell i (by omega)), [], .refl _, Seg.nil⟩, p2.w⟩

theorem wikiShift_spec [Inhabited α] (c : Cfg) {w : WMerge} {K2 L B : List α} {split ba : Nat} {s : St α} (hw : WOk w K2) (hba : ba = split + L.length)
    (hL : L.length ≤ w.bs) (hB : B.length = w.bs) (ha : WApart w K2 split (ba + w.bs)) (hi : Idle w K2 s.cell) (hs : Seg s.cell split (L ++ B)) :
    wp (wikiShift c w split L.length ba) (fun _ s' => Stash w K2 split B s'.cell ∧ Seg s'.cell (split + w.bs) L ∧ WFr w K2 split (ba + w.bs) s s') s := by
  obtain ⟨h1, K, h2, h3⟩ := hi
  have hc := ha.cache
  have hb := ha.buf
  have hdis := hw.dis
  have hbs := hw.bs
  have hk := h2.length_eq
  obtain ⟨sL, sB⟩ := seg_append.1 hs
  rw [← hba] at sB
  unfold wikiShift
  rw [hw.len]
  split
  · rename_i hcond
    split
    · rename_i hbc
      apply wp_bind
      refine wp_mono (moveRange_seg (s0 := s) B ba (ba + w.bs) w.cache s (by omega) (by omega) sB (fun i u v => h1 i u (by omega)) rfl) ?_
      rintro _ s1 ⟨-, q1, q2, q3, q4, -⟩
      apply wp_bind
      refine wp_mono (moveRange_seg (s0 := s) L split (split + L.length) (ba + (w.bs - L.length)) s1 rfl (by omega)
        (sL.congr fun i u v => q3 i (by omega) (by omega)) (fun i u v => .inl (q2 i (by omega) (by omega) (by omega))) q4) ?_
      rintro _ s2 ⟨-, r1, r2, r3, r4, -⟩
      refine wp_pure ⟨.cache ⟨by omega, by omega⟩ (q1.congr fun i u v => r3 i (by omega) (by omega)) (fun i u v => ?_) ⟨fun i u v => ?_, K, h2, ?_⟩, ?_,
        fun i u v x => by rw [r3 i (by omega) (by omega), q3 i (by omega) (by omega)], EnvLe.of_env r4⟩
      · left
        by_cases hil : i < split + L.length
        · exact r2 i u hil (by omega)
        · rw [r3 i (by omega) (by omega)]; exact q2 i (by omega) (by omega) (by omega)
      · by_cases hi : i < w.cache + B.length
        · exact (q1.live u hi).same (r3 i (by omega) (by omega))
        · exact (h1 i u v).same (by rw [r3 i (by omega) (by omega), q3 i (by omega) (by omega)])
      · exact h3.congr fun i u v => by rw [r3 i (by omega) (by omega), q3 i (by omega) (by omega)]
      · rw [show split + w.bs = ba + (w.bs - L.length) by omega]; exact r1
    · rename_i hbc
      have hK2 : 0 < K2.length := by omega
      have hbig : w.bs ≤ K2.length := by
        rcases hw.big with e | e
        · subst e; simp at hK2
        · exact e
      apply wp_bind
      have e0 : K = K.take w.bs ++ K.drop w.bs := (List.take_append_drop _ _).symm
      have e1 : (K.take w.bs).length = w.bs := by rw [List.length_take]; omega
      rw [e0, seg_append, e1] at h3
      refine wp_mono (swapRanges_dis B (K.take w.bs) ba (ba + w.bs) w.b2.start s (by omega) (by omega) (by omega) sB h3.1) ?_
      rintro _ s1 ⟨q1, q2, q3, q4⟩
      apply wp_bind
      let J := K.take w.bs
      have e1' : J.length = w.bs := e1
      have f0 : J = J.take (w.bs - L.length) ++ J.drop (w.bs - L.length) := (List.take_append_drop _ _).symm
      have f1 : (J.take (w.bs - L.length)).length = w.bs - L.length := by rw [List.length_take]; omega
      have f2 : (J.drop (w.bs - L.length)).length = L.length := by rw [List.length_drop]; omega
      have q1' : Seg s1.cell ba (J.take (w.bs - L.length) ++ J.drop (w.bs - L.length)) := by rw [← f0]; exact q1
      rw [seg_append, f1] at q1'
      refine wp_mono (swapRanges_dis L (J.drop (w.bs - L.length)) split (split + L.length) (ba + (w.bs - L.length)) s1 f2.symm rfl (by omega)
        (sL.congr fun i u v => q3 i (by omega) (by omega)) q1'.2) ?_
      rintro _ s2 ⟨r1, r2, r3, r4⟩
      refine wp_pure ⟨.buf (by omega) (List.length_pos_iff.1 hK2) (J.drop (w.bs - L.length) ++ J.take (w.bs - L.length)) (K.drop w.bs)
        (by rw [List.length_append, f1, f2]; omega) ?_ (seg_append.2 ⟨r1, ?_⟩) (seg_append.2 ⟨?_, ?_⟩) ?_, ?_,
        fun i u v x => by rw [r3 i (by omega) (by omega), q3 i (by omega) (by omega)], EnvLe.of_env (r4.trans q4)⟩
      · refine List.Perm.trans (List.Perm.append_right _ (List.perm_append_comm)) ?_
        rw [← f0]
        rw [e0] at h2
        exact h2
      · rw [f2, ← hba]
        exact q1'.1.congr fun i u v => r3 i (by omega) (by omega)
      · exact q2.congr fun i u v => r3 i (by omega) (by omega)
      · rw [hB]
        exact h3.2.congr fun i u v => by
          rw [List.length_drop] at v
          rw [r3 i (by omega) (by omega), q3 i (by omega) (by omega)]
      · exact fun i u v => (h1 i u v).same (by rw [r3 i (by omega) (by omega), q3 i (by omega) (by omega)])
      · rw [show split + w.bs = ba + (w.bs - L.length) by omega]; exact r2
  · rename_i hcond
    have hK2 : K2 = [] := List.length_eq_zero_iff.1 (by omega)
    subst hK2
    apply wp_bind
    refine wp_mono (rotate_seg c hs hba (by omega)) ?_
    rintro _ s1 ⟨-, q1, q2⟩
    obtain ⟨q3, q4⟩ := seg_append.1 q1
    exact wp_pure ⟨.here (by omega) rfl q3 (fun i u v => (h1 i u v).same (q2.cell i (by omega))), by rw [← hB]; exact q4, q2.w⟩

end CppSort
