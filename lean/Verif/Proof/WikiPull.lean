import Verif.Proof.WikiRoll
/-
wiki_sort.h 566-658, 661-693 and 870-905: finding values for the buffers, pulling them out, and putting them back.
-/
set_option autoImplicit false

namespace CppSort
variable {α : Type} {lt : α → α → Bool}

/-- `P` is made of the first values `K` of its classes and of the others, `R`. -/
inductive Heads (lt : α → α → Bool) : List α → List α → List α → Prop
  | nil : Heads lt [] [] []
  | snoc {P K R : List α} {x : α} {E : List α} : Heads lt P K R → (∀ z ∈ P, lt z x = true) → (∀ y ∈ E, lt y x = false ∧ lt x y = false) →
      Heads lt (P ++ x :: E) (K ++ [x]) (R ++ E)

/-- `Q` is made of the last values `K` of its classes and of the others, `R`. -/
inductive Tails (lt : α → α → Bool) : List α → List α → List α → Prop
  | nil : Tails lt [] [] []
  | cons {Q K R : List α} {x : α} {E : List α} : Tails lt Q K R → (∀ z ∈ Q, lt x z = true) → (∀ y ∈ E, lt y x = false ∧ lt x y = false) →
      Tails lt (E ++ x :: Q) (x :: K) (E ++ R)

theorem Heads.perm {P K R : List α} (h : Heads lt P K R) : (K ++ R).Perm P := by
  induction h with
  | nil => exact .refl _
  | @snoc P K R x E h _ _ ih =>
    have : (K ++ [x] ++ (R ++ E)).Perm (K ++ R ++ ([x] ++ E)) := by
      rw [List.append_assoc, List.append_assoc, ← List.append_assoc [x]]
      refine List.Perm.append_left K ?_
      rw [← List.append_assoc]
      exact (List.perm_append_comm (l₁ := [x]) (l₂ := R)).append_right E
    exact this.trans (ih.append_right _)

theorem Heads.sublist {P K R : List α} (h : Heads lt P K R) : K.Sublist P ∧ R.Sublist P := by
  induction h with
  | nil => exact ⟨.slnil, .slnil⟩
  | @snoc P K R x E h _ _ ih => exact ⟨ih.1.append (by simp), ih.2.append (List.sublist_cons_self _ _)⟩

theorem Tails.sublist {P K R : List α} (h : Tails lt P K R) : K.Sublist P ∧ R.Sublist P := by
  induction h with
  | nil => exact ⟨.slnil, .slnil⟩
  | @cons Q K R x E h _ _ ih =>
    refine ⟨(ih.1.cons_cons x).trans (List.sublist_append_right _ _), List.Sublist.append (.refl _) (ih.2.trans (List.sublist_cons_self _ _))⟩

theorem Heads.length {P K R : List α} (h : Heads lt P K R) : P.length = K.length + R.length := by
  have := h.perm.length_eq
  rw [List.length_append] at this; omega

theorem Tails.length {P K R : List α} (h : Tails lt P K R) : P.length = K.length + R.length := by
  induction h with
  | nil => rfl
  | cons h _ _ ih => simp only [List.length_append, List.length_cons]; omega

theorem Heads.merge (hlt : StrictWeak lt) {P K R : List α} (h : Heads lt P K R) : mergeL lt K R = P := by
  induction h with
  | nil => exact mergeL_nil_left _
  | @snoc P K R x E h h1 h2 ih =>
    rw [mergeL_split, ih, mergeL_before]
    · rfl
    · intro a ha b hb; rw [List.mem_singleton] at ha; subst ha; exact (h2 b hb).1
    · intro y hy z hz; rw [List.mem_singleton] at hz; subst hz; exact h1 y (h.sublist.2.subset hy)
    · intro k hk y hy
      exact hlt.asymm (hlt.lt_of_lt_of_le (h1 k (h.sublist.1.subset hk)) (h2 y hy).1)

theorem Tails.merge (hlt : StrictWeak lt) {P K R : List α} (h : Tails lt P K R) : mergeL lt R K = P := by
  induction h with
  | nil => exact mergeL_nil_left _
  | @cons Q K R x E h h1 h2 ih =>
    rw [show x :: K = [x] ++ K from rfl, mergeL_split, ih, mergeL_before]
    · simp
    · intro a ha b hb; rw [List.mem_singleton] at hb; subst hb; exact (h2 a ha).2
    · intro y hy z hz; rw [List.mem_singleton] at hy; subst hy; exact h1 z (h.sublist.2.subset hz)
    · intro y hy k hk
      exact hlt.asymm (hlt.lt_of_le_of_lt (h2 y hy).2 (h1 k (h.sublist.1.subset hk)))

theorem Heads.strict {P K R : List α} (h : Heads lt P K R) : StrictList lt K := by
  induction h with
  | nil => exact List.Pairwise.nil
  | @snoc P K R x E h h1 _ ih =>
    refine List.pairwise_append.2 ⟨ih, List.pairwise_singleton _ _, fun a ha b hb => ?_⟩
    rw [List.mem_singleton] at hb; subst hb; exact h1 a (h.sublist.1.subset ha)

theorem Tails.strict {P K R : List α} (h : Tails lt P K R) : StrictList lt K := by
  induction h with
  | nil => exact List.Pairwise.nil
  | @cons Q K R x E h h1 _ ih => exact List.pairwise_cons.2 ⟨fun b hb => h1 b (h.sublist.1.subset hb), ih⟩

/-- A list has only one split by a predicate. -/
theorem split_unique {p : α → Bool} : ∀ {U V P Q : List α}, U ++ V = P ++ Q → (∀ x ∈ U, p x = true) → (∀ x ∈ V, p x = false) → (∀ x ∈ P, p x = true) →
    (∀ x ∈ Q, p x = false) → U = P ∧ V = Q
  | [], V, [], Q, h, _, _, _, _ => ⟨rfl, h⟩
  | [], V, x :: P, Q, h, _, h2, h3, _ => by
    have h1 := h2 x (by rw [List.nil_append] at h; rw [h]; simp)
    rw [h3 x (by simp)] at h1; cases h1
  | u :: U, V, [], Q, h, h1, _, _, h4 => by
    have h2 := h4 u (by rw [List.nil_append] at h; rw [← h]; simp)
    rw [h1 u (by simp)] at h2; cases h2
  | u :: U, V, x :: P, Q, h, h1, h2, h3, h4 => by
    rw [List.cons_append, List.cons_append, List.cons.injEq] at h
    obtain ⟨e1, e2⟩ := split_unique h.2 (fun z hz => h1 z (by simp [hz])) h2 (fun z hz => h3 z (by simp [hz])) h4
    exact ⟨by rw [h.1, e1], e2⟩

/-! ### Counting -/

theorem wikiCountA_spec (hlt : StrictWeak lt) {X : List α} {lo aEnd find : Nat} (oX : SortedList lt X) (ha : aEnd = lo + X.length) (N : Nat) :
    ∀ (P K R T : List α) (x : α) (last count : Nat) (s : St α), T.length = N → X = P ++ x :: T → Heads lt P K R → (∀ z ∈ P, lt z x = true) →
    last = lo + P.length → count = K.length + 1 → count ≤ find → Seg s.cell lo X →
    wp (wikiCountA (tick lt) find aEnd last count) (fun r s' => (∃ P' K' R' T' x', X = P' ++ x' :: T' ∧ Heads lt P' K' R' ∧ (∀ z ∈ P', lt z x' = true) ∧
      r.1 = lo + P'.length ∧ r.2 = K'.length + 1 ∧ r.2 ≤ find ∧ (r.2 < find → ∀ t ∈ T', lt x' t = false)) ∧ ∃ k, s' = { s with cmps := k }) s := by
  induction N using Nat.strongRecOn with
  | _ N ih =>
    intro P K R T x last count s hN hX hH hP hl hc hf hs
    rw [wikiCountA]
    have oT : SortedList lt (x :: T) := (sortedList_append.1 (by rw [hX] at oX; exact oX)).2.1
    split
    · have hs' := hs
      rw [hX, seg_append, seg_cons, ← hl] at hs'
      apply wp_bind
      refine wp_read' hs'.2.1 ?_
      apply wp_bind
      refine wp_mono (findLastForward_spec hlt x (l := aEnd) (by rw [ha, hX]; simp; omega) hs'.2.2 (sortedList_cons.1 oT).2 (by omega)) ?_
      rintro index s1 ⟨U, V, k, rfl, hi, hU, hV, rfl⟩
      split
      · rename_i hend
        have hV0 : V = [] := by
          have := congrArg List.length hX
          simp at this
          exact List.length_eq_zero_iff.1 (by omega)
        subst hV0
        refine wp_pure ⟨⟨P, K, R, U ++ [], x, hX, hH, hP, hl, hc, hf, fun _ t ht => hU t (by simpa using ht)⟩, k, rfl⟩
      · rename_i hend
        cases V with
        | nil =>
          exfalso
          have := congrArg List.length hX
          simp at this; omega
        | cons y V =>
          have hyx : lt x y = true := hV y (by simp)
          refine wp_mono (ih V.length (by rw [← hN]; simp; omega) (P ++ x :: U) (K ++ [x]) (R ++ U) V y index (count + 1) { s with cmps := k } rfl (by rw [hX]; simp)
            (hH.snoc hP fun u hu => ⟨(sortedList_cons.1 oT).1 u (by simp [hu]), hU u hu⟩) ?_ (by simp; omega) (by simp; omega) (by omega) hs) ?_
          · intro z hz
            rcases List.mem_append.1 hz with hz | hz
            · exact hlt.trans _ _ _ (hP z hz) hyx
            · rcases List.mem_cons.1 hz with rfl | hz
              · exact hyx
              · exact hlt.lt_of_le_of_lt (hU z hz) hyx
          · rintro r s2 ⟨h1, k2, rfl⟩
            exact ⟨h1, k2, rfl⟩
    · exact wp_pure ⟨⟨P, K, R, T, x, hX, hH, hP, hl, hc, hf, fun h => by simp only at h; omega⟩, s.cmps, rfl⟩

theorem wikiCountB_spec (hlt : StrictWeak lt) {Y : List α} {m find : Nat} (oY : SortedList lt Y) (N : Nat) :
    ∀ (T Q K R : List α) (x : α) (last count : Nat) (s : St α), T.length = N → Y = T ++ x :: Q → Tails lt Q K R → (∀ z ∈ Q, lt x z = true) →
    last = m + T.length → count = K.length + 1 → count ≤ find → Seg s.cell m Y →
    wp (wikiCountB (tick lt) find m last count) (fun r s' => (∃ T' Q' K' R' x', Y = T' ++ x' :: Q' ∧ Tails lt Q' K' R' ∧ (∀ z ∈ Q', lt x' z = true) ∧
      r.1 = m + T'.length ∧ r.2 = K'.length + 1 ∧ r.2 ≤ find ∧ (r.2 < find → ∀ t ∈ T', lt t x' = false)) ∧ ∃ k, s' = { s with cmps := k }) s := by
  induction N using Nat.strongRecOn with
  | _ N ih =>
    intro T Q K R x last count s hN hY hH hQ hl hc hf hs
    rw [wikiCountB]
    obtain ⟨oT, oQ, oTQ⟩ := sortedList_append.1 (by rw [hY] at oY; exact oY)
    split
    · have hs' := hs
      rw [hY, seg_append, seg_cons, ← hl] at hs'
      apply wp_bind
      refine wp_read' hs'.2.1 ?_
      apply wp_bind
      refine wp_mono (findFirstBackward_spec hlt x hl hs'.1 oT (by omega)) ?_
      rintro index s1 ⟨U, V, k, rfl, hi, hU, hV, rfl⟩
      rw [List.length_append] at hl hN
      split
      · rename_i hend
        have hU0 : U = [] := List.length_eq_zero_iff.1 (by omega)
        subst hU0
        refine wp_pure ⟨⟨[] ++ V, Q, K, R, x, hY, hH, hQ, by simp; omega, hc, hf, fun _ t ht => hV t (by simpa using ht)⟩, k, rfl⟩
      · rename_i hend
        have hUne : U ≠ [] := by intro e; subst e; simp at hi; omega
        obtain ⟨U, y, rfl⟩ : ∃ U' y, U = U' ++ [y] := ⟨_, _, (List.dropLast_append_getLast hUne).symm⟩
        have hyx : lt y x = true := hU y (by simp)
        simp only [List.length_append, List.length_cons, List.length_nil] at hi hN
        refine wp_mono (ih U.length (by omega) U (V ++ x :: Q) (x :: K) (V ++ R) y (index - 1) (count + 1) { s with cmps := k } rfl (by rw [hY]; simp)
          (hH.cons hQ fun v hv => ⟨hV v hv, oTQ v (by simp [hv]) x (by simp)⟩) ?_ (by omega) (by simp; omega) (by omega) hs) ?_
        · intro z hz
          rcases List.mem_append.1 hz with hz | hz
          · exact hlt.lt_of_lt_of_le hyx (hV z hz)
          · rcases List.mem_cons.1 hz with rfl | hz
            · exact hyx
            · exact hlt.trans _ _ _ hyx (hQ z hz)
        · rintro r s2 ⟨h1, k2, rfl⟩
          exact ⟨h1, k2, rfl⟩
    · exact wp_pure ⟨⟨T, Q, K, R, x, hY, hH, hQ, hl, hc, hf, fun h => by simp only at h; omega⟩, s.cmps, rfl⟩

/-! ### Pulling out -/

theorem wikiPullLeft_spec (hlt : StrictWeak lt) (c : Cfg) {lo length : Nat} {P K R : List α} (h : Heads lt P K R) :
    ∀ (KK : List α) (src index : Nat) (s : St α), KK ≠ [] → SortedList lt P → length = K.length + KK.length → index = lo + P.length → src + 1 = index + KK.length →
    Seg s.cell lo (P ++ KK) →
    wp (wikiPullLeft (tick lt) c length lo KK.length src index) (fun r s' => r + 1 = lo + length ∧ Seg s'.cell lo (K ++ KK ++ R) ∧
      Frame lo (lo + (P.length + KK.length)) s s') s := by
  induction h with
  | nil =>
    intro KK src index s hK _ hlen hi hsrc hs
    rw [wikiPullLeft, if_neg (by simp at hlen; omega)]
    refine wp_pure ⟨by simp at hlen hi; omega, by simpa using hs, Frame.refl _ _ _⟩
  | @snoc P K R x E h h1 h2 ih =>
    intro KK src index s hK oP hlen hi hsrc hs
    haveI : Inhabited α := ⟨x⟩
    have hKp := List.length_pos_iff.2 hK
    simp only [List.length_append, List.length_cons, List.length_nil] at hlen hi
    rw [wikiPullLeft, if_pos (by omega)]
    apply wp_bind
    obtain ⟨sP, sK⟩ := seg_append.1 hs
    have hne : P ++ x :: E ≠ [] := by simp
    have hv := seg_last sP hne
    rw [show lo + (P ++ x :: E).length - 1 = index - 1 by simp; omega] at hv
    refine wp_read' hv ?_
    generalize hve : (P ++ x :: E).getLast hne = v
    have hvx : lt v x = false ∧ lt x v = false := by
      rw [List.getLast_append_of_ne_nil hne (by simp)] at hve
      · have : v ∈ x :: E := by rw [← hve]; exact List.getLast_mem _
        rcases List.mem_cons.1 this with rfl | h3
        · exact ⟨hlt.irrefl _, hlt.irrefl _⟩
        · exact h2 v h3
    apply wp_bind
    refine wp_mono (findFirstBackward_spec hlt v (l := src - (KK.length - 1)) (by simp; omega) sP oP (by omega)) ?_
    rintro index' s1 ⟨U, V, k, hUV, hi', hU, hV, rfl⟩
    obtain ⟨rfl, rfl⟩ := split_unique (p := fun z => lt z v) hUV.symm hU hV (fun z hz => hlt.lt_of_lt_of_le (h1 z hz) hvx.1) (by
      intro z hz
      rcases List.mem_cons.1 hz with rfl | hz
      · exact hvx.2
      · exact hlt.le_trans hvx.2 (h2 z hz).1)
    apply wp_bind
    rw [List.append_assoc, seg_append, List.cons_append, seg_cons] at hs
    rw [← hi'] at hs
    refine wp_mono (rotate_seg c (s := { s with cmps := k }) hs.2.2 (show src + 1 - KK.length = _ by omega) (show src + 1 = _ by omega)) ?_
    rintro _ s2 ⟨-, q1, q2⟩
    have q3 : Frame lo (lo + ((U ++ x :: E).length + KK.length)) s s2 :=
      (Frame.of_env (s := s) (s' := { s with cmps := k }) rfl fun _ _ => rfl).trans (q2.mono (by omega) (by simp; omega))
    have q2c := q2.cell
    have e1 : (KK.length + 1) = (x :: KK).length := rfl
    rw [seg_append] at q1
    rw [e1]
    refine wp_mono (ih (x :: KK) (index' + KK.length) index' s2 (by simp) (sortedList_append.1 oP).1 (by simp; omega) hi' (by simp; omega)
      (seg_append.2 ⟨?_, seg_cons.2 ⟨?_, ?_⟩⟩)) ?_
    · exact hs.1.congr fun i u v => q2c i (by omega)
    · rw [← hi', q2c _ (by omega)]; exact hs.2.1
    · rw [← hi']; exact q1.1
    · rintro r s3 ⟨r1, r2, r3⟩
      have r3c := r3.cell
      simp only [List.length_cons] at r3c
      have hl0 := h.length
      refine ⟨r1, ?_, q3.trans (r3.mono (Nat.le_refl _) (by simp; omega))⟩
      rw [← List.append_assoc, List.append_assoc K [x] KK, List.singleton_append, seg_append]
      refine ⟨r2, ?_⟩
      simp only [List.length_append, List.length_cons]
      rw [show lo + (K.length + (KK.length + 1) + R.length) = index' + 1 + KK.length by omega]
      exact q1.2.congr fun i u v => r3c i (by omega)

theorem wikiPullRight_spec (hlt : StrictWeak lt) (c : Cfg) {e length : Nat} {Q K R : List α} (h : Tails lt Q K R) :
    ∀ (KK : List α) (src index : Nat) (s : St α), SortedList lt Q → length = K.length + KK.length → index = src + KK.length → e = index + Q.length →
    Seg s.cell src (KK ++ Q) →
    wp (wikiPullRight (tick lt) c length e KK.length src index) (fun r s' => r + length = e ∧ Seg s'.cell src (R ++ (KK ++ K)) ∧
      Frame src e s s') s := by
  induction h with
  | nil =>
    intro KK src index s _ hlen hi he hs
    rw [wikiPullRight, if_neg (by simp at hlen; omega)]
    refine wp_pure ⟨by simp at hlen he; omega, by simpa using hs, Frame.refl _ _ _⟩
  | @cons Q K R x E h h1 h2 ih =>
    intro KK src index s oQ hlen hi he hs
    haveI : Inhabited α := ⟨x⟩
    simp only [List.length_append, List.length_cons] at hlen he
    rw [wikiPullRight, if_pos (by omega)]
    apply wp_bind
    obtain ⟨sK, sQ⟩ := seg_append.1 hs
    rw [← hi] at sQ
    have hne : E ++ x :: Q ≠ [] := by simp
    refine wp_read' (seg_head sQ hne) ?_
    generalize hve : (E ++ x :: Q).head hne = v
    have hvx : lt v x = false ∧ lt x v = false := by
      cases E with
      | nil => simp at hve; subst hve; exact ⟨hlt.irrefl _, hlt.irrefl _⟩
      | cons y E => simp at hve; subst hve; exact h2 y (by simp)
    apply wp_bind
    refine wp_mono (findLastForward_spec hlt v (l := e) (by simp; omega) sQ oQ (by omega)) ?_
    rintro index' s1 ⟨U, V, k, hUV, hi', hU, hV, rfl⟩
    obtain ⟨e1, e2⟩ := split_unique (p := fun z => !lt v z) (U := U) (V := V) (P := E ++ [x]) (Q := Q) (by rw [← hUV]; simp) (by simpa using hU) (by simpa using hV) (by
      intro z hz
      simp only [Bool.not_eq_true']
      rcases List.mem_append.1 hz with hz | hz
      · exact hlt.le_trans (h2 z hz).2 hvx.1
      · rw [List.mem_singleton] at hz; subst hz; exact hvx.1) (by
      intro z hz
      simp only [Bool.not_eq_false']
      exact hlt.lt_of_le_of_lt hvx.2 (h1 z hz))
    subst e1 e2
    rw [List.length_append, List.length_singleton] at hi'
    apply wp_bind
    rw [show KK ++ (E ++ x :: V) = (KK ++ E) ++ x :: V by simp, seg_append, seg_cons, List.length_append] at hs
    refine wp_mono (rotate_seg c (s := { s with cmps := k }) hs.1 (show src + KK.length = _ by omega) (show index' - 1 = _ by omega)) ?_
    rintro _ s2 ⟨-, q1, q2⟩
    have q2c := q2.cell
    have q3 : Frame src e s s2 := (Frame.of_env (s := s) (s' := { s with cmps := k }) rfl fun _ _ => rfl).trans (q2.mono (by omega) (by omega))
    rw [show KK.length + 1 = (KK ++ [x]).length by simp]
    rw [seg_append] at q1
    refine wp_mono (ih (KK ++ [x]) (index' - KK.length - 1) index' s2 (sortedList_cons.1 (sortedList_append.1 oQ).2.1).2 (by simp; omega) (by simp; omega) (by omega) ?_) ?_
    · rw [show index' - KK.length - 1 = src + E.length by omega, seg_append, seg_snoc]
      refine ⟨⟨q1.2, ?_⟩, ?_⟩
      · rw [q2c _ (by omega), show src + E.length + KK.length = src + (KK.length + E.length) by omega]; exact hs.2.1
      · simp only [List.length_append, List.length_cons, List.length_nil]
        rw [show src + E.length + (KK.length + (0 + 1)) = src + (KK.length + E.length) + 1 by omega]
        exact hs.2.2.congr fun i u v => q2c i (by omega)
    · rintro r s3 ⟨r1, r2, r3⟩
      have r3c := r3.cell
      refine ⟨r1, ?_, q3.trans (r3.mono (by omega) (Nat.le_refl _))⟩
      rw [show E ++ R ++ (KK ++ x :: K) = E ++ (R ++ (KK ++ [x] ++ K)) by simp, seg_append]
      refine ⟨q1.1.congr fun i u v => r3c i (by omega), ?_⟩
      rw [show src + E.length = index' - KK.length - 1 by omega]; exact r2

/-! ### Putting back -/

theorem wikiSpreadRight_spec (hlt : StrictWeak lt) (c : Cfg) {hi : Nat} : ∀ (K W : List α) (bs be unique : Nat) (s : St α), SortedList lt K → SortedList lt W →
    be = bs + K.length → hi = be + W.length → unique = K.length * 2 → Seg s.cell bs (K ++ W) →
    wp (wikiSpreadRight (tick lt) c hi bs be unique) (fun _ s' => Seg s'.cell bs (mergeL lt K W) ∧ Frame bs hi s s') s := by
  intro K
  induction K with
  | nil =>
    intro W bs be unique s _ _ hb hh _ hs
    rw [wikiSpreadRight, if_neg (by simp at hb; omega)]
    exact wp_pure ⟨by rw [mergeL_nil_left]; exact hs, Frame.refl _ _ _⟩
  | cons x K ih =>
    intro W bs be unique s oK oW hb hh hu hs
    haveI : Inhabited α := ⟨x⟩
    simp only [List.length_cons] at hb hu
    rw [wikiSpreadRight, if_pos (by omega)]
    apply wp_bind
    obtain ⟨sK, sW⟩ := seg_append.1 hs
    refine wp_read' (seg_cons.1 sK).1 ?_
    apply wp_bind
    simp only [List.length_cons] at sW
    rw [← hb] at sW
    refine wp_mono (findFirstForward_spec hlt x hh sW oW (by omega)) ?_
    rintro index s1 ⟨W0, W1, k, rfl, hi', h0, h1, rfl⟩
    apply wp_bind
    rw [← List.append_assoc, seg_append] at hs
    rw [List.length_append] at hh
    refine wp_mono (rotate_seg c (s := { s with cmps := k }) hs.1 (show be = bs + (x :: K).length by simp; omega) (show index = _ by omega)) ?_
    rintro _ s2 ⟨-, q1, q2⟩
    have q2c := q2.cell
    have q3 : Frame bs hi s s2 := (Frame.of_env (s := s) (s' := { s with cmps := k }) rfl fun _ _ => rfl).trans (q2.mono (Nat.le_refl _) (by omega))
    rw [show index - be = W0.length by omega]
    rw [seg_append, seg_cons] at q1
    rw [List.length_append, List.length_cons] at hs
    refine wp_mono (ih W1 (bs + (W0.length + 1)) (be + W0.length) (unique - 2) s2 (sortedList_cons.1 oK).2 (sortedList_append.1 oW).2.1 (by omega) (by omega) (by omega)
      (seg_append.2 ⟨by rw [← Nat.add_assoc]; exact q1.2.2, ?_⟩)) ?_
    · rw [show bs + (W0.length + 1) + K.length = bs + (K.length + 1 + W0.length) by omega]
      exact hs.2.congr fun i u v => q2c i (by omega)
    · rintro _ s3 ⟨r1, r2⟩
      have r2c := r2.cell
      refine ⟨?_, q3.trans (r2.mono (by omega) (Nat.le_refl _))⟩
      rw [mergeL_lower, show x :: K = [x] ++ K from rfl, mergeL_upper, seg_append, List.singleton_append, seg_cons]
      · refine ⟨q1.1.congr fun i u v => r2c i (by omega), ?_, by rw [Nat.add_assoc]; exact r1⟩
        rw [r2c _ (by omega)]; exact q1.2.1
      · intro z hz y hy; rw [List.mem_singleton] at hz; subst hz; exact h1 y hy
      · intro y hy z hz
        rcases List.mem_cons.1 hz with rfl | hz
        · exact h0 y hy
        · exact hlt.lt_of_lt_of_le (h0 y hy) ((sortedList_cons.1 oK).1 z hz)

theorem wikiSpreadLeft_spec (hlt : StrictWeak lt) (c : Cfg) {lo : Nat} (N : Nat) : ∀ (K W : List α) (bs be unique : Nat) (s : St α), K.length = N → SortedList lt K → SortedList lt W →
    bs = lo + W.length → be = bs + K.length → unique = K.length * 2 → Seg s.cell lo (W ++ K) →
    wp (wikiSpreadLeft (tick lt) c lo bs be unique) (fun _ s' => Seg s'.cell lo (mergeL lt W K) ∧ Frame lo be s s') s := by
  induction N with
  | zero =>
    intro K W bs be unique s hN _ _ hb hh _ hs
    have : K = [] := List.length_eq_zero_iff.1 hN
    subst this
    rw [wikiSpreadLeft, if_neg (by simp at hh; omega)]
    exact wp_pure ⟨by rw [mergeL_nil_right]; simpa using hs, Frame.refl _ _ _⟩
  | succ N ih =>
    intro K W bs be unique s hN oK oW hb hh hu hs
    have hne : K ≠ [] := by intro e; subst e; simp at hN
    obtain ⟨K, x, rfl⟩ : ∃ K' x, K = K' ++ [x] := ⟨_, _, (List.dropLast_append_getLast hne).symm⟩
    haveI : Inhabited α := ⟨x⟩
    simp only [List.length_append, List.length_cons, List.length_nil] at hN hh hu
    rw [wikiSpreadLeft, if_pos (by omega)]
    apply wp_bind
    obtain ⟨sW, sK⟩ := seg_append.1 hs
    rw [← hb] at sK
    refine wp_read' (x := x) (by rw [show be - 1 = bs + K.length by omega]; exact (seg_snoc.1 sK).2) ?_
    apply wp_bind
    refine wp_mono (findLastBackward_spec hlt x hb sW oW (by omega)) ?_
    rintro index s1 ⟨W0, W1, k, rfl, hi', h0, h1, rfl⟩
    rw [List.length_append] at hb
    apply wp_bind
    rw [List.append_assoc, seg_append, ← hi'] at hs
    rw [show index + (bs - index) = bs by omega]
    refine wp_mono (rotate_seg c (s := { s with cmps := k }) hs.2 (show bs = _ by omega) (show be = _ by simp; omega)) ?_
    rintro _ s2 ⟨-, q1, q2⟩
    have q2c := q2.cell
    have q3 : Frame lo be s s2 := (Frame.of_env (s := s) (s' := { s with cmps := k }) rfl fun _ _ => rfl).trans (q2.mono (by omega) (by omega))
    rw [List.append_assoc, seg_append, List.singleton_append] at q1
    rw [show bs - (bs - index) = index by omega]
    refine wp_mono (ih K W0 index (be - (bs - index + 1)) (unique - 2) s2 (by omega) (sortedList_append.1 oK).1 (sortedList_append.1 oW).1 hi' (by omega) (by omega)
      (seg_append.2 ⟨hs.1.congr fun i u v => q2c i (by omega), by rw [← hi']; exact q1.1⟩)) ?_
    rintro _ s3 ⟨r1, r2⟩
    have r2c := r2.cell
    refine ⟨?_, q3.trans (r2.mono (Nat.le_refl _) (by omega))⟩
    rw [mergeL_split, mergeL_after (ys := [x]) (xs := W1), seg_append, (mergeL_perm W0 K).length_eq, List.length_append]
    · refine ⟨r1, ?_⟩
      rw [← Nat.add_assoc, ← hi']
      exact q1.2.congr fun i u v => r2c i (by omega)
    · intro z hz y hy; rw [List.mem_singleton] at hy; subst hy; exact h1 z hz
    · intro y hy z hz
      exact hlt.lt_of_le_of_lt ((sortedList_append.1 oK).2.2 y hy x (by simp)) (h1 z hz)
    · intro z hz y hy; rw [List.mem_singleton] at hy; subst hy; exact h0 z hz

end CppSort
