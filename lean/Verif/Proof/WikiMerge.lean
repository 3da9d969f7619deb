import Verif.Proof.WikiFind
import Verif.Proof.GrailMain
/-
wiki_sort.h 169-256 and 413-499: the merges of two ranges.
-/
set_option autoImplicit false

namespace CppSort
variable {α : Type} {lt : α → α → Bool}

/-! ### Exchanges -/

/-- Exchange of two ranges that do not overlap. -/
theorem swapRanges_dis : ∀ (X Y : List α) (a l b : Nat) (s : St α), X.length = Y.length → l = a + X.length →
    (l ≤ b ∨ b + X.length ≤ a) → Seg s.cell a X → Seg s.cell b Y →
    wp (swapRanges a l b) (fun _ s' => Seg s'.cell a Y ∧ Seg s'.cell b X ∧
      (∀ i, (i < a ∨ a + X.length ≤ i) → (i < b ∨ b + X.length ≤ i) → s'.cell i = s.cell i) ∧ s'.env = s.env) s := by
  intro X
  induction X with
  | nil =>
    intro Y a l b s hl e1 hd hX hY
    have : Y = [] := by rw [← List.length_eq_zero_iff]; simpa using hl.symm
    subst this
    rw [swapRanges, if_neg (by simp at e1; omega)]
    exact wp_pure ⟨Seg.nil, Seg.nil, fun _ _ _ => rfl, rfl⟩
  | cons x X ih =>
    intro Y a l b s hl e1 hd hX hY
    cases Y with
    | nil => simp at hl
    | cons y Y =>
      simp only [List.length_cons] at hl e1 hd
      obtain ⟨x1, x2⟩ := seg_cons.1 hX
      obtain ⟨y1, y2⟩ := seg_cons.1 hY
      rw [swapRanges, if_pos (by omega)]
      apply wp_bind
      refine wp_swap' x1 y1 fun s1 hc he _ _ => ?_
      refine wp_mono (ih Y (a + 1) l (b + 1) s1 (by omega) (by omega) (by omega) ?_ ?_) ?_
      · rw [hc]; exact (x2.out (by omega)).out (by omega)
      · rw [hc]; exact (y2.out (by omega)).out (by omega)
      · rintro _ s2 ⟨q1, q2, q3, q4⟩
        simp only [List.length_cons]
        refine ⟨seg_cons.2 ⟨?_, q1⟩, seg_cons.2 ⟨?_, q2⟩, fun i h1 h2 => ?_, q4.trans he⟩
        · rw [q3 _ (by omega) (by omega), hc]; sc
        · rw [q3 _ (by omega) (by omega), hc]; sc
        · rw [q3 _ (by omega) (by omega), hc]; sc

/-- Exchange of a range with itself. -/
theorem swapRanges_self : ∀ (X : List α) (a l : Nat) (s : St α), l = a + X.length → Seg s.cell a X →
    wp (swapRanges a l a) (fun _ s' => Seg s'.cell a X ∧ Frame a l s s') s := by
  intro X
  induction X with
  | nil =>
    intro a l s e1 hX
    rw [swapRanges, if_neg (by simp at e1; omega)]
    exact wp_pure ⟨Seg.nil, Frame.refl _ _ _⟩
  | cons x X ih =>
    intro a l s e1 hX
    simp only [List.length_cons] at e1
    obtain ⟨x1, x2⟩ := seg_cons.1 hX
    rw [swapRanges, if_pos (by omega)]
    apply wp_bind
    refine wp_swap' x1 x1 fun s1 hc he _ _ => ?_
    refine wp_mono (ih (a + 1) l s1 (by omega) ?_) ?_
    · rw [hc]; exact (x2.out (by omega)).out (by omega)
    · rintro _ s2 ⟨q1, q2⟩
      refine ⟨seg_cons.2 ⟨?_, q1⟩, (Frame.of_env he (f := a) (l := l) fun i hi => ?_).trans (q2.mono (by omega) (by omega))⟩
      · rw [q2.cell _ (by omega), hc]; sc
      · rw [hc]; sc

/-! ### `MergeInternal` -/

/-- What the loop leaves: the beginning of the result `D`, then a hole `J2` as long as what is left of the first range, `X2`, then what is left
of the second range; the first part of the buffer has got values of the hole. -/
structure InternalDone (lt : α → α → Bool) (X Y J : List α) (a i : Nat) (r : Nat × Nat) (s s' : St α) (D X2 Y2 J1 J2 : List α) : Prop where
  res : mergeL lt X Y = D ++ (X2 ++ Y2)
  len : J2.length = X2.length
  lenJ : J1.length + X2.length = X.length
  ra : r.1 = a + J1.length
  ri : r.2 = i + D.length
  perm : (J1 ++ J2).Perm J
  done : Seg s'.cell i (D ++ (J2 ++ Y2))
  buf : Seg s'.cell a (J1 ++ X2)
  rest : ∀ k, (k < a ∨ a + X.length ≤ k) → (k < i ∨ i + (X.length + Y.length) ≤ k) → s'.cell k = s.cell k
  env : s'.env = s.env

theorem mergeInternalLoop_spec (n : Nat) : ∀ (X Y J : List α) (a b i aLast bLast : Nat) (s : St α), X.length + Y.length = n → X ≠ [] →
    Y ≠ [] → J.length = X.length → b = i + J.length → aLast = a + X.length → bLast = b + Y.length → (aLast ≤ i ∨ bLast ≤ a) →
    Seg s.cell a X → Seg s.cell i (J ++ Y) →
    wp (mergeInternalLoop (tick lt) aLast bLast a b i) (fun r s' => ∃ D X2 Y2 J1 J2, InternalDone lt X Y J a i r s s' D X2 Y2 J1 J2) s := by
  induction n with
  | zero =>
    intro X Y J a b i aLast bLast s hn hX
    exact absurd (List.length_eq_zero_iff.1 (by omega)) hX
  | succ n ih =>
    intro X Y J a b i aLast bLast s hn hX hY hJ hb ha hbl hd sX sJY
    obtain ⟨x, X, rfl⟩ := List.exists_cons_of_ne_nil hX
    obtain ⟨y, Y, rfl⟩ := List.exists_cons_of_ne_nil hY
    obtain ⟨j, J, rfl⟩ := List.exists_cons_of_ne_nil (l := J) (by intro e; subst e; simp at hJ)
    simp only [List.length_cons] at hn hJ hb ha hbl
    obtain ⟨x1, x2⟩ := seg_cons.1 sX
    rw [seg_append, seg_cons, seg_cons] at sJY
    obtain ⟨⟨j1, j2⟩, y1, y2⟩ := sJY
    simp only [List.length_cons] at y1 y2
    rw [show i + (J.length + 1) = b by omega] at y1 y2
    rw [mergeInternalLoop]
    apply wp_bind
    refine wp_wikiLt y1 x1 ?_
    split
    · rename_i hc
      apply wp_bind
      refine wp_swap' (s := { s with cmps := s.cmps + 1 }) j1 y1 fun s1 hc1 he _ _ => ?_
      have q1 : Seg s1.cell a (x :: X) := by rw [hc1]; exact (sX.out (by simp; omega)).out (by simp; omega)
      have q2 : Seg s1.cell (i + 1) (J ++ [j]) := by
        rw [seg_snoc, hc1]
        exact ⟨(j2.out (by omega)).out (by omega), by sc⟩
      have q3 : Seg s1.cell (b + 1) Y := by rw [hc1]; exact (y2.out (by omega)).out (by omega)
      have q4 : s1.cell i = .val y := by rw [hc1]; sc
      have hm : mergeL lt (x :: X) (y :: Y) = y :: mergeL lt (x :: X) Y := by rw [mergeL_cons, if_pos hc]
      split
      · rename_i hY0
        have : Y = [] := List.length_eq_zero_iff.1 (by omega)
        subst this
        refine wp_pure ⟨[y], x :: X, [], [], J ++ [j], ⟨by rw [hm]; simp, by simp; omega, by simp, rfl, by simp, ?_, ?_, q1, ?_, he⟩⟩
        · simp only [List.nil_append]; exact (List.perm_append_comm)
        · rw [List.append_nil, List.singleton_append, seg_cons]; exact ⟨q4, q2⟩
        · intro k h1 h2
          simp only [List.length_cons] at h1 h2
          rw [hc1]; sc
      · refine wp_mono (ih (x :: X) Y (J ++ [j]) a (b + 1) (i + 1) aLast bLast s1 (by simp; omega) (by simp) (by intro e; subst e; simp at hbl; omega)
          (by simp; omega) (by simp; omega) (by simp; omega) (by omega) (by omega) q1 ?_) ?_
        · rw [seg_append]
          refine ⟨q2, ?_⟩
          simp only [List.length_append, List.length_cons, List.length_nil]
          rw [show i + 1 + (J.length + (0 + 1)) = b + 1 by omega]; exact q3
        · rintro r s2 ⟨D, X2, Y2, J1, J2, h⟩
          refine ⟨y :: D, X2, Y2, J1, J2, ⟨by rw [hm, h.res]; rfl, h.len, h.lenJ, h.ra, by rw [h.ri]; simp; omega,
            h.perm.trans (List.perm_append_comm), ?_, h.buf, ?_, h.env.trans he⟩⟩
          · rw [List.cons_append, seg_cons]
            refine ⟨?_, h.done⟩
            rw [h.rest _ (by simp; omega) (by omega), q4]
          · intro k h1 h2
            simp only [List.length_cons] at h1 h2
            rw [h.rest _ (by simp; omega) (by simp; omega), hc1]; sc
    · rename_i hc
      apply wp_bind
      refine wp_swap' (s := { s with cmps := s.cmps + 1 }) j1 x1 fun s1 hc1 he _ _ => ?_
      have q1 : Seg s1.cell (a + 1) X := by rw [hc1]; exact (x2.out (by omega)).out (by omega)
      have q2 : Seg s1.cell (i + 1) (J ++ (y :: Y)) := by
        rw [seg_append, seg_cons, hc1, show i + 1 + J.length = b by omega]
        exact ⟨(j2.out (by omega)).out (by omega), by sc; exact y1, (y2.out (by omega)).out (by omega)⟩
      have q3 : s1.cell a = .val j := by rw [hc1]; sc
      have q4 : s1.cell i = .val x := by rw [hc1]; sc
      have hm : mergeL lt (x :: X) (y :: Y) = x :: mergeL lt X (y :: Y) := by rw [mergeL_cons, if_neg hc]
      split
      · rename_i hX0
        have : X = [] := List.length_eq_zero_iff.1 (by omega)
        subst this
        have : J = [] := List.length_eq_zero_iff.1 (by simp at hJ; simpa using hJ)
        subst this
        refine wp_pure ⟨[x], [], y :: Y, [j], [], ⟨by rw [hm]; simp, by simp, by simp, rfl, rfl, by simp, ?_, ?_, ?_, he⟩⟩
        · rw [List.singleton_append, seg_cons]; exact ⟨q4, q2⟩
        · rw [List.append_nil, seg_one]; exact q3
        · intro k h1 h2
          simp only [List.length_cons] at h1 h2
          rw [hc1]; sc
      · refine wp_mono (ih X (y :: Y) J (a + 1) b (i + 1) aLast bLast s1 (by simp; omega) (by intro e; subst e; simp at ha; omega) (by simp)
          (by omega) (by omega) (by omega) (by simp; omega) (by omega) q1 q2) ?_
        · rintro r s2 ⟨D, X2, Y2, J1, J2, h⟩
          refine ⟨x :: D, X2, Y2, j :: J1, J2, ⟨by rw [hm, h.res]; rfl, h.len, by have := h.lenJ; simp; omega, by rw [h.ra]; simp; omega,
            by rw [h.ri]; simp; omega, h.perm.cons j, ?_, ?_, ?_, h.env.trans he⟩⟩
          · rw [List.cons_append, seg_cons]
            refine ⟨?_, h.done⟩
            rw [h.rest _ (by omega) (by omega), q4]
          · rw [List.cons_append, seg_cons]
            refine ⟨?_, h.buf⟩
            rw [h.rest _ (by omega) (by simp; omega), q3]
          · intro k h1 h2
            simp only [List.length_cons] at h1 h2
            rw [h.rest _ (by omega) (by simp; omega), hc1]; sc

theorem mergeInternal_spec {X Y J : List α} {a e1 f m l : Nat} {s : St α} (hJ : J.length = X.length) (hm : m = f + X.length) (hl : l = m + Y.length)
    (he1 : e1 = m) (hd : a + X.length ≤ f ∨ l ≤ a) (sX : Seg s.cell a X) (sJ : Seg s.cell f J) (sY : Seg s.cell m Y) :
    wp (mergeInternal (tick lt) f e1 m l a) (fun _ s' => ∃ J', J'.Perm J ∧ Seg s'.cell f (mergeL lt X Y) ∧ Seg s'.cell a J' ∧
      (∀ k, (k < a ∨ a + X.length ≤ k) → (k < f ∨ l ≤ k) → s'.cell k = s.cell k) ∧ s'.env = s.env) s := by
  subst he1
  unfold mergeInternal
  rw [show e1 - f = X.length by omega]
  split
  · rename_i hne
    apply wp_bind
    refine wp_mono (mergeInternalLoop_spec _ X Y J a e1 f (a + X.length) l s rfl (by intro e; subst e; simp at hm; omega)
      (by intro e; subst e; simp at hl; omega) hJ (by omega) rfl hl (by omega) sX ?_) ?_
    · rw [seg_append, hJ, ← hm]; exact ⟨sJ, sY⟩
    · rintro ⟨a', i'⟩ s1 ⟨D, X2, Y2, J1, J2, h⟩
      have e1' : a' = a + J1.length := h.ra
      have e2' : i' = f + D.length := h.ri
      have hlen := congrArg List.length h.res
      rw [(mergeL_perm _ _).length_eq] at hlen
      have hl2 := h.len
      have hl3 := h.lenJ
      have hd1 := h.done
      have hb1 := h.buf
      rw [seg_append, seg_append] at hd1
      rw [seg_append] at hb1
      simp only [List.length_append] at hlen
      apply wp_bind
      refine wp_mono (swapRanges_dis X2 J2 a' (a + X.length) i' s1 h.len.symm (by omega) (by omega) (by rw [e1']; exact hb1.2)
        (by rw [e2']; exact hd1.2.1)) ?_
      rintro _ s2 ⟨q1, q2, q3, q4⟩
      refine wp_pure ⟨J1 ++ J2, h.perm, ?_, ?_, ?_, q4.trans h.env⟩
      · rw [h.res, seg_append, seg_append]
        refine ⟨hd1.1.congr fun k h1 h2 => q3 k (by omega) (by omega), by rw [← e2']; exact q2, ?_⟩
        rw [← hl2]
        exact hd1.2.2.congr fun k h1 h2 => q3 k (by omega) (by omega)
      · rw [seg_append]
        exact ⟨hb1.1.congr fun k h1 h2 => q3 k (by omega) (by omega), by rw [← e1']; exact q1⟩
      · intro k h1 h2
        rw [q3 k (by omega) (by omega), h.rest k h1 (by omega)]
  · rename_i hne
    apply wp_bind
    refine wp_mono (swapRanges_dis X J a (a + X.length) f s hJ.symm rfl (by omega) sX sJ) ?_
    rintro _ s2 ⟨q1, q2, q3, q4⟩
    refine wp_pure ⟨J, .refl _, ?_, q1, fun k h1 h2 => q3 k h1 (by omega), q4⟩
    have sY' : Seg s2.cell e1 Y := sY.congr fun k h1 h2 => q3 k (by omega) (by omega)
    by_cases hX : X.length = 0
    · have := List.length_eq_zero_iff.1 hX
      subst this
      rw [mergeL_nil_left, show f = e1 by simp at hm; omega]; exact sY'
    · have : Y = [] := List.length_eq_zero_iff.1 (by omega)
      subst this
      rw [mergeL_nil_right]; exact q2

/-! ### `MergeInPlace` -/

theorem mergeL_lower : ∀ {Y0 X Y1 : List α}, (∀ y ∈ Y0, ∀ x ∈ X, lt y x = true) → mergeL lt X (Y0 ++ Y1) = Y0 ++ mergeL lt X Y1
  | [], _, _, _ => rfl
  | y :: Y0, X, Y1, h => by
    rw [List.cons_append, mergeL_head (h y (by simp)), mergeL_lower fun z hz => h z (by simp [hz])]; rfl

theorem mergeL_upper {X0 X1 Y : List α} (h : ∀ x ∈ X0, ∀ y ∈ Y, lt y x = false) : mergeL lt (X0 ++ X1) Y = X0 ++ mergeL lt X1 Y := by
  cases Y with
  | nil => rw [mergeL_nil_right, mergeL_nil_right]
  | cons y Y => exact mergeL_prefix fun a ha => h a ha y (by simp)

theorem mergeInPlaceLoop_spec (hlt : StrictWeak lt) (c : Cfg) (n : Nat) : ∀ (X Y : List α) (f m l : Nat) (s : St α), X.length = n → X ≠ [] →
    m = f + X.length → l = m + Y.length → SortedList lt X → SortedList lt Y → Seg s.cell f (X ++ Y) →
    wp (mergeInPlaceLoop (tick lt) c f m l) (fun _ s' => Seg s'.cell f (mergeL lt X Y) ∧ Frame f l s s') s := by
  induction n using Nat.strongRecOn with
  | _ n ih =>
    intro X Y f m l s hn hX hm hl oX oY hs
    obtain ⟨x, X', e⟩ := List.exists_cons_of_ne_nil hX
    haveI : Inhabited α := ⟨x⟩
    obtain ⟨sX, sY⟩ := seg_append.1 hs
    have hxs : ∀ z ∈ X, lt z x = false := by
      subst e
      intro z hz
      rcases List.mem_cons.1 hz with rfl | hz
      · exact hlt.irrefl z
      · exact (sortedList_cons.1 oX).1 z hz
    rw [mergeInPlaceLoop]
    apply wp_bind
    have sx : s.cell f = .val x := by subst e; exact (seg_cons.1 sX).1
    refine wp_read' sx ?_
    apply wp_bind
    refine wp_mono (lowerBound_seg hlt x hl (by rw [hm]; exact sY) oY) ?_
    rintro mid2 s1 ⟨Y0, Y1, k, rfl, hq, h0, h1, rfl⟩
    rw [List.length_append] at hl
    apply wp_bind
    rw [← List.append_assoc] at hs
    obtain ⟨hs1, hs2⟩ := seg_append.1 hs
    refine wp_mono (rotate_seg c (s := { s with cmps := k }) hs1 hm (by omega)) ?_
    rintro _ s2 ⟨-, q1, q2⟩
    have hlow : mergeL lt X (Y0 ++ Y1) = Y0 ++ mergeL lt X Y1 := mergeL_lower fun y hy z hz => hlt.lt_of_lt_of_le (h0 y hy) (hxs z hz)
    have q2' : Frame f l s s2 := (Frame.of_env (s := s) (s' := { s with cmps := k }) rfl (f := f) (l := l) fun i _ => rfl).trans (q2.mono (Nat.le_refl _) (by omega))
    rw [List.length_append] at hs2
    have q3 : Seg s2.cell mid2 Y1 := by
      rw [hq, hm, Nat.add_assoc]
      exact hs2.congr fun i h1 h2 => q2.cell i (by omega)
    split
    · rename_i hl2
      have : Y1 = [] := List.length_eq_zero_iff.1 (by omega)
      subst this
      refine wp_pure ⟨?_, q2'⟩
      rw [hlow, mergeL_nil_right]; exact q1
    · rename_i hl2
      have hY1 : Y1 ≠ [] := by intro e; subst e; simp at hl; omega
      obtain ⟨q4, q5⟩ := seg_append.1 q1
      apply wp_bind
      rw [show f + (mid2 - m) = f + Y0.length by omega]
      have sx2 : s2.cell (f + Y0.length) = .val x := by subst e; exact (seg_cons.1 q5).1
      refine wp_read' sx2 ?_
      apply wp_bind
      refine wp_mono (upperBound_seg hlt x (show mid2 = f + Y0.length + X.length by omega) q5 oX) ?_
      rintro f' s3 ⟨X0, X1, k', e3, hf', h2, h3, rfl⟩
      have hup : ∀ z ∈ X0, ∀ y ∈ Y1, lt y z = false := fun z hz y hy => hlt.le_trans (h2 z hz) (h1 y hy)
      have hlX : X.length = X0.length + X1.length := by rw [e3, List.length_append]
      rw [e3, seg_append] at q5
      split
      · rename_i he
        have : X1 = [] := List.length_eq_zero_iff.1 (by omega)
        subst this
        refine wp_pure ⟨?_, q2'.trans (Frame.of_env (f := f) (l := l) rfl fun i _ => rfl)⟩
        rw [hlow, e3, mergeL_upper hup, mergeL_nil_left, seg_append, seg_append]
        refine ⟨q4, q5.1, ?_⟩
        rw [show f + Y0.length + X0.length = mid2 by simp at hlX; omega]; exact q3
      · rename_i he
        have hX1 : X1 ≠ [] := by intro e; subst e; simp at hlX; omega
        have hX0 : 0 < X0.length := by
          by_contra hc
          have : X0 = [] := List.length_eq_zero_iff.1 (by omega)
          subst this
          have := h3 x (by rw [List.nil_append] at e3; rw [← e3, e]; simp)
          rw [hlt.irrefl] at this; cases this
        rw [e3] at oX
        refine wp_mono (ih X1.length (by omega) X1 Y1 f' mid2 l { s2 with cmps := k' } rfl hX1 (by omega) (by omega) (sortedList_append.1 oX).2.1
          (sortedList_append.1 oY).2.1 ?_) ?_
        · rw [seg_append]
          refine ⟨by rw [hf']; exact q5.2, ?_⟩
          rw [show f' + X1.length = mid2 by omega]; exact q3
        · rintro _ s4 ⟨r1, r2⟩
          refine ⟨?_, (q2'.trans (Frame.of_env (s' := { s2 with cmps := k' }) rfl (f := f) (l := l) fun i _ => rfl)).trans (r2.mono (by omega) (by omega))⟩
          rw [hlow, e3, mergeL_upper hup, seg_append, seg_append]
          refine ⟨q4.congr fun i h1 h2 => r2.cell i (by omega), q5.1.congr fun i h1 h2 => r2.cell i (by omega), by rw [← hf']; exact r1⟩

theorem mergeInPlace_spec (hlt : StrictWeak lt) (c : Cfg) {X Y : List α} {f m l : Nat} {s : St α} (hm : m = f + X.length) (hl : l = m + Y.length)
    (oX : SortedList lt X) (oY : SortedList lt Y) (hs : Seg s.cell f (X ++ Y)) :
    wp (mergeInPlace (tick lt) c f m l) (fun _ s' => Seg s'.cell f (mergeL lt X Y) ∧ Frame f l s s') s := by
  unfold mergeInPlace
  split
  · rename_i h
    refine wp_pure ⟨?_, Frame.refl _ _ _⟩
    rcases h with h | h
    · have : X = [] := List.length_eq_zero_iff.1 (by omega)
      subst this
      rw [mergeL_nil_left]; exact hs
    · have : Y = [] := List.length_eq_zero_iff.1 (by omega)
      subst this
      rw [mergeL_nil_right]; simpa using hs
  · refine mergeInPlaceLoop_spec hlt c _ X Y f m l s rfl ?_ hm hl oX oY hs
    intro e; subst e; simp at hm; omega

end CppSort
