import Verif.Proof.GrailGap
import Verif.Proof.TimHi
/-
grail_sort.h 110-184, 186-223, 259-318: merging next to a buffer.
-/
set_option autoImplicit false

namespace CppSort
variable {α : Type} {lt : α → α → Bool}

/-- The merge of a fragment of the first (`false`) or second (`true`) stream with a fragment of the other stream. -/
def mrg (lt : α → α → Bool) (frag : Bool) (X Y : List α) : List α :=
  if frag then mergeL lt Y X else mergeL lt X Y

theorem mrg_nil_left {frag : Bool} {Y : List α} : mrg lt frag [] Y = Y := by cases frag <;> simp [mrg]

theorem mrg_nil_right {frag : Bool} {X : List α} : mrg lt frag X [] = X := by cases frag <;> simp [mrg]

theorem mrg_not {frag : Bool} {X Y : List α} : mrg lt (!frag) X Y = mrg lt frag Y X := by cases frag <;> simp [mrg]

theorem mrg_cons {frag : Bool} {x y : α} {X Y : List α} : mrg lt frag (x :: X) (y :: Y) =
    if leftFirst lt (!frag) x y then x :: mrg lt frag X (y :: Y) else y :: mrg lt frag (x :: X) Y := by
  cases frag with
  | false =>
    simp only [mrg, leftFirst, mergeL_cons, Bool.not_false, if_true, Bool.false_eq_true, if_false]
    cases lt y x <;> simp
  | true =>
    simp only [mrg, leftFirst, mergeL_cons, Bool.not_true, if_true, Bool.false_eq_true, if_false]

theorem mrg_right {frag : Bool} {x : α} {X : List α} : ∀ {Y1 Y2 : List α},
    (∀ u ∈ Y1, leftFirst lt (!frag) x u = false) → mrg lt frag (x :: X) (Y1 ++ Y2) = Y1 ++ mrg lt frag (x :: X) Y2
  | [], _, _ => rfl
  | y :: Y1, Y2, h => by
    rw [List.cons_append, mrg_cons, if_neg (by simp [h y (by simp)]), mrg_right fun u hu => h u (by simp [hu])]
    rfl

theorem mrg_left {frag : Bool} {y : α} {Y : List α} : ∀ {X1 X2 : List α},
    (∀ u ∈ X1, leftFirst lt (!frag) u y = true) → mrg lt frag (X1 ++ X2) (y :: Y) = X1 ++ mrg lt frag X2 (y :: Y)
  | [], _, _ => rfl
  | x :: X1, X2, h => by
    rw [List.cons_append, mrg_cons, if_pos (h x (by simp)), mrg_left fun u hu => h u (by simp [hu])]
    rfl

/-! ### `merge_left` -/

theorem mergeLeftLoop_spec (hlt : StrictWeak lt) {b : GrailBuf} (n : Nat) : ∀ (X Y J1 J2 : List α)
    (left middle right last out : Nat) (s : St α), X.length + Y.length = n → left = out + J1.length →
    middle = left + X.length → right = middle + J2.length → last = right + Y.length → Y.length ≤ J1.length →
    Gap b s.cell out J1 → Seg s.cell left X → Gap b s.cell middle J2 → Seg s.cell right Y →
    wp (mergeLeftLoop (tick lt) b.put middle last left right out) (fun r s' => ∃ E X' J1' J2', (J1' ++ J2').Perm (J1 ++ J2) ∧
      r.2 = out + E.length ∧ r.1 = r.2 + J1'.length ∧ middle = r.1 + X'.length ∧ J2'.length = J2.length + Y.length ∧
      Seg s'.cell out E ∧ Gap b s'.cell r.2 J1' ∧ Seg s'.cell r.1 X' ∧ Gap b s'.cell middle J2' ∧
      mergeL lt X Y = E ++ X' ∧ Frame out last s s') s := by
  induction n with
  | zero =>
    intro X Y J1 J2 left middle right last out s hn e1 e2 e3 e4 hle g1 sx g2 sy
    have : Y = [] := by rw [← List.length_eq_zero_iff]; omega
    subst this
    rw [mergeLeftLoop, if_neg (by simp at e4; omega)]
    exact wp_pure ⟨[], X, J1, J2, .refl _, rfl, e1, e2, by simp, Seg.nil, g1, sx, g2, by simp, Frame.refl _ _ _⟩
  | succ n ih =>
    intro X Y J1 J2 left middle right last out s hn e1 e2 e3 e4 hle g1 sx g2 sy
    cases Y with
    | nil =>
      rw [mergeLeftLoop, if_neg (by simp at e4; omega)]
      exact wp_pure ⟨[], X, J1, J2, .refl _, rfl, e1, e2, by simp, Seg.nil, g1, sx, g2, by simp, Frame.refl _ _ _⟩
    | cons y Y =>
      cases J1 with
      | nil => simp at hle
      | cons j J1 =>
        simp only [List.length_cons] at hn e1 e4 hle
        obtain ⟨y1, y2⟩ := seg_cons.1 sy
        obtain ⟨j1, j2⟩ := gap_cons.1 g1
        rw [mergeLeftLoop, if_pos (by omega)]
        apply wp_bind
        -- an element from the right
        have hR : ∀ s0 : St α, s0.cell = s.cell → s0.env = s.env → mergeL lt X (y :: Y) = y :: mergeL lt X Y →
            wp (do b.put out right; mergeLeftLoop (tick lt) b.put middle last left (right + 1) (out + 1)) (fun r s' => ∃ E X' J1' J2',
              (J1' ++ J2').Perm (j :: J1 ++ J2) ∧ r.2 = out + E.length ∧ r.1 = r.2 + J1'.length ∧ middle = r.1 + X'.length ∧
              J2'.length = J2.length + (Y.length + 1) ∧ Seg s'.cell out E ∧ Gap b s'.cell r.2 J1' ∧ Seg s'.cell r.1 X' ∧
              Gap b s'.cell middle J2' ∧ mergeL lt X (y :: Y) = E ++ X' ∧ Frame out last s s') s0 := by
          intro s0 hc he hm
          apply wp_bind
          refine put_spec (b := b) (x := y) (j := j) (by omega) (by rw [hc]; exact y1) (by rw [hc]; exact j1) ?_
          intro s1 k1 k2 k3 k4
          rw [hc] at k3
          refine wp_mono (ih X Y J1 (J2 ++ [j]) left middle (right + 1) last (out + 1) s1 (by omega) (by omega) e2
            (by simp; omega) (by omega) (by omega) (j2.congr fun i _ _ => k3 i (by omega) (by omega))
            (sx.congr fun i _ _ => k3 i (by omega) (by omega))
            (gap_snoc.2 ⟨g2.congr fun i _ _ => k3 i (by omega) (by omega), by rw [← e3]; exact k2⟩)
            (y2.congr fun i _ _ => k3 i (by omega) (by omega))) ?_
          rintro r s2 ⟨E, X', J1', J2', p1, p2, p3, p4, p5, p6, p7, p8, p9, p10, p11⟩
          refine ⟨y :: E, X', J1', J2', ?_, by simp; omega, p3, p4, by simp at p5; omega, ?_, p7, p8, p9, ?_, ?_⟩
          · permc [p1]
          · exact seg_cons.2 ⟨by rw [p11.cell out (by omega)]; exact k1, p6⟩
          · rw [hm, p10]; rfl
          · exact (Frame.of_env (k4.trans he) fun i hi => k3 i (by omega) (by omega)).trans (p11.mono (by omega) (Nat.le_refl _))
        refine orGreater_spec hlt ?_ ?_
        · intro h
          simp only [decide_eq_true_eq] at h
          have hX : X = [] := by rw [← List.length_eq_zero_iff]; omega
          simp only [if_true]
          refine hR s rfl rfl ?_
          rw [hX]; simp
        · intro h
          simp only [decide_eq_false_iff_not] at h
          cases X with
          | nil => simp at e2; omega
          | cons x X =>
            simp only [List.length_cons] at hn e2
            obtain ⟨x1, x2⟩ := seg_cons.1 sx
            refine ⟨x, y, x1, y1, fun k => ?_⟩
            cases hyx : lt y x with
            | true =>
              simp only [if_true]
              exact hR _ rfl rfl (by rw [mergeL_cons, if_pos hyx])
            | false =>
              simp only [Bool.false_eq_true, if_false]
              apply wp_bind
              refine put_spec (b := b) (x := x) (j := j) (by omega) x1 j1 ?_
              intro s1 k1 k2 k3 k4
              refine wp_mono (ih X (y :: Y) (J1 ++ [j]) J2 (left + 1) middle right last (out + 1) s1 (by simp; omega)
                (by simp; omega) (by omega) e3 (by simp; omega) (by simp; omega)
                (gap_snoc.2 ⟨j2.congr fun i _ _ => k3 i (by omega) (by omega), by
                  rw [show out + 1 + J1.length = left by omega]; exact k2⟩)
                (x2.congr fun i _ _ => k3 i (by omega) (by omega)) (g2.congr fun i _ _ => k3 i (by omega) (by omega))
                (sy.congr fun i _ _ => k3 i (by omega) (by omega))) ?_
              rintro r s2 ⟨E, X', J1', J2', p1, p2, p3, p4, p5, p6, p7, p8, p9, p10, p11⟩
              refine ⟨x :: E, X', J1', J2', ?_, by simp; omega, p3, p4, by simpa using p5, ?_, p7, p8, p9, ?_, ?_⟩
              · permc [p1]
              · exact seg_cons.2 ⟨by rw [p11.cell out (by omega)]; exact k1, p6⟩
              · rw [mergeL_cons, if_neg (by simp [hyx]), p10]; rfl
              · exact (Frame.of_env k4 fun i hi => k3 i (by omega) (by omega)).tick.trans (p11.mono (by omega) (Nat.le_refl _))

/-- `merge_left`: the merge goes to the left of its place by the length of the buffer. -/
theorem mergeLeft_spec (hlt : StrictWeak lt) {b : GrailBuf} {X Y J : List α} {first middle last out : Nat} {s : St α}
    (e1 : first = out + J.length) (e2 : middle = first + X.length) (e3 : last = middle + Y.length)
    (hle : Y.length ≤ J.length) (g : Gap b s.cell out J) (sx : Seg s.cell first X) (sy : Seg s.cell middle Y) :
    wp (mergeLeft (tick lt) b.put first middle last out) (fun _ s' => ∃ J', J'.Perm J ∧ Seg s'.cell out (mergeL lt X Y) ∧
      Gap b s'.cell (out + (X.length + Y.length)) J' ∧ Frame out last s s') s := by
  unfold mergeLeft
  apply wp_bind
  refine wp_mono (mergeLeftLoop_spec hlt _ X Y J [] first middle middle last out s rfl e1 e2 (by simp) e3 hle g sx Gap.nil sy) ?_
  rintro ⟨left, out'⟩ s1 ⟨E, X', J1, J2, p1, p2, p3, p4, p5, p6, p7, p8, p9, p10, p11⟩
  simp only at p2 p3 p4 p7 p8 ⊢
  have hlen := congrArg List.length p10
  rw [(mergeL_perm X Y).length_eq, List.length_append, List.length_append] at hlen
  rw [List.append_nil] at p1
  have hJ := p1.length_eq
  rw [List.length_append] at hJ
  simp only [List.length_nil] at p5
  split
  · rename_i hne
    refine wp_mono (putRange_spec X' J1 out' left middle s1 p3 p4 (by omega) p7 p8) ?_
    rintro _ s2 ⟨J', q1, q2, q3, q4⟩
    refine ⟨J' ++ J2, (q1.append_right J2).trans p1, ?_, gap_append.2 ⟨?_, ?_⟩, p11.trans (q4.mono (by omega) (by omega))⟩
    · rw [p10, seg_append, ← p2]
      exact ⟨p6.congr fun i _ _ => q4.cell i (by omega), q2⟩
    · rw [hlen, ← Nat.add_assoc, ← p2]; exact q3
    · rw [q1.length_eq, show out + (X.length + Y.length) + J1.length = middle by omega]
      exact p9.congr fun i _ _ => q4.cell i (by omega)
  · rename_i hne
    have hJ1 : J1 = [] := by rw [← List.length_eq_zero_iff]; omega
    subst hJ1
    refine wp_pure ⟨J2, p1, ?_, ?_, p11⟩
    · rw [p10, seg_append, ← p2]
      exact ⟨p6, by simpa [p3] using p8⟩
    · rw [show out + (X.length + Y.length) = middle by simp at p3; omega]; exact p9

/-! ### Smart merges -/

/-- What a smart merge does to the fragments `X` of the stream `frag` and `Y` of the other stream: `E` comes first, what
is left is the fragment `R` of the stream `fr`. -/
def SmartRel (lt : α → α → Bool) (frag : Bool) (X Y E R : List α) (fr : Bool) : Prop :=
  (fr = frag ∧ R <:+ X ∧ ∀ X2 Y2, mrg lt frag (X ++ X2) (Y ++ Y2) = E ++ mrg lt frag (R ++ X2) Y2) ∨
  (fr = !frag ∧ R <:+ Y ∧ ∀ X2 Y2, mrg lt frag (X ++ X2) (Y ++ Y2) = E ++ mrg lt frag X2 (R ++ Y2))

theorem smartLoop_spec (hlt : StrictWeak lt) {b : GrailBuf} {frag : Bool} (n : Nat) : ∀ (X Y J1 J2 : List α)
    (left middle right last out : Nat) (s : St α), X.length + Y.length = n → left = out + J1.length →
    middle = left + X.length → right = middle + J2.length → last = right + Y.length → Y.length ≤ J1.length →
    X ≠ [] ∨ Y ≠ [] →
    Gap b s.cell out J1 → Seg s.cell left X → Gap b s.cell middle J2 → Seg s.cell right Y →
    wp (smartLoop (tick lt) b.put (!frag) middle last left right out) (fun r s' => ∃ E X' Y' J1' J2',
      (J1' ++ J2').Perm (J1 ++ J2) ∧ r.1 = out + E.length + J1'.length ∧ middle = r.1 + X'.length ∧
      r.2 = middle + J2'.length ∧ last = r.2 + Y'.length ∧ X' <:+ X ∧ Y' <:+ Y ∧ (X' = [] ∧ Y' ≠ [] ∨ X' ≠ [] ∧ Y' = []) ∧
      Seg s'.cell out E ∧ Gap b s'.cell (out + E.length) J1' ∧ Seg s'.cell r.1 X' ∧ Gap b s'.cell middle J2' ∧
      Seg s'.cell r.2 Y' ∧
      (∀ X2 Y2, mrg lt frag (X ++ X2) (Y ++ Y2) = E ++ mrg lt frag (X' ++ X2) (Y' ++ Y2)) ∧ Frame out last s s') s := by
  induction n with
  | zero =>
    intro X Y J1 J2 left middle right last out s hn e1 e2 e3 e4 hle hne g1 sx g2 sy
    exfalso
    rcases hne with h | h <;> exact h (List.length_eq_zero_iff.1 (by omega))
  | succ n ih =>
    intro X Y J1 J2 left middle right last out s hn e1 e2 e3 e4 hle hne g1 sx g2 sy
    cases X with
    | nil =>
      rw [smartLoop, if_neg (by simp at e2; omega)]
      exact wp_pure ⟨[], [], Y, J1, J2, .refl _, by simp [e1], e2, e3, e4, List.suffix_refl _, List.suffix_refl _,
        .inl ⟨rfl, by simpa using hne⟩, Seg.nil, g1, sx, g2, sy, fun _ _ => rfl, Frame.refl _ _ _⟩
    | cons x X =>
      cases Y with
      | nil =>
        rw [smartLoop, if_neg (by simp at e4; omega)]
        exact wp_pure ⟨[], x :: X, [], J1, J2, .refl _, by simp [e1], e2, e3, e4, List.suffix_refl _, List.suffix_refl _,
          .inr ⟨by simp, rfl⟩, Seg.nil, g1, sx, g2, sy, fun _ _ => rfl, Frame.refl _ _ _⟩
      | cons y Y =>
        cases J1 with
        | nil => simp at hle
        | cons j J1 =>
          simp only [List.length_cons] at hn e1 e2 e4 hle
          obtain ⟨y1, y2⟩ := seg_cons.1 sy
          obtain ⟨x1, x2⟩ := seg_cons.1 sx
          obtain ⟨j1, j2⟩ := gap_cons.1 g1
          rw [smartLoop, if_pos (by omega)]
          apply wp_bind
          refine fragLess_spec hlt x1 y1 fun k => ?_
          cases hxy : leftFirst lt (!frag) x y with
          | true =>
            simp only [if_true]
            apply wp_bind
            refine put_spec (b := b) (x := x) (j := j) (by omega) x1 j1 ?_
            intro s1 k1 k2 k3 k4
            refine wp_mono (ih X (y :: Y) (J1 ++ [j]) J2 (left + 1) middle right last (out + 1) s1 (by simp; omega)
              (by simp; omega) (by omega) e3 (by simp; omega) (by simp; omega) (.inr (by simp))
              (gap_snoc.2 ⟨j2.congr fun i _ _ => k3 i (by omega) (by omega), by
                rw [show out + 1 + J1.length = left by omega]; exact k2⟩)
              (x2.congr fun i _ _ => k3 i (by omega) (by omega)) (g2.congr fun i _ _ => k3 i (by omega) (by omega))
              (sy.congr fun i _ _ => k3 i (by omega) (by omega))) ?_
            rintro r s2 ⟨E, X', Y', J1', J2', p1, p2, p3, p4, p5, p6, p7, p8, p9, p10, p11, p12, p13, p14, p15⟩
            refine ⟨x :: E, X', Y', J1', J2', ?_, by simp; omega, p3, p4, p5, p6.trans (List.suffix_cons _ _), p7, p8,
              ?_, ?_, p11, p12, p13, fun X2 Y2 => ?_, ?_⟩
            · permc [p1]
            · exact seg_cons.2 ⟨by rw [p15.cell out (by omega)]; exact k1, p9⟩
            · rw [List.length_cons, show out + (E.length + 1) = out + 1 + E.length by omega]; exact p10
            · rw [List.cons_append, List.cons_append, mrg_cons, if_pos hxy, List.cons_append, ← p14]; rfl
            · exact (Frame.of_env k4 fun i hi => k3 i (by omega) (by omega)).tick.trans (p15.mono (by omega) (Nat.le_refl _))
          | false =>
            simp only [Bool.false_eq_true, if_false]
            apply wp_bind
            refine put_spec (b := b) (x := y) (j := j) (by omega) y1 j1 ?_
            intro s1 k1 k2 k3 k4
            refine wp_mono (ih (x :: X) Y J1 (J2 ++ [j]) left middle (right + 1) last (out + 1) s1 (by simp; omega) (by omega)
              (by simp; omega) (by simp; omega) (by omega) (by omega) (.inl (by simp))
              (j2.congr fun i _ _ => k3 i (by omega) (by omega))
              (sx.congr fun i _ h => k3 i (by omega) (by simp only [List.length_cons] at h; omega))
              (gap_snoc.2 ⟨g2.congr fun i _ _ => k3 i (by omega) (by omega), by rw [← e3]; exact k2⟩)
              (y2.congr fun i _ _ => k3 i (by omega) (by omega))) ?_
            rintro r s2 ⟨E, X', Y', J1', J2', p1, p2, p3, p4, p5, p6, p7, p8, p9, p10, p11, p12, p13, p14, p15⟩
            refine ⟨y :: E, X', Y', J1', J2', ?_, by simp; omega, p3, p4, p5, p6, p7.trans (List.suffix_cons _ _), p8,
              ?_, ?_, p11, p12, p13, fun X2 Y2 => ?_, ?_⟩
            · permc [p1]
            · exact seg_cons.2 ⟨by rw [p15.cell out (by omega)]; exact k1, p9⟩
            · rw [List.length_cons, show out + (E.length + 1) = out + 1 + E.length by omega]; exact p10
            · rw [List.cons_append, List.cons_append, mrg_cons, if_neg (by simp [hxy]), List.cons_append, ← p14]; rfl
            · exact (Frame.of_env k4 fun i hi => k3 i (by omega) (by omega)).tick.trans (p15.mono (by omega) (Nat.le_refl _))

/-- `smart_merge_with_buffer`, `smart_merge_with_extra_buffer`. -/
theorem smartMerge_spec (hlt : StrictWeak lt) {b : GrailBuf} {frag : Bool} {X Y J : List α} {first middle last out len : Nat}
    {s : St α} (hlen : len = J.length) (e1 : first = out + len) (e2 : middle = first + X.length)
    (e3 : last = middle + Y.length) (hY : Y.length = len) (hX : X ≠ []) (hY0 : Y ≠ [])
    (g : Gap b s.cell out J) (sx : Seg s.cell first X) (sy : Seg s.cell middle Y) :
    wp (smartMerge (tick lt) b.put first middle last len frag) (fun r s' => ∃ E R J', J'.Perm J ∧ r.1 = R.length ∧ R ≠ [] ∧
      E.length + R.length = X.length + Y.length ∧ Seg s'.cell out E ∧ Gap b s'.cell (out + E.length) J' ∧
      Seg s'.cell (out + E.length + J'.length) R ∧ SmartRel lt frag X Y E R r.2 ∧ Frame out last s s') s := by
  have hY1 : 0 < Y.length := List.length_pos_iff.2 hY0
  unfold smartMerge
  apply wp_bind
  rw [show first - len = out by omega]
  refine wp_mono (smartLoop_spec hlt (frag := frag) _ X Y J [] first middle middle last out s rfl (by omega) e2 (by simp) e3 (by omega)
    (.inl hX) g sx Gap.nil sy) ?_
  rintro ⟨left, right⟩ s1 ⟨E, X', Y', J1, J2, p1, p2, p3, p4, p5, p6, p7, p8, p9, p10, p11, p12, p13, p14, p15⟩
  simp only at p2 p3 p4 p5 p11 p13 ⊢
  rw [List.append_nil] at p1
  have hJ := p1.length_eq
  rw [List.length_append] at hJ
  split
  · rename_i hlt'
    have hX' : X' ≠ [] := by rintro rfl; simp at p3; omega
    have hY' : Y' = [] := by rcases p8 with h | h; exact absurd h.1 hX'; exact h.2
    subst hY'
    simp only [List.length_nil, Nat.add_zero] at p5
    have hJ1 : J1 = [] := by rw [← List.length_eq_zero_iff]; omega
    subst hJ1
    rw [List.nil_append] at p1
    simp only [List.length_nil, Nat.add_zero] at p2
    apply wp_bind
    refine wp_mono (putBack_spec (b := b) (middle - left) X' J2 left middle last s1 (by omega) (by omega) (by omega) (by omega) p11 p12) ?_
    rintro _ s2 ⟨J', q1, q2, q3, q4⟩
    refine wp_pure ⟨E, X', J', q1.trans p1, by show _ - _ = _; omega, hX', by omega, ?_, ?_, ?_, .inl ⟨rfl, p6, fun X2 Y2 => by rw [p14]; rfl⟩, ?_⟩
    · exact p9.congr fun i _ _ => q4.cell i (by omega)
    · rw [← p2]; exact q2
    · rw [← p2, q1.length_eq]; exact q3
    · exact p15.trans (q4.mono (by omega) (Nat.le_refl _))
  · rename_i hlt'
    have hX' : X' = [] := by rw [← List.length_eq_zero_iff]; omega
    have hY' : Y' ≠ [] := by rcases p8 with h | h; exact h.2; exact absurd hX' h.1
    subst hX'
    simp only [List.length_nil, Nat.add_zero] at p3
    refine wp_pure ⟨E, Y', J1 ++ J2, p1, by show _ - _ = _; omega, hY', by omega, p9, gap_append.2 ⟨p10, ?_⟩, ?_,
      .inr ⟨rfl, p7, fun X2 Y2 => by rw [p14]; rfl⟩, p15⟩
    · rw [← p2, ← p3]; exact p12
    · rw [List.length_append, show out + E.length + (J1.length + J2.length) = right by omega]; exact p13

/-! ### `merge_right` -/

theorem grail_le_last {xs : List α} {x y : α} (h : SortedList lt (xs ++ [x])) (hy : y ∈ xs ++ [x]) (hlt : StrictWeak lt) :
    lt x y = false := by
  rcases List.mem_append.1 hy with hy | hy
  · exact (sortedList_append.1 h).2.2 y hy x (by simp)
  · rw [List.mem_singleton.1 hy]; exact hlt.irrefl _

/-- The last element of a merge. -/
theorem mergeL_last_left (hlt : StrictWeak lt) {xs ys : List α} {x y : α} (hy : SortedList lt (ys ++ [y])) (h : lt y x = true) :
    mergeL lt (xs ++ [x]) (ys ++ [y]) = mergeL lt xs (ys ++ [y]) ++ [x] := by
  refine mergeL_snoc1 fun u hu w hw => ?_
  rw [List.mem_singleton.1 hu]
  exact hlt.lt_of_le_of_lt (grail_le_last hy hw hlt) h

theorem mergeL_last_right (hlt : StrictWeak lt) {xs ys : List α} {x y : α} (hx : SortedList lt (xs ++ [x])) (h : lt y x = false) :
    mergeL lt (xs ++ [x]) (ys ++ [y]) = mergeL lt (xs ++ [x]) ys ++ [y] := by
  refine mergeL_snoc2 fun u hu w hw => ?_
  rw [List.mem_singleton.1 hu]
  exact hlt.le_trans (grail_le_last hx hw hlt) h

theorem swap_put {dst src : Nat} {x j : α} {s : St α} {Q : Unit → St α → Prop} (hne : dst ≠ src)
    (hs : s.cell src = .val x) (hd : s.cell dst = .val j)
    (hQ : ∀ s', s'.cell dst = .val x → s'.cell src = .val j → (∀ i, i ≠ dst → i ≠ src → s'.cell i = s.cell i) →
      s'.env = s.env → Q () s') : wp (swap dst src) Q s :=
  put_spec (b := .inner) hne hs (seg_one.2 hd) fun s' h1 h2 => hQ s' h1 (seg_one.1 h2)

theorem mergeRightRest_spec (n : Nat) : ∀ (Y J : List α) (middle p0 p2 : Nat) (s : St α), Y.length = n → 0 < middle →
    p2 + 1 = middle + Y.length → p0 = p2 + J.length → 0 < J.length → Seg s.cell middle Y → Seg s.cell (middle + Y.length) J →
    wp (mergeRightRest middle p0 p2) (fun _ s' => ∃ J', J'.Perm J ∧ Seg s'.cell middle J' ∧
      Seg s'.cell (middle + J.length) Y ∧ Frame middle (middle + Y.length + J.length) s s') s := by
  induction n with
  | zero =>
    intro Y J middle p0 p2 s hn h0 e2 e0 hJ sy sj
    rw [List.length_eq_zero_iff] at hn
    subst hn
    simp only [List.length_nil] at e2
    rw [mergeRightRest, if_neg (by omega), if_neg (by omega)]
    exact wp_pure ⟨J, .refl _, by simpa using sj, Seg.nil, Frame.refl _ _ _⟩
  | succ n ih =>
    intro Y J middle p0 p2 s hn h0 e2 e0 hJ sy sj
    obtain ⟨Y, y, rfl⟩ := List.eq_nil_or_concat' Y |>.resolve_left (by rintro rfl; simp at hn)
    obtain ⟨J, j, rfl⟩ := List.eq_nil_or_concat' J |>.resolve_left (by rintro rfl; simp at hJ)
    simp only [List.length_append, List.length_cons, List.length_nil] at hn e2 e0 sj
    obtain ⟨y1, y2⟩ := seg_snoc.1 sy
    obtain ⟨j1, j2⟩ := seg_snoc.1 sj
    have step : ∀ (Q : Unit → St α → Prop), (∀ s1 : St α, s1.cell p0 = .val y → s1.cell p2 = .val j →
        (∀ i, i ≠ p0 → i ≠ p2 → s1.cell i = s.cell i) → s1.env = s.env → Q () s1) → wp (swap p0 p2) Q s := by
      intro Q hQ
      refine swap_put (by omega) ?_ ?_ hQ
      · rw [show p2 = middle + Y.length by omega]; exact y2
      · rw [show p0 = middle + (Y.length + (0 + 1)) + J.length by omega]; exact j2
    rw [mergeRightRest]
    split
    · apply wp_bind
      refine step _ fun s1 k1 k2 k3 k4 => ?_
      refine wp_mono (ih Y (j :: J) middle (p0 - 1) (p2 - 1) s1 (by omega) h0 (by omega) (by simp; omega) (by simp)
        (y1.congr fun i _ _ => k3 i (by omega) (by omega)) (seg_cons.2 ⟨?_, ?_⟩)) ?_
      · rw [show middle + Y.length = p2 by omega]; exact k2
      · rw [show middle + (Y.length + (0 + 1)) = middle + Y.length + 1 by omega] at j1
        exact j1.congr fun i _ _ => k3 i (by omega) (by omega)
      · rintro _ s2 ⟨J', q1, q2, q3, q4⟩
        simp only [List.length_cons] at q3 q4
        refine ⟨J', q1.trans (List.perm_append_comm (l₁ := [j])), q2, seg_snoc.2 ⟨by simpa using q3, ?_⟩, ?_⟩
        · rw [show middle + (J ++ [j]).length + Y.length = p0 by simp; omega, q4.cell _ (by omega)]; exact k1
        · refine (Frame.of_env k4 fun i hi => ?_).trans (q4.mono (Nat.le_refl _) (by simp only [List.length_append, List.length_cons, List.length_nil]; omega))
          simp at hi
          exact k3 i (by omega) (by omega)
    · rw [if_pos (by omega)]
      have hY : Y = [] := by rw [← List.length_eq_zero_iff]; omega
      subst hY
      simp only [List.length_nil] at e2 e0 j1 j2
      refine step _ fun s1 k1 k2 k3 k4 => ⟨j :: J, List.perm_append_comm (l₁ := [j]), seg_cons.2 ⟨?_, ?_⟩, ?_, ?_⟩
      · rw [show middle = p2 by omega]; exact k2
      · rw [show middle + (0 + (0 + 1)) = middle + 1 by omega] at j1
        exact j1.congr fun i _ _ => k3 i (by omega) (by omega)
      · rw [List.nil_append, seg_one, show middle + (J ++ [j]).length = p0 by simp; omega]; exact k1
      · refine Frame.of_env k4 fun i hi => ?_
        simp at hi
        exact k3 i (by omega) (by omega)

theorem mergeRightLast_spec (hlt : StrictWeak lt) (n : Nat) : ∀ (Y J : List α) (x : α) (middle p0 p1 p2 : Nat) (s : St α),
    Y.length = n → p1 < middle → p2 + 1 = middle + Y.length → p0 = p2 + J.length → 0 < J.length → SortedList lt Y →
    s.cell p1 = .val x → Seg s.cell middle Y → Seg s.cell (middle + Y.length) J →
    wp (mergeRightLast (tick lt) middle p0 p1 p2) (fun r s' => ∃ Y' J' E, J'.Perm J ∧ r.2 + 1 = middle + Y'.length ∧
      r.1 = r.2 + J'.length ∧ Seg s'.cell middle Y' ∧ Seg s'.cell (middle + Y'.length) J' ∧
      Seg s'.cell (middle + Y'.length + J'.length) E ∧ mergeL lt [x] Y = Y' ++ x :: E ∧
      Frame middle (middle + Y.length + J.length) s s') s := by
  induction n with
  | zero =>
    intro Y J x middle p0 p1 p2 s hn h1 e2 e0 hJ hY sx sy sj
    rw [List.length_eq_zero_iff] at hn
    subst hn
    simp only [List.length_nil] at e2
    rw [mergeRightLast]
    apply wp_bind
    refine orGreater_spec hlt (fun _ => ?_) (fun h => by simp at h; omega)
    simp only [if_true]
    exact wp_pure ⟨[], J, [], .refl _, e2, e0, sy, sj, Seg.nil, by simp, Frame.refl _ _ _⟩
  | succ n ih =>
    intro Y J x middle p0 p1 p2 s hn h1 e2 e0 hJ hY sx sy sj
    obtain ⟨Y, y, rfl⟩ := List.eq_nil_or_concat' Y |>.resolve_left (by rintro rfl; simp at hn)
    obtain ⟨J, j, rfl⟩ := List.eq_nil_or_concat' J |>.resolve_left (by rintro rfl; simp at hJ)
    simp only [List.length_append, List.length_cons, List.length_nil] at hn e2 e0
    obtain ⟨y1, y2⟩ := seg_snoc.1 sy
    obtain ⟨j1, j2⟩ := seg_snoc.1 sj
    rw [mergeRightLast]
    apply wp_bind
    refine orGreater_spec hlt (fun h => by simp at h; omega) fun _ => ⟨x, y, sx, ?_, fun k => ?_⟩
    · rw [show p2 = middle + Y.length by omega]; exact y2
    cases hyx : lt y x with
    | true =>
      simp only [if_true]
      refine wp_pure ⟨Y ++ [y], J ++ [j], [], .refl _, by simp; omega, by simp; omega, sy, sj, Seg.nil, ?_, (Frame.refl _ _ _).tickr⟩
      rw [mergeL_after]
      intro u hu w hw
      rw [List.mem_singleton.1 hu]
      exact hlt.lt_of_le_of_lt (grail_le_last hY hw hlt) hyx
    | false =>
      simp only [Bool.false_eq_true, if_false]
      apply wp_bind
      refine swap_put (x := y) (j := j) (by omega) ?_ ?_ ?_
      · rw [show p2 = middle + Y.length by omega]; exact y2
      · rw [show p0 = middle + (Y ++ [y]).length + J.length by simp; omega]; exact j2
      intro s1 k1 k2 k3 k4
      refine wp_mono (ih Y (j :: J) x middle (p0 - 1) p1 (p2 - 1) s1 (by omega) h1 (by omega) (by simp; omega) (by simp)
        (sortedList_append.1 hY).1 ?_ (y1.congr fun i _ _ => k3 i (by omega) (by omega)) (seg_cons.2 ⟨?_, ?_⟩)) ?_
      · rw [k3 p1 (by omega) (by omega)]; exact sx
      · rw [show middle + Y.length = p2 by omega]; exact k2
      · rw [show middle + (Y ++ [y]).length = middle + Y.length + 1 by simp; omega] at j1
        exact j1.congr fun i _ _ => k3 i (by omega) (by omega)
      · rintro r s2 ⟨Y', J', E, q1, q2, q3, q4, q5, q6, q7, q8⟩
        have hl := congrArg List.length q7
        rw [(mergeL_perm _ _).length_eq] at hl
        simp at hl
        have hJ' := q1.length_eq
        simp only [List.length_cons] at hJ' q8
        refine ⟨Y', J', E ++ [y], q1.trans (List.perm_append_comm (l₁ := [j])), q2, q3, q4, q5, seg_snoc.2 ⟨q6, ?_⟩, ?_, ?_⟩
        · rw [show middle + Y'.length + J'.length + E.length = p0 by omega, q8.cell _ (by omega)]; exact k1
        · have := mergeL_last_right (xs := []) (ys := Y) (x := x) (y := y) hlt (by simp [SortedList]) hyx
          rw [List.nil_append] at this
          rw [this, q7]; simp
        · refine (Frame.of_env k4 fun i hi => ?_).tick.trans (q8.mono (Nat.le_refl _) (by simp only [List.length_append, List.length_cons, List.length_nil]; omega))
          simp at hi
          exact k3 i (by omega) (by omega)

theorem mergeRightLoop_spec (hlt : StrictWeak lt) (n : Nat) : ∀ (X Y J1 J2 : List α) (first middle p0 p1 p2 : Nat) (s : St α),
    X.length + Y.length = n → 0 < X.length → p1 + 1 = first + X.length → middle = p1 + 1 + J1.length →
    p2 + 1 = middle + Y.length → p0 = p2 + J2.length → X.length ≤ J2.length → SortedList lt X → SortedList lt Y →
    Seg s.cell first X → Seg s.cell (p1 + 1) J1 → Seg s.cell middle Y → Seg s.cell (middle + Y.length) J2 →
    wp (mergeRightLoop (tick lt) first middle p0 p1 p2) (fun r s' => ∃ x Y' J1' J2' E, (J1' ++ J2').Perm (J1 ++ J2) ∧
      r.2.1 = first ∧ middle = first + 1 + J1'.length ∧ r.2.2 + 1 = middle + Y'.length ∧ r.1 = r.2.2 + J2'.length ∧
      0 < J2'.length ∧ s'.cell first = .val x ∧ Seg s'.cell (first + 1) J1' ∧ Seg s'.cell middle Y' ∧
      Seg s'.cell (middle + Y'.length) J2' ∧ Seg s'.cell (middle + Y'.length + J2'.length) E ∧ SortedList lt Y' ∧
      mergeL lt X Y = mergeL lt [x] Y' ++ E ∧ Frame first (middle + Y.length + J2.length) s s') s := by
  induction n with
  | zero => intro X Y J1 J2 first middle p0 p1 p2 s hn hX; omega
  | succ n ih =>
    intro X Y J1 J2 first middle p0 p1 p2 s hn hX e1 em e2 e0 hle oX oY sx s1 sy s2
    obtain ⟨X, x, rfl⟩ := List.eq_nil_or_concat' X |>.resolve_left (by rintro rfl; simp at hX)
    simp only [List.length_append, List.length_cons, List.length_nil] at hn e1 hle
    rw [mergeRightLoop]
    by_cases hp : first < p1
    · rw [if_pos hp]
      obtain ⟨J2, j, rfl⟩ := List.eq_nil_or_concat' J2 |>.resolve_left (by rintro rfl; simp at hle)
      simp only [List.length_append, List.length_cons, List.length_nil] at e0 hle
      obtain ⟨x1, x2⟩ := seg_snoc.1 sx
      obtain ⟨j1, j2⟩ := seg_snoc.1 s2
      apply wp_bind
      -- the element of the left range goes last
      have hL : ∀ s0 : St α, s0.cell = s.cell → s0.env = s.env → mergeL lt (X ++ [x]) Y = mergeL lt X Y ++ [x] →
          wp (do swap p0 p1; mergeRightLoop (tick lt) first middle (p0 - 1) (p1 - 1) p2) (fun r s' => ∃ x' Y' J1' J2' E,
            (J1' ++ J2').Perm (J1 ++ (J2 ++ [j])) ∧
            r.2.1 = first ∧ middle = first + 1 + J1'.length ∧ r.2.2 + 1 = middle + Y'.length ∧ r.1 = r.2.2 + J2'.length ∧
            0 < J2'.length ∧ s'.cell first = .val x' ∧ Seg s'.cell (first + 1) J1' ∧ Seg s'.cell middle Y' ∧
            Seg s'.cell (middle + Y'.length) J2' ∧ Seg s'.cell (middle + Y'.length + J2'.length) E ∧ SortedList lt Y' ∧
            mergeL lt (X ++ [x]) Y = mergeL lt [x'] Y' ++ E ∧ Frame first (middle + Y.length + (J2 ++ [j]).length) s s') s0 := by
        intro s0 hc he hm
        apply wp_bind
        refine swap_put (x := x) (j := j) (by omega) ?_ ?_ ?_
        · rw [hc, show p1 = first + X.length by omega]; exact x2
        · rw [hc, show p0 = middle + Y.length + J2.length by omega]; exact j2
        intro t k1 k2 k3 k4
        rw [hc] at k3
        refine wp_mono (ih X Y (j :: J1) J2 first middle (p0 - 1) (p1 - 1) p2 t (by omega) (by omega) (by omega) (by simp; omega)
          e2 (by omega) (by omega) (sortedList_append.1 oX).1 oY (x1.congr fun i _ _ => k3 i (by omega) (by omega))
          (seg_cons.2 ⟨?_, ?_⟩) (sy.congr fun i _ _ => k3 i (by omega) (by omega))
          (j1.congr fun i _ _ => k3 i (by omega) (by omega))) ?_
        · rw [show p1 - 1 + 1 = p1 by omega]; exact k2
        · rw [show p1 - 1 + 1 = p1 by omega]
          exact s1.congr fun i _ _ => k3 i (by omega) (by omega)
        · rintro r t2 ⟨x', Y', J1', J2', E, q1, q2, q3, q4, q5, q6, q7, q8, q9, q10, q11, q12, q13, q14⟩
          have hl := congrArg List.length q13
          rw [(mergeL_perm _ _).length_eq, List.length_append, List.length_append, (mergeL_perm _ _).length_eq] at hl
          simp only [List.length_append, List.length_cons, List.length_nil] at hl
          have hJ := q1.length_eq
          simp only [List.length_append, List.length_cons] at hJ
          refine ⟨x', Y', J1', J2', E ++ [x], ?_, q2, q3, q4, q5, q6, q7, q8, q9, q10, seg_snoc.2 ⟨q11, ?_⟩, q12, ?_, ?_⟩
          · permc [q1]
          · rw [show middle + Y'.length + J2'.length + E.length = p0 by omega, q14.cell _ (by omega)]; exact k1
          · rw [hm, q13]; simp
          · refine (Frame.of_env (k4.trans he) fun i hi => ?_).trans (q14.mono (Nat.le_refl _) (by simp only [List.length_append, List.length_cons, List.length_nil]; omega))
            simp at hi
            exact k3 i (by omega) (by omega)
      refine orGreater_spec hlt ?_ ?_
      · intro h
        simp only [decide_eq_true_eq] at h
        have : Y = [] := by rw [← List.length_eq_zero_iff]; omega
        simp only [if_true]
        exact hL s rfl rfl (by simp [this])
      · intro h
        simp only [decide_eq_false_iff_not] at h
        obtain ⟨Y, y, rfl⟩ := List.eq_nil_or_concat' Y |>.resolve_left (by rintro rfl; simp at e2; omega)
        simp only [List.length_append, List.length_cons, List.length_nil] at hn e2
        obtain ⟨y1, y2⟩ := seg_snoc.1 sy
        refine ⟨x, y, by rw [show p1 = first + X.length by omega]; exact x2,
          by rw [show p2 = middle + Y.length by omega]; exact y2, fun k => ?_⟩
        cases hyx : lt y x with
        | true =>
          simp only [if_true]
          exact hL _ rfl rfl (mergeL_last_left hlt oY hyx)
        | false =>
          simp only [Bool.false_eq_true, if_false]
          apply wp_bind
          refine swap_put (x := y) (j := j) (by omega) ?_ ?_ ?_
          · rw [show p2 = middle + Y.length by omega]; exact y2
          · rw [show p0 = middle + (Y ++ [y]).length + J2.length by simp; omega]; exact j2
          intro t k1 k2 k3 k4
          refine wp_mono (ih (X ++ [x]) Y J1 (j :: J2) first middle (p0 - 1) p1 (p2 - 1) t (by simp; omega) (by simp) (by simp; omega) em
            (by omega) (by simp; omega) (by simp; omega) oX (sortedList_append.1 oY).1 (sx.congr fun i _ h => ?_)
            (s1.congr fun i _ _ => k3 i (by omega) (by omega)) (y1.congr fun i _ _ => k3 i (by omega) (by omega))
            (seg_cons.2 ⟨?_, ?_⟩)) ?_
          · simp at h
            exact k3 i (by omega) (by omega)
          · rw [show middle + Y.length = p2 by omega]; exact k2
          · rw [show middle + (Y ++ [y]).length = middle + Y.length + 1 by simp; omega] at j1
            exact j1.congr fun i _ _ => k3 i (by omega) (by omega)
          · rintro r t2 ⟨x', Y', J1', J2', E, q1, q2, q3, q4, q5, q6, q7, q8, q9, q10, q11, q12, q13, q14⟩
            have hl := congrArg List.length q13
            rw [(mergeL_perm _ _).length_eq, List.length_append, List.length_append (as := mergeL lt _ _), (mergeL_perm _ _).length_eq] at hl
            simp only [List.length_append, List.length_cons, List.length_nil] at hl
            have hJ := q1.length_eq
            simp only [List.length_append, List.length_cons] at hJ
            simp only [List.length_cons] at q14
            refine ⟨x', Y', J1', J2', E ++ [y], ?_, q2, q3, q4, q5, q6, q7, q8, q9, q10, seg_snoc.2 ⟨q11, ?_⟩, q12, ?_, ?_⟩
            · permc [q1]
            · rw [show middle + Y'.length + J2'.length + E.length = p0 by omega, q14.cell _ (by omega)]; exact k1
            · rw [mergeL_last_right hlt oX hyx, q13]; simp
            · refine (Frame.of_env k4 fun i hi => ?_).tick.trans (q14.mono (Nat.le_refl _) (by simp only [List.length_append, List.length_cons, List.length_nil]; omega))
              simp at hi
              exact k3 i (by omega) (by omega)
    · rw [if_neg hp]
      have hX0 : X = [] := by rw [← List.length_eq_zero_iff]; omega
      subst hX0
      simp only [List.length_nil] at e1 hle
      have ep : p1 = first := by omega
      refine wp_pure ⟨x, Y, J1, J2, [], .refl _, ep, by omega, e2, e0, by omega, ?_, ?_, sy, s2, Seg.nil, oY, by simp, Frame.refl _ _ _⟩
      · simpa [seg_one] using sx
      · rw [← ep]; exact s1

/-- `merge_right`: the merge goes to the right of its place by the length of the buffer. -/
theorem mergeRight_spec (hlt : StrictWeak lt) {X Y J : List α} {first middle last out : Nat} {s : St α}
    (em : middle = first + X.length) (el : last = middle + Y.length) (eo : out = last + J.length) (hX : X ≠ [])
    (hle : X.length ≤ J.length) (oX : SortedList lt X) (oY : SortedList lt Y)
    (sx : Seg s.cell first X) (sy : Seg s.cell middle Y) (sj : Seg s.cell last J) :
    wp (mergeRight (tick lt) first middle last out) (fun _ s' => ∃ J', J'.Perm J ∧ Seg s'.cell first J' ∧
      Seg s'.cell (first + J.length) (mergeL lt X Y) ∧ Frame first out s s') s := by
  have hX0 : 0 < X.length := List.length_pos_iff.2 hX
  unfold mergeRight
  apply wp_bind
  refine wp_mono (mergeRightLoop_spec hlt _ X Y [] J first middle (out - 1) (middle - 1) (last - 1) s rfl hX0 (by omega)
    (by simp; omega) (by omega) (by omega) hle oX oY sx Seg.nil sy (by rw [← el]; exact sj)) ?_
  rintro ⟨p0, p1, p2⟩ s1 ⟨x, Y', J1, J2, E, q1, q2, q3, q4, q5, q6, q7, q8, q9, q10, q11, q12, q13, q14⟩
  simp only at q2 q4 q5 ⊢
  subst q2
  have hl := congrArg List.length q13
  rw [(mergeL_perm _ _).length_eq, List.length_append, List.length_append, (mergeL_perm _ _).length_eq] at hl
  simp only [List.length_append, List.length_cons, List.length_nil] at hl
  rw [List.nil_append] at q1
  have hJ := q1.length_eq
  simp only [List.length_append] at hJ
  unfold mergeRightFirst
  rw [if_pos rfl]
  apply wp_bind
  apply wp_bind
  refine wp_mono (mergeRightLast_spec hlt _ Y' J2 x middle p0 p1 p2 s1 rfl (by omega) q4 q5 q6 q12 q7 q9 q10) ?_
  rintro ⟨p0', p2'⟩ s2 ⟨Y2, J3, E2, r1, r2, r3, r4, r5, r6, r7, r8⟩
  simp only at r2 r3 ⊢
  have hl2 := congrArg List.length r7
  rw [(mergeL_perm _ _).length_eq] at hl2
  simp only [List.length_append, List.length_cons, List.length_nil] at hl2
  have hJ3 := r1.length_eq
  obtain ⟨J3, j, rfl⟩ := List.eq_nil_or_concat' J3 |>.resolve_left (by rintro rfl; simp at hJ3; omega)
  simp only [List.length_append, List.length_cons, List.length_nil] at hJ3 r3 r6
  obtain ⟨j1, j2⟩ := seg_snoc.1 r5
  apply wp_bind
  refine swap_put (x := x) (j := j) (by omega) ?_ ?_ ?_
  · rw [r8.cell _ (by omega)]; exact q7
  · rw [show p0' = middle + Y2.length + J3.length by omega]; exact j2
  intro s3 k1 k2 k3 k4
  refine wp_pure ?_
  have f3 : Frame p1 out s s3 :=
    ((q14.mono (Nat.le_refl _) (by omega)).trans (r8.mono (by omega) (by omega))).trans
      (Frame.of_env k4 fun i hi => k3 i (by omega) (by omega))
  -- the elements before the rest of the right range
  have hpre : Seg s3.cell p1 (j :: J1) := by
    refine seg_cons.2 ⟨k2, q8.congr fun i h1 h2 => ?_⟩
    rw [k3 i (by omega) (by omega), r8.cell i (by omega)]
  have hE : Seg s3.cell (middle + Y2.length + J3.length) (x :: (E2 ++ E)) := by
    refine seg_cons.2 ⟨?_, seg_append.2 ⟨?_, ?_⟩⟩
    · rw [show middle + Y2.length + J3.length = p0' by omega]; exact k1
    · rw [show middle + Y2.length + (J3.length + (0 + 1)) = middle + Y2.length + J3.length + 1 by omega] at r6
      exact r6.congr fun i h1 h2 => k3 i (by omega) (by omega)
    · rw [show middle + Y2.length + J3.length + 1 + E2.length = middle + Y'.length + J2.length by omega]
      refine q11.congr fun i h1 h2 => ?_
      rw [k3 i (by omega) (by omega), r8.cell i (by omega)]
  have hY2 : Seg s3.cell middle Y2 := r4.congr fun i h1 h2 => k3 i (by omega) (by omega)
  have hJ2 : Seg s3.cell (middle + Y2.length) J3 := j1.congr fun i h1 h2 => k3 i (by omega) (by omega)
  have hm : mergeL lt X Y = Y2 ++ (x :: (E2 ++ E)) := by rw [q13, r7]; simp
  simp only
  split
  · rename_i hne
    refine wp_mono (mergeRightRest_spec _ Y2 J3 middle (p0' - 1) p2' s3 rfl (by omega) (by omega) (by omega) (by omega) hY2 hJ2) ?_
    rintro _ s4 ⟨J4, t1, t2, t3, t4⟩
    have := t1.length_eq
    refine ⟨j :: J1 ++ J4, ?_, seg_append.2 ⟨hpre.congr fun i h1 h2 => t4.cell i ?_, ?_⟩, ?_, f3.trans (t4.mono (by omega) (by omega))⟩
    · permc [q1, r1, t1]
    · simp at h2; omega
    · rw [show p1 + (j :: J1).length = middle by simp; omega]; exact t2
    · rw [hm, seg_append]
      rw [show p1 + J.length = middle + J3.length by omega]
      refine ⟨t3, ?_⟩
      rw [show middle + J3.length + Y2.length = middle + Y2.length + J3.length by omega]
      exact hE.congr fun i h1 h2 => t4.cell i (by omega)
  · rename_i hne
    have hJ30 : J3 = [] := by rw [← List.length_eq_zero_iff]; omega
    subst hJ30
    refine wp_pure ⟨j :: J1, ?_, hpre, ?_, f3⟩
    · permc [q1, r1]
    · rw [hm, seg_append]
      simp only [List.length_nil, Nat.add_zero] at hE hJ3
      rw [show p1 + J.length = middle by omega]
      exact ⟨hY2, hE⟩

end CppSort
