import Verif.Proof.GrailMerge
/-
grail_sort.h 68-108, 225-255: merging without a buffer.
-/
set_option autoImplicit false

namespace CppSort
variable {α : Type} {lt : α → α → Bool} [Inhabited α]

theorem grailRotate_spec (c : Cfg) {X Y : List α} {it i j k : Nat} {s : St α} (hs : Seg s.cell i (X ++ Y)) (hj : j = i + X.length)
    (hk : k = j + Y.length) (h : it = j → X = [] ∨ Y = []) :
    wp (grailRotate c it i j k) (fun _ s' => Seg s'.cell i (Y ++ X) ∧ Frame i k s s') s := by
  unfold grailRotate
  split
  · apply wp_bind
    refine wp_mono (rotate_seg c hs hj hk) ?_
    rintro _ s' ⟨_, h2, h3⟩
    exact wp_pure ⟨h2, h3⟩
  · rename_i hne
    rcases h (by omega) with e | e <;> subst e <;> exact wp_pure ⟨by simpa using hs, Frame.refl _ _ _⟩

theorem smartSkip_spec (hlt : StrictWeak lt) {ft : Bool} {y : α} : ∀ (X : List α) (x : α) (first middle : Nat) (s : St α),
    middle = first + 1 + X.length → Seg s.cell first (x :: X) → s.cell middle = .val y →
    wp (smartSkip (tick lt) ft first middle) (fun r s' => ∃ X1 X2 k, X = X1 ++ X2 ∧ r = first + 1 + X1.length ∧
      (∀ u ∈ X1, leftFirst lt ft u y = true) ∧ s' = { s with cmps := k }) s := by
  intro X
  induction X with
  | nil =>
    intro x first middle s em sx sy
    rw [smartSkip, if_neg (by simp at em; omega)]
    exact wp_pure ⟨[], [], _, rfl, rfl, by simp, rfl⟩
  | cons x' X ih =>
    intro x first middle s em sx sy
    simp only [List.length_cons] at em
    obtain ⟨x1, x2⟩ := seg_cons.1 sx
    rw [smartSkip, if_pos (by omega)]
    apply wp_bind
    refine fragLess_spec hlt (seg_cons.1 x2).1 sy fun k => ?_
    cases h : leftFirst lt ft x' y with
    | true =>
      simp only [if_true]
      refine wp_mono (ih x' (first + 1) middle _ (by omega) x2 sy) ?_
      rintro r s' ⟨X1, X2, k', p1, p2, p3, p4⟩
      refine ⟨x' :: X1, X2, k', by simp [p1], by simp; omega, ?_, p4⟩
      intro u hu
      rcases List.mem_cons.1 hu with e | e
      · rw [e]; exact h
      · exact p3 u e
    | false =>
      simp only [Bool.false_eq_true, if_false]
      exact wp_pure ⟨[], x' :: X, k, rfl, rfl, by simp, rfl⟩

theorem mergeSkipLeft_spec (hlt : StrictWeak lt) {y : α} : ∀ (X : List α) (x : α) (first middle : Nat) (s : St α),
    middle = first + 1 + X.length → Seg s.cell first (x :: X) → s.cell middle = .val y →
    wp (mergeSkipLeft (tick lt) first middle) (fun r s' => ∃ X1 X2 k, X = X1 ++ X2 ∧ r = first + 1 + X1.length ∧
      (∀ u ∈ X1, lt y u = false) ∧ s' = { s with cmps := k }) s := by
  intro X
  induction X with
  | nil =>
    intro x first middle s em sx sy
    rw [mergeSkipLeft, if_neg (by simp at em; omega)]
    exact wp_pure ⟨[], [], _, rfl, rfl, by simp, rfl⟩
  | cons x' X ih =>
    intro x first middle s em sx sy
    simp only [List.length_cons] at em
    obtain ⟨x1, x2⟩ := seg_cons.1 sx
    rw [mergeSkipLeft, if_pos (by omega)]
    apply wp_bind
    refine grailCmp3At_spec (seg_cons.1 x2).1 sy fun k => ?_
    split
    · rename_i h
      rw [cmp3_le hlt] at h
      refine wp_mono (ih x' (first + 1) middle _ (by omega) x2 sy) ?_
      rintro r s' ⟨X1, X2, k', p1, p2, p3, p4⟩
      refine ⟨x' :: X1, X2, k', by simp [p1], by simp; omega, ?_, p4⟩
      intro u hu
      rcases List.mem_cons.1 hu with e | e
      · rw [e]; exact h
      · exact p3 u e
    · exact wp_pure ⟨[], x' :: X, k, rfl, rfl, by simp, rfl⟩

theorem mergeFromLeft_spec (hlt : StrictWeak lt) (c : Cfg) (n : Nat) : ∀ (X Y : List α) (first middle last : Nat) (s : St α),
    X.length = n → middle = first + X.length → last = middle + Y.length → SortedList lt X → SortedList lt Y →
    Seg s.cell first (X ++ Y) →
    wp (mergeFromLeft (tick lt) c first middle last) (fun _ s' => Seg s'.cell first (mergeL lt X Y) ∧ Frame first last s s') s := by
  induction n using Nat.strongRecOn with
  | _ n ih =>
    intro X Y first middle last s hn em el oX oY hs
    cases X with
    | nil =>
      rw [mergeFromLeft, if_neg (by simp at em; omega)]
      exact wp_pure ⟨by simpa using hs, Frame.refl _ _ _⟩
    | cons x X =>
      rw [mergeFromLeft, if_pos (by simp at em; omega)]
      obtain ⟨sx, sy⟩ := seg_append.1 hs
      rw [← em] at sy
      refine wp_bind (wp_read' (seg_cons.1 sx).1 (wp_bind ?_))
      refine wp_mono (lowerBound_seg hlt x el sy oY) ?_
      rintro it s1 ⟨Y1, Y2, k, rfl, e1, b1, b2, rfl⟩
      simp only [List.length_append] at el
      simp only [List.length_cons] at em hn
      rw [← List.append_assoc] at hs
      obtain ⟨h1, h2⟩ := seg_append.1 hs
      apply wp_bind
      refine wp_mono (grailRotate_spec c (X := x :: X) (Y := Y1) (s := { s with cmps := k }) h1 (by simp; omega) (by omega) ?_) ?_
      · exact fun h => .inr (List.length_eq_zero_iff.1 (by omega))
      rintro _ s2 ⟨r1, r2⟩
      have r2 := r2.tick
      obtain ⟨r3, r4⟩ := seg_append.1 r1
      have hm : mergeL lt (x :: X) (Y1 ++ Y2) = Y1 ++ mergeL lt (x :: X) Y2 :=
        mergeL_skip fun w hw z hz => by
          rcases List.mem_cons.1 hz with e | e
          · rw [e]; exact b1 w hw
          · exact hlt.lt_of_lt_of_le (b1 w hw) ((sortedList_cons.1 oX).1 z e)
      rw [hm]
      split
      · rename_i hl
        have : Y2 = [] := by rw [← List.length_eq_zero_iff]; omega
        subst this
        exact wp_pure ⟨by simpa using r1, r2.mono (Nat.le_refl _) (by omega)⟩
      · rename_i hl
        cases Y2 with
        | nil => simp at el; omega
        | cons y Y2 =>
          simp only [List.length_cons] at el
          have hy2 : Seg s2.cell it (y :: Y2) := by
            refine Seg.congr (c := s.cell) ?_ (fun i h1 h2 => r2.cell i (by omega))
            simp only [List.length_append, List.length_cons] at h2
            rw [show it = first + (X.length + 1 + Y1.length) by omega]; exact h2
          apply wp_bind
          refine wp_mono (mergeSkipLeft_spec hlt X x (first + (it - middle)) it s2 (by omega)
            (by rw [show it - middle = Y1.length by omega]; exact r4) (seg_cons.1 hy2).1) ?_
          rintro f s3 ⟨X1, X2, k', rfl, e2, b3, rfl⟩
          simp only [List.length_append] at em hn
          have e3 : (x :: (X1 ++ X2)) = (x :: X1) ++ X2 := rfl
          rw [e3, seg_append] at r4
          refine wp_mono (ih X2.length (by omega) X2 (y :: Y2) f it last { s2 with cmps := k' } rfl (by omega) (by simp; omega) ?_
            (sortedList_append.1 oY).2.1 (seg_append.2 ⟨?_, ?_⟩)) ?_
          · exact (sortedList_append.1 (sortedList_cons.1 oX).2).2.1
          · rw [show f = first + Y1.length + (x :: X1).length by simp; omega]; exact r4.2
          · rw [show f + X2.length = it by omega]; exact hy2
          · rintro _ s4 ⟨q1, q2⟩
            have q2 := q2.tick
            refine ⟨?_, (r2.mono (Nat.le_refl _) (by omega)).trans (q2.mono (by omega) (Nat.le_refl _))⟩
            have : mergeL lt (x :: (X1 ++ X2)) (y :: Y2) = (x :: X1) ++ mergeL lt X2 (y :: Y2) := by
              rw [e3]
              refine mergeL_prefix fun a ha => ?_
              rcases List.mem_cons.1 ha with e | e
              · rw [e]; exact b2 y (by simp)
              · exact b3 a e
            rw [this]
            refine seg_append.2 ⟨r3.congr fun i h1 h2 => q2.cell i (by omega), seg_append.2 ⟨r4.1.congr fun i h1 h2 => q2.cell i ?_, ?_⟩⟩
            · simp only [List.length_cons] at h2; omega
            · rw [show first + Y1.length + (x :: X1).length = f by simp; omega]; exact q1

theorem mergeSkipRight_spec (hlt : StrictWeak lt) {x : α} : ∀ (n : Nat) (Y : List α) (y : α) (middle last : Nat) (s : St α),
    Y.length = n → last = middle + Y.length + 1 → Seg s.cell middle (Y ++ [y]) → s.cell (middle - 1) = .val x →
    wp (mergeSkipRight (tick lt) middle last) (fun r s' => ∃ Y1 Y2 k, Y = Y1 ++ Y2 ∧ r = middle + Y1.length ∧
      (∀ u ∈ Y2, lt u x = false) ∧ s' = { s with cmps := k }) s := by
  intro n
  induction n with
  | zero =>
    intro Y y middle last s hn el sy sx
    rw [List.length_eq_zero_iff] at hn
    subst hn
    rw [mergeSkipRight, if_neg (by simp at el; omega)]
    exact wp_pure ⟨[], [], _, rfl, by simp at el ⊢; omega, by simp, rfl⟩
  | succ n ih =>
    intro Y y middle last s hn el sy sx
    obtain ⟨Y, y', rfl⟩ := List.eq_nil_or_concat' Y |>.resolve_left (by rintro rfl; simp at hn)
    simp only [List.length_append, List.length_cons, List.length_nil] at hn el
    obtain ⟨y1, y2⟩ := seg_snoc.1 sy
    rw [mergeSkipRight, if_pos (by omega)]
    apply wp_bind
    refine grailCmp3At_spec (y := y') sx ?_ fun k => ?_
    · rw [show last - 1 - 1 = middle + Y.length by omega]; exact (seg_snoc.1 y1).2
    split
    · rename_i h
      rw [cmp3_le hlt] at h
      refine wp_mono (ih Y y' middle (last - 1) _ (by omega) (by omega) y1 sx) ?_
      rintro r s' ⟨Y1, Y2, k', p1, p2, p3, p4⟩
      refine ⟨Y1, Y2 ++ [y'], k', by simp [p1], p2, ?_, p4⟩
      intro u hu
      rcases List.mem_append.1 hu with e | e
      · exact p3 u e
      · rw [List.mem_singleton.1 e]; exact h
    · exact wp_pure ⟨Y ++ [y'], [], k, by simp, by simp; omega, by simp, rfl⟩

theorem mergeFromRight_spec (hlt : StrictWeak lt) (c : Cfg) (n : Nat) : ∀ (X Y : List α) (first middle last : Nat) (s : St α),
    Y.length = n → middle = first + X.length → last = middle + Y.length → SortedList lt X → SortedList lt Y →
    Seg s.cell first (X ++ Y) →
    wp (mergeFromRight (tick lt) c first middle last) (fun _ s' => Seg s'.cell first (mergeL lt X Y) ∧ Frame first last s s') s := by
  induction n using Nat.strongRecOn with
  | _ n ih =>
    intro X Y first middle last s hn em el oX oY hs
    rcases List.eq_nil_or_concat' Y with rfl | ⟨Y, y, rfl⟩
    · rw [mergeFromRight, if_neg (by simp at el; omega)]
      exact wp_pure ⟨by simpa using hs, Frame.refl _ _ _⟩
    · simp only [List.length_append, List.length_cons, List.length_nil] at hn el
      rw [mergeFromRight, if_pos (by omega)]
      obtain ⟨sx, sy⟩ := seg_append.1 hs
      rw [← em] at sy
      refine wp_bind (wp_read' (x := y) ?_ (wp_bind ?_))
      · rw [show last - 1 = middle + Y.length by omega]; exact (seg_snoc.1 sy).2
      refine wp_mono (upperBound_seg hlt y em sx oX) ?_
      rintro it s1 ⟨X1, X2, k, rfl, e1, b1, b2, rfl⟩
      simp only [List.length_append] at em
      rw [List.append_assoc] at hs
      obtain ⟨h1, h2⟩ := seg_append.1 hs
      rw [← e1] at h2
      apply wp_bind
      refine wp_mono (grailRotate_spec c (X := X2) (Y := Y ++ [y]) (s := { s with cmps := k }) h2 (by omega) (by simp; omega) ?_) ?_
      · exact fun h => .inl (List.length_eq_zero_iff.1 (by omega))
      rintro _ s2 ⟨r1, r2⟩
      have r2 := r2.tick
      obtain ⟨r3, r4⟩ := seg_append.1 r1
      have hm : mergeL lt (X1 ++ X2) (Y ++ [y]) = mergeL lt X1 (Y ++ [y]) ++ X2 :=
        mergeL_snoc1 fun u hu w hw => hlt.lt_of_le_of_lt (grail_le_last oY hw hlt) (b2 u hu)
      have h1' : Seg s2.cell first X1 := h1.congr fun i _ _ => r2.cell i (by omega)
      rw [hm]
      split
      · rename_i hl
        have : X1 = [] := by rw [← List.length_eq_zero_iff]; omega
        subst this
        refine wp_pure ⟨?_, r2.mono (by omega) (Nat.le_refl _)⟩
        rw [mergeL_nil_left, hl]; exact r1
      · rename_i hl
        obtain ⟨X1, x, rfl⟩ := List.eq_nil_or_concat' X1 |>.resolve_left (by rintro rfl; simp at e1; omega)
        simp only [List.length_append, List.length_cons, List.length_nil] at e1 em
        apply wp_bind
        refine wp_mono (mergeSkipRight_spec hlt (x := x) Y.length Y y it (last - (middle - it)) s2 rfl (by omega) r3 ?_) ?_
        · rw [show it - 1 = first + X1.length by omega]; exact (seg_snoc.1 h1').2
        rintro l s3 ⟨Y1, Y2, k', rfl, e2, b3, rfl⟩
        rw [List.append_assoc, seg_append] at r3
        simp only [List.length_append, List.length_cons, List.length_nil] at hn el r4
        refine wp_mono (ih Y1.length (by omega) (X1 ++ [x]) Y1 first it l { s2 with cmps := k' } rfl (by simp; omega) (by omega)
          (sortedList_append.1 oX).1 (sortedList_append.1 (sortedList_append.1 oY).1).1 (seg_append.2 ⟨h1', ?_⟩)) ?_
        · rw [show first + (X1 ++ [x]).length = it by simp; omega]; exact r3.1
        · rintro _ s4 ⟨q1, q2⟩
          have q2 := q2.tick
          refine ⟨?_, (r2.mono (by omega) (Nat.le_refl _)).trans (q2.mono (Nat.le_refl _) (by omega))⟩
          have : mergeL lt (X1 ++ [x]) (Y1 ++ Y2 ++ [y]) = mergeL lt (X1 ++ [x]) Y1 ++ (Y2 ++ [y]) := by
            rw [List.append_assoc]
            refine mergeL_snoc2 fun w hw z hz => ?_
            rcases List.mem_append.1 hw with hw | hw
            · exact hlt.le_trans (grail_le_last (sortedList_append.1 oX).1 hz hlt) (b3 w hw)
            · rw [List.mem_singleton.1 hw]; exact b1 z hz
          rw [this]
          have hlen := (mergeL_perm (lt := lt) (X1 ++ [x]) Y1).length_eq
          simp only [List.length_append, List.length_cons, List.length_nil] at hlen
          refine seg_append.2 ⟨seg_append.2 ⟨q1, ?_⟩, ?_⟩
          · rw [hlen, show first + (X1.length + (0 + 1) + Y1.length) = it + Y1.length by omega]
            exact r3.2.congr fun i _ _ => q2.cell i (by omega)
          · simp only [List.length_append, List.length_cons, List.length_nil, hlen]
            rw [show first + (X1.length + (0 + 1) + Y1.length + (Y2.length + (0 + 1))) = it + (Y1.length + Y2.length + (0 + 1)) by omega]
            exact r4.congr fun i _ _ => q2.cell i (by omega)

/-- `merge_without_buffer`. -/
theorem mergeWithoutBuffer_spec (hlt : StrictWeak lt) (c : Cfg) {X Y : List α} {first middle last : Nat} {s : St α}
    (em : middle = first + X.length) (el : last = middle + Y.length) (oX : SortedList lt X) (oY : SortedList lt Y)
    (hs : Seg s.cell first (X ++ Y)) :
    wp (mergeWithoutBuffer (tick lt) c first middle last) (fun _ s' => Seg s'.cell first (mergeL lt X Y) ∧ Frame first last s s') s := by
  unfold mergeWithoutBuffer
  split
  · exact mergeFromLeft_spec hlt c _ X Y first middle last s rfl em el oX oY hs
  · exact mergeFromRight_spec hlt c _ X Y first middle last s rfl em el oX oY hs

/-! ### Smart merge -/

theorem smartBound_spec (hlt : StrictWeak lt) {ft : Bool} {xs : List α} {a l : Nat} {s : St α} (x : α)
    (hl : l = a + xs.length) (hs : Seg s.cell a xs) (ho : SortedList lt xs) :
    wp (smartBound (tick lt) ft a l x) (fun q s' => ∃ us vs k, xs = (us ++ vs : List α) ∧ q = a + us.length ∧
      (∀ u ∈ us, leftFirst lt ft x u = false) ∧ (∀ w ∈ vs, leftFirst lt ft x w = true) ∧ s' = { s with cmps := k }) s := by
  unfold smartBound
  cases ft with
  | true =>
    simp only [if_true]
    refine wp_mono (lowerBound_seg hlt x hl hs ho) ?_
    rintro q s' ⟨us, vs, k, h1, h2, h3, h4, h5⟩
    exact ⟨us, vs, k, h1, h2, fun u hu => by simp [leftFirst, h3 u hu], fun u hu => by simp [leftFirst, h4 u hu], h5⟩
  | false =>
    simp only [Bool.false_eq_true, if_false]
    refine wp_mono (upperBound_seg hlt x hl hs ho) ?_
    rintro q s' ⟨us, vs, k, h1, h2, h3, h4, h5⟩
    exact ⟨us, vs, k, h1, h2, fun u hu => by simp [leftFirst, h3 u hu], fun u hu => by simp [leftFirst, h4 u hu], h5⟩

/-- Elements to emit before a smart merge. -/
theorem SmartRel.before {frag : Bool} {E0 X X' Y Y' E R : List α} {fr : Bool} (h : SmartRel lt frag X' Y' E R fr) (hX : X' <:+ X)
    (hY : Y' <:+ Y) (hm : ∀ X2 Y2, mrg lt frag (X ++ X2) (Y ++ Y2) = E0 ++ mrg lt frag (X' ++ X2) (Y' ++ Y2)) :
    SmartRel lt frag X Y (E0 ++ E) R fr := by
  rcases h with ⟨h1, h2, h3⟩ | ⟨h1, h2, h3⟩
  · exact .inl ⟨h1, h2.trans hX, fun X2 Y2 => by rw [hm, h3, List.append_assoc]⟩
  · exact .inr ⟨h1, h2.trans hY, fun X2 Y2 => by rw [hm, h3, List.append_assoc]⟩

theorem smartRotate_spec (hlt : StrictWeak lt) (c : Cfg) {frag : Bool} (n : Nat) : ∀ (X Y : List α) (first middle last : Nat)
    (s : St α), X.length = n → middle = first + X.length → last = middle + Y.length → Y ≠ [] → SortedList lt X →
    SortedList lt Y → Seg s.cell first (X ++ Y) →
    wp (smartRotate (tick lt) c frag first middle last) (fun r s' => ∃ E R, r.1 = R.length ∧ R ≠ [] ∧
      E.length + R.length = X.length + Y.length ∧ Seg s'.cell first (E ++ R) ∧
      SmartRel lt frag X Y E R r.2 ∧ Frame first last s s') s := by
  induction n using Nat.strongRecOn with
  | _ n ih =>
    intro X Y first middle last s hn em el hY oX oY hs
    cases X with
    | nil =>
      rw [smartRotate, if_neg (by simp at em; omega)]
      refine wp_pure ⟨[], Y, by simp at em ⊢; omega, hY, by simp, hs, .inr ⟨rfl, List.suffix_refl _, fun _ _ => rfl⟩, Frame.refl _ _ _⟩
    | cons x X =>
      rw [smartRotate, if_pos (by simp at em; omega)]
      obtain ⟨sx, sy⟩ := seg_append.1 hs
      rw [← em] at sy
      refine wp_bind (wp_read' (seg_cons.1 sx).1 (wp_bind ?_))
      refine wp_mono (smartBound_spec hlt x el sy oY) ?_
      rintro it s1 ⟨Y1, Y2, k, rfl, e1, b1, b2, rfl⟩
      simp only [List.length_append] at el
      simp only [List.length_cons] at em hn
      rw [← List.append_assoc] at hs
      obtain ⟨h1, h2⟩ := seg_append.1 hs
      apply wp_bind
      refine wp_mono (grailRotate_spec c (X := x :: X) (Y := Y1) (s := { s with cmps := k }) h1 (by simp; omega) (by omega)
        fun h => .inr (List.length_eq_zero_iff.1 (by omega))) ?_
      rintro _ s2 ⟨r1, r2⟩
      have r2 := r2.tick
      obtain ⟨r3, r4⟩ := seg_append.1 r1
      have hm : ∀ X3 Y3, mrg lt frag (x :: X ++ X3) (Y1 ++ Y2 ++ Y3) = Y1 ++ mrg lt frag (x :: X ++ X3) (Y2 ++ Y3) := by
        intro X3 Y3
        rw [List.append_assoc, List.cons_append]
        exact mrg_right b1
      split
      · rename_i hl
        have : Y2 = [] := by rw [← List.length_eq_zero_iff]; omega
        subst this
        exact wp_pure ⟨Y1, x :: X, by simp; omega, by simp, by simp; omega, r1,
          .inl ⟨rfl, List.suffix_refl _, fun X3 Y3 => by rw [hm]; rfl⟩, r2.mono (Nat.le_refl _) (by omega)⟩
      · rename_i hl
        cases Y2 with
        | nil => simp at el; omega
        | cons y Y2 =>
          simp only [List.length_cons] at el
          have hy2 : Seg s2.cell it (y :: Y2) := by
            refine Seg.congr (c := s.cell) ?_ (fun i h1 h2 => r2.cell i (by omega))
            simp only [List.length_append, List.length_cons] at h2
            rw [show it = first + (X.length + 1 + Y1.length) by omega]; exact h2
          apply wp_bind
          refine wp_mono (smartSkip_spec hlt X x (first + (it - middle)) it s2 (by omega)
            (by rw [show it - middle = Y1.length by omega]; exact r4) (seg_cons.1 hy2).1) ?_
          rintro f s3 ⟨X1, X2, k', rfl, e2, b3, rfl⟩
          simp only [List.length_append] at em hn
          have e3 : (x :: (X1 ++ X2)) = (x :: X1) ++ X2 := rfl
          rw [e3, seg_append] at r4
          refine wp_mono (ih X2.length (by omega) X2 (y :: Y2) f it last { s2 with cmps := k' } rfl (by omega) (by simp; omega) (by simp) ?_
            (sortedList_append.1 oY).2.1 (seg_append.2 ⟨?_, ?_⟩)) ?_
          · exact (sortedList_append.1 (sortedList_cons.1 oX).2).2.1
          · rw [show f = first + Y1.length + (x :: X1).length by simp; omega]; exact r4.2
          · rw [show f + X2.length = it by omega]; exact hy2
          · rintro r s4 ⟨E, R, q1, q2, q3, q4, q5, q6⟩
            have q6 := q6.tick
            simp only [List.length_cons] at q3
            refine ⟨Y1 ++ (x :: X1) ++ E, R, q1, q2, by simp; omega, ?_, ?_,
              (r2.mono (Nat.le_refl _) (by omega)).trans (q6.mono (by omega) (Nat.le_refl _))⟩
            · rw [List.append_assoc, List.append_assoc, seg_append, seg_append]
              refine ⟨r3.congr fun i h1 h2 => q6.cell i (by omega), r4.1.congr fun i h1 h2 => q6.cell i ?_, ?_⟩
              · simp only [List.length_cons] at h2; omega
              · rw [show first + Y1.length + (x :: X1).length = f by simp; omega]; exact q4
            · refine q5.before ⟨x :: X1, rfl⟩ ⟨Y1, rfl⟩ fun X3 Y3 => ?_
              have := mrg_left (frag := frag) (X1 := x :: X1) (X2 := X2 ++ X3) (y := y) (Y := Y2 ++ Y3) (lt := lt) (by
                intro u hu
                rcases List.mem_cons.1 hu with e | e
                · rw [e]; exact b2 y (by simp)
                · exact b3 u e)
              rw [hm, List.append_assoc]
              congr 1
              simpa only [List.cons_append, List.append_assoc] using this

theorem leftFirst_le (hlt : StrictWeak lt) {ft : Bool} {x z y : α} (h : lt z x = false) (hz : leftFirst lt ft z y = true) :
    leftFirst lt ft x y = true := by
  cases ft with
  | true =>
    simp only [leftFirst, if_true, Bool.not_eq_true'] at hz ⊢
    exact hlt.le_trans h hz
  | false =>
    simp only [leftFirst, Bool.false_eq_true, if_false] at hz ⊢
    exact hlt.lt_of_le_of_lt h hz

/-- `smart_merge_without_buffer`. -/
theorem smartMergeWithout_spec (hlt : StrictWeak lt) (c : Cfg) {frag : Bool} {X Y : List α} {first middle last : Nat} {s : St α}
    (em : middle = first + X.length) (el : last = middle + Y.length) (hX : X ≠ []) (hY : Y ≠ []) (oX : SortedList lt X)
    (oY : SortedList lt Y) (hs : Seg s.cell first (X ++ Y)) :
    wp (smartMergeWithout (tick lt) c first middle last frag) (fun r s' => ∃ E R, r.1 = R.length ∧ R ≠ [] ∧
      E.length + R.length = X.length + Y.length ∧ Seg s'.cell first (E ++ R) ∧
      SmartRel lt frag X Y E R r.2 ∧ Frame first last s s') s := by
  have hX0 := List.length_pos_iff.2 hX
  have hY0 := List.length_pos_iff.2 hY
  unfold smartMergeWithout
  rw [if_neg (by omega), if_pos (by omega)]
  obtain ⟨X, x, rfl⟩ := List.eq_nil_or_concat' X |>.resolve_left hX
  cases Y with
  | nil => exact absurd rfl hY
  | cons y Y =>
    obtain ⟨sx, sy⟩ := seg_append.1 hs
    rw [← em] at sy
    apply wp_bind
    refine fragLess_spec hlt (x := x) (y := y) ?_ (seg_cons.1 sy).1 fun k => ?_
    · rw [show middle - 1 = first + X.length by simp at em; omega]; exact (seg_snoc.1 sx).2
    cases h : leftFirst lt (!frag) x y with
    | true =>
      simp only [if_true]
      refine wp_pure ⟨X ++ [x], y :: Y, by simp only; omega, by simp, rfl, hs, .inr ⟨rfl, List.suffix_refl _, fun X2 Y2 => ?_⟩,
        (Frame.refl _ _ _).tickr⟩
      exact mrg_left fun u hu => leftFirst_le hlt (grail_le_last oX hu hlt) h
    | false =>
      simp only [Bool.false_eq_true, if_false]
      refine wp_mono (smartRotate_spec hlt c _ (X ++ [x]) (y :: Y) first middle last { s with cmps := k } rfl em el hY oX oY hs) ?_
      rintro r s' ⟨E, R, q1, q2, q3, q4, q5, q6⟩
      exact ⟨E, R, q1, q2, q3, q4, q5, q6.tick⟩

end CppSort
