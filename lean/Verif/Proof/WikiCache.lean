import Verif.Proof.WikiMerge
/-
wiki_sort.h 413-499: the merges of ranges through the cache.
-/
set_option autoImplicit false

namespace CppSort
variable {α : Type} {lt : α → α → Bool}

theorem Live.same {c c' : Nat → Cell α} {i : Nat} (h : Live c i) (e : c' i = c i) : Live c' i := by unfold Live; rw [e]; exact h

theorem seg_head {c : Nat → Cell α} {a : Nat} {X : List α} (h : Seg c a X) (hX : X ≠ []) : c a = .val (X.head hX) := by
  cases X with
  | nil => exact absurd rfl hX
  | cons x X => exact (seg_cons.1 h).1

theorem seg_last {c : Nat → Cell α} {a : Nat} {X : List α} (h : Seg c a X) (hX : X ≠ []) : c (a + X.length - 1) = .val (X.getLast hX) := by
  rw [← List.dropLast_append_getLast hX, seg_snoc, List.length_dropLast] at h
  have := List.length_pos_iff.2 hX
  rw [show a + X.length - 1 = a + (X.length - 1) by omega]
  exact h.2

theorem head_le (hlt : StrictWeak lt) {X : List α} (o : SortedList lt X) (hX : X ≠ []) : ∀ z ∈ X, lt z (X.head hX) = false := by
  cases X with
  | nil => exact absurd rfl hX
  | cons x X =>
    intro z hz
    rcases List.mem_cons.1 hz with rfl | hz
    · exact hlt.irrefl _
    · exact (sortedList_cons.1 o).1 z hz

theorem le_last (hlt : StrictWeak lt) {X : List α} (o : SortedList lt X) (hX : X ≠ []) : ∀ z ∈ X, lt (X.getLast hX) z = false := by
  intro z hz
  rw [← List.dropLast_append_getLast hX, sortedList_append] at o
  rw [← List.dropLast_append_getLast hX, List.mem_append, List.mem_singleton] at hz
  rcases hz with hz | hz
  · exact o.2.2 z hz _ (by simp)
  · rw [hz]; exact hlt.irrefl _

/-- The second range is below the first one. -/
theorem mergeL_reversed (hlt : StrictWeak lt) {X Y : List α} (oX : SortedList lt X) (oY : SortedList lt Y) (hX : X ≠ []) (hY : Y ≠ [])
    (h : lt (Y.getLast hY) (X.head hX) = true) : mergeL lt X Y = Y ++ X :=
  mergeL_after fun x hx y hy => hlt.lt_of_lt_of_le (hlt.lt_of_le_of_lt (le_last hlt oY hY y hy) h) (head_le hlt oX hX x hx)

/-- The two ranges are in order. -/
theorem mergeL_ordered (hlt : StrictWeak lt) {X Y : List α} (oX : SortedList lt X) (oY : SortedList lt Y) (hX : X ≠ []) (hY : Y ≠ [])
    (h : lt (Y.head hY) (X.getLast hX) = false) : mergeL lt X Y = X ++ Y :=
  mergeL_before fun x hx y hy => hlt.le_trans (hlt.le_trans (le_last hlt oX hX x hx) h) (head_le hlt oY hY y hy)

/-- Merging two ranges to a place that does not overlap them. -/
theorem wikiMergeTo_spec (hlt : StrictWeak lt) {skip : M α Bool} {P : Prop} {X Y : List α} {a m e dst : Nat} {s : St α}
    (hX : X ≠ []) (hY : Y ≠ []) (hm : m = a + X.length) (he : e = m + Y.length) (hd : dst + (X.length + Y.length) ≤ a ∨ e ≤ dst)
    (oX : SortedList lt X) (oY : SortedList lt Y) (hs : Seg s.cell a (X ++ Y)) (hl : ∀ i, dst ≤ i → i < dst + (X.length + Y.length) → Live s.cell i)
    (hsk : ∀ s1 : St α, s1.cell = s.cell → s1.env = s.env → mergeL lt X Y = X ++ Y →
      wp skip (fun b s2 => s2.cell = s1.cell ∧ s2.env = s1.env ∧ (b = true → P)) s1) :
    wp (wikiMergeTo (tick lt) skip a m e dst) (fun b s' =>
      (b = false → P ∧ s'.cell = s.cell ∧ s'.env = s.env) ∧
      (b = true → Seg s'.cell dst (mergeL lt X Y) ∧ (∀ i, a ≤ i → i < e → Live s'.cell i) ∧
        (∀ i, (i < a ∨ e ≤ i) → (i < dst ∨ dst + (X.length + Y.length) ≤ i) → s'.cell i = s.cell i) ∧ s'.env = s.env)) s := by
  obtain ⟨sX, sY⟩ := seg_append.1 hs
  rw [← hm] at sY
  have hpX := List.length_pos_iff.2 hX
  have hpY := List.length_pos_iff.2 hY
  unfold wikiMergeTo
  apply wp_bind
  refine wp_wikiLt (by rw [he]; exact seg_last sY hY) (seg_head sX hX) ?_
  split
  · rename_i hc
    apply wp_bind
    refine wp_mono (moveRange_seg (s0 := s) X a m (dst + (e - m)) { s with cmps := s.cmps + 1 } hm (by omega) sX (fun i h1 h2 => hl i (by omega) (by omega)) rfl) ?_
    rintro _ s1 ⟨-, q1, q2, q3, q4, -⟩
    apply wp_bind
    refine wp_mono (moveRange_seg (s0 := s) Y m e dst s1 he (by omega) (sY.congr fun i h1 h2 => q3 i (by omega) (by omega))
      (fun i h1 h2 => (hl i (by omega) (by omega)).same (q3 i (by omega) (by omega))) q4) ?_
    rintro _ s2 ⟨-, r1, r2, r3, r4, -⟩
    refine wp_pure ⟨by simp, fun _ => ⟨?_, fun i h1 h2 => ?_, fun i h1 h2 => ?_, r4⟩⟩
    · rw [mergeL_reversed hlt oX oY hX hY hc, seg_append]
      refine ⟨r1, ?_⟩
      rw [show dst + Y.length = dst + (e - m) by omega]
      exact q1.congr fun i h1 h2 => r3 i (by omega) (by omega)
    · by_cases h3 : i < m
      · left; rw [r3 i (by omega) (by omega)]; exact q2 i (by omega) (by omega) (by omega)
      · left; exact r2 i (by omega) (by omega) (by omega)
    · rw [r3 i (by omega) (by omega), q3 i (by omega) (by omega)]
  apply wp_bind
  refine wp_wikiLt (s := { s with cmps := s.cmps + 1 }) (seg_head sY hY) (by rw [hm]; exact seg_last sX hX) ?_
  split
  · rename_i hc
    apply wp_bind
    refine wp_mono (mergeMove_seg (s := { s with cmps := s.cmps + 1 + 1 }) hm he (Or.inl (Nat.le_refl _)) (fun i h1 h2 => by omega) sX sY hl) ?_
    rintro _ s1 ⟨-, q1, q2, q3, q4⟩
    refine wp_pure ⟨by simp, fun _ => ⟨q1, fun i h1 h2 => .inl (q2 i (by omega)), fun i h1 h2 => q3 i (by omega) (by omega) h2, q4⟩⟩
  · rename_i hc
    have hc' : lt (Y.head hY) (X.getLast hX) = false := by simpa using hc
    have ho := mergeL_ordered hlt oX oY hX hY hc'
    apply wp_bind
    refine wp_mono (hsk { s with cmps := s.cmps + 1 + 1 } rfl rfl ho) ?_
    rintro b s1 ⟨p1, p2, p3⟩
    split
    · rename_i hb
      exact wp_pure ⟨fun _ => ⟨p3 hb, p1, p2⟩, by simp⟩
    · apply wp_bind
      refine wp_mono (moveRange_seg (s0 := s) (X ++ Y) a e dst s1 (by simp; omega) (by simp; omega) (by rw [p1]; exact hs)
        (fun i h1 h2 => by rw [p1]; exact hl i (by omega) (by simp at h2; omega)) p2) ?_
      rintro _ s2 ⟨-, r1, r2, r3, r4, -⟩
      simp only [List.length_append] at r2 r3
      refine wp_pure ⟨by simp, fun _ => ⟨by rw [ho]; exact r1, fun i h1 h2 => .inl (r2 i (by omega) (by omega) (by omega)), fun i h1 h2 => ?_, r4⟩⟩
      rw [r3 i (by omega) (by omega), p1]

/-- Merging four ranges through the cache. -/
theorem wikiFour_spec (hlt : StrictWeak lt) {A B C D : List α} {a m1 m2 m3 e cache cs : Nat} {s : St α}
    (hA : A ≠ []) (hB : B ≠ []) (hC : C ≠ []) (hD : D ≠ []) (h1 : m1 = a + A.length) (h2 : m2 = m1 + B.length) (h3 : m3 = m2 + C.length)
    (h4 : e = m3 + D.length) (hcs : e - a ≤ cs) (hd : cache + cs ≤ a ∨ e ≤ cache) (oA : SortedList lt A) (oB : SortedList lt B) (oC : SortedList lt C)
    (oD : SortedList lt D) (hs : Seg s.cell a ((A ++ B) ++ (C ++ D))) (hl : ∀ i, cache ≤ i → i < cache + cs → Live s.cell i) :
    wp (wikiFour (tick lt) cache a m1 m2 m3 e) (fun _ s' => Seg s'.cell a (mergeL lt (mergeL lt A B) (mergeL lt C D)) ∧ GFrame a e cache cs s s') s := by
  obtain ⟨sAB, sCD⟩ := seg_append.1 hs
  rw [List.length_append] at sCD
  rw [show a + (A.length + B.length) = m2 by omega] at sCD
  obtain ⟨sA, sB⟩ := seg_append.1 sAB
  obtain ⟨sC, sD⟩ := seg_append.1 sCD
  rw [← h1] at sB
  rw [← h3] at sD
  have hpA := List.length_pos_iff.2 hA
  have hpB := List.length_pos_iff.2 hB
  have hpC := List.length_pos_iff.2 hC
  have hpD := List.length_pos_iff.2 hD
  have lAB : (mergeL lt A B).length = A.length + B.length := by rw [(mergeL_perm A B).length_eq, List.length_append]
  have lCD : (mergeL lt C D).length = C.length + D.length := by rw [(mergeL_perm C D).length_eq, List.length_append]
  have oAB : SortedList lt (mergeL lt A B) := (mergeL_ssorted hlt A B oA oB).2.1
  have oCD : SortedList lt (mergeL lt C D) := (mergeL_ssorted hlt C D oC oD).2.1
  unfold wikiFour
  apply wp_bind
  refine wp_mono (wikiMergeTo_spec hlt (P := mergeL lt A B = A ++ B ∧ lt (D.head hD) (C.getLast hC) = false ∧ lt (C.head hC) (B.getLast hB) = false)
    hA hB h1 h2 (by omega) oA oB sAB (fun i p q => hl i p (by omega)) ?_) ?_
  · intro s1 e1 e2 ho
    unfold wikiInOrder
    apply wp_bind
    refine wp_wikiLt (x := D.head hD) (y := C.getLast hC) (by rw [e1]; exact seg_head sD hD) (by rw [e1, h3]; exact seg_last sC hC) ?_
    split
    · exact wp_pure ⟨rfl, rfl, by simp⟩
    · rename_i hc
      unfold wikiLt
      apply wp_bind
      refine wp_read' (s := { s1 with cmps := s1.cmps + 1 }) (by show s1.cell m2 = _; rw [e1]; exact seg_head sC hC) ?_
      apply wp_bind
      refine wp_read' (s := { s1 with cmps := s1.cmps + 1 }) (x := B.getLast hB) (by show s1.cell (m2 - 1) = _; rw [e1, h2]; exact seg_last sB hB) ?_
      refine wp_notC_tick ⟨rfl, rfl, fun hb => ⟨ho, by simpa using hc, by simpa using hb⟩⟩
  · rintro b s1 ⟨p1, p2⟩
    split
    · rename_i hb
      obtain ⟨q1, q2, q3, q4⟩ := p2 hb
      apply wp_bind
      refine wp_mono (wikiMergeTo_spec hlt (P := False) (dst := cache + (m2 - a)) hC hD h3 h4 (by omega) oC oD
        (sCD.congr fun i u v => q3 i (by simp at v; omega) (by simp at v; omega)) (fun i u v => (hl i (by omega) (by omega)).same (q3 i (by omega) (by omega))) ?_) ?_
      · intro s2 _ _ _
        exact wp_pure ⟨rfl, rfl, by simp⟩
      rintro b2 s2 ⟨r0, r⟩
      obtain ⟨r1, r2, r3, r4⟩ := r (by cases b2; exact absurd (r0 rfl).1 id; rfl)
      apply wp_bind
      refine wp_mono (wikiMergeTo_spec hlt (P := False) (X := mergeL lt A B) (Y := mergeL lt C D) (a := cache) (m := cache + (m2 - a))
        (e := cache + ((m2 - a) + (e - m2))) (dst := a) (by rw [← List.length_pos_iff, lAB]; omega) (by rw [← List.length_pos_iff, lCD]; omega)
        (by omega) (by omega) (by omega) oAB oCD ?_ ?_ ?_) ?_
      · rw [seg_append, lAB, show cache + (A.length + B.length) = cache + (m2 - a) by omega]
        exact ⟨q1.congr fun i u v => r3 i (by omega) (by omega), r1⟩
      · intro i u v
        by_cases hi : i < m2
        · exact (q2 i (by omega) (by omega)).same (r3 i (by omega) (by omega))
        · exact r2 i (by omega) (by omega)
      · intro s3 _ _ _
        exact wp_pure ⟨rfl, rfl, by simp⟩
      rintro b3 s3 ⟨t0, t⟩
      obtain ⟨t1, t2, t3, t4⟩ := t (by cases b3; exact absurd (t0 rfl).1 id; rfl)
      refine wp_pure ⟨t1, ⟨fun i u v => ?_, fun i u v => ?_, EnvLe.of_env (t4.trans (r4.trans q4))⟩⟩
      · rw [t3 i (by omega) (by omega), r3 i (by omega) (by omega), q3 i (by omega) (by omega)]
      · by_cases hi : i < cache + (e - a)
        · exact t2 i (by omega) (by omega)
        · exact (hl i u v).same (by rw [t3 i (by omega) (by omega), r3 i (by omega) (by omega), q3 i (by omega) (by omega)])
    · rename_i hb
      obtain ⟨⟨e1, e2, e3⟩, c1, c2⟩ := p1 (by simpa using hb)
      have o1 := mergeL_ordered hlt oC oD hC hD e2
      refine wp_pure ⟨?_, ⟨fun i _ _ => by rw [c1], fun i u v => by rw [c1]; exact hl i u v, EnvLe.of_env c2⟩⟩
      rw [mergeL_ordered hlt oAB oCD (by rw [← List.length_pos_iff, lAB]; omega) (by rw [← List.length_pos_iff, lCD]; omega), e1, o1, c1]
      · exact hs
      · have u1 : (mergeL lt A B).getLast (by rw [← List.length_pos_iff, lAB]; omega) = B.getLast hB := by
          simp only [e1]; rw [List.getLast_append_of_ne_nil]
        have u2 : (mergeL lt C D).head (by rw [← List.length_pos_iff, lCD]; omega) = C.head hC := by
          simp only [o1]; rw [List.head_append_of_ne_nil]
        rw [u1, u2]; exact e3

/-! ### Two ranges -/

theorem placeRange_seg : ∀ (X : List α) (a l b : Nat) (s : St α), l = a + X.length → (a + X.length ≤ b ∨ b + X.length ≤ a) →
    Seg s.cell a X → (∀ i, b ≤ i → i < b + X.length → Live s.cell i) →
    wp (placeRange a l b) (fun r s' => r = b + X.length ∧ Seg s'.cell b X ∧ (∀ i, a ≤ i → i < a + X.length → Live s'.cell i) ∧
      (∀ i, (i < a ∨ a + X.length ≤ i) → (i < b ∨ b + X.length ≤ i) → s'.cell i = s.cell i) ∧ s'.env = s.env) s := by
  intro X
  induction X with
  | nil =>
    intro a l b s hl _ _ _
    rw [placeRange, if_neg (by simp at hl; omega)]
    exact wp_pure ⟨rfl, Seg.nil, fun i _ _ => by simp at *; omega, fun _ _ _ => rfl, rfl⟩
  | cons x X ih =>
    intro a l b s hl hd hs hb
    simp only [List.length_cons] at hl hd hb
    obtain ⟨x1, x2⟩ := seg_cons.1 hs
    rw [placeRange, if_pos (by omega)]
    apply wp_bind
    have hp : placeFrom b a s = some (.ok (), { s with cell := setCell (setCell s.cell a .moved) b (.val x), movs := s.movs + 1 }) := by
      unfold placeFrom
      rw [x1]
      rcases hb b (by omega) (by omega) with h | ⟨v, h⟩ <;> simp only [h]
    refine ⟨_, _, hp, ?_⟩
    refine wp_mono (ih (a + 1) l (b + 1) { s with cell := setCell (setCell s.cell a .moved) b (.val x), movs := s.movs + 1 } (by omega) (by omega)
      ((x2.out (by omega)).out (by omega)) (fun i u v => ((hb i (by omega) (by omega)).out (by omega)).out (by omega))) ?_
    rintro r s2 ⟨q1, q2, q3, q4, q5⟩
    simp only [List.length_cons]
    refine ⟨by omega, seg_cons.2 ⟨?_, q2⟩, fun i u v => ?_, fun i u v => ?_, q5⟩
    · rw [q4 _ (by omega) (by omega)]; sc
    · by_cases e : i = a
      · left; rw [q4 _ (by omega) (by omega)]; sc
      · exact q3 i (by omega) (by omega)
    · rw [q4 _ (by omega) (by omega)]; sc

theorem wikiMoveIn_seg (t : TypeTraits) {X : List α} {a l b : Nat} {s : St α} (hl : l = a + X.length) (hd : a + X.length ≤ b ∨ b + X.length ≤ a)
    (hs : Seg s.cell a X) (hb : ∀ i, b ≤ i → i < b + X.length → Live s.cell i) :
    wp (wikiMoveIn t a l b) (fun r s' => r = b + X.length ∧ Seg s'.cell b X ∧ (∀ i, a ≤ i → i < a + X.length → Live s'.cell i) ∧
      (∀ i, (i < a ∨ a + X.length ≤ i) → (i < b ∨ b + X.length ≤ i) → s'.cell i = s.cell i) ∧ s'.env = s.env) s := by
  unfold wikiMoveIn
  split
  · by_cases hX : X = []
    · subst hX
      rw [moveRange, if_neg (by simp at hl ⊢; omega)]
      exact wp_pure ⟨rfl, Seg.nil, fun i _ _ => by simp at *; omega, fun _ _ _ => rfl, rfl⟩
    have := List.length_pos_iff.2 hX
    refine wp_mono (moveRange_seg (s0 := s) X a l b s hl (by omega) hs hb rfl) ?_
    rintro r s1 ⟨q0, q1, q2, q3, q4, -⟩
    exact ⟨q0, q1, fun i u v => .inl (q2 i u v (by omega)), q3, q4⟩
  · exact placeRange_seg X a l b s hl hd hs hb

theorem lst_getD_eq (d : α) : ∀ (X : List α) (f : Nat), lst (fun k => X.getD (k - f) d) f (f + X.length) = X := by
  intro X f
  apply List.ext_getElem
  · simp
  · intro i h1 h2
    rw [lst_getElem, getD_get (by omega)]
    congr 1; omega

/-- The half-in-place merge from the right. -/
theorem halfMergeRight_seg (hlt : StrictWeak lt) {X Y : List α} {f m l buff n : Nat} {s : St α} (hX : X ≠ []) (hm : m = f + X.length) (hl : l = m + Y.length)
    (hd : buff + Y.length ≤ f ∨ l ≤ buff) (oX : SortedList lt X) (oY : SortedList lt Y) (sX : Seg s.cell f X) (sY : Seg s.cell buff Y)
    (hg : ∀ i, m ≤ i → i < l → Live s.cell i) (hn1 : n ≤ X.length) (hn2 : n ≤ Y.length) :
    wp (halfInplaceMerge (flipC (tick lt)) (rev (buff + Y.length)) (rev l) 0 Y.length (l - m) (l - f) 0 n)
      (fun _ s' => HalfDone s buff Y.length f l (mergeL lt X Y) s s') s := by
  let dflt : α := X.head hX
  have hA : HMAddr (rev (buff + Y.length)) (rev l) 0 Y.length 0 (l - f) := by
    refine ⟨fun j k _ p _ q e => ?_, fun j k _ p _ q e => ?_, fun j k _ p _ q e => ?_⟩
    · exact rev_inj (by omega) (by omega) e
    · exact rev_inj (by omega) (by omega) e
    · unfold rev at e; omega
  have hI : HMInv (rev (buff + Y.length)) (rev l) 0 Y.length (l - m) (l - f) 0 (fun k => Y.reverse.getD k dflt)
      (fun k => X.reverse.getD (k - (l - m)) dflt) s.cell := by
    refine ⟨fun k p q => ?_, fun k p q => ?_, fun k p q => ?_, by omega⟩
    · have := sY (Y.length - 1 - k) (by omega)
      unfold rev
      show _ = Cell.val (Y.reverse.getD k dflt)
      rw [getD_get (by simpa using q), List.getElem_reverse, ← this]
      congr 1; omega
    · have := sX (X.length - 1 - (k - (l - m))) (by omega)
      unfold rev
      show _ = Cell.val (X.reverse.getD (k - (l - m)) dflt)
      rw [getD_get (by simp; omega), List.getElem_reverse, ← this]
      congr 1; omega
    · unfold rev; exact hg _ (by omega) (by omega)
  have ef : flipC (tick lt) = tick (fun x y => lt y x) := rfl
  rw [ef]
  refine wp_mono (halfInplaceMerge_spec (lt := fun x y => lt y x) hA (n := n) (by omega) (by omega) hI) ?_
  rintro _ s2 ⟨z, hz⟩
  have hm' := hz.merged
  have e1 : lst (fun k => Y.reverse.getD k dflt) 0 Y.length = Y.reverse := by
    have := lst_getD_eq dflt Y.reverse 0
    simpa using this
  have e2 : lst (fun k => X.reverse.getD (k - (l - m)) dflt) (l - m) (l - f) = X.reverse := by
    have := lst_getD_eq dflt X.reverse (l - m)
    rwa [List.length_reverse, show l - m + X.length = l - f by omega] at this
  rw [e1, e2] at hm'
  have hss := mergeL_ssorted hlt.flip Y.reverse X.reverse (by unfold SortedList; rw [List.pairwise_reverse]; exact oY)
    (by unfold SortedList; rw [List.pairwise_reverse]; exact oX)
  rw [← hm'] at hss
  have hss2 := hss.reverse
  rw [List.reverse_append, List.reverse_reverse, List.reverse_reverse] at hss2
  have hz2 : (lst z 0 (l - f)).reverse = mergeL lt X Y :=
    (hss2.eq_ssort hlt).trans ((mergeL_ssorted hlt X Y oX oY).eq_ssort hlt).symm
  refine ⟨?_, fun i u v => .inl ?_, fun i u v => ?_, hz.brk⟩
  · rw [← hz2]
    intro i hi
    simp only [List.length_reverse, lst_length] at hi
    rw [List.getElem_reverse, lst_getElem]
    have := hz.out (l - f - 1 - i) (by omega) (by omega)
    unfold rev at this
    rw [show l - 1 - (l - f - 1 - i) = f + i by omega] at this
    rw [this, lst_length]; congr 2; omega
  · have := hz.buf (buff + Y.length - 1 - i) (by omega) (by omega)
    unfold rev at this
    rwa [show buff + Y.length - 1 - (buff + Y.length - 1 - i) = i by omega] at this
  · exact hz.other i (fun j p q => by unfold rev; omega) (fun j p q => by unfold rev; omega)

theorem wikiBuffered_spec (hlt : StrictWeak lt) {t : TypeTraits} (ht : t.trivDtor = true) {X Y : List α} {f m l cache cs : Nat} {s : St α}
    (hX : X ≠ []) (hm : m = f + X.length) (hl : l = m + Y.length) (hcs : X.length ≤ cs ∨ Y.length ≤ cs) (hd : cache + cs ≤ f ∨ l ≤ cache)
    (oX : SortedList lt X) (oY : SortedList lt Y) (hs : Seg s.cell f (X ++ Y)) (hc : ∀ i, cache ≤ i → i < cache + cs → Live s.cell i) :
    wp (wikiBuffered (tick lt) t f m l (m - f) (l - m) cache) (fun _ s' => Seg s'.cell f (mergeL lt X Y) ∧ GFrame f l cache cs s s') s := by
  obtain ⟨sX, sY⟩ := seg_append.1 hs
  rw [← hm] at sY
  unfold wikiBuffered wikiGuard
  simp only [ht, if_true]
  split
  · apply wp_bind
    refine wp_mono (wikiMoveIn_seg t (X := X) hm (by omega) sX (fun i u v => hc i u (by omega))) ?_
    rintro ptr s1 ⟨rfl, q1, q2, q3, q4⟩
    apply wp_bind
    refine wp_mono (halfInplaceMerge_seg (s0 := s) (m - f) X Y cache f m (cache + X.length) l s1 (blind_short _ _ _ (by omega) (by omega)) rfl hl
      ⟨by omega, by omega, q1, sY.congr fun i u v => q3 i (by omega) (by omega), fun i u v => q2 i (by omega) (by omega), q4⟩) ?_
    rintro _ s2 h
    have hr := h.rest
    refine wp_pure ⟨h.out, ⟨fun i u v => ?_, fun i u v => ?_, EnvLe.of_env h.env⟩⟩
    · rw [hr i (by omega) (by omega), q3 i (by omega) (by omega)]
    · by_cases hi : i < cache + X.length
      · exact h.buf i u hi
      · exact (hc i u v).same (by rw [hr i (by omega) (by omega), q3 i (by omega) (by omega)])
  · apply wp_bind
    refine wp_mono (wikiMoveIn_seg t (X := Y) hl (by omega) sY (fun i u v => hc i u (by omega))) ?_
    rintro ptr s1 ⟨rfl, q1, q2, q3, q4⟩
    apply wp_bind
    rw [show cache + Y.length - cache = Y.length by omega]
    refine wp_mono (halfMergeRight_seg hlt (n := l - m) hX hm hl (by omega) oX oY (sX.congr fun i u v => q3 i (by omega) (by omega)) q1
      (fun i u v => q2 i u (by omega)) (by omega) (by omega)) ?_
    rintro _ s2 h
    have hr := h.rest
    refine wp_pure ⟨h.out, ⟨fun i u v => ?_, fun i u v => ?_, EnvLe.of_env (h.env.trans q4)⟩⟩
    · rw [hr i (by omega) (by omega), q3 i (by omega) (by omega)]
    · by_cases hi : i < cache + Y.length
      · exact h.buf i u hi
      · exact (hc i u v).same (by rw [hr i (by omega) (by omega), q3 i (by omega) (by omega)])

/-- Merging two ranges, one of which fits in the cache. -/
theorem wikiTwo_spec (hlt : StrictWeak lt) (c : Cfg) {t : TypeTraits} (ht : t.trivDtor = true) {X Y : List α} {f m l cache cs : Nat} {s : St α}
    (hX : X ≠ []) (hY : Y ≠ []) (hm : m = f + X.length) (hl : l = m + Y.length) (hcs : X.length ≤ cs ∨ Y.length ≤ cs) (hd : cache + cs ≤ f ∨ l ≤ cache)
    (oX : SortedList lt X) (oY : SortedList lt Y) (hs : Seg s.cell f (X ++ Y)) (hc : ∀ i, cache ≤ i → i < cache + cs → Live s.cell i) :
    wp (wikiTwo (tick lt) c t cache f m l) (fun _ s' => Seg s'.cell f (mergeL lt X Y) ∧ GFrame f l cache cs s s') s := by
  haveI : Inhabited α := ⟨X.head hX⟩
  obtain ⟨sX, sY⟩ := seg_append.1 hs
  rw [← hm] at sY
  unfold wikiTwo
  apply wp_bind
  refine wp_wikiLt (by rw [hl]; exact seg_last sY hY) (seg_head sX hX) ?_
  split
  · rename_i h1
    apply wp_bind
    refine wp_mono (rotate_seg c (s := { s with cmps := s.cmps + 1 }) hs hm (by omega)) ?_
    rintro _ s1 ⟨-, q1, q2⟩
    refine wp_pure ⟨by rw [mergeL_reversed hlt oX oY hX hY h1]; exact q1, ?_⟩
    exact (Frame.trans (Frame.of_env (s := s) (s' := { s with cmps := s.cmps + 1 }) rfl fun _ _ => rfl) q2).g (by omega) hc
  · apply wp_bind
    refine wp_wikiLt (s := { s with cmps := s.cmps + 1 }) (seg_head sY hY) (by rw [hm]; exact seg_last sX hX) ?_
    split
    · refine wp_mono (wikiBuffered_spec hlt ht (s := { s with cmps := s.cmps + 1 + 1 }) hX hm hl hcs hd oX oY hs hc) ?_
      rintro _ s1 ⟨q1, q2⟩
      exact ⟨q1, ⟨q2.cell, q2.live, EnvLe.trans (EnvLe.of_env rfl) q2.brk⟩⟩
    · rename_i h2
      refine wp_pure ⟨by rw [mergeL_ordered hlt oX oY hX hY (by simpa using h2)]; exact hs, ⟨fun _ _ _ => rfl, hc, EnvLe.of_env rfl⟩⟩

end CppSort
