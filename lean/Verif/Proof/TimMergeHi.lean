import Verif.Proof.TimMergeLo
import Verif.Proof.TimHi
/-
`mergeHi` of timsort.h as a whole.
-/
set_option autoImplicit false

namespace CppSort
variable {α : Type} {lt : α → α → Bool}

/-- The moves after the loop of `mergeHi`. -/
theorem hiFinish_seg {s0 : St α} {a b : Nat} {t : TimCur} {xs ys : List α} {s : St α} (h : HiInv lt s0 a b t xs ys s)
    (he : HiEnd xs ys) {β : Type} {Q : β → St α → Prop} {rest : M α β}
    (hQ : ∀ s', HiStep lt s0 a b xs ys s [] [] s' → wp rest Q s') :
    wp (if t.len2 = 1 then do
      let _ ← moveBackward (t.cursor1 - t.len1) t.cursor1 (t.dest - t.len1 + (1 + t.len1))
      moveTo (t.dest - t.len1) t.cursor2
      rest
    else do
      let _ ← moveRange id id b (b + t.len2) (t.dest - (t.len2 - 1))
      rest) Q s := by
  have dis := h.segs.dis
  have l1 := h.l1
  have l2 := h.l2
  have c1 := h.c1
  have c2 := h.c2
  have cd := h.cd
  rcases he with ⟨e1, e2⟩ | ⟨e1, e2⟩
  · rw [if_pos (by omega)]
    match ys, e1 with
    | [y], _ =>
    simp only [List.length_cons, List.length_nil] at dis l2 c2 cd
    apply wp_bind
    refine wp_mono (moveBackward_seg (s0 := s0) xs.length xs (t.cursor1 - t.len1) t.cursor1 (t.dest - t.len1 + (1 + t.len1)) s
      rfl (by omega) (by omega) (by omega) (by rw [show t.cursor1 - t.len1 = a by omega]; exact h.segs.src1) ?_ h.segs.env) ?_
    · intro i h1 h2
      by_cases c : i < a + xs.length
      · exact h.segs.src1.live (by omega) (by omega)
      · exact h.segs.gap i (by omega) (by simp; omega)
    rintro _ s1 ⟨-, k1, k2, k3, k4, -⟩
    have hm : mergeL lt ([] ++ xs) [y] = mergeL lt [] [y] ++ xs :=
      mergeL_snoc1 fun u hu z hz => by simp at hz; subst hz; exact h.bot z (by simp) u hu
    have S1 : HiStep lt s0 a b xs [y] s [] [y] s1 := by
      refine HiStep.of1 (us := xs) (xs := []) h.segs hm ?_ ?_ ?_ k4
      · simp only [List.length_cons, List.length_nil]
        rw [show a + (0 + (0 + 1)) = t.dest - t.len1 + (1 + t.len1) - xs.length by omega]
        exact k1
      · intro i h1 h2 h3
        simp only [List.length_cons, List.length_nil] at h1 h2 h3
        left; exact k2 i (by omega) (by omega) (by omega)
      · intro i h1 h2
        simp only [List.length_cons, List.length_nil] at h1 h2
        exact k3 i (by omega) (by omega)
    have hg := S1.segs
    apply wp_bind
    refine wp_moveTo' (i := t.dest - t.len1) (j := t.cursor2) (a := y) (by omega)
      (by rw [show t.cursor2 = b by omega]; exact seg_one.1 hg.src2)
      (hg.gap _ (by simp; omega) (by simp; omega)) ?_
    intro s2 hc2 h2 _ _
    refine hQ _ (S1.trans (HiStep.one2 (xs := []) (ys := []) (c := t.cursor2) (r := t.dest - t.len1) (by simp; omega)
      (by simp; omega) hg (by simp) hc2 h2))
  · rw [if_neg (by omega)]
    have : xs = [] := List.length_eq_zero_iff.1 e2
    subst this
    simp only [List.length_nil] at dis l1 c1 cd
    apply wp_bind
    refine wp_mono (moveRange_seg (s0 := s0) ys b _ (t.dest - (t.len2 - 1)) s (by omega)
      (by omega) h.segs.src2 ?_ h.segs.env) ?_
    · intro i h1 h2
      exact h.segs.gap i (by simp; omega) (by simp; omega)
    rintro _ s1 ⟨-, k1, k2, k3, k4, -⟩
    have hm : mergeL lt [] ([] ++ ys) = mergeL lt [] [] ++ ys := by simp
    refine hQ _ (HiStep.of2 (ws := ys) (ys := []) h.segs hm ?_ ?_ ?_ k4)
    · simp only [List.length_nil]
      rw [show a + (0 + 0) = t.dest - (t.len2 - 1) by omega]
      exact k1
    · intro i h1 h2
      simp only [List.length_nil] at h1 h2
      left; exact k2 i (by omega) (by omega) (by omega)
    · intro i h1 h2
      simp only [List.length_nil] at h1 h2
      exact k3 i (by omega) (by omega)

theorem mergeHi_seg (hlt : StrictWeak lt) {s0 : St α} {f N base1 len1 base2 len2 : Nat} {b : TimBuf} {xs ys : List α}
    {s : St α} (hN : f + N ≤ s0.brk) (hb : BufOk s0 f N b s) (l1 : len1 = xs.length) (l2 : len2 = ys.length)
    (hb2 : base2 = base1 + len1) (hf1 : f ≤ base1) (hf2 : base2 + len2 ≤ f + N)
    (sx : Seg s.cell base1 xs) (sy : Seg s.cell base2 ys) (ox : SortedList lt xs) (oy : SortedList lt ys)
    (hx : xs ≠ []) (hy : ys ≠ []) (htop : ∀ x ∈ xs.getLast?, ∀ y ∈ ys, lt y x = true)
    (hbot : ∀ y ∈ ys.head?, ∀ x ∈ xs, lt y x = true) :
    wp (mergeHi (tick lt) b base1 len1 base2 len2)
      (fun b' s' => MergedTo s0 f N base1 (len1 + len2) (mergeL lt xs ys) s b' s') s := by
  have px := List.length_pos_iff.2 hx
  have py := List.length_pos_iff.2 hy
  unfold mergeHi
  split
  · rename_i c1
    match xs, (show xs.length = 1 by omega) with
    | [x], _ =>
    simp only [List.length_cons, List.length_nil] at l1
    apply wp_bind
    refine wp_mono (rotateLeft_seg (x := x) (xs := ys) (by omega)
      (seg_cons.2 ⟨seg_one.1 sx, by rw [show base1 + 1 = base2 by omega]; exact sy⟩)) ?_
    intro _ s' hs'
    refine wp_pure (MergedTo.of_seg hb hN hf1 (by omega) ?_)
    have hm : mergeL lt [x] ys = ys ++ [x] :=
      mergeL_after fun a ha y hy => by simp at ha; subst ha; exact htop a (by simp) y hy
    rw [hm, show len1 + len2 = ys.length + 1 by omega]
    exact hs'
  · split
    · rename_i c1 c2
      match ys, (show ys.length = 1 by omega) with
      | [y], _ =>
      simp only [List.length_cons, List.length_nil] at l2
      apply wp_bind
      refine wp_mono (rotateRight_seg (x := y) (xs := xs) (by omega)
        (seg_snoc.2 ⟨sx, by rw [← l1, ← hb2]; exact seg_one.1 sy⟩)) ?_
      intro _ s' hs'
      refine wp_pure (MergedTo.of_seg hb hN hf1 (by omega) ?_)
      have hm : mergeL lt xs [y] = y :: xs := by
        rw [mergeL_head fun a ha => hbot y (by simp) a ha, mergeL_nil_right]
      rw [hm, show len1 + len2 = xs.length + 1 by omega]
      exact hs'
    · rename_i c1 c2
      apply wp_bind
      refine wp_mono (resizeBuffer_seg len2 hb (by omega)) ?_
      rintro b1 s1 ⟨B1, B2, B3⟩
      have B4 := B1.ptr
      have B5 := B1.fit
      have b0 := B1.brk
      apply wp_bind
      refine wp_mono (uninitMove_seg (s0 := s1) ys base2 _ b1.ptr s1 (by omega)
        (sy.congr fun i h1 h2 => B3 i (by omega)) (fun i h1 h2 => B1.raw i h1 (by omega)) rfl) ?_
      rintro _ s2 ⟨-, k1, k2, k3, k4⟩
      have sx2 : Seg s2.cell base1 xs := sx.congr fun i h1 h2 => by
        rw [k3 i (by omega) (by omega), B3 i (by omega)]
      obtain ⟨xs, x, rfl⟩ := exists_snoc hx
      simp only [List.length_append, List.length_cons, List.length_nil] at l1
      obtain ⟨sx2a, sx2b⟩ := seg_snoc.1 sx2
      apply wp_bind
      refine wp_moveTo' (i := base2 + (len2 - 1)) (j := base1 + len1 - 1) (a := x) (by omega)
        (by rw [show base1 + len1 - 1 = base1 + xs.length by omega]; exact sx2b)
        (.inl (k2 _ (by omega) (by omega))) ?_
      intro s3 hc3 he3 _ _
      have I : HiInv lt s1 base1 b1.ptr
          { cursor1 := base1 + len1 - 1, len1 := len1 - 1, cursor2 := b1.ptr + (len2 - 1), len2 := len2,
            dest := base2 + (len2 - 1) - 1 } xs ys s3 := by
        refine ⟨⟨?_, ?_, ?_, ?_, by rw [he3, k4]⟩, by simp; omega, by simp; omega, by simp; omega, by simp; omega, l2,
          (List.pairwise_append.1 ox).1, oy, ?_⟩
        · right; omega
        · rw [hc3]; exact (sx2a.out (by omega)).out (by omega)
        · rw [hc3]; exact (k1.out (by omega)).out (by omega)
        · intro i h1 h2
          rw [hc3]
          by_cases e : i = base1 + len1 - 1
          · exact (Live.moved e).out (by omega)
          · exact (Live.out (.inl (k2 i (by omega) (by omega))) e).out (by omega)
        · intro y hy z hz
          exact hbot y hy z (by simp [hz])
      apply wp_bind
      refine wp_mono (hiOuter_seg hlt _ b1.minGallop _ xs ys s3 rfl (by omega) (by omega) I) ?_
      rintro ⟨t, mg⟩ s4 ⟨xs', ys', m1, m2⟩
      dsimp only at m1 ⊢
      refine hiFinish_seg (rest := do destroyN b1.ptr len2; pure { b1 with minGallop := min mg 1 }) m1.2 m2 ?_
      intro s5 L
      have L := m1.1.trans L
      obtain ⟨zs, z1, z3⟩ := L.out
      rw [mergeL_nil_right, List.nil_append] at z1
      have L' := L.rest
      have Lb := L.buf
      simp only [List.length_nil, Nat.add_zero] at z3 Lb
      apply wp_bind
      refine wp_mono (destroyN_spec len2 b1.ptr s5 fun i h1 h2 => Lb i h1 (by omega)) ?_
      rintro _ s6 ⟨d1, d2, d3, -, -⟩
      have e6 : s6.brk = s1.brk := by
        rw [St.env_brk d3, St.env_brk L.segs.env]
      have h35 : ∀ i, (i < b1.ptr ∨ b1.ptr + len2 ≤ i) → (i < base1 ∨ base1 + (len1 + len2) ≤ i) → s6.cell i = s1.cell i := by
        intro i h1 h2
        rw [d2 i h1, L' i (by omega) (by omega), hc3, sc_ne (by omega), sc_ne (by omega), k3 i (by omega) (by omega)]
      refine wp_pure ⟨⟨by omega, B4, by rw [e6]; exact B5, ?_, ?_, ?_⟩, ?_, ?_⟩
      · intro i h1 h2
        dsimp only at h1 h2
        by_cases c : i < b1.ptr + len2
        · exact d1 i h1 c
        · rw [h35 i (by omega) (by omega)]; exact B1.raw i h1 h2
      · intro i h1 h2
        dsimp only at h2
        rw [h35 i (by omega) (by omega)]; exact B1.fresh i h1 h2
      · intro i h1 h2
        rw [h35 i (by omega) (by omega)]; exact B1.rest i h1 h2
      · rw [mergeL_snoc1 fun u hu z hz => by simp at hu; subst hu; exact htop u (by simp) z hz]
        have lz := congrArg List.length z1
        rw [(mergeL_perm _ _).length_eq, List.length_append] at lz
        refine seg_snoc.2 ⟨?_, ?_⟩
        · rw [z1]
          exact z3.congr fun i h1 h2 => d2 i (by omega)
        · rw [(mergeL_perm _ _).length_eq, List.length_append]
          rw [d2 _ (by omega), L' _ (by omega) (by omega), hc3, sc_eq (by omega)]
      · intro i h1 h2
        rw [h35 i (by omega) (by omega), B3 i h1]

end CppSort
