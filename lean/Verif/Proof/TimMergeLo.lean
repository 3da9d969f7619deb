import Verif.Proof.TimLo
/-
The merge buffer of timsort.h, and `mergeLo` as a whole.
-/
set_option autoImplicit false

namespace CppSort
variable {α : Type} {lt : α → α → Bool}

/-- The sort of `[f, f+N)` started in state `s0`; apart from that range only the merge buffer differs. -/
structure BufOk (s0 : St α) (f N : Nat) (b : TimBuf) (s : St α) : Prop where
  brk : s0.brk ≤ s.brk
  ptr : 0 < b.size → s0.brk ≤ b.ptr
  fit : 0 < b.size → b.ptr + b.size ≤ s.brk
  raw : ∀ i, b.ptr ≤ i → i < b.ptr + b.size → s.cell i = .raw
  fresh : ∀ i, s0.brk ≤ i → (i < b.ptr ∨ b.ptr + b.size ≤ i) → s.cell i = .unalloc
  rest : ∀ i, i < s0.brk → (i < f ∨ f + N ≤ i) → s.cell i = s0.cell i

theorem BufOk.wf {s0 : St α} {f N : Nat} {b : TimBuf} {s : St α} (h : BufOk s0 f N b s) : s.WF := by
  intro i hi
  have h1 := h.brk
  have h2 := h.fit
  have h3 := h.ptr
  exact h.fresh i (by omega) (by omega)

theorem BufOk.cmps {s0 : St α} {f N k : Nat} {b : TimBuf} {s : St α} (h : BufOk s0 f N b s) :
    BufOk s0 f N b { s with cmps := k } := ⟨h.1, h.2, h.3, h.4, h.5, h.6⟩

theorem BufOk.gallop {s0 : St α} {f N : Nat} {b : TimBuf} {s : St α} {m : Int} (h : BufOk s0 f N b s) :
    BufOk s0 f N { b with minGallop := m } s := ⟨h.1, h.2, h.3, h.4, h.5, h.6⟩

/-- A change of a part of the range. -/
theorem BufOk.of_rest {s0 : St α} {f N a n : Nat} {b : TimBuf} {s s' : St α} (h : BufOk s0 f N b s)
    (hb : f + N ≤ s0.brk) (h1 : f ≤ a) (h2 : a + n ≤ f + N) (hr : ∀ i, i < a ∨ a + n ≤ i → s'.cell i = s.cell i)
    (he : s'.env = s.env) : BufOk s0 f N b s' := by
  have e := St.env_brk he
  have b1 := h.brk
  refine ⟨by rw [e]; exact b1, h.ptr, by rw [e]; exact h.fit, ?_, ?_, ?_⟩
  · intro i k1 k2
    rw [hr i (by have := h.ptr; omega)]; exact h.raw i k1 k2
  · intro i k1 k2
    rw [hr i (by omega)]; exact h.fresh i k1 k2
  · intro i k1 k2
    rw [hr i (by omega)]; exact h.rest i k1 k2

theorem resizeBuffer_seg {s0 : St α} {f N : Nat} {b : TimBuf} {s : St α} (n : Nat) (h : BufOk s0 f N b s) (hn : 0 < n) :
    wp (resizeBuffer b n) (fun b' s' => BufOk s0 f N b' s' ∧ n ≤ b'.size ∧ ∀ i, i < s0.brk → s'.cell i = s.cell i) s := by
  have h1 := h.brk
  have h2 := h.fit
  have h3 := h.ptr
  unfold resizeBuffer
  split
  · apply wp_bind
    refine wp_free h.raw ?_
    intro s1 k1 k2 k3 _ _
    have e1 := St.env_brk k3
    apply wp_bind
    refine wp_alloc ?_
    intro s2 m1 m2 m3 _ _ _
    have hlow : ∀ i, i < s0.brk → s2.cell i = s.cell i := by
      intro i hi
      rw [m2 i (by omega), k2 i (by omega)]
    have hun : ∀ i, s0.brk ≤ i → s1.cell i = .unalloc := by
      intro i hi
      by_cases c : b.ptr ≤ i ∧ i < b.ptr + b.size
      · exact k1 i c.1 c.2
      · rw [k2 i (by omega)]; exact h.fresh i hi (by omega)
    refine wp_pure ⟨⟨by omega, ?_, ?_, m1, ?_, ?_⟩, Nat.le_refl _, hlow⟩
    · intro _; show s0.brk ≤ s1.brk; omega
    · intro _; show s1.brk + n ≤ s2.brk; omega
    · intro i k1 k2
      rw [m2 i k2]; exact hun i k1
    · intro i k1 k2
      rw [hlow i k1]; exact h.rest i k1 k2
  · exact wp_pure ⟨h, by omega, fun _ _ => rfl⟩

/-- The range `[a, a+n)` now holds `zs`, the rest of the sorted range is the same. -/
structure MergedTo (s0 : St α) (f N a n : Nat) (zs : List α) (s : St α) (b' : TimBuf) (s' : St α) : Prop where
  buf : BufOk s0 f N b' s'
  out : Seg s'.cell a zs
  keep : ∀ i, i < s0.brk → (i < a ∨ a + n ≤ i) → s'.cell i = s.cell i

theorem MergedTo.of_seg {s0 : St α} {f N a n : Nat} {zs : List α} {s s' : St α} {b : TimBuf} (h : BufOk s0 f N b s)
    (hb : f + N ≤ s0.brk) (h1 : f ≤ a) (h2 : a + n ≤ f + N) (hs : SegTo a n zs s s') : MergedTo s0 f N a n zs s b s' :=
  ⟨h.of_rest hb h1 h2 hs.rest hs.env, hs.out, fun i _ hi => hs.rest i hi⟩

/-- The moves after the loop of `mergeLo`. -/
theorem loFinish_seg {s0 : St α} {t : TimCur} {xs ys : List α} {s : St α} (h : LoInv lt s0 t xs ys s) (he : LoEnd xs ys)
    {β : Type} {Q : β → St α → Prop} {rest : M α β}
    (hQ : ∀ a' r' b' s', LoStep lt s0 t.cursor1 t.dest t.cursor2 xs ys s a' r' b' [] [] s' → wp rest Q s') :
    wp (if t.len1 = 1 then do
      let _ ← moveRange id id t.cursor2 (t.cursor2 + t.len2) t.dest
      moveTo (t.dest + t.len2) t.cursor1
      rest
    else do
      let _ ← moveRange id id t.cursor1 (t.cursor1 + t.len1) t.dest
      rest) Q s := by
  have bal := h.segs.bal
  have dis := h.segs.dis
  have l1 := h.l1
  have l2 := h.l2
  rcases he with ⟨e1, e2⟩ | ⟨e1, e2⟩
  · rw [if_pos (by omega)]
    match xs, e1 with
    | [x], _ =>
    simp only [List.length_cons, List.length_nil] at bal dis l1
    apply wp_bind
    refine wp_mono (moveRange_seg (s0 := s0) ys t.cursor2 _ t.dest s (by omega)
      (by omega) h.segs.src2 ?_ h.segs.env) ?_
    · intro i h1 h2
      by_cases c : i < t.cursor2
      · exact h.segs.gap i (by omega) c
      · exact h.segs.src2.live (by omega) (by omega)
    rintro _ s1 ⟨-, k1, k2, k3, k4, -⟩
    have hm : mergeL lt [x] (ys ++ []) = ys ++ mergeL lt [x] [] := by
      rw [List.append_nil, mergeL_nil_right]
      exact mergeL_after fun a ha y hy => by simp at ha; subst ha; exact h.top a (by simp) y hy
    have S1 : LoStep lt s0 t.cursor1 t.dest t.cursor2 [x] ys s t.cursor1 (t.dest + ys.length) (t.cursor2 + ys.length)
        [x] [] s1 := by
      have := LoStep.of2 (ws := ys) (ys := []) (s' := s1) (by rw [List.append_nil]; exact h.segs) hm k1 ?_ ?_ k4
      · rwa [List.append_nil] at this
      · intro i h1 h2 h3; left; exact k2 i h1 h2 (by omega)
      · intro i h1 h2; exact k3 i h1 (by omega)
    have hg := S1.segs
    apply wp_bind
    rw [l2]
    refine wp_moveTo' (i := t.dest + ys.length) (j := t.cursor1) (by omega) (seg_one.1 hg.src1)
      (hg.gap _ (by omega) (by omega)) ?_
    intro s2 hc2 h2 _ _
    exact hQ _ _ _ _ (S1.trans (LoStep.one1 hg (by simp) hc2 h2) h.segs.bal)
  · rw [if_neg (by omega)]
    have : ys = [] := List.length_eq_zero_iff.1 e2
    subst this
    simp only [List.length_nil] at dis
    apply wp_bind
    refine wp_mono (moveRange_seg (s0 := s0) xs t.cursor1 _ t.dest s (by omega)
      (by omega) h.segs.src1 ?_ h.segs.env) ?_
    · intro i h1 h2
      exact h.segs.gap i (by omega) (by omega)
    rintro _ s1 ⟨-, k1, k2, k3, k4, -⟩
    have hm : mergeL lt (xs ++ []) [] = xs ++ mergeL lt [] [] := by simp
    have S1 := LoStep.of1 (us := xs) (xs := []) (s' := s1) (by rw [List.append_nil]; exact h.segs) hm k1
      (fun i h1 h2 => .inl (k2 i h1 h2 (by omega))) (fun i h1 h2 => k3 i h1 (by omega)) k4
    rw [List.append_nil] at S1
    exact hQ _ _ _ _ S1

theorem mergeLo_seg (hlt : StrictWeak lt) {s0 : St α} {f N base1 len1 base2 len2 : Nat} {b : TimBuf} {xs ys : List α}
    {s : St α} (hN : f + N ≤ s0.brk) (hb : BufOk s0 f N b s) (l1 : len1 = xs.length) (l2 : len2 = ys.length)
    (hb2 : base2 = base1 + len1) (hf1 : f ≤ base1) (hf2 : base2 + len2 ≤ f + N)
    (sx : Seg s.cell base1 xs) (sy : Seg s.cell base2 ys) (ox : SortedList lt xs) (oy : SortedList lt ys)
    (hx : xs ≠ []) (hy : ys ≠ []) (htop : ∀ x ∈ xs.getLast?, ∀ y ∈ ys, lt y x = true)
    (hbot : ∀ y ∈ ys.head?, ∀ x ∈ xs, lt y x = true) :
    wp (mergeLo (tick lt) b base1 len1 base2 len2)
      (fun b' s' => MergedTo s0 f N base1 (len1 + len2) (mergeL lt xs ys) s b' s') s := by
  have px := List.length_pos_iff.2 hx
  have py := List.length_pos_iff.2 hy
  unfold mergeLo
  split
  · rename_i c1
    match xs, (show xs.length = 1 by omega) with
    | [x], _ =>
    simp only [List.length_cons, List.length_nil] at l1
    apply wp_bind
    refine wp_mono (rotateLeft_seg (x := x) (xs := ys) (by omega)
      (seg_cons.2 ⟨seg_one.1 sx, by rw [show base1 + 1 = base2 by omega]; exact sy⟩)) ?_
    intro _ s' hs'
    refine wp_pure (MergedTo.of_seg hb hN hf1 (by omega) ?_)
    have hm : mergeL lt [x] ys = ys ++ [x] :=
      mergeL_after fun a ha y hy => by simp at ha; subst ha; exact htop a (by simp) y hy
    rw [hm, show len1 + len2 = ys.length + 1 by omega]
    exact hs'
  · split
    · rename_i c1 c2
      match ys, (show ys.length = 1 by omega) with
      | [y], _ =>
      simp only [List.length_cons, List.length_nil] at l2
      apply wp_bind
      refine wp_mono (rotateRight_seg (x := y) (xs := xs) (by omega)
        (seg_snoc.2 ⟨sx, by rw [← l1, ← hb2]; exact seg_one.1 sy⟩)) ?_
      intro _ s' hs'
      refine wp_pure (MergedTo.of_seg hb hN hf1 (by omega) ?_)
      have hm : mergeL lt xs [y] = y :: xs := by
        rw [mergeL_head fun a ha => hbot y (by simp) a ha, mergeL_nil_right]
      rw [hm, show len1 + len2 = xs.length + 1 by omega]
      exact hs'
    · rename_i c1 c2
      apply wp_bind
      refine wp_mono (resizeBuffer_seg len1 hb (by omega)) ?_
      rintro b1 s1 ⟨B1, B2, B3⟩
      have B4 := B1.ptr
      have B5 := B1.fit
      have b0 := B1.brk
      apply wp_bind
      refine wp_mono (uninitMove_seg (s0 := s1) xs base1 _ b1.ptr s1 (by omega)
        (sx.congr fun i h1 h2 => B3 i (by omega)) (fun i h1 h2 => B1.raw i h1 (by omega)) rfl) ?_
      rintro _ s2 ⟨-, k1, k2, k3, k4⟩
      have sy2 : Seg s2.cell base2 ys := sy.congr fun i h1 h2 => by
        rw [k3 i (by omega) (by omega), B3 i (by omega)]
      match ys, (show 1 < ys.length by omega) with
      | y :: ys, py1 =>
      simp only [List.length_cons] at l2 py1
      obtain ⟨sy2a, sy2b⟩ := seg_cons.1 sy2
      apply wp_bind
      refine wp_moveTo' (i := base1) (j := base2) (by omega) sy2a (.inl (k2 base1 (by omega) (by omega))) ?_
      intro s3 hc3 he3 _ _
      have I : LoInv lt s1
          { cursor1 := b1.ptr, len1 := len1, cursor2 := base2 + 1, len2 := len2 - 1, dest := base1 + 1 } xs ys s3 := by
        refine ⟨⟨?_, ?_, ?_, ?_, ?_, by rw [he3, k4]⟩, l1, by simp; omega, ox, (List.pairwise_cons.1 oy).2, ?_⟩
        · show base1 + 1 + xs.length = base2 + 1; omega
        · right; show base2 + 1 + ys.length ≤ b1.ptr; omega
        · rw [hc3]; exact (k1.out (by omega)).out (by omega)
        · rw [hc3]; exact (sy2b.out (by omega)).out (by omega)
        · intro i h1 h2
          have h1 : base1 + 1 ≤ i := h1
          have h2 : i < base2 + 1 := h2
          rw [hc3]
          by_cases e : i = base2
          · exact (Live.moved e).out (by omega)
          · exact (Live.out (.inl (k2 i (by omega) (by omega))) e).out (by omega)
        · intro x hx z hz
          exact htop x hx z (by simp [hz])
      apply wp_bind
      refine wp_mono (loOuter_seg hlt _ b1.minGallop _ xs ys s3 rfl (by omega) (by omega) I) ?_
      rintro ⟨t, mg⟩ s4 ⟨xs', ys', m1, m2⟩
      dsimp only at m1 ⊢
      refine loFinish_seg (rest := do destroyN b1.ptr len1; pure { b1 with minGallop := min mg 1 }) m1.2 m2 ?_
      intro a' r' b' s5 L
      have L := m1.1.trans L I.segs.bal
      dsimp only at L
      obtain ⟨zs, z1, z2, z3⟩ := L.out
      obtain ⟨us, u1, u2⟩ := L.suf1
      rw [List.append_nil] at u1
      subst u1
      rw [mergeL_nil_right, List.append_nil] at z1
      have L' := L.rest
      apply wp_bind
      refine wp_mono (destroyN_spec len1 b1.ptr s5 fun i h1 h2 => L.buf i h1 (by omega)) ?_
      rintro _ s6 ⟨d1, d2, d3, -, -⟩
      have e6 : s6.brk = s1.brk := by
        rw [St.env_brk d3, St.env_brk L.segs.env]
      have h35 : ∀ i, (i < b1.ptr ∨ b1.ptr + len1 ≤ i) → (i < base1 ∨ base1 + (len1 + (ys.length + 1)) ≤ i) → s6.cell i = s1.cell i := by
        intro i h1 h2
        rw [d2 i h1, L' i (by omega) (by omega), hc3, sc_ne (by omega), sc_ne (by omega), k3 i (by omega) (by omega)]
      refine wp_pure ⟨⟨by omega, B4, by rw [e6]; exact B5, ?_, ?_, ?_⟩, ?_, ?_⟩
      · intro i h1 h2
        dsimp only at h1 h2
        by_cases c : i < b1.ptr + len1
        · exact d1 i h1 c
        · rw [h35 i (by omega) (by omega)]; exact B1.raw i h1 h2
      · intro i h1 h2
        dsimp only at h2
        rw [h35 i (by omega) (by omega)]; exact B1.fresh i h1 h2
      · intro i h1 h2
        rw [h35 i (by omega) (by omega)]; exact B1.rest i h1 h2
      · rw [mergeL_head fun a ha => hbot y (by simp) a ha]
        refine seg_cons.2 ⟨?_, ?_⟩
        · rw [d2 _ (by omega), L' _ (by omega) (by omega), hc3, sc_eq rfl]
        · have lz := congrArg List.length z1
          rw [(mergeL_perm _ _).length_eq, List.length_append] at lz
          rw [z1]
          exact z3.congr fun i h1 h2 => d2 i (by omega)
      · intro i h1 h2
        rw [h35 i (by omega) (by omega), B3 i h1]

end CppSort
