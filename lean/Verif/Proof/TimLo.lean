import Verif.Proof.Gallop
/-
`mergeLo` of timsort.h.
-/
set_option autoImplicit false

namespace CppSort
variable {α : Type} {lt : α → α → Bool}

/-- Part of the merge has been done: `xs`, `ys` at `a`, `b` have become `xs'`, `ys'` at `a'`, `b'`. -/
structure LoStep (lt : α → α → Bool) (s0 : St α) (a r b : Nat) (xs ys : List α) (s : St α) (a' r' b' : Nat)
    (xs' ys' : List α) (s' : St α) : Prop where
  segs : HalfSegs s0 a' r' b' xs' ys' s'
  dis : a + xs.length ≤ r ∨ b + ys.length ≤ a
  out : ∃ zs, mergeL lt xs ys = zs ++ mergeL lt xs' ys' ∧ r' = r + zs.length ∧ Seg s'.cell r zs
  suf1 : ∃ us, xs = us ++ xs' ∧ a' = a + us.length
  suf2 : ∃ us, ys = us ++ ys' ∧ b' = b + us.length
  buf : ∀ i, a ≤ i → i < a' → Live s'.cell i
  rest : ∀ i, (i < a ∨ a + xs.length ≤ i) → (i < r ∨ b + ys.length ≤ i) → s'.cell i = s.cell i

theorem LoStep.refl {s0 : St α} {a r b : Nat} {xs ys : List α} {s : St α} (h : HalfSegs s0 a r b xs ys s) :
    LoStep lt s0 a r b xs ys s a r b xs ys s :=
  ⟨h, h.dis, ⟨[], rfl, rfl, Seg.nil⟩, ⟨[], rfl, rfl⟩, ⟨[], rfl, rfl⟩, fun i h1 h2 => by omega, fun _ _ _ => rfl⟩

theorem LoStep.cmps {s0 : St α} {a r b k : Nat} {xs ys : List α} {s : St α} {a' r' b' : Nat} {xs' ys' : List α}
    {s' : St α} (h : LoStep lt s0 a r b xs ys { s with cmps := k } a' r' b' xs' ys' s') :
    LoStep lt s0 a r b xs ys s a' r' b' xs' ys' s' :=
  ⟨h.1, h.2, h.3, h.4, h.5, h.6, h.7⟩

theorem HalfSegs.cmps {s0 : St α} {a r b k : Nat} {xs ys : List α} {s : St α} (h : HalfSegs s0 a r b xs ys s) :
    HalfSegs s0 a r b xs ys { s with cmps := k } := ⟨h.1, h.2, h.3, h.4, h.5, h.6⟩

theorem LoStep.trans {s0 : St α} {a r b : Nat} {xs ys : List α} {s : St α} {a1 r1 b1 : Nat} {xs1 ys1 : List α}
    {s1 : St α} {a2 r2 b2 : Nat} {xs2 ys2 : List α} {s2 : St α}
    (h : LoStep lt s0 a r b xs ys s a1 r1 b1 xs1 ys1 s1) (h' : LoStep lt s0 a1 r1 b1 xs1 ys1 s1 a2 r2 b2 xs2 ys2 s2)
    (hbal : r + xs.length = b) :
    LoStep lt s0 a r b xs ys s a2 r2 b2 xs2 ys2 s2 := by
  have d1 := h.dis
  have bal1 := h.segs.bal
  obtain ⟨zs, z1, z2, z3⟩ := h.out
  obtain ⟨us, u1, u2⟩ := h.suf1
  obtain ⟨ws, w1, w2⟩ := h.suf2
  obtain ⟨zs', z1', z2', z3'⟩ := h'.out
  obtain ⟨us', u1', u2'⟩ := h'.suf1
  obtain ⟨ws', w1', w2'⟩ := h'.suf2
  have lu := congrArg List.length u1
  have lw := congrArg List.length w1
  have lu' := congrArg List.length u1'
  have lw' := congrArg List.length w1'
  simp only [List.length_append] at lu lw lu' lw'
  refine ⟨h'.segs, d1, ⟨zs ++ zs', ?_, ?_, seg_append.2 ⟨?_, ?_⟩⟩, ⟨us ++ us', ?_, ?_⟩, ⟨ws ++ ws', ?_, ?_⟩, ?_, ?_⟩
  · rw [z1, z1', List.append_assoc]
  · rw [List.length_append]; omega
  · refine z3.congr fun i h1 h2 => h'.rest i ?_ ?_ <;> omega
  · rw [← z2]; exact z3'
  · rw [u1, u1', List.append_assoc]
  · rw [List.length_append]; omega
  · rw [w1, w1', List.append_assoc]
  · rw [List.length_append]; omega
  · intro i h1 h2
    by_cases c : i < a1
    · have := h.buf i h1 c
      unfold Live
      rw [h'.rest i (by omega) (by omega)]
      exact this
    · exact h'.buf i (by omega) h2
  · intro i h1 h2
    rw [h'.rest i (by omega) (by omega), h.rest i h1 h2]

theorem LoStep.of1 {s0 : St α} {a r b : Nat} {us xs ys : List α} {s s' : St α}
    (h : HalfSegs s0 a r b (us ++ xs) ys s) (hm : mergeL lt (us ++ xs) ys = us ++ mergeL lt xs ys)
    (ho : Seg s'.cell r us) (hb : ∀ i, a ≤ i → i < a + us.length → Live s'.cell i)
    (hr : ∀ i, (i < a ∨ a + us.length ≤ i) → (i < r ∨ r + us.length ≤ i) → s'.cell i = s.cell i)
    (he : s'.env = s0.env) : LoStep lt s0 a r b (us ++ xs) ys s (a + us.length) (r + us.length) b xs ys s' := by
  have bal := h.bal
  have dis := h.dis
  rw [List.length_append] at bal dis
  refine ⟨⟨by omega, by omega, ?_, ?_, ?_, he⟩, by rw [List.length_append]; omega, ⟨us, hm, rfl, ho⟩, ⟨us, rfl, rfl⟩,
    ⟨[], rfl, rfl⟩, hb, ?_⟩
  · exact (seg_append.1 h.src1).2.congr fun i h1 h2 => hr i (by omega) (by omega)
  · exact h.src2.congr fun i h1 h2 => hr i (by omega) (by omega)
  · intro i h1 h2
    unfold Live
    rw [hr i (by omega) (by omega)]
    exact h.gap i (by omega) h2
  · intro i h1 h2
    rw [List.length_append] at h1
    exact hr i (by omega) (by omega)

theorem LoStep.of2 {s0 : St α} {a r b : Nat} {ws xs ys : List α} {s s' : St α}
    (h : HalfSegs s0 a r b xs (ws ++ ys) s) (hm : mergeL lt xs (ws ++ ys) = ws ++ mergeL lt xs ys)
    (ho : Seg s'.cell r ws) (hb : ∀ i, b ≤ i → i < b + ws.length → r + ws.length ≤ i → Live s'.cell i)
    (hr : ∀ i, (i < b ∨ b + ws.length ≤ i) → (i < r ∨ r + ws.length ≤ i) → s'.cell i = s.cell i)
    (he : s'.env = s0.env) : LoStep lt s0 a r b xs (ws ++ ys) s a (r + ws.length) (b + ws.length) xs ys s' := by
  have bal := h.bal
  have dis := h.dis
  rw [List.length_append] at dis
  refine ⟨⟨by omega, by omega, ?_, ?_, ?_, he⟩, by rw [List.length_append]; omega, ⟨ws, hm, rfl, ho⟩, ⟨[], rfl, rfl⟩,
    ⟨ws, rfl, rfl⟩, fun i h1 h2 => by omega, ?_⟩
  · exact h.src1.congr fun i h1 h2 => hr i (by omega) (by omega)
  · exact (seg_append.1 h.src2).2.congr fun i h1 h2 => hr i (by omega) (by omega)
  · intro i h1 h2
    by_cases c : i < b
    · unfold Live
      rw [hr i (by omega) (by omega)]
      exact h.gap i (by omega) c
    · exact hb i (by omega) h2 (by omega)
  · intro i h1 h2
    rw [List.length_append] at h2
    exact hr i (by omega) (by omega)

/-- One element of the first source. -/
theorem LoStep.one1 {s0 : St α} {a r b : Nat} {x : α} {xs ys : List α} {s s' : St α}
    (h : HalfSegs s0 a r b (x :: xs) ys s) (hm : mergeL lt (x :: xs) ys = x :: mergeL lt xs ys)
    (hc : s'.cell = setCell (setCell s.cell a .moved) r (.val x)) (he : s'.env = s.env) :
    LoStep lt s0 a r b (x :: xs) ys s (a + 1) (r + 1) b xs ys s' := by
  have bal := h.bal
  have dis := h.dis
  simp only [List.length_cons] at bal dis
  refine LoStep.of1 (us := [x]) h hm ?_ ?_ ?_ (by rw [he, h.env])
  · rw [seg_one, hc, sc_eq rfl]
  · intro i h1 h2
    simp only [List.length_cons, List.length_nil] at h2
    rw [hc]; exact (Live.moved (by omega)).out (by omega)
  · intro i h1 h2
    simp only [List.length_cons, List.length_nil] at h1 h2
    rw [hc, sc_ne (by omega), sc_ne (by omega)]

/-- One element of the second source. -/
theorem LoStep.one2 {s0 : St α} {a r b : Nat} {y : α} {xs ys : List α} {s s' : St α} (hx : xs ≠ [])
    (h : HalfSegs s0 a r b xs (y :: ys) s) (hm : mergeL lt xs (y :: ys) = y :: mergeL lt xs ys)
    (hc : s'.cell = setCell (setCell s.cell b .moved) r (.val y)) (he : s'.env = s.env) :
    LoStep lt s0 a r b xs (y :: ys) s a (r + 1) (b + 1) xs ys s' := by
  have bal := h.bal
  have := List.length_pos_iff.2 hx
  refine LoStep.of2 (ws := [y]) h hm ?_ ?_ ?_ (by rw [he, h.env])
  · rw [seg_one, hc, sc_eq rfl]
  · intro i h1 h2 h3
    simp only [List.length_cons, List.length_nil] at h2
    rw [hc]; exact (Live.moved (by omega)).out (by omega)
  · intro i h1 h2
    simp only [List.length_cons, List.length_nil] at h1 h2
    rw [hc, sc_ne (by omega), sc_ne (by omega)]

/-- What the loops of `mergeLo` rely on: two sorted sources, the last element of the first comes after all the
second. -/
structure LoInv (lt : α → α → Bool) (s0 : St α) (t : TimCur) (xs ys : List α) (s : St α) : Prop where
  segs : HalfSegs s0 t.cursor1 t.dest t.cursor2 xs ys s
  l1 : t.len1 = xs.length
  l2 : t.len2 = ys.length
  o1 : SortedList lt xs
  o2 : SortedList lt ys
  top : ∀ x ∈ xs.getLast?, ∀ y ∈ ys, lt y x = true

/-- Progress of the loops: from `t`, `xs`, `ys` to `t'`, `xs'`, `ys'`. -/
def LoTo (lt : α → α → Bool) (s0 : St α) (t : TimCur) (xs ys : List α) (s : St α) (t' : TimCur)
    (xs' ys' : List α) (s' : St α) : Prop :=
  LoStep lt s0 t.cursor1 t.dest t.cursor2 xs ys s t'.cursor1 t'.dest t'.cursor2 xs' ys' s' ∧
    LoInv lt s0 t' xs' ys' s'

theorem ite_weaken {b : Bool} {A B C : Prop} (h : if b = true then A else B) (hbc : B → C) :
    if b = true then A else C := by
  cases b
  · exact hbc h
  · exact h

/-- Where the outer loop stops. -/
def LoEnd (xs ys : List α) : Prop := (xs.length = 1 ∧ 0 < ys.length) ∨ (1 < xs.length ∧ ys.length = 0)

theorem LoTo.of {s0 : St α} {t t' : TimCur} {xs ys xs' ys' : List α} {s s' : St α} (h : LoInv lt s0 t xs ys s)
    (hx : xs' ≠ []) (l1 : t'.len1 = xs'.length) (l2 : t'.len2 = ys'.length)
    (hs : LoStep lt s0 t.cursor1 t.dest t.cursor2 xs ys s t'.cursor1 t'.dest t'.cursor2 xs' ys' s') :
    LoTo lt s0 t xs ys s t' xs' ys' s' := by
  obtain ⟨us, e1, -⟩ := hs.suf1
  obtain ⟨ws, e2, -⟩ := hs.suf2
  refine ⟨hs, hs.segs, l1, l2, ?_, ?_, ?_⟩
  · have := h.o1; rw [e1] at this; exact (List.pairwise_append.1 this).2.1
  · have := h.o2; rw [e2] at this; exact (List.pairwise_append.1 this).2.1
  · intro x h1 y h2
    refine h.top x ?_ y (by rw [e2]; exact List.mem_append_right _ h2)
    rw [e1, List.getLast?_append_of_ne_nil _ hx]; exact h1

theorem LoTo.trans {s0 : St α} {t t1 t2 : TimCur} {xs ys xs1 ys1 xs2 ys2 : List α} {s s1 s2 : St α}
    (hi : LoInv lt s0 t xs ys s)
    (h : LoTo lt s0 t xs ys s t1 xs1 ys1 s1) (h' : LoTo lt s0 t1 xs1 ys1 s1 t2 xs2 ys2 s2) :
    LoTo lt s0 t xs ys s t2 xs2 ys2 s2 :=
  ⟨h.1.trans h'.1 hi.segs.bal, h'.2⟩

theorem LoInv.cmps {s0 : St α} {t : TimCur} {xs ys : List α} {s : St α} {k : Nat} (h : LoInv lt s0 t xs ys s) :
    LoInv lt s0 t xs ys { s with cmps := k } := ⟨h.1.cmps, h.2, h.3, h.4, h.5, h.6⟩

theorem LoTo.refl {s0 : St α} {t : TimCur} {xs ys : List α} {s : St α} (h : LoInv lt s0 t xs ys s) :
    LoTo lt s0 t xs ys s t xs ys s := ⟨.refl h.segs, h⟩

theorem LoTo.cmps {s0 : St α} {t t' : TimCur} {xs ys xs' ys' : List α} {s s' : St α} {k : Nat}
    (h : LoTo lt s0 t xs ys { s with cmps := k } t' xs' ys' s') : LoTo lt s0 t xs ys s t' xs' ys' s' :=
  ⟨h.1.cmps, h.2⟩

theorem loHot_seg {s0 : St α} {minGallop : Int} (n : Nat) : ∀ (count1 count2 : Nat) (t : TimCur) (xs ys : List α) (s : St α),
    xs.length + ys.length = n → 1 < xs.length → 0 < ys.length → LoInv lt s0 t xs ys s →
    wp (loHot (tick lt) minGallop count1 count2 t) (fun p s' => ∃ xs' ys', LoTo lt s0 t xs ys s p.1 xs' ys' s' ∧
      (if p.2 then LoEnd xs' ys' else 1 < xs'.length ∧ 0 < ys'.length ∧ xs'.length + ys'.length < n)) s := by
  induction n with
  | zero => intro count1 count2 t xs ys s hn h1; omega
  | succ n ih =>
    intro count1 count2 t xs ys s hn hx hy h
    match xs, ys with
    | x :: xs, y :: ys =>
      simp only [List.length_cons] at hn hx hy
      have hb := h.segs.bal
      have hd := h.segs.dis
      have l1 := h.l1
      have l2 := h.l2
      simp only [List.length_cons] at hb hd l1 l2
      have sx1 := (seg_cons.1 h.segs.src1).1
      have sy1 := (seg_cons.1 h.segs.src2).1
      have h' : LoInv lt s0 t (x :: xs) (y :: ys) { s with cmps := s.cmps + 1 } := h.cmps
      rw [loHot]
      apply wp_bind
      refine wp_read' sy1 ?_
      apply wp_bind
      refine wp_read' sx1 ?_
      apply wp_bind
      refine wp_tick ?_
      split
      · rename_i hc
        apply wp_bind
        refine wp_moveTo' (i := t.dest) (j := t.cursor2) (by omega) sy1 (h.segs.gap t.dest (by omega) (by omega)) ?_
        intro s1 hc1 h1 _ _
        have hI : LoTo lt s0 t (x :: xs) (y :: ys) s
            { t with dest := t.dest + 1, cursor2 := t.cursor2 + 1, len2 := t.len2 - 1 } (x :: xs) ys s1 :=
          LoTo.cmps (LoTo.of h' (by simp) (by simp; omega) (by simp; omega)
            (LoStep.one2 (by simp) h'.segs (by rw [mergeL_cons, if_pos hc]) hc1 h1))
        dsimp only
        split
        · refine wp_pure ⟨x :: xs, ys, hI, ?_⟩
          rw [if_pos rfl]
          exact .inr ⟨by simp; omega, by omega⟩
        · split
          · refine wp_mono (ih _ _ _ (x :: xs) ys s1 (by simp; omega) (by simp; omega) (by omega) hI.2) ?_
            rintro ⟨t', st⟩ s' ⟨xs', ys', k1, k2⟩
            refine ⟨xs', ys', hI.trans h k1, ?_⟩
            exact ite_weaken k2 fun w => ⟨w.1, w.2.1, by omega⟩
          · refine wp_pure ⟨x :: xs, ys, hI, ?_⟩
            rw [if_neg (by simp)]
            exact ⟨by simp; omega, by omega, by simp; omega⟩
      · rename_i hc
        apply wp_bind
        refine wp_moveTo' (i := t.dest) (j := t.cursor1) (by omega) sx1 (h.segs.gap t.dest (by omega) (by omega)) ?_
        intro s1 hc1 h1 _ _
        have hI : LoTo lt s0 t (x :: xs) (y :: ys) s
            { t with dest := t.dest + 1, cursor1 := t.cursor1 + 1, len1 := t.len1 - 1 } xs (y :: ys) s1 :=
          LoTo.cmps (LoTo.of h' (by intro e; subst e; simp at hx) (by simp; omega) (by simp; omega)
            (LoStep.one1 h'.segs (by rw [mergeL_cons, if_neg hc]) hc1 h1))
        dsimp only
        split
        · refine wp_pure ⟨xs, y :: ys, hI, ?_⟩
          rw [if_pos rfl]
          exact .inl ⟨by omega, by simp⟩
        · split
          · refine wp_mono (ih _ _ _ xs (y :: ys) s1 (by simp; omega) (by omega) (by simp) hI.2) ?_
            rintro ⟨t', st⟩ s' ⟨xs', ys', k1, k2⟩
            refine ⟨xs', ys', hI.trans h k1, ?_⟩
            exact ite_weaken k2 fun w => ⟨w.1, w.2.1, by omega⟩
          · refine wp_pure ⟨xs, y :: ys, hI, ?_⟩
            rw [if_neg (by simp)]
            exact ⟨by omega, by simp, by simp; omega⟩

/-- Elements of the second source that come before the whole first one. -/
theorem mergeL_skip {xs ws ys : List α} (h : ∀ w ∈ ws, ∀ x ∈ xs, lt w x = true) :
    mergeL lt xs (ws ++ ys) = ws ++ mergeL lt xs ys := by
  induction ws with
  | nil => rfl
  | cons w ws ih =>
    rw [List.cons_append, mergeL_head fun x hx => h w (by simp) x hx, ih fun w hw => h w (by simp [hw])]
    rfl

theorem loGallop1_seg (hlt : StrictWeak lt) {s0 : St α} {t : TimCur} {xs ys : List α} {s : St α}
    (hx : 1 < xs.length) (hy : 0 < ys.length) (h : LoInv lt s0 t xs ys s) :
    wp (loGallop1 (tick lt) t) (fun p s' => ∃ xs', LoTo lt s0 t xs ys s p.1 xs' ys s' ∧
      (if p.2.2 then LoEnd xs' ys else 1 < xs'.length ∧ (∀ y ∈ ys.head?, ∀ x ∈ xs', lt y x = true)) ∧
      xs'.length ≤ xs.length) s := by
  match ys with
  | y :: ys =>
    have sy1 := (seg_cons.1 h.segs.src2).1
    unfold loGallop1
    apply wp_bind
    refine wp_read' sy1 ?_
    apply wp_bind
    refine wp_mono (gallopRight_seg hlt y h.l1 (by have := h.l1; omega) h.segs.src1 h.o1) ?_
    rintro c _ ⟨us, vs, k, e, rfl, g1, g2, rfl⟩
    have hv : vs ≠ [] := by
      intro e'
      subst e'
      rw [List.append_nil] at e
      have hne : us ≠ [] := by intro e2; rw [e, e2] at hx; simp at hx
      have := h.top (us.getLast hne) (by rw [e]; exact List.getLast_mem_getLast? hne) y (by simp)
      rw [g1 _ (List.getLast_mem hne)] at this; cases this
    have hvp := List.length_pos_iff.2 hv
    have l1 := h.l1
    subst e
    rw [List.length_append] at hx l1
    have bal := h.segs.bal
    have dis := h.segs.dis
    rw [List.length_append] at bal dis
    have hm : mergeL lt (us ++ vs) (y :: ys) = us ++ mergeL lt vs (y :: ys) := mergeL_prefix g1
    split
    · apply wp_bind
      refine wp_mono (moveBackward_seg (s0 := s0) us.length us t.cursor1 _ (t.dest + us.length) { s with cmps := k } rfl rfl
        (by omega) (by omega) (seg_append.1 h.segs.src1).1 ?_ h.segs.env) ?_
      · intro i h1 h2
        exact h.segs.gap i (by omega) (by omega)
      rintro _ s' ⟨-, k1, k2, k3, k4, -⟩
      rw [Nat.add_sub_cancel] at k1
      have hI : LoTo lt s0 t (us ++ vs) (y :: ys) s
          { t with dest := t.dest + us.length, cursor1 := t.cursor1 + us.length, len1 := t.len1 - us.length } vs (y :: ys) s' := by
        refine LoTo.cmps (LoTo.of (h.cmps (k := k)) hv (by simp; omega) h.l2 ?_)
        refine LoStep.of1 h.segs.cmps hm k1 ?_ ?_ k4
        · intro i h1 h2; left; exact k2 i h1 h2 (by omega)
        · intro i h1 h2; exact k3 i h1 (by omega)
      refine wp_pure ⟨vs, hI, ?_, by simp⟩
      dsimp only
      split
      · rename_i hst
        rw [decide_eq_true_eq] at hst
        exact .inl ⟨by omega, by simp⟩
      · rename_i hst
        rw [decide_eq_true_eq] at hst
        refine ⟨by omega, fun z hz x hx' => ?_⟩
        simp at hz; subst hz; exact g2 x hx'
    · rename_i h0
      have : us = [] := List.length_eq_zero_iff.1 (by omega)
      subst this
      refine wp_pure ⟨vs, LoTo.cmps (k := k) (LoTo.refl h.cmps), ?_, by simp⟩
      dsimp only
      rw [if_neg (by simp)]
      refine ⟨by simpa using hx, fun z hz x hx' => ?_⟩
      simp at hz; subst hz; exact g2 x hx'

theorem loGallop2_seg (hlt : StrictWeak lt) {s0 : St α} {t : TimCur} {xs ys : List α} {s : St α}
    (hx : 1 < xs.length) (hy : 0 < ys.length) (h : LoInv lt s0 t xs ys s) :
    wp (loGallop2 (tick lt) t) (fun p s' => ∃ ys', LoTo lt s0 t xs ys s p.1 xs ys' s' ∧
      (if p.2.2 then LoEnd xs ys' else 0 < ys'.length ∧ (∀ x ∈ xs.head?, ∀ y ∈ ys', lt y x = false)) ∧
      ys'.length ≤ ys.length) s := by
  match xs with
  | x :: xs =>
    have sx1 := (seg_cons.1 h.segs.src1).1
    unfold loGallop2
    apply wp_bind
    refine wp_read' sx1 ?_
    apply wp_bind
    refine wp_mono (gallopLeft_seg hlt x h.l2 (by have := h.l2; omega) h.segs.src2 h.o2) ?_
    rintro c _ ⟨us, vs, k, e, rfl, g1, g2, rfl⟩
    have l2 := h.l2
    subst e
    rw [List.length_append] at hy l2
    have bal := h.segs.bal
    have dis := h.segs.dis
    simp only [List.length_append, List.length_cons] at bal dis
    have hm : mergeL lt (x :: xs) (us ++ vs) = us ++ mergeL lt (x :: xs) vs := by
      refine mergeL_skip fun w hw z hz => ?_
      rcases List.mem_cons.1 hz with rfl | hz
      · exact g1 w hw
      · exact hlt.lt_of_lt_of_le (g1 w hw) ((List.pairwise_cons.1 h.o1).1 z hz)
    split
    · apply wp_bind
      refine wp_mono (moveRange_seg (s0 := s0) us t.cursor2 _ t.dest { s with cmps := k } rfl
        (by omega) (seg_append.1 h.segs.src2).1 ?_ h.segs.env) ?_
      · intro i h1 h2
        show Live s.cell i
        by_cases c : i < t.cursor2
        · exact h.segs.gap i (by omega) c
        · exact h.segs.src2.live (by omega) (by rw [List.length_append]; omega)
      rintro _ s' ⟨-, k1, k2, k3, k4, -⟩
      have hI : LoTo lt s0 t (x :: xs) (us ++ vs) s
          { t with dest := t.dest + us.length, cursor2 := t.cursor2 + us.length, len2 := t.len2 - us.length } (x :: xs) vs s' := by
        refine LoTo.cmps (LoTo.of (h.cmps (k := k)) (by simp) h.l1 (by simp; omega) ?_)
        refine LoStep.of2 h.segs.cmps hm k1 ?_ ?_ k4
        · intro i h1 h2 h3; left; exact k2 i h1 h2 (by omega)
        · intro i h1 h2; exact k3 i h1 (by omega)
      refine wp_pure ⟨vs, hI, ?_, by simp⟩
      dsimp only
      split
      · rename_i hst
        rw [decide_eq_true_eq] at hst
        exact .inr ⟨hx, by omega⟩
      · rename_i hst
        rw [decide_eq_true_eq] at hst
        refine ⟨by omega, fun z hz w hw => ?_⟩
        simp at hz; subst hz; exact g2 w hw
    · rename_i h0
      have : us = [] := List.length_eq_zero_iff.1 (by omega)
      subst this
      refine wp_pure ⟨vs, LoTo.cmps (k := k) (LoTo.refl h.cmps), ?_, by simp⟩
      dsimp only
      rw [if_neg (by simp)]
      refine ⟨by simpa using hy, fun z hz w hw => ?_⟩
      simp at hz; subst hz; exact g2 w hw

theorem loGallop_seg (hlt : StrictWeak lt) {s0 : St α} (n : Nat) : ∀ (minGallop : Int) (t : TimCur) (xs ys : List α) (s : St α),
    xs.length + ys.length = n → 1 < xs.length → 0 < ys.length → LoInv lt s0 t xs ys s →
    wp (loGallop (tick lt) minGallop t) (fun p s' => ∃ xs' ys', LoTo lt s0 t xs ys s p.1 xs' ys' s' ∧
      (if p.2.2 then LoEnd xs' ys' else 1 < xs'.length ∧ 0 < ys'.length ∧ xs'.length + ys'.length < n)) s := by
  induction n using Nat.strongRecOn with
  | _ n ih =>
    intro minGallop t xs ys s hn hx hy h
    rw [loGallop]
    apply wp_bind
    refine wp_mono (loGallop1_seg hlt hx hy h) ?_
    rintro ⟨t1, count1, stop1⟩ s1 ⟨xs1, k1, k2, k3⟩
    dsimp only at k1 k2 ⊢
    split
    · rename_i hs
      rw [if_pos hs] at k2
      exact wp_pure ⟨xs1, ys, k1, by rw [if_pos rfl]; exact k2⟩
    rename_i hs
    rw [if_neg hs] at k2
    obtain ⟨k2, k4⟩ := k2
    match ys, hy with
    | y :: ys, _ =>
    have i1 := k1.2
    have bal := i1.segs.bal
    have dis := i1.segs.dis
    have l2 := i1.l2
    simp only [List.length_cons] at bal dis l2 hn
    apply wp_bind
    refine wp_moveTo' (i := t1.dest) (j := t1.cursor2) (by omega) (seg_cons.1 i1.segs.src2).1
      (i1.segs.gap t1.dest (by omega) (by omega)) ?_
    intro s2 hc2 h2 _ _
    have I2 : LoTo lt s0 t xs (y :: ys) s
        { t1 with dest := t1.dest + 1, cursor2 := t1.cursor2 + 1, len2 := t1.len2 - 1 } xs1 ys s2 :=
      k1.trans h (LoTo.of i1 (by intro e; subst e; simp at k2) i1.l1 (by simp; omega)
        (LoStep.one2 (by intro e; subst e; simp at k2) i1.segs (mergeL_head fun a ha => k4 y rfl a ha) hc2 h2))
    split
    · exact wp_pure ⟨xs1, ys, I2, by rw [if_pos rfl]; exact .inr ⟨k2, by omega⟩⟩
    apply wp_bind
    refine wp_mono (loGallop2_seg hlt k2 (by omega) I2.2) ?_
    rintro ⟨t3, count2, stop3⟩ s3 ⟨ys3, m1, m2, m3⟩
    dsimp only at m1 m2 ⊢
    have I3 := I2.trans h m1
    split
    · rename_i hs
      rw [if_pos hs] at m2
      exact wp_pure ⟨xs1, ys3, I3, by rw [if_pos rfl]; exact m2⟩
    rename_i hs
    rw [if_neg hs] at m2
    obtain ⟨m2, m4⟩ := m2
    match xs1, k2 with
    | x :: xs1, k2 =>
    have i3 := I3.2
    have bal := i3.segs.bal
    have dis := i3.segs.dis
    have l1 := i3.l1
    simp only [List.length_cons] at bal dis l1 k2 k3
    apply wp_bind
    refine wp_moveTo' (i := t3.dest) (j := t3.cursor1) (by omega) (seg_cons.1 i3.segs.src1).1
      (i3.segs.gap t3.dest (by omega) (by omega)) ?_
    intro s4 hc4 h4 _ _
    have I4 : LoTo lt s0 t xs (y :: ys) s
        { t3 with dest := t3.dest + 1, cursor1 := t3.cursor1 + 1, len1 := t3.len1 - 1 } xs1 ys3 s4 := by
      refine I3.trans h (LoTo.of i3 (by intro e; subst e; simp at k2) (by simp; omega) i3.l2
        (LoStep.one1 i3.segs ?_ hc4 h4))
      match ys3, m2 with
      | w :: ys3, _ =>
        exact mergeL_prefix (A1 := [x]) (fun a ha => by simp at ha; subst ha; exact m4 a rfl w (by simp))
    split
    · exact wp_pure ⟨xs1, ys3, I4, by rw [if_pos rfl]; exact .inl ⟨by omega, m2⟩⟩
    · split
      · refine wp_mono (ih (xs1.length + ys3.length) (by omega) _ _ xs1 ys3 s4 rfl (by omega) m2 I4.2) ?_
        rintro ⟨t5, mg, stop5⟩ s5 ⟨xs5, ys5, q1, q2⟩
        refine ⟨xs5, ys5, I4.trans h q1, ?_⟩
        exact ite_weaken q2 fun w => ⟨w.1, w.2.1, by omega⟩
      · exact wp_pure ⟨xs1, ys3, I4, by rw [if_neg (by simp)]; exact ⟨by omega, m2, by omega⟩⟩

theorem loOuter_seg (hlt : StrictWeak lt) {s0 : St α} (n : Nat) : ∀ (minGallop : Int) (t : TimCur) (xs ys : List α) (s : St α),
    xs.length + ys.length = n → 1 < xs.length → 0 < ys.length → LoInv lt s0 t xs ys s →
    wp (loOuter (tick lt) minGallop t) (fun p s' => ∃ xs' ys', LoTo lt s0 t xs ys s p.1 xs' ys' s' ∧ LoEnd xs' ys') s := by
  induction n using Nat.strongRecOn with
  | _ n ih =>
    intro minGallop t xs ys s hn hx hy h
    rw [loOuter]
    apply wp_bind
    refine wp_mono (loHot_seg n 0 0 t xs ys s hn hx hy h) ?_
    rintro ⟨t1, stop1⟩ s1 ⟨xs1, ys1, k1, k2⟩
    dsimp only at k1 k2 ⊢
    split
    · rename_i hs
      rw [if_pos hs] at k2
      exact wp_pure ⟨xs1, ys1, k1, k2⟩
    rename_i hs
    rw [if_neg hs] at k2
    apply wp_bind
    refine wp_mono (loGallop_seg hlt _ minGallop t1 xs1 ys1 s1 rfl k2.1 k2.2.1 k1.2) ?_
    rintro ⟨t2, mg, stop2⟩ s2 ⟨xs2, ys2, m1, m2⟩
    dsimp only at m1 m2 ⊢
    have I2 := k1.trans h m1
    split
    · rename_i hs
      rw [if_pos hs] at m2
      exact wp_pure ⟨xs2, ys2, I2, m2⟩
    rename_i hs
    rw [if_neg hs] at m2
    refine wp_mono (ih (xs2.length + ys2.length) (by omega) _ t2 xs2 ys2 s2 rfl m2.1 m2.2.1 I2.2) ?_
    rintro ⟨t3, mg3⟩ s3 ⟨xs3, ys3, q1, q2⟩
    exact ⟨xs3, ys3, I2.trans h q1, q2⟩

end CppSort
