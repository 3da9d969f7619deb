import Verif.Proof.TimLo
/-
`mergeHi` of timsort.h.
-/
set_option autoImplicit false

namespace CppSort
variable {α : Type} {lt : α → α → Bool}

/-- Elements of the first source that come after the whole second one. -/
theorem mergeL_snoc1 {xs us ys : List α} (h : ∀ u ∈ us, ∀ y ∈ ys, lt y u = true) :
    mergeL lt (xs ++ us) ys = mergeL lt xs ys ++ us := by
  fun_induction mergeL lt xs ys with
  | case1 ys => rw [List.nil_append]; exact mergeL_after h
  | case2 xs hx => simp
  | case3 x xs y ys hc ih =>
    rw [List.cons_append, mergeL_cons, if_pos hc, ← List.cons_append, ih fun u hu z hz => h u hu z (by simp [hz])]
    rfl
  | case4 x xs y ys hc ih =>
    rw [List.cons_append, mergeL_cons, if_neg hc, ih h]
    rfl

/-- Elements of the second source that do not come before any of the first one. -/
theorem mergeL_snoc2 {xs ws ys : List α} (h : ∀ w ∈ ws, ∀ x ∈ xs, lt w x = false) :
    mergeL lt xs (ys ++ ws) = mergeL lt xs ys ++ ws := by
  fun_induction mergeL lt xs ys with
  | case1 ys => simp
  | case2 xs hx => rw [List.nil_append]; exact mergeL_before fun x hx w hw => h w hw x hx
  | case3 x xs y ys hc ih =>
    rw [List.cons_append, mergeL_cons, if_pos hc, ih h]
    rfl
  | case4 x xs y ys hc ih =>
    rw [List.cons_append, mergeL_cons, if_neg hc, ← List.cons_append, ih fun w hw z hz => h w hw z (by simp [hz])]
    rfl

/-- What is left of the sources `xs`, in place at `a`, and `ys`, in the buffer at `b`; the output ends just before
the place where the last of them goes. -/
structure HiSegs (s0 : St α) (a b : Nat) (xs ys : List α) (s : St α) : Prop where
  dis : b + ys.length ≤ a ∨ a + (xs.length + ys.length) ≤ b
  src1 : Seg s.cell a xs
  src2 : Seg s.cell b ys
  gap : ∀ i, a + xs.length ≤ i → i < a + (xs.length + ys.length) → Live s.cell i
  env : s.env = s0.env

theorem HiSegs.cmps {s0 : St α} {a b k : Nat} {xs ys : List α} {s : St α} (h : HiSegs s0 a b xs ys s) :
    HiSegs s0 a b xs ys { s with cmps := k } := ⟨h.1, h.2, h.3, h.4, h.5⟩

/-- Part of the merge has been done. -/
structure HiStep (lt : α → α → Bool) (s0 : St α) (a b : Nat) (xs ys : List α) (s : St α)
    (xs' ys' : List α) (s' : St α) : Prop where
  segs : HiSegs s0 a b xs' ys' s'
  dis : b + ys.length ≤ a ∨ a + (xs.length + ys.length) ≤ b
  out : ∃ zs, mergeL lt xs ys = mergeL lt xs' ys' ++ zs ∧ Seg s'.cell (a + (xs'.length + ys'.length)) zs
  pre1 : ∃ us, xs = xs' ++ us
  pre2 : ∃ us, ys = ys' ++ us
  buf : ∀ i, b + ys'.length ≤ i → i < b + ys.length → Live s'.cell i
  rest : ∀ i, (i < b ∨ b + ys.length ≤ i) → (i < a ∨ a + (xs.length + ys.length) ≤ i) → s'.cell i = s.cell i

theorem HiStep.refl {s0 : St α} {a b : Nat} {xs ys : List α} {s : St α} (h : HiSegs s0 a b xs ys s) :
    HiStep lt s0 a b xs ys s xs ys s :=
  ⟨h, h.dis, ⟨[], by simp, Seg.nil⟩, ⟨[], by simp⟩, ⟨[], by simp⟩, fun i h1 h2 => by omega, fun _ _ _ => rfl⟩

theorem HiStep.cmps {s0 : St α} {a b k : Nat} {xs ys : List α} {s : St α} {xs' ys' : List α}
    {s' : St α} (h : HiStep lt s0 a b xs ys { s with cmps := k } xs' ys' s') :
    HiStep lt s0 a b xs ys s xs' ys' s' :=
  ⟨h.1, h.2, h.3, h.4, h.5, h.6, h.7⟩

theorem HiStep.trans {s0 : St α} {a b : Nat} {xs ys : List α} {s : St α} {xs1 ys1 : List α}
    {s1 : St α} {xs2 ys2 : List α} {s2 : St α}
    (h : HiStep lt s0 a b xs ys s xs1 ys1 s1) (h' : HiStep lt s0 a b xs1 ys1 s1 xs2 ys2 s2) :
    HiStep lt s0 a b xs ys s xs2 ys2 s2 := by
  have d1 := h.dis
  obtain ⟨zs, z1, z3⟩ := h.out
  obtain ⟨us, u1⟩ := h.pre1
  obtain ⟨ws, w1⟩ := h.pre2
  obtain ⟨zs', z1', z3'⟩ := h'.out
  obtain ⟨us', u1'⟩ := h'.pre1
  obtain ⟨ws', w1'⟩ := h'.pre2
  have lu := congrArg List.length u1
  have lw := congrArg List.length w1
  have lu' := congrArg List.length u1'
  have lw' := congrArg List.length w1'
  have lz := congrArg List.length z1
  have lz' := congrArg List.length z1'
  simp only [List.length_append, (mergeL_perm _ _).length_eq] at lu lw lu' lw' lz lz'
  refine ⟨h'.segs, d1, ⟨zs' ++ zs, ?_, seg_append.2 ⟨z3', ?_⟩⟩, ⟨us' ++ us, ?_⟩, ⟨ws' ++ ws, ?_⟩, ?_, ?_⟩
  · rw [z1, z1', List.append_assoc]
  · rw [show a + (xs2.length + ys2.length) + zs'.length = a + (xs1.length + ys1.length) by omega]
    refine z3.congr fun i h1 h2 => h'.rest i ?_ ?_ <;> omega
  · rw [u1, u1', List.append_assoc]
  · rw [w1, w1', List.append_assoc]
  · intro i h1 h2
    by_cases c : i < b + ys1.length
    · exact h'.buf i h1 c
    · have := h.buf i (by omega) h2
      unfold Live
      rw [h'.rest i (by omega) (by omega)]
      exact this
  · intro i h1 h2
    rw [h'.rest i (by omega) (by omega), h.rest i h1 h2]

theorem HiStep.of1 {s0 : St α} {a b : Nat} {us xs ys : List α} {s s' : St α}
    (h : HiSegs s0 a b (xs ++ us) ys s) (hm : mergeL lt (xs ++ us) ys = mergeL lt xs ys ++ us)
    (ho : Seg s'.cell (a + (xs.length + ys.length)) us)
    (hb : ∀ i, a + xs.length ≤ i → i < a + (xs.length + us.length) → i < a + (xs.length + ys.length) → Live s'.cell i)
    (hr : ∀ i, (i < a + xs.length ∨ a + (xs.length + us.length) ≤ i) →
      (i < a + (xs.length + ys.length) ∨ a + (xs.length + us.length + ys.length) ≤ i) → s'.cell i = s.cell i)
    (he : s'.env = s0.env) : HiStep lt s0 a b (xs ++ us) ys s xs ys s' := by
  have dis := h.dis
  rw [List.length_append] at dis
  refine ⟨⟨by omega, ?_, ?_, ?_, he⟩, by rw [List.length_append]; omega, ⟨us, hm, ho⟩, ⟨us, rfl⟩,
    ⟨[], by simp⟩, fun i h1 h2 => by omega, ?_⟩
  · exact (seg_append.1 h.src1).1.congr fun i h1 h2 => hr i (by omega) (by omega)
  · exact h.src2.congr fun i h1 h2 => hr i (by omega) (by omega)
  · intro i h1 h2
    by_cases c : i < a + (xs.length + us.length)
    · exact hb i h1 c h2
    · unfold Live
      rw [hr i (by omega) (by omega)]
      exact h.gap i (by rw [List.length_append]; omega) (by rw [List.length_append]; omega)
  · intro i h1 h2
    rw [List.length_append] at h2
    exact hr i (by omega) (by omega)

theorem HiStep.of2 {s0 : St α} {a b : Nat} {ws xs ys : List α} {s s' : St α}
    (h : HiSegs s0 a b xs (ys ++ ws) s) (hm : mergeL lt xs (ys ++ ws) = mergeL lt xs ys ++ ws)
    (ho : Seg s'.cell (a + (xs.length + ys.length)) ws)
    (hb : ∀ i, b + ys.length ≤ i → i < b + (ys.length + ws.length) → Live s'.cell i)
    (hr : ∀ i, (i < b + ys.length ∨ b + (ys.length + ws.length) ≤ i) →
      (i < a + (xs.length + ys.length) ∨ a + (xs.length + (ys.length + ws.length)) ≤ i) → s'.cell i = s.cell i)
    (he : s'.env = s0.env) : HiStep lt s0 a b xs (ys ++ ws) s xs ys s' := by
  have dis := h.dis
  rw [List.length_append] at dis
  refine ⟨⟨by omega, ?_, ?_, ?_, he⟩, by rw [List.length_append]; omega, ⟨ws, hm, ho⟩, ⟨[], by simp⟩,
    ⟨ws, rfl⟩, fun i h1 h2 => hb i h1 (by rw [List.length_append] at h2; omega), ?_⟩
  · exact h.src1.congr fun i h1 h2 => hr i (by omega) (by omega)
  · exact (seg_append.1 h.src2).1.congr fun i h1 h2 => hr i (by omega) (by omega)
  · intro i h1 h2
    unfold Live
    rw [hr i (by omega) (by omega)]
    exact h.gap i h1 (by rw [List.length_append]; omega)
  · intro i h1 h2
    rw [List.length_append] at h1 h2
    exact hr i (by omega) (by omega)

/-- One element of the first source. -/
theorem HiStep.one1 {s0 : St α} {a b c r : Nat} {x : α} {xs ys : List α} {s s' : St α} (hy : ys ≠ [])
    (hcc : c = a + xs.length) (hcr : r = a + (xs.length + ys.length))
    (h : HiSegs s0 a b (xs ++ [x]) ys s) (hm : mergeL lt (xs ++ [x]) ys = mergeL lt xs ys ++ [x])
    (hc : s'.cell = setCell (setCell s.cell c .moved) r (.val x)) (he : s'.env = s.env) :
    HiStep lt s0 a b (xs ++ [x]) ys s xs ys s' := by
  have := List.length_pos_iff.2 hy
  refine HiStep.of1 (us := [x]) h hm ?_ ?_ ?_ (by rw [he, h.env])
  · rw [seg_one, hc, sc_eq hcr.symm]
  · intro i h1 h2 h3
    simp only [List.length_cons, List.length_nil] at h2
    rw [hc]; exact (Live.moved (by omega)).out (by omega)
  · intro i h1 h2
    simp only [List.length_cons, List.length_nil] at h1 h2
    rw [hc, sc_ne (by omega), sc_ne (by omega)]

/-- One element of the second source. -/
theorem HiStep.one2 {s0 : St α} {a b c r : Nat} {y : α} {xs ys : List α} {s s' : St α}
    (hcc : c = b + ys.length) (hcr : r = a + (xs.length + ys.length))
    (h : HiSegs s0 a b xs (ys ++ [y]) s) (hm : mergeL lt xs (ys ++ [y]) = mergeL lt xs ys ++ [y])
    (hc : s'.cell = setCell (setCell s.cell c .moved) r (.val y)) (he : s'.env = s.env) :
    HiStep lt s0 a b xs (ys ++ [y]) s xs ys s' := by
  have dis := h.dis
  simp only [List.length_append, List.length_cons, List.length_nil] at dis
  refine HiStep.of2 (ws := [y]) h hm ?_ ?_ ?_ (by rw [he, h.env])
  · rw [seg_one, hc, sc_eq hcr.symm]
  · intro i h1 h2
    simp only [List.length_cons, List.length_nil] at h2
    rw [hc]; exact (Live.moved (by omega)).out (by omega)
  · intro i h1 h2
    simp only [List.length_cons, List.length_nil] at h1 h2
    rw [hc, sc_ne (by omega), sc_ne (by omega)]

/-- What the loops of `mergeHi` rely on: two sorted sources, the first element of the second comes before all the
first. -/
structure HiInv (lt : α → α → Bool) (s0 : St α) (a b : Nat) (t : TimCur) (xs ys : List α) (s : St α) : Prop where
  segs : HiSegs s0 a b xs ys s
  c1 : t.cursor1 = a + xs.length
  c2 : t.cursor2 + 1 = b + ys.length
  cd : t.dest + 1 = a + (xs.length + ys.length)
  l1 : t.len1 = xs.length
  l2 : t.len2 = ys.length
  o1 : SortedList lt xs
  o2 : SortedList lt ys
  bot : ∀ y ∈ ys.head?, ∀ x ∈ xs, lt y x = true

/-- Progress of the loops. -/
def HiTo (lt : α → α → Bool) (s0 : St α) (a b : Nat) (xs ys : List α) (s : St α) (t' : TimCur)
    (xs' ys' : List α) (s' : St α) : Prop :=
  HiStep lt s0 a b xs ys s xs' ys' s' ∧ HiInv lt s0 a b t' xs' ys' s'

/-- Where the outer loop stops. -/
def HiEnd (xs ys : List α) : Prop := (ys.length = 1 ∧ 0 < xs.length) ∨ (1 < ys.length ∧ xs.length = 0)

theorem HiTo.of {s0 : St α} {a b : Nat} {t t' : TimCur} {xs ys xs' ys' : List α} {s s' : St α}
    (h : HiInv lt s0 a b t xs ys s)
    (hy : ys' ≠ []) (c1 : t'.cursor1 = a + xs'.length) (c2 : t'.cursor2 + 1 = b + ys'.length)
    (cd : t'.dest + 1 = a + (xs'.length + ys'.length))
    (l1 : t'.len1 = xs'.length) (l2 : t'.len2 = ys'.length)
    (hs : HiStep lt s0 a b xs ys s xs' ys' s') :
    HiTo lt s0 a b xs ys s t' xs' ys' s' := by
  obtain ⟨us, e1⟩ := hs.pre1
  obtain ⟨ws, e2⟩ := hs.pre2
  refine ⟨hs, hs.segs, c1, c2, cd, l1, l2, ?_, ?_, ?_⟩
  · have := h.o1; rw [e1] at this; exact (List.pairwise_append.1 this).1
  · have := h.o2; rw [e2] at this; exact (List.pairwise_append.1 this).1
  · intro y h1 x h2
    refine h.bot y ?_ x (by rw [e1]; exact List.mem_append_left _ h2)
    rw [e2, List.head?_append_of_ne_nil _ hy]; exact h1

theorem HiTo.trans {s0 : St α} {a b : Nat} {t1 t2 : TimCur} {xs ys xs1 ys1 xs2 ys2 : List α} {s s1 s2 : St α}
    (h : HiTo lt s0 a b xs ys s t1 xs1 ys1 s1) (h' : HiTo lt s0 a b xs1 ys1 s1 t2 xs2 ys2 s2) :
    HiTo lt s0 a b xs ys s t2 xs2 ys2 s2 :=
  ⟨h.1.trans h'.1, h'.2⟩

theorem HiInv.cmps {s0 : St α} {a b : Nat} {t : TimCur} {xs ys : List α} {s : St α} {k : Nat}
    (h : HiInv lt s0 a b t xs ys s) :
    HiInv lt s0 a b t xs ys { s with cmps := k } := ⟨h.1.cmps, h.2, h.3, h.4, h.5, h.6, h.7, h.8, h.9⟩

theorem HiTo.refl {s0 : St α} {a b : Nat} {t : TimCur} {xs ys : List α} {s : St α} (h : HiInv lt s0 a b t xs ys s) :
    HiTo lt s0 a b xs ys s t xs ys s := ⟨.refl h.segs, h⟩

theorem HiTo.cmps {s0 : St α} {a b : Nat} {t' : TimCur} {xs ys xs' ys' : List α} {s s' : St α} {k : Nat}
    (h : HiTo lt s0 a b xs ys { s with cmps := k } t' xs' ys' s') : HiTo lt s0 a b xs ys s t' xs' ys' s' :=
  ⟨h.1.cmps, h.2⟩

theorem sorted_le_last (hlt : StrictWeak lt) {xs : List α} {x : α} (h : SortedList lt (xs ++ [x])) :
    ∀ u ∈ xs ++ [x], lt x u = false := by
  intro u hu
  rcases List.mem_append.1 hu with hu | hu
  · exact (List.pairwise_append.1 h).2.2 u hu x (by simp)
  · simp at hu; subst hu; exact hlt.irrefl _

theorem hiHot_seg (hlt : StrictWeak lt) {s0 : St α} {a b : Nat} {minGallop : Int} (n : Nat) :
    ∀ (count1 count2 : Nat) (t : TimCur) (xs ys : List α) (s : St α),
    xs.length + ys.length = n → 0 < xs.length → 1 < ys.length →
    HiInv lt s0 a b { t with cursor1 := t.cursor1 + 1 } xs ys s →
    wp (hiHot (tick lt) minGallop count1 count2 t) (fun p s' => ∃ xs' ys', HiTo lt s0 a b xs ys s p.1 xs' ys' s' ∧
      (if p.2 then HiEnd xs' ys' else 0 < xs'.length ∧ 1 < ys'.length ∧ xs'.length + ys'.length < n)) s := by
  induction n with
  | zero => intro count1 count2 t xs ys s hn h1; omega
  | succ n ih =>
    intro count1 count2 t xs ys s hn hx hy h
    obtain ⟨xs, x, rfl⟩ := exists_snoc (List.length_pos_iff.1 hx)
    obtain ⟨ys, y, rfl⟩ := exists_snoc (List.length_pos_iff.1 (show 0 < ys.length by omega))
    have hd := h.segs.dis
    have l1 := h.l1
    have l2 := h.l2
    have c1 := h.c1
    have c2 := h.c2
    have cd := h.cd
    simp only [List.length_append, List.length_cons, List.length_nil] at hd l1 l2 c1 c2 cd hn hx hy
    have sx1 := (seg_snoc.1 h.segs.src1).2
    have sy1 := (seg_snoc.1 h.segs.src2).2
    have h' : HiInv lt s0 a b { t with cursor1 := t.cursor1 + 1 } (xs ++ [x]) (ys ++ [y])
      { s with cmps := s.cmps + 1 } := h.cmps
    have hg : Live s.cell t.dest := h.segs.gap t.dest
      (by simp only [List.length_append, List.length_cons, List.length_nil]; omega)
      (by simp only [List.length_append, List.length_cons, List.length_nil]; omega)
    rw [hiHot]
    apply wp_bind
    refine wp_read' (x := y) (by rw [show t.cursor2 = b + ys.length by omega]; exact sy1) ?_
    apply wp_bind
    refine wp_read' (x := x) (by rw [show t.cursor1 = a + xs.length by omega]; exact sx1) ?_
    apply wp_bind
    refine wp_tick ?_
    split
    · rename_i hc
      apply wp_bind
      refine wp_moveTo' (i := t.dest) (j := t.cursor1) (a := x) (by omega)
        (by rw [show t.cursor1 = a + xs.length by omega]; exact sx1) hg ?_
      intro s1 hc1 h1 _ _
      have hI : HiTo lt s0 a b (xs ++ [x]) (ys ++ [y]) s
          { t with dest := t.dest - 1, len1 := t.len1 - 1 } xs (ys ++ [y]) s1 :=
        HiTo.cmps (HiTo.of h' (by simp) (by simp; omega) (by simp; omega) (by simp; omega) (by simp; omega) (by simp; omega)
          (HiStep.one1 (by simp) (by omega) (by simp; omega) h'.segs
            (mergeL_snoc1 fun u hu z hz => by
              simp at hu; subst hu
              exact hlt.lt_of_le_of_lt (sorted_le_last hlt h.o2 z hz) hc) hc1 h1))
      dsimp only
      split
      · refine wp_pure ⟨xs, ys ++ [y], hI, ?_⟩
        rw [if_pos rfl]
        exact .inr ⟨by simp; omega, by omega⟩
      · have hI' : HiInv lt s0 a b { t with cursor1 := t.cursor1 - 1 + 1, dest := t.dest - 1, len1 := t.len1 - 1 }
            xs (ys ++ [y]) s1 := by
          rw [Nat.sub_add_cancel (by omega)]; exact hI.2
        split
        · refine wp_mono (ih _ _ _ xs (ys ++ [y]) s1 (by simp; omega) (by omega) (by simp; omega) hI') ?_
          rintro ⟨t', st⟩ s' ⟨xs', ys', k1, k2⟩
          refine ⟨xs', ys', hI.trans k1, ?_⟩
          exact ite_weaken k2 fun w => ⟨w.1, w.2.1, by omega⟩
        · refine wp_pure ⟨xs, ys ++ [y], ⟨hI.1, hI'⟩, ?_⟩
          rw [if_neg (by simp)]
          exact ⟨by omega, by simp; omega, by simp; omega⟩
    · rename_i hc
      rw [Bool.not_eq_true] at hc
      apply wp_bind
      refine wp_moveTo' (i := t.dest) (j := t.cursor2) (a := y) (by omega)
        (by rw [show t.cursor2 = b + ys.length by omega]; exact sy1) hg ?_
      intro s1 hc1 h1 _ _
      have hI : HiTo lt s0 a b (xs ++ [x]) (ys ++ [y]) s
          { t with cursor1 := t.cursor1 + 1, dest := t.dest - 1, cursor2 := t.cursor2 - 1, len2 := t.len2 - 1 }
          (xs ++ [x]) ys s1 :=
        HiTo.cmps (HiTo.of h' (by intro e; subst e; simp at hy) (by simp; omega) (by simp; omega) (by simp; omega)
          (by simp; omega) (by simp; omega)
          (HiStep.one2 (by omega) (by simp; omega) h'.segs
            (mergeL_snoc2 fun u hu z hz => by
              simp at hu; subst hu
              exact hlt.le_trans (sorted_le_last hlt h.o1 z hz) hc) hc1 h1))
      dsimp only
      split
      · refine wp_pure ⟨xs ++ [x], ys, hI, ?_⟩
        rw [if_pos rfl]
        exact .inl ⟨by omega, by simp⟩
      · split
        · refine wp_mono (ih _ _ _ (xs ++ [x]) ys s1 (by simp; omega) (by simp) (by omega) hI.2) ?_
          rintro ⟨t', st⟩ s' ⟨xs', ys', k1, k2⟩
          refine ⟨xs', ys', hI.trans k1, ?_⟩
          exact ite_weaken k2 fun w => ⟨w.1, w.2.1, by omega⟩
        · refine wp_pure ⟨xs ++ [x], ys, hI, ?_⟩
          rw [if_neg (by simp)]
          exact ⟨by simp, by omega, by simp; omega⟩

theorem hiGallop1_seg (hlt : StrictWeak lt) {s0 : St α} {a b : Nat} {t : TimCur} {xs ys : List α} {s : St α}
    (hx : 0 < xs.length) (hy : 1 < ys.length) (h : HiInv lt s0 a b t xs ys s) :
    wp (hiGallop1 (tick lt) a t) (fun p s' => ∃ xs', HiTo lt s0 a b xs ys s p.1 xs' ys s' ∧
      (if p.2.2 then HiEnd xs' ys else 0 < xs'.length ∧ (∀ y ∈ ys.getLast?, ∀ x ∈ xs', lt y x = false)) ∧
      xs'.length ≤ xs.length) s := by
  obtain ⟨ys, y, rfl⟩ := exists_snoc (List.length_pos_iff.1 (show 0 < ys.length by omega))
  have sy1 := (seg_snoc.1 h.segs.src2).2
  have c2 := h.c2
  have cd := h.cd
  have dis := h.segs.dis
  have c1 := h.c1
  simp only [List.length_append, List.length_cons, List.length_nil] at c2 cd dis hy
  unfold hiGallop1
  apply wp_bind
  refine wp_read' (x := y) (by rw [show t.cursor2 = b + ys.length by omega]; exact sy1) ?_
  apply wp_bind
  refine wp_mono (gallopRight_seg hlt y h.l1 (by have := h.l1; omega) h.segs.src1 h.o1) ?_
  rintro c _ ⟨us, vs, k, e, rfl, g1, g2, rfl⟩
  have l1 := h.l1
  subst e
  rw [List.length_append] at hx l1 cd dis c1
  have hm : mergeL lt (us ++ vs) (ys ++ [y]) = mergeL lt us (ys ++ [y]) ++ vs :=
    mergeL_snoc1 fun u hu z hz => hlt.lt_of_le_of_lt (sorted_le_last hlt h.o2 z hz) (g2 u hu)
  have hcnt : t.len1 - us.length = vs.length := by omega
  rw [hcnt]
  dsimp only
  split
  · apply wp_bind
    refine wp_mono (moveBackward_seg (s0 := s0) vs.length vs (t.cursor1 - vs.length) _ (t.dest - vs.length + (1 + vs.length))
      { s with cmps := k } rfl rfl
      (by omega) (by omega) (by rw [show t.cursor1 - vs.length = a + us.length by omega]; exact (seg_append.1 h.segs.src1).2)
      ?_ h.segs.env) ?_
    · intro i h1 h2
      show Live s.cell i
      by_cases c : i < a + (us.length + vs.length)
      · exact h.segs.src1.live (by omega) (by rw [List.length_append]; omega)
      · exact h.segs.gap i (by rw [List.length_append]; omega)
          (by simp only [List.length_append, List.length_cons, List.length_nil]; omega)
    rintro _ s' ⟨-, k1, k2, k3, k4, -⟩
    have hI : HiTo lt s0 a b (us ++ vs) (ys ++ [y]) s
        { t with dest := t.dest - vs.length, cursor1 := t.cursor1 - vs.length, len1 := t.len1 - vs.length } us (ys ++ [y]) s' := by
      refine HiTo.cmps (HiTo.of (h.cmps (k := k)) (by simp) (by simp; omega) (by simp; omega) (by simp; omega)
        (by simp; omega) h.l2 ?_)
      refine HiStep.of1 h.segs.cmps hm ?_ ?_ ?_ k4
      · simp only [List.length_append, List.length_cons, List.length_nil]
        rw [show a + (us.length + (ys.length + (0 + 1))) = t.dest - vs.length + (1 + vs.length) - vs.length by omega]
        exact k1
      · intro i h1 h2 h3
        simp only [List.length_append, List.length_cons, List.length_nil] at h3
        left; exact k2 i (by omega) (by omega) (by omega)
      · intro i h1 h2
        simp only [List.length_append, List.length_cons, List.length_nil] at h2
        exact k3 i (by omega) (by omega)
    refine wp_pure ⟨us, hI, ?_, by simp⟩
    dsimp only
    split
    · rename_i hst
      rw [decide_eq_true_eq] at hst
      exact .inr ⟨by simp; omega, by omega⟩
    · rename_i hst
      rw [decide_eq_true_eq] at hst
      refine ⟨by omega, fun z hz x hx' => ?_⟩
      simp at hz; subst hz; exact g1 x hx'
  · rename_i h0
    have : vs = [] := List.length_eq_zero_iff.1 (by omega)
    subst this
    rw [List.append_nil] at *
    refine wp_pure ⟨us, HiTo.cmps (k := k) (HiTo.refl h.cmps), ?_, by simp⟩
    dsimp only
    rw [if_neg (by simp)]
    refine ⟨by simpa using hx, fun z hz x hx' => ?_⟩
    simp at hz; subst hz; exact g1 x hx'

theorem hiGallop2_seg (hlt : StrictWeak lt) {s0 : St α} {a b : Nat} {t : TimCur} {xs ys : List α} {s : St α}
    (hx : 0 < xs.length) (hy : 1 < ys.length) (h : HiInv lt s0 a b t xs ys s) :
    wp (hiGallop2 (tick lt) b t) (fun p s' => ∃ ys', HiTo lt s0 a b xs ys s p.1 xs ys' s' ∧
      (if p.2.2 then HiEnd xs ys' else 1 < ys'.length ∧ (∀ x ∈ xs.getLast?, ∀ y ∈ ys', lt y x = true)) ∧
      ys'.length ≤ ys.length) s := by
  obtain ⟨xs, x, rfl⟩ := exists_snoc (List.length_pos_iff.1 hx)
  have sx1 := (seg_snoc.1 h.segs.src1).2
  have c1 := h.c1
  have cd := h.cd
  have dis := h.segs.dis
  have c2 := h.c2
  simp only [List.length_append, List.length_cons, List.length_nil] at c1 cd dis
  unfold hiGallop2
  apply wp_bind
  refine wp_read' (x := x) (by rw [show t.cursor1 - 1 = a + xs.length by omega]; exact sx1) ?_
  apply wp_bind
  refine wp_mono (gallopLeft_seg hlt x h.l2 (by have := h.l2; omega) h.segs.src2 h.o2) ?_
  rintro c _ ⟨us, vs, k, e, rfl, g1, g2, rfl⟩
  have hu : us ≠ [] := by
    intro e'
    subst e'
    rw [List.nil_append] at e
    match ys, hy with
    | y :: ys, _ =>
      have := h.bot y (by simp) x (by simp)
      rw [g2 y (by rw [← e]; simp)] at this; cases this
  have hup := List.length_pos_iff.2 hu
  have l2 := h.l2
  subst e
  rw [List.length_append] at hy l2 cd dis c2
  have hm : mergeL lt (xs ++ [x]) (us ++ vs) = mergeL lt (xs ++ [x]) us ++ vs :=
    mergeL_snoc2 fun w hw z hz => hlt.le_trans (sorted_le_last hlt h.o1 z hz) (g2 w hw)
  have hcnt : t.len2 - us.length = vs.length := by omega
  rw [hcnt]
  dsimp only
  split
  · apply wp_bind
    refine wp_mono (moveRange_seg (s0 := s0) vs (t.cursor2 - vs.length + 1) _ (t.dest - vs.length + 1)
      { s with cmps := k } (by omega)
      (by omega) (by rw [show t.cursor2 - vs.length + 1 = b + us.length by omega]; exact (seg_append.1 h.segs.src2).2)
      ?_ h.segs.env) ?_
    · intro i h1 h2
      refine h.segs.gap i ?_ ?_ <;> simp only [List.length_append, List.length_cons, List.length_nil] <;> omega
    rintro _ s' ⟨-, k1, k2, k3, k4, -⟩
    have hI : HiTo lt s0 a b (xs ++ [x]) (us ++ vs) s
        { t with dest := t.dest - vs.length, cursor2 := t.cursor2 - vs.length, len2 := t.len2 - vs.length } (xs ++ [x]) us s' := by
      refine HiTo.cmps (HiTo.of (h.cmps (k := k)) hu h.c1 (by simp; omega) (by simp; omega)
        h.l1 (by simp; omega) ?_)
      refine HiStep.of2 h.segs.cmps hm ?_ ?_ ?_ k4
      · simp only [List.length_append, List.length_cons, List.length_nil]
        rw [show a + (xs.length + (0 + 1) + us.length) = t.dest - vs.length + 1 by omega]
        exact k1
      · intro i h1 h2
        left; exact k2 i (by omega) (by omega) (by omega)
      · intro i h1 h2
        simp only [List.length_append, List.length_cons, List.length_nil] at h2
        exact k3 i (by omega) (by omega)
    refine wp_pure ⟨us, hI, ?_, by simp⟩
    dsimp only
    split
    · rename_i hst
      rw [decide_eq_true_eq] at hst
      exact .inl ⟨by omega, by simp⟩
    · rename_i hst
      rw [decide_eq_true_eq] at hst
      refine ⟨by omega, fun z hz w hw => ?_⟩
      simp at hz; subst hz; exact g1 w hw
  · rename_i h0
    have : vs = [] := List.length_eq_zero_iff.1 (by omega)
    subst this
    rw [List.append_nil] at *
    refine wp_pure ⟨us, HiTo.cmps (k := k) (HiTo.refl h.cmps), ?_, by simp⟩
    dsimp only
    rw [if_neg (by simp)]
    refine ⟨by simpa using hy, fun z hz w hw => ?_⟩
    simp at hz; subst hz; exact g1 w hw

theorem hiGallop_seg (hlt : StrictWeak lt) {s0 : St α} {a b : Nat} (n : Nat) :
    ∀ (minGallop : Int) (t : TimCur) (xs ys : List α) (s : St α),
    xs.length + ys.length = n → 0 < xs.length → 1 < ys.length → HiInv lt s0 a b t xs ys s →
    wp (hiGallop (tick lt) a b minGallop t) (fun p s' => ∃ xs' ys', HiTo lt s0 a b xs ys s p.1 xs' ys' s' ∧
      (if p.2.2 then HiEnd xs' ys' else 0 < xs'.length ∧ 1 < ys'.length ∧ xs'.length + ys'.length < n)) s := by
  induction n using Nat.strongRecOn with
  | _ n ih =>
    intro minGallop t xs ys s hn hx hy h
    rw [hiGallop]
    apply wp_bind
    refine wp_mono (hiGallop1_seg hlt hx hy h) ?_
    rintro ⟨t1, count1, stop1⟩ s1 ⟨xs1, k1, k2, k3⟩
    dsimp only at k1 k2 ⊢
    split
    · rename_i hs
      rw [if_pos hs] at k2
      exact wp_pure ⟨xs1, ys, k1, by rw [if_pos rfl]; exact k2⟩
    rename_i hs
    rw [if_neg hs] at k2
    obtain ⟨k2, k4⟩ := k2
    obtain ⟨ys, y, rfl⟩ := exists_snoc (List.length_pos_iff.1 (show 0 < ys.length by omega))
    have i1 := k1.2
    have dis := i1.segs.dis
    have l2 := i1.l2
    have c1 := i1.c1
    have c2 := i1.c2
    have cd := i1.cd
    simp only [List.length_append, List.length_cons, List.length_nil] at dis l2 hn hy c2 cd
    apply wp_bind
    refine wp_moveTo' (i := t1.dest) (j := t1.cursor2) (a := y) (by omega)
      (by rw [show t1.cursor2 = b + ys.length by omega]; exact (seg_snoc.1 i1.segs.src2).2)
      (i1.segs.gap t1.dest (by omega) (by simp; omega)) ?_
    intro s2 hc2 h2 _ _
    have I2 : HiTo lt s0 a b xs (ys ++ [y]) s
        { t1 with dest := t1.dest - 1, cursor2 := t1.cursor2 - 1, len2 := t1.len2 - 1 } xs1 ys s2 :=
      k1.trans (HiTo.of i1 (by intro e; subst e; simp at hy) c1 (by simp; omega) (by simp; omega) i1.l1 (by simp; omega)
        (HiStep.one2 (by omega) (by omega) i1.segs (mergeL_snoc2 fun w hw z hz => by
          simp at hw; subst hw; exact k4 w (by simp) z hz) hc2 h2))
    split
    · rename_i hl
      exact wp_pure ⟨xs1, ys, I2, by rw [if_pos rfl]; exact .inl ⟨by omega, k2⟩⟩
    rename_i hl
    apply wp_bind
    refine wp_mono (hiGallop2_seg hlt k2 (by omega) I2.2) ?_
    rintro ⟨t3, count2, stop3⟩ s3 ⟨ys3, m1, m2, m3⟩
    dsimp only at m1 m2 ⊢
    have I3 := I2.trans m1
    split
    · rename_i hs
      rw [if_pos hs] at m2
      exact wp_pure ⟨xs1, ys3, I3, by rw [if_pos rfl]; exact m2⟩
    rename_i hs
    rw [if_neg hs] at m2
    obtain ⟨m2, m4⟩ := m2
    obtain ⟨xs1, x, rfl⟩ := exists_snoc (List.length_pos_iff.1 k2)
    have i3 := I3.2
    have dis := i3.segs.dis
    have l1 := i3.l1
    have c1 := i3.c1
    have c2 := i3.c2
    have cd := i3.cd
    simp only [List.length_append, List.length_cons, List.length_nil] at dis l1 k2 k3 c1 cd
    apply wp_bind
    refine wp_moveTo' (i := t3.dest) (j := t3.cursor1 - 1) (a := x) (by omega)
      (by rw [show t3.cursor1 - 1 = a + xs1.length by omega]; exact (seg_snoc.1 i3.segs.src1).2)
      (i3.segs.gap t3.dest (by simp; omega) (by simp; omega)) ?_
    intro s4 hc4 h4 _ _
    have I4 : HiTo lt s0 a b xs (ys ++ [y]) s
        { t3 with dest := t3.dest - 1, cursor1 := t3.cursor1 - 1, len1 := t3.len1 - 1 } xs1 ys3 s4 := by
      refine I3.trans (HiTo.of i3 (by intro e; subst e; simp at m2) (by simp; omega) c2 (by simp; omega) (by simp; omega) i3.l2
        (HiStep.one1 (by intro e; subst e; simp at m2) (by omega) (by omega) i3.segs (mergeL_snoc1 fun u hu z hz => by
          simp at hu; subst hu; exact m4 u (by simp) z hz) hc4 h4))
    split
    · exact wp_pure ⟨xs1, ys3, I4, by rw [if_pos rfl]; exact .inr ⟨m2, by omega⟩⟩
    · split
      · refine wp_mono (ih (xs1.length + ys3.length) (by omega) _ _ xs1 ys3 s4 rfl (by omega) m2 I4.2) ?_
        rintro ⟨t5, mg, stop5⟩ s5 ⟨xs5, ys5, q1, q2⟩
        refine ⟨xs5, ys5, I4.trans q1, ?_⟩
        exact ite_weaken q2 fun w => ⟨w.1, w.2.1, by omega⟩
      · exact wp_pure ⟨xs1, ys3, I4, by rw [if_neg (by simp)]; exact ⟨by omega, m2, by omega⟩⟩

theorem hiOuter_seg (hlt : StrictWeak lt) {s0 : St α} {a b : Nat} (n : Nat) :
    ∀ (minGallop : Int) (t : TimCur) (xs ys : List α) (s : St α),
    xs.length + ys.length = n → 0 < xs.length → 1 < ys.length → HiInv lt s0 a b t xs ys s →
    wp (hiOuter (tick lt) a b minGallop t) (fun p s' => ∃ xs' ys', HiTo lt s0 a b xs ys s p.1 xs' ys' s' ∧
      HiEnd xs' ys') s := by
  induction n using Nat.strongRecOn with
  | _ n ih =>
    intro minGallop t xs ys s hn hx hy h
    rw [hiOuter]
    apply wp_bind
    have c1 := h.c1
    have h' : HiInv lt s0 a b { t with cursor1 := t.cursor1 - 1 + 1 } xs ys s := by
      rw [Nat.sub_add_cancel (by omega)]; exact h
    refine wp_mono (hiHot_seg (a := a) (b := b) hlt n 0 0 { t with cursor1 := t.cursor1 - 1 } xs ys s hn hx hy h') ?_
    rintro ⟨t1, stop1⟩ s1 ⟨xs1, ys1, k1, k2⟩
    dsimp only at k1 k2 ⊢
    split
    · rename_i hs
      rw [if_pos hs] at k2
      exact wp_pure ⟨xs1, ys1, k1, k2⟩
    rename_i hs
    rw [if_neg hs] at k2
    apply wp_bind
    refine wp_mono (hiGallop_seg hlt _ minGallop t1 xs1 ys1 s1 rfl k2.1 k2.2.1 k1.2) ?_
    rintro ⟨t2, mg, stop2⟩ s2 ⟨xs2, ys2, m1, m2⟩
    dsimp only at m1 m2 ⊢
    have I2 := k1.trans m1
    split
    · rename_i hs
      rw [if_pos hs] at m2
      exact wp_pure ⟨xs2, ys2, I2, m2⟩
    rename_i hs
    rw [if_neg hs] at m2
    refine wp_mono (ih (xs2.length + ys2.length) (by omega) _ t2 xs2 ys2 s2 rfl m2.1 m2.2.1 I2.2) ?_
    rintro ⟨t3, mg3⟩ s3 ⟨xs3, ys3, q1, q2⟩
    exact ⟨xs3, ys3, I2.trans q1, q2⟩

end CppSort
