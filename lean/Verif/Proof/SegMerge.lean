import Verif.Proof.SegOps
/-
`half_inplace_merge` on ranges described by lists.
-/
set_option autoImplicit false

namespace CppSort
variable {α : Type} {lt : α → α → Bool}

/-- What is left of the two sources `xs`, `ys` is in its place, the output goes just before `ys`. -/
structure HalfSegs (s0 : St α) (a r b : Nat) (xs ys : List α) (s : St α) : Prop where
  bal : r + xs.length = b
  dis : a + xs.length ≤ r ∨ b + ys.length ≤ a
  src1 : Seg s.cell a xs
  src2 : Seg s.cell b ys
  gap : ∀ i, r ≤ i → i < b → Live s.cell i
  env : s.env = s0.env

theorem HalfSegs.take1 {s0 : St α} {a r b : Nat} {x : α} {xs ys : List α} {s s' : St α}
    (h : HalfSegs s0 a r b (x :: xs) ys s) (hc : s'.cell = setCell (setCell s.cell a .moved) r (.val x))
    (he : s'.env = s.env) : HalfSegs s0 (a + 1) (r + 1) b xs ys s' := by
  have hb := h.bal
  have hd := h.dis
  simp only [List.length_cons] at hb hd
  refine ⟨by omega, by omega, ?_, ?_, ?_, by rw [he, h.env]⟩
  · rw [hc]; exact ((seg_cons.1 h.src1).2.out (by omega)).out (by omega)
  · rw [hc]; exact (h.src2.out (by omega)).out (by omega)
  · intro i h1 h2
    rw [hc]
    exact ((h.gap i (by omega) h2).out (by omega)).out (by omega)

theorem HalfSegs.take2 {s0 : St α} {a r b : Nat} {y : α} {xs ys : List α} {s s' : St α} (hx : xs ≠ [])
    (h : HalfSegs s0 a r b xs (y :: ys) s) (hc : s'.cell = setCell (setCell s.cell b .moved) r (.val y))
    (he : s'.env = s.env) : HalfSegs s0 a (r + 1) (b + 1) xs ys s' := by
  have hb := h.bal
  have hd := h.dis
  have := List.length_pos_iff.2 hx
  simp only [List.length_cons] at hb hd
  refine ⟨by omega, by omega, ?_, ?_, ?_, by rw [he, h.env]⟩
  · rw [hc]; exact (h.src1.out (by omega)).out (by omega)
  · rw [hc]; exact ((seg_cons.1 h.src2).2.out (by omega)).out (by omega)
  · intro i h1 h2
    rw [hc]
    by_cases e : i = b
    · exact (Live.moved e).out (by omega)
    · exact ((h.gap i (by omega) (by omega)).out e).out (by omega)

/-- The merge went through. -/
structure HalfDone (s0 : St α) (a n r e : Nat) (zs : List α) (s s' : St α) : Prop where
  out : Seg s'.cell r zs
  buf : ∀ i, a ≤ i → i < a + n → Live s'.cell i
  rest : ∀ i, (i < a ∨ a + n ≤ i) → (i < r ∨ e ≤ i) → s'.cell i = s.cell i
  env : s'.env = s0.env

theorem HalfDone.nil {s0 : St α} {a r : Nat} {ys : List α} {s : St α}
    (h : HalfSegs s0 a r r [] ys s) : HalfDone s0 a 0 r (r + ys.length) ys s s :=
  ⟨h.src2, fun i h1 h2 => by omega, fun i _ _ => rfl, h.env⟩

theorem HalfDone.rest1 {s0 : St α} {a r b : Nat} {xs : List α} {s : St α}
    (h : HalfSegs s0 a r b xs [] s) : wp (moveRange id id a (a + xs.length) r)
      (fun _ s' => HalfDone s0 a xs.length r b xs s s') s := by
  have hb := h.bal
  have hd := h.dis
  simp only [List.length_nil] at hd
  by_cases hx : xs = []
  · subst hx
    rw [moveRange, if_neg (by simp)]
    exact wp_pure ⟨Seg.nil, fun i h1 h2 => by simp at h2; omega, fun i _ _ => rfl, h.env⟩
  have := List.length_pos_iff.2 hx
  refine wp_mono (moveRange_seg (s0 := s0) xs a _ r s rfl (by omega) h.src1 (fun i h1 h2 => h.gap i h1 (by omega)) h.env) ?_
  rintro _ s' ⟨_, k2, k3, k4, k5, _⟩
  exact ⟨k2, fun i h1 h2 => .inl (k3 i h1 h2 (by omega)), fun i h1 h2 => k4 i h1 (by omega), k5⟩

theorem HalfDone.cons1 {s0 : St α} {a r b : Nat} {x : α} {xs ys zs : List α} {s s1 s' : St α}
    (h : HalfSegs s0 a r b (x :: xs) ys s) (hc : s1.cell = setCell (setCell s.cell a .moved) r (.val x))
    (hd : HalfDone s0 (a + 1) xs.length (r + 1) (b + ys.length) zs s1 s') :
    HalfDone s0 a (xs.length + 1) r (b + ys.length) (x :: zs) s s' := by
  have hb := h.bal
  have hdis := h.dis
  simp only [List.length_cons] at hb hdis
  refine ⟨seg_cons.2 ⟨?_, hd.out⟩, ?_, ?_, hd.env⟩
  · rw [hd.rest r (by omega) (by omega), hc, sc_eq rfl]
  · intro i h1 h2
    by_cases e : i = a
    · left; rw [hd.rest i (by omega) (by omega), hc, sc_ne (by omega), sc_eq e]
    · exact hd.buf i (by omega) (by omega)
  · intro i h1 h2
    rw [hd.rest i (by omega) (by omega), hc, sc_ne (by omega), sc_ne (by omega)]

theorem HalfDone.cons2 {s0 : St α} {a r b : Nat} {y : α} {xs ys zs : List α} {s s1 s' : St α} (hx : xs ≠ [])
    (h : HalfSegs s0 a r b xs (y :: ys) s) (hc : s1.cell = setCell (setCell s.cell b .moved) r (.val y))
    (hd : HalfDone s0 a xs.length (r + 1) (b + 1 + ys.length) zs s1 s') :
    HalfDone s0 a xs.length r (b + (y :: ys).length) (y :: zs) s s' := by
  have hb := h.bal
  have hdis := h.dis
  have := List.length_pos_iff.2 hx
  simp only [List.length_cons] at hb hdis ⊢
  refine ⟨seg_cons.2 ⟨?_, hd.out⟩, ?_, ?_, hd.env⟩
  · rw [hd.rest r (by omega) (by omega), hc, sc_eq rfl]
  · exact hd.buf
  · intro i h1 h2
    rw [hd.rest i (by omega) (by omega), hc, sc_ne (by omega), sc_ne (by omega)]

theorem halfMergeLoop_seg {s0 : St α} (n : Nat) : ∀ (xs ys : List α) (a r b e1 e2 : Nat) (s : St α),
    xs.length + ys.length = n → xs ≠ [] → ys ≠ [] → e1 = a + xs.length → e2 = b + ys.length →
    HalfSegs s0 a r b xs ys s →
    wp (halfMergeLoop (tick lt) id id a e1 b e2 r)
      (fun _ s' => HalfDone s0 a xs.length r (b + ys.length) (mergeL lt xs ys) s s') s := by
  induction n with
  | zero =>
    intro xs ys a r b e1 e2 s hn hx
    exact absurd (List.length_eq_zero_iff.1 (by omega)) hx
  | succ n ih =>
    intro xs ys a r b e1 e2 s hn hx hy he1 he2 h
    obtain ⟨x, xs, rfl⟩ := List.exists_cons_of_ne_nil hx
    obtain ⟨y, ys, rfl⟩ := List.exists_cons_of_ne_nil hy
    have hb := h.bal
    have hd := h.dis
    simp only [List.length_cons] at hn he1 he2 hb hd
    have sx1 := (seg_cons.1 h.src1).1
    have sy1 := (seg_cons.1 h.src2).1
    rw [halfMergeLoop]
    apply wp_bind
    refine wp_read' sy1 ?_
    apply wp_bind
    refine wp_read' sx1 ?_
    apply wp_bind
    refine wp_tick ?_
    rw [mergeL_cons]
    have h' : HalfSegs s0 a r b (x :: xs) (y :: ys) { s with cmps := s.cmps + 1 } := ⟨h.1, h.2, h.3, h.4, h.5, h.6⟩
    split
    · apply wp_bind
      refine wp_moveTo' (i := r) (j := b) (by omega) sy1 (h.gap r (by omega) (by omega)) ?_
      intro s1 hc1 h1 _ _
      have hI := h'.take2 (by simp) hc1 h1
      split
      · have : ys = [] := List.length_eq_zero_iff.1 (by omega)
        subst this
        apply wp_bind
        rw [he1]
        refine wp_mono (HalfDone.rest1 hI) fun _ s' hs' => ?_
        rw [mergeL_nil_right]
        exact wp_pure (HalfDone.cons2 (by simp) h hc1 hs')
      · refine wp_mono (ih (x :: xs) ys a (r + 1) (b + 1) e1 e2 s1 (by simp; omega) (by simp)
          (by intro e; subst e; simp at he2; omega) (by simp; omega) (by omega) hI) fun _ s' hs' => ?_
        exact HalfDone.cons2 (by simp) h hc1 hs'
    · apply wp_bind
      refine wp_moveTo' (i := r) (j := a) (by omega) sx1 (h.gap r (by omega) (by omega)) ?_
      intro s1 hc1 h1 _ _
      have hI := h'.take1 hc1 h1
      split
      · have : xs = [] := List.length_eq_zero_iff.1 (by omega)
        subst this
        have hb := hI.bal
        simp only [List.length_nil, Nat.add_zero] at hb
        subst hb
        rw [mergeL_nil_left]
        exact wp_pure (HalfDone.cons1 h hc1 (HalfDone.nil hI))
      · refine wp_mono (ih xs (y :: ys) (a + 1) (r + 1) b e1 e2 s1 (by simp; omega)
          (by intro e; subst e; simp at he1; omega) (by simp) (by omega) (by simp; omega) hI) fun _ s' hs' => ?_
        exact HalfDone.cons1 h hc1 hs'

/-- The blind loop may make `n` steps: neither source runs out before the last one. -/
def Blind (lt : α → α → Bool) : Nat → List α → List α → Prop
  | 0, _, _ => True
  | n + 1, x :: xs, y :: ys => if lt y x then Blind lt n (x :: xs) ys else Blind lt n xs (y :: ys)
  | _ + 1, _, _ => False

theorem blind_short : ∀ (n : Nat) (xs ys : List α), n ≤ xs.length → n ≤ ys.length → Blind lt n xs ys
  | 0, _, _, _, _ => trivial
  | n + 1, [], _, h, _ => absurd h (by simp)
  | n + 1, _ :: _, [], _, h => absurd h (by simp)
  | n + 1, x :: xs, y :: ys, h1, h2 => by
    simp only [List.length_cons] at h1 h2
    unfold Blind
    split
    · exact blind_short n _ _ (by simp; omega) (by omega)
    · exact blind_short n _ _ (by omega) (by simp; omega)

/-- One more step than the second source has elements, when they do not all come first. -/
theorem blind_long : ∀ (n : Nat) (x : α) (xs ys : List α) (y : α), n ≤ xs.length + 1 → n = ys.length + 2 →
    lt y x = false → Blind lt n (x :: xs) (ys ++ [y])
  | 0, _, _, _, _, _, h, _ => by omega
  | n + 1, x, xs, [], y, h1, h2, h3 => by
    show Blind lt (n + 1) (x :: xs) (y :: [])
    unfold Blind
    rw [if_neg (by simp [h3])]
    simp at h2
    exact blind_short n _ _ (by omega) (by simp; omega)
  | n + 1, x, xs, z :: ys, y, h1, h2, h3 => by
    simp only [List.length_cons] at h2
    show Blind lt (n + 1) (x :: xs) (z :: (ys ++ [y]))
    unfold Blind
    split
    · exact blind_long n _ _ _ _ (by omega) (by omega) h3
    · exact blind_short n _ _ (by omega) (by simp; omega)

theorem halfInplaceMerge_seg {s0 : St α} (n : Nat) : ∀ (xs ys : List α) (a r b e1 e2 : Nat) (s : St α),
    Blind lt n xs ys → e1 = a + xs.length → e2 = b + ys.length → HalfSegs s0 a r b xs ys s →
    wp (halfInplaceMerge (tick lt) id id a e1 b e2 r n)
      (fun _ s' => HalfDone s0 a xs.length r (b + ys.length) (mergeL lt xs ys) s s') s := by
  unfold halfInplaceMerge
  induction n with
  | zero =>
    intro xs ys a r b e1 e2 s _ he1 he2 h
    rw [halfMergeBlind, if_neg (by simp)]
    apply wp_bind
    apply wp_pure
    dsimp only
    split
    · have : xs = [] := List.length_eq_zero_iff.1 (by omega)
      subst this
      have hb := h.bal
      simp only [List.length_nil, Nat.add_zero] at hb
      subst hb
      rw [mergeL_nil_left]
      exact wp_pure (HalfDone.nil h)
    · split
      · have : ys = [] := List.length_eq_zero_iff.1 (by omega)
        subst this
        apply wp_bind
        rw [he1]
        refine wp_mono (HalfDone.rest1 h) fun _ s' hs' => ?_
        rw [mergeL_nil_right]
        exact wp_pure hs'
      · exact halfMergeLoop_seg _ xs ys a r b e1 e2 s rfl (by intro e; subst e; simp at he1; omega)
          (by intro e; subst e; simp at he2; omega) he1 he2 h
  | succ n ih =>
    intro xs ys a r b e1 e2 s hbl he1 he2 h
    match xs, ys, hbl with
    | [], _, hbl => exact absurd hbl (by simp [Blind])
    | _ :: _, [], hbl => exact absurd hbl (by simp [Blind])
    | x :: xs, y :: ys, hbl =>
    have hb := h.bal
    have hd := h.dis
    simp only [List.length_cons] at he1 he2 hb hd
    have sx1 := (seg_cons.1 h.src1).1
    have sy1 := (seg_cons.1 h.src2).1
    rw [halfMergeBlind, if_pos (by simp), bind_assoc]
    apply wp_bind
    refine wp_read' sy1 ?_
    rw [bind_assoc]
    apply wp_bind
    refine wp_read' sx1 ?_
    rw [bind_assoc]
    apply wp_bind
    refine wp_tick ?_
    rw [mergeL_cons]
    unfold Blind at hbl
    have h' : HalfSegs s0 a r b (x :: xs) (y :: ys) { s with cmps := s.cmps + 1 } := ⟨h.1, h.2, h.3, h.4, h.5, h.6⟩
    rw [Nat.add_sub_cancel]
    split
    · rename_i hyx
      rw [if_pos hyx] at hbl
      rw [bind_assoc]
      apply wp_bind
      refine wp_moveTo' (i := r) (j := b) (by omega) sy1 (h.gap r (by omega) (by omega)) ?_
      intro s1 hc1 h1 _ _
      refine wp_mono (ih (x :: xs) ys a (r + 1) (b + 1) e1 e2 s1 hbl (by simp; omega) (by omega)
        (h'.take2 (by simp) hc1 h1)) fun _ s' hs' => ?_
      exact HalfDone.cons2 (by simp) h hc1 hs'
    · rename_i hyx
      rw [if_neg hyx] at hbl
      rw [bind_assoc]
      apply wp_bind
      refine wp_moveTo' (i := r) (j := a) (by omega) sx1 (h.gap r (by omega) (by omega)) ?_
      intro s1 hc1 h1 _ _
      refine wp_mono (ih xs (y :: ys) (a + 1) (r + 1) b e1 e2 s1 hbl (by omega) (by simp; omega)
        (h'.take1 hc1 h1)) fun _ s' hs' => ?_
      exact HalfDone.cons1 h hc1 hs'

end CppSort
