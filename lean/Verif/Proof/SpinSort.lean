import Verif.Proof.Spin
import Verif.Proof.MergeFwdBug
/-
The last merge of spinsort, and the whole algorithm.
-/
set_option autoImplicit false

namespace CppSort
variable {α : Type} {lt : α → α → Bool}

/-- When the blind loop of `merge_half` stays within its sources: the first one is not longer, or it is longer by
one element and either the tests made for 1024 elements or more rule out the overrun, or the first source has an
element that does not come after the whole second one. -/
def HalfFits (lt : α → α → Bool) (xs ys : List α) : Prop :=
  xs.length ≤ ys.length ∨ (xs.length = ys.length + 1 ∧
    (1024 ≤ xs.length + ys.length ∨ ∃ x ∈ xs, ∃ y ∈ ys, lt y x = false))

theorem blind_of_exists (hlt : StrictWeak lt) {xs ys : List α} (ox : SortedList lt xs) (oy : SortedList lt ys)
    (hl : xs.length = ys.length + 1) (h : ∃ x ∈ xs, ∃ y ∈ ys, lt y x = false) : Blind lt xs.length xs ys := by
  obtain ⟨x, hx, y, hy, h⟩ := h
  obtain ⟨x0, xs', ex⟩ := List.exists_cons_of_ne_nil (List.ne_nil_of_mem hx)
  obtain ⟨ys', y0, ey⟩ := exists_snoc (List.ne_nil_of_mem hy)
  have e : lt y0 x0 = false := by
    by_contra hc
    rw [Bool.not_eq_false] at hc
    have := ends_after hlt (ex ▸ ox) (ey ▸ oy) hc x (ex ▸ hx) y (ey ▸ hy)
    rw [h] at this; cases this
  rw [ex, ey] at hl ⊢
  refine blind_long _ _ _ _ _ (by simp) ?_ e
  rw [hl]; simp

/-- The tests that `merge_half` makes first. -/
def spinTests (cmp : α → α → M α Bool) (buf1 end1 buf2 end2 out : Nat) : M α Bool := do
  if (end1 - buf1) + (end2 - buf2) ≥ 1024 then
    if buf1 = end1 then pure true
    else if buf2 = end2 then
      let _ ← moveRange id id buf1 end1 out
      pure true
    else if !(← cmp (← read buf2) (← read (end1 - 1))) then
      let _ ← moveRange id id buf1 end1 out
      pure true
    else if ← cmp (← read (end2 - 1)) (← read buf1) then
      let mid ← moveRange id id buf2 end2 out
      let _ ← moveRange id id buf1 end1 mid
      pure true
    else pure false
  else pure false

theorem spinMergeHalf_eq (cmp : α → α → M α Bool) (a e1 b e2 r : Nat) :
    spinMergeHalf cmp a e1 b e2 r = (do
      let done ← spinTests cmp a e1 b e2 r
      if done then pure ()
      else halfInplaceMerge cmp id id a e1 b e2 r (e1 - a)) := rfl

theorem spinTests_seg (hlt : StrictWeak lt) {xs ys : List α} {a e1 r b e2 : Nat} {s : St α}
    (he1 : e1 = a + xs.length) (he2 : e2 = b + ys.length) (h : HalfSegs s a r b xs ys s)
    (ox : SortedList lt xs) (oy : SortedList lt ys) (hf : HalfFits lt xs ys) :
    wp (spinTests (tick lt) a e1 b e2 r)
      (fun c s' => if c then HalfDone s a xs.length r (b + ys.length) (mergeL lt xs ys) s s'
        else Blind lt xs.length xs ys ∧ ∃ k, s' = { s with cmps := k }) s := by
  have hbal := h.bal
  have hdis := h.dis
  unfold spinTests
  split
  · split
    · have : xs = [] := List.length_eq_zero_iff.1 (by omega)
      subst this
      obtain rfl : r = b := by simpa using hbal
      refine wp_pure ?_
      rw [if_pos rfl, mergeL_nil_left]
      exact HalfDone.nil h
    · split
      · have : ys = [] := List.length_eq_zero_iff.1 (by omega)
        subst this
        apply wp_bind
        rw [he1]
        refine wp_mono (HalfDone.rest1 h) ?_
        intro _ s' hs'
        refine wp_pure ?_
        rw [if_pos rfl, mergeL_nil_right]
        exact hs'
      · rename_i hbig c1 c2
        have nx : xs ≠ [] := by intro e; subst e; simp at he1; omega
        have ny : ys ≠ [] := by intro e; subst e; simp at he2; omega
        have px := List.length_pos_iff.2 nx
        have py := List.length_pos_iff.2 ny
        have hx := h.src1
        have hy := h.src2
        obtain ⟨y, ys', ey⟩ := List.exists_cons_of_ne_nil ny
        obtain ⟨xs', x, ex⟩ := exists_snoc nx
        apply wp_bind
        refine wp_read' (x := y) (by rw [ey] at hy; exact (seg_cons.1 hy).1) ?_
        apply wp_bind
        refine wp_read' (x := x) (by
          rw [ex] at hx he1
          rw [List.length_append, List.length_singleton] at he1
          rw [show e1 - 1 = a + xs'.length by omega]; exact (seg_snoc.1 hx).2) ?_
        apply wp_bind
        refine wp_tick ?_
        split
        · rename_i hc
          apply wp_bind
          refine wp_mono (moveRange_seg (s0 := s) xs a e1 r { s with cmps := s.cmps + 1 } he1 (by omega) hx
            (fun i p q => h.gap i p (by omega)) rfl) ?_
          rintro _ s' ⟨_, k2, k3, k4, k5, _⟩
          refine wp_pure ?_
          rw [if_pos rfl, mergeL_before]
          · refine ⟨seg_append.2 ⟨k2, ?_⟩, fun i p q => .inl (k3 i p q (by omega)), fun i p q => k4 i p (by omega), k5⟩
            rw [hbal]
            exact hy.congr fun i p q => k4 i (by omega) (by omega)
          · rw [ex, ey]
            rw [ex] at ox
            rw [ey] at oy
            exact ends_before hlt ox oy (by simpa using hc)
        · obtain ⟨x0, xs0, ex0⟩ := List.exists_cons_of_ne_nil nx
          obtain ⟨ys0, y0, ey0⟩ := exists_snoc ny
          apply wp_bind
          refine wp_read' (x := y0) (by
            rw [ey0] at hy he2
            rw [List.length_append, List.length_singleton] at he2
            show s.cell _ = _
            rw [show e2 - 1 = b + ys0.length by omega]; exact (seg_snoc.1 hy).2) ?_
          apply wp_bind
          refine wp_read' (x := x0) (by rw [ex0] at hx; exact (seg_cons.1 hx).1) ?_
          apply wp_bind
          refine wp_tick ?_
          split
          · rename_i hc
            apply wp_bind
            refine wp_mono (moveRange_seg (s0 := s) ys b e2 r { s with cmps := s.cmps + 1 + 1 } he2 (by omega) hy
              (fun i p q => ?_) rfl) ?_
            · by_cases c : i < b
              · exact h.gap i p c
              · exact hy.live (by omega) (by omega)
            rintro _ s1 ⟨rfl, k2, k3, k4, k5, _⟩
            apply wp_bind
            refine wp_mono (moveRange_seg (s0 := s) xs a e1 (r + ys.length) s1 he1 (by omega)
              (hx.congr fun i p q => k4 i (by omega) (by omega)) (fun i p q => ?_) k5) ?_
            · by_cases c : b ≤ i
              · exact .inl (k3 i c (by omega) (by omega))
              · unfold Live
                rw [k4 i (by omega) (by omega)]
                exact h.gap i (by omega) (by omega)
            rintro _ s2 ⟨_, l2, l3, l4, l5, _⟩
            refine wp_pure ?_
            rw [if_pos rfl, mergeL_after]
            · refine ⟨seg_append.2 ⟨k2.congr fun i p q => l4 i (by omega) (by omega), l2⟩,
                fun i p q => .inl (l3 i p q (by omega)), fun i p q => ?_, l5⟩
              rw [l4 i p (by omega)]
              exact k4 i (by omega) (by omega)
            · rw [ex0, ey0]
              rw [ex0] at ox
              rw [ey0] at oy
              exact ends_after hlt ox oy hc
          · rename_i hc
            refine wp_pure ?_
            rw [if_neg (by simp)]
            refine ⟨?_, _, rfl⟩
            rcases hf with hf | ⟨hf, _⟩
            · exact blind_short _ _ _ (by omega) hf
            · refine blind_of_exists hlt ox oy hf ⟨x0, by rw [ex0]; simp, y0, by rw [ey0]; simp, by simpa using hc⟩
  · rename_i hsm
    refine wp_pure ?_
    rw [if_neg (by simp)]
    refine ⟨?_, s.cmps, rfl⟩
    rcases hf with hf | ⟨hf, hf' | hf'⟩
    · exact blind_short _ _ _ (by omega) hf
    · omega
    · exact blind_of_exists hlt ox oy hf hf'

/-- boost_common/util/merge.h `merge_half`. -/
theorem spinMergeHalf_seg (hlt : StrictWeak lt) {xs ys : List α} {a e1 r b e2 : Nat} {s : St α}
    (he1 : e1 = a + xs.length) (he2 : e2 = b + ys.length) (h : HalfSegs s a r b xs ys s)
    (ox : SortedList lt xs) (oy : SortedList lt ys) (hf : HalfFits lt xs ys) :
    wp (spinMergeHalf (tick lt) a e1 b e2 r)
      (fun _ s' => HalfDone s a xs.length r (b + ys.length) (mergeL lt xs ys) s s') s := by
  have main : ∀ k, Blind lt xs.length xs ys → wp (halfInplaceMerge (tick lt) id id a e1 b e2 r (e1 - a))
      (fun _ s' => HalfDone s a xs.length r (b + ys.length) (mergeL lt xs ys) s s') { s with cmps := k } := by
    intro k hbl
    rw [show e1 - a = xs.length by omega]
    refine wp_mono (halfInplaceMerge_seg (s0 := s) _ xs ys a r b e1 e2 { s with cmps := k } hbl he1 he2
      ⟨h.1, h.2, h.3, h.4, h.5, h.6⟩) ?_
    intro _ s' hs'
    exact ⟨hs'.1, hs'.2, hs'.3, hs'.4⟩
  rw [spinMergeHalf_eq]
  apply wp_bind
  refine wp_mono (spinTests_seg hlt he1 he2 h ox oy hf) ?_
  intro c s' hb
  cases c with
  | true => exact wp_pure hb
  | false =>
    obtain ⟨hb, k, rfl⟩ := hb
    rw [if_neg (by simp)]
    exact main k hb

/-- The state of affairs before the last merge. -/
structure SpinMid (lt : α → α → Bool) (f buf n1 : Nat) (xs1 xs2 zs1 zs2 : List α) (s0 s : St α) : Prop where
  s1 : SSorted lt xs1 zs1
  s2 : SSorted lt xs2 zs2
  seg1 : Seg s.cell buf zs1
  seg2 : Seg s.cell (f + xs1.length) zs2
  gap : ∀ i, f ≤ i → i < f + xs1.length → Live s.cell i
  bufl : ∀ i, buf ≤ i → i < buf + n1 → Live s.cell i
  rest : ∀ i, (i < f ∨ f + xs1.length + xs2.length ≤ i) → (i < buf ∨ buf + n1 ≤ i) → s.cell i = s0.cell i
  wf : s.WF

theorem SpinMid.halfSegs {f buf n1 : Nat} {xs1 xs2 zs1 zs2 : List α} {s0 s : St α}
    (h : SpinMid lt f buf n1 xs1 xs2 zs1 zs2 s0 s) (hb : f + xs1.length + xs2.length ≤ buf) :
    HalfSegs s buf f (f + xs1.length) zs1 zs2 s := by
  have l1 := h.s1.len
  have l2 := h.s2.len
  exact ⟨by omega, by omega, h.seg1, h.seg2, h.gap, rfl⟩

/-- What follows the allocation, up to the last merge; `spinMergeHalf` is `k`. -/
theorem spin_mid [Inhabited α] (hlt : StrictWeak lt) {f : Nat} {xs : List α} {s : St α} (hw : s.WF) (hs : Seg s.cell f xs)
    (hbig : 72 < xs.length) :
    ∃ n1 n2, n1 = (xs.length + 1) / 2 ∧ n2 = xs.length - n1 ∧
    (spinLevels xs.length % 2 = 1 → wp (do
        let buffer ← alloc n1
        let _ ← uninitMove (f + n2) (f + xs.length) buffer
        rangeSort (tick lt) buffer (buffer + n1) (f + n2) (f + xs.length) (spinLevels xs.length)
        rangeSort (tick lt) f (f + n2) buffer (buffer + n2) (spinLevels xs.length)
        pure buffer) (fun buf s' => buf = s.brk ∧ ∃ zs1 zs2, SpinMid lt f buf n1 (xs.take n2) (xs.drop n2) zs1 zs2 s s') s) ∧
    (spinLevels xs.length % 2 = 0 → wp (do
        let buffer ← alloc n1
        let _ ← uninitMove f (f + n1) buffer
        rangeSort (tick lt) f (f + n1) buffer (buffer + n1) (spinLevels xs.length)
        rangeSort (tick lt) f (f + n2) (f + n1) (f + xs.length) (spinLevels xs.length)
        pure buffer) (fun buf s' => buf = s.brk ∧ ∃ zs1 zs2, SpinMid lt f buf n1 (xs.take n1) (xs.drop n1) zs1 zs2 s s') s) := by
  generalize hn1 : (xs.length + 1) / 2 = n1
  generalize hn2 : xs.length - n1 = n2
  refine ⟨n1, n2, rfl, hn2.symm, ?_, ?_⟩
  all_goals
    have hbrk := hs.below hw (by omega)
    have hlv : 1 ≤ spinLevels xs.length := by
      unfold spinLevels
      have h2 : 2 ^ 1 ≤ (xs.length + 35) / 36 - 1 := by omega
      exact (Nat.le_log2 (by omega)).2 h2
    generalize spinLevels xs.length = lv at hlv
    intro hpar
  · obtain ⟨xs1, xs2, hx, hx1, hx2⟩ : ∃ xs1 xs2, xs = xs1 ++ xs2 ∧ xs1.length = n2 ∧ xs2.length = n1 :=
      ⟨xs.take n2, xs.drop n2, (List.take_append_drop _ _).symm, by simp; omega, by simp; omega⟩
    rw [show xs.take n2 = xs1 by rw [hx, ← hx1]; simp, show xs.drop n2 = xs2 by rw [hx, ← hx1]; simp]
    obtain ⟨q1, q2⟩ := seg_append.1 (hx ▸ hs)
    rw [hx1] at q2
    apply wp_bind
    refine wp_alloc fun s1 b1 b2 b3 b4 _ _ => ?_
    apply wp_bind
    refine wp_mono (uninitMove_seg (s0 := s1) xs2 (f + n2) (f + xs.length) s.brk s1 (by omega)
      (q2.congr fun i a b => b2 i (by omega)) (fun i a b => b1 i a (by omega)) rfl) ?_
    rintro _ s2 ⟨_, k2, k3, k4, k5⟩
    have hw1 : s1.WF := fun i hi => by rw [b3] at hi; rw [b2 i (by omega)]; exact hw i (by omega)
    have hw2 : s2.WF := by
      intro i hi
      rw [St.env_brk k5, b3] at hi
      rw [k4 i (by omega) (by omega)]
      exact hw1 i (by omega)
    apply wp_bind
    have r1 := rangeSort_spec hlt n1 lv s.brk (f + n2) xs2 s2 hlv hx2 (by omega) hw2
      (fun _ => ⟨k2, fun i a b => .inl (k3 i a (by omega))⟩) (fun e => by omega)
    rw [show f + n2 + n1 = f + xs.length by omega] at r1
    refine wp_mono r1 ?_
    rintro _ s3 ⟨zs2, g1, g2, g3⟩
    have q1' : Seg s3.cell f xs1 := q1.congr fun i a b => by
      rw [g3.rest i (by omega) (by omega), k4 i (by omega) (by omega), b2 i (by omega)]
    have hb3 : ∀ i, s.brk ≤ i → i < s.brk + n1 → Live s3.cell i := fun i a b => g3.live i (k2.live a (by omega))
    apply wp_bind
    refine wp_mono (rangeSort_spec hlt n2 lv f s.brk xs1 s3 hlv hx1 (by omega) g3.wf
      (fun _ => ⟨q1', fun i a b => hb3 i a (by omega)⟩) (fun e => by omega)) ?_
    rintro _ s4 ⟨zs1, j1, j2, j3⟩
    have lz2 := g1.len
    refine wp_pure ⟨rfl, zs1, zs2, j1, g1, j2, ?_, ?_, ?_, ?_, j3.wf⟩
    · rw [hx1]
      exact g2.congr fun i a b => j3.rest i (by omega) (by omega)
    · intro i a b
      exact j3.live i (q1'.live a (by omega))
    · intro i a b
      exact j3.live i (hb3 i a b)
    · intro i a b
      rw [j3.rest i (by omega) (by omega), g3.rest i (by omega) (by omega), k4 i (by omega) (by omega), b2 i (by omega)]
  · obtain ⟨xs1, xs2, hx, hx1, hx2⟩ : ∃ xs1 xs2, xs = xs1 ++ xs2 ∧ xs1.length = n1 ∧ xs2.length = n2 :=
      ⟨xs.take n1, xs.drop n1, (List.take_append_drop _ _).symm, by simp; omega, by simp; omega⟩
    rw [show xs.take n1 = xs1 by rw [hx, ← hx1]; simp, show xs.drop n1 = xs2 by rw [hx, ← hx1]; simp]
    obtain ⟨q1, q2⟩ := seg_append.1 (hx ▸ hs)
    rw [hx1] at q2
    apply wp_bind
    refine wp_alloc fun s1 b1 b2 b3 b4 _ _ => ?_
    apply wp_bind
    refine wp_mono (uninitMove_seg (s0 := s1) xs1 f (f + n1) s.brk s1 (by omega)
      (q1.congr fun i a b => b2 i (by omega)) (fun i a b => b1 i a (by omega)) rfl) ?_
    rintro _ s2 ⟨_, k2, k3, k4, k5⟩
    have hw1 : s1.WF := fun i hi => by rw [b3] at hi; rw [b2 i (by omega)]; exact hw i (by omega)
    have hw2 : s2.WF := by
      intro i hi
      rw [St.env_brk k5, b3] at hi
      rw [k4 i (by omega) (by omega)]
      exact hw1 i (by omega)
    apply wp_bind
    refine wp_mono (rangeSort_spec hlt n1 lv f s.brk xs1 s2 hlv hx1 (by omega) hw2
      (fun e => by omega) (fun _ => ⟨k2, fun i a b => .inl (k3 i a (by omega))⟩)) ?_
    rintro _ s3 ⟨zs1, g1, g2, g3⟩
    have q2' : Seg s3.cell (f + n1) xs2 := q2.congr fun i a b => by
      rw [g3.rest i (by omega) (by omega), k4 i (by omega) (by omega), b2 i (by omega)]
    have hf3 : ∀ i, f ≤ i → i < f + n1 → Live s3.cell i := fun i a b => g3.live i (.inl (k3 i a (by omega)))
    apply wp_bind
    have r2 := rangeSort_spec hlt n2 lv f (f + n1) xs2 s3 hlv hx2 (by omega) g3.wf
      (fun e => by omega) (fun _ => ⟨q2', fun i a b => hf3 i a (by omega)⟩)
    rw [show f + n1 + n2 = f + xs.length by omega] at r2
    refine wp_mono r2 ?_
    rintro _ s4 ⟨zs2, j1, j2, j3⟩
    have lz1 := g1.len
    refine wp_pure ⟨rfl, zs1, zs2, g1, j1, ?_, ?_, ?_, ?_, ?_, j3.wf⟩
    · exact g2.congr fun i a b => j3.rest i (by omega) (by omega)
    · rw [hx1]; exact j2
    · intro i a b
      exact j3.live i (hf3 i a (by omega))
    · intro i a b
      exact j3.live i (g2.live a (by omega))
    · intro i a b
      rw [j3.rest i (by omega) (by omega), g3.rest i (by omega) (by omega), k4 i (by omega) (by omega), b2 i (by omega)]

/-- The last merge and the clean-up. -/
theorem spin_end (hlt : StrictWeak lt) {f n1 : Nat} {xs xs1 xs2 zs1 zs2 : List α} {s0 s : St α} (hw : s0.WF)
    (hx : xs = xs1 ++ xs2) (hb : f + xs.length ≤ s0.brk) (hn1 : xs1.length ≤ n1)
    (h : SpinMid lt f s0.brk n1 xs1 xs2 zs1 zs2 s0 s) (hf : HalfFits lt xs1 xs2) :
    wp (do
        spinMergeHalf (tick lt) s0.brk (s0.brk + xs1.length) (f + xs1.length) (f + xs.length) f
        destroyN s0.brk n1
        free s0.brk n1) (fun _ s' => ∃ ys, SSorted lt xs ys ∧ Seg s'.cell f ys ∧
          (∀ i, i < f ∨ f + xs.length ≤ i → s'.cell i = s0.cell i) ∧ s'.WF) s := by
  have l1 := h.s1.len
  have l2 := h.s2.len
  have lx : xs.length = xs1.length + xs2.length := by rw [hx, List.length_append]
  have hss : SSorted lt xs (mergeL lt zs1 zs2) := by rw [hx]; exact h.s1.merge hlt h.s2
  have hml := hss.len
  have hf' : HalfFits lt zs1 zs2 := by
    unfold HalfFits
    rw [l1, l2]
    rcases hf with hf | ⟨hf, hf' | ⟨x, hx, y, hy, e⟩⟩
    · exact .inl hf
    · exact .inr ⟨hf, .inl hf'⟩
    · exact .inr ⟨hf, .inr ⟨x, h.s1.1.mem_iff.2 hx, y, h.s2.1.mem_iff.2 hy, e⟩⟩
  apply wp_bind
  refine wp_mono (spinMergeHalf_seg hlt (by omega) (by omega) (h.halfSegs (by omega)) h.s1.2.1 h.s2.2.1 hf') ?_
  intro _ s1 hd
  have hlb : ∀ i, s0.brk ≤ i → i < s0.brk + n1 → Live s1.cell i := by
    intro i a b
    by_cases c : i < s0.brk + zs1.length
    · exact hd.buf i a c
    · unfold Live
      rw [hd.rest i (by omega) (by omega)]
      exact h.bufl i a b
  have hw1 : s1.WF := h.wf.of_live (St.env_brk hd.env) fun i => by
    by_cases c : s0.brk ≤ i ∧ i < s0.brk + zs1.length
    · exact .inr (h.seg1.live c.1 c.2)
    · by_cases c' : f ≤ i ∧ i < f + xs1.length + zs2.length
      · right
        by_cases c'' : i < f + xs1.length
        · exact h.gap i c'.1 c''
        · exact h.seg2.live (by omega) (by omega)
      · left
        exact hd.rest i (by omega) (by omega)
  apply wp_bind
  refine wp_mono (destroyN_spec n1 s0.brk s1 hlb) ?_
  rintro _ s2 ⟨e1, e2, e3, _, _⟩
  have hw2 : s2.WF := hw1.of_live (St.env_brk e3) fun i => by
    by_cases c : s0.brk ≤ i ∧ i < s0.brk + n1
    · exact .inr (hlb i c.1 c.2)
    · exact .inl (e2 i (by omega))
  refine wp_free e1 fun s3 c1 c2 c3 _ _ => ?_
  refine ⟨_, hss, hd.out.congr fun i a b => ?_, fun i hi => ?_, fun i hi => ?_⟩
  · rw [c2 i (by omega), e2 i (by omega)]
  · by_cases c : s0.brk ≤ i ∧ i < s0.brk + n1
    · rw [c1 i c.1 c.2]; exact (hw i c.1).symm
    · rw [c2 i (by omega), e2 i (by omega), hd.rest i (by omega) (by omega), h.rest i (by omega) (by omega)]
  · rw [St.env_brk c3] at hi
    by_cases c : s0.brk ≤ i ∧ i < s0.brk + n1
    · exact c1 i c.1 c.2
    · rw [c2 i (by omega)]; exact hw2 i hi

/-- When the last merge of spinsort stays within its ranges. -/
def SpinFits (lt : α → α → Bool) (xs : List α) : Prop :=
  xs.length ≤ 72 ∨ xs.length % 2 = 0 ∨ 1024 ≤ xs.length ∨ spinLevels xs.length % 2 = 1 ∨
    ∃ x ∈ xs.take ((xs.length + 1) / 2), ∃ y ∈ xs.drop ((xs.length + 1) / 2), lt y x = false

theorem wp_assoc5 {β1 β2 β3 β4 γ : Type} {m1 : M α β1} {m2 : β1 → M α β2} {m3 : β1 → M α β3} {m4 : β1 → M α β4}
    {k : β1 → M α γ} {Q : γ → St α → Prop} {s : St α}
    (h : wp (do let b ← m1; let _ ← m2 b; let _ ← m3 b; let _ ← m4 b; pure b) (fun b s' => wp (k b) Q s') s) :
    wp (do let b ← m1; let _ ← m2 b; let _ ← m3 b; let _ ← m4 b; k b) Q s := by
  have := wp_bind (k := k) h
  simpa [bind_assoc] using this

theorem spinsort_stably [Inhabited α] (hlt : StrictWeak lt) {s : St α} {f : Nat} {xs : List α} (hw : s.WF)
    (hs : Seg s.cell f xs) (hfit : SpinFits lt xs) :
    Transforms (spinsort (tick lt) f (f + xs.length)) s f xs
      (fun ys => ys.Perm xs ∧ SortedList lt ys ∧ SameOrder lt xs ys) := by
  have main : wp (spinsort (tick lt) f (f + xs.length)) (fun _ s' => ∃ ys, SSorted lt xs ys ∧ Seg s'.cell f ys ∧
      (∀ i, i < f ∨ f + xs.length ≤ i → s'.cell i = s.cell i) ∧ s'.WF) s := by
    unfold spinsort
    dsimp only
    rw [show f + xs.length - f = xs.length by omega]
    split
    · refine wp_mono (insertionSort_work hlt hw rfl hs f 0) ?_
      rintro _ s' ⟨ys, h1, h2, h3⟩
      exact ⟨ys, h1, h2, fun i hi => h3.rest i hi (by omega), h3.wf⟩
    · rename_i hbig
      obtain ⟨n1, n2, hn1, hn2, ho, he⟩ := spin_mid hlt hw hs (by omega)
      have hbrk := hs.below hw (by omega)
      rw [← hn1, ← hn2]
      by_cases hp : spinLevels xs.length % 2 = 1
      · simp only [if_pos hp]
        have hx1 : (xs.take n2).length = n2 := by simp; omega
        refine wp_assoc5 (wp_mono (ho hp) ?_)
        rintro _ s' ⟨rfl, zs1, zs2, hm⟩
        have := spin_end hlt hw (List.take_append_drop n2 xs).symm hbrk (by omega) hm
          (.inl (by simp; omega))
        rw [hx1] at this
        exact this
      · simp only [if_neg hp]
        have hx1 : (xs.take n1).length = n1 := by simp; omega
        refine wp_assoc5 (wp_mono (he (by omega)) ?_)
        rintro _ s' ⟨rfl, zs1, zs2, hm⟩
        have := spin_end hlt hw (List.take_append_drop n1 xs).symm hbrk (by omega) hm ?_
        · rw [hx1] at this
          exact this
        · unfold HalfFits
          rw [hx1, List.length_drop]
          rcases hfit with h | h | h | h | h
          · omega
          · left; omega
          · by_cases c : xs.length % 2 = 0
            · left; omega
            · right; exact ⟨by omega, .inl (by omega)⟩
          · omega
          · rw [← hn1] at h
            by_cases c : xs.length % 2 = 0
            · left; omega
            · right; exact ⟨by omega, .inr h⟩
  obtain ⟨_, s', h1, ys, h2, h3, h4, h5⟩ := main
  exact ⟨s', ys, h1, h2.len, h3, h2, h4, h5⟩

/-- The blind loop runs off the end of the second source when it is told to make more steps than that source has
elements, all of them smaller. -/
theorem blind_overrun {s0 : St α} (n : Nat) : ∀ (xs ys : List α) (a r b : Nat) (s : St α), ys.length < n → xs ≠ [] →
    (∀ x ∈ xs, ∀ y ∈ ys, lt y x = true) → HalfSegs s0 a r b xs ys s → (∀ v, s.cell (b + ys.length) ≠ .val v) →
    Fails (halfMergeBlind (tick lt) id id a b r n) .deref s := by
  induction n with
  | zero => intros; omega
  | succ n ih =>
    intro xs ys a r b s hn hx hlow h hend
    rw [halfMergeBlind, if_pos (by simp)]
    match ys with
    | [] => exact fails_bind_left (fails_read hend)
    | y :: ys =>
      obtain ⟨x, xs, rfl⟩ := List.exists_cons_of_ne_nil hx
      have hb := h.bal
      have hd := h.dis
      simp only [List.length_cons] at hn hb hd hend
      have sx1 := (seg_cons.1 h.src1).1
      have sy1 := (seg_cons.1 h.src2).1
      apply fails_bind
      refine wp_read' sy1 ?_
      apply fails_bind
      refine wp_read' sx1 ?_
      apply fails_bind
      refine wp_tick ?_
      rw [if_pos (hlow x (by simp) y (by simp))]
      apply fails_bind
      refine wp_moveTo' (i := r) (j := b) (by omega) sy1 (h.gap r (by omega) (by omega)) ?_
      intro s1 hc1 he1 _ _
      rw [Nat.add_sub_cancel]
      have h' : HalfSegs s0 a r b (x :: xs) (y :: ys) { s with cmps := s.cmps + 1 } := ⟨h.1, h.2, h.3, h.4, h.5, h.6⟩
      refine ih (x :: xs) ys a (r + 1) (b + 1) s1 (by omega) (by simp) (fun u hu w hw => hlow u hu w (by simp [hw]))
        (h'.take2 (by simp) hc1 he1) ?_
      intro v
      rw [hc1, sc_ne (by omega), sc_ne (by omega)]
      show s.cell _ ≠ _
      rw [show b + 1 + ys.length = b + (ys.length + 1) by omega]
      exact hend v

/-- spinsort reads past the end of the range: the number of elements is odd, less than 1024 and such that the number
of levels is even, and the second half is entirely smaller than the first one. -/
theorem spinsort_overrun [Inhabited α] (hlt : StrictWeak lt) {s : St α} {f : Nat} {xs : List α} (hw : s.WF)
    (hs : Seg s.cell f xs) (h1 : 72 < xs.length) (h2 : xs.length % 2 = 1) (h3 : xs.length < 1024)
    (h4 : spinLevels xs.length % 2 = 0)
    (hlow : ∀ x ∈ xs.take ((xs.length + 1) / 2), ∀ y ∈ xs.drop ((xs.length + 1) / 2), lt y x = true)
    (hend : s.cell (f + xs.length) = .unalloc) (hb : f + xs.length < s.brk) :
    Fails (spinsort (tick lt) f (f + xs.length)) .deref s := by
  unfold spinsort
  dsimp only
  rw [show f + xs.length - f = xs.length by omega, if_neg (by omega)]
  obtain ⟨n1, n2, hn1, hn2, -, he⟩ := spin_mid hlt hw hs h1
  rw [← hn1, ← hn2]
  rw [← hn1] at hlow
  have hx1 : (xs.take n1).length = n1 := by simp; omega
  have hx2 : (xs.drop n1).length = n2 := by simp; omega
  simp only [if_neg (show ¬ spinLevels xs.length % 2 = 1 by omega)]
  have key := he h4
  have : Fails (do
      let buffer ← (do
        let buffer ← alloc n1
        let _ ← uninitMove f (f + n1) buffer
        rangeSort (tick lt) f (f + n1) buffer (buffer + n1) (spinLevels xs.length)
        rangeSort (tick lt) f (f + n2) (f + n1) (f + xs.length) (spinLevels xs.length)
        pure buffer)
      spinMergeHalf (tick lt) buffer (buffer + n1) (f + n1) (f + xs.length) f
      destroyN buffer n1
      free buffer n1) .deref s := by
    apply fails_bind
    refine wp_mono key ?_
    rintro _ s' ⟨rfl, zs1, zs2, hm⟩
    have l1 := hm.s1.len
    have l2 := hm.s2.len
    apply fails_bind_left
    unfold spinMergeHalf
    apply fails_bind
    rw [if_neg (by omega)]
    refine wp_pure ?_
    rw [if_neg (by simp)]
    unfold halfInplaceMerge
    apply fails_bind_left
    have hh := hm.halfSegs (by omega)
    rw [hx1] at hh
    refine blind_overrun _ zs1 zs2 s.brk f (f + n1) s' (by omega) ?_ ?_ hh ?_
    · intro e; rw [e] at l1; simp at l1; omega
    · intro x hx y hy
      exact hlow x (hm.s1.1.mem_iff.1 hx) y (hm.s2.1.mem_iff.1 hy)
    · intro v
      rw [hm.rest _ (by omega) (by omega), show f + n1 + zs2.length = f + xs.length by omega, hend]
      simp
  simpa [bind_assoc] using this

end CppSort
