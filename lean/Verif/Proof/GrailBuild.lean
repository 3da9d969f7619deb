import Verif.Proof.GrailKeys
import Verif.Proof.GrailChunk
/-
grail_sort.h 457-557: building the blocks.
-/
set_option autoImplicit false

namespace CppSort
variable {α : Type} {lt : α → α → Bool}

/-! ### Two ranges -/

/-- Everything outside of `[f, l)` and of `[p, p + n)` is unchanged, the cells of `[p, p + n)` are live. -/
structure GFrame (f l p n : Nat) (s s' : St α) : Prop where
  cell : ∀ i, (i < f ∨ l ≤ i) → (i < p ∨ p + n ≤ i) → s'.cell i = s.cell i
  live : ∀ i, p ≤ i → i < p + n → Live s'.cell i
  brk : EnvLe s s'

theorem Frame.g {f l p n : Nat} {s s' : St α} (h : Frame f l s s') (hd : l ≤ p ∨ p + n ≤ f)
    (hl : ∀ i, p ≤ i → i < p + n → Live s.cell i) : GFrame f l p n s s' :=
  ⟨fun i h1 _ => h.cell i h1, fun i h1 h2 => by unfold Live; rw [h.cell i (by omega)]; exact hl i h1 h2, h.brk⟩

theorem GFrame.trans {f l p n : Nat} {s s' s'' : St α} (h : GFrame f l p n s s') (h' : GFrame f l p n s' s'') : GFrame f l p n s s'' :=
  ⟨fun i h1 h2 => (h'.cell i h1 h2).trans (h.cell i h1 h2), h'.live, h.brk.trans h'.brk⟩

theorem GFrame.mono {f l f' l' p n : Nat} {s s' : St α} (h : GFrame f' l' p n s s') (hf : f ≤ f') (hl : l' ≤ l) : GFrame f l p n s s' :=
  ⟨fun i h1 h2 => h.cell i (by omega) h2, h.live, h.brk⟩

theorem GFrame.refl {f l p n : Nat} {s : St α} (hl : ∀ i, p ≤ i → i < p + n → Live s.cell i) : GFrame f l p n s s :=
  ⟨fun _ _ _ => rfl, hl, .refl _⟩

/-- Moving elements to another place. -/
theorem putAway_spec : ∀ (xs : List α) (a l b : Nat) (s : St α), l = a + xs.length → (a + xs.length ≤ b ∨ b + xs.length ≤ a) →
    Seg s.cell a xs → (∀ i, b ≤ i → i < b + xs.length → Live s.cell i) →
    wp (putRange moveTo a l b) (fun _ s' => Seg s'.cell b xs ∧ (∀ i, a ≤ i → i < a + xs.length → Live s'.cell i) ∧
      (∀ i, (i < a ∨ a + xs.length ≤ i) → (i < b ∨ b + xs.length ≤ i) → s'.cell i = s.cell i) ∧ s'.env = s.env) s := by
  intro xs
  induction xs with
  | nil =>
    intro a l b s hl hd hs hb
    rw [putRange, if_neg (by simp at hl; omega)]
    exact wp_pure ⟨Seg.nil, fun i h1 h2 => by simp at h2; omega, fun _ _ _ => rfl, rfl⟩
  | cons x xs ih =>
    intro a l b s hl hd hs hb
    simp only [List.length_cons] at hl hd hb
    obtain ⟨x1, x2⟩ := seg_cons.1 hs
    rw [putRange, if_pos (by omega)]
    apply wp_bind
    refine wp_moveTo' (by omega) x1 (hb b (by omega) (by omega)) fun s1 hc he _ _ => ?_
    refine wp_mono (ih (a + 1) l (b + 1) s1 (by omega) (by omega) ?_ ?_) ?_
    · rw [hc]; exact (x2.out (by omega)).out (by omega)
    · intro i h1 h2
      rw [hc]; exact ((hb i (by omega) (by omega)).out (by omega)).out (by omega)
    · rintro _ s2 ⟨q1, q2, q3, q4⟩
      simp only [List.length_cons]
      refine ⟨seg_cons.2 ⟨?_, q1⟩, ?_, ?_, q4.trans he⟩
      · rw [q3 b (by omega) (by omega), hc]; sc
      · intro i h1 h2
        by_cases hi : i = a
        · subst hi
          unfold Live
          rw [q3 i (by omega) (by omega), hc]
          exact .inl (by sc)
        · exact q2 i (by omega) (by omega)
      · intro i h1 h2
        rw [q3 i (by omega) (by omega), hc]; sc

/-! ### Passes -/

theorem ssort_pair {x y : α} (b : Bool) (h : lt y x = b) : ssort lt [x, y] = if b then [y, x] else [x, y] := by
  subst h
  show mergeL lt [x] (mergeL lt [y] []) = _
  rw [mergeL_nil_right, mergeL_cons, mergeL_nil_right, mergeL_nil_left]

theorem buildPairs_spec (hlt : StrictWeak lt) {b : GrailBuf} (n : Nat) : ∀ (xs : List α) (j1 j2 : α) (first size m : Nat) (s : St α),
    xs.length = n → m % 2 = 1 → size + 1 = m + xs.length → 2 ≤ first → Gap b s.cell (first + m - 3) [j1, j2] →
    Seg s.cell (first + m - 1) xs →
    wp (buildPairs (tick lt) b.put first size m) (fun _ s' => ∃ J', J'.Perm [j1, j2] ∧ Seg s'.cell (first + m - 3) (chunkSort lt 2 xs) ∧
      Gap b s'.cell (first + size - 2) J' ∧ Frame (first + m - 3) (first + size) s s') s := by
  induction n using Nat.strongRecOn with
  | _ n ih =>
    intro xs j1 j2 first size m s hn hm hsz h2 hg hs
    obtain ⟨g1, g2⟩ := gap_cons.1 hg
    match xs, hn, hsz, hs with
    | [], hn, hsz, hs =>
      simp only [List.length_nil] at hsz
      rw [buildPairs, if_neg (by omega), if_neg (by omega)]
      refine wp_pure ⟨[j1, j2], .refl _, by rw [chunkSort_nil]; exact Seg.nil, ?_, Frame.refl _ _ _⟩
      rw [show first + size - 2 = first + m - 3 by omega]; exact hg
    | [x], hn, hsz, hs =>
      simp only [List.length_cons, List.length_nil] at hsz
      have hx := seg_one.1 hs
      rw [buildPairs, if_neg (by omega), if_pos (by omega)]
      refine put_spec (b := b) (x := x) (j := j1) (by omega) ?_ ?_ ?_
      · rw [show first + size - 1 = first + m - 1 by omega]; exact hx
      · rw [show first + size - 3 = first + m - 3 by omega]; exact g1
      intro s1 k1 k2 k3 k4
      refine ⟨[j2, j1], List.Perm.swap _ _ _, ?_, gap_cons.2 ⟨?_, ?_⟩, Frame.of_env k4 fun i hi => k3 i (by omega) (by omega)⟩
      · rw [chunkSort_short (by omega) (by simp)]
        rw [ssort_one, seg_one, show first + m - 3 = first + size - 3 by omega]; exact k1
      · rw [show first + size - 2 = first + m - 3 + 1 by omega]
        exact g2.congr fun i h1 h2 => k3 i (by omega) (by simp at h2; omega)
      · rw [show first + size - 2 + 1 = first + size - 1 by omega]; exact k2
    | x :: y :: xs, hn, hsz, hs =>
      simp only [List.length_cons] at hn hsz
      obtain ⟨x1, hs'⟩ := seg_cons.1 hs
      obtain ⟨y1, hs''⟩ := seg_cons.1 hs'
      rw [buildPairs, if_pos (by omega)]
      apply wp_bind
      refine grailCmp3At_spec (x := x) (y := y) ?_ ?_ fun k => ?_
      · rw [show first + (m - 1) = first + m - 1 by omega]; exact x1
      · rw [show first + m = first + m - 1 + 1 by omega]; exact y1
      -- the two elements in order
      have main : ∀ (u : Nat) (a1 a2 : α), u ≤ 1 → s.cell (first + (m - 1 + u)) = .val a1 → s.cell (first + (m - u)) = .val a2 →
          ssort lt [x, y] = [a1, a2] →
          wp (do b.put (first + m - 3) (first + (m - 1 + u)); b.put (first + m - 2) (first + (m - u))
                 buildPairs (tick lt) b.put first size (m + 2)) (fun _ s' => ∃ J', J'.Perm [j1, j2] ∧
            Seg s'.cell (first + m - 3) (chunkSort lt 2 (x :: y :: xs)) ∧
            Gap b s'.cell (first + size - 2) J' ∧ Frame (first + m - 3) (first + size) s s') { s with cmps := k } := by
        intro u a1 a2 hu1 ha1 ha2 hso
        apply wp_bind
        refine put_spec (b := b) (x := a1) (j := j1) (by omega) ha1 g1 ?_
        intro s1 k1 k2 k3 k4
        apply wp_bind
        refine put_spec (b := b) (x := a2) (j := j2) (by omega) ?_ ?_ ?_
        · rw [k3 _ (by omega) (by omega)]; exact ha2
        · rw [show first + m - 2 = first + m - 3 + 1 by omega]
          exact g2.congr fun i h1 h2 => k3 i (by omega) (by simp at h2; omega)
        intro s2 l1 l2 l3 l4
        have hgap : Gap b s2.cell (first + (m + 2) - 3) (if u = 0 then [j1, j2] else [j2, j1]) := by
          have k2' := k2.congr (c' := s2.cell) fun i h1 h2 => l3 i (by simp at h2; omega) (by simp at h2; omega)
          split
          · rename_i h0
            subst h0
            refine gap_cons.2 ⟨?_, ?_⟩
            · rw [show first + (m + 2) - 3 = first + (m - 1 + 0) by omega]; exact k2'
            · rw [show first + (m + 2) - 3 + 1 = first + (m - 0) by omega]; exact l2
          · rename_i h0
            have : u = 1 := by omega
            subst this
            refine gap_cons.2 ⟨?_, ?_⟩
            · rw [show first + (m + 2) - 3 = first + (m - 1) by omega]; exact l2
            · rw [show first + (m + 2) - 3 + 1 = first + (m - 1 + 1) by omega]; exact k2'
        have hrest : Seg s2.cell (first + (m + 2) - 1) xs := by
          rw [show first + (m + 2) - 1 = first + m - 1 + 1 + 1 by omega]
          refine hs''.congr fun i h1 h2 => ?_
          rw [l3 i (by omega) (by omega), k3 i (by omega) (by omega)]
        have fr : Frame (first + m - 3) (first + size) s s2 :=
          (Frame.of_env k4 (f := first + m - 3) (l := first + size) fun i hi => k3 i (by omega) (by omega)).tick.trans
            (Frame.of_env l4 fun i hi => l3 i (by omega) (by omega))
        have fin : ∀ (c1 c2 : α), [c1, c2].Perm [j1, j2] → Gap b s2.cell (first + (m + 2) - 3) [c1, c2] →
            wp (buildPairs (tick lt) b.put first size (m + 2)) (fun _ s' => ∃ J', J'.Perm [j1, j2] ∧
            Seg s'.cell (first + m - 3) (chunkSort lt 2 (x :: y :: xs)) ∧
            Gap b s'.cell (first + size - 2) J' ∧ Frame (first + m - 3) (first + size) s s') s2 := by
          intro c1 c2 hp hg'
          refine wp_mono (ih xs.length (by omega) xs c1 c2 first size (m + 2) s2 rfl (by omega) (by omega) h2 hg' hrest) ?_
          rintro _ s3 ⟨J', q1, q2, q3, q4⟩
          refine ⟨J', q1.trans hp, ?_, q3, fr.trans (q4.mono (by omega) (Nat.le_refl _))⟩
          have := chunkSort_append (lt := lt) (n := 2) (X := [x, y]) (Y := xs) (by omega) rfl
          rw [List.cons_append, List.cons_append, List.nil_append] at this
          rw [this, hso, List.cons_append, List.cons_append, List.nil_append, seg_cons, seg_cons]
          refine ⟨?_, ?_, ?_⟩
          · rw [q4.cell _ (by omega), l3 _ (by omega) (by omega)]; exact k1
          · rw [show first + m - 3 + 1 = first + m - 2 by omega, q4.cell _ (by omega)]; exact l1
          · rw [show first + m - 3 + 1 + 1 = first + (m + 2) - 3 by omega]; exact q2
        split at hgap
        · exact fin j1 j2 (.refl _) hgap
        · exact fin j2 j1 (List.Perm.swap _ _ _) hgap
      cases hyx : lt y x with
      | true =>
        have hu : cmp3 lt x y > 0 := by have := cmp3_pos hlt (x := x) (y := y); rw [hyx] at this; simpa using this
        simp only [hu, if_true]
        refine main 1 y x (by omega) ?_ ?_ (ssort_pair true hyx)
        · rw [show first + (m - 1 + 1) = first + m - 1 + 1 by omega]; exact y1
        · rw [show first + (m - 1) = first + m - 1 by omega]; exact x1
      | false =>
        have hu : ¬ cmp3 lt x y > 0 := by have := cmp3_pos hlt (x := x) (y := y); rw [hyx] at this; simpa using this
        simp only [hu, if_false]
        refine main 0 x y (by omega) ?_ ?_ (ssort_pair false hyx)
        · rw [show first + (m - 1 + 0) = first + m - 1 by omega]; exact x1
        · rw [show first + (m - 0) = first + m - 1 + 1 by omega]; exact y1

/-- What is done with the last elements: they go to the left over the buffer. -/
def TailOk (b : GrailBuf) (h last : Nat) (tail : Nat → M α Unit) : Prop :=
  ∀ (s : St α) (p0 : Nat) (xs J : List α), J.length = h → h ≤ p0 → xs.length ≤ h → last = p0 + xs.length → Gap b s.cell (p0 - h) J →
    Seg s.cell p0 xs →
    wp (tail p0) (fun _ s' => ∃ J', J'.Perm J ∧ Seg s'.cell (p0 - h) xs ∧ Gap b s'.cell (last - h) J' ∧ Frame (p0 - h) last s s') s

theorem buildPass_spec (hlt : StrictWeak lt) {b : GrailBuf} {h last : Nat} (hh : 0 < h) {tail : Nat → M α Unit} (ht : TailOk b h last tail)
    (n : Nat) : ∀ (xs J : List α) (p0 : Nat) (s : St α), xs.length = n → J.length = h → h ≤ p0 → last = p0 + xs.length →
    Gap b s.cell (p0 - h) J → Seg s.cell p0 (chunkSort lt h xs) →
    wp (buildPass (tick lt) b.put tail h last p0) (fun _ s' => ∃ J', J'.Perm J ∧ Seg s'.cell (p0 - h) (chunkSort lt (2 * h) xs) ∧
      Gap b s'.cell (last - h) J' ∧ Frame (p0 - h) last s s') s := by
  induction n using Nat.strongRecOn with
  | _ n ih =>
    intro xs J p0 s hn hJ hp hl hg hs
    rw [buildPass]
    split
    · rename_i h2
      obtain ⟨A, B, C, rfl, hA, hB⟩ : ∃ A B C, xs = A ++ (B ++ C) ∧ A.length = h ∧ B.length = h :=
        ⟨xs.take h, (xs.drop h).take h, (xs.drop h).drop h, by rw [List.take_append_drop, List.take_append_drop],
          by rw [List.length_take]; omega, by rw [List.length_take, List.length_drop]; omega⟩
      rw [chunkSort_append hh hA, chunkSort_append hh hB] at hs
      simp only [List.length_append] at hl hn
      obtain ⟨s1, s2⟩ := seg_append.1 hs
      obtain ⟨s2, s3⟩ := seg_append.1 s2
      simp only [ssort_length] at s2 s3
      apply wp_bind
      refine wp_mono (mergeLeft_spec hlt (b := b) (X := ssort lt A) (Y := ssort lt B) (J := J) (by omega) (by simp; omega) (by simp; omega)
        (by simp; omega) hg s1 (by rw [← hA]; exact s2)) ?_
      rintro _ t ⟨J1, q1, q2, q3, q4⟩
      simp only [ssort_length] at q3
      rw [ssort_merge hlt] at q2
      refine wp_mono (ih C.length (by omega) C J1 (p0 + 2 * h) t rfl (by rw [q1.length_eq, hJ]) (by omega) (by omega) ?_ ?_) ?_
      · rw [show p0 + 2 * h - h = p0 - h + (A.length + B.length) by omega]; exact q3
      · rw [show p0 + 2 * h = p0 + A.length + B.length by omega]
        exact s3.congr fun i h1 h2 => q4.cell i (by omega)
      · rintro _ t2 ⟨J2, r1, r2, r3, r4⟩
        refine ⟨J2, r1.trans q1, ?_, r3, (q4.mono (Nat.le_refl _) (by omega)).trans (r4.mono (by omega) (Nat.le_refl _))⟩
        rw [← List.append_assoc, chunkSort_append (by omega) (by simp; omega), seg_append, ssort_length]
        refine ⟨q2.congr fun i h1 h2 => r4.cell i (by simp at h2; omega), ?_⟩
        rw [List.length_append, show p0 - h + (A.length + B.length) = p0 + 2 * h - h by omega]; exact r2
    · rename_i h2
      split
      · rename_i h1
        obtain ⟨A, B, rfl, hA⟩ : ∃ A B, xs = A ++ B ∧ A.length = h := ⟨xs.take h, xs.drop h, by simp, by simp; omega⟩
        simp only [List.length_append] at hl hn
        rw [chunkSort_append hh hA, chunkSort_short hh (by omega)] at hs
        obtain ⟨s1, s2⟩ := seg_append.1 hs
        simp only [ssort_length] at s2
        refine wp_mono (mergeLeft_spec hlt (b := b) (X := ssort lt A) (Y := ssort lt B) (J := J) (by omega) (by simp; omega) (by simp; omega)
          (by simp; omega) hg s1 (by rw [← hA]; exact s2)) ?_
        rintro _ t ⟨J1, q1, q2, q3, q4⟩
        simp only [ssort_length] at q3
        rw [ssort_merge hlt] at q2
        refine ⟨J1, q1, ?_, ?_, q4⟩
        · rw [chunkSort_short (by omega) (by simp; omega)]; exact q2
        · rw [show last - h = p0 - h + (A.length + B.length) by omega]; exact q3
      · rename_i h1
        rw [chunkSort_short hh (by omega)] at hs
        rw [chunkSort_short (by omega) (by omega)]
        exact ht s p0 (ssort lt xs) J hJ hp (by simp; omega) (by simp; omega) hg hs

theorem buildPasses_spec (hlt : StrictWeak lt) {b : GrailBuf} {limit : Nat} {tail : Nat → Nat → Nat → M α Unit}
    (ht : ∀ h last, 0 < h → TailOk b h last (tail h last)) : ∀ (k h first last : Nat) (xs J : List α) (s : St α),
    limit = h * 2 ^ k → 0 < h → J.length = limit - h → limit - h ≤ first → last = first + xs.length →
    Gap b s.cell (first - (limit - h)) J → Seg s.cell first (chunkSort lt h xs) →
    wp (buildPasses (tick lt) b.put tail limit h first last) (fun r s' => ∃ J', J'.Perm J ∧
      r = (limit, first - (limit - h), last - (limit - h)) ∧ Seg s'.cell (first - (limit - h)) (chunkSort lt limit xs) ∧
      Gap b s'.cell (last - (limit - h)) J' ∧ Frame (first - (limit - h)) last s s') s := by
  intro k
  induction k with
  | zero =>
    intro h first last xs J s hl hh hJ hf hla hg hs
    simp only [Nat.pow_zero, Nat.mul_one] at hl
    subst hl
    rw [buildPasses, if_neg (by omega)]
    have : J = [] := by rw [← List.length_eq_zero_iff]; omega
    subst this
    exact wp_pure ⟨[], .refl _, by simp, by simpa using hs, Gap.nil, Frame.refl _ _ _⟩
  | succ k ih =>
    intro h first last xs J s hl hh hJ hf hla hg hs
    have hk : 0 < 2 ^ k := Nat.pow_pos (by omega)
    have hl2 : limit = 2 * h * 2 ^ k := by rw [hl, Nat.pow_succ]; ring
    have hle : 2 * h ≤ limit := by rw [hl2]; exact Nat.le_mul_of_pos_right _ hk
    rw [buildPasses, if_pos (by omega)]
    obtain ⟨J0, J1, rfl, hJ1⟩ : ∃ J0 J1, J = J0 ++ J1 ∧ J1.length = h :=
      ⟨J.take (limit - h - h), J.drop (limit - h - h), by simp, by simp; omega⟩
    simp only [List.length_append] at hJ
    obtain ⟨g0, g1⟩ := gap_append.1 hg
    apply wp_bind
    refine wp_mono (buildPass_spec hlt hh (ht h last hh) _ xs J1 first s rfl hJ1 (by omega) hla ?_ hs) ?_
    · rw [show first - h = first - (limit - h) + J0.length by omega]; exact g1
    rintro _ t ⟨J1', q1, q2, q3, q4⟩
    rw [Nat.mul_comm h 2]
    refine wp_mono (ih (2 * h) (first - h) (last - h) xs J0 t hl2 (by omega) (by omega) (by omega) (by omega) ?_ q2) ?_
    · rw [show first - h - (limit - 2 * h) = first - (limit - h) by omega]
      exact g0.congr fun i h1 h2 => q4.cell i (by omega)
    rintro r t2 ⟨J0', r1, r2, r3, r4, r5⟩
    refine ⟨J0' ++ J1', r1.append q1, ?_, ?_, gap_append.2 ⟨?_, ?_⟩, ?_⟩
    · rw [r2]; simp only [Prod.mk.injEq, true_and]; omega
    · rw [show first - (limit - h) = first - h - (limit - 2 * h) by omega]; exact r3
    · rw [show last - (limit - h) = last - h - (limit - 2 * h) by omega]; exact r4
    · have := r1.length_eq
      rw [show last - (limit - h) + J0'.length = last - h by omega]
      exact q3.congr fun i h1 h2 => r5.cell i (by omega)
    · refine (q4.mono (by omega) (Nat.le_refl _)).trans (r5.mono (by omega) (by omega))

theorem tail_moves {h last : Nat} (hh : 0 < h) : TailOk (α := α) .extra h last (fun p0 => putRange moveTo p0 last (p0 - h)) := by
  intro s p0 xs J hJ hp hx hl hg hs
  refine wp_mono (putRange_spec (b := .extra) xs J (p0 - h) p0 last s (by omega) hl (by omega) hg hs) ?_
  rintro _ s' ⟨J', q1, q2, q3, q4⟩
  refine ⟨J', q1, q2, ?_, q4⟩
  rw [show last - h = p0 - h + xs.length by omega]; exact q3

theorem tail_rotate [Inhabited α] (c : Cfg) {h last : Nat} :
    TailOk (α := α) .inner h last (fun p0 => do let _ ← rotate c (p0 - h) p0 last; pure ()) := by
  intro s p0 xs J hJ hp hx hl hg hs
  apply wp_bind
  refine wp_mono (rotate_seg c (a := J) (b := xs) (m := p0) (l := last) (seg_append.2 ⟨hg, ?_⟩) (by omega) hl) ?_
  · rw [show p0 - h + J.length = p0 by omega]; exact hs
  rintro _ s' ⟨-, q2, q3⟩
  obtain ⟨q4, q5⟩ := seg_append.1 q2
  refine wp_pure ⟨J, .refl _, q4, ?_, q3⟩
  show Seg _ _ _
  rw [show last - h = p0 - h + xs.length by omega]; exact q5

/-! ### The size of the buffer to use -/

theorem buildKbuf_spec (n : Nat) : ∀ (k : Nat) (s : St α), k = n →
    wp (buildKbuf (α := α) k) (fun r s' => s' = s ∧ r ≤ k ∧ (r = 0 → k = 0) ∧ (k ≠ 0 → ∃ a, r = 2 ^ a) ∧ (k ≠ 1 → r ≠ 1)) s := by
  induction n using Nat.strongRecOn with
  | _ n ih =>
    intro k s hk
    rw [buildKbuf]
    split
    · rename_i h
      have hk0 : k ≠ 0 := by rintro rfl; simp at h
      have hnp : ¬ k.isPowerOfTwo := fun hp => h ((Nat.and_sub_one_eq_zero_iff_isPowerOfTwo hk0).2 hp)
      have hb := Nat.and_sub_one_testBit_log2 hk0 hnp
      have hle : k &&& (k - 1) ≤ k - 1 := Nat.and_le_right
      have hge := Nat.ge_two_pow_of_testBit hb
      refine wp_mono (ih (k &&& (k - 1)) (by omega) _ s rfl) ?_
      rintro r s' ⟨h1, h2, h3, h4, h5⟩
      refine ⟨h1, by clear h4; omega, fun h0 => absurd (h3 h0) h, fun _ => h4 h, fun _ => h5 ?_⟩
      intro e
      have hk2 : k ≠ 1 := by rintro rfl; simp at h
      clear h4
      have : 2 ≤ 2 ^ k.log2 := by
        have : 1 ≤ k.log2 := (Nat.le_log2 hk0).2 (by omega)
        calc 2 = 2 ^ 1 := rfl
          _ ≤ 2 ^ k.log2 := Nat.pow_le_pow_right (by omega) this
      omega
    · rename_i h
      refine wp_pure ⟨rfl, Nat.le_refl _, id, fun h0 => ?_, id⟩
      exact (Nat.and_sub_one_eq_zero_iff_isPowerOfTwo h0).1 (by simpa using h)

/-! ### The start -/

theorem buildStart_spec (hlt : StrictWeak lt) {xs J : List α} {first last kbuf extbuf n K a : Nat} {s : St α}
    (hl : last = first + xs.length) (hJ : J.length = K) (hK : K ≤ first) (hK2 : 2 ≤ K)
    (hk : kbuf = 0 ∨ 2 ≤ kbuf) (hp : kbuf = 0 ∨ kbuf = 2 ^ a) (hkK : kbuf ≤ K) (hkn : kbuf ≤ n)
    (hd : last ≤ extbuf ∨ extbuf + n ≤ first - K) (hlive : ∀ i, extbuf ≤ i → i < extbuf + n → Live s.cell i)
    (sj : Seg s.cell (first - K) J) (sx : Seg s.cell first xs) :
    wp (buildStart (tick lt) first last kbuf extbuf) (fun r s' => ∃ h J0 J1, r = (h, first - h, last - h) ∧ (h = 2 ∨ h = kbuf) ∧
      2 ≤ h ∧ h ≤ K ∧ J0.length = K - h ∧ J1.length = h ∧ (J0 ++ J1).Perm J ∧ Seg s'.cell (first - K) J0 ∧
      Seg s'.cell (first - h) (chunkSort lt h xs) ∧ Seg s'.cell (last - h) J1 ∧ GFrame (first - h) last extbuf n s s') s := by
  unfold buildStart
  split
  · rename_i hk0
    have hk2 : 2 ≤ kbuf := by omega
    have hpa : kbuf = 2 ^ a := by omega
    obtain ⟨J0, J1, rfl, hJ1⟩ : ∃ J0 J1, J = J0 ++ J1 ∧ J1.length = kbuf :=
      ⟨J.take (K - kbuf), J.drop (K - kbuf), by rw [List.take_append_drop], by rw [List.length_drop]; omega⟩
    rw [List.length_append] at hJ
    obtain ⟨s0, s1⟩ := seg_append.1 sj
    have s1 : Seg s.cell (first - kbuf) J1 := by rw [show first - kbuf = first - K + J0.length by omega]; exact s1
    apply wp_bind
    refine wp_mono (putAway_spec J1 (first - kbuf) first extbuf s (by omega) (by omega) s1 fun i h1 h2 => hlive i h1 (by omega)) ?_
    rintro _ t1 ⟨q1, q2, q3, q4⟩
    rw [hJ1] at q2 q3
    -- the gap, of any elements
    obtain ⟨Ja, j1, j2, rfl⟩ : ∃ Ja j1 j2, J1 = Ja ++ [j1, j2] := by
      have e : J1 = J1.take (kbuf - 2) ++ J1.drop (kbuf - 2) := (List.take_append_drop _ _).symm
      have l : (J1.drop (kbuf - 2)).length = 2 := by rw [List.length_drop]; omega
      match hm : J1.drop (kbuf - 2), l with
      | [u, v], _ => exact ⟨J1.take (kbuf - 2), u, v, by rw [← hm]; exact e⟩
    rw [List.length_append] at hJ1
    simp only [List.length_cons, List.length_nil] at hJ1
    have hL1 : (Ja ++ [j1, j2]).length = kbuf := by rw [List.length_append]; simp only [List.length_cons, List.length_nil]; omega
    apply wp_bind
    refine wp_mono (buildPairs_spec hlt (b := .extra) xs.length xs j1 j2 first (last - first) 1 t1 rfl (by omega) (by omega) (by omega) ?_ ?_) ?_
    · intro i h1 h2
      simp only [List.length_cons, List.length_nil] at h2
      exact q2 i (by omega) (by omega)
    · rw [show first + 1 - 1 = first by omega]
      exact sx.congr fun i h1 h2 => q3 i (by omega) (by omega)
    rintro _ t2 ⟨Jp, r1, r2, r3, r4⟩
    apply wp_bind
    have hlim : kbuf = 2 * 2 ^ (a - 1) := by
      have : a ≠ 0 := by rintro rfl; simp at hpa; omega
      rw [hpa]
      conv_lhs => rw [show a = (a - 1) + 1 by omega, Nat.pow_succ]
      omega
    refine wp_mono (buildPasses_spec hlt (b := .extra) (limit := kbuf) (fun h last hh => tail_moves hh) (a - 1) 2 (first - 2) (last - 2) xs Ja t2
      hlim (by omega) (by omega) (by omega) (by omega) ?_ ?_) ?_
    · intro i h1 h2
      unfold Live
      rw [r4.cell i (by omega)]
      exact q2 i (by omega) (by omega)
    · rw [show first - 2 = first + 1 - 3 by omega]; exact r2
    rintro r t3 ⟨Jq, u1, u2, u3, u4, u5⟩
    subst u2
    have hq := u1.length_eq
    have hpq := r1.length_eq
    simp only [List.length_cons, List.length_nil] at hpq
    apply wp_bind
    refine wp_mono (putAway_spec (Ja ++ [j1, j2]) extbuf (extbuf + kbuf) (last - 2 - (kbuf - 2)) t3 (by omega) (by omega) ?_ ?_) ?_
    · refine q1.congr fun i h1 h2 => ?_
      rw [u5.cell i (by omega), r4.cell i (by omega)]
    · intro i h1 h2
      by_cases hi : i < last - 2
      · exact u4 i (by omega) (by omega)
      · unfold Live
        rw [u5.cell i (by omega)]
        exact r3 i (by omega) (by omega)
    rintro _ t4 ⟨v1, v2, v3, v4⟩
    rw [hL1] at v2 v3
    refine wp_pure ⟨kbuf, J0, Ja ++ [j1, j2], ?_, .inr rfl, hk2, hkK, by omega, hL1, .refl _, ?_, ?_, ?_, ?_⟩
    · simp only [Prod.mk.injEq, true_and]; omega
    · refine s0.congr fun i h1 h2 => ?_
      rw [v3 i (by omega) (by omega), u5.cell i (by omega), r4.cell i (by omega), q3 i (by omega) (by omega)]
    · rw [show first - kbuf = first - 2 - (kbuf - 2) by omega]
      refine u3.congr fun i h1 h2 => ?_
      rw [chunkSort_length] at h2
      rw [v3 i (by omega) (by omega)]
    · rw [show last - kbuf = last - 2 - (kbuf - 2) by omega]; exact v1
    · refine ⟨fun i h1 h2 => ?_, fun i h1 h2 => ?_, ?_⟩
      · rw [v3 i (by omega) (by omega), u5.cell i (by omega), r4.cell i (by omega), q3 i (by omega) (by omega)]
      · by_cases hi : i < extbuf + kbuf
        · exact v2 i h1 hi
        · unfold Live
          rw [v3 i (by omega) (by omega), u5.cell i (by omega), r4.cell i (by omega), q3 i (by omega) (by omega)]
          exact hlive i h1 h2
      · exact (EnvLe.of_env q4).trans (r4.brk.trans (u5.brk.trans (EnvLe.of_env v4)))
  · rename_i hk0
    obtain ⟨J0, j1, j2, rfl⟩ : ∃ J0 j1 j2, J = J0 ++ [j1, j2] := by
      have e : J = J.take (K - 2) ++ J.drop (K - 2) := (List.take_append_drop _ _).symm
      have l : (J.drop (K - 2)).length = 2 := by rw [List.length_drop]; omega
      match hm : J.drop (K - 2), l with
      | [u, v], _ => exact ⟨J.take (K - 2), u, v, by rw [← hm]; exact e⟩
    rw [List.length_append] at hJ
    simp only [List.length_cons, List.length_nil] at hJ
    obtain ⟨s0, s1⟩ := seg_append.1 sj
    apply wp_bind
    refine wp_mono (buildPairs_spec hlt (b := .inner) xs.length xs j1 j2 first (last - first) 1 s rfl (by omega) (by omega) (by omega) ?_ ?_) ?_
    · show Seg _ _ _
      rw [show first + 1 - 3 = first - K + J0.length by omega]; exact s1
    · rw [show first + 1 - 1 = first by omega]; exact sx
    rintro _ t ⟨Jp, r1, r2, r3, r4⟩
    have hpq := r1.length_eq
    refine wp_pure ⟨2, J0, Jp, rfl, .inl rfl, by omega, by omega, by omega, hpq, r1.append_left _, ?_, ?_, ?_, ?_⟩
    · exact s0.congr fun i h1 h2 => r4.cell i (by omega)
    · rw [show first - 2 = first + 1 - 3 by omega]; exact r2
    · rw [show last - 2 = first + (last - first) - 2 by omega]; exact r3
    · exact (r4.mono (f := first - 2) (l := last) (by omega) (by omega)).g (by omega) hlive

/-! ### The end -/

theorem buildRights_spec (hlt : StrictWeak lt) {K : Nat} (hK : 0 < K) : ∀ (q : Nat) (A J : List α) (first p : Nat) (s : St α),
    A.length = q * (2 * K) → J.length = K → p = first + A.length → Seg s.cell first (chunkSort lt K A) → Seg s.cell p J →
    wp (buildRights (tick lt) K first p) (fun _ s' => ∃ J', J'.Perm J ∧ Seg s'.cell first J' ∧
      Seg s'.cell (first + K) (chunkSort lt (2 * K) A) ∧ Frame first (p + K) s s') s := by
  intro q
  induction q with
  | zero =>
    intro A J first p s hA hJ hp sa sj
    have : A = [] := by rw [← List.length_eq_zero_iff, hA, Nat.zero_mul]
    subst this
    simp only [List.length_nil, Nat.add_zero] at hp
    subst hp
    rw [buildRights, if_neg (by omega)]
    exact wp_pure ⟨J, .refl _, sj, by rw [chunkSort_nil]; exact Seg.nil, Frame.refl _ _ _⟩
  | succ q ih =>
    intro A J first p s hA hJ hp sa sj
    rw [Nat.succ_mul] at hA
    obtain ⟨A', B, C, rfl, hB, hC⟩ : ∃ A' B C, A = A' ++ (B ++ C) ∧ B.length = K ∧ C.length = K :=
      ⟨A.take (q * (2 * K)), (A.drop (q * (2 * K))).take K, (A.drop (q * (2 * K))).drop K,
        by rw [List.take_append_drop, List.take_append_drop], by rw [List.length_take, List.length_drop]; omega,
        by rw [List.length_drop, List.length_drop]; omega⟩
    simp only [List.length_append] at hA hp
    have hA' : A'.length = (q * 2) * K := by rw [Nat.mul_assoc]; omega
    have hA2 : A'.length = q * (2 * K) := by omega
    rw [chunkSort_append_mul hK _ hA', chunkSort_append hK hB, chunkSort_short (X := C) hK (by omega)] at sa
    obtain ⟨s1, s2⟩ := seg_append.1 sa
    obtain ⟨s2, s3⟩ := seg_append.1 s2
    rw [chunkSort_length] at s2 s3
    rw [ssort_length] at s3
    rw [buildRights, if_pos (by omega)]
    apply wp_bind
    refine wp_mono (mergeRight_spec hlt (X := ssort lt B) (Y := ssort lt C) (J := J) (by rw [ssort_length]; omega) (by rw [ssort_length]; omega)
      (by omega) (by intro e; have := congrArg List.length e; rw [ssort_length, List.length_nil] at this; omega) (by rw [ssort_length]; omega)
      (ssort_sorted hlt _) (ssort_sorted hlt _) ?_ ?_ ?_) ?_
    · rw [show p - 2 * K = first + A'.length by omega]; exact s2
    · rw [show p - 2 * K + K = first + A'.length + B.length by omega]; exact s3
    · rw [show p - 2 * K + (K + K) = p by omega]; exact sj
    rintro _ t ⟨J1, q1, q2, q3, q4⟩
    rw [ssort_merge hlt] at q3
    refine wp_mono (ih A' J1 first (p - 2 * K) t hA2 (by rw [q1.length_eq, hJ]) (by omega) ?_ q2) ?_
    · exact s1.congr fun i h1 h2 => q4.cell i (by rw [chunkSort_length] at h2; omega)
    rintro _ t2 ⟨J2, r1, r2, r3, r4⟩
    refine ⟨J2, r1.trans q1, r2, ?_, (q4.mono (by omega) (by omega)).trans (r4.mono (by omega) (by omega))⟩
    rw [chunkSort_append_mul (by omega) _ hA2, chunkSort_short (X := B ++ C) (by omega) (by simp only [List.length_append]; omega), seg_append]
    refine ⟨r3, ?_⟩
    rw [chunkSort_length, show first + K + A'.length = p - 2 * K + J.length by omega]
    exact q3.congr fun i h1 h2 => r4.cell i (by omega)

theorem buildLast_spec [Inhabited α] (hlt : StrictWeak lt) (c : Cfg) {K last restk : Nat} {B J : List α} {s : St α} (hB : B.length = restk)
    (hle : restk ≤ last) (h2 : restk ≤ 2 * K) (hK : 0 < K) (hJ : J.length = K) (sb : Seg s.cell (last - restk) (chunkSort lt K B)) (sj : Seg s.cell last J) :
    wp (buildLast (tick lt) c K last restk) (fun _ s' => ∃ J', J'.Perm J ∧ Seg s'.cell (last - restk) J' ∧
      Seg s'.cell (last - restk + K) (chunkSort lt (2 * K) B) ∧ Frame (last - restk) (last + K) s s') s := by
  unfold buildLast
  split
  · rename_i h
    rw [chunkSort_short hK (by omega)] at sb
    rw [chunkSort_short (by omega) (by omega)]
    apply wp_bind
    refine wp_mono (rotate_seg c (a := ssort lt B) (b := J) (m := last) (l := last + K) (seg_append.2 ⟨sb, ?_⟩) (by rw [ssort_length]; omega)
      (by omega)) ?_
    · rw [ssort_length, show last - restk + B.length = last by omega]; exact sj
    rintro _ s' ⟨-, q2, q3⟩
    obtain ⟨q4, q5⟩ := seg_append.1 q2
    refine wp_pure ⟨J, .refl _, q4, ?_, q3⟩
    rw [← hJ]; exact q5
  · rename_i h
    obtain ⟨X, Y, rfl, hX⟩ : ∃ X Y, B = X ++ Y ∧ X.length = K :=
      ⟨B.take K, B.drop K, by rw [List.take_append_drop], by rw [List.length_take]; omega⟩
    rw [List.length_append] at hB
    rw [chunkSort_append hK hX, chunkSort_short hK (by omega)] at sb
    rw [chunkSort_short (by omega) (by rw [List.length_append]; omega)]
    obtain ⟨s1, s2⟩ := seg_append.1 sb
    rw [ssort_length, hX] at s2
    refine wp_mono (mergeRight_spec hlt (X := ssort lt X) (Y := ssort lt Y) (J := J) (by rw [ssort_length]; omega) (by rw [ssort_length]; omega)
      (by omega) (by intro e; have := congrArg List.length e; rw [ssort_length, List.length_nil] at this; omega) (by rw [ssort_length]; omega)
      (ssort_sorted hlt _) (ssort_sorted hlt _) s1 s2 sj) ?_
    rintro _ t ⟨J1, q1, q2, q3, q4⟩
    rw [ssort_merge hlt, hJ] at q3
    exact ⟨J1, q1, q2, q3, q4⟩

theorem buildBlocks_spec [Inhabited α] (hlt : StrictWeak lt) (c : Cfg) {xs J : List α} {first last K extbuf n LExt e : Nat} {s : St α}
    (hl : last = first + xs.length) (hJ : J.length = K) (hK : K ≤ first) (hK2 : 2 ≤ K) (hKp : K = 2 ^ e) (hL : LExt ≠ 1) (hLn : LExt ≤ n)
    (hd : last ≤ extbuf ∨ extbuf + n ≤ first - K) (hlive : ∀ i, extbuf ≤ i → i < extbuf + n → Live s.cell i)
    (sj : Seg s.cell (first - K) J) (sx : Seg s.cell first xs) :
    wp (buildBlocks (tick lt) c first last K extbuf LExt) (fun _ s' => ∃ J', J'.Perm J ∧ Seg s'.cell (first - K) J' ∧
      Seg s'.cell first (chunkSort lt (2 * K) xs) ∧ GFrame (first - K) last extbuf n s s') s := by
  unfold buildBlocks
  apply wp_bind
  refine wp_mono (buildKbuf_spec _ _ s rfl) ?_
  rintro kbuf _ ⟨rfl, k1, k2, k3, k4⟩
  have hk0 : kbuf = 0 ∨ 2 ≤ kbuf := by omega
  obtain ⟨a, ha⟩ : ∃ a, kbuf = 0 ∨ kbuf = 2 ^ a := by
    by_cases h : min K LExt = 0
    · exact ⟨0, .inl (by omega)⟩
    · obtain ⟨a, ha⟩ := k3 h
      exact ⟨a, .inr ha⟩
  clear k3
  apply wp_bind
  refine wp_mono (buildStart_spec hlt (a := a) (n := n) hl hJ hK hK2 hk0 ha (by omega) (by omega) hd hlive sj sx) ?_
  rintro _ t1 ⟨h, J0, J1, rfl, hh, hh2, hhK, hJ0, hJ1, hpJ, a1, a2, a3, a4⟩
  simp only []
  obtain ⟨m, hm⟩ : ∃ m, K = h * 2 ^ m := by
    have : ∃ b, h = 2 ^ b := by
      rcases hh with hh | hh
      · exact ⟨1, hh⟩
      · rcases ha with ha | ha
        · omega
        · exact ⟨a, by rw [hh, ha]⟩
    obtain ⟨b, hb⟩ := this
    have hbe : b ≤ e := by
      rw [hb, hKp] at hhK
      exact (Nat.pow_le_pow_iff_right (by omega)).1 hhK
    exact ⟨e - b, by rw [hKp, hb, ← Nat.pow_add]; congr 1; omega⟩
  apply wp_bind
  refine wp_mono (buildPasses_spec hlt (b := .inner) (limit := K) (fun h last hh => tail_rotate c) m h (first - h) (last - h) xs J0 t1
    hm (by omega) hJ0 (by omega) (by omega) ?_ a2) ?_
  · show Seg _ _ _
    rw [show first - h - (K - h) = first - K by omega]; exact a1
  rintro _ t2 ⟨J2, b1, rfl, b2, b3, b4⟩
  simp only []
  have e1 : first - h - (K - h) = first - K := by omega
  have e2 : last - h - (K - h) = last - K := by omega
  rw [e1] at b2 b4 ⊢
  rw [e2] at b3 ⊢
  have hJ2 := b1.length_eq
  have sj2 : Seg t2.cell (last - K) (J2 ++ J1) := by
    refine seg_append.2 ⟨b3, ?_⟩
    rw [show last - K + J2.length = last - h by omega]
    exact a3.congr fun i h1 h2 => b4.cell i (by omega)
  have hmod : (last - first) % (2 * K) < 2 * K := Nat.mod_lt _ (by omega)
  have hdm := Nat.div_add_mod (last - first) (2 * K)
  obtain ⟨A, B, rfl, hA, hB⟩ : ∃ A B, xs = A ++ B ∧ A.length = (last - first) / (2 * K) * (2 * K) ∧ B.length = (last - first) % (2 * K) :=
    ⟨xs.take (2 * K * ((last - first) / (2 * K))), xs.drop (2 * K * ((last - first) / (2 * K))), by rw [List.take_append_drop],
      by rw [List.length_take, Nat.mul_comm ((last - first) / (2 * K))]; omega, by rw [List.length_drop]; omega⟩
  generalize hrk : (last - first) % (2 * K) = restk at *
  rw [List.length_append] at hl
  have hA' : A.length = ((last - first) / (2 * K) * 2) * K := by rw [Nat.mul_assoc]; exact hA
  rw [chunkSort_append_mul (by omega) _ hA'] at b2
  obtain ⟨c1, c2⟩ := seg_append.1 b2
  rw [chunkSort_length] at c2
  apply wp_bind
  refine wp_mono (buildLast_spec hlt c (J := J2 ++ J1) hB (by omega) (by omega) (by omega) (by simp only [List.length_append]; omega) ?_ sj2) ?_
  · rw [show last - K - restk = first - K + A.length by omega]; exact c2
  rintro _ t3 ⟨J3, d1, d2, d3, d4⟩
  have hJ3 := d1.length_eq
  rw [List.length_append] at hJ3
  refine wp_mono (buildRights_spec hlt (by omega) _ A J3 (first - K) (last - K - restk) t3 hA (by omega) (by omega) ?_ d2) ?_
  · exact c1.congr fun i h1 h2 => d4.cell i (by rw [chunkSort_length] at h2; omega)
  rintro _ t4 ⟨J4, f1, f2, f3, f4⟩
  refine ⟨J4, ?_, f2, ?_, ?_⟩
  · exact f1.trans (d1.trans ((b1.append_right _).trans hpJ))
  · rw [chunkSort_append_mul (by omega) _ hA, seg_append, chunkSort_length]
    refine ⟨?_, ?_⟩
    · rw [show first - K + K = first by omega] at f3; exact f3
    · rw [show first + A.length = last - K - restk + K by omega]
      exact d3.congr fun i h1 h2 => f4.cell i (by omega)
  · have g1 : Frame (first - K) last t1 t4 := (b4.mono (Nat.le_refl _) (by omega)).trans
      ((d4.mono (by omega) (by omega)).trans (f4.mono (Nat.le_refl _) (by omega)))
    exact (a4.mono (by omega) (Nat.le_refl _)).trans (g1.g hd a4.live)

end CppSort
