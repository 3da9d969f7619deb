import Verif.Proof.InplaceMerge
import Verif.Proof.Insertion
set_option autoImplicit false

namespace CppSort
variable {α : Type} {lt : α → α → Bool}

theorem inplaceMergeBuf_spec (hlt : StrictWeak lt) (c : Cfg) (hc : c.cat ≠ .forward)
    {first middle last len1 len2 buff buffSize : Nat} (e1 : middle = first + len1)
    (e2 : last = middle + len2) :
    Merges lt first middle last buff buffSize
      (inplaceMergeBuf (tick lt) c first middle last len1 len2 buff buffSize) := by
  unfold inplaceMergeBuf
  split
  · exact absurd (by assumption) hc
  · exact recmergeBi_spec hlt c _ _ _ _ _ _ (Nat.le_refl _) e1 e2
  · have := symmerge_spec hlt c first (buff := buff) (buffSize := buffSize) (len1 + len2) 0
      (middle - first) (last - first) len1 len2 (Nat.le_refl _) (by omega) (by omega)
    rwa [show first + 0 = first by omega, show first + (middle - first) = middle by omega,
      show first + (last - first) = last by omega] at this

theorem skipLeft_spec {f middle l : Nat} {v : Nat → α} : ∀ (n first : Nat) (s : St α),
    middle = first + n → f ≤ first → (first < middle → middle < l) → Holds s.cell f l v →
    wp (skipLeft (tick lt) first middle) (fun r s' => (∃ k, s' = { s with cmps := k }) ∧
      first ≤ r ∧ r ≤ middle ∧ (∀ i, first ≤ i → i < r → lt (v middle) (v i) = false) ∧
      (r < middle → lt (v middle) (v r) = true)) s := by
  intro n
  induction n with
  | zero =>
    intro first s h1 h2 h3 hh
    rw [skipLeft, if_neg (by omega)]
    apply wp_pure
    exact ⟨⟨_, rfl⟩, by omega, by omega, fun i _ _ => by omega, fun _ => by omega⟩
  | succ n ih =>
    intro first s h1 h2 h3 hh
    have h3' := h3 (by omega)
    rw [skipLeft, if_pos (by omega)]
    wread hh; wread hh; wtick
    split
    · rename_i hc
      have hc : lt (v middle) (v first) = false := by simpa using hc
      refine wp_mono (ih (first + 1) _ (by omega) (by omega) (fun _ => h3') hh) ?_
      rintro r s' ⟨⟨k, rfl⟩, a, b, c, d⟩
      refine ⟨⟨k, rfl⟩, by omega, b, fun i p q => ?_, d⟩
      by_cases e : i = first
      · rw [e]; exact hc
      · exact c i (by omega) q
    · rename_i hc
      apply wp_pure
      exact ⟨⟨_, rfl⟩, by omega, by omega, fun i _ _ => by omega, fun _ => by simpa using hc⟩

/-! ### Temporary buffers -/

/-- Memory with the buffer taken away. -/
def hide (b : Buf) (c : Nat → Cell α) (i : Nat) : Cell α :=
  if b.ptr ≤ i ∧ i < b.ptr + b.size then .unalloc else c i

theorem hide_null (c : Nat → Cell α) : hide Buf.null c = c := by
  funext i; unfold hide Buf.null; rw [if_neg (by simp only; omega)]

/-- Everything outside `[f, l)` and the buffer is unchanged. -/
structure BFrame (f l : Nat) (b b' : Buf) (s s' : St α) : Prop where
  cell : ∀ i, (i < f ∨ l ≤ i) → hide b' s'.cell i = hide b s.cell i
  brk : EnvLe s s'
  raw : RawBuf s'.cell b'.ptr b'.size
  wf : s'.WF

theorem BFrame.of_upd {f l : Nat} {b : Buf} {s s' : St α} {v v' : Nat → α} (hw : s.WF)
    (hr : RawBuf s.cell b.ptr b.size) (hh : Holds s.cell f l v) (hu : Upd f l s s' v v') :
    BFrame f l b b s s' := by
  refine ⟨fun i hi => ?_, hu.frame.brk, hr.upd hh hu, hu.wf hh hw⟩
  unfold hide
  split
  · rfl
  · exact hu.frame.cell i hi

theorem BFrame.trans {f l : Nat} {b b' b'' : Buf} {s s' s'' : St α} (h : BFrame f l b b' s s')
    (h' : BFrame f l b' b'' s' s'') : BFrame f l b b'' s s'' :=
  ⟨fun i hi => (h'.cell i hi).trans (h.cell i hi), h.brk.trans h'.brk, h'.raw, h'.wf⟩

theorem BFrame.mono {f l f' l' : Nat} {b b' : Buf} {s s' : St α} (h : BFrame f' l' b b' s s')
    (hf : f ≤ f') (hl : l' ≤ l) : BFrame f l b b' s s' :=
  ⟨fun i hi => h.cell i (by omega), h.brk, h.raw, h.wf⟩

theorem BFrame.tick {f l : Nat} {b b' : Buf} {s s' : St α} {n : Nat}
    (h : BFrame f l b b' { s with cmps := n } s') : BFrame f l b b' s s' :=
  ⟨h.cell, h.brk, h.raw, h.wf⟩

/-- Live values outside the range survive. -/
theorem BFrame.holds {f l f' l' : Nat} {b b' : Buf} {s s' : St α} {v : Nat → α}
    (h : BFrame f l b b' s s') (hr : RawBuf s.cell b.ptr b.size) (hh : Holds s.cell f' l' v)
    (hd : l' ≤ f ∨ l ≤ f') : Holds s'.cell f' l' v := by
  intro i p q
  have h1 := h.cell i (by omega)
  unfold hide at h1
  have h2 := hr.disj hh i p q
  rw [if_neg (c := b.ptr ≤ i ∧ _) (by omega), hh i p q] at h1
  split at h1
  · cases h1
  · exact h1

theorem getTemporaryBuffer_spec : ∀ (n count minCount : Nat) (s : St α), count ≤ n →
    wp (getTemporaryBuffer count minCount) (fun r s' =>
      (∃ k, ∀ i, s'.grant i = s.grant (i + k)) ∧
      match r with
      | none => s'.cell = s.cell ∧ s'.brk = s.brk ∧ ((∀ i, count ≤ s.grant i) → count ≤ minCount)
      | some nb => minCount < nb.size ∧ nb.size ≤ count ∧ nb.ptr = s.brk ∧
          s'.brk = s.brk + nb.size ∧ RawBuf s'.cell nb.ptr nb.size ∧
          (∀ k, (k < nb.ptr ∨ nb.ptr + nb.size ≤ k) → s'.cell k = s.cell k) ∧
          ((∀ i, count ≤ s.grant i) → nb.size = count) ∧ (∃ i, nb.size ≤ s.grant i)) s := by
  intro n
  induction n with
  | zero =>
    intro count minCount s h
    rw [getTemporaryBuffer, if_neg (by omega)]
    apply wp_pure
    exact ⟨⟨0, fun _ => rfl⟩, rfl, rfl, fun _ => by omega⟩
  | succ n ih =>
    intro count minCount s h
    rw [getTemporaryBuffer]
    split
    · apply wp_bind
      refine ⟨_, _, rfl, ?_⟩
      show wp (if count ≤ _ then _ else _) _ _
      split
      · rename_i hg
        apply wp_bind
        refine wp_alloc ?_
        intro s' a1 a2 a3 a4 _ _
        apply wp_pure
        exact ⟨⟨1, fun i => by rw [a4]⟩, by omega, Nat.le_refl _, rfl, a3, a1, a2, fun _ => rfl, 0, hg⟩
      · rename_i hg
        refine wp_mono (ih (count / 2) minCount _ (by omega)) ?_
        rintro r s' ⟨⟨k, hk⟩, hr⟩
        refine ⟨⟨k + 1, fun i => hk i⟩, ?_⟩
        match r, hr with
        | none, hr => exact ⟨hr.1, hr.2.1, fun hall => absurd (hall 0) hg⟩
        | some nb, hr =>
          obtain ⟨b1, b2, b3, b4, b5, b6, b7, i, b8⟩ := hr
          exact ⟨b1, by omega, b3, b4, b5, b6, fun hall => absurd (hall 0) hg, i + 1, b8⟩
    · apply wp_pure
      exact ⟨⟨0, fun _ => rfl⟩, rfl, rfl, fun _ => by omega⟩

theorem newBuf_spec {count : Nat} {f l : Nat} {s : St α} (hw : s.WF) :
    wp (newBuf count) (fun b s' => BFrame f l Buf.null b s s') s := by
  unfold newBuf
  apply wp_bind
  refine wp_mono (getTemporaryBuffer_spec count count 0 s (Nat.le_refl _)) ?_
  rintro r s' ⟨hgr, hr⟩
  match r, hr with
  | none, hr =>
    apply wp_pure
    refine ⟨fun i hi => by rw [hide_null, hide_null, hr.1], ⟨by rw [hr.2.1], hgr⟩, fun k a b => ?_, ?_⟩
    · have h1 : (0 : Nat) ≤ k := a
      have h2 : k < 0 + 0 := b
      omega
    · intro i hi; rw [hr.1]; exact hw i (by rw [← hr.2.1]; exact hi)
  | some nb, hr =>
    obtain ⟨b1, b2, b3, b4, b5, b6, -⟩ := hr
    apply wp_pure
    refine ⟨fun i hi => ?_, ⟨by omega, hgr⟩, b5, fun i hi => ?_⟩
    · rw [hide_null]
      unfold hide
      split
      · exact (hw i (by omega)).symm
      · exact b6 i (by omega)
    · rw [b6 i (by omega)]; exact hw i (by omega)

theorem Buf.tryGrow_spec {b : Buf} {count : Nat} {f l : Nat} {s : St α} (hw : s.WF)
    (hr : RawBuf s.cell b.ptr b.size) :
    wp (b.tryGrow count) (fun b' s' => BFrame f l b b' s s' ∧
      ((∀ i, count ≤ s.grant i) → count ≤ b'.size) ∧ ((∀ i, s.grant i = 0) → b'.size = b.size)) s := by
  unfold Buf.tryGrow
  apply wp_bind
  refine wp_mono (getTemporaryBuffer_spec count count b.size s (Nat.le_refl _)) ?_
  rintro r s' ⟨hgr, h⟩
  match r, h with
  | none, h =>
    apply wp_pure
    refine ⟨⟨fun i hi => by rw [h.1], ⟨by rw [h.2.1], hgr⟩, by rw [h.1]; exact hr, ?_⟩, h.2.2,
      fun _ => rfl⟩
    intro i hi; rw [h.1]; exact hw i (by rw [← h.2.1]; exact hi)
  | some nb, h =>
    obtain ⟨b1, b2, b3, b4, b5, b6, b7, j, b8⟩ := h
    have hb : b.size = 0 ∨ b.ptr + b.size ≤ s.brk := by
      by_contra hc
      have h1 := hr (b.ptr + b.size - 1) (by omega) (by omega)
      rw [hw _ (by omega)] at h1
      cases h1
    apply wp_bind
    refine wp_free (fun i p q => ?_) ?_
    · rw [b6 i (by omega)]; exact hr i p q
    · intro s2 c1 c2 c3 _ _
      have c3' := St.env_brk c3
      apply wp_pure
      refine ⟨⟨fun i hi => ?_, EnvLe.trans (s' := s') ⟨by omega, hgr⟩ (EnvLe.of_env c3),
        fun i p q => ?_, fun i hi => ?_⟩, fun hg => (b7 hg).ge, fun hg => ?_⟩
      · unfold hide
        by_cases k1 : nb.ptr ≤ i ∧ i < nb.ptr + nb.size
        · rw [if_pos k1]
          split
          · rfl
          · exact (hw i (by omega)).symm
        · rw [if_neg k1]
          by_cases k2 : b.ptr ≤ i ∧ i < b.ptr + b.size
          · rw [if_pos k2]; exact c1 i k2.1 k2.2
          · rw [if_neg k2, c2 i (by omega), b6 i (by omega)]
      · rw [c2 i (by omega)]; exact b5 i p q
      · rw [c2 i (by omega), b6 i (by omega)]; exact hw i (by omega)
      · rw [hg j] at b8; omega

theorem Buf.release_spec {b b' : Buf} {f l : Nat} {s s' : St α} (h : BFrame f l b b' s s') :
    wp (b'.release) (fun _ s'' => (∀ i, (i < f ∨ l ≤ i) → s''.cell i = hide b s.cell i) ∧
      EnvLe s s'' ∧ ∀ v, Holds s'.cell f l v → Holds s''.cell f l v) s' := by
  unfold Buf.release
  refine wp_free h.raw ?_
  intro s2 c1 c2 c3 _ _
  refine ⟨fun i hi => ?_, h.brk.trans (EnvLe.of_env c3), fun v hv i p q => ?_⟩
  · rw [← h.cell i hi]
    unfold hide
    split
    · rename_i hc; exact c1 i hc.1 hc.2
    · exact c2 i (by omega)
  · rw [c2 i (h.raw.disj hv i p q)]; exact hv i p q

/-! ### inplace_merge -/

/-- Elements skipped at the front stay in front. -/
theorem skip_sorted (hlt : StrictWeak lt) {f r m l : Nat} {v v' : Nat → α} (h1 : f ≤ r) (h2 : r ≤ m)
    (h3 : m ≤ l) (hs1 : SortedOn lt f m v) (hs2 : SortedOn lt m l v)
    (hsk : ∀ i, f ≤ i → i < r → lt (v m) (v i) = false) (hp : PermOn r l v v')
    (hs : SortedOn lt r l v') : SortedOn lt f l v' := by
  refine sorted_join hlt (m := r) h1 (by omega) (PermOn.refl _ _ _)
    (hs1.sub (Nat.le_refl _) h2) hp hs ?_
  intro i j q1 q2 q3 q4
  by_cases hj : j < m
  · exact hs1 i j q1 (by omega) hj
  · exact hlt.le_trans (hsk i q1 q2) (hs2.le hlt (Nat.le_refl _) (by omega) q4)

theorem inplaceMerge_spec (hlt : StrictWeak lt) (c : Cfg) (hc : c.cat ≠ .forward)
    {first middle last : Nat} {s : St α} {v : Nat → α} (h1 : first ≤ middle) (h2 : middle ≤ last)
    (h3 : first < middle → middle < last) (hw : s.WF) (hh : Holds s.cell first last v)
    (hs1 : SortedOn lt first middle v) (hs2 : SortedOn lt middle last v) :
    wp (inplaceMerge (tick lt) c first middle last) (fun _ s' => ∃ v',
      SUpd lt first last s s' v v' ∧ SortedOn lt first last v') s := by
  unfold inplaceMerge
  apply wp_bind
  refine wp_mono (skipLeft_spec (lt := lt) (middle - first) first s (by omega) (Nat.le_refl _) h3 hh) ?_
  rintro r s1 ⟨⟨k, rfl⟩, a1, a2, a3, a4⟩
  simp only
  split
  · rename_i e
    apply wp_pure
    subst e
    exact ⟨v, (SUpd.refl hh).tickr, skip_sorted hlt h1 (Nat.le_refl _) h2 hs1 hs2 a3
      (PermOn.refl _ _ _) hs2⟩
  · rename_i hne
    apply wp_bind
    refine wp_mono (newBuf_spec (f := first) (l := first) (s := { s with cmps := k }) hw) ?_
    intro b s2 hb
    have hnull : RawBuf ({ s with cmps := k } : St α).cell Buf.null.ptr Buf.null.size := by
      intro i p q; simp only [Buf.null] at p q; omega
    have hh2 : Holds s2.cell first last v :=
      hb.holds hnull (f' := first) (l' := last) hh (by omega)
    apply wp_bind
    refine wp_mono (inplaceMergeBuf_spec hlt c hc (buff := b.ptr) (buffSize := b.size)
      (by omega : middle = r + (middle - r)) (by omega : last = middle + (last - middle)) s2 v
      (hh2.sub a1 (Nat.le_refl _)) (hs1.sub a1 (Nat.le_refl _)) hs2 hb.raw) ?_
    rintro _ s3 ⟨v3, u3, o3⟩
    have u3w := u3.widen hh2 a1 (Nat.le_refl _)
    have hbf := (hb.mono (f := first) (l := last) (by omega) (by omega)).trans
      (BFrame.of_upd hb.wf hb.raw hh2 u3w.upd)
    refine wp_mono (Buf.release_spec hbf) ?_
    rintro _ s4 ⟨d1, d2, d3⟩
    refine ⟨v3, ⟨d3 _ u3w.holds, u3w.sperm, ⟨fun i hi => ?_, d2⟩⟩,
      skip_sorted hlt a1 a2 h2 hs1 hs2 a3 u3.sperm.1 o3⟩
    rw [d1 i hi, hide_null]

/-! ### merge_sort -/

theorem mergeSortBi_spec (hlt : StrictWeak lt) (c : Cfg) (hc : c.cat ≠ .forward) :
    ∀ (n first last size : Nat) (b : Buf) (s : St α) (v : Nat → α), size ≤ n → last = first + size →
    s.WF → RawBuf s.cell b.ptr b.size → Holds s.cell first last v →
    wp (mergeSortBi (tick lt) c first last size b) (fun b' s' => ∃ v', Holds s'.cell first last v' ∧
      SPermOn lt first last v v' ∧ SortedOn lt first last v' ∧ BFrame first last b b' s s') s := by
  intro n
  induction n with
  | zero =>
    intro first last size b s v hn e hw hr hh
    rw [mergeSortBi, if_pos (by omega)]
    apply wp_bind
    refine wp_mono (insertionSort_spec hlt (by omega) hh) ?_
    rintro _ s' ⟨v', u, o, -⟩
    apply wp_pure
    exact ⟨v', u.holds, u.sperm, o, BFrame.of_upd hw hr hh u.upd⟩
  | succ n ih =>
    intro first last size b s v hn e hw hr hh
    rw [mergeSortBi]
    split
    · apply wp_bind
      refine wp_mono (insertionSort_spec hlt (by omega) hh) ?_
      rintro _ s' ⟨v', u, o, -⟩
      apply wp_pure
      exact ⟨v', u.holds, u.sperm, o, BFrame.of_upd hw hr hh u.upd⟩
    · simp only
      apply wp_bind
      refine wp_mono (ih first (first + size / 2) (size / 2) b s v (by omega) rfl hw hr
        (hh.sub (Nat.le_refl _) (by omega))) ?_
      rintro b1 s1 ⟨v1, h1, p1, o1, f1⟩
      have hh1 : Holds s1.cell first last v1 := by
        intro i p q
        by_cases hi : i < first + size / 2
        · exact h1 i p hi
        · rw [p1.1.out (by omega)]
          exact f1.holds hr (f' := first + size / 2) (l' := last) (hh.sub (by omega) (Nat.le_refl _))
            (by omega) i (by omega) q
      apply wp_bind
      refine wp_mono (ih (first + size / 2) last (size - size / 2) b1 s1 v1 (by omega) (by omega) f1.wf
        f1.raw (hh1.sub (by omega) (Nat.le_refl _))) ?_
      rintro b2 s2 ⟨v2, h2, p2, o2, f2⟩
      have hh2 : Holds s2.cell first last v2 := by
        intro i p q
        by_cases hi : i < first + size / 2
        · rw [p2.1.out (by omega)]
          exact f2.holds f1.raw (f' := first) (l' := first + size / 2)
            (hh1.sub (Nat.le_refl _) (by omega)) (by omega) i p hi
        · exact h2 i (by omega) q
      have hp12 : SPermOn lt first last v v2 :=
        (p1.mono (Nat.le_refl _) (by omega)).trans (p2.mono (by omega) (Nat.le_refl _))
      have hf12 : BFrame first last b b2 s s2 :=
        (f1.mono (Nat.le_refl _) (by omega)).trans (f2.mono (by omega) (Nat.le_refl _))
      have oL : SortedOn lt first (first + size / 2) v2 :=
        o1.congr fun i a b => (p2.1.out (by omega)).symm
      apply wp_bind
      refine wp_mono (skipLeft_spec (lt := lt) (size / 2) first s2 rfl (Nat.le_refl _) (by omega) hh2) ?_
      rintro r s3 ⟨⟨k, rfl⟩, a1, a2, a3, a4⟩
      split
      · rename_i e'
        apply wp_pure
        subst e'
        exact ⟨v2, hh2, hp12, skip_sorted hlt a1 (Nat.le_refl _) (by omega) oL o2 a3
          (PermOn.refl _ _ _) o2, ⟨hf12.cell, hf12.brk, hf12.raw, hf12.wf⟩⟩
      · rename_i hne
        apply wp_bind
        refine wp_mono (Buf.tryGrow_spec (b := b2) (f := first) (l := first) (s := { s2 with cmps := k })
          f2.wf f2.raw) ?_
        rintro b4 s4 ⟨f4, -⟩
        have hh4 : Holds s4.cell first last v2 :=
          f4.holds f2.raw (f' := first) (l' := last) hh2 (by omega)
        apply wp_bind
        refine wp_mono (inplaceMergeBuf_spec hlt c hc (buff := b4.ptr) (buffSize := b4.size)
          (by omega : first + size / 2 = r + (size / 2 - (r - first)))
          (by omega : last = first + size / 2 + (size - size / 2)) s4 v2
          (hh4.sub a1 (Nat.le_refl _)) (oL.sub a1 (Nat.le_refl _)) o2 f4.raw) ?_
        rintro _ s5 ⟨v5, u5, o5⟩
        have u5w := u5.widen hh4 a1 (Nat.le_refl _)
        apply wp_pure
        exact ⟨v5, u5w.holds, hp12.trans u5w.sperm,
          skip_sorted hlt a1 a2 (by omega) oL o2 a3 u5.sperm.1 o5,
          (hf12.trans (f4.mono (by omega) (by omega)).tick).trans
            (BFrame.of_upd f4.wf f4.raw hh4 u5w.upd)⟩

/-! ### Bubble sort and forward merge sort -/

theorem iterSwapIf_spec (hlt : StrictWeak lt) {f l i : Nat} {s : St α} {v : Nat → α}
    (hh : Holds s.cell f l v) (h1 : f ≤ i) (h2 : i + 1 < l) :
    wp (iterSwapIf (tick lt) i (i + 1)) (fun _ s' => ∃ v', SUpd lt f l s s' v v' ∧
      v' = if lt (v (i + 1)) (v i) then swp v i (i + 1) else v) s := by
  unfold iterSwapIf
  wread hh; wread hh; wtick
  split
  · rename_i hc
    refine wp_swap hh ⟨h1, by omega⟩ ⟨by omega, h2⟩ ?_
    intro s' hu
    exact ⟨_, ⟨hu.holds, SPermOn.swp hlt h1 h2 hc, hu.frame.tick⟩, rfl⟩
  · exact wp_pure ⟨_, (SUpd.refl hh).tickr, rfl⟩

theorem bubblePass_spec (hlt : StrictWeak lt) {first l : Nat} : ∀ (n i size : Nat) (s : St α)
    (v : Nat → α), size = i + n → first + size < l → Holds s.cell first l v →
    (∀ j, first ≤ j → j < first + i → lt (v (first + i)) (v j) = false) →
    wp (bubblePass (tick lt) (first + i) i size) (fun _ s' => ∃ v', SUpd lt first l s s' v v' ∧
      PermOn first (first + size + 1) v v' ∧
      (∀ j, first ≤ j → j < first + size → lt (v' (first + size)) (v' j) = false)) s := by
  intro n
  induction n with
  | zero =>
    intro i size s v e hl hh hm
    rw [bubblePass, if_neg (by omega)]
    apply wp_pure
    have : size = i := by omega
    subst this
    exact ⟨v, SUpd.refl hh, PermOn.refl _ _ _, hm⟩
  | succ n ih =>
    intro i size s v e hl hh hm
    rw [bubblePass, if_pos (by omega)]
    apply wp_bind
    refine wp_mono (iterSwapIf_spec hlt hh (by omega) (by omega)) ?_
    rintro _ s1 ⟨v1, u1, e1⟩
    have hp1 : PermOn first (first + size + 1) v v1 := by
      rw [e1]
      split
      · exact PermOn.swp ⟨by omega, by omega⟩ ⟨by omega, by omega⟩
      · exact PermOn.refl _ _ _
    refine wp_mono (ih (i + 1) size s1 v1 (by omega) hl u1.holds ?_) ?_
    · intro j a b
      rw [e1]
      split
      · rename_i hc
        by_cases hj : j = first + i
        · subst hj
          rw [swp_r (by omega), swp_l rfl]; exact hlt.asymm hc
        · rw [swp_r (by omega), swp_o hj (by omega)]
          exact hm j a (by omega)
      · rename_i hc
        have hc : lt (v (first + i + 1)) (v (first + i)) = false := by simpa using hc
        by_cases hj : j = first + i
        · subst hj; exact hc
        · exact hlt.le_trans (hm j a (by omega)) hc
    · rintro _ s2 ⟨v2, u2, p2, m2⟩
      exact ⟨v2, u1.trans u2, hp1.trans p2, m2⟩

theorem bubbleLoop_spec (hlt : StrictWeak lt) {first l : Nat} : ∀ (size : Nat) (s : St α)
    (v : Nat → α), 0 < size → first + size ≤ l → Holds s.cell first l v →
    SortedOn lt (first + size) l v →
    (∀ i j, first ≤ i → i < first + size → first + size ≤ j → j < l → lt (v j) (v i) = false) →
    wp (bubbleLoop (tick lt) first size) (fun _ s' => ∃ v', SUpd lt first l s s' v v' ∧
      SortedOn lt first l v') s := by
  intro size
  induction size with
  | zero => intros; omega
  | succ n ih =>
    intro s v h0 hl hh hs hx
    rw [bubbleLoop]
    simp only [Nat.add_sub_cancel]
    split
    · rename_i hne
      apply wp_bind
      refine wp_mono (bubblePass_spec hlt n 0 n s v (by omega) (by omega) hh
        (fun j a b => by omega)) ?_
      rintro _ s1 ⟨v1, u1, p1, m1⟩
      have hx1 : ∀ i j, first ≤ i → i < first + (n + 1) → first + (n + 1) ≤ j → j < l →
          lt (v1 j) (v1 i) = false := by
        intro i j a b c d
        obtain ⟨k, q1, q2, q3⟩ := p1.mem a (by omega)
        rw [q3, p1.out (i := j) (by omega)]
        exact hx k j q1 (by omega) c d
      refine wp_mono (ih s1 v1 (by omega) (by omega) u1.holds ?_ ?_) ?_
      · refine SortedOn.append hlt (m := first + n + 1) (SortedOn.trivial (by omega))
          (hs.congr fun i a b => (p1.out (by omega)).symm) ?_
        intro a b
        exact hx1 _ _ (by omega) (by omega) (by omega) b
      · intro i j a b c d
        by_cases e : j = first + n
        · rw [e]; exact m1 i a b
        · exact hx1 i j a (by omega) (by omega) d
      · rintro _ s2 ⟨v2, u2, o2⟩
        exact ⟨v2, u1.trans u2, o2⟩
    · apply wp_pure
      have : n = 0 := by omega
      subst this
      refine ⟨v, SUpd.refl hh, SortedOn.append hlt (m := first + 1) (SortedOn.trivial (by omega)) hs ?_⟩
      intro a b
      exact hx _ _ (by omega) (by omega) (by omega) b

theorem bubbleSort_spec (hlt : StrictWeak lt) {first size : Nat} {s : St α} {v : Nat → α}
    (hh : Holds s.cell first (first + size) v) :
    wp (bubbleSort (tick lt) first size) (fun _ s' => ∃ v', SUpd lt first (first + size) s s' v v' ∧
      SortedOn lt first (first + size) v') s := by
  unfold bubbleSort
  split
  · exact wp_pure ⟨v, SUpd.refl hh, SortedOn.trivial (by omega)⟩
  · exact bubbleLoop_spec hlt size s v (by omega) (Nat.le_refl _) hh (SortedOn.trivial (by omega))
      (fun i j _ _ c d => by omega)

/-- The allocator always refuses, or always grants `N` elements. -/
def AllOrNothing (s : St α) (N : Nat) : Prop := (∀ i, s.grant i = 0) ∨ (∀ i, N ≤ s.grant i)

theorem AllOrNothing.env {s s' : St α} {N : Nat} (h : AllOrNothing s N) (he : EnvLe s s') :
    AllOrNothing s' N := by
  obtain ⟨-, k, hk⟩ := he
  rcases h with h | h
  · exact Or.inl fun i => by rw [hk]; exact h _
  · exact Or.inr fun i => by rw [hk]; exact h _

theorem mergeSortFwd_spec (hlt : StrictWeak lt) (c : Cfg) (N : Nat) :
    ∀ (n first size : Nat) (b : Buf) (s : St α) (v : Nat → α), size ≤ n → size ≤ N →
    s.WF → RawBuf s.cell b.ptr b.size → Holds s.cell first (first + size) v →
    AllOrNothing s N → ((∀ i, s.grant i = 0) → b.size = 0) →
    wp (mergeSortFwd (tick lt) c first size b) (fun b' s' => ∃ v',
      Holds s'.cell first (first + size) v' ∧
      SPermOn lt first (first + size) v v' ∧ SortedOn lt first (first + size) v' ∧
      BFrame first (first + size) b b' s s' ∧ ((∀ i, s.grant i = 0) → b'.size = 0)) s := by
  intro n
  induction n with
  | zero =>
    intro first size b s v hn hN hw hr hh ha hb
    rw [mergeSortFwd, if_pos (by omega)]
    apply wp_bind
    refine wp_mono (bubbleSort_spec hlt hh) ?_
    rintro _ s' ⟨v', u, o⟩
    apply wp_pure
    exact ⟨v', u.holds, u.sperm, o, BFrame.of_upd hw hr hh u.upd, hb⟩
  | succ n ih =>
    intro first size b s v hn hN hw hr hh ha hb
    rw [mergeSortFwd]
    split
    · apply wp_bind
      refine wp_mono (bubbleSort_spec hlt hh) ?_
      rintro _ s' ⟨v', u, o⟩
      apply wp_pure
      exact ⟨v', u.holds, u.sperm, o, BFrame.of_upd hw hr hh u.upd, hb⟩
    · simp only
      have zero : ∀ {s s' : St α}, EnvLe s s' → (∀ i, s.grant i = 0) → ∀ i, s'.grant i = 0 := by
        rintro s s' ⟨-, k, hk⟩ h i; rw [hk]; exact h _
      apply wp_bind
      refine wp_mono (ih first (size / 2) b s v (by omega) (by omega) hw hr
        (hh.sub (Nat.le_refl _) (by omega)) ha hb) ?_
      rintro b1 s1 ⟨v1, h1, p1, o1, f1, z1⟩
      have hh1 : Holds s1.cell first (first + size) v1 := by
        intro i p q
        by_cases hi : i < first + size / 2
        · exact h1 i p hi
        · rw [p1.1.out (by omega)]
          exact f1.holds hr (f' := first + size / 2) (l' := first + size)
            (hh.sub (by omega) (Nat.le_refl _)) (by omega) i (by omega) q
      apply wp_bind
      have el : first + size / 2 + (size - size / 2) = first + size := by omega
      have z1' : (∀ i, s1.grant i = 0) → b1.size = 0 := by
        intro h
        rcases ha with ha | ha
        · exact z1 ha
        · obtain ⟨-, k, hk⟩ := f1.brk
          have := h 0
          rw [hk] at this
          have := ha (0 + k)
          omega
      have ih2 := ih (first + size / 2) (size - size / 2) b1 s1 v1 (by omega) (by omega) f1.wf
        f1.raw (by rw [el]; exact hh1.sub (by omega) (Nat.le_refl _)) (ha.env f1.brk) z1'
      rw [el] at ih2
      refine wp_mono ih2 ?_
      rintro b2 s2 ⟨v2, h2, p2, o2, f2, z2⟩
      have hh2 : Holds s2.cell first (first + size) v2 := by
        intro i p q
        by_cases hi : i < first + size / 2
        · rw [p2.1.out (by omega)]
          exact f2.holds f1.raw (f' := first) (l' := first + size / 2)
            (hh1.sub (Nat.le_refl _) (by omega)) (by omega) i p hi
        · exact h2 i (by omega) q
      have hp12 : SPermOn lt first (first + size) v v2 :=
        (p1.mono (Nat.le_refl _) (by omega)).trans (p2.mono (by omega) (Nat.le_refl _))
      have hf12 : BFrame first (first + size) b b2 s s2 :=
        (f1.mono (Nat.le_refl _) (by omega)).trans (f2.mono (by omega) (Nat.le_refl _))
      have oL : SortedOn lt first (first + size / 2) v2 :=
        o1.congr fun i a b => (p2.1.out (by omega)).symm
      apply wp_bind
      refine wp_mono (skipLeft_spec (lt := lt) (size / 2) first s2 rfl (Nat.le_refl _) (by omega) hh2) ?_
      rintro r s3 ⟨⟨k, rfl⟩, a1, a2, a3, a4⟩
      split
      · rename_i e'
        apply wp_pure
        subst e'
        exact ⟨v2, hh2, hp12, skip_sorted hlt a1 (Nat.le_refl _) (by omega) oL o2 a3
          (PermOn.refl _ _ _) o2, ⟨hf12.cell, hf12.brk, hf12.raw, hf12.wf⟩,
          fun h => z2 (zero f1.brk h)⟩
      · rename_i hne
        apply wp_bind
        refine wp_mono (Buf.tryGrow_spec (b := b2) (f := first) (l := first)
          (s := { s2 with cmps := k }) f2.wf f2.raw) ?_
        rintro b4 s4 ⟨f4, g4, g5⟩
        have hh4 : Holds s4.cell first (first + size) v2 :=
          f4.holds f2.raw (f' := first) (l' := first + size) hh2 (by omega)
        have hbuf : b4.size = 0 ∨ size / 2 - (r - first) ≤ b4.size ∧
            size / 2 - (r - first) ≤ size - size / 2 := by
          rcases ha.env hf12.brk with h | h
          · left
            rw [g5 h]
            exact z2 (zero f1.brk (by
              rcases ha with ha | ha
              · exact ha
              · obtain ⟨-, k, hk⟩ := hf12.brk
                have := h 0
                rw [hk] at this
                have := ha (0 + k)
                omega))
          · right
            have := g4 fun i => Nat.le_trans (by omega) (h i)
            omega
        apply wp_bind
        have hm := recmergeFwd_spec hlt c (buff := b4.ptr) (buffSize := b4.size) _ r
          (size / 2 - (r - first)) (first + size / 2) (size - size / 2) (Nat.le_refl _) (by omega)
          hbuf
        rw [el] at hm
        refine wp_mono (hm s4 v2
          (hh4.sub a1 (Nat.le_refl _)) (oL.sub a1 (Nat.le_refl _)) o2 f4.raw) ?_
        rintro _ s5 ⟨v5, u5, o5⟩
        have u5w := u5.widen hh4 a1 (Nat.le_refl _)
        apply wp_pure
        exact ⟨v5, u5w.holds, hp12.trans u5w.sperm,
          skip_sorted hlt a1 a2 (by omega) oL o2 a3 u5.sperm.1 o5,
          (hf12.trans (f4.mono (by omega) (by omega)).tick).trans
            (BFrame.of_upd f4.wf f4.raw hh4 u5w.upd),
          fun h => (g5 (zero hf12.brk h)).trans (z2 (zero f1.brk h))⟩

theorem mergeSort_fwd_spec (hlt : StrictWeak lt) (c : Cfg) (hc : c.cat = .forward) {s : St α}
    {f l : Nat} {v : Nat → α} (hfl : f ≤ l) (hw : s.WF) (hh : Holds s.cell f l v)
    (ha : AllOrNothing s (l - f)) :
    wp (mergeSort (tick lt) c f l) (fun _ s' => ∃ v', SUpd lt f l s s' v v' ∧ SortedOn lt f l v')
      s := by
  unfold mergeSort
  simp only [hc]
  have el : l = f + (l - f) := by omega
  split
  · have := bubbleSort_spec hlt (first := f) (size := l - f) (s := s) (v := v) (by rwa [← el])
    rwa [← el] at this
  · have hnull : RawBuf s.cell Buf.null.ptr Buf.null.size := by
      intro i p q; simp only [Buf.null] at p q; omega
    apply wp_bind
    have := mergeSortFwd_spec hlt c (l - f) (l - f) f (l - f) Buf.null s v (Nat.le_refl _)
      (Nat.le_refl _) hw hnull (by rwa [← el]) ha (fun _ => rfl)
    rw [← el] at this
    refine wp_mono this ?_
    rintro b s1 ⟨v1, h1, p1, o1, f1, -⟩
    refine wp_mono (Buf.release_spec f1) ?_
    rintro _ s4 ⟨d1, d2, d3⟩
    refine ⟨v1, ⟨d3 _ h1, p1, ⟨fun i hi => ?_, d2⟩⟩, o1⟩
    rw [d1 i hi, hide_null]

theorem mergeSort_spec (hlt : StrictWeak lt) (c : Cfg) (hc : c.cat ≠ .forward) :
    SortsStablyW lt (mergeSort (tick lt) c) := by
  intro s f l v hfl hw hh
  unfold mergeSort
  have e : ∀ (a b : M α Unit), (match c.cat with | .forward => a | _ => b) = b := by
    intro a b; split
    · exact absurd (by assumption) hc
    · rfl
  simp only [e]
  · split
    · refine wp_mono (insertionSort_spec hlt hfl hh) ?_
      rintro _ s' ⟨v', u, o, -⟩
      exact ⟨v', u, o⟩
    · have hnull : RawBuf s.cell Buf.null.ptr Buf.null.size := by
        intro i p q; simp only [Buf.null] at p q; omega
      apply wp_bind
      refine wp_mono (mergeSortBi_spec hlt c hc (l - f) f l (l - f) Buf.null s v (Nat.le_refl _)
        (by omega) hw hnull hh) ?_
      rintro b s1 ⟨v1, h1, p1, o1, f1⟩
      refine wp_mono (Buf.release_spec f1) ?_
      rintro _ s4 ⟨d1, d2, d3⟩
      refine ⟨v1, ⟨d3 _ h1, p1, ⟨fun i hi => ?_, d2⟩⟩, o1⟩
      rw [d1 i hi, hide_null]

end CppSort
