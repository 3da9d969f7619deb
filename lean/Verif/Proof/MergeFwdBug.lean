import Verif.Proof.MergeSort
import Verif.Props.Demo
/-
The forward-iterator merge overruns its range when the buffer is smaller than the left part
(recmerge_forward.h 117-120).
-/
set_option autoImplicit false

namespace CppSort
variable {α β γ : Type} {lt : α → α → Bool}

/-- `m` ends with error `e`. -/
def Fails (m : M α β) (e : Err) (s : St α) : Prop := ∃ s', m s = some (.error e, s')

theorem fails_bind {m : M α β} {k : β → M α γ} {e : Err} {s : St α}
    (h : wp m (fun r s' => Fails (k r) e s') s) : Fails (m >>= k) e s := by
  obtain ⟨r, s', h1, s'', h2⟩ := h
  refine ⟨s'', ?_⟩
  rw [bind_ok h1]; exact h2

theorem fails_bind_left {m : M α β} {k : β → M α γ} {e : Err} {s : St α} (h : Fails m e s) :
    Fails (m >>= k) e s := by
  obtain ⟨s', h⟩ := h
  refine ⟨s', ?_⟩
  show (ExceptT.bind m k) s = _
  unfold ExceptT.bind ExceptT.mk
  show ((m s).bind fun p => _) = _
  rw [h]
  rfl

theorem fails_read {i : Nat} {s : St α} (h : ∀ a, s.cell i ≠ .val a) :
    Fails (read i : M α α) .deref s := by
  unfold Fails read
  split
  · rename_i a ha; exact absurd ha (h a)
  · exact ⟨_, rfl⟩

/-- The blind loop runs off the end of the second source when it is told to make more steps than
that source has elements, all of them smaller. -/
theorem halfMergeBlind_overrun {d1 d : Nat → Nat} {a1 e1 r0 j0 e2 : Nat} {x y : Nat → α}
    (ha : HMAddr d1 d a1 e1 r0 e2) (hdd : ∀ k, r0 ≤ k → k < e2 → d k ≠ d e2)
    (hlow : ∀ i j, a1 ≤ i → i < e1 → j0 ≤ j → j < e2 → lt (y j) (x i) = true) :
    ∀ (n i1 i2 r : Nat) (s : St α), a1 ≤ i1 → i1 < e1 → r0 ≤ r → j0 ≤ i2 → i2 ≤ e2 → e2 - i2 < n →
    HMInv d1 d i1 e1 i2 e2 r x y s.cell → (∀ a, s.cell (d e2) ≠ .val a) →
    Fails (halfMergeBlind (tick lt) d1 d i1 i2 r n) .deref s := by
  intro n
  induction n with
  | zero => intros; omega
  | succ n ih =>
    intro i1 i2 r s b1 b2 b3 b3' b4 b5 h hend
    have hb := h.bal
    rw [halfMergeBlind, if_pos (by simp)]
    by_cases e : i2 = e2
    · subst e
      exact fails_bind_left (fails_read hend)
    · apply fails_bind
      refine wp_read' (h.src2 i2 (by omega) (by omega)) ?_
      apply fails_bind
      refine wp_read' (h.src1 i1 (by omega) (by omega)) ?_
      apply fails_bind
      refine wp_tick ?_
      rw [if_pos (hlow i1 i2 b1 b2 (by omega) (by omega))]
      apply fails_bind
      refine wp_moveTo' (fun e => by have := ha.inj r i2 (by omega) (by omega) (by omega) (by omega) e; omega)
        (h.src2 i2 (by omega) (by omega)) (h.gap r (by omega) (by omega)) ?_
      intro s1 hc1 _ _ _
      have hI := h.take2 ha b1 (by omega) b3 (by omega) hc1
      rw [Nat.add_sub_cancel]
      refine ih i1 (i2 + 1) (r + 1) s1 b1 b2 (by omega) (by omega) (by omega) (by omega) hI ?_
      intro a
      rw [hc1, sc_ne (hdd r b3 (by omega)).symm, sc_ne (hdd i2 (by omega) (by omega)).symm]
      exact hend a

/-- `recmerge` on forward iterators reads past the end of its range when the left part fits in the
buffer and the right part is shorter and entirely smaller. -/
theorem recmergeFwd_overrun {c : Cfg} {f0 n0 f1 n1 buff buffSize : Nat} {s : St α} {v : Nat → α}
    (h0 : 0 < n1) (h1 : n1 < n0) (h2 : n0 ≤ buffSize) (e1 : f1 = f0 + n0)
    (hh : Holds s.cell f0 (f1 + n1) v) (hr : RawBuf s.cell buff buffSize)
    (hlow : ∀ i j, f0 ≤ i → i < f1 → f1 ≤ j → j < f1 + n1 → lt (v j) (v i) = true)
    (hend : s.cell (f1 + n1) = .unalloc) :
    Fails (recmergeFwd (tick lt) c f0 n0 f1 n1 buff buffSize) .deref s := by
  have hdis := (hr.sub h2).disj hh
  have hne : ¬ (buff ≤ f1 + n1 ∧ f1 + n1 < buff + n0) := by
    intro hc
    have := hr (f1 + n1) hc.1 (by omega)
    rw [hend] at this; cases this
  rw [recmergeFwd, if_neg (by omega), if_pos h2]
  apply fails_bind
  refine wp_mono (uninitMove_spec (x := v) n0 f0 f1 buff s (by omega)
    (fun k a b => hh k a (by omega)) (hr.sub h2)) ?_
  rintro ptr s1 ⟨ep, a1, a2, a3, a4, a5, a6⟩
  subst ep
  apply fails_bind_left
  unfold halfInplaceMerge
  apply fails_bind_left
  have hA : HMAddr id id buff (buff + n0) f0 (f1 + n1) :=
    ⟨fun j k _ _ _ _ e => e, fun j k _ _ _ _ e => e, fun j k p1 p2 p3 p4 e => by
      have : j = k := e
      have := hdis k p3 p4; omega⟩
  have hI : HMInv id id buff (buff + n0) f1 (f1 + n1) f0
      (fun k => v (f0 + (k - buff))) v s1.cell := by
    refine ⟨a2, fun k p q => ?_, fun k p q => Or.inl (a1 k p q), by omega⟩
    rw [show id k = k from rfl, a3 k (by omega) (hdis k (by omega) q)]
    exact hh k (by omega) q
  refine halfMergeBlind_overrun (lt := lt) hA (j0 := f1) (fun k _ q => by simp; omega) ?_ n0 buff f1 f0 s1
    (Nat.le_refl _) (by omega) (Nat.le_refl _) (Nat.le_refl _) (by omega) (by omega) hI ?_
  · intro i j p q p' q'
    exact hlow _ j (by omega) (by omega) p' q'
  · intro a
    rw [show id (f1 + n1) = f1 + n1 from rfl, a3 _ (by omega) (by omega), hend]
    simp

/-- A sorted range is left alone by a stable sort. -/
theorem sorted_unchanged (hlt : StrictWeak lt) {f l : Nat} {v v' : Nat → α}
    (hp : SPermOn lt f l v v') (h1 : SortedOn lt f l v) (h2 : SortedOn lt f l v') :
    ∀ i, f ≤ i → i < l → v' i = v i := by
  have := SSorted.unique hlt hp.1.2 (sortedOn_iff.1 h2) (sortedOn_iff.1 h1) fun x => (hp.2 x).symm
  exact lst_inj this

/-- The values of the counterexample. -/
def overrunInput : List Nat := [10, 11, 12, 13, 20, 21, 22, 1, 2, 3, 4, 5, 6, 7, 15]

open Demo in
/-- Forward merge sort runs off the end of its range on `overrunInput` when the allocator grants
four elements. -/
theorem mergeSort_fwd_overrun (triv : Bool) {s : St Nat} {f : Nat} (hw : s.WF)
    (hs : Seg s.cell f overrunInput) (hend : s.cell (f + 15) = .unalloc) (hbrk : f + 15 < s.brk)
    (hg : ∀ i, s.grant i = 4) :
    Fails (mergeSort (tick natLt) ⟨.forward, triv⟩ f (f + 15)) .deref s := by
  have hlt := natLt_sw
  obtain ⟨v, hh, hv⟩ := hs.holds
  have hval : ∀ k, k < 15 → v (f + k) = overrunInput.getD k 0 := by
    intro k hk
    have := List.getElem_of_eq hv (i := k) (by simp [overrunInput]; omega)
    rw [lst_getElem] at this
    rw [this, List.getD_eq_getElem?_getD, List.getElem?_eq_getElem (by simpa [overrunInput] using hk)]
    rfl
  have hh : Holds s.cell f (f + 15) v := hh
  have sorted : ∀ a b, b ≤ 15 → (∀ i j : Fin 15, a ≤ i.1 → i.1 < j.1 → j.1 < b →
      natLt (overrunInput.getD j.1 0) (overrunInput.getD i.1 0) = false) →
      SortedOn natLt (f + a) (f + b) v := by
    intro a b hb h i j p q r
    have e1 := hval (i - f) (by omega)
    have e2 := hval (j - f) (by omega)
    rw [show f + (i - f) = i by omega] at e1
    rw [show f + (j - f) = j by omega] at e2
    rw [e1, e2]
    exact h ⟨i - f, by omega⟩ ⟨j - f, by omega⟩ (by simp; omega) (by simp; omega) (by simp; omega)
  have oL := sorted 0 7 (by omega) (by decide)
  have oR := sorted 7 15 (by omega) (by decide)
  unfold mergeSort
  simp only [show f + 15 - f = 15 by omega]
  rw [if_neg (by omega)]
  apply fails_bind_left
  rw [mergeSortFwd, if_neg (by omega)]
  simp only [show 15 / 2 = 7 from rfl, show 15 - 7 = 8 from rfl]
  -- the two halves are sorted already
  have half : ∀ (s : St Nat) (b : Buf) (a n : Nat), n < 14 → Holds s.cell f (f + 15) v → a + n ≤ 15 →
      SortedOn natLt (f + a) (f + a + n) v → s.WF →
      wp (mergeSortFwd (tick natLt) ⟨.forward, triv⟩ (f + a) n b) (fun b' s' => b' = b ∧
        Holds s'.cell f (f + 15) v ∧ s'.WF ∧ Frame f (f + 15) s s') s := by
    intro s b a n hn hh ha ho hw
    rw [mergeSortFwd, if_pos hn]
    apply wp_bind
    refine wp_mono (bubbleSort_spec hlt (hh.sub (by omega) (by omega))) ?_
    rintro _ s' ⟨v', u, o⟩
    apply wp_pure
    have hu := u.widen hh (by omega) (by omega)
    refine ⟨rfl, hu.holds.congr fun i p q => ?_, hu.upd.wf hh hw, hu.frame⟩
    by_cases hi : f + a ≤ i ∧ i < f + a + n
    · exact sorted_unchanged hlt u.sperm ho o i hi.1 hi.2
    · exact u.sperm.1.out (by omega)
  apply fails_bind
  refine wp_mono (half s Buf.null 0 7 (by omega) hh (by omega) oL hw) ?_
  rintro _ s1 ⟨rfl, hh1, hw1, f1⟩
  apply fails_bind
  refine wp_mono (half s1 Buf.null 7 8 (by omega) hh1 (by omega) oR hw1) ?_
  rintro _ s2 ⟨rfl, hh2, hw2, f2⟩
  have f12 := f1.trans f2
  apply fails_bind
  refine wp_mono (skipLeft_spec (lt := natLt) 7 f s2 rfl (Nat.le_refl _) (by omega) hh2) ?_
  rintro r s3 ⟨⟨k, rfl⟩, a1, a2, a3, a4⟩
  have er : r = f := by
    by_contra hne
    have := a3 f (Nat.le_refl _) (by omega)
    have e1 := hval 7 (by omega)
    have e2 := hval 0 (by omega)
    rw [e1, show f = f + 0 from rfl, e2] at this
    revert this; decide
  subst er
  rw [if_neg (by omega)]
  simp only [Nat.sub_self, Nat.sub_zero]
  have hg2 : ∀ i, s2.grant i = 4 := by
    obtain ⟨-, j, hj⟩ := f12.brk
    intro i; rw [hj]; exact hg _
  -- the allocator grants 4 elements
  have grow : wp (Buf.null.tryGrow 8) (fun b s' => b.size = 4 ∧ RawBuf s'.cell b.ptr 4 ∧
      Holds s'.cell r (r + 15) v ∧ s'.cell (r + 15) = .unalloc) { s2 with cmps := k } := by
    have hbrk2 := f12.brk.1
    have hend2 := f12.cell (r + 15) (by omega)
    unfold Buf.tryGrow
    rw [getTemporaryBuffer, if_pos (by simp [Buf.null])]
    apply wp_bind
    apply wp_bind
    refine ⟨_, _, rfl, ?_⟩
    show wp (if 8 ≤ s2.grant 0 then _ else _) _ _
    rw [hg2 0, if_neg (by omega), getTemporaryBuffer, if_pos (by simp [Buf.null])]
    apply wp_bind
    refine ⟨_, _, rfl, ?_⟩
    show wp (if 8 / 2 ≤ s2.grant 1 then _ else _) _ _
    rw [hg2 1, if_pos (by omega)]
    apply wp_bind
    refine wp_alloc ?_
    intro s' b1 b2 b3 _ _ _
    apply wp_pure
    apply wp_bind
    refine wp_free (fun i p q => ?_) ?_
    · simp only [Buf.null] at p q; omega
    · intro s'' c1 c2 c3 _ _
      have hc : s''.cell = s'.cell := by
        funext i; exact c2 i (by simp only [Buf.null]; omega)
      apply wp_pure
      have b2' : ∀ k, k < s2.brk ∨ s2.brk + 8 / 2 ≤ k → s'.cell k = s2.cell k := b2
      refine ⟨rfl, by rw [hc]; exact b1, ?_, ?_⟩
      · intro i p q
        rw [hc, b2' i (by omega)]; exact hh2 i p q
      · rw [hc, b2' _ (by omega), hend2, hend]
  apply fails_bind
  refine wp_mono grow ?_
  rintro b s4 ⟨eb, hr4, hh4, hend4⟩
  apply fails_bind_left
  rw [eb]
  rw [recmergeFwd, if_neg (by omega), if_neg (by omega), if_pos (by omega)]
  unfold mergeStep0
  simp only [show 7 / 2 = 3 from rfl]
  simp only [bind_assoc, pure_bind]
  apply fails_bind
  refine wp_read' (hh4 (r + 3) (by omega) (by omega)) ?_
  apply fails_bind
  refine wp_mono (lowerBoundN_spec (decides_tick (lt := natLt) (v (r + 3))) 8 (r + 7) 8 s4
    (Nat.le_refl _) (by omega) (by omega) hh4
    (fun i j a b c hp => hlt.lt_of_le_of_lt (oR i j a b (by omega)) hp)) ?_
  rintro f11 s5 ⟨c1, c2, c3, c4, k5, rfl, -⟩
  have e11 : f11 = r + 14 := by
    by_contra hne
    rcases Nat.lt_or_ge f11 (r + 14) with h | h
    · have := c4 (r + 13) (by omega) (by omega)
      rw [hval 13 (by omega), hval 3 (by omega)] at this
      revert this; decide
    · have := c3 (r + 14) (by omega) (by omega)
      rw [hval 14 (by omega), hval 3 (by omega)] at this
      revert this; decide
  subst e11
  apply fails_bind
  refine wp_mono (rotate_spec (s := { s4 with cmps := k5 }) ⟨.forward, triv⟩ (by omega : r + 3 ≤ r + 7)
    (by omega : r + 7 ≤ r + 14) (hh4.sub (by omega) (by omega))) ?_
  rintro f10 s6 ⟨e10, v6, hrot⟩
  subst e10
  have u6 := (hrot.upd (by omega) (by omega)).widen (f := r) (l := r + 15) hh4 (by omega) (by omega)
  have hr6 : RawBuf s6.cell b.ptr 4 := RawBuf.upd (s := { s4 with cmps := k5 }) hr4 hh4 u6
  have hend6 : s6.cell (r + 15) = .unalloc := by
    rw [hrot.frame.cell _ (by omega)]; exact hend4
  simp only [show r + 3 + (r + 14 - (r + 7)) = r + 10 by omega, show r + 10 - (r + 3) = 7 by omega]
  have oLL : SortedOn natLt r (r + 3) v6 := by
    intro i j p q t
    rw [hrot.rot.1 i (by omega), hrot.rot.1 j (by omega)]
    exact oL i j (by omega) q (by omega)
  have oLR : SortedOn natLt (r + 3) (r + 10) v6 := by
    intro i j p q t
    rw [hrot.rot.2.1 i (by omega) (by omega), hrot.rot.2.1 j (by omega) (by omega)]
    exact oR _ _ (by omega) (by omega) (by omega)
  apply fails_bind
  refine wp_mono (recmergeFwd_spec hlt ⟨.forward, triv⟩ (buff := b.ptr) (buffSize := 4) 10 r 3 (r + 3) 7
    (by omega) rfl (Or.inr ⟨by omega, by omega⟩) s6 v6 (u6.holds.sub (Nat.le_refl _) (by omega)) oLL oLR
    hr6) ?_
  rintro _ s7 ⟨v7, u7, -⟩
  have u7w := u7.widen u6.holds (Nat.le_refl _) (by omega)
  have v7e : ∀ k, 11 ≤ k → k < 15 → v7 (r + k) = overrunInput.getD (if k = 14 then 14 else k - 7) 0 := by
    intro k a b
    rw [u7.sperm.1.out (by omega)]
    split
    · rename_i h; subst h
      rw [hrot.rot.1 _ (by omega)]; exact hval 14 (by omega)
    · rw [hrot.rot.2.2 _ (by omega) (by omega), ← hval _ (by omega)]
      congr 1; omega
  refine recmergeFwd_overrun (lt := natLt) (v := v7) (f0 := r + 10 + 1) (n0 := 7 - 3 - 1) (f1 := r + 14) (n1 := 8 - 7)
    (by omega) (by omega) (by omega) (by omega) (u7w.holds.sub (by omega) (by omega))
    (RawBuf.upd hr6 u6.holds u7w.upd) ?_ ?_
  · intro i j p q p' q'
    have e1 := v7e (i - r) (by omega) (by omega)
    have e2 := v7e 14 (by omega) (by omega)
    rw [show r + (i - r) = i by omega, if_neg (by omega)] at e1
    rw [show j = r + 14 by omega, e2, e1, if_pos rfl]
    have : i - r = 11 ∨ i - r = 12 ∨ i - r = 13 := by omega
    rcases this with h | h | h <;> rw [h] <;> decide
  · rw [show r + 14 + (8 - 7) = r + 15 by omega, u7.frame.cell _ (by omega)]; exact hend6

end CppSort
