import Verif.Proof.WikiStash
/-
wiki_sort.h 762-848: rolling the blocks of A through the blocks of B.
-/
set_option autoImplicit false

namespace CppSort
variable {α : Type} {lt : α → α → Bool}

/-- Merging two parts in turn. -/
theorem mergeL_split : ∀ {X0 Y0 X1 Y1 : List α}, (∀ y ∈ Y0, ∀ x ∈ X1, lt y x = true) → (∀ x ∈ X0, ∀ y ∈ Y1, lt y x = false) →
    mergeL lt (X0 ++ X1) (Y0 ++ Y1) = mergeL lt X0 Y0 ++ mergeL lt X1 Y1 := by
  intro X0 Y0 X1 Y1
  fun_induction mergeL lt X0 Y0 with
  | case1 Y0 => intro h1 _; exact mergeL_lower h1
  | case2 X0 _ => intro _ h2; exact mergeL_upper h2
  | case3 x X0 y Y0 h ih =>
    intro h1 h2
    rw [List.cons_append, List.cons_append, mergeL_cons, if_pos h, List.cons_append]
    rw [← ih (fun z hz => h1 z (by simp [hz])) h2]; rfl
  | case4 x X0 y Y0 h ih =>
    intro h1 h2
    rw [List.cons_append, List.cons_append, mergeL_cons, if_neg h, List.cons_append]
    rw [← ih h1 (fun z hz => h2 z (by simp [hz]))]; rfl

/-- A block of `A`: its tag, its first value, its other values. -/
structure ABlk (α : Type) where
  tag : α
  head : α
  tail : List α

/-- The tagged block. -/
def ABlk.tg (b : ABlk α) : List α := b.tag :: b.tail
/-- The block itself. -/
def ABlk.ck (b : ABlk α) : List α := b.head :: b.tail

def tgs (M : List (ABlk α)) : List α := M.flatMap ABlk.tg
def cks (M : List (ABlk α)) : List α := M.flatMap ABlk.ck

theorem tgs_nil : tgs ([] : List (ABlk α)) = [] := rfl
theorem cks_nil : cks ([] : List (ABlk α)) = [] := rfl
theorem tgs_cons (b : ABlk α) (M : List (ABlk α)) : tgs (b :: M) = b.tg ++ tgs M := rfl
theorem cks_cons (b : ABlk α) (M : List (ABlk α)) : cks (b :: M) = b.ck ++ cks M := rfl
theorem tgs_append (M M' : List (ABlk α)) : tgs (M ++ M') = tgs M ++ tgs M' := List.flatMap_append
theorem tg_length (b : ABlk α) : b.tg.length = b.tail.length + 1 := rfl
theorem ck_length (b : ABlk α) : b.ck.length = b.tail.length + 1 := rfl

/-- The block with the least tag. -/
theorem wikiMinBlock_spec (hlt : StrictWeak lt) {bs bas : Nat} : ∀ (Q P M0 M1 : List (ABlk α)) (x : ABlk α) (stop findA minA : Nat) (s : St α),
    P = M0 ++ x :: M1 → (∀ y ∈ P, lt y.tag x.tag = false) → (∀ b ∈ P ++ Q, b.tail.length + 1 = bs) → findA = bas + (tgs P).length →
    stop = findA + (tgs Q).length → minA = bas + (tgs M0).length → Seg s.cell bas (tgs (P ++ Q)) →
    wp (wikiMinBlock (tick lt) bs stop findA minA) (fun r s' => (∃ N0 z N1, P ++ Q = N0 ++ z :: N1 ∧ (∀ y ∈ P ++ Q, lt y.tag z.tag = false) ∧
      r = bas + (tgs N0).length) ∧ ∃ k, s' = { s with cmps := k }) s := by
  intro Q
  induction Q with
  | nil =>
    intro P M0 M1 x stop findA minA s hP hmin hb hf hst hm hs
    rw [wikiMinBlock, if_neg (by rw [tgs_nil] at hst; simp at hst; omega)]
    exact wp_pure ⟨⟨M0, x, M1, by rw [List.append_nil]; exact hP, by rw [List.append_nil]; exact hmin, hm⟩, s.cmps, rfl⟩
  | cons q Q ih =>
    intro P M0 M1 x stop findA minA s hP hmin hb hf hst hm hs
    rw [tgs_cons, List.length_append, tg_length] at hst
    have hq := hb q (by simp)
    rw [wikiMinBlock, if_pos (by omega)]
    apply wp_bind
    have hs' := hs
    rw [tgs_append, seg_append, tgs_cons, seg_append, ← hf] at hs'
    have s1 : s.cell findA = .val q.tag := (seg_cons.1 hs'.2.1).1
    have s2 : s.cell minA = .val x.tag := by
      rw [hP, List.append_assoc, tgs_append, seg_append, ← hm] at hs
      exact (seg_cons.1 hs.2).1
    refine wp_wikiLt s1 s2 ?_
    have e1 : P ++ q :: Q = (P ++ [q]) ++ Q := by simp
    have e2 : (tgs (P ++ [q])).length = (tgs P).length + bs := by
      rw [tgs_append, List.length_append, tgs_cons, tgs_nil, List.append_nil, tg_length]; omega
    split
    · rename_i hc
      refine wp_mono (ih (P ++ [q]) P [] q stop (findA + bs) findA { s with cmps := s.cmps + 1 } rfl ?_ (by rw [← e1]; exact hb) (by omega) (by omega) hf (by rw [← e1]; exact hs)) ?_
      · intro y hy
        rcases List.mem_append.1 hy with hy | hy
        · have := hmin y hy
          exact hlt.le_trans (hlt.asymm hc) this
        · rw [List.mem_singleton] at hy; rw [hy]; exact hlt.irrefl _
      · rintro r s3 ⟨h3, k, rfl⟩
        rw [e1]; exact ⟨h3, k, rfl⟩
    · rename_i hc
      refine wp_mono (ih (P ++ [q]) M0 (M1 ++ [q]) x stop (findA + bs) minA { s with cmps := s.cmps + 1 } (by rw [hP]; simp) ?_ (by rw [← e1]; exact hb) (by omega) (by omega) hm (by rw [← e1]; exact hs)) ?_
      · intro y hy
        rcases List.mem_append.1 hy with hy | hy
        · exact hmin y hy
        · rw [List.mem_singleton] at hy; rw [hy]; simpa using hc
      · rintro r s3 ⟨h3, k, rfl⟩
        rw [e1]; exact ⟨h3, k, rfl⟩

/-- The block is brought to the beginning. -/
theorem pickBlock {bs bas : Nat} {M0 M1 : List (ABlk α)} {f : ABlk α} {s : St α} (hb : ∀ b ∈ M0 ++ f :: M1, b.tail.length + 1 = bs)
    (hs : Seg s.cell bas (tgs (M0 ++ f :: M1))) :
    wp (swapRanges bas (bas + bs) (bas + (tgs M0).length)) (fun _ s' => ∃ M', M'.Perm (M0 ++ M1) ∧ Seg s'.cell bas (tgs (f :: M')) ∧
      Frame bas (bas + (tgs (M0 ++ f :: M1)).length) s s') s := by
  have hf := hb f (by simp)
  cases M0 with
  | nil =>
    rw [List.nil_append] at hs ⊢
    have hs' := hs
    rw [tgs_cons, seg_append] at hs'
    rw [tgs_nil, List.length_nil, Nat.add_zero]
    refine wp_mono (swapRanges_self f.tg bas (bas + bs) s (by rw [tg_length]; omega) hs'.1) ?_
    rintro _ s1 ⟨q1, q2⟩
    refine ⟨M1, .refl _, ?_, q2.mono (Nat.le_refl _) (by rw [List.nil_append, tgs_cons, List.length_append, tg_length]; omega)⟩
    rw [tgs_cons, seg_append]
    exact ⟨q1, hs'.2.congr fun i u v => q2.cell i (by rw [tg_length] at u; omega)⟩
  | cons b0 M0 =>
    have hb0 := hb b0 (by simp)
    have hs' := hs
    rw [List.cons_append, tgs_cons, tgs_append, tgs_cons, seg_append, seg_append, seg_append, tg_length, tg_length] at hs'
    obtain ⟨u1, u2, u3, u4⟩ := hs'
    rw [tgs_cons, List.length_append, tg_length]
    refine wp_mono (swapRanges_dis b0.tg f.tg bas (bas + bs) (bas + (b0.tail.length + 1 + (tgs M0).length)) s (by rw [tg_length, tg_length]; omega)
      (by rw [tg_length]; omega) (by omega) u1 (by rw [← Nat.add_assoc]; exact u3)) ?_
    rintro _ s1 ⟨q1, q2, q3, q4⟩
    rw [tg_length] at q3
    have hfb : f.tail.length = b0.tail.length := by omega
    refine ⟨M0 ++ b0 :: M1, ?_, ?_, Frame.of_env q4 fun i hi => ?_⟩
    · rw [List.cons_append]; exact List.perm_middle
    · rw [tgs_cons, tgs_append, tgs_cons, seg_append, seg_append, seg_append, tg_length, tg_length, hfb]
      rw [hfb] at u4
      refine ⟨q1, u2.congr fun i u v => q3 i (by omega) (by omega), ?_, u4.congr fun i u v => q3 i (by omega) (by omega)⟩
      rw [Nat.add_assoc]; exact q2
    · rw [List.cons_append, tgs_cons, tgs_append, tgs_cons, List.length_append, List.length_append, List.length_append, tg_length, tg_length] at hi
      exact q3 i (by omega) (by omega)

theorem tgs_eq_nil {M : List (ABlk α)} (h : (tgs M).length = 0) : M = [] := by
  cases M with
  | nil => rfl
  | cons b M => rw [tgs_cons, List.length_append, tg_length] at h; omega

theorem Stash.congr {w : WMerge} {K2 X : List α} {la : Nat} {c c' : Nat → Cell α} (h : Stash w K2 la X c)
    (h1 : ∀ i, la ≤ i → i < la + X.length → c' i = c i) (h2 : ∀ i, w.cache ≤ i → i < w.cache + w.cs → c' i = c i)
    (h3 : ∀ i, w.b2.start ≤ i → i < w.b2.start + K2.length → c' i = c i) : Stash w K2 la X c' := by
  cases h with
  | cache h sX hole idle =>
    obtain ⟨i1, K, i2, i3⟩ := idle
    have hk := i2.length_eq
    exact .cache h (sX.congr fun i u v => h2 i u (by omega)) (fun i u v => (hole i u v).same (h1 i u v))
      ⟨fun i u v => (i1 i u v).same (h2 i u v), K, i2, i3.congr fun i u v => h3 i u (by omega)⟩
  | buf h hh J J2 len perm sJ sX live =>
    have hk := perm.length_eq
    simp only [List.length_append] at hk
    exact .buf h hh J J2 len perm (sJ.congr fun i u v => h1 i u (by omega)) (sX.congr fun i u v => h3 i u (by simp at v; omega))
      (fun i u v => (live i u v).same (h2 i u v))
  | here h hh sX live =>
    exact .here h hh (sX.congr fun i u v => h1 i u v) (fun i u v => (live i u v).same (h2 i u v))

/-- The memory in the loop: what is done, the block that waits, the values of `B` that go with it, the blocks of `A`, the other values of `B`. -/
structure RollSt (w : WMerge) (K2 : List α) (a e j la le lbs lbe bas bae bbs bbe : Nat) (D X Y0 LB Yr : List α) (Mem Rem : List (ABlk α))
    (c : Nat → Cell α) : Prop where
  hla : la = a + D.length
  hle : le = la + X.length
  hbas : bas = le + (Y0.length + LB.length)
  lb : (lbs = le + Y0.length ∧ lbe = bas) ∨ (LB = [] ∧ lbs = lbe ∧ Yr ≠ [])
  hbae : bae = bas + (tgs Mem).length
  he : e = bae + Yr.length
  bb : (Yr = [] ∧ bbs = bbe) ∨ (Yr ≠ [] ∧ bbs = bae ∧ bbe = bbs + min w.bs Yr.length)
  lenLB : LB.length ≤ w.bs
  sD : Seg c a D
  st : Stash w K2 la X c
  sY : Seg c le (Y0 ++ LB)
  sM : Seg c bas (tgs Mem ++ Yr)
  sH : Seg c j (Rem.map (·.head))
  perm : Mem.Perm Rem

/-- The values in the loop: `T` is the result. -/
structure RollVal (lt : α → α → Bool) (w : WMerge) (D X Y0 LB Yr : List α) (Rem : List (ABlk α)) (T : List α) : Prop where
  target : D ++ mergeL lt (X ++ cks Rem) (Y0 ++ LB ++ Yr) = T
  oX : SortedList lt (X ++ cks Rem)
  oY : SortedList lt (Y0 ++ LB ++ Yr)
  tags : StrictList lt (Rem.map (·.tag))
  lens : ∀ b ∈ Rem, b.tail.length + 1 = w.bs
  low : ∀ y ∈ Y0, ∀ x ∈ cks Rem, lt y x = true

theorem RollSt.cell {w : WMerge} {K2 : List α} {a e j la le lbs lbe bas bae bbs bbe : Nat} {D X Y0 LB Yr : List α} {Mem Rem : List (ABlk α)}
    {c c' : Nat → Cell α} (h : RollSt w K2 a e j la le lbs lbe bas bae bbs bbe D X Y0 LB Yr Mem Rem c) (hc : c' = c) :
    RollSt w K2 a e j la le lbs lbe bas bae bbs bbe D X Y0 LB Yr Mem Rem c' := by rw [hc]; exact h

theorem wikiDrop_spec (hlt : StrictWeak lt) {LB Yr : List α} {w : WMerge} {h : α} {lbs lbe bbs bbe bae j : Nat} {s : St α} (hbs : 0 < w.bs) (oLB : SortedList lt LB)
    (hlb : (lbe = lbs + LB.length ∧ Seg s.cell lbs LB) ∨ (LB = [] ∧ lbs = lbe ∧ Yr ≠ []))
    (hbb : (Yr = [] ∧ bbs = bbe) ∨ (Yr ≠ [] ∧ bbs = bae ∧ bbe = bbs + min w.bs Yr.length)) (hj : s.cell j = .val h) :
    wp (wikiDrop (tick lt) lbs lbe bbs bbe j) (fun b s' => s'.cell = s.cell ∧ s'.env = s.env ∧
      (b = true → (∃ y ∈ LB, lt y h = false) ∨ Yr = []) ∧ (b = false → Yr ≠ [] ∧ ∀ y ∈ LB, lt y h = true)) s := by
  have hY : decide (bbs = bbe) = true ↔ Yr = [] := by
    rw [decide_eq_true_iff]
    rcases hbb with ⟨h1, h2⟩ | ⟨h1, h2, h3⟩
    · simp [h1, h2]
    · have := List.length_pos_iff.2 h1
      constructor
      · intro h4; omega
      · intro h4; exact absurd h4 h1
  unfold wikiDrop
  split
  · rename_i hl
    have h1 : lbe = lbs + LB.length ∧ Seg s.cell lbs LB := by
      rcases hlb with h1 | ⟨_, h1, _⟩
      · exact h1
      · omega
    have hne : LB ≠ [] := by intro e; subst e; simp at h1; omega
    apply wp_bind
    refine wp_wikiLt (by rw [h1.1]; exact seg_last h1.2 hne) hj ?_
    split
    · rename_i hc
      refine wp_pure ⟨rfl, rfl, fun hb => .inr (hY.1 hb), fun hb => ⟨fun e => ?_, fun y hy => hlt.lt_of_le_of_lt (le_last hlt oLB hne y hy) hc⟩⟩
      rw [hY.2 e] at hb; cases hb
    · rename_i hc
      exact wp_pure ⟨rfl, rfl, fun _ => .inl ⟨_, List.getLast_mem hne, by simpa using hc⟩, by simp⟩
  · rename_i hl
    have hLB : LB = [] := by
      rcases hlb with h1 | ⟨h1, _, _⟩
      · exact List.length_eq_zero_iff.1 (by omega)
      · exact h1
    subst hLB
    refine wp_pure ⟨rfl, rfl, fun hb => .inr (hY.1 hb), fun hb => ⟨fun e => ?_, by simp⟩⟩
    rw [hY.2 e] at hb; cases hb

/-- The memory after the loop. -/
structure RollDone (lt : α → α → Bool) (w : WMerge) (K2 : List α) (a e j : Nat) (T tags : List α) (r : WRange) (s s' : St α) (D X L : List α) : Prop where
  start : r.start = a + D.length
  stop : r.stop = r.start + X.length
  he : e = r.stop + L.length
  res : D ++ mergeL lt X L = T
  oX : SortedList lt X
  oL : SortedList lt L
  sD : Seg s'.cell a D
  st : Stash w K2 r.start X s'.cell
  sL : Seg s'.cell r.stop L
  sT : Seg s'.cell j tags
  rest : ∀ i, (i < a ∨ e ≤ i) → (i < w.cache ∨ w.cache + w.cs ≤ i) → (i < w.b2.start ∨ w.b2.start + K2.length ≤ i) →
    (i < j ∨ j + tags.length ≤ i) → s'.cell i = s.cell i
  brk : EnvLe s s'

set_option maxHeartbeats 2000000 in
theorem wikiRoll_spec (hlt : StrictWeak lt) (c : Cfg) {w : WMerge} {K2 T : List α} {a e : Nat} (hw : WOk w K2) (ha : WApart w K2 a e) (N : Nat) :
    ∀ (j la le lbs lbe bas bae bbs bbe : Nat) (D X Y0 LB Yr : List α) (Mem Rem : List (ABlk α)) (s : St α), Rem.length + Yr.length = N → Rem ≠ [] →
    RollSt w K2 a e j la le lbs lbe bas bae bbs bbe D X Y0 LB Yr Mem Rem s.cell → RollVal lt w D X Y0 LB Yr Rem T →
    WApart w K2 j (j + Rem.length) → (j + Rem.length ≤ a ∨ e ≤ j) →
    wp (wikiRoll (tick lt) c w e la le lbs lbe bas bae bbs bbe j)
      (fun r s' => ∃ D' X' L, RollDone lt w K2 a e j T (Rem.map (·.tag)) r s s' D' X' L) s := by
  induction N using Nat.strongRecOn with
  | _ N ih =>
    intro j la le lbs lbe bas bae bbs bbe D X Y0 LB Yr Mem Rem s hN hR hs hv haj hj
    obtain ⟨f, Rem, rfl⟩ := List.exists_cons_of_ne_nil hR
    haveI : Inhabited α := ⟨f.tag⟩
    obtain ⟨hla, hle, hbas, hlb, hbae, he, hbb, hlenLB, sD, hst, sY, sM, sH, hperm⟩ := hs
    have hc := ha.cache
    have hb := ha.buf
    have hdis := hw.dis
    have hbs := hw.bs
    have hjc := haj.cache
    have hjb := haj.buf
    simp only [List.length_cons] at hN hj hjc hjb
    rw [List.map_cons, seg_cons] at sH
    have hf : f.tail.length + 1 = w.bs := hv.lens f (by simp)
    have hlenM : ∀ b ∈ Mem, b.tail.length + 1 = w.bs := fun b hb => hv.lens b (hperm.mem_iff.1 hb)
    obtain ⟨oY1, oYr, oY2⟩ := sortedList_append.1 hv.oY
    obtain ⟨oY0, oLB, oY3⟩ := sortedList_append.1 oY1
    obtain ⟨oX0, oC, oX2⟩ := sortedList_append.1 hv.oX
    have hge : ∀ x ∈ cks (f :: Rem), lt x f.head = false := by
      intro x hx
      exact head_le hlt oC (by rw [cks_cons]; simp [ABlk.ck]) x hx
    have hfm : f.head ∈ cks (f :: Rem) := by rw [cks_cons]; simp [ABlk.ck]
    rw [wikiRoll]
    apply wp_bind
    refine wp_mono (wikiDrop_spec hlt (w := w) (bae := bae) hbs oLB (h := f.head) ?_ hbb sH.1) ?_
    · rcases hlb with ⟨h1, h2⟩ | h1
      · left
        refine ⟨by omega, ?_⟩
        rw [h1]; exact (seg_append.1 sY).2
      · exact .inr h1
    rintro b s1 ⟨c1, c2, c3, c4⟩
    have hbb' := fun (_ : Unit) => hbb
    have hlb' := fun (_ : Unit) => hlb
    clear hbb hlb
    split
    · rename_i hb1
      replace c3 := c3 hb1
      obtain ⟨hlbs, hlbe⟩ : lbs = le + Y0.length ∧ lbe = bas := by
        rcases hlb' () with h1 | ⟨h1, _, h2⟩
        · exact h1
        · subst h1
          rcases c3 with ⟨y, hy, _⟩ | h3
          · cases hy
          · exact absurd h3 h2
      apply wp_bind
      refine wp_read' (by rw [c1]; exact sH.1) ?_
      apply wp_bind
      refine wp_mono (lowerBound_seg hlt f.head (xs := LB) (show lbe = lbs + LB.length by omega) (by rw [c1, hlbs]; exact (seg_append.1 sY).2) oLB) ?_
      rintro split s2 ⟨L0, L1, k, rfl, hsplit, l0, l1, rfl⟩
      rw [List.length_append] at hbas hlenLB
      have hL1 : ∀ y ∈ L1 ++ Yr, lt y f.head = false := by
        intro y hy
        rcases List.mem_append.1 hy with hy | hy
        · exact l1 y hy
        · rcases c3 with ⟨z, hz, hz2⟩ | h3
          · exact hlt.le_trans hz2 (oY2 z (by rw [List.mem_append]; exact .inr hz) y hy)
          · subst h3; cases hy
      have hT : D ++ (mergeL lt X (Y0 ++ L0) ++ mergeL lt (cks (f :: Rem)) (L1 ++ Yr)) = T := by
        rw [← hv.target, show Y0 ++ (L0 ++ L1) ++ Yr = (Y0 ++ L0) ++ (L1 ++ Yr) by simp, mergeL_split]
        · intro y hy x hx
          rcases List.mem_append.1 hy with hy | hy
          · exact hv.low y hy x hx
          · exact hlt.lt_of_lt_of_le (l0 y hy) (hge x hx)
        · intro x hx y hy
          exact hlt.le_trans (oX2 x hx f.head hfm) (hL1 y hy)
      apply wp_bind
      obtain ⟨b0, M, hM⟩ : ∃ b0 M, Mem = b0 :: M := by
        cases Mem with
        | nil => have := hperm.length_eq; simp at this
        | cons b0 M => exact ⟨b0, M, rfl⟩
      have hb0 := hlenM b0 (by rw [hM]; simp)
      obtain ⟨sM1, sM2⟩ := seg_append.1 sM
      rw [← hbae] at sM2
      refine wp_mono (wikiMinBlock_spec hlt (bas := bas) M [b0] [] [] b0 bae (bas + w.bs) bas { s1 with cmps := k } rfl ?_ ?_ ?_ ?_ rfl ?_) ?_
      · intro y hy; rw [List.mem_singleton] at hy; rw [hy]; exact hlt.irrefl _
      · rw [List.singleton_append, ← hM]; exact hlenM
      · rw [tgs_cons, tgs_nil, List.append_nil, tg_length]; omega
      · rw [hbae, hM, tgs_cons, List.length_append, tg_length]; omega
      · rw [List.singleton_append, ← hM]; show Seg s1.cell _ _; rw [c1]; exact sM1
      rintro minA s3 ⟨⟨M0, z, M1, e1, e2, rfl⟩, k', rfl⟩
      rw [List.singleton_append, ← hM] at e1 e2
      have hz : z = f := by
        have hzm : z ∈ f :: Rem := hperm.mem_iff.1 (by rw [e1]; simp)
        rcases List.mem_cons.1 hzm with h1 | h1
        · exact h1
        · have h2 := e2 f (hperm.mem_iff.2 (by simp))
          have h3 := hv.tags
          rw [List.map_cons] at h3
          have h4 := (List.pairwise_cons.1 h3).1 z.tag (List.mem_map.2 ⟨z, h1, rfl⟩)
          rw [h4] at h2; cases h2
      subst hz
      rw [e1] at sM1 hlenM hbae hperm
      apply wp_bind
      refine wp_mono (pickBlock (s := { s1 with cmps := k' }) hlenM (by show Seg s1.cell _ _; rw [c1]; exact sM1)) ?_
      rintro _ s4 ⟨M', p1, p2, p3⟩
      rw [← hbae] at p3
      have p3c : ∀ i, (i < bas ∨ bae ≤ i) → s4.cell i = s.cell i := fun i hi => by rw [p3.cell i hi]; show s1.cell i = _; rw [c1]
      have hlenT : (tgs (M0 ++ z :: M1)).length = w.bs + (tgs M').length := by
        have : (tgs M').length = (tgs (M0 ++ M1)).length := (List.Perm.flatMap_right _ p1).length_eq
        rw [this, tgs_append, tgs_append, tgs_cons, List.length_append, List.length_append, List.length_append, tg_length]; omega
      rw [tgs_cons, seg_append, tg_length] at p2
      have hpermR : M'.Perm Rem := by
        refine p1.trans ?_
        have : (z :: (M0 ++ M1)).Perm (z :: Rem) := (List.perm_middle.symm).trans hperm
        exact this.cons_inv
      have hjb0 : j < bas ∨ bae ≤ j := by omega
      apply wp_bind
      have z1 : s4.cell bas = .val z.tag := (seg_cons.1 p2.1).1
      have z2 : s4.cell j = .val z.head := by rw [p3c j hjb0]; exact sH.1
      refine wp_swap' z1 z2 fun s5 d1 d2 _ _ => ?_
      have d3 : ∀ i, i ≠ bas → i ≠ j → s5.cell i = s4.cell i := fun i h1 h2 => by rw [d1]; sc
      have d4 : s5.cell bas = .val z.head := by rw [d1]; sc
      have d5 : s5.cell j = .val z.tag := by rw [d1]; sc
      have d6 : ∀ i, (i < bas ∨ bae ≤ i) → i ≠ j → s5.cell i = s.cell i := fun i h1 h2 => by rw [d3 i (by omega) h2, p3c i h1]
      have k1 : Seg s5.cell bas (z.ck ++ tgs M') := by
        rw [seg_append, ck_length]
        refine ⟨seg_cons.2 ⟨d4, (seg_cons.1 p2.1).2.congr fun i u v => d3 i (by omega) (by omega)⟩, p2.2.congr fun i u v => d3 i (by omega) (by omega)⟩
      obtain ⟨sY0, sL⟩ := seg_append.1 sY
      obtain ⟨sL0, sL1⟩ := seg_append.1 sL
      have hspl : split + L1.length = bas := by omega
      rw [show le + Y0.length + L0.length = split by omega] at sL1
      have hbae2 : bae = bas + (w.bs + (tgs M').length) := by omega
      rw [show lbe - split = L1.length by omega, show bas - L1.length = split by omega]
      apply wp_bind
      have o1 : SortedList lt (Y0 ++ L0) := by
        refine sortedList_append.2 ⟨oY0, (sortedList_append.1 oLB).1, fun x hx y hy => oY3 x hx y (by simp [hy])⟩
      refine wp_mono (wikiLocal_spec hlt c (X := X) (Y := Y0 ++ L0) hw hle (by rw [List.length_append]; omega) (ha.mono (by omega) (by omega)) oX0 o1
        (hst.congr (fun i u v => d6 i (by omega) (by omega)) (fun i u v => d6 i (by omega) (by omega)) (fun i u v => d6 i (by omega) (by omega)))
        (seg_append.2 ⟨sY0.congr fun i u v => d6 i (by omega) (by omega), sL0.congr fun i u v => d6 i (by omega) (by omega)⟩)) ?_
      rintro _ s6 ⟨q1, q2, q3⟩
      have q3c : ∀ i, (i < la ∨ split ≤ i) → (i < w.cache ∨ w.cache + w.cs ≤ i) → (i < w.b2.start ∨ w.b2.start + K2.length ≤ i) → s6.cell i = s5.cell i := q3.cell
      obtain ⟨k2, k3⟩ := seg_append.1 k1
      rw [ck_length] at k3
      apply wp_bind
      refine wp_mono (wikiShift_spec c (L := L1) (B := z.ck) hw hspl.symm (by omega) (by rw [ck_length]; omega) (ha.mono (by omega) (by omega)) q2
        (seg_append.2 ⟨sL1.congr fun i u v => ?_, ?_⟩)) ?_
      · rw [q3c i (by omega) (by omega) (by omega), d6 i (by omega) (by omega)]
      · rw [hspl]
        exact k2.congr fun i u v => by rw [ck_length] at v; exact q3c i (by omega) (by omega) (by omega)
      rintro _ s7 ⟨r1, r2, r3⟩
      have r3c : ∀ i, (i < split ∨ bas + w.bs ≤ i) → (i < w.cache ∨ w.cache + w.cs ≤ i) → (i < w.b2.start ∨ w.b2.start + K2.length ≤ i) → s7.cell i = s6.cell i := r3.cell
      have r4 : ∀ i, (i < la ∨ bas + w.bs ≤ i) → (i < w.cache ∨ w.cache + w.cs ≤ i) → (i < w.b2.start ∨ w.b2.start + K2.length ≤ i) → s7.cell i = s5.cell i :=
        fun i h1 h2 h3 => by rw [r3c i (by omega) h2 h3, q3c i (by omega) h2 h3]
      have hml : (mergeL lt X (Y0 ++ L0)).length = X.length + (Y0.length + L0.length) := by
        rw [(mergeL_perm _ _).length_eq, List.length_append, List.length_append]
      have t1 : Seg s7.cell a (D ++ mergeL lt X (Y0 ++ L0)) := by
        refine seg_append.2 ⟨sD.congr fun i u v => ?_, ?_⟩
        · rw [r4 i (by omega) (by omega) (by omega), d6 i (by omega) (by omega)]
        · rw [← hla]
          exact q1.congr fun i u v => r3c i (by omega) (by omega) (by omega)
      have t2 : Seg s7.cell (bas + w.bs) (tgs M' ++ Yr) := by
        refine seg_append.2 ⟨?_, ?_⟩
        · rw [← hf]
          exact k3.congr fun i u v => r4 i (by omega) (by omega) (by omega)
        · rw [show bas + w.bs + (tgs M').length = bae by omega]
          exact sM2.congr fun i u v => by rw [r4 i (by omega) (by omega) (by omega), d6 i (by omega) (by omega)]
      have t3 : Seg s7.cell (j + 1) (Rem.map (·.head)) := by
        refine sH.2.congr fun i u v => ?_
        rw [List.length_map] at v
        rw [r4 i (by omega) (by omega) (by omega), d6 i (by omega) (by omega)]
      have t4 : s7.cell j = .val z.tag := by rw [r4 j (by omega) (by omega) (by omega), d5]
      have t5 : ∀ i, (i < a ∨ e ≤ i) → (i < w.cache ∨ w.cache + w.cs ≤ i) → (i < w.b2.start ∨ w.b2.start + K2.length ≤ i) → i ≠ j →
          s7.cell i = s.cell i := fun i h1 h2 h3 h4 => by rw [r4 i (by omega) h2 h3, d6 i (by omega) h4]
      have t6 : EnvLe s s7 := ((EnvLe.of_env (s' := { s1 with cmps := k' }) c2).trans p3.brk).trans
        ((EnvLe.of_env d2).trans (q3.brk.trans r3.brk))
      have oL1 : SortedList lt (L1 ++ Yr) := by
        refine sortedList_append.2 ⟨(sortedList_append.1 oLB).2.1, oYr, fun x hx y hy => oY2 x (by simp [hx]) y hy⟩
      obtain ⟨oF, oR, oFR⟩ := sortedList_append.1 (by rw [cks_cons] at oC; exact oC)
      split
      · rename_i hend
        have hM' : M' = [] := tgs_eq_nil (by omega)
        subst hM'
        have hRem : Rem = [] := hpermR.nil_eq.symm
        subst hRem
        refine wp_pure ⟨D ++ mergeL lt X (Y0 ++ L0), z.ck, L1 ++ Yr, ⟨?_, ?_, ?_, ?_, oF, oL1, t1, r1, ?_, ?_, ?_, t6⟩⟩
        · show split = _; rw [List.length_append, hml]; omega
        · show split + w.bs = split + _; rw [ck_length]; omega
        · show e = split + w.bs + _; rw [List.length_append, he, hbae2, tgs_nil]; simp; omega
        · rw [← hT, List.append_assoc, cks_cons, cks_nil, List.append_nil]
        · refine seg_append.2 ⟨r2, ?_⟩
          rw [show split + w.bs + L1.length = bas + w.bs by omega]; exact t2
        · rw [List.map_cons, List.map_nil, seg_one]; exact t4
        · intro i h1 h2 h3 h4
          simp only [List.length_map, List.length_cons, List.length_nil] at h4
          exact t5 i h1 h2 h3 (by omega)
      · rename_i hend
        have hRem : Rem ≠ [] := by
          intro e0; subst e0
          have : M' = [] := hpermR.eq_nil
          subst this
          rw [tgs_nil] at hbae2; simp at hbae2; omega
        refine wp_mono (ih (Rem.length + Yr.length) (by omega) (j + 1) split (split + w.bs) (split + w.bs) (split + w.bs + L1.length) (bas + w.bs) bae bbs bbe
          (D ++ mergeL lt X (Y0 ++ L0)) z.ck [] L1 Yr M' Rem s7 rfl hRem ⟨?_, ?_, ?_, ?_, ?_, he, hbb' (), by omega, t1, r1, ?_, t2, t3, hpermR⟩
          ⟨?_, ?_, ?_, ?_, fun b hb => hv.lens b (by simp [hb]), by simp⟩ (haj.mono (by omega) (by simp; omega)) (by omega)) ?_
        · rw [List.length_append, hml]; omega
        · rw [ck_length]; omega
        · simp; omega
        · left; simp; omega
        · omega
        · rw [List.nil_append]; exact r2
        · rw [← hT, List.append_assoc, List.nil_append, cks_cons]
        · rw [← cks_cons]; exact oC
        · rw [List.nil_append]; exact oL1
        · have h3 := hv.tags
          rw [List.map_cons] at h3
          exact (List.pairwise_cons.1 h3).2
        · rintro r s8 ⟨D', X', L, h⟩
          have hr := h.rest
          simp only [List.length_map] at hr
          refine ⟨D', X', L, ⟨h.start, h.stop, h.he, h.res, h.oX, h.oL, h.sD, h.st, h.sL, ?_, ?_, t6.trans h.brk⟩⟩
          · rw [List.map_cons, seg_cons]
            refine ⟨?_, h.sT⟩
            rw [hr j (by omega) (by omega) (by omega) (by omega), t4]
          · intro i h1 h2 h3 h4
            simp only [List.length_map, List.length_cons] at h4
            rw [hr i h1 h2 h3 (by omega), t5 i h1 h2 h3 (by omega)]
    · rename_i hb1
      obtain ⟨hYr, hLBlow⟩ := c4 (by simpa using hb1)
      obtain ⟨hbbs, hbbe⟩ : bbs = bae ∧ bbe = bbs + min w.bs Yr.length := by
        rcases hbb' () with ⟨h1, _⟩ | ⟨_, h2⟩
        · exact absurd h1 hYr
        · exact h2
      have hYpos := List.length_pos_iff.2 hYr
      have hlow : ∀ y ∈ Y0 ++ LB, ∀ x ∈ cks (f :: Rem), lt y x = true := by
        intro y hy x hx
        rcases List.mem_append.1 hy with hy | hy
        · exact hv.low y hy x hx
        · exact hlt.lt_of_lt_of_le (hLBlow y hy) (hge x hx)
      have hMem : Mem ≠ [] := by intro e0; subst e0; have := hperm.length_eq; simp at this
      obtain ⟨b0, M, rfl⟩ := List.exists_cons_of_ne_nil hMem
      have hb0 := hlenM b0 (by simp)
      have hlT : (tgs (b0 :: M)).length = w.bs + (tgs M).length := by rw [tgs_cons, List.length_append, tg_length]; omega
      split
      · rename_i hshort
        rw [show bbe - bbs = Yr.length by omega]
        apply wp_bind
        refine wp_mono (rotate_seg c (s := s1) (f := bas) (m := bbs) (l := bbe) (by rw [c1]; exact sM) (by omega) (by omega)) ?_
        rintro _ s2 ⟨-, q1, q2⟩
        have q3 : ∀ i, (i < bas ∨ e ≤ i) → s2.cell i = s.cell i := fun i hi => by rw [q2.cell i (by omega), c1]
        refine wp_mono (ih ((f :: Rem).length + 0) (by simp; omega) j la le bas (bas + Yr.length) (bas + Yr.length) (bae + Yr.length) bbs bbs
          D X (Y0 ++ LB) Yr [] (b0 :: M) (f :: Rem) s2 rfl hR ⟨hla, hle, by rw [List.length_append]; omega, .inl ⟨by rw [List.length_append]; omega, rfl⟩,
            by omega, by simp; omega, .inl ⟨rfl, rfl⟩, by omega, ?_, ?_, ?_, ?_, ?_, hperm⟩ ⟨?_, hv.oX, ?_, hv.tags, hv.lens, hlow⟩
          haj (by simp; omega)) ?_
        · exact sD.congr fun i u v => q3 i (by omega)
        · exact hst.congr (fun i u v => q3 i (by omega)) (fun i u v => q3 i (by omega)) (fun i u v => q3 i (by omega))
        · refine seg_append.2 ⟨sY.congr fun i u v => q3 i (by rw [List.length_append] at v; omega), ?_⟩
          rw [List.length_append, ← hbas]
          exact (seg_append.1 q1).1
        · rw [List.append_nil]; exact (seg_append.1 q1).2
        · rw [List.map_cons, seg_cons]
          refine ⟨by rw [q3 j (by omega)]; exact sH.1, sH.2.congr fun i u v => q3 i (by rw [List.length_map] at v; omega)⟩
        · rw [List.append_nil]; exact hv.target
        · rw [List.append_nil]; exact hv.oY
        · rintro r s8 ⟨D', X', L, h⟩
          exact ⟨D', X', L, ⟨h.start, h.stop, h.he, h.res, h.oX, h.oL, h.sD, h.st, h.sL, h.sT,
            fun i h1 h2 h3 h4 => by rw [h.rest i h1 h2 h3 h4, q3 i (by omega)], ((EnvLe.of_env c2).trans q2.brk).trans h.brk⟩⟩
      · rename_i hlong
        have e0 : Yr = Yr.take w.bs ++ Yr.drop w.bs := (List.take_append_drop _ _).symm
        have e1 : (Yr.take w.bs).length = w.bs := by rw [List.length_take]; omega
        have e2 : (Yr.drop w.bs).length = Yr.length - w.bs := List.length_drop
        obtain ⟨sM1, sM2⟩ := seg_append.1 sM
        rw [tgs_cons, seg_append, tg_length, hb0] at sM1
        rw [← hbae, e0, seg_append, e1] at sM2
        apply wp_bind
        refine wp_mono (swapRanges_dis b0.tg (Yr.take w.bs) bas (bas + w.bs) bbs s1 (by rw [tg_length]; omega) (by rw [tg_length]; omega) (by omega)
          (by rw [c1]; exact sM1.1) (by rw [c1, hbbs]; exact sM2.1)) ?_
        rintro _ s2 ⟨q1, q2, q3', q4⟩
        have q3 : ∀ i, (i < bas ∨ bas + w.bs ≤ i) → (i < bae ∨ bae + w.bs ≤ i) → s2.cell i = s.cell i := fun i h1 h2 => by
          rw [q3' i (by rw [tg_length]; omega) (by rw [tg_length]; omega), c1]
        refine wp_mono (ih ((f :: Rem).length + (Yr.drop w.bs).length) (by simp only [List.length_cons]; omega) j la le bas (bas + w.bs) (bas + w.bs) (bae + w.bs) (bbs + w.bs) _
          D X (Y0 ++ LB) (Yr.take w.bs) (Yr.drop w.bs) (M ++ [b0]) (f :: Rem) s2 rfl hR ⟨hla, hle, by rw [List.length_append]; omega,
            .inl ⟨by rw [List.length_append]; omega, rfl⟩, ?_, by omega, ?_, by omega, ?_, ?_, ?_, ?_, ?_, ?_⟩ ⟨?_, hv.oX, ?_, hv.tags, hv.lens, hlow⟩
          haj (by simp only [List.length_cons]; omega)) ?_
        · rw [tgs_append, tgs_cons, tgs_nil, List.append_nil, List.length_append, tg_length]; omega
        · by_cases h1 : Yr.drop w.bs = []
          · left
            refine ⟨h1, ?_⟩
            rw [h1, List.length_nil] at e2
            split <;> omega
          · right
            refine ⟨h1, by omega, ?_⟩
            have := List.length_pos_iff.2 h1
            split <;> omega
        · exact sD.congr fun i u v => q3 i (by omega) (by omega)
        · exact hst.congr (fun i u v => q3 i (by omega) (by omega)) (fun i u v => q3 i (by omega) (by omega)) (fun i u v => q3 i (by omega) (by omega))
        · refine seg_append.2 ⟨sY.congr fun i u v => q3 i (by rw [List.length_append] at v; omega) (by rw [List.length_append] at v; omega), ?_⟩
          rw [List.length_append, ← hbas]
          exact q1
        · rw [tgs_append, tgs_cons, tgs_nil, List.append_nil, List.append_assoc]
          refine seg_append.2 ⟨sM1.2.congr fun i u v => q3 i (by omega) (by omega), seg_append.2 ⟨?_, ?_⟩⟩
          · rw [show bas + w.bs + (tgs M).length = bbs by omega]; exact q2
          · rw [tg_length, show bas + w.bs + (tgs M).length + (b0.tail.length + 1) = bae + w.bs by omega]
            exact sM2.2.congr fun i u v => q3 i (by omega) (by omega)
        · rw [List.map_cons, seg_cons]
          refine ⟨by rw [q3 j (by omega) (by omega)]; exact sH.1, sH.2.congr fun i u v => q3 i (by rw [List.length_map] at v; omega) (by rw [List.length_map] at v; omega)⟩
        · exact (List.perm_append_comm).trans hperm
        · rw [List.append_assoc, ← e0]; exact hv.target
        · rw [List.append_assoc, ← e0]; exact hv.oY
        · rintro r s8 ⟨D', X', L, h⟩
          exact ⟨D', X', L, ⟨h.start, h.stop, h.he, h.res, h.oX, h.oL, h.sD, h.st, h.sL, h.sT,
            fun i h1 h2 h3 h4 => by rw [h.rest i h1 h2 h3 h4, q3 i (by omega) (by omega)], ((EnvLe.of_env c2).trans (EnvLe.of_env q4)).trans h.brk⟩⟩

end CppSort
