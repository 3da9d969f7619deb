import Verif.Proof.PdqBlock
import Verif.Proof.Insertion
import Verif.Proof.Heap
import Verif.Proof.NetExec
import Verif.Base.Mix
set_option autoImplicit false

namespace CppSort
variable {α : Type} {lt : α → α → Bool}

/-- What the shifting loops establish: the element of `cur` goes to `r`. -/
structure Shifted (lt : α → α → Bool) (first cur r : Nat) (v v' : Nat → α) : Prop where
  lo : first ≤ r
  hi : r < cur
  at_ : v' r = v cur
  below : ∀ i, first ≤ i → i < r → v' i = v i
  moved : ∀ i, r < i → i ≤ cur → v' i = v (i - 1)
  prev : first < r → lt (v cur) (v (r - 1)) = false
  next : lt (v cur) (v r) = true
  above : ∀ i, cur < i → v' i = v i

theorem Shifted.sorted (hlt : StrictWeak lt) {first cur r : Nat} {v v' : Nat → α}
    (h : Shifted lt first cur r v v') (hs : SortedOn lt first cur v) :
    SortedOn lt first (cur + 1) v' := by
  obtain ⟨a1, a2, a4, a7, a8, a10, a11, -⟩ := h
  apply SortedOn.of_adjacent hlt
  intro i b1 b2
  by_cases hi : i + 1 < r
  · rw [a7 i b1 (by omega), a7 (i + 1) (by omega) hi]
    exact hs i (i + 1) b1 (by omega) (by omega)
  · by_cases hi2 : i + 1 = r
    · rw [hi2, a4, a7 i b1 (by omega)]
      have := a10 (by omega)
      rwa [show r - 1 = i by omega] at this
    · by_cases hi3 : i = r
      · subst hi3
        rw [a4, a8 (i + 1) (by omega) (by omega)]
        exact hlt.asymm a11
      · rw [a8 (i + 1) (by omega) (by omega), a8 i (by omega) (by omega)]
        exact hs (i - 1) (i + 1 - 1) (by omega) (by omega) (by omega)

/-- The element before the range is not greater than any element of the range. -/
def Guard (lt : α → α → Bool) (s : St α) (first last : Nat) (v : Nat → α) : Prop :=
  0 < first ∧ ∃ w, s.cell (first - 1) = .val w ∧ ∀ i, first ≤ i → i < last → lt (v i) w = false

theorem Guard.upd {s s' : St α} {first last : Nat} {v v' : Nat → α}
    (h : Guard lt s first last v) (u : Upd first last s s' v v') : Guard lt s' first last v' := by
  obtain ⟨h0, w, h1, h2⟩ := h
  exact ⟨h0, w, by rw [u.frame.cell _ (by omega)]; exact h1,
    u.perm.forall (P := fun y => lt y w = false) h2⟩

theorem unguardedShift_spec {first l : Nat} {tmp w : α} (h0 : 0 < first) (hg : lt tmp w = false) :
    ∀ (n sift : Nat) (s : St α) (v : Nat → α), sift = first + n → first < sift → sift < l →
    s.cell (first - 1) = .val w →
    HoldsX s.cell first l sift v → v sift = tmp → lt tmp (v (sift - 1)) = true →
    wp (unguardedShift (tick lt) tmp sift) (fun r s' => ∃ v',
      HoldsX s'.cell first l r v' ∧ PermOn first l v v' ∧ Frame first l s s' ∧
      Shifted lt first sift r v v' ∧ s'.cmps + r = s.cmps + sift) s := by
  intro n
  induction n with
  | zero => intros; omega
  | succ n ih =>
    intro sift s v hs hf hl hw hx ht hlt1
    rw [unguardedShift]
    apply wp_bind
    refine wp_moveTo hx (i := sift - 1) (by omega) (by omega) (by omega) ?_
    intro s1 hx1 fr1 hc1 _
    have hw1 : s1.cell (first - 1) = .val w := by rw [fr1.cell _ (by omega)]; exact hw
    apply wp_bind
    by_cases hz : sift - 1 = first
    · refine wp_read' (x := w) (by rw [hz]; exact hw1) ?_
      apply wp_bind
      apply wp_tick
      rw [hg]
      simp only [Bool.false_eq_true, if_false]
      refine wp_pure ⟨_, hx1, PermOn.swp (by omega) (by omega), fr1.tickr, ⟨by omega, by omega,
        swp_r rfl, fun i a c => by omega, fun i a c => ?_, fun _ => by omega, by rw [ht]; exact hlt1,
        fun i a => swp_o (by omega) (by omega)⟩, by dsimp only; omega⟩
      rw [swp_l (by omega), show i - 1 = sift - 1 by omega]
    · refine wp_readX (i := sift - 1 - 1) hx1 (by omega) (by omega) (by omega) ?_
      apply wp_bind
      apply wp_tick
      rw [swp_o (by omega) (by omega)]
      by_cases hc : lt tmp (v (sift - 1 - 1)) = true
      · rw [if_pos hc]
        refine wp_mono (ih (sift - 1) { s1 with cmps := s1.cmps + 1 } _ (by omega) (by omega)
          (by omega) hw1 hx1 (by rw [swp_r rfl]; exact ht) (by rw [swp_o (by omega) (by omega)]; exact hc)) ?_
        rintro r s2 ⟨v2, b1, b2, b3, ⟨b4, b5, b6, b7, b8, b9, b10, b11⟩, b12⟩
        refine ⟨v2, b1, (PermOn.swp (by omega) (by omega)).trans b2, fr1.trans b3.tick, ⟨b4, by omega,
          by rw [b6, swp_r rfl], fun i a c => ?_, fun i a c => ?_, fun a => ?_, ?_,
          fun i a => by rw [b11 i (by omega), swp_o (by omega) (by omega)]⟩, by dsimp only at b12; omega⟩
        · rw [b7 i a c, swp_o (by omega) (by omega)]
        · by_cases hi : i = sift
          · rw [b11 i (by omega), swp_l hi, hi]
          · rw [b8 i a (by omega), swp_o (by omega) (by omega)]
        · have := b9 a
          rwa [swp_r rfl, swp_o (by omega) (by omega)] at this
        · rwa [swp_r rfl, swp_o (by omega) (by omega)] at b10
      · rw [if_neg hc]
        refine wp_pure ⟨_, hx1, PermOn.swp (by omega) (by omega), fr1.tickr, ⟨by omega, by omega,
          swp_r rfl, fun i a c => ?_, fun i a c => ?_, fun _ => ?_, by rw [ht]; exact hlt1,
          fun i a => swp_o (by omega) (by omega)⟩, by dsimp only; omega⟩
        · rw [swp_o (by omega) (by omega)]
        · rw [swp_l (by omega), show i - 1 = sift - 1 by omega]
        · rw [ht]; simpa using hc

theorem unguardedLoop_spec (hlt : StrictWeak lt) (first last : Nat) :
    ∀ (n cur : Nat) (s : St α) (v : Nat → α), cur + n = last → first < cur →
    Holds s.cell first last v → Guard lt s first last v → SortedOn lt first cur v →
    wp (unguardedLoop (tick lt) cur last) (fun _ s' => s'.cmps ≤ s.cmps + (last - first) * n ∧
      ∃ v', Upd first last s s' v v' ∧ SortedOn lt first last v') s := by
  intro n
  induction n with
  | zero =>
    intro cur s v h1 h2 hh hg hs
    rw [unguardedLoop, if_neg (by omega)]
    exact wp_pure ⟨by omega, v, Upd.refl hh, hs.sub (Nat.le_refl _) (by omega)⟩
  | succ n ih =>
    intro cur s v h1 h2 hh hg hs
    rw [unguardedLoop, if_pos (by omega)]
    wread hh
    wread hh
    wtick
    split
    · rename_i hc
      apply wp_bind
      refine wp_moveOut (s := { s with cmps := s.cmps + 1 }) hh (by omega) (by omega) ?_
      intro s1 hx1 fr1 hc1 _
      obtain ⟨g0, w, g1, g2⟩ := hg
      apply wp_bind
      refine wp_mono (unguardedShift_spec g0 (g2 cur (by omega) (by omega)) (cur - first) cur s1 v
        (by omega) h2 (by omega) (by rw [fr1.cell _ (by omega)]; exact g1) hx1 rfl hc) ?_
      rintro r s2 ⟨v2, hx2, p2, fr2, sh, hc2⟩
      apply wp_bind
      refine wp_assign hx2 sh.at_.symm ?_
      intro s3 hh3 fr3 hc3 _
      have u : Upd first last s s3 v v2 := ⟨hh3, p2, (fr1.tick.trans fr2).trans fr3⟩
      refine wp_mono (ih (cur + 1) s3 v2 (by omega) (by omega) hh3
        (Guard.upd ⟨g0, w, g1, g2⟩ u) (sh.sorted hlt hs)) ?_
      rintro _ s4 ⟨hc4, v4, u4, so⟩
      refine ⟨?_, v4, u.trans u4, so⟩
      have := sh.lo
      rw [Nat.mul_succ]
      dsimp only at hc1
      omega
    · rename_i hc
      refine wp_mono (ih (cur + 1) { s with cmps := s.cmps + 1 } v (by omega) (by omega) hh hg
        (hs.snoc hlt fun _ => by simpa using hc)) ?_
      rintro _ s4 ⟨hc4, v4, u4, so⟩
      refine ⟨?_, v4, u4.tick, so⟩
      rw [Nat.mul_succ]
      dsimp only at hc4
      omega

theorem unguardedInsertionSort_spec (hlt : StrictWeak lt) {first last : Nat} {s : St α} {v : Nat → α}
    (h : first ≤ last) (hh : Holds s.cell first last v) (hg : Guard lt s first last v) :
    wp (unguardedInsertionSort (tick lt) first last) (fun _ s' =>
      s'.cmps ≤ s.cmps + (last - first) * (last - (first + 1)) ∧
      ∃ v', Upd first last s s' v v' ∧ SortedOn lt first last v') s := by
  unfold unguardedInsertionSort
  split
  · exact wp_pure ⟨by omega, v, Upd.refl hh, SortedOn.trivial (by omega)⟩
  · exact unguardedLoop_spec hlt first last (last - (first + 1)) (first + 1) s v (by omega) (by omega)
      hh hg (SortedOn.trivial (by omega))

theorem partialLoop_spec (hlt : StrictWeak lt) (first last : Nat) :
    ∀ (n cur limit : Nat) (s : St α) (v : Nat → α), cur + n = last → first < cur →
    Holds s.cell first last v → SortedOn lt first cur v →
    wp (partialLoop (tick lt) first last cur limit) (fun r s' => ∃ v',
      Upd first last s s' v v' ∧ (r = true → SortedOn lt first last v')) s := by
  intro n
  induction n with
  | zero =>
    intro cur limit s v h1 h2 hh hs
    rw [partialLoop, if_neg (by omega)]
    exact wp_pure ⟨v, Upd.refl hh, fun _ => hs.sub (Nat.le_refl _) (by omega)⟩
  | succ n ih =>
    intro cur limit s v h1 h2 hh hs
    rw [partialLoop, if_pos (by omega)]
    wread hh
    wread hh
    wtick
    split
    · rename_i hc
      apply wp_bind
      refine wp_moveOut (s := { s with cmps := s.cmps + 1 }) hh (by omega) (by omega) ?_
      intro s1 hx1 fr1 _ _
      apply wp_bind
      refine wp_mono (insertionShift_spec hlt first last (v cur) (cur - first) cur s1 v (by omega)
        h2 (by omega) hx1 rfl hc) ?_
      rintro r s2 ⟨v2, a1, a2, a3, a4, a5, a6, a7, a8, a9, a10, a11, a12, a13⟩
      have sh : Shifted lt first cur r v v2 := ⟨a1, a2, a4, a7, a8, a10, a11, a9⟩
      apply wp_bind
      refine wp_assign a3 a4.symm ?_
      intro s3 hh3 fr3 _ _
      have u : Upd first last s s3 v v2 := ⟨hh3, a5.1, (fr1.tick.trans a6).trans fr3⟩
      split
      · exact wp_pure ⟨v2, u, fun h => by simp at h⟩
      · refine wp_mono (ih (cur + 1) _ s3 v2 (by omega) (by omega) hh3 (sh.sorted hlt hs)) ?_
        rintro _ s4 ⟨v4, u4, so⟩
        exact ⟨v4, u.trans u4, so⟩
    · rename_i hc
      split
      · exact wp_pure ⟨v, (Upd.refl hh).tickr, fun h => by simp at h⟩
      · refine wp_mono (ih (cur + 1) _ { s with cmps := s.cmps + 1 } v (by omega) (by omega) hh
          (hs.snoc hlt fun _ => by simpa using hc)) ?_
        rintro _ s4 ⟨v4, u4, so⟩
        exact ⟨v4, u4.tick, so⟩

theorem partialInsertionSort_spec (hlt : StrictWeak lt) {first last : Nat} {s : St α} {v : Nat → α}
    (h : first ≤ last) (hh : Holds s.cell first last v) :
    wp (partialInsertionSort (tick lt) first last) (fun r s' => ∃ v',
      Upd first last s s' v v' ∧ (r = true → SortedOn lt first last v')) s := by
  unfold partialInsertionSort
  split
  · exact wp_pure ⟨v, Upd.refl hh, fun _ => SortedOn.trivial (by omega)⟩
  · exact partialLoop_spec hlt first last (last - (first + 1)) (first + 1) 0 s v (by omega) (by omega)
      hh (SortedOn.trivial (by omega))

/-! ### pivot -/

theorem ce_cases (hlt : StrictWeak lt) {i j : Nat} (h : i ≠ j) (v : Nat → α) :
    lt (ce lt (i, j) v j) (ce lt (i, j) v i) = false ∧
    (∀ k, k ≠ i → k ≠ j → ce lt (i, j) v k = v k) ∧
    (lt (ce lt (i, j) v j) (v j) = false ∧ lt (ce lt (i, j) v j) (v i) = false) ∧
    (lt (v j) (ce lt (i, j) v i) = false ∧ lt (v i) (ce lt (i, j) v i) = false) := by
  unfold ce
  simp only
  split
  · rename_i hc
    have := hlt.asymm hc
    refine ⟨by rw [swp_l rfl, swp_r rfl]; exact this, fun k a c => swp_o a c, ?_, ?_⟩
    · rw [swp_r rfl]; exact ⟨this, hlt.irrefl _⟩
    · rw [swp_l rfl]; exact ⟨hlt.irrefl _, this⟩
  · rename_i hc
    have hc : lt (v j) (v i) = false := by simpa using hc
    exact ⟨hc, fun _ _ _ => rfl, ⟨hlt.irrefl _, hc⟩, ⟨hc, hlt.irrefl _⟩⟩

theorem iterSort3_spec (hlt : StrictWeak lt) {f l a b c : Nat} {s : St α} {v : Nat → α}
    (hh : Holds s.cell f l v) (ha : f ≤ a ∧ a < l) (hb : f ≤ b ∧ b < l) (hc : f ≤ c ∧ c < l)
    (hab : a ≠ b) (hac : a ≠ c) (hbc : b ≠ c) :
    wp (iterSort3 (tick lt) a b c) (fun _ s' => ∃ v', Upd f l s s' v v' ∧
      lt (v' b) (v' a) = false ∧ lt (v' c) (v' b) = false) s := by
  unfold iterSort3
  apply wp_bind
  refine wp_mono (iterSwapIf_ce hlt hh hb hc) ?_
  rintro _ s1 ⟨u1, -⟩
  apply wp_bind
  refine wp_mono (iterSwapIf_ce hlt u1.holds ha hc) ?_
  rintro _ s2 ⟨u2, -⟩
  apply wp_bind
  refine wp_mono (iterSwapIf_ce hlt u2.holds ha hb) ?_
  rintro _ s3 ⟨u3, -⟩
  refine wp_pure ⟨_, (u1.trans u2).trans u3, ?_⟩
  obtain ⟨p1, p2, p3, p4⟩ := ce_cases hlt hbc v
  generalize ce lt (b, c) v = v1 at *
  obtain ⟨q1, q2, q3, q4⟩ := ce_cases hlt hac v1
  generalize ce lt (a, c) v1 = v2 at *
  obtain ⟨r1, r2, r3, r4⟩ := ce_cases hlt hab v2
  have hcb : lt (v2 c) (v2 b) = false := by
    rw [q2 b (Ne.symm hab) hbc]
    exact hlt.le_trans p1 q3.1
  refine ⟨r1, ?_⟩
  rw [r2 c (Ne.symm hac) (Ne.symm hbc)]
  unfold ce
  simp only
  split
  · rw [swp_r rfl]; exact q1
  · exact hcb

theorem pdqPivot_spec (hlt : StrictWeak lt) {f l : Nat} {s : St α} {v : Nat → α}
    (hfl : 24 ≤ l - f) (hh : Holds s.cell f l v) :
    wp (pdqPivot (tick lt) f l) (fun _ s' => ∃ v', Upd f l s s' v v' ∧
      (∃ g, f < g ∧ g < l ∧ lt (v' g) (v' f) = false) ∧
      (∃ g, f < g ∧ g < l ∧ lt (v' f) (v' g) = false)) s := by
  unfold pdqPivot
  simp only
  generalize hs2 : (l - f) / 2 = d
  split
  · apply wp_bind
    refine wp_mono (iterSort3_spec hlt hh (by omega) (by omega) (by omega) (by omega) (by omega)
      (by omega)) ?_
    rintro _ s1 ⟨v1, u1, -⟩
    apply wp_bind
    refine wp_mono (iterSort3_spec hlt u1.holds (by omega) (by omega) (by omega) (by omega)
      (by omega) (by omega)) ?_
    rintro _ s2 ⟨v2, u2, -⟩
    apply wp_bind
    refine wp_mono (iterSort3_spec hlt u2.holds (by omega) (by omega) (by omega) (by omega)
      (by omega) (by omega)) ?_
    rintro _ s3 ⟨v3, u3, -⟩
    apply wp_bind
    refine wp_mono (iterSort3_spec hlt u3.holds (by omega) (by omega) (by omega) (by omega)
      (by omega) (by omega)) ?_
    rintro _ s4 ⟨v4, u4, h1, h2⟩
    refine wp_swap (v := v4) (f := f) (l := l) u4.holds (by omega) (by omega) ?_
    intro s5 u5
    refine ⟨_, (((u1.trans u2).trans u3).trans u4).trans u5,
      ⟨f + (d + 1), by omega, by omega, ?_⟩, ⟨f + (d - 1), by omega, by omega, ?_⟩⟩
    · rw [swp_o (by omega) (by omega), swp_l rfl]; exact h2
    · rw [swp_l rfl, swp_o (by omega) (by omega)]; exact h1
  · apply wp_bind
    refine wp_mono (iterSort3_spec hlt hh (by omega) (by omega) (by omega) (by omega) (by omega)
      (by omega)) ?_
    rintro _ s1 ⟨v1, u1, h1, h2⟩
    exact wp_pure ⟨v1, u1, ⟨l - 1, by omega, by omega, h2⟩, ⟨f + d, by omega, by omega, h1⟩⟩

theorem pdqBreakLeft_mixes {f p : Nat} :
    Mixes (α := α) f p (pdqBreakLeft f p) (fun _ => True) := by
  unfold pdqBreakLeft
  mix

theorem pdqBreakRight_mixes {p l : Nat} :
    Mixes (α := α) (p + 1) l (pdqBreakRight p l) (fun _ => True) := by
  unfold pdqBreakRight
  mix

/-! ### main loop -/

theorem PRight.updL {b p e : Nat} {v v' : Nat → α} {x : α} (h : PRight lt b p e v x)
    (hp : PermOn b p v v') : PRight lt b p e v' x :=
  ⟨h.lo, h.hi, by rw [hp.out (Or.inr (Nat.le_refl _))]; exact h.at_,
    hp.forall (P := fun y => lt y x = true) h.left,
    fun i a c => by rw [hp.out (Or.inr (by omega))]; exact h.right i a c⟩

theorem PRight.updR {b p e : Nat} {v v' : Nat → α} {x : α} (h : PRight lt b p e v x)
    (hp : PermOn (p + 1) e v v') : PRight lt b p e v' x :=
  ⟨h.lo, h.hi, by rw [hp.out (Or.inl (by omega))]; exact h.at_,
    fun i a c => by rw [hp.out (Or.inl (by omega))]; exact h.left i a c,
    hp.forall (P := fun y => lt y x = false) h.right⟩

theorem PRight.sorted (hlt : StrictWeak lt) {b p e : Nat} {v : Nat → α} {x : α}
    (h : PRight lt b p e v x) (h1 : SortedOn lt b p v) (h2 : SortedOn lt (p + 1) e v) :
    SortedOn lt b e v := by
  refine SortedOn.append hlt (h1.snoc hlt fun a => ?_) h2 fun a c => ?_
  · rw [h.at_]; exact hlt.asymm (h.left (p - 1) (by have := h.lo; omega) (by omega))
  · rw [show p + 1 - 1 = p by omega, h.at_]; exact h.right _ (by omega) c

theorem pdqPartition_spec {b e g : Nat} {s : St α} {v : Nat → α} (bl : Bool)
    (hh : Holds s.cell b e v) (hg : b < g) (hge : g < e) (hgx : lt (v g) (v b) = false) :
    wp (pdqPartition (tick lt) bl b e) (fun r s' => s'.cmps ≤ s.cmps + (e - b) + 1 ∧
      ∃ v', Upd b e s s' v v' ∧ PRight lt b r.1 e v' (v b)) s := by
  unfold pdqPartition
  split
  · exact partitionRightBranchless_spec hh hg hge hgx
  · exact partitionRight_spec hh hg hge hgx

/-- The call is on the leftmost part, or the preceding element is a guard. -/
def Lefts (lt : α → α → Bool) (leftmost : Bool) (s : St α) (first last : Nat) (v : Nat → α) : Prop :=
  leftmost = true ∨ Guard lt s first last v

theorem Lefts.upd {s s' : St α} {first last : Nat} {v v' : Nat → α} {b : Bool}
    (h : Lefts lt b s first last v) (u : Upd first last s s' v v') : Lefts lt b s' first last v' :=
  h.imp id (·.upd u)

theorem Lefts.left {s : St α} {first m last : Nat} {v : Nat → α} {b : Bool}
    (h : Lefts lt b s first last v) (hm : m ≤ last) : Lefts lt b s first m v :=
  h.imp id fun ⟨h0, w, h1, h2⟩ => ⟨h0, w, h1, fun i a c => h2 i a (by omega)⟩

/-- The two recursive calls. -/
theorem pdqRec_spec (hlt : StrictWeak lt) {f p l : Nat} {x : α} {s : St α} {v : Nat → α} {lm : Bool}
    {ml mr : M α Unit}
    (hh : Holds s.cell f l v) (hl : Lefts lt lm s f l v) (pr : PRight lt f p l v x)
    (hml : ∀ (s : St α) (v : Nat → α), Holds s.cell f p v → Lefts lt lm s f p v →
      wp ml (fun _ s' => ∃ v', Upd f p s s' v v' ∧ SortedOn lt f p v') s)
    (hmr : ∀ (s : St α) (v : Nat → α), Holds s.cell (p + 1) l v → Lefts lt false s (p + 1) l v →
      wp mr (fun _ s' => ∃ v', Upd (p + 1) l s s' v v' ∧ SortedOn lt (p + 1) l v') s) :
    wp (ml >>= fun _ => mr) (fun _ s' => ∃ v', Upd f l s s' v v' ∧ SortedOn lt f l v') s := by
  have h1 := pr.lo
  have h2 := pr.hi
  apply wp_bind
  refine wp_mono (hml s v (hh.sub (by omega) (by omega)) (hl.left (by omega))) ?_
  rintro _ s1 ⟨v1, u1, so1⟩
  have pr1 := pr.updL u1.perm
  have w1 := u1.widen hh (Nat.le_refl _) (by omega)
  refine wp_mono (hmr s1 v1 (w1.holds.sub (by omega) (by omega))
    (Or.inr ⟨by omega, x, ?_, fun i a c => pr1.right i (by omega) c⟩)) ?_
  · have := w1.holds p (by omega) (by omega)
    rw [pr1.at_] at this
    exact this
  · rintro _ s2 ⟨v2, u2, so2⟩
    refine ⟨v2, w1.trans (u2.widen w1.holds (by omega) (Nat.le_refl _)), ?_⟩
    refine (pr1.updR u2.perm).sorted hlt (so1.congr fun i a c => ?_) so2
    rw [u2.perm.out (Or.inl (by omega))]

theorem pdqTryInsertion_spec (hlt : StrictWeak lt) {f p l : Nat} {x : α} {s : St α} {v : Nat → α}
    (already : Bool) (hh : Holds s.cell f l v) (pr : PRight lt f p l v x) :
    wp (pdqTryInsertion (tick lt) already f p l) (fun r s' => ∃ v', Upd f l s s' v v' ∧
      PRight lt f p l v' x ∧ (r = true → SortedOn lt f l v')) s := by
  have h1 := pr.lo
  have h2 := pr.hi
  unfold pdqTryInsertion
  split
  · apply wp_bind
    refine wp_mono (partialInsertionSort_spec hlt h1 (hh.sub (by omega) (by omega))) ?_
    rintro r s1 ⟨v1, u1, so1⟩
    have pr1 := pr.updL u1.perm
    have w1 := u1.widen hh (Nat.le_refl _) (by omega)
    split
    · rename_i hr
      refine wp_mono (partialInsertionSort_spec hlt h2 (w1.holds.sub (by omega) (Nat.le_refl _))) ?_
      rintro r2 s2 ⟨v2, u2, so2⟩
      have pr2 := pr1.updR u2.perm
      refine ⟨v2, w1.trans (u2.widen w1.holds (by omega) (Nat.le_refl _)), pr2, fun h => ?_⟩
      refine pr2.sorted hlt ((so1 hr).congr fun i a c => ?_) (so2 h)
      rw [u2.perm.out (Or.inl (by omega))]
    · exact wp_pure ⟨v1, w1, pr1, fun h => by simp at h⟩
  · exact wp_pure ⟨v, Upd.refl hh, pr, fun h => by simp at h⟩

theorem pdqsortLoop_spec (hlt : StrictWeak lt) (bl : Bool) :
    ∀ (n f l : Nat) (bad : Int) (lm : Bool) (s : St α) (v : Nat → α), l - f = n → f ≤ l →
    Holds s.cell f l v → Lefts lt lm s f l v →
    wp (pdqsortLoop (tick lt) bl f l bad lm) (fun _ s' => ∃ v', Upd f l s s' v v' ∧
      SortedOn lt f l v') s := by
  intro n
  induction n using Nat.strongRecOn with
  | _ n ih =>
    intro f l bad lm s v hn hfl hh hlm
    rw [pdqsortLoop]
    split
    · split
      · refine wp_mono (insertionSort_spec hlt hfl hh) ?_
        rintro _ s1 ⟨v1, u1, so, -⟩
        exact ⟨v1, u1.upd, so⟩
      · rename_i hb
        exact wp_mono (unguardedInsertionSort_spec hlt hfl hh (hlm.resolve_left hb)) fun _ _ h => h.2
    · rename_i hbig
      apply wp_bind
      refine wp_mono (pdqPivot_spec hlt (by omega) hh) ?_
      rintro _ s1 ⟨v1, u1, ⟨g1, a1, a2, a3⟩, ⟨g2, b1, b2, b3⟩⟩
      have hlm1 := hlm.upd u1
      apply wp_bind
      have heq : wp (pdqEqualPivot (tick lt) lm f) (fun r s' => (∃ k, s' = { s1 with cmps := k }) ∧
          (r = true → lm = false ∧ ∃ w, lt w (v1 f) = false ∧
            ∀ i, f ≤ i → i < l → lt (v1 i) w = false)) s1 := by
        unfold pdqEqualPivot
        split
        · exact wp_pure ⟨⟨s1.cmps, rfl⟩, fun h => by simp at h⟩
        · rename_i hb
          obtain ⟨h0, w, hw, hi⟩ := hlm1.resolve_left hb
          apply wp_bind
          refine wp_read' hw ?_
          wread u1.holds
          wtick
          exact wp_pure ⟨⟨_, rfl⟩, fun h => ⟨by simpa using hb, w, by simpa using h, hi⟩⟩
      refine wp_mono heq ?_
      rintro r _ ⟨⟨k, rfl⟩, hr⟩
      split
      · rename_i hrt
        obtain ⟨hb, w, hw1, hw2⟩ := hr hrt
        apply wp_bind
        refine wp_mono (partitionLeft_spec (lt := lt) (s := { s1 with cmps := k }) u1.holds b1 b2 b3) ?_
        rintro p s2 ⟨-, v2, u2, pl⟩
        have c1 := pl.lo
        have c2 := pl.hi
        have u12 := u1.trans u2.tick
        have hall := u2.perm.forall (P := fun y => lt y w = false) hw2
        refine wp_mono (ih (l - (p + 1)) (by omega) (p + 1) l bad lm s2 v2 rfl (by omega)
          (u12.holds.sub (by omega) (Nat.le_refl _)) (Or.inr ⟨by omega, v1 f, ?_, fun i a c => ?_⟩)) ?_
        · have := u12.holds p (by omega) (by omega)
          rw [pl.at_] at this
          exact this
        · exact hlt.asymm (pl.right i (by omega) c)
        · rintro _ s3 ⟨v3, u3, so⟩
          refine ⟨v3, u12.trans (u3.widen u12.holds (by omega) (Nat.le_refl _)), ?_⟩
          -- all elements of `[f, p]` are equivalent to the pivot
          have hge : ∀ i, f ≤ i → i ≤ p → lt (v3 i) (v1 f) = false ∧ lt (v1 f) (v3 i) = false := by
            intro i a c
            rw [u3.perm.out (Or.inl (by omega))]
            refine ⟨hlt.le_trans hw1 (hall i a (by omega)), ?_⟩
            by_cases e : i = p
            · rw [e, pl.at_]; exact hlt.irrefl _
            · exact pl.left i a (by omega)
          have hgt : ∀ i, p < i → i < l → lt (v1 f) (v3 i) = true := fun i a c =>
            u3.perm.forall (P := fun y => lt (v1 f) y = true)
              (fun i a c => pl.right i (by omega) c) i a c
          intro i j d1 d2 d3
          by_cases e1 : p < i
          · exact so i j (by omega) d2 d3
          · by_cases e2 : p < j
            · exact hlt.le_trans (hge i d1 (by omega)).2 (hlt.asymm (hgt j e2 d3))
            · exact hlt.le_trans (hge i d1 (by omega)).2 (hge j (by omega) (by omega)).1
      · apply wp_bind
        refine wp_mono (pdqPartition_spec (lt := lt) (s := { s1 with cmps := k }) bl u1.holds a1 a2 a3) ?_
        rintro ⟨p, already⟩ s2 ⟨-, v2, u2, pr⟩
        simp only at pr
        have c1 := pr.lo
        have c2 := pr.hi
        have u12 := u1.trans u2.tick
        have hlm2 := hlm.upd u12
        dsimp only
        split
        · split
          · refine wp_mono (heapsort_spec hlt hfl u12.holds) ?_
            rintro _ s3 ⟨v3, u3, so⟩
            exact ⟨v3, u12.trans u3, so⟩
          · apply wp_bind
            refine wp_mono (pdqBreakLeft_mixes s2 v2 (u12.holds.sub (Nat.le_refl f) (show p ≤ l by omega))) ?_
            rintro _ s3 ⟨-, v3, u3⟩
            have pr3 := pr.updL u3.perm
            have w3 := u12.trans (u3.widen u12.holds (Nat.le_refl _) (by omega))
            apply wp_bind
            refine wp_mono (pdqBreakRight_mixes s3 v3 (w3.holds.sub (show f ≤ p + 1 by omega) (Nat.le_refl _))) ?_
            rintro _ s4 ⟨-, v4, u4⟩
            have pr4 := pr3.updR u4.perm
            have w4 := w3.trans (u4.widen w3.holds (by omega) (Nat.le_refl _))
            refine wp_mono (pdqRec_spec hlt w4.holds (hlm.upd w4) pr4
              (fun s v hh hl => ih (p - f) (by omega) f p _ lm s v rfl c1 hh hl)
              (fun s v hh hl => ih (l - (p + 1)) (by omega) (p + 1) l _ false s v rfl (by omega) hh hl)) ?_
            rintro _ s5 ⟨v5, u5, so⟩
            exact ⟨v5, w4.trans u5, so⟩
        · apply wp_bind
          refine wp_mono (pdqTryInsertion_spec hlt already u12.holds pr) ?_
          rintro r s3 ⟨v3, u3, pr3, so⟩
          have w3 := u12.trans u3
          split
          · rename_i hr
            exact wp_pure ⟨v3, w3, so hr⟩
          · refine wp_mono (pdqRec_spec hlt w3.holds (hlm.upd w3) pr3
              (fun s v hh hl => ih (p - f) (by omega) f p _ lm s v rfl c1 hh hl)
              (fun s v hh hl => ih (l - (p + 1)) (by omega) (p + 1) l _ false s v rfl (by omega) hh hl)) ?_
            rintro _ s5 ⟨v5, u5, so⟩
            exact ⟨v5, w3.trans u5, so⟩

theorem pdqsort_spec (hlt : StrictWeak lt) (bl : Bool) {f l : Nat} {s : St α} {v : Nat → α}
    (hfl : f ≤ l) (hh : Holds s.cell f l v) :
    wp (pdqsort (tick lt) bl f l) (fun _ s' => ∃ v', Upd f l s s' v v' ∧ SortedOn lt f l v') s := by
  unfold pdqsort
  split
  · exact wp_pure ⟨v, Upd.refl hh, SortedOn.trivial (by omega)⟩
  · exact pdqsortLoop_spec hlt bl _ f l _ true s v rfl hfl hh (Or.inl rfl)

end CppSort
