import Verif.Proof.Heap
/-
The functions of heapsort.h with a comparison that may only be called on some elements (`G`).
-/
set_option autoImplicit false

namespace CppSort
variable {α : Type} {lt : α → α → Bool} {cmp : α → α → M α Bool} {G : α → Prop}

/-- `cmp` computes `lt` on the elements that satisfy `G`. -/
def OnGood (cmp : α → α → M α Bool) (lt : α → α → Bool) (G : α → Prop) : Prop :=
  ∀ x y, G x → G y → cmp x y = tick lt x y

theorem OnGood.wp (h : OnGood cmp lt G) {x y : α} (hx : G x) (hy : G y) {Q : Bool → St α → Prop} {s : St α}
    (hQ : Q (lt x y) { s with cmps := s.cmps + 1 }) : wp (cmp x y) Q s := by
  rw [h x y hx hy]; exact wp_tick hQ

/-- The elements of a heap outside of the hole. -/
def GoodX (G : α → Prop) (first len p : Nat) (v : Nat → α) : Prop := ∀ i, i < len → i ≠ p → G (v (first + i))

theorem GoodX.step {first len p c : Nat} {v : Nat → α} (h : GoodX G first len p v) (hc : c < len) (hp : p ≠ c) :
    GoodX G first len c (swp v (first + p) (first + c)) := by
  intro i hi hn
  by_cases e : i = p
  · subst e; rw [swp_l rfl]; exact h c hc (Ne.symm hp)
  · rw [swp_o (by omega) (by omega)]; exact h i hi e

theorem heapTopChild_on (hlt : StrictWeak lt) (hcm : OnGood cmp lt G) {first len p : Nat} {s : St α} {v : Nat → α}
    (h1 : 2 * p + 1 < len)
    (hg : GoodX G first len p v)
    (hh : ∀ i, p < i → i < len → s.cell (first + i) = .val (v (first + i))) :
    wp (heapTopChild cmp first len p) (fun c s' =>
      (∃ n, s' = { s with cmps := n } ∧ n ≤ s.cmps + 1) ∧
      0 < c ∧ c < len ∧ par2 c = p ∧ p < c ∧ c ≤ 2 * p + 2 ∧
      ∀ j, 0 < j → j < len → par2 j = p → lt (v (first + c)) (v (first + j)) = false) s := by
  unfold heapTopChild
  simp only []
  split
  · apply wp_bind
    refine wp_read' (hh (2 * p + 1) (by omega) (by omega)) ?_
    apply wp_bind
    refine wp_read' (hh (2 * p + 2) (by omega) (by omega)) ?_
    apply wp_bind
    apply hcm.wp (hg _ (by omega) (by omega)) (hg _ (by omega) (by omega))
    split
    · rename_i hc
      refine wp_pure ⟨⟨_, rfl, Nat.le_refl _⟩, by omega, by omega, by unfold par2; omega, by omega,
        by omega, ?_⟩
      intro j j0 jl jp
      unfold par2 at jp
      by_cases hj : j = 2 * p + 2
      · subst hj; exact hlt.irrefl _
      · rw [show j = 2 * p + 1 by omega]; exact hlt.asymm hc
    · rename_i hc
      refine wp_pure ⟨⟨_, rfl, Nat.le_refl _⟩, by omega, by omega, by unfold par2; omega, by omega,
        by omega, ?_⟩
      intro j j0 jl jp
      unfold par2 at jp
      by_cases hj : j = 2 * p + 2
      · subst hj; simpa using hc
      · rw [show j = 2 * p + 1 by omega]; exact hlt.irrefl _
  · refine wp_pure ⟨⟨s.cmps, rfl, by omega⟩, by omega, by omega, by unfold par2; omega, by omega,
        by omega, ?_⟩
    intro j j0 jl jp
    unfold par2 at jp
    rw [show j = 2 * p + 1 by omega]; exact hlt.irrefl _

theorem siftDownLoop_on (hlt : StrictWeak lt) (hcm : OnGood cmp lt G) (first len k l : Nat) (hl : first + len ≤ l)
    (top : α) :
    ∀ (n p c : Nat) (s : St α) (v : Nat → α), len ≤ p + n → k ≤ p →
    HoldsX s.cell first l (first + p) v → v (first + p) = top →
    HoleDown lt par2 first k len p v → GoodX G first len p v → G top →
    0 < c → c < len → par2 c = p → p < c → c ≤ 2 * p + 2 →
    (∀ j, 0 < j → j < len → par2 j = p → lt (v (first + c)) (v (first + j)) = false) →
    lt (v (first + c)) top = false →
    wp (siftDownLoop cmp first len top (first + p) c) (fun r s' => ∃ v',
      HoldsX s'.cell first l r v' ∧ v' r = top ∧ Frame first l s s' ∧
      PermOn (first + k) (first + len) v v' ∧ HeapFrom lt par2 first k len v') s := by
  intro n
  induction n with
  | zero => intros; omega
  | succ n ih =>
    intro p c s v hn hk hx ht hd hg hgt c0 cl cp pc c2 hmax hge
    rw [siftDownLoop]
    apply wp_bind
    refine wp_moveTo hx (i := first + c) (by omega) (by omega) (by omega) ?_
    intro s1 hx1 fr1 c1 m1
    have hg1 := hg.step cl (by omega)
    have hd1 := hd.step par2_lt hlt hk c0 cl cp hmax (by rw [ht]; exact hge)
    have hp1 : PermOn (first + k) (first + len) v (swp v (first + p) (first + c)) :=
      PermOn.swp (by omega) (by omega)
    have ht1 : swp v (first + p) (first + c) (first + c) = top := by rw [swp_r rfl]; exact ht
    simp only []
    split
    · refine wp_pure ⟨_, hx1, ht1, fr1, hp1, hd1.done ?_⟩
      intro j j0 jl jp
      unfold par2 at jp
      omega
    · apply wp_bind
      refine wp_mono (heapTopChild_on hlt hcm (p := c) (v := swp v (first + p) (first + c)) (by omega) hg1
        (fun i a b => hx1.1 _ (by omega) (by omega) (by omega))) ?_
      rintro d _ ⟨⟨m, rfl, -⟩, d0, dl, dc, cd, d2, dmax⟩
      wreadX hx1
      apply wp_bind
      apply hcm.wp (hg1 _ (by omega) (by omega)) hgt
      split
      · rename_i hc
        refine wp_pure ⟨_, hx1, ht1, fr1.tickr.tickr, hp1, hd1.done ?_⟩
        intro j j0 jl jp
        rw [ht1]
        exact hlt.le_trans (dmax j j0 jl jp) (hlt.asymm hc)
      · rename_i hc
        refine wp_mono (ih c d _ (swp v (first + p) (first + c)) (by omega) (by omega) hx1 ht1 hd1 hg1 hgt
          d0 dl dc cd d2 dmax (by simpa using hc)) ?_
        rintro r s' ⟨v', a1, a2, a3, a4, a5⟩
        exact ⟨v', a1, a2, fr1.trans a3.tick.tick, hp1.trans a4, a5⟩

theorem siftDown_on (hlt : StrictWeak lt) (hcm : OnGood cmp lt G) {first len k l : Nat} (hl : first + len ≤ l)
    {s : St α} {v : Nat → α} (hk : k < len) (hh : Holds s.cell first l v)
    (hp : HeapFrom lt par2 first (k + 1) len v) (hg : ∀ i, i < len → G (v (first + i))) :
    wp (siftDown cmp first len (first + k)) (fun _ s' => ∃ v',
      Upd (first + k) (first + len) s s' v v' ∧ HeapFrom lt par2 first k len v') s := by
  unfold siftDown
  have hd := hp.holeDown par2_lt
  simp only []
  rw [show first + k - first = k by omega]
  have wid : ∀ (s' : St α) (v' : Nat → α), Holds s'.cell first l v' → Frame first l s s' →
      PermOn (first + k) (first + len) v v' → Upd (first + k) (first + len) s s' v v' := by
    intro s' v' a b c
    refine ⟨a.sub (by omega) (by omega), c, fun i hi => ?_, b.brk⟩
    by_cases hr : first ≤ i ∧ i < l
    · rw [a i hr.1 hr.2, hh i hr.1 hr.2, c.out hi]
    · exact b.cell i (by omega)
  split
  · refine wp_pure ⟨v, Upd.refl (hh.sub (by omega) (by omega)), hd.done ?_⟩
    intro j j0 jl jp
    unfold par2 at jp
    omega
  · apply wp_bind
    refine wp_mono (heapTopChild_on hlt hcm (p := k) (v := v) (by omega) (fun i hi _ => hg i hi)
      (fun i a b => hh _ (by omega) (by omega))) ?_
    rintro d _ ⟨⟨m, rfl, -⟩, d0, dl, dc, cd, d2, dmax⟩
    wread hh
    wread hh
    apply wp_bind
    apply hcm.wp (hg _ (by omega)) (hg _ (by omega))
    split
    · rename_i hc
      refine wp_pure ⟨v, wid _ _ hh ⟨fun _ _ => rfl, EnvLe.of_env rfl⟩ (PermOn.refl _ _ _), hd.done ?_⟩
      intro j j0 jl jp
      exact hlt.le_trans (dmax j j0 jl jp) (hlt.asymm hc)
    · rename_i hc
      apply wp_bind
      refine wp_moveOut (f := first) (l := l) (v := v) hh (by omega) (by omega) ?_
      intro s1 hx1 fr1 c1 m1
      apply wp_bind
      refine wp_mono (siftDownLoop_on hlt hcm first len k l hl _ (len - k) k d s1 v (by omega)
        (Nat.le_refl _) hx1 rfl hd (fun i hi _ => hg i hi) (hg _ hk) d0 dl dc cd d2 dmax (by simpa using hc)) ?_
      rintro r s2 ⟨v', a1, a2, a3, a4, a5⟩
      refine wp_assign a1 a2.symm ?_
      intro s3 hh3 fr3 c3 m3
      exact ⟨v', wid _ _ hh3 ((fr1.tick.tick.trans a3).trans fr3) a4, a5⟩

theorem floydLoop_on (hlt : StrictWeak lt) (hcm : OnGood cmp lt G) (first len : Nat) (top : α) :
    ∀ (n p : Nat) (s : St α) (v : Nat → α), len ≤ p + n → 2 * p + 1 < len →
    HoldsX s.cell first (first + len) (first + p) v → v (first + p) = top →
    HoleBoth lt par2 first len p v → GoodX G first len p v →
    wp (floydLoop cmp first len (first + p) p) (fun r s' => ∃ v' q,
      r = first + q ∧ q < len ∧ 0 < q ∧ len ≤ 2 * q + 1 ∧
      HoldsX s'.cell first (first + len) r v' ∧ v' r = top ∧ Frame first (first + len) s s' ∧
      PermOn first (first + len) v v' ∧ HoleBoth lt par2 first len q v' ∧
      GoodX G first len q v') s := by
  intro n
  induction n with
  | zero => intros; omega
  | succ n ih =>
    intro p s v hn hp hx ht hd hg
    rw [floydLoop]
    apply wp_bind
    refine wp_mono (heapTopChild_on hlt hcm (p := p) (v := v) (by omega) hg
      (fun i a b => hx.1 _ (by omega) (by omega) (by omega))) ?_
    rintro c _ ⟨⟨m, rfl, -⟩, c0, cl, cp, pc, c2, cmax⟩
    apply wp_bind
    refine wp_moveTo (v := v) (f := first) (l := first + len) hx (i := first + c) (by omega)
      (by omega) (by omega) ?_
    intro s1 hx1 fr1 c1 m1
    have hg1 := hg.step cl (by omega)
    have hd1 := hd.step par2_lt c0 cl cp cmax
    have hp1 : PermOn first (first + len) v (swp v (first + p) (first + c)) :=
      PermOn.swp (by omega) (by omega)
    have ht1 : swp v (first + p) (first + c) (first + c) = top := by rw [swp_r rfl]; exact ht
    simp only []
    split
    · exact wp_pure ⟨_, c, rfl, cl, c0, by omega, hx1, ht1, fr1.tick, hp1, hd1, hg1⟩
    · refine wp_mono (ih c s1 _ (by omega) (by omega) hx1 ht1 hd1 hg1) ?_
      rintro r s2 ⟨v', q, a1, a2, a3, a4, a5, a6, a7, a8, a9, a10⟩
      exact ⟨v', q, a1, a2, a3, a4, a5, a6, fr1.tick.trans a7, hp1.trans a8, a9, a10⟩

theorem pushHeapLoop_on (hlt : StrictWeak lt) (hcm : OnGood cmp lt G) (first len l : Nat) (t : α) :
    ∀ (n p : Nat) (s : St α) (v : Nat → α), p ≤ n → 0 < p → p < l → p < len →
    HoldsX s.cell first (first + l) (first + p) v → v (first + p) = t →
    HoleUp lt par2 first len p v → GoodX G first len p v → G t → lt (v (first + par2 p)) t = true →
    wp (pushHeapLoop cmp first t (first + p) (par2 p)) (fun r s' => ∃ v',
      HoldsX s'.cell first (first + l) r v' ∧ v' r = t ∧ Frame first (first + l) s s' ∧
      PermOn first (first + l) v v' ∧ HeapFrom lt par2 first 0 len v') s := by
  intro n
  induction n with
  | zero => intros; omega
  | succ n ih =>
    intro p s v hn hp hpl hpe hx ht hd hg hgg hgt
    have hpar := par2_lt p hp
    rw [pushHeapLoop]
    apply wp_bind
    refine wp_moveTo hx (i := first + par2 p) (by omega) (by omega) (by omega) ?_
    intro s1 hx1 fr1 c1 m1
    have hg1 := hg.step (c := par2 p) (by omega) (by omega)
    have hd1 := hd.step par2_lt hlt hp hpe (by rw [ht]; exact hgt)
    have hp1 : PermOn first (first + l) v (swp v (first + p) (first + par2 p)) :=
      PermOn.swp (by omega) (by omega)
    have ht1 : swp v (first + p) (first + par2 p) (first + par2 p) = t := by
      rw [swp_r rfl]; exact ht
    simp only []
    split
    · exact wp_pure ⟨_, hx1, ht1, fr1, hp1, hd1.done (by omega)⟩
    · have e : (par2 p - 1) / 2 = par2 (par2 p) := rfl
      rw [e]
      have hpar2 := par2_lt (par2 p) (by omega)
      wreadX hx1
      apply wp_bind
      apply hcm.wp (hg1 _ (by omega) (by omega)) hgg
      split
      · rename_i hc
        refine wp_mono (ih (par2 p) _ _ (by omega) (by omega) (by omega) (by omega) hx1 ht1 hd1 hg1 hgg
          hc) ?_
        rintro r s2 ⟨v', a5, a6, a7, a8, a9⟩
        exact ⟨v', a5, a6, fr1.trans a7.tick, hp1.trans a8, a9⟩
      · rename_i hc
        refine wp_pure ⟨_, hx1, ht1, fr1.tickr, hp1, hd1.done fun _ _ => ?_⟩
        rw [ht1]; simpa using hc

theorem pushHeap_on (hlt : StrictWeak lt) (hcm : OnGood cmp lt G) {first len p : Nat} {s : St α} {v : Nat → α}
    (hpe : p < len) (hh : Holds s.cell first (first + (p + 1)) v)
    (hd : HoleUp lt par2 first len p v) (hg : ∀ i, i < len → G (v (first + i))) :
    wp (pushHeap cmp first (first + p + 1) (first + p + 1 - first)) (fun _ s' => ∃ v',
      Upd first (first + (p + 1)) s s' v v' ∧ HeapFrom lt par2 first 0 len v') s := by
  unfold pushHeap
  rw [show first + p + 1 - first = p + 1 by omega, show first + p + 1 - 1 = first + p by omega]
  split
  · have e : (p + 1 - 2) / 2 = par2 p := by unfold par2; omega
    have hpar := par2_lt p (by omega)
    simp only [e]
    wread hh
    wread hh
    apply wp_bind
    apply hcm.wp (hg _ (by omega)) (hg _ (by omega))
    split
    · rename_i hc
      apply wp_bind
      refine wp_moveOut (v := v) (f := first) (l := first + (p + 1)) hh (by omega) (by omega) ?_
      intro s1 hx1 fr1 c1 m1
      apply wp_bind
      refine wp_mono (pushHeapLoop_on hlt hcm first len (p + 1) _ p p s1 v (Nat.le_refl _) (by omega)
        (by omega) hpe hx1 rfl hd (fun i hi _ => hg i hi) (hg _ hpe) hc) ?_
      rintro r s2 ⟨v', a5, a6, a7, a8, a9⟩
      refine wp_assign a5 a6.symm ?_
      intro s3 hh3 fr3 c3 m3
      exact ⟨v', ⟨hh3, a8, (fr1.tick.trans a7).trans fr3⟩, a9⟩
    · rename_i hc
      refine wp_pure ⟨v, (Upd.refl hh).tickr, hd.done fun _ _ => ?_⟩
      simpa using hc
  · exact wp_pure ⟨v, Upd.refl hh, hd.done fun _ _ => by omega⟩

theorem popHeap_on (hlt : StrictWeak lt) (hcm : OnGood cmp lt G) {first n : Nat} {s : St α} {v : Nat → α}
    (hh : Holds s.cell first (first + n) v) (hp : HeapFrom lt par2 first 0 n v) (hn : 1 < n)
    (hg : GoodX G first n 0 v) :
    wp (popHeap cmp first (first + n) n) (fun _ s' => ∃ v',
      Upd first (first + n) s s' v v' ∧ HeapFrom lt par2 first 0 (n - 1) v' ∧
      v' (first + (n - 1)) = v first) s := by
  unfold popHeap
  rw [if_pos (by omega)]
  apply wp_bind
  refine wp_moveOut hh (by omega) (by omega) ?_
  intro s1 hx1 fr1 c1 m1
  apply wp_bind
  unfold floydSiftDown
  refine wp_mono (floydLoop_on hlt hcm first n (v first) n 0 s1 v (by omega) (by omega) hx1 rfl
    ⟨fun i i0 il _ _ => hp i i0 il (by omega), by omega⟩ hg) ?_
  rintro _ s2 ⟨v2, q, rfl, a2, a3, a4, a5, a6, a7, a8, a9, a10⟩
  simp only []
  rw [show first + n - 1 = first + (n - 1) by omega]
  split
  · rename_i hq
    refine wp_assign a5 a6.symm ?_
    intro s3 hh3 fr3 c3 m3
    refine ⟨v2, ⟨hh3, a8, (fr1.trans a7).trans fr3⟩, ?_, by rw [← hq]; exact a6⟩
    intro i i0 il _
    exact a9.1 i i0 (by omega) (by omega) (by unfold par2; omega)
  · rename_i hq
    apply wp_bind
    refine wp_moveTo a5 (i := first + (n - 1)) (by omega) (by omega) (by omega) ?_
    intro s3 hx3 fr3 c3 m3
    apply wp_bind
    refine wp_assign hx3 (by rw [swp_r rfl]; exact a6.symm) ?_
    intro s4 hh4 fr4 c4 m4
    have hp4 : PermOn first (first + n) v2 (swp v2 (first + q) (first + (n - 1))) :=
      PermOn.swp (by omega) (by omega)
    refine wp_mono (pushHeap_on hlt hcm (len := n - 1) (p := q)
      (v := swp v2 (first + q) (first + (n - 1))) (by omega)
      (hh4.sub (Nat.le_refl _) (by omega)) ?_ ?_) ?_
    · constructor
      · intro i i0 il iq
        have := par2_lt i i0
        have hpq : par2 i ≠ q := by unfold par2; omega
        sw
        exact a9.1 i i0 (by omega) iq hpq
      · intro _ j j0 jl jq
        unfold par2 at jq
        omega
    · intro i hi
      by_cases e : i = q
      · subst e; rw [swp_l rfl]; exact a10 _ (by omega) (by omega)
      · rw [swp_o (by omega) (by omega)]; exact a10 _ (by omega) e
    · rintro _ s5 ⟨v5, u5, h5⟩
      refine ⟨v5, Upd.trans ⟨hh4, a8.trans hp4, ((fr1.trans a7).trans fr3).trans fr4⟩
        (u5.widen hh4 (Nat.le_refl _) (by omega)), h5, ?_⟩
      rw [u5.perm.out (by omega), swp_r rfl, a6]

end CppSort
