import Verif.Proof.HeapPure
import Verif.Proof.Insertion
import Verif.Model.Heap
set_option autoImplicit false

namespace CppSort
variable {α : Type} {lt : α → α → Bool}

/-- parent of a node in a binary heap -/
def par2 (i : Nat) : Nat := (i - 1) / 2

theorem par2_lt : ∀ i, 0 < i → par2 i < i := by intro i h; unfold par2; omega

theorem heapTopChild_spec (hlt : StrictWeak lt) {first len p : Nat} {s : St α} {v : Nat → α}
    (h1 : 2 * p + 1 < len)
    (hh : ∀ i, p < i → i < len → s.cell (first + i) = .val (v (first + i))) :
    wp (heapTopChild (tick lt) first len p) (fun c s' =>
      (∃ n, s' = { s with cmps := n } ∧ n ≤ s.cmps + 1) ∧
      0 < c ∧ c < len ∧ par2 c = p ∧ p < c ∧ c ≤ 2 * p + 2 ∧
      ∀ j, 0 < j → j < len → par2 j = p → lt (v (first + c)) (v (first + j)) = false) s := by
  unfold heapTopChild
  simp only []
  split
  · apply wp_bind
    refine wp_read' (hh (2 * p + 1) (by omega) (by omega)) ?_
    apply wp_bind
    refine wp_read' (hh (2 * p + 2) (by omega) (by omega)) ?_
    wtick
    split
    · rename_i hc
      refine wp_pure ⟨⟨_, rfl, Nat.le_refl _⟩, by omega, by omega, by unfold par2; omega, by omega,
        by omega, ?_⟩
      intro j j0 jl jp
      unfold par2 at jp
      by_cases hj : j = 2 * p + 2
      · subst hj; exact hlt.irrefl _
      · rw [show j = 2 * p + 1 by omega]; exact hlt.asymm hc
    · rename_i hc
      refine wp_pure ⟨⟨_, rfl, Nat.le_refl _⟩, by omega, by omega, by unfold par2; omega, by omega,
        by omega, ?_⟩
      intro j j0 jl jp
      unfold par2 at jp
      by_cases hj : j = 2 * p + 2
      · subst hj; simpa using hc
      · rw [show j = 2 * p + 1 by omega]; exact hlt.irrefl _
  · refine wp_pure ⟨⟨s.cmps, rfl, by omega⟩, by omega, by omega, by unfold par2; omega, by omega,
        by omega, ?_⟩
    intro j j0 jl jp
    unfold par2 at jp
    rw [show j = 2 * p + 1 by omega]; exact hlt.irrefl _

theorem siftDownLoop_spec (hlt : StrictWeak lt) (first len k l : Nat) (hl : first + len ≤ l)
    (top : α) :
    ∀ (n p c : Nat) (s : St α) (v : Nat → α), len ≤ p + n → k ≤ p →
    HoldsX s.cell first l (first + p) v → v (first + p) = top →
    HoleDown lt par2 first k len p v →
    0 < c → c < len → par2 c = p → p < c → c ≤ 2 * p + 2 →
    (∀ j, 0 < j → j < len → par2 j = p → lt (v (first + c)) (v (first + j)) = false) →
    lt (v (first + c)) top = false →
    wp (siftDownLoop (tick lt) first len top (first + p) c) (fun r s' => ∃ v',
      HoldsX s'.cell first l r v' ∧ v' r = top ∧ Frame first l s s' ∧
      PermOn (first + k) (first + len) v v' ∧ HeapFrom lt par2 first k len v') s := by
  intro n
  induction n with
  | zero => intros; omega
  | succ n ih =>
    intro p c s v hn hk hx ht hd c0 cl cp pc c2 hmax hge
    rw [siftDownLoop]
    apply wp_bind
    refine wp_moveTo hx (i := first + c) (by omega) (by omega) (by omega) ?_
    intro s1 hx1 fr1 c1 m1
    have hd1 := hd.step par2_lt hlt hk c0 cl cp hmax (by rw [ht]; exact hge)
    have hp1 : PermOn (first + k) (first + len) v (swp v (first + p) (first + c)) :=
      PermOn.swp (by omega) (by omega)
    have ht1 : swp v (first + p) (first + c) (first + c) = top := by rw [swp_r rfl]; exact ht
    simp only []
    split
    · refine wp_pure ⟨_, hx1, ht1, fr1, hp1, hd1.done ?_⟩
      intro j j0 jl jp
      unfold par2 at jp
      omega
    · apply wp_bind
      refine wp_mono (heapTopChild_spec hlt (p := c) (v := swp v (first + p) (first + c)) (by omega)
        (fun i a b => hx1.1 _ (by omega) (by omega) (by omega))) ?_
      rintro d _ ⟨⟨m, rfl, -⟩, d0, dl, dc, cd, d2, dmax⟩
      wreadX hx1
      wtick
      split
      · rename_i hc
        refine wp_pure ⟨_, hx1, ht1, fr1.tickr.tickr, hp1, hd1.done ?_⟩
        intro j j0 jl jp
        rw [ht1]
        exact hlt.le_trans (dmax j j0 jl jp) (hlt.asymm hc)
      · rename_i hc
        refine wp_mono (ih c d _ (swp v (first + p) (first + c)) (by omega) (by omega) hx1 ht1 hd1
          d0 dl dc cd d2 dmax (by simpa using hc)) ?_
        rintro r s' ⟨v', a1, a2, a3, a4, a5⟩
        exact ⟨v', a1, a2, fr1.trans a3.tick.tick, hp1.trans a4, a5⟩

theorem siftDown_spec (hlt : StrictWeak lt) {first len k l : Nat} (hl : first + len ≤ l)
    {s : St α} {v : Nat → α} (hk : k < len) (hh : Holds s.cell first l v)
    (hp : HeapFrom lt par2 first (k + 1) len v) :
    wp (siftDown (tick lt) first len (first + k)) (fun _ s' => ∃ v',
      Upd (first + k) (first + len) s s' v v' ∧ HeapFrom lt par2 first k len v') s := by
  unfold siftDown
  have hd := hp.holeDown par2_lt
  simp only []
  rw [show first + k - first = k by omega]
  have wid : ∀ (s' : St α) (v' : Nat → α), Holds s'.cell first l v' → Frame first l s s' →
      PermOn (first + k) (first + len) v v' → Upd (first + k) (first + len) s s' v v' := by
    intro s' v' a b c
    refine ⟨a.sub (by omega) (by omega), c, fun i hi => ?_, b.brk⟩
    by_cases hr : first ≤ i ∧ i < l
    · rw [a i hr.1 hr.2, hh i hr.1 hr.2, c.out hi]
    · exact b.cell i (by omega)
  split
  · refine wp_pure ⟨v, Upd.refl (hh.sub (by omega) (by omega)), hd.done ?_⟩
    intro j j0 jl jp
    unfold par2 at jp
    omega
  · apply wp_bind
    refine wp_mono (heapTopChild_spec hlt (p := k) (v := v) (by omega)
      (fun i a b => hh _ (by omega) (by omega))) ?_
    rintro d _ ⟨⟨m, rfl, -⟩, d0, dl, dc, cd, d2, dmax⟩
    wread hh
    wread hh
    wtick
    split
    · rename_i hc
      refine wp_pure ⟨v, wid _ _ hh ⟨fun _ _ => rfl, EnvLe.of_env rfl⟩ (PermOn.refl _ _ _), hd.done ?_⟩
      intro j j0 jl jp
      exact hlt.le_trans (dmax j j0 jl jp) (hlt.asymm hc)
    · rename_i hc
      apply wp_bind
      refine wp_moveOut (f := first) (l := l) (v := v) hh (by omega) (by omega) ?_
      intro s1 hx1 fr1 c1 m1
      apply wp_bind
      refine wp_mono (siftDownLoop_spec hlt first len k l hl _ (len - k) k d s1 v (by omega)
        (Nat.le_refl _) hx1 rfl hd d0 dl dc cd d2 dmax (by simpa using hc)) ?_
      rintro r s2 ⟨v', a1, a2, a3, a4, a5⟩
      refine wp_assign a1 a2.symm ?_
      intro s3 hh3 fr3 c3 m3
      exact ⟨v', wid _ _ hh3 ((fr1.tick.tick.trans a3).trans fr3) a4, a5⟩

theorem makeHeapLoop_spec (hlt : StrictWeak lt) {first len : Nat} :
    ∀ (k : Nat) (s : St α) (v : Nat → α), k ≤ len →
    Holds s.cell first (first + len) v → HeapFrom lt par2 first k len v →
    wp (makeHeapLoop (tick lt) first len k) (fun _ s' => ∃ v',
      Upd first (first + len) s s' v v' ∧ HeapFrom lt par2 first 0 len v') s := by
  intro k
  induction k with
  | zero => intro s v _ hh hp; exact wp_pure ⟨v, Upd.refl hh, hp⟩
  | succ k ih =>
    intro s v hk hh hp
    unfold makeHeapLoop
    apply wp_bind
    refine wp_mono (siftDown_spec hlt (Nat.le_refl _) (by omega) hh hp) ?_
    rintro _ s1 ⟨v1, u1, h1⟩
    have u1 := u1.widen hh (by omega) (by omega)
    refine wp_mono (ih s1 v1 (by omega) u1.holds h1) ?_
    rintro _ s2 ⟨v2, u2, h2⟩
    exact ⟨v2, u1.trans u2, h2⟩

theorem makeHeap_spec (hlt : StrictWeak lt) {first last : Nat} {s : St α} {v : Nat → α}
    (hfl : first ≤ last) (hh : Holds s.cell first last v) :
    wp (makeHeap (tick lt) first last) (fun _ s' => ∃ v',
      Upd first last s s' v v' ∧ HeapFrom lt par2 first 0 (last - first) v') s := by
  obtain ⟨n, rfl⟩ : ∃ n, last = first + n := ⟨last - first, by omega⟩
  unfold makeHeap
  simp only [Nat.add_sub_cancel_left]
  split
  · refine makeHeapLoop_spec hlt _ s v (by omega) hh ?_
    intro i i0 il ik
    unfold par2 at ik
    omega
  · exact wp_pure ⟨v, Upd.refl hh, fun i _ _ _ => by omega⟩

theorem floydLoop_spec (hlt : StrictWeak lt) (first len : Nat) (top : α) :
    ∀ (n p : Nat) (s : St α) (v : Nat → α), len ≤ p + n → 2 * p + 1 < len →
    HoldsX s.cell first (first + len) (first + p) v → v (first + p) = top →
    HoleBoth lt par2 first len p v →
    wp (floydLoop (tick lt) first len (first + p) p) (fun r s' => ∃ v' q,
      r = first + q ∧ q < len ∧ 0 < q ∧ len ≤ 2 * q + 1 ∧
      HoldsX s'.cell first (first + len) r v' ∧ v' r = top ∧ Frame first (first + len) s s' ∧
      PermOn first (first + len) v v' ∧ HoleBoth lt par2 first len q v') s := by
  intro n
  induction n with
  | zero => intros; omega
  | succ n ih =>
    intro p s v hn hp hx ht hd
    rw [floydLoop]
    apply wp_bind
    refine wp_mono (heapTopChild_spec hlt (p := p) (v := v) (by omega)
      (fun i a b => hx.1 _ (by omega) (by omega) (by omega))) ?_
    rintro c _ ⟨⟨m, rfl, -⟩, c0, cl, cp, pc, c2, cmax⟩
    apply wp_bind
    refine wp_moveTo (v := v) (f := first) (l := first + len) hx (i := first + c) (by omega)
      (by omega) (by omega) ?_
    intro s1 hx1 fr1 c1 m1
    have hd1 := hd.step par2_lt c0 cl cp cmax
    have hp1 : PermOn first (first + len) v (swp v (first + p) (first + c)) :=
      PermOn.swp (by omega) (by omega)
    have ht1 : swp v (first + p) (first + c) (first + c) = top := by rw [swp_r rfl]; exact ht
    simp only []
    split
    · exact wp_pure ⟨_, c, rfl, cl, c0, by omega, hx1, ht1, fr1.tick, hp1, hd1⟩
    · refine wp_mono (ih c s1 _ (by omega) (by omega) hx1 ht1 hd1) ?_
      rintro r s2 ⟨v', q, a1, a2, a3, a4, a5, a6, a7, a8, a9⟩
      exact ⟨v', q, a1, a2, a3, a4, a5, a6, fr1.tick.trans a7, hp1.trans a8, a9⟩

theorem pushHeapLoop_spec (hlt : StrictWeak lt) (first len l : Nat) (t : α) :
    ∀ (n p : Nat) (s : St α) (v : Nat → α), p ≤ n → 0 < p → p < l → p < len →
    HoldsX s.cell first (first + l) (first + p) v → v (first + p) = t →
    HoleUp lt par2 first len p v → lt (v (first + par2 p)) t = true →
    wp (pushHeapLoop (tick lt) first t (first + p) (par2 p)) (fun r s' => ∃ v',
      HoldsX s'.cell first (first + l) r v' ∧ v' r = t ∧ Frame first (first + l) s s' ∧
      PermOn first (first + l) v v' ∧ HeapFrom lt par2 first 0 len v') s := by
  intro n
  induction n with
  | zero => intros; omega
  | succ n ih =>
    intro p s v hn hp hpl hpe hx ht hd hgt
    have hpar := par2_lt p hp
    rw [pushHeapLoop]
    apply wp_bind
    refine wp_moveTo hx (i := first + par2 p) (by omega) (by omega) (by omega) ?_
    intro s1 hx1 fr1 c1 m1
    have hd1 := hd.step par2_lt hlt hp hpe (by rw [ht]; exact hgt)
    have hp1 : PermOn first (first + l) v (swp v (first + p) (first + par2 p)) :=
      PermOn.swp (by omega) (by omega)
    have ht1 : swp v (first + p) (first + par2 p) (first + par2 p) = t := by
      rw [swp_r rfl]; exact ht
    simp only []
    split
    · exact wp_pure ⟨_, hx1, ht1, fr1, hp1, hd1.done (by omega)⟩
    · have e : (par2 p - 1) / 2 = par2 (par2 p) := rfl
      rw [e]
      have hpar2 := par2_lt (par2 p) (by omega)
      wreadX hx1
      wtick
      split
      · rename_i hc
        refine wp_mono (ih (par2 p) _ _ (by omega) (by omega) (by omega) (by omega) hx1 ht1 hd1
          hc) ?_
        rintro r s2 ⟨v', a5, a6, a7, a8, a9⟩
        exact ⟨v', a5, a6, fr1.trans a7.tick, hp1.trans a8, a9⟩
      · rename_i hc
        refine wp_pure ⟨_, hx1, ht1, fr1.tickr, hp1, hd1.done fun _ _ => ?_⟩
        rw [ht1]; simpa using hc

theorem pushHeap_spec (hlt : StrictWeak lt) {first len p : Nat} {s : St α} {v : Nat → α}
    (hpe : p < len) (hh : Holds s.cell first (first + (p + 1)) v)
    (hd : HoleUp lt par2 first len p v) :
    wp (pushHeap (tick lt) first (first + p + 1) (first + p + 1 - first)) (fun _ s' => ∃ v',
      Upd first (first + (p + 1)) s s' v v' ∧ HeapFrom lt par2 first 0 len v') s := by
  unfold pushHeap
  rw [show first + p + 1 - first = p + 1 by omega, show first + p + 1 - 1 = first + p by omega]
  split
  · have e : (p + 1 - 2) / 2 = par2 p := by unfold par2; omega
    have hpar := par2_lt p (by omega)
    simp only [e]
    wread hh
    wread hh
    wtick
    split
    · rename_i hc
      apply wp_bind
      refine wp_moveOut (v := v) (f := first) (l := first + (p + 1)) hh (by omega) (by omega) ?_
      intro s1 hx1 fr1 c1 m1
      apply wp_bind
      refine wp_mono (pushHeapLoop_spec hlt first len (p + 1) _ p p s1 v (Nat.le_refl _) (by omega)
        (by omega) hpe hx1 rfl hd hc) ?_
      rintro r s2 ⟨v', a5, a6, a7, a8, a9⟩
      refine wp_assign a5 a6.symm ?_
      intro s3 hh3 fr3 c3 m3
      exact ⟨v', ⟨hh3, a8, (fr1.tick.trans a7).trans fr3⟩, a9⟩
    · rename_i hc
      refine wp_pure ⟨v, (Upd.refl hh).tickr, hd.done fun _ _ => ?_⟩
      simpa using hc
  · exact wp_pure ⟨v, Upd.refl hh, hd.done fun _ _ => by omega⟩

theorem popHeap_spec (hlt : StrictWeak lt) {first n : Nat} {s : St α} {v : Nat → α}
    (hh : Holds s.cell first (first + n) v) (hp : HeapFrom lt par2 first 0 n v) (hn : 1 < n) :
    wp (popHeap (tick lt) first (first + n) n) (fun _ s' => ∃ v',
      Upd first (first + n) s s' v v' ∧ HeapFrom lt par2 first 0 (n - 1) v' ∧
      v' (first + (n - 1)) = v first) s := by
  unfold popHeap
  rw [if_pos (by omega)]
  apply wp_bind
  refine wp_moveOut hh (by omega) (by omega) ?_
  intro s1 hx1 fr1 c1 m1
  apply wp_bind
  unfold floydSiftDown
  refine wp_mono (floydLoop_spec hlt first n (v first) n 0 s1 v (by omega) (by omega) hx1 rfl
    ⟨fun i i0 il _ _ => hp i i0 il (by omega), by omega⟩) ?_
  rintro _ s2 ⟨v2, q, rfl, a2, a3, a4, a5, a6, a7, a8, a9⟩
  simp only []
  rw [show first + n - 1 = first + (n - 1) by omega]
  split
  · rename_i hq
    refine wp_assign a5 a6.symm ?_
    intro s3 hh3 fr3 c3 m3
    refine ⟨v2, ⟨hh3, a8, (fr1.trans a7).trans fr3⟩, ?_, by rw [← hq]; exact a6⟩
    intro i i0 il _
    exact a9.1 i i0 (by omega) (by omega) (by unfold par2; omega)
  · rename_i hq
    apply wp_bind
    refine wp_moveTo a5 (i := first + (n - 1)) (by omega) (by omega) (by omega) ?_
    intro s3 hx3 fr3 c3 m3
    apply wp_bind
    refine wp_assign hx3 (by rw [swp_r rfl]; exact a6.symm) ?_
    intro s4 hh4 fr4 c4 m4
    have hp4 : PermOn first (first + n) v2 (swp v2 (first + q) (first + (n - 1))) :=
      PermOn.swp (by omega) (by omega)
    refine wp_mono (pushHeap_spec hlt (len := n - 1) (p := q)
      (v := swp v2 (first + q) (first + (n - 1))) (by omega)
      (hh4.sub (Nat.le_refl _) (by omega)) ?_) ?_
    · constructor
      · intro i i0 il iq
        have := par2_lt i i0
        have hpq : par2 i ≠ q := by unfold par2; omega
        sw
        exact a9.1 i i0 (by omega) iq hpq
      · intro _ j j0 jl jq
        unfold par2 at jq
        omega
    · rintro _ s5 ⟨v5, u5, h5⟩
      refine ⟨v5, Upd.trans ⟨hh4, a8.trans hp4, ((fr1.trans a7).trans fr3).trans fr4⟩
        (u5.widen hh4 (Nat.le_refl _) (by omega)), h5, ?_⟩
      rw [u5.perm.out (by omega), swp_r rfl, a6]

theorem sortHeap_spec (hlt : StrictWeak lt) (first last : Nat) :
    ∀ (n : Nat) (s : St α) (v : Nat → α), first + n ≤ last →
    Holds s.cell first last v → HeapFrom lt par2 first 0 n v →
    SortedOn lt (first + n) last v →
    (∀ i j, first ≤ i → i < first + n → first + n ≤ j → j < last → lt (v j) (v i) = false) →
    wp (sortHeap (tick lt) first (first + n) n) (fun _ s' => ∃ v',
      Upd first last s s' v v' ∧ SortedOn lt first last v') s := by
  intro n
  induction n with
  | zero =>
    intro s v h1 hh hp hs hle
    rw [sortHeap, if_neg (by omega)]
    exact wp_pure ⟨v, Upd.refl hh, hs⟩
  | succ n ih =>
    intro s v h1 hh hp hs hle
    rw [sortHeap]
    split
    · apply wp_bind
      refine wp_mono (popHeap_spec hlt (hh.sub (Nat.le_refl _) (by omega)) hp (by omega)) ?_
      rintro _ s1 ⟨v1, u1, p1, t1⟩
      rw [show first + (n + 1) - 1 = first + n by omega, show n + 1 - 1 = n by omega]
      rw [show n + 1 - 1 = n by omega] at p1 t1
      have u1' := u1.widen hh (Nat.le_refl _) (by omega)
      have htop := hp.top par2_lt hlt
      have htop' : ∀ i, first ≤ i → i < first + (n + 1) → lt (v first) (v1 i) = false :=
        u1.perm.forall (P := fun x => lt (v first) x = false) (fun i a b => by
          have := htop (i - first) (by omega)
          rwa [show first + (i - first) = i by omega] at this)
      have hle' : ∀ i j, first ≤ i → i < first + (n + 1) → first + (n + 1) ≤ j → j < last →
          lt (v1 j) (v1 i) = false := by
        intro i j b1 b2 b3 b4
        rw [u1.perm.out (i := j) (by omega)]
        exact u1.perm.forall (P := fun x => lt (v j) x = false)
          (fun i a b => hle i j a b b3 b4) i b1 b2
      refine wp_mono (ih s1 v1 (by omega) u1'.holds p1 ?_ ?_) ?_
      · intro i j b1 b2 b3
        by_cases hi : i = first + n
        · exact hle' i j (by omega) (by omega) (by omega) b3
        · rw [u1.perm.out (i := i) (by omega), u1.perm.out (i := j) (by omega)]
          exact hs i j (by omega) b2 b3
      · intro i j b1 b2 b3 b4
        by_cases hj : j = first + n
        · subst hj
          rw [t1]
          exact htop' i b1 (by omega)
        · exact hle' i j b1 (by omega) (by omega) b4
      · rintro _ s2 ⟨v2, u2, so2⟩
        exact ⟨v2, u1'.trans u2, so2⟩
    · refine wp_pure ⟨v, Upd.refl hh, ?_⟩
      obtain rfl : n = 0 := by omega
      intro i j b1 b2 b3
      by_cases hi : i = first
      · exact hle i j b1 (by omega) (by omega) b3
      · exact hs i j (by omega) b2 b3

theorem heapsort_spec (hlt : StrictWeak lt) {first last : Nat} {s : St α} {v : Nat → α}
    (hfl : first ≤ last) (hh : Holds s.cell first last v) :
    wp (heapsort (tick lt) first last) (fun _ s' => ∃ v',
      Upd first last s s' v v' ∧ SortedOn lt first last v') s := by
  unfold heapsort
  apply wp_bind
  refine wp_mono (makeHeap_spec hlt hfl hh) ?_
  rintro _ s1 ⟨v1, u1, h1⟩
  have e : last = first + (last - first) := by omega
  have := sortHeap_spec hlt first last (last - first) s1 v1 (by omega) u1.holds h1
    (SortedOn.trivial (by omega)) (fun i j _ _ _ _ => by omega)
  rw [← e] at this
  refine wp_mono this ?_
  rintro _ s2 ⟨v2, u2, so2⟩
  exact ⟨v2, u1.trans u2, so2⟩

/-! ### d-ary heaps -/

/-- parent of a node in a `D`-ary heap -/
def parD (D i : Nat) : Nat := (i - 1) / D

theorem parD_lt (D : Nat) : ∀ i, 0 < i → parD D i < i := by
  intro i h
  have : (i - 1) / D ≤ i - 1 := Nat.div_le_self _ _
  unfold parD; omega

theorem parD_eq {D i p : Nat} (hD : 0 < D) (hi : 0 < i) :
    parD D i = p ↔ p * D + 1 ≤ i ∧ i < p * D + 1 + D := by
  unfold parD
  rw [Nat.div_eq_iff hD]
  constructor
  · intro h; omega
  · intro h; omega

theorem dTopChild_spec (hlt : StrictWeak lt) {D first len p : Nat} (hD : 0 < D) {s : St α}
    {v : Nat → α} (h1 : p * D + 1 < len) (hh : Holds s.cell first (first + len) v) :
    wp (dTopChild (tick lt) D first (first + len) (first + p)) (fun r s' => ∃ c,
      r = first + c ∧ (∃ n, s' = { s with cmps := n }) ∧
      0 < c ∧ c < len ∧ parD D c = p ∧
      ∀ j, 0 < j → j < len → parD D j = p → lt (v (first + c)) (v (first + j)) = false) s := by
  unfold dTopChild
  simp only []
  rw [show first + p - first = p by omega]
  have key : ∀ lc, first + p * D + 1 < lc → lc ≤ first + len →
      (∀ j, p * D + 1 ≤ j → j < p * D + 1 + D → j < len → first + j < lc) →
      lc ≤ first + p * D + 1 + D →
      wp (minElement (fun x y => tick lt y x) (first + p * D + 1) lc) (fun r s' => ∃ c,
      r = first + c ∧ (∃ n, s' = { s with cmps := n }) ∧
      0 < c ∧ c < len ∧ parD D c = p ∧
      ∀ j, 0 < j → j < len → parD D j = p → lt (v (first + c)) (v (first + j)) = false) s := by
    intro lc l1 l2 l3 l4
    unfold minElement
    rw [if_neg (by omega)]
    have e : (fun x y => tick lt y x) = tick (fun x y => lt y x) := rfl
    rw [e]
    refine wp_mono (uncheckedMinElement_spec hlt.flip (by omega)
      (hh.sub (f' := first + p * D + 1) (l' := lc) (by omega) (by omega))) ?_
    rintro r _ ⟨rfl, b1, b2, b3, -⟩
    refine ⟨r - first, by omega, ⟨_, rfl⟩, by omega, by omega, ?_, ?_⟩
    · rw [parD_eq hD (by omega)]; omega
    · intro j j0 jl jp
      rw [parD_eq hD j0] at jp
      have := b3 (first + j) (by omega) (l3 j jp.1 jp.2 jl)
      rwa [show first + (r - first) = r by omega]
  split
  · exact key _ (by omega) (by omega) (by intros; omega) (by omega)
  · exact key _ (by omega) (by omega) (by intros; omega) (by omega)

theorem dSiftDown_spec (hlt : StrictWeak lt) {D first len : Nat} (hD : 0 < D) :
    ∀ (n p : Nat) (s : St α) (v : Nat → α), len ≤ p + n → p < len →
    Holds s.cell first (first + len) v → HoleDown lt (parD D) first 0 len p v →
    wp (dSiftDown (tick lt) D first (first + len) (first + p)) (fun _ s' => ∃ v',
      Upd first (first + len) s s' v v' ∧ HeapFrom lt (parD D) first 0 len v') s := by
  intro n
  induction n with
  | zero => intros; omega
  | succ n ih =>
    intro p s v hn hp hh hd
    rw [dSiftDown]
    rw [show first + p - first = p by omega, show first + len - (first + p) - 1 = len - p - 1 by omega]
    have harith : p * (D - 1) + p = p * D := by
      obtain ⟨d, rfl⟩ : ∃ d, D = d + 1 := ⟨D - 1, by omega⟩
      rw [Nat.add_sub_cancel, Nat.mul_succ]
    split
    · apply wp_bind
      refine wp_mono (dTopChild_spec hlt hD (by omega) hh) ?_
      rintro _ _ ⟨c, rfl, ⟨m, rfl⟩, c0, cl, cp, cmax⟩
      have := parD_lt D c c0
      wread hh
      wread hh
      wtick
      split
      · rename_i hc
        refine wp_pure ⟨v, (Upd.refl hh).tickr.tickr, hd.done ?_⟩
        intro j j0 jl jp
        exact hlt.le_trans (cmax j j0 jl jp) (hlt.asymm hc)
      · rename_i hc
        apply wp_bind
        refine wp_swap (f := first) (l := first + len) (v := v) hh (by omega) (by omega) ?_
        intro s1 u1
        rw [swp_comm] at u1
        refine wp_mono (ih c s1 _ (by omega) (by omega) u1.holds
          (hd.step (parD_lt D) hlt (by omega) c0 cl cp cmax (by simpa using hc))) ?_
        rintro _ s2 ⟨v2, u2, h2⟩
        exact ⟨v2, u1.tick.tick.trans u2, h2⟩
    · refine wp_pure ⟨v, Upd.refl hh, hd.done ?_⟩
      intro j j0 jl jp
      rw [parD_eq hD j0] at jp
      omega

theorem dSiftUp_spec (hlt : StrictWeak lt) {D first len : Nat} :
    ∀ (n p : Nat) (s : St α) (v : Nat → α), p ≤ n → p < len →
    Holds s.cell first (first + len) v → HoleUp lt (parD D) first len p v →
    wp (dSiftUp (tick lt) D first (first + p)) (fun _ s' => ∃ v',
      Upd first (first + len) s s' v v' ∧ HeapFrom lt (parD D) first 0 len v') s := by
  intro n
  induction n with
  | zero =>
    intro p s v hn hp hh hd
    rw [dSiftUp, if_neg (by omega)]
    exact wp_pure ⟨v, Upd.refl hh, hd.done (by omega)⟩
  | succ n ih =>
    intro p s v hn hp hh hd
    rw [dSiftUp]
    split
    · rw [show first + p - first = p by omega]
      have e : (p - 1) / D = parD D p := rfl
      have hpar := parD_lt D p (by omega)
      simp only [e]
      wread hh
      wread hh
      wtick
      split
      · rename_i hc
        apply wp_bind
        refine wp_swap (f := first) (l := first + len) (v := v) hh (by omega) (by omega) ?_
        intro s1 u1
        rw [swp_comm] at u1
        refine wp_mono (ih _ s1 _ (by omega) (by omega) u1.holds
          (hd.step (parD_lt D) hlt (by omega) hp hc)) ?_
        rintro _ s2 ⟨v2, u2, h2⟩
        exact ⟨v2, u1.tick.trans u2, h2⟩
      · rename_i hc
        refine wp_pure ⟨v, (Upd.refl hh).tickr, hd.done fun _ _ => by simpa using hc⟩
    · exact wp_pure ⟨v, Upd.refl hh, hd.done fun _ _ => by omega⟩

theorem pushDAryHeap_spec (hlt : StrictWeak lt) {D first n : Nat} {s : St α} {v : Nat → α}
    (hn : 0 < n) (hh : Holds s.cell first (first + n) v)
    (hp : HeapFrom lt (parD D) first 0 (n - 1) v) :
    wp (pushDAryHeap (tick lt) D first (first + n)) (fun _ s' => ∃ v',
      Upd first (first + n) s s' v v' ∧ HeapFrom lt (parD D) first 0 n v') s := by
  unfold pushDAryHeap
  rw [show first + n - 1 = first + (n - 1) by omega]
  refine dSiftUp_spec hlt (n - 1) (n - 1) s v (Nat.le_refl _) (by omega) hh ?_
  refine ⟨fun i i0 il ip => hp i i0 (by omega) (by omega), fun _ j j0 jl jp => ?_⟩
  have := parD_lt D j j0
  omega

theorem makeDAryHeapLoop_spec (hlt : StrictWeak lt) {D first len : Nat} :
    ∀ (n k : Nat) (s : St α) (v : Nat → α), k + n = len → 0 < k →
    Holds s.cell first (first + len) v → HeapFrom lt (parD D) first 0 (k - 1) v →
    wp (makeDAryHeapLoop (tick lt) D first (first + len) (first + k)) (fun _ s' => ∃ v',
      Upd first (first + len) s s' v v' ∧ HeapFrom lt (parD D) first 0 (len - 1) v') s := by
  intro n
  induction n with
  | zero =>
    intro k s v hk k0 hh hp
    rw [makeDAryHeapLoop, if_neg (by omega)]
    obtain rfl : len = k := by omega
    exact wp_pure ⟨v, Upd.refl hh, hp⟩
  | succ n ih =>
    intro k s v hk k0 hh hp
    rw [makeDAryHeapLoop, if_pos (by omega)]
    apply wp_bind
    refine wp_mono (pushDAryHeap_spec hlt k0 (hh.sub (Nat.le_refl _) (by omega)) hp) ?_
    rintro _ s1 ⟨v1, u1, h1⟩
    have u1 := u1.widen hh (Nat.le_refl _) (by omega)
    refine wp_mono (ih (k + 1) s1 v1 (by omega) (by omega) u1.holds h1) ?_
    rintro _ s2 ⟨v2, u2, h2⟩
    exact ⟨v2, u1.trans u2, h2⟩

theorem makeDAryHeap_spec (hlt : StrictWeak lt) {D first len : Nat} {s : St α} {v : Nat → α}
    (hh : Holds s.cell first (first + len) v) :
    wp (makeDAryHeap (tick lt) D first (first + len)) (fun _ s' => ∃ v',
      Upd first (first + len) s s' v v' ∧ HeapFrom lt (parD D) first 0 len v') s := by
  unfold makeDAryHeap
  split
  · exact wp_pure ⟨v, Upd.refl hh, fun i _ _ => by omega⟩
  · apply wp_bind
    refine wp_mono (makeDAryHeapLoop_spec hlt (len - 1) 1 s v (by omega) (by omega) hh
      (fun i _ _ => by omega)) ?_
    rintro _ s1 ⟨v1, u1, h1⟩
    refine wp_mono (pushDAryHeap_spec hlt (by omega) u1.holds h1) ?_
    rintro _ s2 ⟨v2, u2, h2⟩
    exact ⟨v2, u1.trans u2, h2⟩

theorem popDAryHeap_spec (hlt : StrictWeak lt) {D first n : Nat} (hD : 0 < D) {s : St α}
    {v : Nat → α} (hn : 0 < n) (hh : Holds s.cell first (first + n) v)
    (hp : HeapFrom lt (parD D) first 0 n v) :
    wp (popDAryHeap (tick lt) D first (first + n)) (fun _ s' => ∃ v',
      Upd first (first + n) s s' v v' ∧ HeapFrom lt (parD D) first 0 (n - 1) v' ∧
      v' (first + (n - 1)) = v first) s := by
  unfold popDAryHeap
  simp only []
  rw [show first + n - 1 = first + (n - 1) by omega]
  apply wp_bind
  refine wp_swap hh (by omega) (by omega) ?_
  intro s1 u1
  split
  · refine wp_pure ⟨_, u1, fun i _ _ => by omega, by rw [swp_r rfl]⟩
  · refine wp_mono (dSiftDown_spec hlt hD (n - 1) 0 s1 _ (by omega) (by omega)
      (u1.holds.sub (Nat.le_refl _) (by omega)) ?_) ?_
    · refine ⟨fun i i0 il _ ip => ?_, fun h => by omega⟩
      have := parD_lt D i i0
      sw
      exact hp i i0 (by omega) (by omega)
    · rintro _ s2 ⟨v2, u2, h2⟩
      refine ⟨v2, u1.trans (u2.widen u1.holds (Nat.le_refl _) (by omega)), h2, ?_⟩
      rw [u2.perm.out (by omega), swp_r rfl]

theorem sortDAryHeap_spec (hlt : StrictWeak lt) {D : Nat} (hD : 0 < D) (first last : Nat) :
    ∀ (n : Nat) (s : St α) (v : Nat → α), first + n ≤ last →
    Holds s.cell first last v → HeapFrom lt (parD D) first 0 n v →
    SortedOn lt (first + n) last v →
    (∀ i j, first ≤ i → i < first + n → first + n ≤ j → j < last → lt (v j) (v i) = false) →
    wp (sortDAryHeap (tick lt) D first (first + n)) (fun _ s' => ∃ v',
      Upd first last s s' v v' ∧ SortedOn lt first last v') s := by
  intro n
  induction n with
  | zero =>
    intro s v h1 hh hp hs hle
    rw [sortDAryHeap, if_neg (by omega)]
    exact wp_pure ⟨v, Upd.refl hh, hs⟩
  | succ n ih =>
    intro s v h1 hh hp hs hle
    rw [sortDAryHeap, if_pos (by omega)]
    apply wp_bind
    refine wp_mono (popDAryHeap_spec hlt hD (by omega) (hh.sub (Nat.le_refl _) (by omega)) hp) ?_
    rintro _ s1 ⟨v1, u1, p1, t1⟩
    rw [show first + (n + 1) - 1 = first + n by omega]
    rw [show n + 1 - 1 = n by omega] at p1 t1
    have u1' := u1.widen hh (Nat.le_refl _) (by omega)
    have htop := hp.top (parD_lt D) hlt
    have htop' : ∀ i, first ≤ i → i < first + (n + 1) → lt (v first) (v1 i) = false :=
      u1.perm.forall (P := fun x => lt (v first) x = false) (fun i a b => by
        have := htop (i - first) (by omega)
        rwa [show first + (i - first) = i by omega] at this)
    have hle' : ∀ i j, first ≤ i → i < first + (n + 1) → first + (n + 1) ≤ j → j < last →
        lt (v1 j) (v1 i) = false := by
      intro i j b1 b2 b3 b4
      rw [u1.perm.out (i := j) (by omega)]
      exact u1.perm.forall (P := fun x => lt (v j) x = false)
        (fun i a b => hle i j a b b3 b4) i b1 b2
    refine wp_mono (ih s1 v1 (by omega) u1'.holds p1 ?_ ?_) ?_
    · intro i j b1 b2 b3
      by_cases hi : i = first + n
      · exact hle' i j (by omega) (by omega) (by omega) b3
      · rw [u1.perm.out (i := i) (by omega), u1.perm.out (i := j) (by omega)]
        exact hs i j (by omega) b2 b3
    · intro i j b1 b2 b3 b4
      by_cases hj : j = first + n
      · subst hj
        rw [t1]
        exact htop' i b1 (by omega)
      · exact hle' i j b1 (by omega) (by omega) b4
    · rintro _ s2 ⟨v2, u2, so2⟩
      exact ⟨v2, u1'.trans u2, so2⟩

theorem dAryHeapsort_spec (hlt : StrictWeak lt) {D : Nat} (hD : 0 < D) {first last : Nat}
    {s : St α} {v : Nat → α} (hfl : first ≤ last) (hh : Holds s.cell first last v) :
    wp (dAryHeapsort (tick lt) D first last) (fun _ s' => ∃ v',
      Upd first last s s' v v' ∧ SortedOn lt first last v') s := by
  obtain ⟨n, rfl⟩ : ∃ n, last = first + n := ⟨last - first, by omega⟩
  unfold dAryHeapsort
  apply wp_bind
  refine wp_mono (makeDAryHeap_spec hlt hh) ?_
  rintro _ s1 ⟨v1, u1, h1⟩
  refine wp_mono (sortDAryHeap_spec hlt hD first (first + n) n s1 v1 (by omega) u1.holds h1
    (SortedOn.trivial (by omega)) (fun i j _ _ _ _ => by omega)) ?_
  rintro _ s2 ⟨v2, u2, so2⟩
  exact ⟨v2, u1.trans u2, so2⟩

end CppSort
