import Verif.Proof.DropCost
import Verif.Proof.SymCost
import Verif.Proof.Smooth
set_option autoImplicit false

namespace CppSort
variable {α : Type} {lt : α → α → Bool} {N : Nat}

theorem leo_exp (k : Nat) : 2 ^ (k / 2) ≤ leo k := by
  induction k using leo.induct with
  | case1 => decide
  | case2 => decide
  | case3 k h1 h2 =>
    rw [leo, show (k + 2) / 2 = k / 2 + 1 by omega, Nat.pow_succ]
    have := leo_le_succ k
    omega

theorem leo_log {k n : Nat} (h : leo k ≤ n) : k ≤ 2 * n.log2 + 1 := by
  have h1 := (leo_exp k).trans h
  have h2 : k / 2 ≤ n.log2 := by
    have := log2_mono h1
    rwa [Nat.log2_two_pow] at this
  omega

theorem leoAt_silent (k : Nat) : Silent (leoAt k : M α Nat) := by
  unfold leoAt
  split
  · exact Silent.pure
  · exact silent_fail _

theorem leoAt_cost {k : Nat} (h : k < 92) : Cost N (leoAt k : M α Nat) (fun r c => r = leo k ∧ c = 0) := by
  unfold leoAt
  rw [table_leo h]
  exact Cost.pure ⟨rfl, rfl⟩

theorem smoothLarger_cost {first second size : Nat} : Cost N (smoothLarger (tick lt) first second size)
    (fun r c => r.2 ≤ size - 1 ∧ c = 1) := by
  unfold smoothLarger
  refine (silent_read _).costBind fun _ => (silent_read _).costBind fun _ => Cost.tickBind fun b => ?_
  exact Cost.ite (fun _ => Cost.pure ⟨by dsimp only; omega, rfl⟩) fun _ => Cost.pure ⟨by dsimp only; omega, rfl⟩

theorem smoothRebalance_cost : ∀ (k root size : Nat), size ≤ k →
    Cost N (smoothRebalance (tick lt) root size) (fun _ c => c ≤ 2 * k) := by
  intro k
  induction k with
  | zero =>
    intro root size h
    rw [smoothRebalance, if_neg (by omega)]
    exact Cost.pure (by omega)
  | succ k ih =>
    intro root size h
    rw [smoothRebalance]
    refine Cost.ite (fun h1 => ?_) fun _ => Cost.pure (by omega)
    refine (leoAt_silent _).costBind fun l => smoothLarger_cost.bind fun r c hc => ?_
    refine (silent_read _).costBind fun _ => (silent_read _).costBind fun _ => Cost.tickBind fun b => ?_
    refine Cost.ite (fun _ => ?_) fun _ => Cost.pure (by omega)
    exact (silent_swap _ _).costBind fun _ => (ih r.1 r.2 (by omega)).mono fun _ c' h' => by omega

theorem smoothToCompare_cost {itr size : Nat} : Cost N (smoothToCompare (tick lt) itr size) (fun _ c => c ≤ 2) := by
  unfold smoothToCompare
  refine Cost.ite (fun h1 => ?_) fun _ => Cost.pure (by omega)
  refine (leoAt_silent _).costBind fun l => smoothLarger_cost.bind fun r c hc => ?_
  refine (silent_read _).costBind fun _ => (silent_read _).costBind fun _ => Cost.tickBind fun b => ?_
  exact Cost.ite (fun _ => Cost.pure (by omega)) fun _ => Cost.pure (by omega)

/-- The trees of the given orders, the last one first, cover `[f, e)`. -/
def Spans (f : Nat) : List Nat → Nat → Prop
  | [], e => f = e
  | o :: os, e => f + leo o ≤ e ∧ Spans f os (e - leo o)

theorem LRow.spans {v : Nat → α} {f : Nat} : ∀ {os : List Nat} {e : Nat}, LRow lt v f os e → Spans f os e := by
  intro os
  induction os with
  | nil => intro e h; exact h
  | cons o os ih => intro e h; exact ⟨h.1, ih h.2.2⟩

theorem Spans.orders {f l : Nat} : ∀ {os : List Nat} {e : Nat}, Spans f os e → e ≤ l →
    ∀ o ∈ os, o ≤ 2 * (l - f).log2 + 1 := by
  intro os
  induction os with
  | nil => intro e _ _ o ho; cases ho
  | cons p os ih =>
    intro e h he o ho
    have h1 := h.1
    rcases List.mem_cons.1 ho with rfl | ho
    · exact leo_log (by omega)
    · exact ih h.2 (by omega) o ho

theorem sorted_length : ∀ {os : List Nat} {k : Nat}, os.Pairwise (· < ·) → (∀ o ∈ os, o ≤ k) →
    ∀ a, (∀ o ∈ os, a ≤ o) → os.length + a ≤ k + 1 ∨ os = [] := by
  intro os
  induction os with
  | nil => intros; right; rfl
  | cons o os ih =>
    intro k hp hk a ha
    left
    have h1 := hk o List.mem_cons_self
    have h2 := ha o List.mem_cons_self
    obtain ⟨p1, p2⟩ := List.pairwise_cons.1 hp
    rcases ih p2 (fun x hx => hk x (List.mem_cons_of_mem _ hx)) (o + 1) (fun x hx => p1 x hx) with h | rfl
    · simp only [List.length_cons]; omega
    · simp only [List.length_cons, List.length_nil]; omega

theorem smoothScan_cost {o1 : Nat} {os : List Nat} (hb : ∀ o ∈ o1 :: os, o < 92) (hs : ∀ o ∈ os, o1 < o)
    {sh : HeapShape} (hlo : sh.smallest < o1)
    (h : ∀ i, 1 ≤ i → i < 92 → sh.trees.getLsbD i = decide (sh.smallest + i ∈ o1 :: os)) :
    Cost (α := α) N (smoothScan sh) (fun sh' c => Shp (o1 :: os) sh' ∧ c = 0) := by
  intro s r s' hg e
  obtain ⟨rfl, h1⟩ := (smoothScan_spec hb hs o1 sh s (by omega) hlo h).run e
  exact ⟨hg, 0, rfl, h1, rfl⟩

theorem smoothRectify_cost {f K : Nat} : ∀ (os : List Nat) (o a : Nat) (sh : HeapShape), Spans f os a →
    Shp (o :: os) sh → (o :: os).Pairwise (· < ·) → (∀ p ∈ o :: os, p < 92) → (∀ p ∈ o :: os, p ≤ K) →
    Cost N (smoothRectify (tick lt) f (a + leo o - 1) sh) (fun _ c => c ≤ 3 * (os.length + 1) + 2 * K) := by
  intro os
  induction os with
  | nil =>
    intro o a sh hr hsh _ hb hK
    have hr : f = a := hr
    subst hr
    have hsm : sh.smallest = o := hsh.2 o rfl
    have ho := hb o List.mem_cons_self
    have p := leo_pos o
    rw [smoothRectify]
    dsimp only
    rw [hsm]
    refine (leoAt_cost ho).bind fun l c hc => ?_
    obtain ⟨rfl, rfl⟩ := hc
    rw [if_pos (by omega)]
    exact (smoothRebalance_cost K _ _ (hK o List.mem_cons_self)).mono fun _ c hc => by omega
  | cons o1 os ih =>
    intro o a sh hr hsh hsort hb hK
    have hsm : sh.smallest = o := hsh.2 o rfl
    have ho := hb o List.mem_cons_self
    have p := leo_pos o
    have p1 := leo_pos o1
    have hr1 := hr.1
    obtain ⟨b, rfl⟩ : ∃ b, a = b + leo o1 := ⟨a - leo o1, by omega⟩
    have hr2 := hr.2
    rw [Nat.add_sub_cancel] at hr2
    have hs1 := List.pairwise_cons.1 hsort
    have hs2 := List.pairwise_cons.1 hs1.2
    rw [smoothRectify]
    dsimp only
    rw [hsm]
    refine (leoAt_cost ho).bind fun l c hc => ?_
    obtain ⟨rfl, rfl⟩ := hc
    rw [if_neg (by omega)]
    refine smoothToCompare_cost.bind fun t c1 hc1 => ?_
    refine (silent_read _).costBind fun _ => (silent_read _).costBind fun _ => Cost.tickBind fun b' => ?_
    simp only [List.length_cons]
    refine Cost.ite (fun _ => ?_) fun _ => (smoothRebalance_cost K _ _ (hK o List.mem_cons_self)).mono
      fun _ c hc => by omega
    refine (silent_swap _ _).costBind fun _ => ?_
    refine (smoothScan_cost (o1 := o1) (os := os) (fun p hp => hb p (List.mem_cons_of_mem _ hp)) hs2.1
      (by rw [hsm]; exact hs1.1 _ List.mem_cons_self) ?_).bind fun sh' c2 hc2 => ?_
    · intro i i1 i2
      rw [hsh.1 i i2]
      congr 1
      rw [List.mem_cons]
      simp only [eq_iff_iff]
      exact ⟨fun h => h.resolve_left (by omega), Or.inr⟩
    · rw [show b + leo o1 + leo o - 1 - leo o = b + leo o1 - 1 by omega]
      exact (ih o1 b sh' hr2 hc2.1 hs1.2 (fun p hp => hb p (List.mem_cons_of_mem _ hp))
        (fun p hp => hK p (List.mem_cons_of_mem _ hp))).mono fun _ c hc => by omega

theorem smoothIsLast_silent (e l : Nat) (sh : HeapShape) : Silent (smoothIsLast e l sh : M α Bool) := by
  unfold smoothIsLast
  refine Silent.ite Silent.pure (Silent.ite Silent.pure ?_)
  exact (leoAt_silent _).bind fun _ => Silent.pure

/-- The rectification of trees of orders at most `K`. -/
theorem smoothRectify_cost' {f K : Nat} {os : List Nat} {o a : Nat} {sh : HeapShape} (hr : Spans f os a)
    (hsh : Shp (o :: os) sh) (hp : (o :: os).Pairwise (· < ·)) (hb : ∀ p ∈ o :: os, p < 92)
    (hK : ∀ p ∈ o :: os, p ≤ K) :
    Cost N (smoothRectify (tick lt) f (a + leo o - 1) sh) (fun _ c => c ≤ 5 * K + 3) := by
  refine (smoothRectify_cost os o a sh hr hsh hp hb hK).mono fun _ c hc => ?_
  rcases sorted_length hp hK 0 (fun _ _ => Nat.zero_le _) with h | h
  · simp only [List.length_cons] at h; omega
  · cases h

theorem smoothAdd_cost {f l e : Nat} {os : List Nat} {sh : HeapShape} {v : Nat → α} (hn : l - f < 2 ^ 63)
    (hel : e < l) (hsh : Shp os sh) (hok : ShapeOk os) (hr : LRow lt v f os e) (hbu : Built lt v f l os e) :
    Cost N (smoothAdd (tick lt) f e l sh) (fun _ c => c ≤ 10 * (l - f).log2 + 8) := by
  obtain ⟨o, os', a, ha, hsh', hok', hr', hs', hbu'⟩ := shape_add hn hel hsh hok hr hbu
  have hfa := hr'.le
  have hp := leo_pos o
  have hsp : Spans f (o :: os') (e + 1) :=
    ⟨by omega, by rw [show e + 1 - leo o = a by omega]; exact hr'.spans⟩
  have ho : o < 90 := leo_bound (by omega)
  have hsm : sh.add.smallest = o := hsh'.2 o rfl
  have hK := hsp.orders (l := l) (by omega)
  unfold smoothAdd
  dsimp only
  refine (smoothIsLast_silent _ _ _).costBind fun b => ?_
  rw [hsm]
  rw [show e = a + leo o - 1 by omega]
  split
  · refine (smoothRebalance_cost _ _ _ (hK o List.mem_cons_self)).bind fun _ c hc => Cost.pure (by omega)
  · refine (smoothRectify_cost' hr'.spans hsh' hok'.sorted ?_ hK).bind fun _ c hc => Cost.pure (by omega)
    intro p hp
    rcases List.mem_cons.1 hp with rfl | hp
    · omega
    · have := hr'.bound hn (by omega) p hp; omega

theorem smoothAddAll_run (hlt : StrictWeak lt) {f l : Nat} (hn : l - f < 2 ^ 63) : ∀ (d e : Nat) (os : List Nat)
    (sh : HeapShape) (s : St α) (v : Nat → α) (r : HeapShape) (s' : St α), l - e ≤ d → e ≤ l → Holds s.cell f l v →
    Shp os sh → ShapeOk os → LRow lt v f os e → Built lt v f l os e →
    smoothAddAll (tick lt) f e l sh s = some (.ok r, s') →
    s'.cmps ≤ s.cmps + d * (10 * (l - f).log2 + 8) := by
  intro d
  induction d with
  | zero =>
    intro e os sh s v r s' hd hel hh hsh hok hr hbu hrun
    obtain rfl : e = l := by omega
    rw [smoothAddAll, if_neg (by simp)] at hrun
    have := (Silent.pure (x := sh)).run hrun
    omega
  | succ d ih =>
    intro e os sh s v r s' hd hel hh hsh hok hr hbu hrun
    rw [smoothAddAll] at hrun
    split at hrun
    · obtain ⟨sh1, s1, h1, h2⟩ := bind_inv hrun
      obtain ⟨c, hc1, hc2⟩ := (smoothAdd_cost (lt := lt) hn (by omega) hsh hok hr hbu).run h1
      obtain ⟨os1, v1, hu1, hsh1, hok1, hr1, hbu1⟩ := (smoothAdd_spec hlt hn (by omega) hh hsh hok hr hbu).run h1
      have := ih (e + 1) os1 sh1 s1 v1 r s' (by omega) (by omega) hu1.holds hsh1 hok1 hr1 hbu1 h2
      rw [Nat.succ_mul]
      omega
    · have := (Silent.pure (x := sh)).run hrun
      omega

theorem smoothDrop_silent : ∀ sh, Silent (smoothDrop sh : M α HeapShape) := by
  apply smoothDrop.fixpoint_induct (α := α) (motive := fun f => ∀ sh, Silent (f sh))
  · exact Silent.admissible1
  · intro f ih sh
    dsimp only
    split
    · exact ih _
    · exact Silent.pure

theorem smoothRemove_cost {f l e : Nat} {o : Nat} {os : List Nat} {sh : HeapShape}
    {v : Nat → α} (hn : l - f < 2 ^ 63) (hel : e ≤ l) (hsh : Shp (o :: os) sh)
    (hso : (o :: os).Pairwise (· < ·)) (hr : LRow lt v f (o :: os) e) :
    Cost N (smoothRemove (tick lt) f e sh) (fun _ c => c ≤ 2 * (10 * (l - f).log2 + 8)) := by
  have hb := hr.bound hn hel
  have hK := hr.spans.orders hel
  have hsm : sh.smallest = o := hsh.2 _ rfl
  have r1 := hr.1
  obtain ⟨hs1, hs2⟩ := List.pairwise_cons.1 hso
  unfold smoothRemove
  rw [hsm]
  rcases Nat.lt_or_ge 1 o with ho | ho
  · rw [if_neg (by omega)]
    obtain ⟨k, rfl⟩ : ∃ k, o = k + 2 := ⟨o - 2, by omega⟩
    have hk := hb _ List.mem_cons_self
    have hKk := hK _ List.mem_cons_self
    have el : leo (k + 2) = leo (k + 1) + leo k + 1 := by rw [leo]
    have p0 := leo_pos k
    have p1 := leo_pos (k + 1)
    obtain ⟨a, rfl⟩ : ∃ a, e = a + leo (k + 2) := ⟨e - leo (k + 2), by omega⟩
    have hr2 := hr.2.2
    rw [Nat.add_sub_cancel] at hr2
    have hfa := hr2.le
    have hbr := shape_break hsh hs1
    have hbsm : sh.break.smallest = k := hbr.2 _ rfl
    rw [show k + 2 - 2 = k by omega]
    refine (leoAt_cost (by omega)).bind fun l' c hc => ?_
    obtain ⟨rfl, rfl⟩ := hc
    dsimp only
    rw [show a + leo (k + 2) - 1 - 1 - leo k = a + leo (k + 1) - 1 by omega,
      show a + leo (k + 2) - 1 - 1 = a + leo (k + 1) + leo k - 1 by omega]
    have hb1 : ∀ p ∈ (k + 1) :: os, p < 92 := by
      intro p hp
      rcases List.mem_cons.1 hp with rfl | hp
      · omega
      · have := hb p (List.mem_cons_of_mem _ hp); omega
    have hK1 : ∀ p ∈ (k + 1) :: os, p ≤ 2 * (l - f).log2 + 1 := by
      intro p hp
      rcases List.mem_cons.1 hp with rfl | hp
      · omega
      · exact hK p (List.mem_cons_of_mem _ hp)
    have hso1 : ((k + 1) :: os).Pairwise (· < ·) :=
      List.pairwise_cons.2 ⟨fun p hp => by have := hs1 p hp; omega, hs2⟩
    have hsh1 : Shp ((k + 1) :: os) ⟨sh.break.trees >>> 1, sh.break.smallest + 1⟩ := by
      refine ⟨bits_shift hb1 ?_, by simp [hbsm]⟩
      intro i i1 i2
      rw [hbr.1 i i2]
      congr 1
      rw [List.mem_cons]
      simp only [eq_iff_iff]
      exact ⟨fun h => h.resolve_left (by omega), Or.inr⟩
    refine (smoothRectify_cost' hr2.spans hsh1 hso1 hb1 hK1).bind fun _ c1 hc1 => ?_
    refine (smoothRectify_cost' (os := (k + 1) :: os) (o := k) (a := a + leo (k + 1))
      (K := 2 * (l - f).log2 + 1) ⟨by omega, ?_⟩ hbr
      (List.pairwise_cons.2 ⟨fun p hp => ?_, hso1⟩) (fun p hp => ?_) (fun p hp => ?_)).bind
      fun _ c2 hc2 => Cost.pure (by omega)
    · rw [Nat.add_sub_cancel]; exact hr2.spans
    · rcases List.mem_cons.1 hp with rfl | hp
      · omega
      · have := hs1 p hp; omega
    · rcases List.mem_cons.1 hp with rfl | hp
      · omega
      · exact hb1 p hp
    · rcases List.mem_cons.1 hp with rfl | hp
      · omega
      · exact hK1 p hp
  · rw [if_pos ho]
    exact (smoothDrop_silent _).cost (by omega)

theorem smoothRemoveAll_run (hlt : StrictWeak lt) {f l : Nat} (hn : l - f < 2 ^ 63) : ∀ (d e : Nat) (os : List Nat)
    (sh : HeapShape) (s : St α) (v : Nat → α) (s' : St α), e - f ≤ d → f ≤ e → e ≤ l → Holds s.cell f l v →
    Shp os sh → os.Pairwise (· < ·) → LRow lt v f os e → Asc lt v f os e →
    smoothRemoveAll (tick lt) f e sh s = some (.ok (), s') →
    s'.cmps ≤ s.cmps + d * (2 * (10 * (l - f).log2 + 8)) := by
  intro d
  induction d with
  | zero =>
    intro e os sh s v s' hd hf hel hh _ _ _ _ hrun
    obtain rfl : e = f := by omega
    rw [smoothRemoveAll, if_neg (by simp)] at hrun
    have := (Silent.pure (x := ())).run hrun
    omega
  | succ d ih =>
    intro e os sh s v s' hd hf hel hh hsh hso hr ha hrun
    rw [smoothRemoveAll] at hrun
    split at hrun
    · obtain ⟨sh1, s1, h1, h2⟩ := bind_inv hrun
      cases os with
      | nil => have hr : f = e := hr; omega
      | cons o os =>
        have r1 := hr.1
        have hp := leo_pos o
        obtain ⟨c, hc1, hc2⟩ := (smoothRemove_cost (lt := lt) hn hel hsh hso hr).run h1
        obtain ⟨os1, v1, hu1, hsh1, hso1, hr1, ha1⟩ := (smoothRemove_spec hlt hn hel hh hsh hso hr ha).run h1
        have hu1' := hu1.widen hh (Nat.le_refl _) (by omega)
        have := ih (e - 1) os1 sh1 s1 v1 s' (by omega) (by omega) (by omega) hu1'.holds hsh1 hso1 hr1 ha1 h2
        rw [Nat.succ_mul]
        omega
    · have := (Silent.pure (x := ())).run hrun
      omega

theorem smoothsort_run (hlt : StrictWeak lt) {f l : Nat} {s s' : St α} {v : Nat → α} (hf : f ≤ l)
    (hn : l - f < 2 ^ 63) (hh : Holds s.cell f l v) (hrun : smoothsort (tick lt) f l s = some (.ok (), s')) :
    s'.cmps ≤ s.cmps + (l - f) * (30 * (l - f).log2 + 24) := by
  unfold smoothsort at hrun
  split at hrun
  · have := (Silent.pure (x := ())).run hrun
    omega
  · obtain ⟨sh, s1, h1, h2⟩ := bind_inv hrun
    have hsh0 : Shp [] ⟨0, 0⟩ := ⟨fun i hi => by simp, by simp⟩
    have c1 := smoothAddAll_run hlt hn (l - f) f [] ⟨0, 0⟩ s v sh s1 (Nat.le_refl _) hf hh hsh0 trivial rfl trivial h1
    obtain ⟨os, v1, hu1, hsh, hok, hr, ha⟩ := (smoothAddAll_spec hlt hn (l - f) f [] ⟨0, 0⟩ s v (Nat.le_refl _) hf hh
      hsh0 trivial rfl trivial).run h1
    have c2 := smoothRemoveAll_run hlt hn (l - f) l os sh s1 v1 s' (Nat.le_refl _) hf (Nat.le_refl _) hu1.holds hsh
      hok.sorted hr ha h2
    have : (l - f) * (30 * (l - f).log2 + 24) =
      (l - f) * (10 * (l - f).log2 + 8) + (l - f) * (2 * (10 * (l - f).log2 + 8)) := by ring
    omega

end CppSort
