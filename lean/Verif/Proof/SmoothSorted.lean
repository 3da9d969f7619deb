import Verif.Proof.SmoothCost
import Verif.Proof.SortedCost
/-
smooth_sorter on sorted ranges: nothing is moved, and each call of the heap operations makes a constant number of
comparisons.
-/
set_option autoImplicit false

namespace CppSort
variable {α β γ : Type} {lt : α → α → Bool}

/-- If `m` returns from a state with memory `c`, the memory is still `c` and the result and the number of comparisons
satisfy `R`. -/
def Stays (c : Nat → Cell α) (m : M α β) (R : β → Nat → Prop) : Prop :=
  ∀ s r s', s.cell = c → m s = some (.ok r, s') → s'.cell = c ∧ ∃ k, s'.cmps = s.cmps + k ∧ R r k

theorem Stays.mono {c : Nat → Cell α} {m : M α β} {R R' : β → Nat → Prop} (h : Stays c m R) (hR : ∀ r k, R r k → R' r k) :
    Stays c m R' := fun s r s' hs hr =>
  let ⟨h1, k, h2, h3⟩ := h s r s' hs hr
  ⟨h1, k, h2, hR r k h3⟩

theorem Stays.pure {c : Nat → Cell α} {x : β} {R : β → Nat → Prop} (h : R x 0) : Stays c (pure x : M α β) R := by
  intro s r s' hs hr
  have : (some (.ok x, s) : Option (Except Err β × St α)) = some (.ok r, s') := hr
  simp only [Option.some.injEq, Prod.mk.injEq, Except.ok.injEq] at this
  obtain ⟨rfl, rfl⟩ := this
  exact ⟨hs, 0, rfl, h⟩

theorem Stays.bind {c : Nat → Cell α} {m : M α β} {g : β → M α γ} {R : β → Nat → Prop} {R' : γ → Nat → Prop}
    (h : Stays c m R) (hk : ∀ r k, R r k → Stays c (g r) (fun r' k' => R' r' (k + k'))) : Stays c (m >>= g) R' := by
  intro s r s' hs hr
  obtain ⟨x, s1, h1, h2⟩ := bind_inv hr
  obtain ⟨g1, c1, e1, r1⟩ := h s x s1 hs h1
  obtain ⟨g2, c2, e2, r2⟩ := hk x c1 r1 s1 r s' g1 h2
  exact ⟨g2, c1 + c2, by omega, r2⟩

theorem Looks.stays {c : Nat → Cell α} {m : M α β} {k : Nat} {r : β} (h : Looks c m k r) :
    Stays c m (fun r' k' => r' = r ∧ k' = k) := by
  intro s x s' hs hr
  obtain ⟨s1, h1, h2, h3⟩ := h s hs
  rw [h1] at hr
  simp only [Option.some.injEq, Prod.mk.injEq, Except.ok.injEq] at hr
  obtain ⟨rfl, rfl⟩ := hr
  exact ⟨h2, k, h3, rfl, rfl⟩

theorem leoAt_looks {c : Nat → Cell α} {k : Nat} (h : k < 92) : Looks c (leoAt k : M α Nat) 0 (leo k) := by
  unfold leoAt
  rw [table_leo h]
  exact Looks.pure _

/-- The comparison of two elements in order. -/
theorem stays_cmp {c : Nat → Cell α} {i j : Nat} {a b : α} {g : Bool → M α γ} {R : γ → Nat → Prop}
    (hi : c i = .val a) (hj : c j = .val b) (h : Stays c (g (lt a b)) (fun r k => R r (1 + k))) :
    Stays c (do let x ← read i; let y ← read j; let t ← tick lt x y; g t) R := by
  refine (looks_read hi).stays.bind fun x k e => ?_
  obtain ⟨rfl, rfl⟩ := e
  refine (looks_read hj).stays.bind fun y k e => ?_
  obtain ⟨rfl, rfl⟩ := e
  refine (looks_tick _ _).stays.bind fun t k e => ?_
  obtain ⟨rfl, rfl⟩ := e
  exact h.mono fun r k h => by rwa [Nat.zero_add, Nat.zero_add]

theorem smoothLarger_stays {c : Nat → Cell α} {f l i j n : Nat} {v : Nat → α} (hh : Holds c f l v)
    (hi : f ≤ i ∧ i < l) (hj : f ≤ j ∧ j < l) : Stays c (smoothLarger (tick lt) i j n)
      (fun r k => (r.1 = i ∨ r.1 = j) ∧ k = 1) := by
  unfold smoothLarger
  refine stays_cmp (hh i hi.1 hi.2) (hh j hj.1 hj.2) ?_
  split
  · exact Stays.pure ⟨Or.inr rfl, rfl⟩
  · exact Stays.pure ⟨Or.inl rfl, rfl⟩

theorem smoothRebalance_stays {c : Nat → Cell α} {f l a o : Nat} {v : Nat → α} (hh : Holds c f l v)
    (hv : SortedOn lt f l v) (ho : o < 92) (hf : f ≤ a) (hl : a + leo o ≤ l) :
    Stays c (smoothRebalance (tick lt) (a + leo o - 1) o) (fun _ k => k ≤ 2) := by
  rw [smoothRebalance]
  split
  · obtain ⟨k, rfl⟩ : ∃ k, o = k + 2 := ⟨o - 2, by omega⟩
    have el : leo (k + 2) = leo (k + 1) + leo k + 1 := by rw [leo]
    have p0 := leo_pos k
    have p1 := leo_pos (k + 1)
    rw [show k + 2 - 2 = k by omega]
    refine (leoAt_looks (by omega)).stays.bind fun x n e => ?_
    obtain ⟨rfl, rfl⟩ := e
    refine (smoothLarger_stays hh (by omega) (by omega)).bind fun r n e => ?_
    have hr : a ≤ r.1 ∧ r.1 < a + leo (k + 2) - 1 := by omega
    refine stays_cmp (hh _ (by omega) (by omega)) (hh _ (by omega) (by omega)) ?_
    rw [hv r.1 (a + leo (k + 2) - 1) (by omega) hr.2 (by omega), if_neg (by simp)]
    exact Stays.pure (by omega)
  · exact Stays.pure (by omega)

theorem smoothToCompare_stays {c : Nat → Cell α} {f l a o : Nat} {v : Nat → α} (hh : Holds c f l v)
    (hv : SortedOn lt f l v) (ho : o < 92) (hf : f ≤ a) (hl : a + leo o ≤ l) :
    Stays c (smoothToCompare (tick lt) (a + leo o - 1) o) (fun r k => r = a + leo o - 1 ∧ k ≤ 2) := by
  unfold smoothToCompare
  split
  · obtain ⟨k, rfl⟩ : ∃ k, o = k + 2 := ⟨o - 2, by omega⟩
    have el : leo (k + 2) = leo (k + 1) + leo k + 1 := by rw [leo]
    have p0 := leo_pos k
    have p1 := leo_pos (k + 1)
    rw [show k + 2 - 2 = k by omega]
    refine (leoAt_looks (by omega)).stays.bind fun x n e => ?_
    obtain ⟨rfl, rfl⟩ := e
    refine (smoothLarger_stays hh (by omega) (by omega)).bind fun r n e => ?_
    have hr : a ≤ r.1 ∧ r.1 < a + leo (k + 2) - 1 := by omega
    refine stays_cmp (hh _ (by omega) (by omega)) (hh _ (by omega) (by omega)) ?_
    rw [hv r.1 (a + leo (k + 2) - 1) (by omega) hr.2 (by omega), if_neg (by simp)]
    exact Stays.pure (by omega)
  · exact Stays.pure (by omega)

theorem smoothRectify_stays {c : Nat → Cell α} {f l a o : Nat} {v : Nat → α} {sh : HeapShape} (hh : Holds c f l v)
    (hv : SortedOn lt f l v) (ho : o < 92) (hsm : sh.smallest = o) (hf : f ≤ a) (hl : a + leo o ≤ l) :
    Stays c (smoothRectify (tick lt) f (a + leo o - 1) sh) (fun _ k => k ≤ 5) := by
  have p := leo_pos o
  rw [smoothRectify]
  dsimp only
  rw [hsm]
  refine (leoAt_looks ho).stays.bind fun x n e => ?_
  obtain ⟨rfl, rfl⟩ := e
  split
  · exact (smoothRebalance_stays hh hv ho hf hl).mono fun _ k h => by omega
  · refine (smoothToCompare_stays hh hv ho hf hl).bind fun t n e => ?_
    obtain ⟨rfl, hn⟩ := e
    refine stays_cmp (hh _ (by omega) (by omega)) (hh _ (by omega) (by omega)) ?_
    rw [hv _ (a + leo o - 1) (by omega) (by omega) (by omega), if_neg (by simp)]
    exact (smoothRebalance_stays hh hv ho hf hl).mono fun _ k h => by omega

theorem smoothIsLast_stays {c : Nat → Cell α} {e l : Nat} {sh : HeapShape} (h : sh.smallest < 92) :
    Stays c (smoothIsLast e l sh : M α Bool) (fun _ k => k = 0) := by
  unfold smoothIsLast
  split
  · exact Stays.pure rfl
  · split
    · exact Stays.pure rfl
    · refine (leoAt_looks (by omega)).stays.bind fun x n e => ?_
      obtain ⟨rfl, rfl⟩ := e
      exact Stays.pure rfl

theorem smoothAdd_stays {c : Nat → Cell α} {f l e : Nat} {os : List Nat} {sh : HeapShape} {v : Nat → α}
    (hh : Holds c f l v) (hv : SortedOn lt f l v) (hn : l - f < 2 ^ 63)
    (hel : e < l) (hsh : Shp os sh) (hok : ShapeOk os) (hr : LRow lt v f os e) (hbu : Built lt v f l os e) :
    Stays c (smoothAdd (tick lt) f e l sh) (fun _ k => k ≤ 5) := by
  obtain ⟨o, os', a, ha, hsh', hok', hr', hs', hbu'⟩ := shape_add hn hel hsh hok hr hbu
  have hfa := hr'.le
  have hp := leo_pos o
  have ho : o < 90 := leo_bound (by omega)
  have hsm : sh.add.smallest = o := hsh'.2 o rfl
  unfold smoothAdd
  dsimp only
  refine (smoothIsLast_stays (by omega)).bind fun b k hk => ?_
  rw [show e = a + leo o - 1 by omega]
  split
  · rw [hsm]
    exact (smoothRebalance_stays hh hv (by omega) hfa (by omega)).bind fun _ c hc => Stays.pure (by omega)
  · exact (smoothRectify_stays hh hv (by omega) hsm hfa (by omega)).bind fun _ c hc => Stays.pure (by omega)

theorem smoothRemove_stays {c : Nat → Cell α} {f l e : Nat} {o : Nat} {os : List Nat} {sh : HeapShape} {v : Nat → α}
    (hh : Holds c f l v) (hv : SortedOn lt f l v) (hn : l - f < 2 ^ 63) (hel : e ≤ l) (hsh : Shp (o :: os) sh)
    (hso : (o :: os).Pairwise (· < ·)) (hr : LRow lt v f (o :: os) e) :
    Stays c (smoothRemove (tick lt) f e sh) (fun _ k => k ≤ 10) := by
  have hb := hr.bound hn hel
  have hsm : sh.smallest = o := hsh.2 _ rfl
  have r1 := hr.1
  obtain ⟨hs1, hs2⟩ := List.pairwise_cons.1 hso
  unfold smoothRemove
  rw [hsm]
  rcases Nat.lt_or_ge 1 o with ho | ho
  · rw [if_neg (by omega)]
    obtain ⟨k, rfl⟩ : ∃ k, o = k + 2 := ⟨o - 2, by omega⟩
    have hk := hb _ List.mem_cons_self
    have el : leo (k + 2) = leo (k + 1) + leo k + 1 := by rw [leo]
    have p0 := leo_pos k
    have p1 := leo_pos (k + 1)
    obtain ⟨a, rfl⟩ : ∃ a, e = a + leo (k + 2) := ⟨e - leo (k + 2), by omega⟩
    have hr2 := hr.2.2
    rw [Nat.add_sub_cancel] at hr2
    have hfa := hr2.le
    have hbr := shape_break hsh hs1
    have hbsm : sh.break.smallest = k := hbr.2 _ rfl
    rw [show k + 2 - 2 = k by omega]
    refine (leoAt_looks (by omega)).stays.bind fun l' c hc => ?_
    obtain ⟨rfl, rfl⟩ := hc
    dsimp only
    rw [show a + leo (k + 2) - 1 - 1 - leo k = a + leo (k + 1) - 1 by omega,
      show a + leo (k + 2) - 1 - 1 = a + leo (k + 1) + leo k - 1 by omega]
    refine (smoothRectify_stays hh hv (o := k + 1) (by omega) (by simp [hbsm]) hfa (by omega)).bind fun _ c1 hc1 => ?_
    refine (smoothRectify_stays hh hv (o := k) (by omega) hbsm (by omega) (by omega)).bind
      fun _ c2 hc2 => Stays.pure (by omega)
  · rw [if_pos ho]
    intro s r s' hs hrun
    obtain ⟨rfl, -⟩ := (smoothDrop_spec (fun p hp => by have := hb p (List.mem_cons_of_mem _ hp); omega) hs2 92 sh s
      (by omega) (fun p hp => by rw [hsm]; exact hs1 p hp) (by
        intro i i1 i2
        rw [hsh.1 i i2]
        congr 1
        rw [List.mem_cons]
        simp only [eq_iff_iff]
        exact ⟨fun h => h.resolve_left (by omega), Or.inr⟩)).run hrun
    exact ⟨hs, 0, rfl, by omega⟩

/-- The contents of a memory are unique. -/
theorem Holds.eq {c : Nat → Cell α} {f l : Nat} {v w : Nat → α} (h : Holds c f l v) (h' : Holds c f l w) :
    ∀ i, f ≤ i → i < l → v i = w i := by
  intro i a b
  have := (h i a b).symm.trans (h' i a b)
  exact Cell.val.inj this

theorem smoothAddAll_stays (hlt : StrictWeak lt) {f l : Nat} (hn : l - f < 2 ^ 63) : ∀ (d e : Nat) (os : List Nat)
    (sh : HeapShape) (s : St α) (v : Nat → α) (r : HeapShape) (s' : St α), l - e ≤ d → e ≤ l → Holds s.cell f l v →
    SortedOn lt f l v → Shp os sh → ShapeOk os → LRow lt v f os e → Built lt v f l os e →
    smoothAddAll (tick lt) f e l sh s = some (.ok r, s') →
    s'.cell = s.cell ∧ s'.cmps ≤ s.cmps + 5 * d := by
  intro d
  induction d with
  | zero =>
    intro e os sh s v r s' hd hel hh hv hsh hok hr hbu hrun
    obtain rfl : e = l := by omega
    rw [smoothAddAll, if_neg (by simp)] at hrun
    obtain ⟨h1, k, h2, h3⟩ := (Stays.pure (R := fun _ k => k = 0) rfl) s _ _ rfl hrun
    exact ⟨h1, by omega⟩
  | succ d ih =>
    intro e os sh s v r s' hd hel hh hv hsh hok hr hbu hrun
    rw [smoothAddAll] at hrun
    split at hrun
    · obtain ⟨sh1, s1, h1, h2⟩ := bind_inv hrun
      obtain ⟨hc0, c, hc1, hc2⟩ := smoothAdd_stays hh hv hn (by omega) hsh hok hr hbu s _ _ rfl h1
      obtain ⟨os1, v1, hu1, hsh1, hok1, hr1, hbu1⟩ := (smoothAdd_spec hlt hn (by omega) hh hsh hok hr hbu).run h1
      have hh1 := hu1.holds
      have hv1 : SortedOn lt f l v1 := hv.congr (hh.eq (by rw [hc0] at hh1; exact hh1))
      obtain ⟨h3, h4⟩ := ih (e + 1) os1 sh1 s1 v1 r s' (by omega) (by omega) hh1 hv1 hsh1 hok1 hr1 hbu1 h2
      exact ⟨h3.trans hc0, by omega⟩
    · obtain ⟨h1, k, h2, h3⟩ := (Stays.pure (R := fun _ k => k = 0) rfl) s _ _ rfl hrun
      exact ⟨h1, by omega⟩

theorem smoothRemoveAll_stays (hlt : StrictWeak lt) {f l : Nat} (hn : l - f < 2 ^ 63) : ∀ (d e : Nat) (os : List Nat)
    (sh : HeapShape) (s : St α) (v : Nat → α) (s' : St α), e - f ≤ d → f ≤ e → e ≤ l → Holds s.cell f l v →
    SortedOn lt f l v → Shp os sh → os.Pairwise (· < ·) → LRow lt v f os e → Asc lt v f os e →
    smoothRemoveAll (tick lt) f e sh s = some (.ok (), s') →
    s'.cell = s.cell ∧ s'.cmps ≤ s.cmps + 10 * d := by
  intro d
  induction d with
  | zero =>
    intro e os sh s v s' hd hf hel hh hv _ _ _ _ hrun
    obtain rfl : e = f := by omega
    rw [smoothRemoveAll, if_neg (by simp)] at hrun
    obtain ⟨h1, k, h2, h3⟩ := (Stays.pure (R := fun _ k => k = 0) rfl) s _ _ rfl hrun
    exact ⟨h1, by omega⟩
  | succ d ih =>
    intro e os sh s v s' hd hf hel hh hv hsh hso hr ha hrun
    rw [smoothRemoveAll] at hrun
    split at hrun
    · obtain ⟨sh1, s1, h1, h2⟩ := bind_inv hrun
      cases os with
      | nil => have hr : f = e := hr; omega
      | cons o os =>
        have r1 := hr.1
        have hp := leo_pos o
        obtain ⟨hc0, c, hc1, hc2⟩ := smoothRemove_stays hh hv hn hel hsh hso hr s _ _ rfl h1
        obtain ⟨os1, v1, hu1, hsh1, hso1, hr1, ha1⟩ := (smoothRemove_spec hlt hn hel hh hsh hso hr ha).run h1
        have hu1' := hu1.widen hh (Nat.le_refl _) (by omega)
        have hh1 := hu1'.holds
        have hv1 : SortedOn lt f l v1 := hv.congr (hh.eq (by rw [hc0] at hh1; exact hh1))
        obtain ⟨h3, h4⟩ := ih (e - 1) os1 sh1 s1 v1 s' (by omega) (by omega) (by omega) hh1 hv1 hsh1 hso1 hr1 ha1 h2
        exact ⟨h3.trans hc0, by omega⟩
    · obtain ⟨h1, k, h2, h3⟩ := (Stays.pure (R := fun _ k => k = 0) rfl) s _ _ rfl hrun
      exact ⟨h1, by omega⟩

theorem smoothsort_sorted (hlt : StrictWeak lt) {f l : Nat} {s s' : St α} {v : Nat → α} (hf : f ≤ l)
    (hn : l - f < 2 ^ 63) (hh : Holds s.cell f l v) (hv : SortedOn lt f l v)
    (hrun : smoothsort (tick lt) f l s = some (.ok (), s')) :
    s'.cell = s.cell ∧ s'.cmps ≤ s.cmps + 15 * (l - f) := by
  unfold smoothsort at hrun
  split at hrun
  · obtain ⟨h1, k, h2, h3⟩ := (Stays.pure (R := fun _ k => k = 0) rfl) s _ _ rfl hrun
    exact ⟨h1, by omega⟩
  · obtain ⟨sh, s1, h1, h2⟩ := bind_inv hrun
    have hsh0 : Shp [] ⟨0, 0⟩ := ⟨fun i hi => by simp, by simp⟩
    obtain ⟨e1, c1⟩ := smoothAddAll_stays hlt hn (l - f) f [] ⟨0, 0⟩ s v sh s1 (Nat.le_refl _) hf hh hv hsh0 trivial rfl
      trivial h1
    obtain ⟨os, v1, hu1, hsh, hok, hr, ha⟩ := (smoothAddAll_spec hlt hn (l - f) f [] ⟨0, 0⟩ s v (Nat.le_refl _) hf hh
      hsh0 trivial rfl trivial).run h1
    have hh1 := hu1.holds
    have hv1 : SortedOn lt f l v1 := hv.congr (hh.eq (by rw [e1] at hh1; exact hh1))
    obtain ⟨e2, c2⟩ := smoothRemoveAll_stays hlt hn (l - f) l os sh s1 v1 s' (Nat.le_refl _) hf (Nat.le_refl _) hh1 hv1 hsh
      hok.sorted hr ha h2
    exact ⟨e2.trans e1, by omega⟩

end CppSort
