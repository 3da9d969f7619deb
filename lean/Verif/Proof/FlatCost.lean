import Verif.Proof.PdqCost
import Verif.Proof.Quick
import Verif.Proof.SortedCost
import Verif.Proof.MergeCost
/-
pdq_sorter and quick_sorter on ranges of equivalent elements.
-/
set_option autoImplicit false

namespace CppSort
variable {α : Type} {lt : α → α → Bool}

/-- All the elements are equivalent. -/
def FlatOn (lt : α → α → Bool) (f l : Nat) (v : Nat → α) : Prop :=
  ∀ i, f ≤ i → i < l → ∀ j, f ≤ j → j < l → lt (v i) (v j) = false

theorem FlatOn.upd {f l : Nat} {s s' : St α} {v v' : Nat → α} (h : FlatOn lt f l v) (u : Upd f l s s' v v') :
    FlatOn lt f l v' := by
  have h1 : ∀ i, f ≤ i → i < l → ∀ j, f ≤ j → j < l → lt (v' i) (v j) = false :=
    u.perm.forall (P := fun x => ∀ j, f ≤ j → j < l → lt x (v j) = false) h
  intro i a b
  exact u.perm.forall (P := fun y => lt (v' i) y = false) (h1 i a b)

theorem FlatOn.sub {f l f' l' : Nat} {v : Nat → α} (h : FlatOn lt f l v) (h1 : f ≤ f') (h2 : l' ≤ l) :
    FlatOn lt f' l' v := fun i a b j c d => h i (by omega) (by omega) j (by omega) (by omega)

theorem FlatOn.neigh {f l : Nat} {v : Nat → α} (h : FlatOn lt f l v) : Neigh lt f l v :=
  fun i a b => h (i + 1) (by omega) b i a (by omega)

theorem unguardedLoop_looks {f l : Nat} {v : Nat → α} {c : Nat → Cell α} (hh : Holds c f l v) (hn : Neigh lt f l v) :
    ∀ n cur, f < cur → cur ≤ l → l - cur = n → Looks c (unguardedLoop (tick lt) cur l) n () := by
  intro n
  induction n with
  | zero =>
    intro cur h1 h2 h3
    rw [unguardedLoop, if_neg (by omega)]
    exact Looks.pure _
  | succ n ih =>
    intro cur h1 h2 h3
    rw [unguardedLoop, if_pos (by omega)]
    refine looks_cmp (hh cur (by omega) (by omega)) (hh (cur - 1) (by omega) (by omega)) ?_
    have := hn (cur - 1) (by omega) (by omega)
    rw [show cur - 1 + 1 = cur by omega] at this
    rw [this, if_neg (by simp)]
    exact ih (cur + 1) (by omega) (by omega) (by omega)

theorem Looks.cost_le {m : M α Unit} {s : St α} {k n : Nat} (h : Looks s.cell m k ()) (hk : k ≤ n) :
    CppSort.wp m (fun _ s' => s'.cmps ≤ s.cmps + n) s := by
  obtain ⟨s', h1, -, h3⟩ := h s rfl
  exact ⟨(), s', h1, by omega⟩

theorem pdqEmpty {bl lm : Bool} {f : Nat} {bad : Int} : pdqsortLoop (tick lt) bl f f bad lm = pure () := by
  rw [pdqsortLoop, if_pos (by omega)]
  cases lm <;> simp [insertionSort, unguardedInsertionSort]

/-- A part that is not the leftmost one: the pivot is equivalent to the preceding element. -/
theorem pdqRight_flat (hlt : StrictWeak lt) (bl : Bool) {f l : Nat} {bad : Int} {s : St α} {v : Nat → α} (hf : 0 < f)
    (hfl : f ≤ l) (hh : Holds s.cell (f - 1) l v) (hv : FlatOn lt (f - 1) l v) :
    wp (pdqsortLoop (tick lt) bl f l bad false) (fun _ s' => s'.cmps ≤ s.cmps + ((l - f) + 14)) s := by
  rw [pdqsortLoop]
  split
  · unfold unguardedInsertionSort
    rw [if_neg (by simp)]
    split
    · exact wp_pure (by omega)
    · exact (unguardedLoop_looks hh hv.neigh _ (f + 1)
        (by omega) (by omega) rfl).cost_le (by omega)
  · apply wp_bind
    refine wp_mono ((pdqPivot_spec hlt (by omega) (hh.sub (by omega) (Nat.le_refl _))).cost pdqPivot_cost) ?_
    rintro _ s1 ⟨⟨v1, u1, -, -⟩, cp, hcp1, hcp2⟩
    have u1' := u1.widen hh (show f - 1 ≤ f by omega) (Nat.le_refl _)
    have hv1 := hv.upd u1'
    have hh1 := u1'.holds
    apply wp_bind
    unfold pdqEqualPivot
    rw [if_neg (by simp)]
    apply wp_bind
    refine wp_read' (hh1 (f - 1) (by omega) (by omega)) ?_
    wread hh1
    wtick
    rw [hv1 (f - 1) (by omega) (by omega) f (by omega) (by omega)]
    refine wp_pure ?_
    rw [if_pos (by rfl)]
    apply wp_bind
    refine wp_mono (partitionLeft_spec (lt := lt) (g := f + 1) (hh1.sub (by omega) (Nat.le_refl _)) (by omega) (by omega)
      (hv1 f (by omega) (by omega) (f + 1) (by omega) (by omega))) ?_
    rintro p s2 ⟨hc, v2, u2, pl⟩
    have u2' := u2.widen hh1 (show f - 1 ≤ f by omega) (Nat.le_refl _)
    have hv2 := hv1.upd u2'
    have c1 := pl.lo
    have c2 := pl.hi
    have e : p + 1 = l := by
      by_cases h : p + 1 < l
      · have h1 := pl.right (l - 1) (by omega) (by omega)
        rw [← pl.at_, hv2 p (by omega) (by omega) (l - 1) (by omega) (by omega)] at h1
        cases h1
      · omega
    rw [e, pdqEmpty]
    refine wp_pure ?_
    dsimp only at hc
    omega

theorem pdqsort_flat (hlt : StrictWeak lt) (bl : Bool) {f l : Nat} {s : St α} {v : Nat → α}
    (hfl : f ≤ l) (hh : Holds s.cell f l v) (hv : FlatOn lt f l v) :
    wp (pdqsort (tick lt) bl f l) (fun _ s' => s'.cmps ≤ s.cmps + (2 * (l - f) + 26)) s := by
  unfold pdqsort
  split
  · exact wp_pure (by omega)
  rename_i h2
  rw [pdqsortLoop]
  split
  · rw [if_pos rfl]
    exact (insertionSort_looks hfl hh hv.neigh).cost_le (by omega)
  rename_i hbig
  apply wp_bind
  refine wp_mono ((pdqPivot_spec hlt (by omega) hh).cost pdqPivot_cost) ?_
  rintro _ s1 ⟨⟨v1, u1, -, -⟩, cp, hcp1, hcp2⟩
  have hv1 := hv.upd u1
  unfold pdqEqualPivot
  rw [if_pos rfl]
  apply wp_bind
  refine wp_pure ?_
  rw [if_neg (by simp)]
  apply wp_bind
  refine wp_mono (pdqPartition_spec (lt := lt) (g := f + 1) bl u1.holds (by omega) (by omega)
    (hv1 (f + 1) (by omega) (by omega) f (by omega) (by omega))) ?_
  rintro ⟨p, already⟩ s2 ⟨hc, v2, u2, pr⟩
  dsimp only at pr ⊢
  have hv2 := hv1.upd u2
  have c1 := pr.lo
  have c2 := pr.hi
  have e : p = f := by
    by_cases h : f < p
    · have h1 := pr.left f (Nat.le_refl _) h
      rw [← pr.at_, hv2 f (by omega) (by omega) p (by omega) (by omega)] at h1
      cases h1
    · omega
  subst e
  rw [if_pos (Or.inl (by omega))]
  have hlog : 4 ≤ Nat.log2 (l - p) := by rw [Nat.le_log2 (by omega)]; omega
  rw [if_neg (by omega)]
  apply wp_bind
  refine wp_mono ((pdqBreakLeft_mixes s2 v2
    (u2.holds.sub (Nat.le_refl p) (show p ≤ l by omega))).silent pdqBreakLeft_silent) ?_
  rintro _ s3 ⟨⟨-, v3, u3⟩, hb3⟩
  have w3 := u3.widen u2.holds (Nat.le_refl _) (show p ≤ l by omega)
  have hv3 := hv2.upd w3
  apply wp_bind
  refine wp_mono ((pdqBreakRight_mixes s3 v3
    (w3.holds.sub (show p ≤ p + 1 by omega) (Nat.le_refl _))).silent pdqBreakRight_silent) ?_
  rintro _ s4 ⟨⟨-, v4, u4⟩, hb4⟩
  have w4 := u4.widen w3.holds (show p ≤ p + 1 by omega) (Nat.le_refl _)
  have hv4 := hv3.upd w4
  apply wp_bind
  rw [pdqEmpty]
  refine wp_pure ?_
  refine wp_mono (pdqRight_flat hlt bl (by omega) (by omega) (by rw [Nat.add_sub_cancel]; exact w4.holds)
    (by rw [Nat.add_sub_cancel]; exact hv4)) fun _ s' h => ?_
  omega

/-! ### quick_sorter -/

variable {N : Nat}

/-- A predicate that makes one comparison. -/
def OneCmp (N : Nat) (pred : Nat → M α Bool) : Prop := ∀ p, Cost N (pred p) (fun _ c => c = 1)

theorem partSkip_cost {pred : Nat → M α Bool} (hp : OneCmp N pred) (l : Nat) : ∀ n f, l - f = n → f ≤ l →
    Cost N (partSkip pred f l) (fun r c => match r with
      | none => c = l - f
      | some m => f ≤ m ∧ m < l ∧ c = m - f + 1) := by
  intro n
  induction n with
  | zero =>
    intro f h1 h2
    rw [partSkip, if_pos (by omega)]
    exact Cost.pure (by show 0 = l - f; omega)
  | succ n ih =>
    intro f h1 h2
    rw [partSkip, if_neg (by omega)]
    refine (hp f).bind fun b c hc => Cost.ite (fun _ => ?_) fun _ => ?_
    · refine (ih (f + 1) (by omega) (by omega)).mono fun r c' h => ?_
      cases r <;> simp only at h ⊢ <;> omega
    · exact Cost.pure (by simp only; omega)

theorem partBack_cost {pred : Nat → M α Bool} (hp : OneCmp N pred) (f : Nat) : ∀ n l, l - f = n → f < l →
    Cost N (partBack pred f l) (fun r c => match r with
      | none => c = l - 1 - f
      | some m => f < m ∧ m < l ∧ c = l - m) := by
  intro n
  induction n with
  | zero => intros; omega
  | succ n ih =>
    intro l h1 h2
    rw [partBack]
    refine Cost.ite (fun _ => ?_) fun hne => ?_
    · exact Cost.pure (by simp only; omega)
    · refine (hp _).bind fun b c hc => Cost.ite (fun _ => ?_) fun _ => ?_
      · exact Cost.pure (by simp only; omega)
      · refine (ih (l - 1) (by omega) (by omega)).mono fun r c' h => ?_
        cases r <;> simp only at h ⊢ <;> omega

theorem partFwdLoop_cost {pred : Nat → M α Bool} (hp : OneCmp N pred) (l : Nat) : ∀ n p f, l - p = n → p < l → f ≤ p →
    Cost N (partFwdLoop pred f p l) (fun r c => r ≤ l ∧ c = l - 1 - p) := by
  intro n
  induction n with
  | zero => intros; omega
  | succ n ih =>
    intro p f h1 h2 h3
    rw [partFwdLoop]
    refine Cost.ite (fun _ => ?_) fun _ => ?_
    · refine (hp _).bind fun b c hc => Cost.ite (fun _ => ?_) fun _ => ?_
      · refine (silent_swap _ _).costBind fun _ => ?_
        exact (ih (p + 1) _ (by omega) (by omega) (by omega)).mono fun _ c' h => by omega
      · exact (ih (p + 1) _ (by omega) (by omega) (by omega)).mono fun _ c' h => by omega
    · exact Cost.pure (by omega)

theorem partitionFwd_cost {pred : Nat → M α Bool} (hp : OneCmp N pred) {f l : Nat} (h : f ≤ l) :
    Cost N (partitionFwd pred f l) (fun r c => r ≤ l ∧ c = l - f) := by
  unfold partitionFwd
  refine (partSkip_cost hp l _ f rfl h).bind fun r c hc => ?_
  cases r with
  | none => exact Cost.pure (by simp only at hc; omega)
  | some m =>
    simp only at hc
    exact (partFwdLoop_cost hp l _ m m rfl (by omega) (Nat.le_refl _)).mono fun _ c' h => by omega

theorem partitionBi_cost {pred : Nat → M α Bool} (hp : OneCmp N pred) : ∀ n f l, l - f < n → f ≤ l →
    Cost N (partitionBi pred f l) (fun r c => r ≤ l ∧ c = l - f) := by
  intro n
  induction n with
  | zero => intros; omega
  | succ n ih =>
    intro f l h1 h2
    rw [partitionBi]
    refine (partSkip_cost hp l _ f rfl h2).bind fun r c hc => ?_
    cases r with
    | none => exact Cost.pure (by simp only at hc; omega)
    | some m =>
      simp only at hc
      refine (partBack_cost hp m _ l rfl (by omega)).bind fun r c' hc' => ?_
      cases r with
      | none => exact Cost.pure (by simp only at hc'; omega)
      | some m' =>
        simp only at hc'
        refine (silent_swap _ _).costBind fun _ => ?_
        exact (ih (m + 1) m' (by omega) (by omega)).mono fun _ c' h => by omega

/-- partition.h evaluates the predicate once on every element. -/
theorem partition_cost {pred : Nat → M α Bool} (hp : OneCmp N pred) (cat : Cat) {f l : Nat} (h : f ≤ l) :
    Cost N (partition cat pred f l) (fun r c => r ≤ l ∧ c = l - f) := by
  unfold partition
  split
  · exact partitionFwd_cost hp h
  · exact partitionBi_cost hp (l - f + 1) f l (by omega) h

theorem pickPivotGood_cost {f l n : Nat} : Cost N (pickPivotGood (tick lt) f l n) (fun _ c => c = 12) := by
  unfold pickPivotGood
  refine iterSort3_cost.bind fun _ c1 h1 => iterSort3_cost.bind fun _ c2 h2 => iterSort3_cost.bind fun _ c3 h3 =>
    iterSort3_cost.bind fun _ c4 h4 => Cost.pure ?_
  omega

/-- One step of quicksort on equivalent elements: the outer parts are empty. -/
theorem threeWay_flat (hlt : StrictWeak lt) (cat : Cat) {f l m : Nat} {s : St α} {v : Nat → α}
    (hm : f ≤ m ∧ m < l) (hh : Holds s.cell f l v) (hv : FlatOn lt f l v) :
    wp (threeWay (tick lt) cat f l m (l - 1)) (fun r s' => r = (f, l) ∧ s'.cmps = s.cmps + 2 * (l - 1 - f)) s := by
  obtain ⟨⟨m1, m2⟩, s', hr, v', x, u, sp⟩ := threeWay_spec hlt cat hm hh
  have hv' := hv.upd u
  have lo := sp.lo
  have mid := sp.mid
  have hi := sp.hi
  simp only at lo mid hi
  have e1 : m1 = f := by
    by_cases h : f < m1
    · have h1 := sp.left f (Nat.le_refl _) h
      rw [hlt.le_trans (sp.eq1 m1 (Nat.le_refl _) mid) (hv' f (Nat.le_refl _) (by omega) m1 (by omega) (by omega))] at h1
      cases h1
    · omega
  have e2 : m2 = l := by
    by_cases h : m2 < l
    · have h1 := sp.right (l - 1) (by show m2 ≤ l - 1; omega) (by omega)
      rw [hlt.le_trans (hv' m1 (by omega) (by omega) (l - 1) (by omega) (by omega))
        (sp.eq2 m1 (Nat.le_refl _) mid)] at h1
      cases h1
    · omega
  subst e1
  subst e2
  have hc : Cost 0 (threeWay (tick lt) cat m1 m2 m (m2 - 1)) (fun r c => c = m2 - 1 - m1 + (m2 - (r.1 + 1))) := by
    unfold threeWay
    refine (silent_swap _ _).costBind fun _ => ?_
    refine (partition_cost (fun p => ?_) cat (by omega)).bind fun a c1 h1 => ?_
    · exact (silent_read _).costBind fun _ => (silent_read _).costBind fun _ => Cost.tick rfl
    refine (silent_swap _ _).costBind fun _ => ?_
    refine (partition_cost (fun p => ?_) cat (by omega)).bind fun b c2 h2 => ?_
    · exact (silent_read _).costBind fun _ => (silent_read _).costBind fun _ => Cost.tickBind fun _ => Cost.pure rfl
    refine Cost.pure ?_
    show c1 + (c2 + 0) = m2 - 1 - m1 + (m2 - (a + 1))
    omega
  obtain ⟨-, c, h1, h2⟩ := hc s _ s' (fun _ => Nat.zero_le _) hr
  exact ⟨_, s', hr, rfl, by simp only at h2; omega⟩

theorem quickFallback_flat (hlt : StrictWeak lt) (cat : Cat) {f l : Nat} {s : St α} {v : Nat → α} (hfl : f ≤ l)
    (hh : Holds s.cell f l v) (hv : FlatOn lt f l v) :
    wp (quicksortFallback (tick lt) cat f l (l - f)) (fun r s' => (r = true ∧ s'.cmps ≤ s.cmps + 5 * (l - f)) ∨
      (r = false ∧ s' = s ∧ 10 ≤ l - f)) s := by
  have hbi : wp (if l - f < 42 then do insertionSort (tick lt) f l; pure true else pure false)
      (fun r s' => (r = true ∧ s'.cmps ≤ s.cmps + 5 * (l - f)) ∨ (r = false ∧ s' = s ∧ 10 ≤ l - f)) s := by
    split
    · apply wp_bind
      refine wp_mono ((insertionSort_looks hfl hh hv.neigh).cost_le (Nat.sub_le (l - f) 1)) fun _ s' h => ?_
      exact wp_pure (Or.inl ⟨rfl, by omega⟩)
    · exact wp_pure (Or.inr ⟨rfl, rfl, by omega⟩)
  cases cat with
  | forward =>
    simp only [quicksortFallback]
    split
    · apply wp_bind
      have e : f + (l - f) = l := by omega
      have := bubbleSort_spec hlt (first := f) (size := l - f) (s := s) (v := v) (by rw [e]; exact hh)
      refine wp_mono (this.cost bubbleSort_cost) ?_
      rintro _ s' ⟨-, c, hc, hb⟩
      refine wp_pure (Or.inl ⟨rfl, ?_⟩)
      have : (l - f) * (l - f - 1) ≤ (l - f) * 10 := Nat.mul_le_mul_left _ (by omega)
      omega
    · exact wp_pure (Or.inr ⟨rfl, rfl, by omega⟩)
  | bidirectional => exact hbi
  | random => exact hbi

theorem quicksortLoop_empty (cat : Cat) {f : Nat} {bad : Int} {s : St α} :
    wp (quicksortLoop (tick lt) cat f f 0 bad) (fun _ s' => s' = s) s := by
  rw [quicksortLoop]
  refine wp_bind ?_
  have : quicksortFallback (tick lt) cat f f 0 = pure true := by
    cases cat <;> simp [quicksortFallback, insertionSort, bubbleSort]
  rw [this]
  exact wp_pure (wp_pure rfl)

theorem quicksort_flat (hlt : StrictWeak lt) (cat : Cat) {f l : Nat} {s : St α} {v : Nat → α}
    (hfl : f ≤ l) (hh : Holds s.cell f l v) (hv : FlatOn lt f l v) :
    wp (quicksort (tick lt) cat f l) (fun _ s' => s'.cmps ≤ s.cmps + 5 * (l - f)) s := by
  unfold quicksort
  rw [quicksortLoop]
  apply wp_bind
  refine wp_mono (quickFallback_flat hlt cat hfl hh hv) ?_
  rintro b s0 (⟨rfl, hc⟩ | ⟨rfl, rfl, hsz⟩)
  · exact wp_pure hc
  · simp only [Bool.false_eq_true, if_false]
    have hlog : 3 ≤ Nat.log2 (l - f) := by rw [Nat.le_log2 (by omega)]; omega
    rw [pickPivot, if_pos (by omega)]
    apply wp_bind
    refine wp_mono (((pickPivotGood_mixes (lt := lt) (by omega)) s0 v hh).cost pickPivotGood_cost) ?_
    rintro ⟨m, last1⟩ s1 ⟨⟨⟨hm, rfl⟩, v1, u1⟩, c1, hc1, rfl⟩
    apply wp_bind
    refine wp_mono (threeWay_flat hlt cat hm u1.holds (hv.upd u1)) ?_
    rintro ⟨_, _⟩ s2 ⟨h, hc2⟩
    cases h
    simp only
    rw [Nat.sub_self, Nat.sub_zero, Nat.sub_self, if_neg (by omega)]
    apply wp_bind
    refine wp_mono (quicksortLoop_empty cat) ?_
    rintro _ _ rfl
    refine wp_mono (quicksortLoop_empty cat) ?_
    rintro _ _ rfl
    omega

end CppSort
