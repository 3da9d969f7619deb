import Verif.Proof.Select
set_option autoImplicit false

namespace CppSort
variable {α : Type} {lt : α → α → Bool}

/-- `swap_ranges` where the second range comes first. -/
theorem swapRanges_spec_before {f l : Nat} : ∀ (n f1 l1 f2 : Nat) (s : St α) (v : Nat → α),
    l1 = f1 + n → f ≤ f2 → f2 + n ≤ f1 → l1 ≤ l → Holds s.cell f l v →
    wp (swapRanges f1 l1 f2) (fun _ s' => ∃ v', Upd f l s s' v v' ∧
      (∀ i, i < n → v' (f2 + i) = v (f1 + i)) ∧
      (∀ i, i < f2 ∨ (f2 + n ≤ i ∧ i < f1) ∨ l1 ≤ i → v' i = v i)) s := by
  intro n
  induction n with
  | zero =>
    intro f1 l1 f2 s v hn h1 h2 h3 hh
    rw [swapRanges, if_neg (by omega)]
    apply wp_pure
    exact ⟨v, Upd.refl hh, fun i hi => by omega, fun _ _ => rfl⟩
  | succ n ih =>
    intro f1 l1 f2 s v hn h1 h2 h3 hh
    rw [swapRanges, if_pos (by omega)]
    apply wp_bind
    refine wp_swap (v := v) (f := f) (l := l) hh (by omega) (by omega) ?_
    intro s1 u1
    refine wp_mono (ih (f1 + 1) l1 (f2 + 1) s1 _ (by omega) (by omega) (by omega) (by omega)
      u1.holds) ?_
    rintro r s2 ⟨v', u2, a2, a3⟩
    refine ⟨v', u1.trans u2, fun i hi => ?_, fun i hi => ?_⟩
    · by_cases h0 : i = 0
      · subst h0
        rw [a3 _ (by omega), swp_r (by omega)]; rfl
      · have := a2 (i - 1) (by omega)
        rw [show f2 + 1 + (i - 1) = f2 + i by omega, show f1 + 1 + (i - 1) = f1 + i by omega] at this
        rw [this, swp_o (by omega) (by omega)]
    · rw [a3 i (by omega), swp_o (by omega) (by omega)]

theorem ihMerge2_spec {F L : Nat} : ∀ (n first1 last1 first2 last2 result : Nat) (s : St α)
    (v : Nat → α), last1 - first1 + (last2 - first2) = n → first1 ≤ last1 → first2 ≤ last2 →
    F ≤ result → result + (last1 - first1) = first2 → last2 ≤ first1 → last1 ≤ L →
    Holds s.cell F L v →
    wp (ihMerge2 (tick lt) first1 last1 first2 last2 result) (fun _ s' => ∃ v', Upd F L s s' v v' ∧
      lst v' result last2 = mergeL lt (lst v first1 last1) (lst v first2 last2) ∧
      ∀ i, i < result ∨ (last2 ≤ i ∧ i < first1) ∨ last1 ≤ i → v' i = v i) s := by
  intro n
  induction n with
  | zero =>
    intro first1 last1 first2 last2 result s v hn h1 h2 h3 h4 h5 h6 hh
    rw [ihMerge2, if_neg (by omega)]
    refine wp_pure ⟨v, Upd.refl hh, ?_, fun _ _ => rfl⟩
    rw [lst_nil (show last1 ≤ first1 by omega), mergeL_nil_left, show result = first2 by omega]
  | succ n ih =>
    intro first1 last1 first2 last2 result s v hn h1 h2 h3 h4 h5 h6 hh
    rw [ihMerge2]
    split
    · split
      · apply wp_bind
        refine wp_mono (swapRanges_spec_before (last1 - first1) first1 last1 result s v (by omega) h3
          (by omega) h6 hh) ?_
        rintro _ s1 ⟨v1, u1, a, b⟩
        refine wp_pure ⟨v1, u1, ?_, fun i hi => b i (by omega)⟩
        rw [lst_nil (show last2 ≤ first2 by omega), mergeL_nil_right]
        apply List.ext_getElem
        · simp; omega
        · intro i p q
          simp only [lst_length] at p q
          rw [lst_getElem, lst_getElem, a i (by omega)]
      · wread hh
        wread hh
        wtick
        split
        · rename_i hc
          apply wp_bind
          refine wp_swap (v := v) (f := F) (l := L) hh (by omega) (by omega) ?_
          intro s1 u1
          refine wp_mono (ih first1 last1 (first2 + 1) last2 (result + 1) s1 _ (by omega) h1
            (by omega) (by omega) (by omega) h5 h6 u1.holds) ?_
          rintro _ s2 ⟨v2, u2, a, b⟩
          refine ⟨v2, u1.tick.trans u2, ?_, fun i hi => ?_⟩
          · rw [lst_cons (show result < last2 by omega), a, b _ (by omega), swp_l rfl,
              lst_cons (show first1 < last1 by omega),
              lst_cons (v := v) (show first1 < last1 by omega),
              lst_cons (show first2 < last2 by omega), mergeL_cons, if_pos hc,
              swp_o (by omega) (by omega)]
            congr 2
            · congr 1
              exact lst_congr fun i p q => swp_o (by omega) (by omega)
            · exact lst_congr fun i p q => swp_o (by omega) (by omega)
          · rw [b i (by omega), swp_o (by omega) (by omega)]
        · rename_i hc
          apply wp_bind
          refine wp_swap (v := v) (f := F) (l := L) hh (by omega) (by omega) ?_
          intro s1 u1
          refine wp_mono (ih (first1 + 1) last1 first2 last2 (result + 1) s1 _ (by omega) (by omega)
            (by omega) (by omega) (by omega) (by omega) h6 u1.holds) ?_
          rintro _ s2 ⟨v2, u2, a, b⟩
          refine ⟨v2, u1.tick.trans u2, ?_, fun i hi => ?_⟩
          · rw [lst_cons (show result < last2 by omega), a, b _ (by omega), swp_l rfl,
              lst_cons (v := v) (show first1 < last1 by omega),
              lst_cons (v := v) (show first2 < last2 by omega), mergeL_cons, if_neg hc,
              ← lst_cons (show first2 < last2 by omega)]
            congr 2
            · exact lst_congr fun i p q => swp_o (by omega) (by omega)
            · exact lst_congr fun i p q => swp_o (by omega) (by omega)
          · rw [b i (by omega), swp_o (by omega) (by omega)]
    · refine wp_pure ⟨v, Upd.refl hh, ?_, fun _ _ => rfl⟩
      rw [lst_nil (show last1 ≤ first1 by omega), mergeL_nil_left, show result = first2 by omega]

theorem internalHalf_spec {F L : Nat} : ∀ (n first1 last1 first2 last2 result : Nat) (s : St α)
    (v : Nat → α), first1 + n ≤ last1 → first2 + n ≤ last2 →
    F ≤ result → result + (last1 - first1) = first2 → last2 ≤ first1 → last1 ≤ L →
    Holds s.cell F L v →
    wp (internalHalfInplaceMerge (tick lt) first1 last1 first2 last2 result n) (fun _ s' => ∃ v',
      Upd F L s s' v v' ∧
      lst v' result last2 = mergeL lt (lst v first1 last1) (lst v first2 last2) ∧
      ∀ i, i < result ∨ (last2 ≤ i ∧ i < first1) ∨ last1 ≤ i → v' i = v i) s := by
  intro n
  induction n with
  | zero =>
    intro first1 last1 first2 last2 result s v h1 h2 h3 h4 h5 h6 hh
    unfold internalHalfInplaceMerge ihMerge1
    simp only [pure_bind]
    exact ihMerge2_spec _ first1 last1 first2 last2 result s v rfl (by omega) (by omega) h3 h4 h5 h6
      hh
  | succ n ih =>
    intro first1 last1 first2 last2 result s v h1 h2 h3 h4 h5 h6 hh
    unfold internalHalfInplaceMerge ihMerge1
    simp only [bind_assoc]
    unfold internalHalfInplaceMerge at ih
    wread hh
    wread hh
    wtick
    rw [← ite_bind]
    split
    · rename_i hc
      simp only [bind_assoc]
      apply wp_bind
      refine wp_swap (v := v) (f := F) (l := L) hh (by omega) (by omega) ?_
      intro s1 u1
      refine wp_mono (ih first1 last1 (first2 + 1) last2 (result + 1) s1 _ (by omega)
        (by omega) (by omega) (by omega) h5 h6 u1.holds) ?_
      rintro _ s2 ⟨v2, u2, a, b⟩
      refine ⟨v2, u1.tick.trans u2, ?_, fun i hi => ?_⟩
      · rw [lst_cons (show result < last2 by omega), a, b _ (by omega), swp_l rfl,
          lst_cons (show first1 < last1 by omega),
          lst_cons (v := v) (show first1 < last1 by omega),
          lst_cons (show first2 < last2 by omega), mergeL_cons, if_pos hc,
          swp_o (by omega) (by omega)]
        congr 2
        · congr 1
          exact lst_congr fun i p q => swp_o (by omega) (by omega)
        · exact lst_congr fun i p q => swp_o (by omega) (by omega)
      · rw [b i (by omega), swp_o (by omega) (by omega)]
    · rename_i hc
      simp only [bind_assoc]
      apply wp_bind
      refine wp_swap (v := v) (f := F) (l := L) hh (by omega) (by omega) ?_
      intro s1 u1
      refine wp_mono (ih (first1 + 1) last1 first2 last2 (result + 1) s1 _ (by omega) (by omega)
        (by omega) (by omega) (by omega) h6 u1.holds) ?_
      rintro _ s2 ⟨v2, u2, a, b⟩
      refine ⟨v2, u1.tick.trans u2, ?_, fun i hi => ?_⟩
      · rw [lst_cons (show result < last2 by omega), a, b _ (by omega), swp_l rfl,
          lst_cons (v := v) (show first1 < last1 by omega),
          lst_cons (v := v) (show first2 < last2 by omega), mergeL_cons, if_neg hc,
          ← lst_cons (show first2 < last2 by omega)]
        congr 2
        · exact lst_congr fun i p q => swp_o (by omega) (by omega)
        · exact lst_congr fun i p q => swp_o (by omega) (by omega)
      · rw [b i (by omega), swp_o (by omega) (by omega)]

/-- What the internal mergesort does to the range `[f, l)` and the buffer `[b, b + k)`. -/
structure IMPost (lt : α → α → Bool) (F L f l b k : Nat) (s s' : St α) (v v' : Nat → α) :
    Prop where
  upd : Upd F L s s' v v'
  perm : (lst v' f l).Perm (lst v f l)
  out : ∀ i, i < f ∨ (l ≤ i ∧ i < b) ∨ b + k ≤ i → v' i = v i

theorem internalBuffered_spec (hlt : StrictWeak lt) {F L f m l b : Nat} {s : St α} {v : Nat → α}
    (h0 : F ≤ f) (h1 : f ≤ m) (h2 : m ≤ l) (h3 : l ≤ b) (h4 : b + (m - f) ≤ L) (h5 : m - f ≤ l - m)
    (hh : Holds s.cell F L v) (hs1 : SortedOn lt f m v) (hs2 : SortedOn lt m l v) :
    wp (internalBufferedInplaceMerge (tick lt) f m l (m - f) b) (fun _ s' => ∃ v',
      IMPost lt F L f l b (m - f) s s' v v' ∧ SortedOn lt f l v') s := by
  unfold internalBufferedInplaceMerge
  apply wp_bind
  refine wp_mono (swapRanges_spec (m - f) f m b s v (by omega) h0 (by omega) h4 hh) ?_
  rintro _ s1 ⟨rfl, v1, u1, a1, a2, a3, -, -⟩
  refine wp_mono (internalHalf_spec (lt := lt) (F := F) (L := L) (m - f) b (b + (m - f)) m l f s1 v1
    (by omega) (by omega) h0 (by omega) h3 h4 u1.holds) ?_
  rintro _ s2 ⟨v2, u2, b1, b2⟩
  have e1 : lst v1 b (b + (m - f)) = lst v f m := by
    apply List.ext_getElem
    · simp
    · intro i p q
      simp only [lst_length] at p q
      rw [lst_getElem, lst_getElem, a2 i (by omega)]
  have e2 : lst v1 m l = lst v m l := lst_congr fun i p q => a3 i (by omega)
  rw [e1, e2] at b1
  have hss := mergeL_ssorted hlt _ _ (sortedOn_iff.1 hs1) (sortedOn_iff.1 hs2)
  refine ⟨v2, ⟨u1.trans u2, ?_, fun i hi => ?_⟩, ?_⟩
  · rw [b1, lst_append h1 h2]; exact hss.1
  · rw [b2 i (by omega), a3 i (by omega)]
  · rw [sortedOn_iff, b1]; exact hss.2.1

theorem imShrink_spec {f middle l : Nat} {v : Nat → α} : ∀ (n first : Nat) (s : St α),
    middle = first + n → f ≤ first → middle < l → Holds s.cell f l v →
    wp (imShrink (tick lt) middle first n) (fun r s' => (∃ k, s' = { s with cmps := k }) ∧
      first ≤ r.1 ∧ r.1 ≤ middle ∧ r.2 = middle - r.1 ∧
      (∀ i, first ≤ i → i < r.1 → lt (v middle) (v i) = false)) s := by
  intro n
  induction n with
  | zero =>
    intro first s h1 h2 h3 hh
    rw [imShrink, if_neg (by omega)]
    exact wp_pure ⟨⟨_, rfl⟩, Nat.le_refl _, by show first ≤ middle; omega,
      by show 0 = middle - first; omega,
      fun i a b => by have : i < first := b; omega⟩
  | succ n ih =>
    intro first s h1 h2 h3 hh
    rw [imShrink, if_pos (by omega)]
    wread hh
    wread hh
    wtick
    split
    · exact wp_pure ⟨⟨_, rfl⟩, Nat.le_refl _, by show first ≤ middle; omega,
        by show n + 1 = middle - first; omega,
        fun i a b => by have : i < first := b; omega⟩
    · rename_i hc
      refine wp_mono (ih (first + 1) { s with cmps := s.cmps + 1 } (by omega) (by omega) h3 hh) ?_
      rintro r s2 ⟨⟨k, rfl⟩, a, b, c, d⟩
      refine ⟨⟨k, rfl⟩, by omega, b, c, fun i p q => ?_⟩
      by_cases e : i = first
      · subst e; simpa using hc
      · exact d i (by omega) q

theorem internalMergesort_spec (hlt : StrictWeak lt) (cat : Cat) {F L b K : Nat} :
    ∀ (n f l : Nat) (s : St α) (v : Nat → α), l = f + n → F ≤ f → l ≤ b → b + K ≤ L →
    n / 2 ≤ K → Holds s.cell F L v →
    wp (internalMergesort (tick lt) cat f l n b) (fun _ s' => ∃ v',
      IMPost lt F L f l b K s s' v v' ∧ SortedOn lt f l v') s := by
  intro n
  induction n using Nat.strongRecOn with
  | _ n ih =>
    intro f l s v hn h1 h2 h3 h4 hh
    rw [internalMergesort]
    split
    · refine wp_mono (smallSort_spec hlt cat (by omega) (hh.sub h1 (by omega) : Holds s.cell f l v)) ?_
      rintro _ s' ⟨v', u, hs⟩
      exact ⟨v', ⟨u.widen hh h1 (by omega), u.perm.2, fun i hi => u.perm.out (by omega)⟩, hs⟩
    · apply wp_bind
      refine wp_mono (ih (n / 2) (by omega) f (f + n / 2) s v rfl h1 (by omega) h3 (by omega) hh) ?_
      rintro _ s1 ⟨v1, p1, hs1⟩
      apply wp_bind
      refine wp_mono (ih (n - n / 2) (by omega) (f + n / 2) l s1 v1 (by omega) (by omega) h2 h3
        (by omega) p1.upd.holds) ?_
      rintro _ s2 ⟨v2, p2, hs2⟩
      have hsame : ∀ i, f ≤ i → i < f + n / 2 → v2 i = v1 i := fun i a b => p2.out i (by omega)
      have hs1' : SortedOn lt f (f + n / 2) v2 := hs1.congr fun i a b => (hsame i a b).symm
      apply wp_bind
      refine wp_mono (imShrink_spec (lt := lt) (n / 2) f s2 rfl h1 (show f + n / 2 < L by omega)
        p2.upd.holds) ?_
      rintro ⟨f', k⟩ _ ⟨⟨c, rfl⟩, a1, a2, a3, a4⟩
      simp only at a1 a2 a3 a4 ⊢
      have q12 : IMPost lt F L f l b K s s2 v v2 := by
        refine ⟨p1.upd.trans p2.upd, ?_, fun i hi => ?_⟩
        · rw [lst_append (show f ≤ f + n / 2 by omega) (show f + n / 2 ≤ l by omega),
            lst_append (v := v) (show f ≤ f + n / 2 by omega) (show f + n / 2 ≤ l by omega)]
          refine List.Perm.append ?_ ?_
          · rw [lst_congr hsame]; exact p1.perm
          · refine p2.perm.trans ?_
            rw [lst_congr fun i a b => p1.out i (by omega)]
        · rw [p2.out i (by omega), p1.out i (by omega)]
      have q12' : IMPost lt F L f l b K s { s2 with cmps := c } v v2 :=
        ⟨q12.upd.tickr, q12.perm, q12.out⟩
      split
      · rename_i e
        refine wp_pure ⟨v2, q12', ?_⟩
        refine skip_sorted hlt a1 a2 (by omega) hs1' hs2 a4 (PermOn.refl _ _ _) ?_
        rw [e]; exact hs2
      · rw [a3]
        refine wp_mono (internalBuffered_spec hlt (F := F) (L := L) (by omega) a2 (by omega) h2
          (by omega) (by omega) q12'.upd.holds (hs1'.sub a1 (Nat.le_refl _)) hs2) ?_
        rintro _ s3 ⟨v3, p3, hs3⟩
        have ho : ∀ i, f ≤ i → i < f' → v3 i = v2 i := fun i a b => p3.out i (by omega)
        refine ⟨v3, ⟨q12'.upd.trans p3.upd, ?_, fun i hi => ?_⟩, ?_⟩
        · refine List.Perm.trans ?_ q12'.perm
          rw [lst_append a1 (show f' ≤ l by omega), lst_append (v := v2) a1 (show f' ≤ l by omega),
            lst_congr ho]
          exact p3.perm.append_left _
        · rw [p3.out i (by omega), q12.out i (by omega)]
        · let w : Nat → α := fun i => if i < f' ∨ l ≤ i then v2 i else v3 i
          have hw : PermOn f' l v2 w := by
            refine ⟨fun i hi => if_pos hi, ?_⟩
            rw [lst_congr (w := v3) fun i a b => if_neg (by omega)]
            exact p3.perm
          have hws : SortedOn lt f' l w := hs3.congr fun i a b => (if_neg (by omega)).symm
          refine (skip_sorted hlt a1 a2 (by omega) hs1' hs2 a4 hw hws).congr fun i a b => ?_
          show (if _ then _ else _) = _
          split
          · exact (ho i a (by omega)).symm
          · rfl

theorem quickMergeSortLoop_spec (hlt : StrictWeak lt) (cat : Cat) : ∀ (n f l : Nat) (s : St α)
    (v : Nat → α), l = f + n → Holds s.cell f l v →
    wp (quickMergeSortLoop (tick lt) cat f l n) (fun _ s' => ∃ v', Upd f l s s' v v' ∧
      SortedOn lt f l v') s := by
  intro n
  induction n using Nat.strongRecOn with
  | _ n ih =>
    intro f l s v hn hh
    rw [quickMergeSortLoop]
    split
    · apply wp_bind
      have hln : l - f = n := by omega
      have := nthElement_spec hlt cat (f := f) (l := l) (nth := 2 * (n / 3) - 2) (s := s) (v := v)
        (by omega) hh
      rw [hln] at this
      refine wp_mono this ?_
      rintro r s1 ⟨rfl, v1, u1, hcut⟩
      generalize hk : 2 * (n / 3) - 2 = k at *
      apply wp_bind
      refine wp_mono (internalMergesort_spec hlt cat (F := f) (L := l) (b := f + k) (K := n / 3 - 1)
        k f (f + k) s1 v1 rfl (Nat.le_refl _) (Nat.le_refl _) (by omega) (by omega) u1.holds) ?_
      rintro _ s2 ⟨v2, p2, hs2⟩
      have hR : PermOn (f + k) l v1 (fun i => if i < f + k ∨ l ≤ i then v1 i else v2 i) := by
        refine ⟨fun i hi => if_pos hi, ?_⟩
        rw [lst_congr (w := v2) fun i a b => if_neg (by omega)]
        have hp := p2.upd.perm.2
        rw [lst_append (show f ≤ f + k by omega) (show f + k ≤ l by omega),
          lst_append (v := v1) (show f ≤ f + k by omega) (show f + k ≤ l by omega)] at hp
        exact (List.perm_append_left_iff _).1 (hp.trans (p2.perm.symm.append_right _))
      have hL : PermOn f (f + k) v1 (fun i => if i < f ∨ f + k ≤ i then v1 i else v2 i) := by
        refine ⟨fun i hi => if_pos hi, ?_⟩
        rw [lst_congr (w := v2) fun i a b => if_neg (by omega)]
        exact p2.perm
      have hcut2 : CutAt lt f (f + k) l v2 := by
        intro i j a b c d
        obtain ⟨j', c', d', e'⟩ := hR.mem c d
        obtain ⟨i', a', b', g'⟩ := hL.mem a b
        rw [if_neg (by omega)] at e' g'
        rw [e', g']
        exact hcut i' j' a' b' c' d'
      have key : ∀ g, g = f + k → wp (quickMergeSortLoop (tick lt) cat g l (n - k))
          (fun _ s' => ∃ v', Upd f l s s' v v' ∧ SortedOn lt f l v') s2 := by
        rintro _ rfl
        refine wp_mono (ih (n - k) (by omega) (f + k) l s2 v2 (by omega)
          (p2.upd.holds.sub (by omega) (Nat.le_refl _))) ?_
        rintro _ s3 ⟨v3, u3, hs3⟩
        refine ⟨v3, (u1.trans p2.upd).trans (u3.widen p2.upd.holds (by omega) (Nat.le_refl _)), ?_⟩
        exact sorted_join hlt (show f ≤ f + k by omega) (by omega) (PermOn.refl _ _ _) hs2 u3.perm hs3
          (fun i j a b c d => hcut2 i j a b c d)
      exact key _ (by cases cat <;> rfl)
    · exact smallSort_spec hlt cat (by omega) hh

end CppSort
