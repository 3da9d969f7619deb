import Verif.Base.Order
import Verif.Model.Insertion
import Mathlib.Tactic.Ring
set_option autoImplicit false

namespace CppSort
variable {α : Type} {lt : α → α → Bool}

theorem insertionShift_spec (hlt : StrictWeak lt) (first l : Nat) (tmp : α) :
    ∀ (n sift : Nat) (s : St α) (v : Nat → α), sift = first + n → first < sift → sift < l →
    HoldsX s.cell first l sift v → v sift = tmp → lt tmp (v (sift - 1)) = true →
    wp (insertionShift (tick lt) first tmp sift) (fun r s' => ∃ v',
      first ≤ r ∧ r < sift ∧
      HoldsX s'.cell first l r v' ∧ v' r = tmp ∧ SPermOn lt first l v v' ∧ Frame first l s s' ∧
      (∀ i, first ≤ i → i < r → v' i = v i) ∧ (∀ i, r < i → i ≤ sift → v' i = v (i - 1)) ∧
      (∀ i, sift < i → v' i = v i) ∧
      (first < r → lt tmp (v (r - 1)) = false) ∧ lt tmp (v r) = true ∧
      s'.cmps ≤ s.cmps + (sift - 1 - first) ∧ s'.movs = s.movs + (sift - r)) s := by
  intro n
  induction n with
  | zero => intros; omega
  | succ n ih =>
    intro sift s v hs hf hl hx ht hlt1
    rw [insertionShift]
    apply wp_bind
    refine wp_moveTo hx (i := sift - 1) (by omega) (by omega) (by omega) ?_
    intro s1 hx1 fr1 hc1 hm1
    have hsw : SPermOn lt first l v (swp v sift (sift - 1)) := by
      have e : swp v sift (sift - 1) = swp v (sift - 1) (sift - 1 + 1) := by
        funext k; unfold swp; grind
      rw [e]
      apply SPermOn.swp hlt (by omega) (by omega)
      rw [show sift - 1 + 1 = sift by omega, ht]; exact hlt1
    simp only []
    split
    · apply wp_bind
      refine wp_readX hx1 (by omega) (by omega) (by omega) ?_
      apply wp_bind
      apply wp_tick
      split
      · rename_i hc
        refine wp_mono (ih (sift - 1) _ _ (by omega) (by omega) (by omega) hx1 ?_ hc) ?_
        · sw; exact ht
        · rintro r s' ⟨v', h1, h2, h3, h4, h5, h6, h7, h8, h9, h10, h11, h12, h13⟩
          simp only at h12 h13
          refine ⟨v', h1, by omega, h3, h4, hsw.trans h5, fr1.trans h6.tick, ?_, ?_, ?_, ?_, ?_,
            by omega, by omega⟩
          · intro i a b; rw [h7 i a b]; sw
          · intro i a b
            by_cases hi : i ≤ sift - 1
            · rw [h8 i a hi]; sw
            · rw [h9 i (by omega), swp_l (by omega), show i = sift by omega]
          · intro i a; rw [h9 i (by omega)]; sw
          · intro a; have := h10 a; sw at this; exact this
          · sw at h11; exact h11
      · rename_i hc
        apply wp_pure
        refine ⟨_, by omega, by omega, hx1, ?_, hsw, ⟨fr1.cell, fr1.brk⟩, ?_, ?_, ?_, ?_, hlt1, ?_, ?_⟩
        · sw; exact ht
        · intro i a b; sw
        · intro i a b; rw [swp_l (by omega), show i = sift by omega]
        · intro i a; sw
        · intro _; sw at hc; simpa using hc
        · show s1.cmps + 1 ≤ _; omega
        · show s1.movs = _; omega
    · apply wp_pure
      refine ⟨_, by omega, by omega, hx1, ?_, hsw, fr1, ?_, ?_, ?_, ?_, hlt1, ?_, ?_⟩
      · sw; exact ht
      · intro i a b; omega
      · intro i a b; rw [swp_l (by omega), show i = sift by omega]
      · intro i a; sw
      · intro _; omega
      · omega
      · omega

theorem insertOne_spec (hlt : StrictWeak lt) {first cur : Nat} {s : St α} {v : Nat → α}
    (h1 : first < cur) (hh : Holds s.cell first (cur + 1) v) (hs : SortedOn lt first cur v) :
    wp (insertOne (tick lt) first cur) (fun _ s' => ∃ v',
      SUpd lt first (cur + 1) s s' v v' ∧ SortedOn lt first (cur + 1) v' ∧
      s'.cmps ≤ s.cmps + (cur - first) ∧ s'.movs ≤ s.movs + (cur - first) + 2) s := by
  unfold insertOne
  apply wp_bind
  refine wp_read hh (by omega) (by omega) ?_
  apply wp_bind
  refine wp_read hh (by omega) (by omega) ?_
  apply wp_bind
  apply wp_tick
  split
  · rename_i hc
    apply wp_bind
    refine wp_moveOut (s := { s with cmps := s.cmps + 1 }) hh (by omega) (by omega) ?_
    intro s1 hx1 fr1 c1 m1
    apply wp_bind
    refine wp_mono (insertionShift_spec hlt first (cur + 1) (v cur) (cur - first) cur s1 v (by omega)
      h1 (by omega) hx1 rfl hc) ?_
    rintro r s2 ⟨v', a1, a2, a3, a4, a5, a6, a7, a8, a9, a10, a11, a12, a13⟩
    refine wp_assign a3 a4.symm ?_
    intro s3 hh3 fr3 c3 m3
    simp only at c1 m1
    refine ⟨v', ⟨hh3, a5, (fr1.tick.trans a6).trans fr3⟩, ?_, by omega, by omega⟩
    apply SortedOn.of_adjacent hlt
    intro i b1 b2
    by_cases hi : i + 1 < r
    · rw [a7 i b1 (by omega), a7 (i + 1) (by omega) hi]
      exact hs i (i + 1) b1 (by omega) (by omega)
    · by_cases hi2 : i + 1 = r
      · rw [hi2, a4, a7 i b1 (by omega)]
        have := a10 (by omega)
        rwa [show r - 1 = i by omega] at this
      · by_cases hi3 : i = r
        · subst hi3
          rw [a4, a8 (i + 1) (by omega) (by omega)]
          exact hlt.asymm a11
        · rw [a8 (i + 1) (by omega) (by omega), a8 i (by omega) (by omega)]
          exact hs (i - 1) (i + 1 - 1) (by omega) (by omega) (by omega)
  · rename_i hc
    apply wp_pure
    refine ⟨v, ⟨hh, SPermOn.refl _ _ _, ⟨fun _ _ => rfl, EnvLe.of_env rfl⟩⟩, ?_, ?_, ?_⟩
    · exact hs.snoc hlt fun _ => by simpa using hc
    · show s.cmps + 1 ≤ _; omega
    · show s.movs ≤ _; omega

theorem insertionLoop_spec (hlt : StrictWeak lt) (first last : Nat) :
    ∀ (n cur : Nat) (s : St α) (v : Nat → α), cur + n = last → first < cur →
    Holds s.cell first last v → SortedOn lt first cur v →
    wp (insertionLoop (tick lt) first last cur) (fun _ s' => ∃ v',
      SUpd lt first last s s' v v' ∧ SortedOn lt first last v' ∧
      2 * s'.cmps + (cur - first) * (cur - first - 1) ≤
        2 * s.cmps + (last - first) * (last - first - 1) ∧
      2 * s'.movs + (cur - first) * (cur - first + 3) ≤
        2 * s.movs + (last - first) * (last - first + 3)) s := by
  intro n
  induction n with
  | zero =>
    intro cur s v h1 h2 hh hs
    rw [insertionLoop, if_neg (by omega)]
    obtain rfl : last = cur := by omega
    exact wp_pure ⟨v, SUpd.refl hh, hs, Nat.le_refl _, Nat.le_refl _⟩
  | succ n ih =>
    intro cur s v h1 h2 hh hs
    rw [insertionLoop, if_pos (by omega)]
    apply wp_bind
    refine wp_mono (insertOne_spec hlt h2 (hh.sub (Nat.le_refl _) (by omega)) hs) ?_
    rintro _ s1 ⟨v1, u1, so1, c1, m1⟩
    have u1' := u1.widen hh (Nat.le_refl _) (by omega)
    refine wp_mono (ih (cur + 1) s1 v1 (by omega) (by omega) u1'.holds so1) ?_
    rintro _ s2 ⟨v2, u2, so2, c2, m2⟩
    refine ⟨v2, u1'.trans u2, so2, ?_, ?_⟩
    · obtain ⟨d, rfl⟩ : ∃ d, cur = first + d := ⟨cur - first, by omega⟩
      obtain ⟨d, rfl⟩ : ∃ e, d = e + 1 := ⟨d - 1, by omega⟩
      have e1 : first + (d + 1) + 1 - first = d + 2 := by omega
      have e2 : first + (d + 1) - first = d + 1 := by omega
      rw [e1] at c2
      rw [e2] at c1 ⊢
      have e3 : (d + 2) * (d + 2 - 1) = (d + 1) * (d + 1 - 1) + 2 * (d + 1) := by
        simp only [show d + 2 - 1 = d + 1 by omega, show d + 1 - 1 = d by omega]; ring
      omega
    · obtain ⟨d, rfl⟩ : ∃ d, cur = first + d := ⟨cur - first, by omega⟩
      have e1 : first + d + 1 - first = d + 1 := by omega
      have e2 : first + d - first = d := by omega
      rw [e1] at m2
      rw [e2] at m1 ⊢
      have e3 : (d + 1) * (d + 1 + 3) = d * (d + 3) + 2 * (d + 2) := by ring
      omega

theorem insertionSort_spec (hlt : StrictWeak lt) {first last : Nat} {s : St α} {v : Nat → α}
    (h : first ≤ last) (hh : Holds s.cell first last v) :
    wp (insertionSort (tick lt) first last) (fun _ s' => ∃ v',
      SUpd lt first last s s' v v' ∧ SortedOn lt first last v' ∧
      2 * s'.cmps ≤ 2 * s.cmps + (last - first) * (last - first - 1) ∧
      2 * s'.movs ≤ 2 * s.movs + (last - first) * (last - first + 3)) s := by
  unfold insertionSort
  split
  · exact wp_pure ⟨v, SUpd.refl hh, SortedOn.trivial (by omega), by omega, by omega⟩
  · refine wp_mono (insertionLoop_spec hlt first last (last - first - 1) (first + 1) s v (by omega)
      (by omega) hh (SortedOn.trivial (by omega))) ?_
    rintro _ s' ⟨v', a, b, c, d⟩
    exact ⟨v', a, b, by omega, by omega⟩

/-! ### selection_sort -/

theorem minElementLoop_spec (hlt : StrictWeak lt) (f last : Nat) :
    ∀ (n first min : Nat) (s : St α) (v : Nat → α), first + n = last → f ≤ min → min < first →
    Holds s.cell f last v →
    (∀ i, f ≤ i → i < first → lt (v i) (v min) = false) →
    (∀ i, f ≤ i → i < min → lt (v min) (v i) = true) →
    wp (minElementLoop (tick lt) first last min) (fun r s' => s' = { s with cmps := s.cmps + n } ∧ f ≤ r ∧ r < last ∧
      (∀ i, f ≤ i → i < last → lt (v i) (v r) = false) ∧
      (∀ i, f ≤ i → i < r → lt (v r) (v i) = true)) s := by
  intro n
  induction n with
  | zero =>
    intro first min s v h1 h2 h3 hh hm hm2
    rw [minElementLoop, if_neg (by omega)]
    obtain rfl : last = first := by omega
    exact wp_pure ⟨rfl, h2, h3, hm, hm2⟩
  | succ n ih =>
    intro first min s v h1 h2 h3 hh hm hm2
    rw [minElementLoop, if_pos (by omega)]
    apply wp_bind
    refine wp_read hh (by omega) (by omega) ?_
    apply wp_bind
    refine wp_read hh (by omega) (by omega) ?_
    apply wp_bind
    apply wp_tick
    split
    · rename_i hc
      refine wp_mono (ih (first + 1) first _ v (by omega) (by omega) (by omega) hh ?_ ?_) ?_
      · intro i a b
        by_cases hi : i = first
        · subst hi; exact hlt.irrefl _
        · exact hlt.le_trans (hlt.asymm hc) (hm i a (by omega))
      · intro i a b
        exact hlt.lt_of_lt_of_le hc (hm i a b)
      · rintro r s' ⟨rfl, a5⟩
        refine ⟨?_, a5⟩
        simp only [Nat.add_assoc, Nat.add_comm 1 n]
    · rename_i hc
      refine wp_mono (ih (first + 1) min _ v (by omega) (by omega) (by omega) hh ?_ hm2) ?_
      · intro i a b
        by_cases hi : i = first
        · subst hi; simpa using hc
        · exact hm i a (by omega)
      · rintro r s' ⟨rfl, a5⟩
        refine ⟨?_, a5⟩
        simp only [Nat.add_assoc, Nat.add_comm 1 n]

theorem uncheckedMinElement_spec (hlt : StrictWeak lt) {first last : Nat} {s : St α} {v : Nat → α}
    (h : first < last) (hh : Holds s.cell first last v) :
    wp (uncheckedMinElement (tick lt) first last) (fun r s' =>
      s' = { s with cmps := s.cmps + (last - first - 1) } ∧ first ≤ r ∧ r < last ∧
      (∀ i, first ≤ i → i < last → lt (v i) (v r) = false) ∧
      (∀ i, first ≤ i → i < r → lt (v r) (v i) = true)) s := by
  refine minElementLoop_spec hlt first last (last - first - 1) (first + 1) first s v (by omega)
    (by omega) (by omega) hh ?_ ?_
  · intro i a b
    rw [show i = first by omega]; exact hlt.irrefl _
  · intro i a b; omega

theorem selectionSortLoop_spec (hlt : StrictWeak lt) (first last : Nat) :
    ∀ (n it : Nat) (s : St α) (v : Nat → α), it + n = last → first ≤ it →
    Holds s.cell first last v → SortedOn lt first it v →
    (∀ i j, first ≤ i → i < it → it ≤ j → j < last → lt (v j) (v i) = false) →
    wp (selectionSortLoop (tick lt) last it) (fun _ s' => ∃ v',
      Upd first last s s' v v' ∧ SortedOn lt first last v' ∧
      2 * s'.cmps = 2 * s.cmps + n * (n - 1) ∧ s'.movs = s.movs + 3 * n) s := by
  intro n
  induction n with
  | zero =>
    intro it s v h1 h2 hh hs hle
    rw [selectionSortLoop, if_neg (by omega)]
    obtain rfl : last = it := by omega
    exact wp_pure ⟨v, Upd.refl hh, hs, by omega, by omega⟩
  | succ n ih =>
    intro it s v h1 h2 hh hs hle
    rw [selectionSortLoop, if_pos (by omega)]
    apply wp_bind
    refine wp_mono (uncheckedMinElement_spec hlt (by omega) (hh.sub h2 (Nat.le_refl _))) ?_
    rintro r _ ⟨rfl, a5, a6, a7, -⟩
    apply wp_bind
    refine wp_swap_c (v := v) (f := first) (l := last) hh (by omega) (by omega) ?_
    intro s2 u2 c2 m2
    refine wp_mono (ih (it + 1) s2 _ (by omega) (by omega) u2.holds ?_ ?_) ?_
    · intro i j b1 b2 b3
      by_cases hj : j = it
      · subst hj
        rw [swp_l rfl, swp_o (by omega) (by omega)]
        exact hle i r b1 b2 a5 a6
      · rw [swp_o (by omega) (by omega), swp_o (by omega) (by omega)]
        exact hs i j b1 b2 (by omega)
    · intro i j b1 b2 b3 b4
      by_cases hi : i = it
      · subst hi
        rw [swp_l rfl]
        by_cases hj : j = r
        · rw [swp_r hj]; exact a7 _ (by omega) (by omega)
        · rw [swp_o (by omega) hj]; exact a7 _ (by omega) (by omega)
      · rw [swp_o (k := i) (by omega) (by omega)]
        by_cases hj : j = r
        · rw [swp_r hj]; exact hle _ _ b1 (by omega) (by omega) (by omega)
        · rw [swp_o (by omega) hj]; exact hle _ _ b1 (by omega) (by omega) (by omega)
    · rintro _ s3 ⟨v3, u3, so3, c3, m3⟩
      simp only at c2 m2
      refine ⟨v3, u2.tick.trans u3, so3, ?_, by omega⟩
      · have : (n + 1) * (n + 1 - 1) = n * (n - 1) + 2 * n := by
          cases n with
          | zero => rfl
          | succ n => simp only [Nat.add_sub_cancel]; ring
        rw [this]; omega


end CppSort
