import Verif.Proof.FixedSize
import Verif.Proof.Insertion
/-
`low_moves_sorter<N>` for every `N`.
-/
set_option autoImplicit false

namespace CppSort
variable {α : Type} {lt : α → α → Bool}

/-- `mn` is the first minimum and `mx` the last maximum among the positions `[f, b]`. -/
structure MinMax (lt : α → α → Bool) (f b mn mx : Nat) (v : Nat → α) : Prop where
  n1 : f ≤ mn
  n2 : mn ≤ b
  x1 : f ≤ mx
  x2 : mx ≤ b
  nle : ∀ i, f ≤ i → i ≤ b → lt (v i) (v mn) = false
  nfst : ∀ i, f ≤ i → i < mn → lt (v mn) (v i) = true
  xle : ∀ i, f ≤ i → i ≤ b → lt (v mx) (v i) = false
  xlst : ∀ i, mx < i → i ≤ b → lt (v i) (v mx) = true

theorem MinMax.init (hlt : StrictWeak lt) {f : Nat} {v : Nat → α} : MinMax lt f f f f v where
  n1 := le_rfl
  n2 := le_rfl
  x1 := le_rfl
  x2 := le_rfl
  nle i h1 h2 := by have : i = f := by omega
                    rw [this]; exact hlt.irrefl _
  nfst i h1 h2 := by omega
  xle i h1 h2 := by have : i = f := by omega
                    rw [this]; exact hlt.irrefl _
  xlst i h1 h2 := by omega

/-- Extend by one position on the minimum side and the maximum side. -/
theorem MinMax.step (hlt : StrictWeak lt) {f b mn mx : Nat} {v : Nat → α}
    (h : MinMax lt f b mn mx v) (mn' mx' : Nat)
    (hn : lt (v (b + 1)) (v mn) = true ∧ mn' = b + 1 ∨ lt (v (b + 1)) (v mn) = false ∧ mn' = mn)
    (hx : lt (v (b + 1)) (v mx) = false ∧ mx' = b + 1 ∨ lt (v (b + 1)) (v mx) = true ∧ mx' = mx) :
    MinMax lt f (b + 1) mn' mx' v := by
  obtain ⟨n1, n2, x1, x2, nle, nfst, xle, xlst⟩ := h
  have hn' : f ≤ mn' ∧ mn' ≤ b + 1 ∧ (∀ i, f ≤ i → i ≤ b + 1 → lt (v i) (v mn') = false) ∧
      (∀ i, f ≤ i → i < mn' → lt (v mn') (v i) = true) := by
    rcases hn with ⟨a, rfl⟩ | ⟨a, rfl⟩
    · refine ⟨by omega, by omega, fun i h1 h2 => ?_, fun i h1 h2 => ?_⟩
      · by_cases e : i = b + 1
        · rw [e]; exact hlt.irrefl _
        · exact hlt.le_of_lt (hlt.lt_of_lt_of_le a (nle i h1 (by omega)))
      · exact hlt.lt_of_lt_of_le a (nle i h1 (by omega))
    · refine ⟨by omega, by omega, fun i h1 h2 => ?_, fun i h1 h2 => nfst i h1 h2⟩
      by_cases e : i = b + 1
      · rw [e]; exact a
      · exact nle i h1 (by omega)
  have hx' : f ≤ mx' ∧ mx' ≤ b + 1 ∧ (∀ i, f ≤ i → i ≤ b + 1 → lt (v mx') (v i) = false) ∧
      (∀ i, mx' < i → i ≤ b + 1 → lt (v i) (v mx') = true) := by
    rcases hx with ⟨a, rfl⟩ | ⟨a, rfl⟩
    · refine ⟨by omega, by omega, fun i h1 h2 => ?_, fun i h1 h2 => by omega⟩
      by_cases e : i = b + 1
      · rw [e]; exact hlt.irrefl _
      · exact hlt.le_trans (xle i h1 (by omega)) a
    · refine ⟨by omega, by omega, fun i h1 h2 => ?_, fun i h1 h2 => ?_⟩
      · by_cases e : i = b + 1
        · rw [e]; exact hlt.asymm a
        · exact xle i h1 (by omega)
      · by_cases e : i = b + 1
        · rw [e]; exact a
        · exact xlst i h1 (by omega)
  exact ⟨hn'.1, hn'.2.1, hx'.1, hx'.2.1, hn'.2.2.1, hn'.2.2.2, hx'.2.2.1, hx'.2.2.2⟩

theorem MinMax.ne (hlt : StrictWeak lt) {f b mn mx : Nat} {v : Nat → α}
    (h : MinMax lt f b mn mx v) (hb : f < b) : mn ≠ mx := by
  intro e
  subst e
  by_cases hf : f < mn
  · have := h.nfst f le_rfl hf
    rw [h.xle f le_rfl (by omega)] at this; cases this
  · have hm : mn < b := by have := h.n1; omega
    have := h.xlst b hm le_rfl
    rw [h.nle b (by omega) le_rfl] at this; cases this

theorem minmaxLoop_spec (hlt : StrictWeak lt) {f l : Nat} {v : Nat → α} : ∀ (n b mn mx : Nat)
    {s : St α}, l - b = n → b < l → f ≤ b → Holds s.cell f l v → MinMax lt f b mn mx v →
    wp (minmaxLoop (tick lt) b l mn mx) (fun r s' => (∃ k, s' = {s with cmps := k}) ∧
      MinMax lt f (l - 1) r.1 r.2 v) s := by
  intro n
  induction n using Nat.strong_induction_on with
  | _ n ih =>
  intro b mn mx s hn hb hf hh hm
  rw [minmaxLoop]
  dsimp only
  have a1 := hm.n1
  have a2 := hm.n2
  have a3 := hm.x1
  have a4 := hm.x2
  split
  · rename_i e
    have : l - 1 = b := by omega
    rw [this]
    exact wp_pure ⟨⟨s.cmps, rfl⟩, hm⟩
  · split
    · rename_i h1 h2
      have e : l - 1 = b + 1 := by omega
      rw [e]
      wread hh
      wread hh
      wtick
      split
      · rename_i hl
        refine wp_pure ⟨⟨_, rfl⟩, hm.step hlt _ _ (.inl ⟨hl, rfl⟩) (.inr ⟨?_, rfl⟩)⟩
        exact hlt.lt_of_lt_of_le hl (hm.xle _ a1 a2)
      · rename_i hl
        have hl : lt (v (b + 1)) (v mn) = false := by simpa using hl
        wread hh
        wread hh
        wtick
        split
        · rename_i hl2
          exact wp_pure ⟨⟨_, rfl⟩, hm.step hlt _ _ (.inr ⟨hl, rfl⟩) (.inr ⟨hl2, rfl⟩)⟩
        · rename_i hl2
          exact wp_pure ⟨⟨_, rfl⟩,
            hm.step hlt _ _ (.inr ⟨hl, rfl⟩) (.inl ⟨by simpa using hl2, rfl⟩)⟩
    · rename_i h1 h2
      have hb2 : b + 1 + 1 < l := by omega
      wread hh
      wread hh
      wtick
      split
      · rename_i hl
        -- the second of the pair is smaller: minimum candidate b+2, maximum candidate b+1
        apply wp_bind
        wread hh
        wread hh
        wtick
        refine wp_mono (Q := fun r s' => (∃ k, s' = {s with cmps := k}) ∧
          (lt (v (b + 1 + 1)) (v mn) = true ∧ r = b + 1 + 1 ∨
           lt (v (b + 1 + 1)) (v mn) = false ∧ r = mn)) ?_ ?_
        · split
          · rename_i hl2; exact wp_pure ⟨⟨_, rfl⟩, .inl ⟨hl2, rfl⟩⟩
          · rename_i hl2; exact wp_pure ⟨⟨_, rfl⟩, .inr ⟨by simpa using hl2, rfl⟩⟩
        rintro mn' _ ⟨⟨k, rfl⟩, hn'⟩
        apply wp_bind
        wread hh
        wread hh
        wtick
        refine wp_mono (Q := fun r s' => (∃ k, s' = {s with cmps := k}) ∧
          (lt (v (b + 1)) (v mx) = false ∧ r = b + 1 ∨
           lt (v (b + 1)) (v mx) = true ∧ r = mx)) ?_ ?_
        · split
          · rename_i hl2; exact wp_pure ⟨⟨_, rfl⟩, .inr ⟨hl2, rfl⟩⟩
          · rename_i hl2; exact wp_pure ⟨⟨_, rfl⟩, .inl ⟨by simpa using hl2, rfl⟩⟩
        rintro mx' _ ⟨⟨k2, rfl⟩, hx'⟩
        have hm' : MinMax lt f (b + 1 + 1) mn' mx' v := by
          have hs1 : MinMax lt f (b + 1) (if lt (v (b + 1)) (v mn) then b + 1 else mn) mx' v := by
            refine hm.step hlt _ _ ?_ hx'
            split
            · rename_i h; exact .inl ⟨h, rfl⟩
            · rename_i h; exact .inr ⟨by simpa using h, rfl⟩
          refine hs1.step hlt _ _ ?_ (.inr ⟨?_, rfl⟩)
          · split
            · rename_i h
              rcases hn' with ⟨h3, h4⟩ | ⟨h3, h4⟩
              · exact .inl ⟨hl, h4⟩
              · have := hlt.trans _ _ _ hl h
                rw [h3] at this; cases this
            · exact hn'
          · exact hlt.lt_of_lt_of_le hl (hs1.xle (b + 1) (by omega) le_rfl)
        refine wp_mono (ih (l - (b + 1 + 1)) (by omega) _ _ _ rfl hb2 (by omega) hh hm') ?_
        rintro r _ ⟨⟨k3, rfl⟩, h⟩
        exact ⟨⟨k3, rfl⟩, h⟩
      · rename_i hl
        have hl : lt (v (b + 1 + 1)) (v (b + 1)) = false := by simpa using hl
        apply wp_bind
        wread hh
        wread hh
        wtick
        refine wp_mono (Q := fun r s' => (∃ k, s' = {s with cmps := k}) ∧
          (lt (v (b + 1)) (v mn) = true ∧ r = b + 1 ∨
           lt (v (b + 1)) (v mn) = false ∧ r = mn)) ?_ ?_
        · split
          · rename_i hl2; exact wp_pure ⟨⟨_, rfl⟩, .inl ⟨hl2, rfl⟩⟩
          · rename_i hl2; exact wp_pure ⟨⟨_, rfl⟩, .inr ⟨by simpa using hl2, rfl⟩⟩
        rintro mn' _ ⟨⟨k, rfl⟩, hn'⟩
        apply wp_bind
        wread hh
        wread hh
        wtick
        refine wp_mono (Q := fun r s' => (∃ k, s' = {s with cmps := k}) ∧
          (lt (v (b + 1 + 1)) (v mx) = false ∧ r = b + 1 + 1 ∨
           lt (v (b + 1 + 1)) (v mx) = true ∧ r = mx)) ?_ ?_
        · split
          · rename_i hl2; exact wp_pure ⟨⟨_, rfl⟩, .inr ⟨hl2, rfl⟩⟩
          · rename_i hl2; exact wp_pure ⟨⟨_, rfl⟩, .inl ⟨by simpa using hl2, rfl⟩⟩
        rintro mx' _ ⟨⟨k2, rfl⟩, hx'⟩
        have hm' : MinMax lt f (b + 1 + 1) mn' mx' v := by
          have hs1 : MinMax lt f (b + 1) mn' (if lt (v (b + 1)) (v mx) then mx else b + 1) v := by
            refine hm.step hlt _ _ hn' ?_
            split
            · rename_i h; exact .inr ⟨h, rfl⟩
            · rename_i h; exact .inl ⟨by simpa using h, rfl⟩
          refine hs1.step hlt _ _ (.inr ⟨?_, rfl⟩) ?_
          · exact hlt.le_trans (hs1.nle (b + 1) (by omega) le_rfl) hl
          · split
            · exact hx'
            · rename_i h
              have h : lt (v (b + 1)) (v mx) = false := by simpa using h
              rcases hx' with ⟨h3, h4⟩ | ⟨h3, h4⟩
              · exact .inl ⟨hl, h4⟩
              · have := hlt.lt_of_le_of_lt hl h3
                rw [h] at this; cases this
        refine wp_mono (ih (l - (b + 1 + 1)) (by omega) _ _ _ rfl hb2 (by omega) hh hm') ?_
        rintro r _ ⟨⟨k3, rfl⟩, h⟩
        exact ⟨⟨k3, rfl⟩, h⟩

theorem swapUnlessSame_spec {f l a b : Nat} {s : St α} {v : Nat → α} (hh : Holds s.cell f l v)
    (ha : f ≤ a ∧ a < l) (hb : f ≤ b ∧ b < l) :
    wp (swapUnlessSame a b) (fun _ s' => Upd f l s s' v (swp v a b)) s := by
  unfold swapUnlessSame
  split
  · exact wp_swap hh ha hb fun s' hu => hu
  · rename_i h
    have : a = b := by simpa using h
    subst this
    have e : swp v a a = v := by
      funext k
      by_cases hk : k = a
      · rw [swp_l hk, hk]
      · rw [swp_o hk hk]
    rw [e]
    exact wp_pure (Upd.refl hh)

theorem lowMovesPlace_spec (hlt : StrictWeak lt) {f l mn mx : Nat} {s : St α} {v : Nat → α}
    (hfl : f + 1 < l) (hh : Holds s.cell f l v) (hm : MinMax lt f (l - 1) mn mx v) :
    wp (lowMovesPlace f (l - 1) mn mx) (fun r s' => r = true ∧ ∃ v', Upd f l s s' v v' ∧
      v' f = v mn ∧ v' (l - 1) = v mx) s := by
  have a1 := hm.n1
  have a2 := hm.n2
  have a3 := hm.x1
  have a4 := hm.x2
  have ne := hm.ne hlt (by omega)
  unfold lowMovesPlace
  split
  · rename_i h
    apply wp_bind
    refine wp_swap hh ⟨a1, by omega⟩ ⟨a3, by omega⟩ fun s' hu => ?_
    refine wp_pure ⟨rfl, _, hu, ?_, ?_⟩
    · rw [swp_r (by omega)]
    · rw [swp_l (by omega)]
  · split
    · rename_i h1 h2
      apply wp_bind
      refine wp_mono (swapUnlessSame_spec hh (a := l - 1) (b := mx) ⟨by omega, by omega⟩
        ⟨a3, by omega⟩) fun _ s1 hu1 => ?_
      apply wp_bind
      refine wp_mono (swapUnlessSame_spec hu1.holds (a := f) (b := mn) ⟨by omega, by omega⟩
        ⟨a1, by omega⟩) fun _ s2 hu2 => ?_
      refine wp_pure ⟨rfl, _, hu1.trans hu2, ?_, ?_⟩
      · rw [swp_l rfl, swp_o (by omega) (by omega)]
      · rw [swp_o (by omega) (by omega), swp_l rfl]
    · rename_i h1 h2
      apply wp_bind
      refine wp_mono (swapUnlessSame_spec hh (a := f) (b := mn) ⟨by omega, by omega⟩
        ⟨a1, by omega⟩) fun _ s1 hu1 => ?_
      apply wp_bind
      refine wp_mono (swapUnlessSame_spec hu1.holds (a := l - 1) (b := mx) ⟨by omega, by omega⟩
        ⟨a3, by omega⟩) fun _ s2 hu2 => ?_
      refine wp_pure ⟨rfl, _, hu1.trans hu2, ?_, ?_⟩
      · rw [swp_o (by omega) (by omega), swp_l rfl]
      · rw [swp_l rfl, swp_o (by omega) (by omega)]

theorem lowMovesSort_spec (hlt : StrictWeak lt) : ∀ (n f : Nat) {s : St α} {v : Nat → α},
    Holds s.cell f (f + n) v →
    wp (lowMovesSort (tick lt) n f (f + n)) (fun _ s' => ∃ v', Upd f (f + n) s s' v v' ∧
      SortedOn lt f (f + n) v') s := by
  have three : ∀ (f : Nat) {s : St α} {v : Nat → α}, Holds s.cell f (f + 3) v →
      wp (do let _ ← sortN3.exec (tick lt) f; pure ()) (fun _ s' => ∃ v',
        Upd f (f + 3) s s' v v' ∧ SortedOn lt f (f + 3) v') s := by
    intro f s v hh
    apply wp_bind
    refine wp_mono (DP.check_spec hlt check3 hh) ?_
    rintro _ s1 ⟨v', hu, hs, _⟩
    exact wp_pure ⟨v', hu, hs⟩
  intro n
  induction n using Nat.strong_induction_on with
  | _ n ih =>
  intro f s v hh
  match n, ih, hh with
  | 0, _, hh => exact wp_pure ⟨v, Upd.refl hh, SortedOn.trivial (by omega)⟩
  | 1, _, hh => exact wp_pure ⟨v, Upd.refl hh, SortedOn.trivial (by omega)⟩
  | 2, _, hh =>
    rw [lowMovesSort]
    refine wp_mono (iterSwapIf_ce hlt hh ⟨by omega, by omega⟩ ⟨by omega, by omega⟩) ?_
    rintro _ s1 ⟨hu, -, -⟩
    refine ⟨_, hu, SortedOn.of_adjacent hlt fun i h1 h2 => ?_⟩
    have : i = f := by omega
    subst this
    unfold ce
    split
    · rename_i h
      rw [swp_r rfl, swp_l rfl]
      exact hlt.asymm h
    · rename_i h; simpa using h
  | 3, _, hh => exact three f hh
  | 4, _, hh =>
    rw [lowMovesSort, if_neg (by omega)]
    apply wp_bind
    refine wp_mono (minElementLoop_spec hlt f (f + 4) 3 (f + 1) f s v (by omega) le_rfl (by omega) hh
      (fun i h1 h2 => by have : i = f := by omega
                         rw [this]; exact hlt.irrefl _) (fun i h1 h2 => by omega)) ?_
    rintro mn _ ⟨rfl, h1, h2, h3, -⟩
    have fin : ∀ {s1 : St α} {v1 : Nat → α}, Upd f (f + 4) s s1 v v1 → v1 f = v mn →
        wp (do let _ ← sortN3.exec (tick lt) (f + 1); pure ()) (fun _ s' => ∃ v',
        Upd f (f + 4) s s' v v' ∧ SortedOn lt f (f + 4) v') s1 := by
      intro s1 v1 hu1 e1
      refine wp_mono (three (f + 1) (hu1.holds.sub (by omega) (by omega))) ?_
      rintro _ s2 ⟨v2, hu2, hs2⟩
      have hu2w := hu2.widen hu1.holds (f := f) (l := f + 4) (by omega) (by omega)
      refine ⟨v2, hu1.trans hu2w, ?_⟩
      have b1 : ∀ i, f ≤ i → i < f + 4 → lt (v1 i) (v1 f) = false := by
        refine hu1.perm.forall (P := fun y => lt y (v1 f) = false) fun i h4 h5 => ?_
        rw [e1]; exact h3 i h4 (by omega)
      have c1 : ∀ i, f + 1 ≤ i → i < f + 1 + 3 → lt (v2 i) (v1 f) = false :=
        hu2.perm.forall (P := fun y => lt y (v1 f) = false)
          fun i h1 h2 => b1 i (by omega) (by omega)
      have o1 : v2 f = v1 f := hu2.perm.out (by omega)
      refine SortedOn.of_adjacent hlt fun i h1 h2 => ?_
      by_cases hi : i = f
      · subst hi; rw [o1]; exact c1 _ (by omega) (by omega)
      · exact hs2 i (i + 1) (by omega) (by omega) (by omega)
    have u0 : Upd f (f + 4) s {s with cmps := s.cmps + 3} v v := (Upd.refl hh).tickr
    show wp (if mn ≠ f then _ else _) _ _
    split
    · apply wp_bind
      refine wp_swap (s := {s with cmps := s.cmps + 3}) hh ⟨h1, h2⟩ ⟨le_rfl, by omega⟩ fun s1 hu1 => ?_
      exact fin (u0.trans hu1) (by rw [swp_r rfl])
    · rename_i hc
      have : mn = f := by simpa using hc
      exact fin u0 (by rw [this])
  | n + 5, ih, hh =>
    rw [lowMovesSort]
    apply wp_bind
    refine wp_mono (minmaxLoop_spec hlt _ f f f rfl (by omega) le_rfl hh (MinMax.init hlt)) ?_
    rintro ⟨mn, mx⟩ _ ⟨⟨k, rfl⟩, hm⟩
    apply wp_bind
    refine wp_mono (lowMovesPlace_spec hlt (by omega) (s := {s with cmps := k}) hh hm) ?_
    rintro r s1 ⟨rfl, v1, hu1, e1, e2⟩
    rw [if_pos rfl]
    have el : f + (n + 5) - 1 = f + 1 + (n + 3) := by omega
    rw [el] at hm e2 ⊢
    refine wp_mono (ih (n + 3) (by omega) (f + 1) (hu1.holds.sub (by omega) (by omega))) ?_
    rintro _ s2 ⟨v2, hu2, hs2⟩
    have hu2w := hu2.widen hu1.holds (f := f) (l := f + (n + 5)) (by omega) (by omega)
    refine ⟨v2, hu1.tick.trans hu2w, ?_⟩
    have el' : f + (n + 5) = f + 1 + (n + 3) + 1 := by omega
    have b1 : ∀ i, f ≤ i → i < f + (n + 5) → lt (v1 i) (v1 f) = false := by
      refine hu1.perm.forall (P := fun y => lt y (v1 f) = false) fun i h1 h2 => ?_
      rw [e1]; exact hm.nle i h1 (by omega)
    have b2 : ∀ i, f ≤ i → i < f + (n + 5) → lt (v1 (f + 1 + (n + 3))) (v1 i) = false := by
      refine hu1.perm.forall (P := fun y => lt (v1 (f + 1 + (n + 3))) y = false) fun i h1 h2 => ?_
      rw [e2]; exact hm.xle i h1 (by omega)
    have c1 : ∀ i, f + 1 ≤ i → i < f + 1 + (n + 3) → lt (v2 i) (v1 f) = false :=
      hu2.perm.forall (P := fun y => lt y (v1 f) = false) fun i h1 h2 => b1 i (by omega) (by omega)
    have c2 : ∀ i, f + 1 ≤ i → i < f + 1 + (n + 3) → lt (v1 (f + 1 + (n + 3))) (v2 i) = false :=
      hu2.perm.forall (P := fun y => lt (v1 (f + 1 + (n + 3))) y = false)
        fun i h1 h2 => b2 i (by omega) (by omega)
    have o1 : v2 f = v1 f := hu2.perm.out (by omega)
    have o2 : v2 (f + 1 + (n + 3)) = v1 (f + 1 + (n + 3)) := hu2.perm.out (by omega)
    refine SortedOn.of_adjacent hlt fun i h1 h2 => ?_
    by_cases hi : i = f
    · subst hi; rw [o1]; exact c1 _ (by omega) (by omega)
    · by_cases hj : i + 1 = f + 1 + (n + 3)
      · rw [hj, o2]; exact c2 i (by omega) (by omega)
      · exact hs2 i (i + 1) (by omega) (by omega) (by omega)

end CppSort
