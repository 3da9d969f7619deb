import Verif.Model.Poplar
import Verif.Proof.Insertion
set_option autoImplicit false

namespace CppSort
variable {α : Type} {lt : α → α → Bool}

/-- The number of elements of a perfect poplar of the given height, `2 ^ k - 1`. -/
def psz : Nat → Nat
  | 0 => 0
  | k + 1 => 2 * psz k + 1

theorem psz_eq (k : Nat) : psz k = 2 ^ k - 1 := by
  induction k with
  | zero => rfl
  | succ k ih =>
    have := Nat.two_pow_pos k
    rw [psz, ih, Nat.pow_succ]; omega

/-- The values at `[a, a + psz k)` are a poplar: two poplars followed by a root that is not below any of them. -/
def Pop (lt : α → α → Bool) (v : Nat → α) : Nat → Nat → Prop
  | 0, _ => True
  | k + 1, a => Pop lt v k a ∧ Pop lt v k (a + psz k) ∧
      ∀ i, a ≤ i → i < a + 2 * psz k → lt (v (a + 2 * psz k)) (v i) = false

theorem Pop.congr {v w : Nat → α} : ∀ {k a : Nat}, Pop lt v k a → (∀ i, a ≤ i → i < a + psz k → v i = w i) →
    Pop lt w k a := by
  intro k
  induction k with
  | zero => intros; trivial
  | succ k ih =>
    intro a h e
    obtain ⟨h1, h2, h3⟩ := h
    simp only [psz] at e
    refine ⟨ih h1 fun i a b => e i (by omega) (by omega), ih h2 fun i a b => e i (by omega) (by omega), ?_⟩
    intro i a b
    rw [← e i (by omega) (by omega), ← e _ (by omega) (by omega)]
    exact h3 i a b

theorem Pop.root_max (hlt : StrictWeak lt) {v : Nat → α} {k a : Nat} (h : Pop lt v k a) (i : Nat) (h1 : a ≤ i)
    (h2 : i < a + psz k) : lt (v (a + psz k - 1)) (v i) = false := by
  cases k with
  | zero => simp only [psz] at h2; omega
  | succ k =>
    simp only [psz] at h2 ⊢
    rw [show a + (2 * psz k + 1) - 1 = a + 2 * psz k by omega]
    by_cases hi : i = a + 2 * psz k
    · subst hi; exact hlt.irrefl _
    · exact h.2.2 i h1 (by omega)

theorem SortedOn.pop (hlt : StrictWeak lt) {v : Nat → α} : ∀ {k a : Nat}, SortedOn lt a (a + psz k) v →
    Pop lt v k a := by
  intro k
  induction k with
  | zero => intros; trivial
  | succ k ih =>
    intro a h
    simp only [psz] at h
    exact ⟨ih (h.sub (by omega) (by omega)), ih (h.sub (by omega) (by omega)),
      fun i h1 h2 => h.le hlt h1 (by omega) (by omega)⟩

/-- Changing the root of a poplar for something that is not below any of the others. -/
theorem Pop.reroot {v w : Nat → α} {k a : Nat} (h : Pop lt v (k + 1) a)
    (e : ∀ i, a ≤ i → i < a + 2 * psz k → v i = w i)
    (hm : ∀ i, a ≤ i → i < a + 2 * psz k → lt (w (a + 2 * psz k)) (v i) = false) : Pop lt w (k + 1) a := by
  refine ⟨h.1.congr fun i a b => e i (by omega) (by omega), h.2.1.congr fun i a b => e i (by omega) (by omega), ?_⟩
  intro i a b
  rw [← e i a b]
  exact hm i a b

theorem psz_pos {k : Nat} (h : 0 < k) : 0 < psz k := by
  cases k with
  | zero => omega
  | succ k => simp only [psz]; omega

theorem poplarSiftLoop_spec (hlt : StrictWeak lt) (value : α) (f l : Nat) : ∀ (k a mr : Nat) (s : St α) (v : Nat → α),
    f ≤ a → a + psz (k + 2) ≤ l →
    HoldsX s.cell f l (a + 2 * psz (k + 1)) v → v (a + 2 * psz (k + 1)) = value →
    Pop lt v (k + 1) a → Pop lt v (k + 1) (a + psz (k + 1)) →
    (mr = a + psz (k + 1) - 1 ∨ mr = a + 2 * psz (k + 1) - 1) →
    lt value (v mr) = true →
    lt (v mr) (v (a + psz (k + 1) - 1)) = false → lt (v mr) (v (a + 2 * psz (k + 1) - 1)) = false →
    wp (poplarSiftLoop (tick lt) value (a + 2 * psz (k + 1)) mr (psz (k + 2))) (fun r s' => ∃ v',
      HoldsX s'.cell f l r v' ∧ v' r = value ∧ Frame f l s s' ∧ PermOn a (a + psz (k + 2)) v v' ∧
      Pop lt v' (k + 2) a) s := by
  intro k
  induction k with
  | zero =>
    intro a mr s v hf hl hx hv hp1 hp2 hmr hlv hm1 hm2
    simp only [psz, Nat.zero_add] at *
    rw [poplarSiftLoop]
    apply wp_bind
    refine wp_moveTo hx (i := mr) (by omega) (by omega) (by omega) ?_
    intro s1 hx1 fr1 c1 m1
    simp only []
    rw [if_pos (by omega)]
    refine wp_pure ⟨_, hx1, by rw [swp_r rfl]; exact hv, fr1, PermOn.swp (by omega) (by omega), ?_⟩
    refine ⟨⟨trivial, trivial, fun i h1 h2 => absurd h1 (by have h2 : i < a + 0 := h2; omega)⟩,
      ⟨trivial, trivial, fun i h1 h2 => absurd (show a + 1 ≤ i from h1) (by have h2 : i < a + 1 + 0 := h2; omega)⟩,
      fun i h1 h2 => ?_⟩
    simp only [Nat.zero_add, psz] at h2 ⊢
    rw [swp_l (by omega)]
    by_cases hi : i = mr
    · subst hi
      rw [swp_r rfl, hv]
      exact hlt.asymm hlv
    · rw [swp_o (by omega) (by omega)]
      rcases (show i = a ∨ i = a + 1 by omega) with rfl | rfl
      · simpa using hm1
      · simpa using hm2
  | succ k ih =>
    intro a mr s v hf hl hx hv hp1 hp2 hmr hlv hm1 hm2
    rw [poplarSiftLoop]
    have e1 : psz (k + 1 + 1) = 2 * psz (k + 1) + 1 := rfl
    have e2 : psz (k + 1 + 2) = 2 * psz (k + 1 + 1) + 1 := rfl
    have e0 : psz (k + 2) = psz (k + 1 + 1) := rfl
    have hq : 0 < psz (k + 1) := psz_pos (by omega)
    have hmax : ∀ i, a ≤ i → i < a + 2 * psz (k + 1 + 1) → lt (v mr) (v i) = false := by
      intro i h1 h2
      by_cases hi : i < a + psz (k + 1 + 1)
      · exact hlt.le_trans (hp1.root_max hlt i h1 hi) hm1
      · have := hp2.root_max hlt i (by omega) (by omega)
        rw [show a + psz (k + 1 + 1) + psz (k + 1 + 1) - 1 = a + 2 * psz (k + 1 + 1) - 1 by omega] at this
        exact hlt.le_trans this hm2
    apply wp_bind
    refine wp_moveTo hx (i := mr) (by omega) (by omega) (by omega) ?_
    intro s1 hx1 fr1 c1 m1
    simp only []
    rw [if_neg (by omega), show psz (k + 1 + 2) / 2 = psz (k + 1 + 1) by omega]
    obtain ⟨v1, hv1⟩ : ∃ v1, v1 = swp v (a + 2 * psz (k + 1 + 1)) mr := ⟨_, rfl⟩
    rw [← hv1] at hx1
    have hp : PermOn a (a + psz (k + 1 + 2)) v v1 := by rw [hv1]; exact PermOn.swp (by omega) (by omega)
    have hvm : v1 mr = value := by rw [hv1, swp_r rfl]; exact hv
    have hvr : v1 (a + 2 * psz (k + 1 + 1)) = v mr := by rw [hv1, swp_l rfl]
    have hvo : ∀ i, i ≠ mr → i ≠ a + 2 * psz (k + 1 + 1) → v1 i = v i := fun i h1 h2 => by
      rw [hv1, swp_o (by omega) (by omega)]
    have hmax1 : ∀ i, a ≤ i → i < a + 2 * psz (k + 1 + 1) → lt (v mr) (v1 i) = false := by
      intro i h1 h2
      by_cases hi : i = mr
      · rw [hi, hvm]; exact hlt.asymm hlv
      · rw [hvo i hi (by omega)]; exact hmax i h1 h2
    -- the child that has the hole
    obtain ⟨a', ha', hmr'⟩ : ∃ a', (a' = a ∨ a' = a + psz (k + 1 + 1)) ∧ mr = a' + 2 * psz (k + 1) := by
      rcases hmr with h | h
      · exact ⟨a, Or.inl rfl, by omega⟩
      · exact ⟨_, Or.inr rfl, by omega⟩
    have hc : Pop lt v (k + 1 + 1) a' := by
      rcases ha' with rfl | rfl
      · exact hp1
      · exact hp2
    have hc1 : Pop lt v1 (k + 1) a' := hc.1.congr fun i h1 h2 => (hvo i (by omega) (by omega)).symm
    have hc2 : Pop lt v1 (k + 1) (a' + psz (k + 1)) :=
      hc.2.1.congr fun i h1 h2 => (hvo i (by omega) (by omega)).symm
    -- gluing back
    have glue : ∀ v', PermOn a' (a' + psz (k + 1 + 1)) v1 v' → Pop lt v' (k + 1 + 1) a' →
        PermOn a (a + psz (k + 1 + 2)) v v' ∧ Pop lt v' (k + 1 + 2) a := by
      intro v' hp' hpop
      refine ⟨hp.trans (hp'.mono (by omega) (by omega)), ?_, ?_, ?_⟩
      · rcases ha' with rfl | rfl
        · exact hpop
        · exact hp1.congr fun i h1 h2 => by rw [hp'.out (by omega), hvo i (by omega) (by omega)]
      · rcases ha' with rfl | rfl
        · exact hp2.congr fun i h1 h2 => by rw [hp'.out (by omega), hvo i (by omega) (by omega)]
        · exact hpop
      · intro i h1 h2
        rw [hp'.out (i := a + 2 * psz (k + 1 + 1)) (by omega), hvr]
        exact (hp'.mono (f := a) (l := a + 2 * psz (k + 1 + 1)) (by omega) (by omega)).forall
          (P := fun x => lt (v mr) x = false) hmax1 i h1 h2
    rw [show mr - (psz (k + 1 + 1) - psz (k + 1 + 1) / 2) = a' + psz (k + 1) - 1 by omega,
      show mr - 1 = a' + 2 * psz (k + 1) - 1 by omega]
    apply wp_bind
    refine wp_mono (Q := fun mc s' => (mc = a' + psz (k + 1) - 1 ∨ mc = a' + 2 * psz (k + 1) - 1) ∧
        lt (v1 mc) (v1 (a' + psz (k + 1) - 1)) = false ∧ lt (v1 mc) (v1 (a' + 2 * psz (k + 1) - 1)) = false ∧
        s' = { s1 with cmps := s1.cmps + 1 }) ?_ ?_
    · wreadX hx1
      wreadX hx1
      wtick
      split
      · rename_i h
        exact wp_pure ⟨Or.inr rfl, hlt.asymm h, hlt.irrefl _, rfl⟩
      · rename_i h
        exact wp_pure ⟨Or.inl rfl, hlt.irrefl _, by simpa using h, rfl⟩
    · rintro mc s2 ⟨hmc, hmc1, hmc2, rfl⟩
      wreadX hx1
      wtick
      split
      · rename_i hlt'
        subst hmr'
        refine wp_mono (ih a' mc { s1 with cmps := s1.cmps + 1 + 1 } v1 (by omega) (by omega) hx1 hvm hc1 hc2 hmc hlt'
          hmc1 hmc2) ?_
        rintro r s' ⟨v', hx', hr, fr', hp', hpop⟩
        obtain ⟨g1, g2⟩ := glue v' hp' hpop
        exact ⟨v', hx', hr, fr1.trans ⟨fr'.1, fr'.2⟩, g1, g2⟩
      · rename_i hge
        have hge : lt value (v1 mc) = false := by simpa using hge
        obtain ⟨g1, g2⟩ := glue v1 (PermOn.refl _ _ _) ⟨hc1, hc2, fun i h1 h2 => by
          rw [← hmr', hvm]
          by_cases hi : i < a' + psz (k + 1)
          · exact hlt.le_trans (hlt.le_trans (hc1.root_max hlt i h1 hi) hmc1) hge
          · have := hc2.root_max hlt i (by omega) (by omega)
            rw [show a' + psz (k + 1) + psz (k + 1) - 1 = a' + 2 * psz (k + 1) - 1 by omega] at this
            exact hlt.le_trans (hlt.le_trans this hmc2) hge⟩
        exact wp_pure ⟨v1, hx1, hvm, ⟨fr1.1, fr1.2⟩, g1, g2⟩

theorem poplarSift_spec (hlt : StrictWeak lt) {k a : Nat} {s : St α} {v : Nat → α}
    (hh : Holds s.cell a (a + psz (k + 1)) v) (hp1 : Pop lt v k a) (hp2 : Pop lt v k (a + psz k)) :
    wp (poplarSift (tick lt) a (psz (k + 1))) (fun _ s' => ∃ v',
      Upd a (a + psz (k + 1)) s s' v v' ∧ Pop lt v' (k + 1) a) s := by
  unfold poplarSift
  cases k with
  | zero =>
    rw [if_pos (by simp [psz])]
    exact wp_pure ⟨v, Upd.refl hh, trivial, trivial, fun i h1 h2 => by simp only [psz] at h2; omega⟩
  | succ k =>
    have e1 : psz (k + 1 + 1) = 2 * psz (k + 1) + 1 := rfl
    have hq : 0 < psz (k + 1) := psz_pos (by omega)
    rw [if_neg (by omega)]
    rw [show a + (psz (k + 1 + 1) - 1) = a + 2 * psz (k + 1) by omega,
      show a + (psz (k + 1 + 1) / 2 - 1) = a + psz (k + 1) - 1 by omega]
    simp only []
    apply wp_bind
    refine wp_mono (Q := fun mr s' => (mr = a + 2 * psz (k + 1) ∨ mr = a + 2 * psz (k + 1) - 1 ∧
        lt (v (a + 2 * psz (k + 1))) (v mr) = true) ∧ lt (v mr) (v (a + 2 * psz (k + 1) - 1)) = false ∧
        lt (v mr) (v (a + 2 * psz (k + 1))) = false ∧
        s' = { s with cmps := s.cmps + 1 }) ?_ ?_
    · wread hh
      wread hh
      wtick
      split
      · rename_i h
        exact wp_pure ⟨Or.inr ⟨rfl, h⟩, hlt.irrefl _, hlt.asymm h, rfl⟩
      · rename_i h
        exact wp_pure ⟨Or.inl rfl, by simpa using h, hlt.irrefl _, rfl⟩
    rintro m1 s1 ⟨hm1, hm1c, hm1r, rfl⟩
    apply wp_bind
    have hh1 : Holds { s with cmps := s.cmps + 1 }.cell a (a + psz (k + 1 + 1)) v := hh
    refine wp_mono (Q := fun mr s' => (mr = a + 2 * psz (k + 1) ∨ 
        (mr = a + psz (k + 1) - 1 ∨ mr = a + 2 * psz (k + 1) - 1) ∧
        lt (v (a + 2 * psz (k + 1))) (v mr) = true) ∧ lt (v mr) (v (a + psz (k + 1) - 1)) = false ∧ 
        lt (v mr) (v (a + 2 * psz (k + 1) - 1)) = false ∧
        s' = { s with cmps := s.cmps + 1 + 1 }) ?_ ?_
    · wread hh1
      wread hh1
      wtick
      split
      · rename_i h
        exact wp_pure ⟨Or.inr ⟨Or.inl rfl, hlt.lt_of_le_of_lt hm1r h⟩, hlt.irrefl _,
          hlt.le_trans hm1c (hlt.asymm h), rfl⟩
      · rename_i h
        refine wp_pure ⟨?_, by simpa using h, hm1c, rfl⟩
        rcases hm1 with h | ⟨h, h'⟩
        · exact Or.inl h
        · exact Or.inr ⟨Or.inr h, h'⟩
    rintro mr s2 ⟨hmr, hmr1, hmr2, rfl⟩
    split
    · rename_i hne
      obtain ⟨hc, hl⟩ := hmr.resolve_left hne
      have hh2 : Holds { s with cmps := s.cmps + 1 + 1 }.cell a (a + psz (k + 1 + 1)) v := hh
      apply wp_bind
      refine wp_moveOut hh2 (i := a + 2 * psz (k + 1)) (by omega) (by omega) ?_
      intro s3 hx3 fr3 c3 m3
      apply wp_bind
      refine wp_mono (poplarSiftLoop_spec hlt (v (a + 2 * psz (k + 1))) a (a + psz (k + 1 + 1)) k a mr s3 v (by omega)
        (Nat.le_refl _) hx3 rfl hp1 hp2 hc hl hmr1 hmr2) ?_
      rintro r s4 ⟨v', hx4, hr, fr4, hp4, hpop⟩
      refine wp_assign hx4 hr.symm ?_
      intro s5 hh5 fr5 c5 m5
      exact ⟨v', ⟨hh5, hp4, Frame.trans (s' := s3) ⟨fr3.1, fr3.2⟩ (fr4.trans fr5)⟩, hpop⟩
    · rename_i hne
      have : mr = a + 2 * psz (k + 1) := by simpa using hne
      subst this
      refine wp_pure ⟨v, ⟨hh, PermOn.refl _ _ _, ⟨fun _ _ => rfl, (Frame.refl a a s).2⟩⟩, hp1, hp2, fun i h1 h2 => ?_⟩
      by_cases hi : i < a + psz (k + 1)
      · exact hlt.le_trans (hp1.root_max hlt i h1 hi) hmr1
      · have := hp2.root_max hlt i (by omega) (by omega)
        rw [show a + psz (k + 1) + psz (k + 1) - 1 = a + 2 * psz (k + 1) - 1 by omega] at this
        exact hlt.le_trans this hmr2


theorem makePoplar_spec (hlt : StrictWeak lt) : ∀ (k a : Nat) (s : St α) (v : Nat → α),
    Holds s.cell a (a + psz k) v →
    wp (makePoplar (tick lt) a (a + psz k)) (fun _ s' => ∃ v',
      Upd a (a + psz k) s s' v v' ∧ Pop lt v' k a) s := by
  intro k
  induction k with
  | zero =>
    intro a s v hh
    rw [makePoplar]
    simp only []
    rw [if_pos (by simp [psz])]
    refine wp_mono (insertionSort_spec hlt (by omega) hh) ?_
    rintro _ s' ⟨v', hu, hs, -, -⟩
    exact ⟨v', hu.upd, trivial⟩
  | succ k ih =>
    intro a s v hh
    rw [makePoplar]
    have e1 : psz (k + 1) = 2 * psz k + 1 := rfl
    simp only []
    split
    · refine wp_mono (insertionSort_spec hlt (by omega) hh) ?_
      rintro _ s' ⟨v', hu, hs, -, -⟩
      exact ⟨v', hu.upd, hs.pop hlt⟩
    · rw [show a + (a + psz (k + 1) - a) / 2 = a + psz k by omega,
        show a + psz (k + 1) - 1 = a + psz k + psz k by omega, show a + psz (k + 1) - a = psz (k + 1) by omega]
      apply wp_bind
      refine wp_mono (ih a s v (hh.sub (by omega) (by omega))) ?_
      rintro _ s1 ⟨v1, hu1, hp1⟩
      have hu1 := hu1.widen hh (by omega) (by omega)
      apply wp_bind
      refine wp_mono (ih (a + psz k) s1 v1 (hu1.holds.sub (by omega) (by omega))) ?_
      rintro _ s2 ⟨v2, hu2, hp2⟩
      have hp1 : Pop lt v2 k a := hp1.congr fun i h1 h2 => (hu2.perm.out (by omega)).symm
      have hu2 := hu2.widen hu1.holds (by omega) (by omega)
      refine wp_mono (poplarSift_spec hlt hu2.holds hp1 hp2) ?_
      rintro _ s3 ⟨v3, hu3, hp3⟩
      exact ⟨v3, hu1.trans (hu2.trans hu3), hp3⟩

/-- The poplars cover `[a, e)` one after the other. -/
def PRow (lt : α → α → Bool) (v : Nat → α) : Nat → List Poplar → Nat → Prop
  | a, [], e => a = e
  | a, p :: ps, e => ∃ k, p = ⟨a, a + psz (k + 1), psz (k + 1)⟩ ∧ Pop lt v (k + 1) a ∧
      PRow lt v (a + psz (k + 1)) ps e

theorem PRow.le {v : Nat → α} : ∀ {ps : List Poplar} {a e : Nat}, PRow lt v a ps e → a ≤ e := by
  intro ps
  induction ps with
  | nil => intro a e h; exact Nat.le_of_eq h
  | cons p ps ih =>
    rintro a e ⟨k, -, -, h⟩
    have := ih h
    omega

theorem PRow.append {v : Nat → α} : ∀ {ps qs : List Poplar} {a e : Nat},
    PRow lt v a (ps ++ qs) e ↔ ∃ b, PRow lt v a ps b ∧ PRow lt v b qs e := by
  intro ps
  induction ps with
  | nil =>
    intro qs a e
    refine ⟨fun h => ⟨a, rfl, h⟩, ?_⟩
    rintro ⟨b, h, h'⟩
    have h : a = b := h
    subst h
    exact h'
  | cons p ps ih =>
    intro qs a e
    constructor
    · rintro ⟨k, h1, h2, h3⟩
      obtain ⟨b, h4, h5⟩ := ih.1 h3
      exact ⟨b, ⟨k, h1, h2, h4⟩, h5⟩
    · rintro ⟨b, ⟨k, h1, h2, h4⟩, h5⟩
      exact ⟨k, h1, h2, ih.2 ⟨b, h4, h5⟩⟩

theorem PRow.congr {v w : Nat → α} : ∀ {ps : List Poplar} {a e : Nat}, PRow lt v a ps e →
    (∀ i, a ≤ i → i < e → v i = w i) → PRow lt w a ps e := by
  intro ps
  induction ps with
  | nil => intro a e h _; exact h
  | cons p ps ih =>
    rintro a e ⟨k, h1, h2, h3⟩ he
    have := h3.le
    exact ⟨k, h1, h2.congr fun i a b => he i a (by omega), ih h3 fun i a b => he i (by omega) b⟩

/-- Something not below any of the roots is not below any of the elements. -/
theorem PRow.max (hlt : StrictWeak lt) {v : Nat → α} {x : α} : ∀ {ps : List Poplar} {a e : Nat}, PRow lt v a ps e →
    (∀ p ∈ ps, lt x (v p.root) = false) → ∀ i, a ≤ i → i < e → lt x (v i) = false := by
  intro ps
  induction ps with
  | nil => intro a e h _ i h1 h2; have h : a = e := h; omega
  | cons p ps ih =>
    rintro a e ⟨k, rfl, h2, h3⟩ hx i hi1 hi2
    by_cases hi : i < a + psz (k + 1)
    · exact hlt.le_trans (h2.root_max hlt i hi1 hi) (hx _ List.mem_cons_self)
    · exact ih h3 (fun q hq => hx q (List.mem_cons_of_mem _ hq)) i (by omega) hi2

theorem PRow.mem {v : Nat → α} : ∀ {ps : List Poplar} {a e : Nat}, PRow lt v a ps e → ∀ p ∈ ps,
    a ≤ p.root ∧ p.root < e := by
  intro ps
  induction ps with
  | nil => intro a e h p hp; cases hp
  | cons p ps ih =>
    rintro a e ⟨k, rfl, h2, h3⟩ q hq
    have := h3.le
    rcases List.mem_cons.1 hq with rfl | hq
    · have := psz_pos (k := k + 1) (by omega)
      simp only [Poplar.root]
      omega
    · have := ih h3 q hq
      omega

theorem poplarBigger_spec (hlt : StrictWeak lt) {f l : Nat} {v : Nat → α} {last : Poplar} :
    ∀ (ps : List Poplar) (bigger : Option Poplar) (s : St α), Holds s.cell f l v →
    (∀ p ∈ ps, f ≤ p.root ∧ p.root < l) → (f ≤ (bigger.getD last).root ∧ (bigger.getD last).root < l) →
    wp (poplarBigger (tick lt) last bigger ps) (fun r s' => (∃ n, s' = { s with cmps := n }) ∧
      (r = bigger ∨ ∃ p ∈ ps, r = some p) ∧
      lt (v (r.getD last).root) (v (bigger.getD last).root) = false ∧
      ∀ p ∈ ps, lt (v (r.getD last).root) (v p.root) = false) s := by
  intro ps
  induction ps with
  | nil =>
    intro bigger s hh _ _
    exact wp_pure ⟨⟨s.cmps, rfl⟩, Or.inl rfl, hlt.irrefl _, fun p hp => nomatch hp⟩
  | cons p ps ih =>
    intro bigger s hh hps hb
    have hp := hps p List.mem_cons_self
    unfold poplarBigger
    apply wp_bind
    refine wp_read hh hb.1 hb.2 ?_
    apply wp_bind
    refine wp_read hh hp.1 hp.2 ?_
    wtick
    split
    · rename_i h
      refine wp_mono (ih (some p) _ hh (fun q hq => hps q (List.mem_cons_of_mem _ hq)) hp) ?_
      rintro r s' ⟨⟨n, rfl⟩, h1, h2, h3⟩
      refine ⟨⟨n, rfl⟩, ?_, hlt.le_trans (hlt.asymm h) h2, ?_⟩
      · rcases h1 with rfl | ⟨q, hq, rfl⟩
        · exact Or.inr ⟨p, List.mem_cons_self, rfl⟩
        · exact Or.inr ⟨q, List.mem_cons_of_mem _ hq, rfl⟩
      · intro q hq
        rcases List.mem_cons.1 hq with rfl | hq
        · exact h2
        · exact h3 q hq
    · rename_i h
      have h : lt (v (bigger.getD last).root) (v p.root) = false := by simpa using h
      refine wp_mono (ih bigger _ hh (fun q hq => hps q (List.mem_cons_of_mem _ hq)) hb) ?_
      rintro r s' ⟨⟨n, rfl⟩, h1, h2, h3⟩
      refine ⟨⟨n, rfl⟩, ?_, h2, ?_⟩
      · rcases h1 with rfl | ⟨q, hq, rfl⟩
        · exact Or.inl rfl
        · exact Or.inr ⟨q, List.mem_cons_of_mem _ hq, rfl⟩
      · intro q hq
        rcases List.mem_cons.1 hq with rfl | hq
        · exact hlt.le_trans h h2
        · exact h3 q hq

theorem poplarRelocate_spec (hlt : StrictWeak lt) {f b k : Nat} {ps : List Poplar} {s : St α} {v : Nat → α}
    (hh : Holds s.cell f (b + psz (k + 1)) v) (hr : PRow lt v f ps b) (hl : Pop lt v (k + 1) b) :
    wp (poplarRelocate (tick lt) ps ⟨b, b + psz (k + 1), psz (k + 1)⟩) (fun _ s' => ∃ v',
      Upd f (b + psz (k + 1)) s s' v v' ∧ PRow lt v' f ps b ∧ Pop lt v' (k + 1) b ∧
      ∀ i, f ≤ i → i < b + psz (k + 1) → lt (v' (b + psz (k + 1) - 1)) (v' i) = false) s := by
  have hq := psz_pos (k := k + 1) (by omega)
  have e1 : psz (k + 1) = 2 * psz k + 1 := rfl
  have hfb := hr.le
  unfold poplarRelocate
  apply wp_bind
  refine wp_mono (poplarBigger_spec hlt (last := ⟨b, b + psz (k + 1), psz (k + 1)⟩) ps none s hh
    (fun p hp => by have := hr.mem p hp; omega) (by simp only [Option.getD_none, Poplar.root]; omega)) ?_
  rintro r s1 ⟨⟨n, rfl⟩, h1, h2, h3⟩
  simp only [Option.getD_none, Poplar.root] at h2
  -- the bigger root is not below any element
  have hmax : ∀ i, f ≤ i → i < b + psz (k + 1) →
      lt (v (r.getD ⟨b, b + psz (k + 1), psz (k + 1)⟩).root) (v i) = false := by
    intro i i1 i2
    by_cases hi : i < b
    · exact hr.max hlt h3 i i1 hi
    · exact hlt.le_trans (hl.root_max hlt i (by omega) i2) h2
  cases r with
  | none =>
    exact wp_pure ⟨v, ⟨hh, PermOn.refl _ _ _, ⟨fun _ _ => rfl, (Frame.refl f f s).2⟩⟩, hr, hl, hmax⟩
  | some p =>
    simp only [Option.getD_some] at hmax
    obtain ⟨p', hp, e⟩ := h1.resolve_left (by simp)
    cases e
    obtain ⟨l1, l2, rfl⟩ := List.append_of_mem hp
    obtain ⟨c, hr1, k', rfl, hpk, hr2⟩ := PRow.append.1 hr
    have hr1l := hr1.le
    have hr2l := hr2.le
    have hq' := psz_pos (k := k' + 1) (by omega)
    have e2 : psz (k' + 1) = 2 * psz k' + 1 := rfl
    simp only [Poplar.root] at hmax ⊢
    apply wp_bind
    refine wp_swap (s := { s with cmps := n }) hh (i := c + psz (k' + 1) - 1) (j := b + psz (k + 1) - 1) (by omega)
      (by omega) ?_
    intro s2 hu2
    obtain ⟨v2, hv2⟩ : ∃ v2, v2 = swp v (c + psz (k' + 1) - 1) (b + psz (k + 1) - 1) := ⟨_, rfl⟩
    rw [← hv2] at hu2
    have ho : ∀ i, i ≠ c + psz (k' + 1) - 1 → i ≠ b + psz (k + 1) - 1 → v i = v2 i := fun i a b => by
      rw [hv2, swp_o (by omega) (by omega)]
    have hlast : v2 (b + psz (k + 1) - 1) = v (c + psz (k' + 1) - 1) := by rw [hv2, swp_r rfl]
    refine wp_mono (poplarSift_spec hlt (k := k') (v := v2) (a := c) (hu2.holds.sub (by omega) (by omega))
      (hpk.1.congr fun i a b => ho i (by omega) (by omega))
      (hpk.2.1.congr fun i a b => ho i (by omega) (by omega))) ?_
    rintro _ s3 ⟨v3, hu3, hp3⟩
    have ho3 : ∀ i, (i < c ∨ c + psz (k' + 1) ≤ i) → i ≠ b + psz (k + 1) - 1 → v i = v3 i := fun i a b => by
      rw [hu3.perm.out (by omega), ho i (by omega) (by omega)]
    have hlast3 : v3 (b + psz (k + 1) - 1) = v (c + psz (k' + 1) - 1) := by
      rw [hu3.perm.out (by omega), hlast]
    have hu : Upd f (b + psz (k + 1)) s s3 v v3 := by
      have := hu2.trans (hu3.widen hu2.holds (by omega) (by omega))
      exact ⟨this.holds, this.perm, this.frame.1, this.frame.2⟩
    refine ⟨v3, hu, ?_, ?_, ?_⟩
    · exact PRow.append.2 ⟨c, hr1.congr fun i a b => ho3 i (by omega) (by omega), k', rfl, hp3,
        hr2.congr fun i a b => ho3 i (by omega) (by omega)⟩
    · refine hl.reroot (fun i a b => ho3 i (by omega) (by omega)) ?_
      intro i a' b'
      rw [show b + 2 * psz k = b + psz (k + 1) - 1 by omega, hlast3]
      exact hmax i (by omega) (by omega)
    · rw [hlast3]
      exact hu.perm.forall (P := fun x => lt (v (c + psz (k' + 1) - 1)) x = false) hmax

/-- The end of the range is sorted and above the rest. -/
def Tailed (lt : α → α → Bool) (f e l : Nat) (v : Nat → α) : Prop :=
  SortedOn lt e l v ∧ ∀ i j, f ≤ i → i < e → e ≤ j → j < l → lt (v j) (v i) = false

/-- The maximum of the rest extends the sorted end. -/
theorem Tailed.grow (hlt : StrictWeak lt) {f e l : Nat} {v : Nat → α} (h : Tailed lt f (e + 1) l v) (hf : f ≤ e)
    (hm : ∀ i, f ≤ i → i < e + 1 → lt (v e) (v i) = false) : Tailed lt f e l v := by
  obtain ⟨h1, h2⟩ := h
  constructor
  · intro i j a b c
    by_cases hi : i = e
    · subst hi; exact h2 i j hf (by omega) (by omega) c
    · exact h1 i j (by omega) b c
  · intro i j a b c d
    by_cases hj : j = e
    · subst hj; exact hm i a (by omega)
    · exact h2 i j a (by omega) (by omega) d

/-- What the loop does with the poplars left. -/
theorem poplarNext_spec (hlt : StrictWeak lt) {f b k l : Nat} {ps : List Poplar} {v : Nat → α}
    (hr : PRow lt v f ps b) (hp : Pop lt v (k + 1) b) (ht : Tailed lt f (b + psz (k + 1) - 1) l v)
    (hl : b + psz (k + 1) ≤ l) :
    match poplarNext ps ⟨b, b + psz (k + 1), psz (k + 1)⟩ with
    | none => SortedOn lt f l v
    | some qs => ∃ e, PRow lt v f qs e ∧ f < e ∧ e < b + psz (k + 1) ∧ Tailed lt f e l v := by
  have hfb := hr.le
  have e1 : psz (k + 1) = 2 * psz k + 1 := rfl
  have hsplit : ∀ (a k : Nat), Pop lt v (k + 1 + 1) a → PRow lt v a
      (Poplar.split ⟨a, a + psz (k + 1 + 1), psz (k + 1 + 1)⟩) (a + 2 * psz (k + 1)) := by
    intro a k hp
    have e2 : psz (k + 1 + 1) = 2 * psz (k + 1) + 1 := rfl
    unfold Poplar.split
    simp only []
    rw [show (psz (k + 1 + 1) - 1) / 2 = psz (k + 1) by omega,
      show a + psz (k + 1 + 1) - 1 = a + psz (k + 1) + psz (k + 1) by omega]
    exact ⟨k, rfl, hp.1, k, rfl, hp.2.1, show a + psz (k + 1) + psz (k + 1) = _ by omega⟩
  unfold poplarNext
  by_cases hk : psz (k + 1) = 1
  · rw [if_pos hk]
    rw [hk, Nat.add_sub_cancel] at ht
    match ps, hr with
    | [], hr =>
      have hr : f = b := hr
      subst hr
      exact ht.1
    | [p], hr =>
      obtain ⟨k', rfl, hpk, hr⟩ := hr
      have hr : f + psz (k' + 1) = b := hr
      have e2 : psz (k' + 1) = 2 * psz k' + 1 := rfl
      have ht' : Tailed lt f (b - 1) l v := by
        refine Tailed.grow hlt (by rw [Nat.sub_add_cancel (by omega)]; exact ht) (by omega) (fun i a c => ?_)
        have := hpk.root_max hlt i a (by omega)
        rwa [hr] at this
      by_cases h1 : psz (k' + 1) = 1
      · simp only [h1, if_true]
        rw [show b - 1 = f by omega] at ht'
        exact ht'.1
      · simp only [h1, if_false]
        cases k' with
        | zero => exact absurd rfl h1
        | succ k' =>
          have e3 : psz (k' + 1 + 1) = 2 * psz (k' + 1) + 1 := rfl
          have := psz_pos (k := k' + 1) (by omega)
          refine ⟨f + 2 * psz (k' + 1), ?_, by omega, by omega, ?_⟩
          · exact hsplit f k' hpk
          · rw [show b - 1 = f + 2 * psz (k' + 1) by omega] at ht'; exact ht'
    | p :: q :: ps, hr =>
      simp only []
      refine ⟨b, hr, ?_, by omega, ht⟩
      obtain ⟨k', -, -, h⟩ := hr
      have := h.le
      have := psz_pos (k := k' + 1) (by omega)
      omega
  · rw [if_neg hk, if_pos (by simp [Poplar.split])]
    cases k with
    | zero => exact absurd rfl hk
    | succ k =>
      have e2 : psz (k + 1 + 1) = 2 * psz (k + 1) + 1 := rfl
      have := psz_pos (k := k + 1) (by omega)
      simp only []
      exact ⟨b + 2 * psz (k + 1), PRow.append.2 ⟨b, hr, hsplit b k hp⟩, by omega, by omega, by
        rw [show b + psz (k + 1 + 1) - 1 = b + 2 * psz (k + 1) by omega] at ht; exact ht⟩

theorem poplarLoop_spec (hlt : StrictWeak lt) {f l : Nat} : ∀ (d : Nat) (ps : List Poplar) (e : Nat) (s : St α)
    (v : Nat → α), e ≤ d → f < e → e ≤ l → Holds s.cell f l v → PRow lt v f ps e → Tailed lt f e l v →
    wp (poplarLoop (tick lt) ps) (fun _ s' => ∃ v', Upd f l s s' v v' ∧ SortedOn lt f l v') s := by
  intro d
  induction d with
  | zero => intros; omega
  | succ d ih =>
    intro ps e s v hd hf hl hh hr ht
    rcases List.eq_nil_or_concat ps with rfl | ⟨init, back, rfl⟩
    · have hr : f = e := hr
      omega
    · rw [List.concat_eq_append] at hr ⊢
      obtain ⟨b, hr1, k, rfl, hpk, he⟩ := PRow.append.1 hr
      have he : b + psz (k + 1) = e := he
      subst he
      have hq := psz_pos (k := k + 1) (by omega)
      have hfb := hr1.le
      rw [poplarLoop]
      rw [List.getLast?_append, List.getLast?_singleton, Option.some_or, List.dropLast_concat]
      simp only []
      apply wp_bind
      refine wp_mono (poplarRelocate_spec hlt (hh.sub (Nat.le_refl _) hl) hr1 hpk) ?_
      rintro _ s1 ⟨v1, hu1, hr2, hp2, hm⟩
      have ht1 : Tailed lt f (b + psz (k + 1)) l v1 := by
        refine ⟨ht.1.congr fun i a c => (hu1.perm.out (by omega)).symm, ?_⟩
        intro i j a c a' c'
        rw [hu1.perm.out (i := j) (by omega)]
        exact hu1.perm.forall (P := fun x => lt (v j) x = false) (fun i a c => ht.2 i j a c a' c') i a c
      have ht2 : Tailed lt f (b + psz (k + 1) - 1) l v1 :=
        Tailed.grow hlt (by rw [Nat.sub_add_cancel (by omega)]; exact ht1) (by omega)
          (fun i a c => hm i a (by omega))
      have hu1 := hu1.widen hh (Nat.le_refl _) hl
      have hn := poplarNext_spec hlt hr2 hp2 ht2 hl
      cases hpn : poplarNext init ⟨b, b + psz (k + 1), psz (k + 1)⟩ with
      | none =>
        rw [hpn] at hn
        exact wp_pure ⟨v1, hu1, hn⟩
      | some qs =>
        rw [hpn] at hn
        obtain ⟨e, hrq, hfe, hel, hte⟩ := hn
        refine wp_mono (ih qs e s1 v1 (by omega) hfe (by omega) hu1.holds hrq hte) ?_
        rintro _ s2 ⟨v2, hu2, hs⟩
        exact ⟨v2, hu1.trans hu2, hs⟩

theorem poplarBuild_spec (hlt : StrictWeak lt) {f l : Nat} : ∀ (d : Nat) (k it : Nat) (ps : List Poplar) (s : St α)
    (v : Nat → α), l - it + k ≤ d → it ≤ l → Holds s.cell f l v → PRow lt v f ps it →
    wp (poplarBuild (tick lt) l it (psz (k + 1)) ps) (fun r s' => ∃ v', Upd f l s s' v v' ∧ PRow lt v' f r l) s := by
  intro d
  induction d with
  | zero =>
    intro k it ps s v hd hi hh hr
    rw [poplarBuild]
    obtain rfl : k = 0 := by omega
    obtain rfl : it = l := by omega
    rw [show psz (0 + 1) = 1 from rfl, if_neg (by omega)]
    exact wp_pure ⟨v, Upd.refl hh, hr⟩
  | succ d ih =>
    intro k it ps s v hd hi hh hr
    have hq := psz_pos (k := k + 1) (by omega)
    have hfi := hr.le
    rw [poplarBuild]
    simp only []
    split
    · apply wp_bind
      refine wp_mono (makePoplar_spec hlt (k + 1) it s v (hh.sub hfi (by omega))) ?_
      rintro _ s1 ⟨v1, hu1, hp1⟩
      have hr1 : PRow lt v1 f ps it := hr.congr fun i a b => (hu1.perm.out (by omega)).symm
      have hu1 := hu1.widen hh hfi (by omega)
      refine wp_mono (ih k _ _ s1 v1 (by omega) (by omega) hu1.holds
        (PRow.append.2 ⟨it, hr1, k, rfl, hp1, rfl⟩)) ?_
      rintro r s2 ⟨v2, hu2, hr2⟩
      exact ⟨v2, hu1.trans hu2, hr2⟩
    · have e1 : psz (k + 1) = 2 * psz k + 1 := rfl
      rw [show (psz (k + 1) + 1) / 2 - 1 = psz k by omega]
      cases k with
      | zero =>
        have e0 : psz 0 = 0 := rfl
        obtain rfl : it = l := by omega
        rw [if_neg (by omega)]
        exact wp_pure ⟨v, Upd.refl hh, hr⟩
      | succ k =>
        rw [if_pos (psz_pos (by omega))]
        exact ih k it ps s v (by omega) hi hh hr

theorem poplarSort_w (hlt : StrictWeak lt) : SortsW lt (poplarSort (tick lt)) := by
  intro s f l v hf _ hh
  unfold poplarSort
  simp only []
  split
  · exact wp_pure ⟨v, Upd.refl hh, SortedOn.trivial (by omega)⟩
  · rw [← psz_eq]
    obtain ⟨k, hk⟩ : ∃ k, Nat.log2 (l - f + 1) = k + 1 := by
      have : Nat.log2 (l - f + 1) ≠ 0 := by
        intro h
        have := (Nat.log2_eq_iff (by omega)).1 h
        omega
      exact ⟨Nat.log2 (l - f + 1) - 1, by omega⟩
    rw [hk]
    apply wp_bind
    refine wp_mono (poplarBuild_spec hlt _ k f [] s v (Nat.le_refl _) hf hh rfl) ?_
    rintro ps s1 ⟨v1, hu1, hr1⟩
    refine wp_mono (poplarLoop_spec hlt l ps l s1 v1 (Nat.le_refl _) (by omega) (Nat.le_refl _) hu1.holds hr1
      ⟨SortedOn.trivial (by omega), fun i j a b c d => by omega⟩) ?_
    rintro _ s2 ⟨v2, hu2, hs⟩
    exact ⟨v2, hu1.trans hu2, hs⟩

end CppSort
