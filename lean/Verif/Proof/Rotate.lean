import Verif.Base.Merge
import Verif.Model.Rotate
set_option autoImplicit false

namespace CppSort
variable {α : Type} {lt : α → α → Bool}

/-- `std::move` of a range: position `k` goes to the address `D k`. -/
theorem moveRange_spec {d1 d2 D : Nat → Nat} {x : Nat → α} :
    ∀ (n first last r : Nat) (s : St α), last = first + n →
    (∀ k, first ≤ k → k < last → d2 (r + (k - first)) = D k) →
    (∀ k, first ≤ k → k < last → s.cell (d1 k) = .val (x k)) →
    (∀ k, first ≤ k → k < last → Live s.cell (D k)) →
    (∀ j k, first ≤ j → j < k → k < last → d1 j ≠ d1 k) →
    (∀ j k, first ≤ j → j < k → k < last → D j ≠ D k) →
    (∀ j k, first ≤ j → j ≤ k → k < last → d1 k ≠ D j) →
    wp (moveRange d1 d2 first last r) (fun r' s' => r' = r + n ∧
      (∀ k, first ≤ k → k < last → s'.cell (D k) = .val (x k)) ∧
      (∀ k, first ≤ k → k < last → (∀ j, first ≤ j → j < last → d1 k ≠ D j) →
        s'.cell (d1 k) = .moved) ∧
      (∀ p, (∀ j, first ≤ j → j < last → p ≠ D j) → (∀ j, first ≤ j → j < last → p ≠ d1 j) →
        s'.cell p = s.cell p) ∧
      s'.env = s.env ∧ s'.cmps = s.cmps ∧ s'.movs = s.movs + n) s := by
  intro n
  induction n with
  | zero =>
    intro first last r s hn _ _ _ _ _ _
    rw [moveRange, if_neg (by omega)]
    apply wp_pure
    exact ⟨by omega, fun k _ _ => by omega, fun k _ _ => by omega, fun _ _ _ => rfl,
      rfl, rfl, rfl⟩
  | succ n ih =>
    intro first last r s hn hD hs hl i1 i2 ho
    rw [moveRange, if_pos (by omega)]
    have e0 : d2 r = D first := by
      have := hD first (by omega) (by omega)
      rwa [Nat.sub_self] at this
    rw [e0]
    apply wp_bind
    refine wp_moveTo' (ho first first (by omega) (by omega) (by omega)).symm
      (hs first (by omega) (by omega)) (hl first (by omega) (by omega)) ?_
    intro s1 hc1 hb1 hk1 hm1
    have hcell : ∀ p, p ≠ D first → p ≠ d1 first → s1.cell p = s.cell p := by
      intro p h1 h2; rw [hc1, sc_ne h1, sc_ne h2]
    refine wp_mono (ih (first + 1) last (r + 1) s1 (by omega) ?_ ?_ ?_ ?_ ?_ ?_) ?_
    · intro k a b
      rw [show r + 1 + (k - (first + 1)) = r + (k - first) by omega]
      exact hD k (by omega) b
    · intro k a b
      have := ho first k (by omega) (by omega) b
      have := i1 first k (by omega) (by omega) b
      rw [hcell _ (by omega) (by omega)]
      exact hs k (by omega) b
    · intro k a b
      have h1 := i2 first k (by omega) (by omega) b
      by_cases h2 : D k = d1 first
      · left
        rw [hc1, sc_ne (by omega), sc_eq h2]
      · have := hl k (by omega) b
        unfold Live at this ⊢
        rwa [hcell _ (by omega) h2]
    · intro j k a b c; exact i1 j k (by omega) b c
    · intro j k a b c; exact i2 j k (by omega) b c
    · intro j k a b c; exact ho j k (by omega) b c
    · rintro r' s' ⟨h1, h2, h3, h4, h5, h6, h7⟩
      refine ⟨by omega, ?_, ?_, ?_, h5.trans hb1, by omega, by omega⟩
      · intro k a b
        by_cases hk : k = first
        · subst hk
          rw [h4 (D k) (fun j a' b' => i2 k j (by omega) (by omega) b')
            (fun j a' b' => (ho k j (by omega) (by omega) b').symm), hc1]
          exact sc_eq rfl
        · exact h2 k (by omega) b
      · intro k a b hh
        by_cases hk : k = first
        · subst hk
          rw [h4 (d1 k) (fun j a' b' => hh j (by omega) b')
            (fun j a' b' => i1 k j (by omega) (by omega) b'), hc1,
            sc_ne (hh k (by omega) b), sc_eq rfl]
        · exact h3 k (by omega) b fun j a' b' => hh j (by omega) b'
      · intro p a b
        rw [h4 p (fun j a' b' => a j (by omega) b') (fun j a' b' => b j (by omega) b')]
        exact hcell p (a first (by omega) (by omega)) (b first (by omega) (by omega))

/-- `v'` is `v` with the blocks `[f, m)` and `[m, l)` exchanged. -/
def Rotated (f m l : Nat) (v v' : Nat → α) : Prop :=
  (∀ i, i < f ∨ l ≤ i → v' i = v i) ∧ (∀ i, f ≤ i → i < f + (l - m) → v' i = v (i + (m - f))) ∧
  (∀ i, f + (l - m) ≤ i → i < l → v' i = v (i - (l - m)))

theorem Rotated.lst {f m l : Nat} {v v' : Nat → α} (h1 : f ≤ m) (h2 : m ≤ l)
    (h : Rotated f m l v v') : lst v' f l = lst v m l ++ lst v f m := by
  rw [lst_append (m := f + (l - m)) (by omega) (by omega)]
  congr 1
  · rw [lst_congr h.2.1, lst_shift]
    congr 1 <;> omega
  · rw [lst_congr (w := fun i => v (i - (l - m))) h.2.2]
    have e : CppSort.lst v f m = CppSort.lst (fun i => v (i + (l - m) - (l - m))) f m :=
      lst_congr fun i _ _ => by rw [Nat.add_sub_cancel]
    rw [e, lst_shift (v := fun i => v (i - (l - m)))]
    congr 1; omega

theorem lst_getElem {v : Nat → α} {f l i : Nat} (h : i < (lst v f l).length) :
    (lst v f l)[i] = v (f + i) := by
  simp [lst]

theorem Rotated.of_lst {f m l : Nat} {v v' : Nat → α} (h1 : f ≤ m) (h2 : m ≤ l)
    (ho : ∀ i, i < f ∨ l ≤ i → v' i = v i)
    (h : CppSort.lst v' f l = CppSort.lst v m l ++ CppSort.lst v f m) : Rotated f m l v v' := by
  refine ⟨ho, fun i a b => ?_, fun i a b => ?_⟩
  · have e := List.getElem_of_eq h (i := i - f) (by simp; omega)
    rw [lst_getElem, List.getElem_append_left (by simp; omega), lst_getElem] at e
    rw [show f + (i - f) = i by omega] at e
    rw [e]; congr 1; omega
  · have e := List.getElem_of_eq h (i := i - f) (by simp; omega)
    rw [lst_getElem, List.getElem_append_right (by simp; omega), lst_getElem] at e
    rw [show f + (i - f) = i by omega] at e
    rw [e]; congr 1; simp; omega

theorem Rotated.perm {f m l : Nat} {v v' : Nat → α} (h1 : f ≤ m) (h2 : m ≤ l)
    (h : Rotated f m l v v') : PermOn f l v v' := by
  refine ⟨h.1, ?_⟩
  rw [h.lst h1 h2, lst_append (v := v) h1 h2]
  exact List.perm_append_comm

/-- Exchanging two blocks is stable when the second is strictly below the first. -/
theorem Rotated.sperm (hlt : StrictWeak lt) {f m l : Nat} {v v' : Nat → α} (h1 : f ≤ m)
    (h2 : m ≤ l) (h : Rotated f m l v v')
    (hb : ∀ i j, f ≤ i → i < m → m ≤ j → j < l → lt (v j) (v i) = true) : SPermOn lt f l v v' := by
  refine ⟨h.perm h1 h2, fun x => ?_⟩
  rw [h.lst h1 h2, lst_append (v := v) h1 h2, List.filter_append, List.filter_append]
  by_cases hc : ∃ i, f ≤ i ∧ i < m ∧ eqv lt x (v i) = true
  · obtain ⟨i, a, b, c⟩ := hc
    have : (CppSort.lst v m l).filter (eqv lt x) = [] := by
      rw [List.filter_eq_nil_iff]
      intro y hy he
      obtain ⟨j, a', b', rfl⟩ := mem_lst.1 hy
      have h3 := hlt.eqv_trans (StrictWeak.eqv_symm he) c
      have h4 := hb i j a b a' b'
      simp [eqv, h4] at h3
    rw [this]; simp
  · have : (CppSort.lst v f m).filter (eqv lt x) = [] := by
      rw [List.filter_eq_nil_iff]
      intro y hy he
      obtain ⟨j, a', b', rfl⟩ := mem_lst.1 hy
      exact hc ⟨j, a', b', he⟩
    rw [this]; simp

/-- Postcondition of all the rotations. -/
structure RotPost (f m l : Nat) (s s' : St α) (v v' : Nat → α) : Prop where
  holds : Holds s'.cell f l v'
  rot : Rotated f m l v v'
  frame : Frame f l s s'
  cmps : s'.cmps = s.cmps

theorem RotPost.upd {f m l : Nat} {s s' : St α} {v v' : Nat → α} (h : RotPost f m l s s' v v')
    (h1 : f ≤ m) (h2 : m ≤ l) : Upd f l s s' v v' := ⟨h.holds, h.rot.perm h1 h2, h.frame⟩

theorem rotateLeft_spec {f l : Nat} {s : St α} {v : Nat → α} (h1 : f < l)
    (hh : Holds s.cell f l v) :
    wp (rotateLeft f l) (fun r s' => r = l - 1 ∧ ∃ v', RotPost f (f + 1) l s s' v v' ∧
      s'.movs = s.movs + (l - f) + 1) s := by
  unfold rotateLeft
  apply wp_bind
  refine wp_moveOut' (hh f (by omega) (by omega)) ?_
  intro s1 hc1 hb1 hk1 hm1
  apply wp_bind
  refine wp_mono (moveRange_spec (d1 := id) (d2 := id) (D := fun k => k - 1) (x := v)
    (l - (f + 1)) (f + 1) l f _ (by omega) ?_ ?_ ?_ ?_ ?_ ?_) ?_
  · intro k a b; simp; omega
  · intro k a b; rw [hc1, sc_ne (by simp; omega)]; exact hh k (by omega) b
  · intro k a b
    by_cases hk : k - 1 = f
    · exact Or.inl (by rw [hc1, sc_eq hk])
    · refine Or.inr ⟨v (k - 1), ?_⟩
      rw [hc1, sc_ne hk]; exact hh _ (by omega) (by omega)
  · intro j k a b c; simp; omega
  · intro j k a b c; omega
  · intro j k a b c; simp; omega
  · rintro r s' ⟨e, h2, h3, h4, h5, h6, h7⟩
    have er : r = l - 1 := by omega
    clear e; subst er
    have hlast : s'.cell (l - 1) = .moved := by
      by_cases hk : f + 1 < l
      · exact h3 (l - 1) (by omega) (by omega) (fun j a b => by simp; omega)
      · rw [h4 _ (fun j a b => by omega) (fun j a b => by omega), hc1]
        exact sc_eq (by omega)
    apply wp_bind
    refine wp_assign' (Or.inl hlast) ?_
    intro s2 hc2 hb2 hk2 hm2
    apply wp_pure
    refine ⟨rfl, fun i => if i < f ∨ l ≤ i then v i else if i = l - 1 then v f else v (i + 1),
      ⟨?_, ⟨?_, ?_, ?_⟩, ⟨?_, ?_⟩, by omega⟩, by omega⟩
    · intro i a b
      simp only
      by_cases hi : i = l - 1
      · rw [hc2, sc_eq hi, if_neg (by omega), if_pos hi]
      · rw [hc2, sc_ne hi, if_neg (by omega), if_neg hi]
        have := h2 (i + 1) (by omega) (by omega)
        rwa [Nat.add_sub_cancel] at this
    · intro i hi; simp only; rw [if_pos hi]
    · intro i a b; simp only; rw [if_neg (by omega), if_neg (by omega)]; congr 1; omega
    · intro i a b; simp only; rw [if_neg (by omega), if_pos (by omega)]; congr 1; omega
    · intro i hi
      rw [hc2, sc_ne (by omega), h4 i (fun j a b => by omega) (fun j a b => by simp; omega), hc1]
      exact sc_ne (by omega)
    · exact EnvLe.of_env (hb2.trans (h5.trans hb1))

/-- Move backward by one, described with the hole travelling down. -/
theorem moveBackward_spec {l : Nat} : ∀ (n first last : Nat) (s : St α) (v : Nat → α),
    last = first + n → last < l → HoldsX s.cell first l last v →
    wp (moveBackward first last (last + 1)) (fun r s' => r = first + 1 ∧ ∃ v',
      HoldsX s'.cell first l first v' ∧ (∀ i, i < first ∨ last < i → v' i = v i) ∧
      v' first = v last ∧ (∀ i, first < i → i ≤ last → v' i = v (i - 1)) ∧
      Frame first l s s' ∧ s'.cmps = s.cmps ∧ s'.movs = s.movs + n) s := by
  intro n
  induction n with
  | zero =>
    intro first last s v hn hl hx
    have : last = first := by omega
    subst this
    rw [moveBackward, if_neg (by omega)]
    apply wp_pure
    exact ⟨rfl, v, hx, fun _ _ => rfl, rfl, fun i _ _ => by omega, Frame.refl _ _ _, rfl, rfl⟩
  | succ n ih =>
    intro first last s v hn hl hx
    rw [moveBackward, if_pos (by omega)]
    apply wp_bind
    rw [show last + 1 - 1 = last by omega]
    refine wp_moveTo hx (by omega) (by omega) (by omega) ?_
    intro s1 hx1 fr1 c1 m1
    have := ih first (last - 1) s1 (swp v last (last - 1)) (by omega) (by omega) hx1
    rw [show last - 1 + 1 = last by omega] at this
    refine wp_mono this ?_
    rintro r s' ⟨e, v', a1, a2, a3, a4, a5, a7, a8⟩
    refine ⟨e, v', a1, ?_, ?_, ?_, fr1.trans a5, by omega, by omega⟩
    · intro i hi; rw [a2 i (by omega)]; sw
    · rw [a3]; sw
    · intro i b1 b2
      by_cases hi : i = last
      · rw [a2 i (by omega), swp_l hi, hi]
      · rw [a4 i b1 (by omega)]; sw

theorem rotateRight_spec {f l : Nat} {s : St α} {v : Nat → α} (h1 : f < l)
    (hh : Holds s.cell f l v) :
    wp (rotateRight f l) (fun r s' => r = f + 1 ∧ ∃ v', RotPost f (l - 1) l s s' v v' ∧
      s'.movs = s.movs + (l - f) + 1) s := by
  unfold rotateRight
  apply wp_bind
  refine wp_moveOut hh (by omega) (by omega) ?_
  intro s1 hx1 fr1 c1 m1
  apply wp_bind
  have := moveBackward_spec (l - 1 - f) f (l - 1) s1 v (by omega) (by omega) hx1
  rw [show l - 1 + 1 = l by omega] at this
  refine wp_mono this ?_
  rintro r s2 ⟨e, v', a1, a2, a3, a4, a5, a7, a8⟩
  apply wp_bind
  refine wp_assign a1 a3.symm ?_
  intro s3 hh3 fr3 c3 m3
  apply wp_pure
  refine ⟨e, v', ⟨hh3, ⟨fun i hi => a2 i (by omega), fun i b c => ?_, fun i b c => ?_⟩,
    (fr1.trans a5).trans fr3, by omega⟩, by omega⟩
  · rw [show i = f by omega, a3]; congr 1; omega
  · rw [a4 i (by omega) (by omega)]; congr 1; omega

/-! ### rotate_forward -/

/-- Effect of one exchange on the "to be placed" list. -/
theorem rot_step {first middle last i : Nat} {v : Nat → α} (h1 : first < middle) (h2 : middle ≤ i)
    (h3 : i < last) :
    lst v i last ++ lst v middle i ++ lst v first middle =
    swp v first i first :: (lst (swp v first i) (i + 1) last ++ lst (swp v first i) middle (i + 1) ++
      lst (swp v first i) (first + 1) middle) := by
  have e1 : lst (swp v first i) (i + 1) last = lst v (i + 1) last :=
    lst_congr fun k a b => by sw
  have e2 : lst (swp v first i) middle (i + 1) = lst v middle i ++ [v first] := by
    rw [lst_snoc h2, lst_congr (v := swp v first i) (w := v) fun k a b => by sw]; sw
  have e3 : lst (swp v first i) (first + 1) middle = lst v (first + 1) middle :=
    lst_congr fun k a b => by sw
  rw [e1, e2, e3, lst_cons (f := i) (l := last) h3, lst_cons (f := first) (l := middle) h1]
  simp [swp_l]

/-- Common specification of the two loops of `rotate_forward`. -/
theorem rotateForward2_spec {last : Nat} : ∀ (n first middle i : Nat) (s : St α) (v : Nat → α),
    last - first ≤ n → first < middle → middle ≤ i → i < last → Holds s.cell first last v →
    wp (rotateForward2 first middle last i) (fun _ s' => ∃ v', Holds s'.cell first last v' ∧
      (∀ k, k < first ∨ last ≤ k → v' k = v k) ∧
      lst v' first last = lst v i last ++ lst v middle i ++ lst v first middle ∧
      Frame first last s s' ∧ s'.cmps = s.cmps) s := by
  intro n
  induction n with
  | zero => intros; omega
  | succ n ih =>
    intro first middle i s v hn h1 h2 h3 hh
    rw [rotateForward2]
    apply wp_bind
    refine wp_swap_c hh (by omega) (by omega) ?_
    intro s1 hu1 hc1 hm1
    have fin : ∀ (s' : St α) (v' : Nat → α), Holds s'.cell (first + 1) last v' →
        (∀ k, k < first + 1 ∨ last ≤ k → v' k = swp v first i k) →
        lst v' (first + 1) last = lst (swp v first i) (i + 1) last ++
          lst (swp v first i) middle (i + 1) ++ lst (swp v first i) (first + 1) middle →
        Frame (first + 1) last s1 s' → s'.cmps = s1.cmps →
        ∃ v', Holds s'.cell first last v' ∧
          (∀ k, k < first ∨ last ≤ k → v' k = v k) ∧
          lst v' first last = lst v i last ++ lst v middle i ++ lst v first middle ∧
          Frame first last s s' ∧ s'.cmps = s.cmps := by
      intro s' v' a1 a2 a3 a4 a5
      refine ⟨v', ?_, ?_, ?_, hu1.frame.trans (a4.mono (by omega) (by omega)), by omega⟩
      · intro k b c
        by_cases hk : k = first
        · rw [a4.cell k (by omega), hu1.holds k b c, a2 k (by omega)]
        · exact a1 k (by omega) c
      · intro k hk; rw [a2 k (by omega), swp_o (by omega) (by omega)]
      · rw [rot_step h1 h2 h3, lst_cons (by omega), a2 first (by omega), a3]
    have hh1 := hu1.holds.sub (f' := first + 1) (l' := last) (by omega) (Nat.le_refl _)
    simp only []
    split
    · split
      · apply wp_pure
        refine fin s1 _ hh1 (fun _ _ => rfl) ?_ (Frame.refl _ _ _) rfl
        rw [lst_nil (f := i + 1) (by omega), lst_nil (l := middle) (by omega)]
        simp only [List.nil_append, List.append_nil]
        congr 1 <;> omega
      · refine wp_mono (ih (first + 1) middle middle s1 _ (by omega) (by omega) (by omega) (by omega)
          hh1) ?_
        rintro _ s' ⟨v', a1, a2, a3, a4, a5⟩
        refine fin s' v' a1 a2 ?_ a4 a5
        rw [a3, lst_nil (f := i + 1) (by omega), lst_nil (f := middle) (l := middle) (by omega)]
        rename_i e _ _
        rw [e]; simp
    · split
      · refine wp_mono (ih (first + 1) (i + 1) (i + 1) s1 _ (by omega) (by omega) (by omega)
          (by omega) hh1) ?_
        rintro _ s' ⟨v', a1, a2, a3, a4, a5⟩
        refine fin s' v' a1 a2 ?_ a4 a5
        rename_i e _
        rw [a3, lst_nil (f := i + 1) (l := i + 1) (by omega), e,
          lst_nil (f := middle) (l := middle) (by omega)]
        simp
      · refine wp_mono (ih (first + 1) middle (i + 1) s1 _ (by omega) (by omega) (by omega)
          (by omega) hh1) ?_
        rintro _ s' ⟨v', a1, a2, a3, a4, a5⟩
        exact fin s' v' a1 a2 a3 a4 a5

/-- First loop: stops when `i` reaches `last`, with the elements placed so far. -/
theorem rotateForward1_spec {last : Nat} : ∀ (n first middle i : Nat) (s : St α) (v : Nat → α),
    last - i ≤ n → first < middle → middle ≤ i → i < last → Holds s.cell first last v →
    wp (rotateForward1 first middle last i) (fun r s' => ∃ v', Holds s'.cell first last v' ∧
      r.1 = first + (last - i) ∧ r.1 ≤ r.2 ∧ r.2 < last ∧
      (∀ k, k < first ∨ last ≤ k → v' k = v k) ∧
      lst v' first r.1 ++ lst v' r.2 last ++ lst v' r.1 r.2 =
        lst v i last ++ lst v middle i ++ lst v first middle ∧
      Frame first last s s' ∧ s'.cmps = s.cmps) s := by
  intro n
  induction n with
  | zero => intros; omega
  | succ n ih =>
    intro first middle i s v hn h1 h2 h3 hh
    rw [rotateForward1]
    apply wp_bind
    refine wp_swap_c hh (by omega) (by omega) ?_
    intro s1 hu1 hc1 hm1
    have fin : ∀ (s' : St α) (v' : Nat → α) (r : Nat × Nat), Holds s'.cell (first + 1) last v' →
        r.1 = (first + 1) + (last - (i + 1)) → r.1 ≤ r.2 → r.2 < last →
        (∀ k, k < first + 1 ∨ last ≤ k → v' k = swp v first i k) →
        lst v' (first + 1) r.1 ++ lst v' r.2 last ++ lst v' r.1 r.2 =
          lst (swp v first i) (i + 1) last ++
          lst (swp v first i) middle (i + 1) ++ lst (swp v first i) (first + 1) middle →
        Frame (first + 1) last s1 s' → s'.cmps = s1.cmps →
        ∃ v', Holds s'.cell first last v' ∧
          r.1 = first + (last - i) ∧ r.1 ≤ r.2 ∧ r.2 < last ∧
          (∀ k, k < first ∨ last ≤ k → v' k = v k) ∧
          lst v' first r.1 ++ lst v' r.2 last ++ lst v' r.1 r.2 =
            lst v i last ++ lst v middle i ++ lst v first middle ∧
          Frame first last s s' ∧ s'.cmps = s.cmps := by
      intro s' v' r a1 b1 b2 b3 a2 a3 a4 a5
      refine ⟨v', ?_, by omega, b2, b3, ?_, ?_, hu1.frame.trans (a4.mono (by omega) (by omega)),
        by omega⟩
      · intro k b c
        by_cases hk : k = first
        · rw [a4.cell k (by omega), hu1.holds k b c, a2 k (by omega)]
        · exact a1 k (by omega) c
      · intro k hk; rw [a2 k (by omega), swp_o (by omega) (by omega)]
      · rw [rot_step h1 h2 h3, lst_cons (f := first) (l := r.1) (by omega), a2 first (by omega),
          List.cons_append, List.cons_append, a3]
    have hh1 := hu1.holds.sub (f' := first + 1) (l' := last) (by omega) (Nat.le_refl _)
    simp only []
    split
    · apply wp_pure
      rename_i e
      refine fin s1 _ (first + 1, middle) hh1 (by show first + 1 = _; omega)
        (by show first + 1 ≤ middle; omega)
        (by show middle < last; omega) (fun _ _ => rfl) ?_ (Frame.refl _ _ _) rfl
      show lst _ (first + 1) (first + 1) ++ lst _ middle last ++ lst _ (first + 1) middle = _
      rw [lst_nil (f := i + 1) (by omega), lst_nil (f := first + 1) (l := first + 1) (by omega), e]
    · split
      · refine wp_mono (ih (first + 1) (i + 1) (i + 1) s1 _ (by omega) (by omega) (by omega)
          (by omega) hh1) ?_
        rintro r s' ⟨v', a1, b1, b2, b3, a2, a3, a4, a5⟩
        refine fin s' v' r a1 b1 b2 b3 a2 ?_ a4 a5
        rename_i _ e
        rw [a3, lst_nil (f := i + 1) (l := i + 1) (by omega), e,
          lst_nil (f := middle) (l := middle) (by omega)]
        simp
      · refine wp_mono (ih (first + 1) middle (i + 1) s1 _ (by omega) (by omega) (by omega)
          (by omega) hh1) ?_
        rintro r s' ⟨v', a1, b1, b2, b3, a2, a3, a4, a5⟩
        exact fin s' v' r a1 b1 b2 b3 a2 a3 a4 a5

theorem rotateForward_spec {f m l : Nat} {s : St α} {v : Nat → α} (h1 : f < m) (h2 : m < l)
    (hh : Holds s.cell f l v) :
    wp (rotateForward f m l) (fun r s' => r = f + (l - m) ∧ ∃ v', RotPost f m l s s' v v') s := by
  unfold rotateForward
  apply wp_bind
  refine wp_mono (rotateForward1_spec (l - m) f m m s v (by omega) h1 (by omega) h2 hh) ?_
  rintro ⟨r, m'⟩ s1 ⟨v1, a1, a2, a3, a4, a5, a6, a7, a8⟩
  simp only at a2 a3 a4 a6 ⊢
  rw [lst_nil (f := m) (l := m) (by omega), List.append_nil] at a6
  split
  · rename_i hne
    apply wp_bind
    refine wp_mono (rotateForward2_spec (l - r) r m' m' s1 v1 (by omega) (by omega) (by omega) a4
      (a1.sub (by omega) (Nat.le_refl _))) ?_
    rintro _ s2 ⟨v2, b1, b2, b3, b4, b5⟩
    apply wp_pure
    have hb : Frame f l s1 s2 := b4.mono (by omega) (by omega)
    refine ⟨a2, v2, ⟨?_, Rotated.of_lst (by omega) (by omega) ?_ ?_, a7.trans hb, by omega⟩⟩
    · intro k c d
      by_cases hk : k < r
      · rw [b4.cell k (by omega), a1 k c d, b2 k (by omega)]
      · exact b1 k (by omega) d
    · intro k hk; rw [b2 k (by omega), a5 k hk]
    · rw [← a6, lst_append (v := v2) (m := r) (by omega) (by omega), b3,
        lst_nil (f := m') (l := m') (by omega),
        lst_congr (v := v2) (w := v1) (f := f) fun k c d => b2 k (by omega)]
      simp
  · rename_i hne
    apply wp_pure
    have e : r = m' := by simpa using hne
    refine ⟨a2, v1, ⟨a1, Rotated.of_lst (by omega) (by omega) a5 ?_, a7, by omega⟩⟩
    rw [← a6, e, lst_nil (f := m') (l := m') (by omega), List.append_nil,
      ← lst_append (by omega) (by omega)]

end CppSort
