import Verif.Base.Mix
import Verif.Model.Quick
set_option autoImplicit false

namespace CppSort
variable {α : Type} {lt : α → α → Bool}

/-- `pred` applied to the addresses in `[f, l)` computes `P` of the element, on states satisfying
`I`, which is preserved by the exchanges of a partition. -/
structure IsPred (F L f l : Nat) (pred : Nat → M α Bool) (P : α → Bool) (I : (Nat → α) → Prop) :
    Prop where
  run : ∀ (s : St α) (v : Nat → α) (p : Nat), Holds s.cell F L v → I v → f ≤ p → p < l →
    wp (pred p) (fun b s' => b = P (v p) ∧ s' = { s with cmps := s.cmps + 1 }) s
  swp : ∀ (v : Nat → α) (i j : Nat), I v → f ≤ i → i < j → j < l → P (v i) = false →
    P (v j) = true → I (swp v i j)

/-- What a partition guarantees. -/
structure Parted (f r l : Nat) (v v' : Nat → α) (P : α → Bool) (I : (Nat → α) → Prop) : Prop where
  lo : f ≤ r
  hi : r ≤ l
  perm : PermOn f l v v'
  left : ∀ i, f ≤ i → i < r → P (v' i) = true
  right : ∀ i, r ≤ i → i < l → P (v' i) = false
  inv : I v'

theorem partSkip_spec {F L f l : Nat} {pred : Nat → M α Bool} {P : α → Bool}
    {I : (Nat → α) → Prop} (hp : IsPred F L f l pred P I) (hF : F ≤ f) (hL : l ≤ L)
    {s0 : St α} {v : Nat → α} (hh : Holds s0.cell F L v) (hI : I v) :
    ∀ (n first k : Nat), f ≤ first → l = first + n →
    wp (partSkip pred first l) (fun r s' => ∃ k, s' = { s0 with cmps := k } ∧
      match r with
      | none => ∀ i, first ≤ i → i < l → P (v i) = true
      | some q => first ≤ q ∧ q < l ∧ P (v q) = false ∧ ∀ i, first ≤ i → i < q → P (v i) = true)
      { s0 with cmps := k } := by
  intro n
  induction n with
  | zero =>
    intro first k h1 h2
    rw [partSkip, if_pos (by omega)]
    exact wp_pure ⟨k, rfl, fun i a b => by omega⟩
  | succ n ih =>
    intro first k h1 h2
    rw [partSkip, if_neg (by omega)]
    apply wp_bind
    refine wp_mono (hp.run { s0 with cmps := k } v first hh hI h1 (by omega)) ?_
    rintro b _ ⟨hb, rfl⟩
    show wp (if b = true then _ else _) _ _
    split
    · rename_i hb'
      refine wp_mono (ih (first + 1) (k + 1) (by omega) (by omega)) ?_
      rintro r s' ⟨k', rfl, hr⟩
      refine ⟨k', rfl, ?_⟩
      cases r with
      | none =>
        intro i a b
        by_cases e : i = first
        · subst e; rw [← hb]; exact hb'
        · exact hr i (by omega) b
      | some q =>
        refine ⟨by have := hr.1; omega, hr.2.1, hr.2.2.1, fun i a b => ?_⟩
        by_cases e : i = first
        · subst e; rw [← hb]; exact hb'
        · exact hr.2.2.2 i (by omega) b
    · rename_i hb'
      exact wp_pure ⟨k + 1, rfl, Nat.le_refl _, by omega, by rw [← hb]; simpa using hb',
        fun i a b => by omega⟩

theorem partFwdLoop_spec {F L f l : Nat} {pred : Nat → M α Bool} {P : α → Bool}
    {I : (Nat → α) → Prop} (hp : IsPred F L f l pred P I) (hF : F ≤ f) (hL : l ≤ L) :
    ∀ (n first p : Nat) (s : St α) (v : Nat → α), Holds s.cell F L v → I v →
    l = p + 1 + n → f ≤ first → first ≤ p →
    (∀ i, f ≤ i → i < first → P (v i) = true) → (∀ i, first ≤ i → i ≤ p → P (v i) = false) →
    wp (partFwdLoop pred first p l) (fun r s' => ∃ v', Upd F L s s' v v' ∧
      Parted f r l v v' P I) s := by
  intro n
  induction n with
  | zero =>
    intro first p s v hh hI h1 h2 h3 hl hr
    rw [partFwdLoop]
    rw [if_neg (by omega)]
    exact wp_pure ⟨v, Upd.refl hh, h2, by omega, PermOn.refl _ _ _, hl,
      fun i a b => hr i a (by omega), hI⟩
  | succ n ih =>
    intro first p s v hh hI h1 h2 h3 hl hr
    rw [partFwdLoop]
    rw [if_pos (by omega)]
    apply wp_bind
    refine wp_mono (hp.run s v (p + 1) hh hI (by omega) (by omega)) ?_
    rintro b _ ⟨hb, rfl⟩
    show wp (if b = true then _ else _) _ _
    split
    · rename_i hb'
      apply wp_bind
      refine wp_swap (f := F) (l := L) (v := v) hh (by omega) (by omega) ?_
      intro s1 u1
      have hI' := hp.swp v first (p + 1) hI h2 (by omega) (by omega) (hr first (Nat.le_refl _) h3)
        (by rw [← hb]; exact hb')
      refine wp_mono (ih (first + 1) (p + 1) s1 _ u1.holds hI' (by omega) (by omega) (by omega)
        ?_ ?_) ?_
      · intro i a b
        by_cases e : i = first
        · rw [swp_l e, ← hb]; exact hb'
        · rw [swp_o e (by omega)]; exact hl i a (by omega)
      · intro i a b
        by_cases e : i = p + 1
        · rw [swp_r e]; exact hr first (Nat.le_refl _) h3
        · rw [swp_o (by omega) e]; exact hr i (by omega) (by omega)
      · rintro r s2 ⟨v2, u2, q⟩
        exact ⟨v2, u1.tick.trans u2, q.lo, q.hi,
          (PermOn.swp (by omega) (by omega)).trans q.perm, q.left, q.right, q.inv⟩
    · rename_i hb'
      refine wp_mono (ih first (p + 1) { s with cmps := s.cmps + 1 } v hh hI (by omega) h2
        (by omega) hl ?_) ?_
      · intro i a b
        by_cases e : i = p + 1
        · subst e; rw [← hb]; simpa using hb'
        · exact hr i a (by omega)
      · rintro r s2 ⟨v2, u2, q⟩
        exact ⟨v2, u2.tick, q⟩

theorem partBack_spec {F L f l : Nat} {pred : Nat → M α Bool} {P : α → Bool}
    {I : (Nat → α) → Prop} (hp : IsPred F L f l pred P I) (hF : F ≤ f) (hL : l ≤ L)
    {s0 : St α} {v : Nat → α} (hh : Holds s0.cell F L v) (hI : I v) :
    ∀ (n first last k : Nat), f ≤ first → last = first + n + 1 → last ≤ l →
    wp (partBack pred first last) (fun r s' => ∃ k, s' = { s0 with cmps := k } ∧
      match r with
      | none => ∀ i, first < i → i < last → P (v i) = false
      | some q => first < q ∧ q < last ∧ P (v q) = true ∧ ∀ i, q < i → i < last → P (v i) = false)
      { s0 with cmps := k } := by
  intro n
  induction n with
  | zero =>
    intro first last k h1 h2 h3
    rw [partBack]
    rw [if_pos (by omega)]
    exact wp_pure ⟨k, rfl, fun i a b => by omega⟩
  | succ n ih =>
    intro first last k h1 h2 h3
    rw [partBack]
    rw [if_neg (by omega)]
    apply wp_bind
    refine wp_mono (hp.run { s0 with cmps := k } v (last - 1) hh hI (by omega) (by omega)) ?_
    rintro b _ ⟨hb, rfl⟩
    show wp (if b = true then _ else _) _ _
    split
    · rename_i hb'
      exact wp_pure ⟨k + 1, rfl, by omega, by omega, by rw [← hb]; exact hb',
        fun i a b => by omega⟩
    · rename_i hb'
      refine wp_mono (ih first (last - 1) (k + 1) (by omega) (by omega) (by omega)) ?_
      rintro r s' ⟨k', rfl, hr⟩
      refine ⟨k', rfl, ?_⟩
      cases r with
      | none =>
        intro i a b
        by_cases e : i = last - 1
        · subst e; rw [← hb]; simpa using hb'
        · exact hr i a (by omega)
      | some q =>
        refine ⟨hr.1, by have := hr.2.1; omega, hr.2.2.1, fun i a b => ?_⟩
        by_cases e : i = last - 1
        · subst e; rw [← hb]; simpa using hb'
        · exact hr.2.2.2 i a (by omega)

theorem IsPred.sub {F L f l f' l' : Nat} {pred : Nat → M α Bool} {P : α → Bool}
    {I : (Nat → α) → Prop} (hp : IsPred F L f l pred P I) (hf : f ≤ f') (hl : l' ≤ l) :
    IsPred F L f' l' pred P I :=
  ⟨fun s v p a b c d => hp.run s v p a b (by omega) (by omega),
   fun v i j a b c d => hp.swp v i j a (by omega) c (by omega)⟩

theorem partitionBi_spec {F L f l : Nat} {pred : Nat → M α Bool} {P : α → Bool}
    {I : (Nat → α) → Prop} (hp : IsPred F L f l pred P I) (hF : F ≤ f) (hL : l ≤ L) :
    ∀ (n first last : Nat) (s : St α) (v : Nat → α), Holds s.cell F L v → I v →
    last - first < n → f ≤ first → first ≤ last → last ≤ l →
    wp (partitionBi pred first last) (fun r s' => ∃ v', Upd F L s s' v v' ∧
      Parted first r last v v' P I) s := by
  intro n
  induction n with
  | zero => intros; omega
  | succ n ih =>
    intro first last s v hh hI hn h1 h2 h3
    rw [partitionBi]
    apply wp_bind
    refine wp_mono (partSkip_spec (hp.sub (Nat.le_refl _) h3) hF (by omega) hh hI (last - first)
      first s.cmps h1 (by omega)) ?_
    rintro r _ ⟨k, rfl, hr⟩
    cases r with
    | none =>
      exact wp_pure ⟨v, (Upd.refl hh).tickr, h2, Nat.le_refl _, PermOn.refl _ _ _, hr,
        fun i a b => by omega, hI⟩
    | some q =>
      obtain ⟨q1, q2, q3, q4⟩ := hr
      apply wp_bind
      refine wp_mono (partBack_spec (hp.sub (Nat.le_refl _) h3) hF (by omega) hh hI
        (last - q - 1) q last k (by omega) (by omega) (Nat.le_refl _)) ?_
      rintro r _ ⟨k, rfl, hr⟩
      cases r with
      | none =>
        refine wp_pure ⟨v, (Upd.refl hh).tickr, q1, by omega, PermOn.refl _ _ _, q4,
          fun i a b => ?_, hI⟩
        by_cases e : i = q
        · subst e; exact q3
        · exact hr i (by omega) b
      | some p =>
        obtain ⟨p1, p2, p3, p4⟩ := hr
        apply wp_bind
        refine wp_swap (f := F) (l := L) (v := v) hh (by omega) (by omega) ?_
        intro s1 u1
        have hI' := hp.swp v q p hI (by omega) p1 (by omega) q3 p3
        refine wp_mono (ih (q + 1) p s1 _ u1.holds hI' (by omega) (by omega) (by omega)
          (by omega)) ?_
        rintro r s2 ⟨v2, u2, w⟩
        have lo := w.lo
        have hi := w.hi
        refine ⟨v2, u1.tick.trans u2, by omega, by omega,
          (PermOn.swp (by omega) (by omega)).trans (w.perm.mono (by omega) (by omega)), ?_, ?_,
          w.inv⟩
        · intro i a b
          by_cases e : q < i
          · exact w.left i (by omega) b
          · rw [w.perm.out (by omega)]
            by_cases e' : i = q
            · rw [swp_l e']; exact p3
            · rw [swp_o e' (by omega)]; exact q4 i a (by omega)
        · intro i a b
          by_cases e : i < p
          · exact w.right i a e
          · rw [w.perm.out (by omega)]
            by_cases e' : i = p
            · rw [swp_r e']; exact q3
            · rw [swp_o (by omega) e']; exact p4 i (by omega) b

/-- partition.h: for every predicate that does not depend on the exchanged elements. -/
theorem partition_spec {F L f l : Nat} {pred : Nat → M α Bool} {P : α → Bool}
    {I : (Nat → α) → Prop} (cat : Cat) (hp : IsPred F L f l pred P I) (hF : F ≤ f) (hL : l ≤ L)
    (hfl : f ≤ l) {s : St α} {v : Nat → α} (hh : Holds s.cell F L v) (hI : I v) :
    wp (partition cat pred f l) (fun r s' => ∃ v', Upd F L s s' v v' ∧ Parted f r l v v' P I) s := by
  unfold partition
  have hbi := partitionBi_spec hp hF hL (l - f + 1) f l s v hh hI (by omega) (Nat.le_refl _) hfl
    (Nat.le_refl _)
  cases cat with
  | forward =>
    simp only [partitionFwd]
    apply wp_bind
    refine wp_mono (partSkip_spec hp hF hL hh hI (l - f) f s.cmps (Nat.le_refl _) (by omega)) ?_
    rintro r _ ⟨k, rfl, hr⟩
    cases r with
    | none =>
      exact wp_pure ⟨v, (Upd.refl hh).tickr, hfl, Nat.le_refl _, PermOn.refl _ _ _, hr,
        fun i a b => by omega, hI⟩
    | some q =>
      obtain ⟨q1, q2, q3, q4⟩ := hr
      refine wp_mono (partFwdLoop_spec hp hF hL (l - q - 1) q q { s with cmps := k } v hh hI
        (by omega) q1 (Nat.le_refl _) q4 ?_) ?_
      · intro i a b
        rw [show i = q by omega]; exact q3
      · rintro r s2 ⟨v2, u2, q⟩
        exact ⟨v2, u2.tick, q⟩
  | bidirectional => exact hbi
  | random => exact hbi

/-- Predicates comparing with a pivot that stays in place, outside the partitioned part. -/
theorem isPred_ltPivot {F L f l piv : Nat} {x : α} (h1 : F ≤ piv) (h2 : piv < L)
    (hF : F ≤ f) (hL : l ≤ L) (ho : piv < f ∨ l ≤ piv) :
    IsPred F L f l (fun p => do tick lt (← read p) (← read piv)) (fun y => lt y x)
      (fun v => v piv = x) := by
  refine ⟨fun s v p hh hI a b => ?_, fun v i j hI a b c _ _ => ?_⟩
  · wread hh
    wread hh
    rw [hI]
    exact wp_tick ⟨rfl, rfl⟩
  · show swp v i j piv = x
    rw [swp_o (by omega) (by omega)]; exact hI

theorem isPred_notPivotLt {F L f l piv : Nat} {x : α} (h1 : F ≤ piv) (h2 : piv < L)
    (hF : F ≤ f) (hL : l ≤ L) (ho : piv < f ∨ l ≤ piv) :
    IsPred F L f l (fun p => do return ! (← tick lt (← read piv) (← read p)))
      (fun y => ! lt x y) (fun v => v piv = x) := by
  refine ⟨fun s v p hh hI a b => ?_, fun v i j hI a b c _ _ => ?_⟩
  · wread hh
    wread hh
    wtick
    rw [hI]
    exact wp_pure ⟨rfl, rfl⟩
  · show swp v i j piv = x
    rw [swp_o (by omega) (by omega)]; exact hI

end CppSort
