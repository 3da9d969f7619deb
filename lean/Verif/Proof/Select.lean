import Verif.Proof.Quick
import Verif.Model.QuickMerge
set_option autoImplicit false

namespace CppSort
variable {α : Type} {lt : α → α → Bool}

/-- `x` is at position `p`, nothing before it is greater, nothing after it is less. -/
structure Piv (lt : α → α → Bool) (f p l : Nat) (v : Nat → α) (x : α) : Prop where
  lo : f ≤ p
  hi : p < l
  at_ : v p = x
  left : ∀ i, f ≤ i → i < p → lt x (v i) = false
  right : ∀ i, p < i → i < l → lt (v i) x = false

/-- Final exchange of `expand_partition_left`. -/
theorem Piv.finishLeft {r old p : Nat} {v : Nat → α} {x : α} (hp : p ≤ old) (hx : v (r + old) = x)
    (h1 : ∀ i, i < p → lt x (v (r + i)) = false)
    (h2 : ∀ i, p ≤ i → i < old → lt (v (r + i)) x = false) :
    Piv lt r (r + p) (r + old + 1) (swp v (r + old) (r + p)) x := by
  refine ⟨by omega, by omega, by rw [swp_r rfl]; exact hx, fun i a b => ?_, fun i a b => ?_⟩
  · rw [swp_o (by omega) (by omega)]
    have := h1 (i - r) (by omega)
    rwa [show r + (i - r) = i by omega] at this
  · by_cases e : i = r + old
    · rw [swp_l e]
      exact h2 p (Nat.le_refl _) (by omega)
    · rw [swp_o e (by omega)]
      have := h2 (i - r) (by omega) (by omega)
      rwa [show r + (i - r) = i by omega] at this

theorem epLeft1_spec (hlt : StrictWeak lt) (r lo old : Nat) (x : α) :
    ∀ (n left pivot : Nat) (s : St α) (v : Nat → α), lo - left = n → left ≤ lo → lo ≤ pivot →
    pivot ≤ old → Holds s.cell r (r + old + 1) v → v (r + old) = x →
    (∀ i, i < left → lt x (v (r + i)) = false) →
    (∀ i, lo ≤ i → i < pivot → lt x (v (r + i)) = false) →
    (∀ i, pivot ≤ i → i < old → lt (v (r + i)) x = false) →
    wp (epLeft1 (tick lt) r lo old left pivot) (fun res s' => ∃ v', Upd r (r + old + 1) s s' v v' ∧
      match res with
      | (p, none) => Piv lt r (r + p) (r + old + 1) v' x
      | (p, some left') => left' ≤ p ∧ p ≤ old ∧ v' (r + old) = x ∧
        (∀ i, i < left' → lt x (v' (r + i)) = false) ∧
        (∀ i, p ≤ i → i < old → lt (v' (r + i)) x = false)) s := by
  intro n
  induction n with
  | zero =>
    intro left pivot s v hn h1 h2 h3 hh hx ha hb hc
    rw [epLeft1]
    split
    · rw [if_pos (by omega)]
      apply wp_bind
      refine wp_swap hh (by omega) (by omega) ?_
      intro s1 u1
      refine wp_pure ⟨_, u1, Piv.finishLeft h3 hx (fun i a => ?_) hc⟩
      by_cases e : i < left
      · exact ha i e
      · exact hb i (by omega) a
    · exact wp_pure ⟨v, Upd.refl hh, by omega, h3, hx, ha, hc⟩
  | succ n ih =>
    intro left pivot s v hn h1 h2 h3 hh hx ha hb hc
    rw [epLeft1]
    split
    · rw [if_neg (by omega)]
      wread hh
      wread hh
      wtick
      rw [hx]
      split
      · rename_i hlo hcmp
        apply wp_bind
        refine wp_swap (v := v) (f := r) (l := r + old + 1) hh (by omega) (by omega) ?_
        intro s1 u1
        refine wp_mono (ih (left + 1) (pivot - 1) s1 _ (by omega) (by omega) (by omega) (by omega)
          u1.holds ?_ ?_ ?_ ?_) ?_
        · rw [swp_o (by omega) (by omega)]; exact hx
        · intro i a
          by_cases e : i = left
          · rw [swp_l (by omega)]; exact hb _ (by omega) (by omega)
          · rw [swp_o (by omega) (by omega)]; exact ha i (by omega)
        · intro i a b
          rw [swp_o (by omega) (by omega)]; exact hb i a (by omega)
        · intro i a b
          by_cases e : i = pivot - 1
          · rw [swp_r (by omega)]; exact hlt.asymm hcmp
          · rw [swp_o (by omega) (by omega)]; exact hc i (by omega) b
        · rintro res s2 ⟨v2, u2, h⟩
          exact ⟨v2, u1.tick.trans u2, h⟩
      · rename_i hlo hcmp
        refine wp_mono (ih (left + 1) pivot { s with cmps := s.cmps + 1 } v (by omega) (by omega)
          (by omega) (by omega) hh hx ?_ hb hc) ?_
        · intro i a
          by_cases e : i = left
          · subst e; simpa using hcmp
          · exact ha i (by omega)
        · rintro res s2 ⟨v2, u2, h⟩
          exact ⟨v2, u2.tick, h⟩
    · exact wp_pure ⟨v, Upd.refl hh, by omega, h3, hx, ha, hc⟩

theorem epLeftScan_spec (hlt : StrictWeak lt) (r old left : Nat) (x : α) :
    ∀ (n pivot : Nat) (s : St α) (v : Nat → α), pivot - left = n → left ≤ pivot → pivot ≤ old →
    Holds s.cell r (r + old + 1) v → v (r + old) = x → lt x (v (r + left)) = true →
    (∀ i, pivot ≤ i → i < old → lt (v (r + i)) x = false) →
    wp (epLeftScan (tick lt) r old left pivot) (fun res s' => ∃ v', Upd r (r + old + 1) s s' v v' ∧
      left ≤ res.1 ∧ res.1 ≤ old ∧ v' (r + old) = x ∧
      (∀ i, i < left → v' (r + i) = v (r + i)) ∧
      (∀ i, res.1 ≤ i → i < old → lt (v' (r + i)) x = false) ∧
      (res.2 = true → left < res.1 ∧ res.1 ≤ pivot ∧ lt (v' (r + left)) x = true) ∧
      (res.2 = false → res.1 = left)) s := by
  intro n
  induction n with
  | zero =>
    intro pivot s v hn h1 h2 hh hx hl hc
    rw [epLeftScan, if_pos (by omega)]
    exact wp_pure ⟨v, Upd.refl hh, h1, h2, hx, fun _ _ => rfl, hc, fun h => by simp at h,
      fun _ => by show pivot = left; omega⟩
  | succ n ih =>
    intro pivot s v hn h1 h2 hh hx hl hc
    rw [epLeftScan, if_neg (by omega)]
    wread hh
    wread hh
    wtick
    rw [hx]
    split
    · rename_i hcmp
      have hne : pivot - 1 ≠ left := by
        rintro e
        rw [e, hlt.asymm hl] at hcmp
        cases hcmp
      apply wp_bind
      refine wp_swap (v := v) (f := r) (l := r + old + 1) hh (by omega) (by omega) ?_
      intro s1 u1
      refine wp_pure ⟨_, u1.tick, by show left ≤ pivot - 1; omega, by show pivot - 1 ≤ old; omega,
        ?_, ?_, ?_, fun _ => ⟨by show left < pivot - 1; omega, by show pivot - 1 ≤ pivot; omega, ?_⟩,
        fun h => by simp at h⟩
      · rw [swp_o (by omega) (by omega)]; exact hx
      · intro i a; rw [swp_o (by omega) (by omega)]
      · intro i a b
        have a' : pivot - 1 ≤ i := a
        by_cases e : i = pivot - 1
        · rw [swp_r (by omega)]; exact hlt.asymm hl
        · rw [swp_o (by omega) (by omega)]; exact hc i (by omega) b
      · rw [swp_l rfl]; exact hcmp
    · rename_i hcmp
      refine wp_mono (ih (pivot - 1) { s with cmps := s.cmps + 1 } v (by omega) (by omega)
        (by omega) hh hx hl ?_) ?_
      · intro i a b
        by_cases e : i = pivot - 1
        · subst e; simpa using hcmp
        · exact hc i (by omega) b
      · rintro res s2 ⟨v2, u2, q1, q2, q3, q4, q5, q6, q7⟩
        refine ⟨v2, u2.tick, q1, q2, q3, q4, q5, fun h => ?_, q7⟩
        obtain ⟨a, b, c⟩ := q6 h
        exact ⟨a, by omega, c⟩

theorem epLeft2_spec (hlt : StrictWeak lt) (r old : Nat) (x : α) :
    ∀ (n left pivot : Nat) (s : St α) (v : Nat → α), pivot - left = n → left ≤ pivot →
    pivot ≤ old → Holds s.cell r (r + old + 1) v → v (r + old) = x →
    (∀ i, i < left → lt x (v (r + i)) = false) →
    (∀ i, pivot ≤ i → i < old → lt (v (r + i)) x = false) →
    wp (epLeft2 (tick lt) r old left pivot) (fun p s' => ∃ v', Upd r (r + old + 1) s s' v v' ∧
      Piv lt r (r + p) (r + old + 1) v' x) s := by
  intro n
  induction n using Nat.strongRecOn with
  | _ n ih =>
    intro left pivot s v hn h1 h2 hh hx ha hc
    rw [epLeft2]
    split
    · apply wp_bind
      refine wp_swap hh (by omega) (by omega) ?_
      intro s1 u1
      exact wp_pure ⟨_, u1, Piv.finishLeft h2 hx (fun i a => ha i (by omega)) hc⟩
    · wread hh
      wread hh
      wtick
      rw [hx]
      split
      · rename_i hne hcmp
        apply wp_bind
        refine wp_mono (epLeftScan_spec hlt r old left x (pivot - left) pivot
          { s with cmps := s.cmps + 1 } v rfl h1 h2 hh hx hcmp hc) ?_
        rintro ⟨p, b⟩ s1 ⟨v1, u1, q1, q2, q3, q4, q5, q6, q7⟩
        simp only at q1 q2 q5 q6 q7
        simp only
        cases b with
        | true =>
          obtain ⟨w1, w2, w3⟩ := q6 rfl
          simp only [if_true]
          refine wp_mono (ih (p - (left + 1)) (by omega) (left + 1) p s1 v1 rfl (by omega) q2
            u1.holds q3 ?_ q5) ?_
          · intro i a
            by_cases e : i = left
            · subst e; exact hlt.asymm w3
            · rw [q4 i (by omega)]; exact ha i (by omega)
          · rintro res s2 ⟨v2, u2, h⟩
            exact ⟨v2, u1.tick.trans u2, h⟩
        | false =>
          have e := q7 rfl
          subst e
          simp only [Bool.false_eq_true, if_false]
          apply wp_bind
          refine wp_swap u1.holds (by omega) (by omega) ?_
          intro s2 u2
          refine wp_pure ⟨_, u1.tick.trans u2, Piv.finishLeft q2 q3 (fun i a => ?_) q5⟩
          rw [q4 i a]; exact ha i a
      · rename_i hne hcmp
        refine wp_mono (ih (pivot - (left + 1)) (by omega) (left + 1) pivot
          { s with cmps := s.cmps + 1 } v rfl (by omega) h2 hh hx ?_ hc) ?_
        · intro i a
          by_cases e : i = left
          · subst e; simpa using hcmp
          · exact ha i (by omega)
        · rintro res s2 ⟨v2, u2, h⟩
          exact ⟨v2, u2.tick, h⟩

theorem expandPartitionLeft_spec (hlt : StrictWeak lt) {r lo pivot : Nat} {s : St α} {v : Nat → α}
    (h : lo ≤ pivot) (hh : Holds s.cell r (r + pivot + 1) v)
    (hb : ∀ i, lo ≤ i → i < pivot → lt (v (r + pivot)) (v (r + i)) = false) :
    wp (expandPartitionLeft (tick lt) r lo pivot) (fun p s' => ∃ v',
      Upd r (r + pivot + 1) s s' v v' ∧
      Piv lt r (r + p) (r + pivot + 1) v' (v (r + pivot))) s := by
  unfold expandPartitionLeft
  apply wp_bind
  refine wp_mono (epLeft1_spec hlt r lo pivot (v (r + pivot)) lo 0 pivot s v (by omega) (by omega) h
    (Nat.le_refl _) hh rfl (fun i a => by omega) hb (fun i a b => by omega)) ?_
  rintro ⟨p, o⟩ s1 ⟨v1, u1, h1⟩
  cases o with
  | none => exact wp_pure ⟨v1, u1, h1⟩
  | some left =>
    obtain ⟨a, b, c, d, e⟩ := h1
    refine wp_mono (epLeft2_spec hlt r pivot (v (r + pivot)) (p - left) left p s1 v1 rfl a b
      u1.holds c d e) ?_
    rintro res s2 ⟨v2, u2, h2⟩
    exact ⟨v2, u1.trans u2, h2⟩

/-- Final exchange of `expand_partition_right`. -/
theorem Piv.finishRight {r e p : Nat} {v : Nat → α} {x : α} (hp : p ≤ e) (hx : v r = x)
    (h1 : ∀ i, 1 ≤ i → i ≤ p → lt x (v (r + i)) = false)
    (h2 : ∀ i, p < i → i ≤ e → lt (v (r + i)) x = false) :
    Piv lt r (r + p) (r + e + 1) (swp v r (r + p)) x := by
  refine ⟨by omega, by omega, by rw [swp_r rfl]; exact hx, fun i a b => ?_, fun i a b => ?_⟩
  · by_cases e : i = r
    · rw [swp_l e]
      exact h1 p (by omega) (Nat.le_refl _)
    · rw [swp_o e (by omega)]
      have := h1 (i - r) (by omega) (by omega)
      rwa [show r + (i - r) = i by omega] at this
  · rw [swp_o (by omega) (by omega)]
    have := h2 (i - r) (by omega) (by omega)
    rwa [show r + (i - r) = i by omega] at this

theorem epRight1_spec (hlt : StrictWeak lt) (r hi e : Nat) (x : α) :
    ∀ (n pivot rite : Nat) (s : St α) (v : Nat → α), rite - hi = n → pivot ≤ hi → hi ≤ rite →
    rite ≤ e → Holds s.cell r (r + e + 1) v → v r = x →
    (∀ i, 1 ≤ i → i ≤ pivot → lt x (v (r + i)) = false) →
    (∀ i, pivot < i → i ≤ hi → lt (v (r + i)) x = false) →
    (∀ i, rite < i → i ≤ e → lt (v (r + i)) x = false) →
    wp (epRight1 (tick lt) r hi pivot rite) (fun res s' => ∃ v', Upd r (r + e + 1) s s' v v' ∧
      match res with
      | (p, none) => Piv lt r (r + p) (r + e + 1) v' x
      | (p, some rite') => p ≤ e ∧ rite' ≤ e ∧ v' r = x ∧
        (∀ i, 1 ≤ i → i ≤ p → lt x (v' (r + i)) = false) ∧
        (∀ i, p < i → rite' < i → i ≤ e → lt (v' (r + i)) x = false)) s := by
  intro n
  induction n with
  | zero =>
    intro pivot rite s v hn h1 h2 h3 hh hx ha hb hc
    rw [epRight1]
    split
    · rw [if_pos (by omega)]
      apply wp_bind
      refine wp_swap hh (by omega) (by omega) ?_
      intro s1 u1
      refine wp_pure ⟨_, u1, Piv.finishRight (by omega) hx ha (fun i a b => ?_)⟩
      by_cases e : i ≤ hi
      · exact hb i a e
      · exact hc i (by omega) b
    · exact wp_pure ⟨v, Upd.refl hh, by omega, h3, hx, ha, fun i _ b c => hc i b c⟩
  | succ n ih =>
    intro pivot rite s v hn h1 h2 h3 hh hx ha hb hc
    rw [epRight1]
    split
    · rw [if_neg (by omega)]
      wread hh
      wread hh
      wtick
      rw [hx]
      split
      · rename_i hlo hcmp
        apply wp_bind
        refine wp_swap (v := v) (f := r) (l := r + e + 1) hh (by omega) (by omega) ?_
        intro s1 u1
        refine wp_mono (ih (pivot + 1) (rite - 1) s1 _ (by omega) (by omega) (by omega) (by omega)
          u1.holds ?_ ?_ ?_ ?_) ?_
        · rw [swp_o (by omega) (by omega)]; exact hx
        · intro i a b
          by_cases e : i = pivot + 1
          · rw [swp_r (by omega)]; exact hlt.asymm hcmp
          · rw [swp_o (by omega) (by omega)]; exact ha i a (by omega)
        · intro i a b
          rw [swp_o (by omega) (by omega)]; exact hb i (by omega) b
        · intro i a b
          by_cases e : i = rite
          · rw [swp_l (by omega)]; exact hb _ (by omega) (by omega)
          · rw [swp_o (by omega) (by omega)]; exact hc i (by omega) b
        · rintro res s2 ⟨v2, u2, h⟩
          exact ⟨v2, u1.tick.trans u2, h⟩
      · rename_i hlo hcmp
        refine wp_mono (ih pivot (rite - 1) { s with cmps := s.cmps + 1 } v (by omega) (by omega)
          (by omega) (by omega) hh hx ha hb ?_) ?_
        · intro i a b
          by_cases e : i = rite
          · subst e; simpa using hcmp
          · exact hc i (by omega) b
        · rintro res s2 ⟨v2, u2, h⟩
          exact ⟨v2, u2.tick, h⟩
    · exact wp_pure ⟨v, Upd.refl hh, by omega, h3, hx, ha, fun i _ b c => hc i b c⟩

theorem epRightScan_spec (hlt : StrictWeak lt) (r e rite : Nat) (x : α) :
    ∀ (n pivot : Nat) (s : St α) (v : Nat → α), rite - pivot = n → pivot ≤ rite → rite ≤ e →
    Holds s.cell r (r + e + 1) v → v r = x → lt (v (r + rite)) x = true →
    (∀ i, 1 ≤ i → i ≤ pivot → lt x (v (r + i)) = false) →
    (∀ i, rite < i → i ≤ e → lt (v (r + i)) x = false) →
    wp (epRightScan (tick lt) r pivot rite) (fun p s' => ∃ v', Upd r (r + e + 1) s s' v v' ∧
      pivot ≤ p ∧ p ≤ rite ∧ v' r = x ∧
      (∀ i, 1 ≤ i → i ≤ p → lt x (v' (r + i)) = false) ∧
      (∀ i, p < i → rite - 1 < i → i ≤ e → lt (v' (r + i)) x = false)) s := by
  intro n
  induction n with
  | zero =>
    intro pivot s v hn h1 h2 hh hx hl ha hc
    rw [epRightScan, if_neg (by omega)]
    exact wp_pure ⟨v, Upd.refl hh, Nat.le_refl _, h1, hx, ha, fun i a b c => hc i (by omega) c⟩
  | succ n ih =>
    intro pivot s v hn h1 h2 hh hx hl ha hc
    rw [epRightScan, if_pos (by omega)]
    wread hh
    wread hh
    wtick
    rw [hx]
    split
    · rename_i hcmp
      have hne : pivot + 1 ≠ rite := by
        rintro e
        rw [e, hlt.asymm hl] at hcmp
        cases hcmp
      apply wp_bind
      refine wp_swap (v := v) (f := r) (l := r + e + 1) hh (by omega) (by omega) ?_
      intro s1 u1
      refine wp_pure ⟨_, u1.tick, by omega, by omega, ?_, ?_, ?_⟩
      · rw [swp_o (by omega) (by omega)]; exact hx
      · intro i a b
        by_cases e : i = pivot + 1
        · rw [swp_r (by omega)]; exact hlt.asymm hl
        · rw [swp_o (by omega) (by omega)]; exact ha i a (by omega)
      · intro i a b c
        by_cases e : i = rite
        · rw [swp_l (by omega)]; exact hlt.asymm hcmp
        · rw [swp_o (by omega) (by omega)]; exact hc i (by omega) c
    · rename_i hcmp
      refine wp_mono (ih (pivot + 1) { s with cmps := s.cmps + 1 } v (by omega) (by omega)
        (by omega) hh hx hl ?_ hc) ?_
      · intro i a b
        by_cases e : i = pivot + 1
        · subst e; simpa using hcmp
        · exact ha i a (by omega)
      · rintro res s2 ⟨v2, u2, q1, q2⟩
        exact ⟨v2, u2.tick, by omega, q2⟩

theorem epRight2_spec (hlt : StrictWeak lt) (r e : Nat) (x : α) :
    ∀ (n pivot rite : Nat) (s : St α) (v : Nat → α), rite - pivot = n → pivot ≤ e → rite ≤ e →
    Holds s.cell r (r + e + 1) v → v r = x →
    (∀ i, 1 ≤ i → i ≤ pivot → lt x (v (r + i)) = false) →
    (∀ i, pivot < i → rite < i → i ≤ e → lt (v (r + i)) x = false) →
    wp (epRight2 (tick lt) r pivot rite) (fun p s' => ∃ v', Upd r (r + e + 1) s s' v v' ∧
      Piv lt r (r + p) (r + e + 1) v' x) s := by
  intro n
  induction n using Nat.strongRecOn with
  | _ n ih =>
    intro pivot rite s v hn h1 h2 hh hx ha hc
    rw [epRight2]
    split
    · wread hh
      wread hh
      wtick
      rw [hx]
      split
      · rename_i hne hcmp
        apply wp_bind
        refine wp_mono (epRightScan_spec hlt r e rite x (rite - pivot) pivot
          { s with cmps := s.cmps + 1 } v rfl (by omega) h2 hh hx hcmp ha
          (fun i a b => hc i (by omega) a b)) ?_
        rintro p s1 ⟨v1, u1, q1, q2, q3, q4, q5⟩
        refine wp_mono (ih (rite - 1 - p) (by omega) p (rite - 1) s1 v1 rfl (by omega) (by omega)
          u1.holds q3 q4 q5) ?_
        rintro res s2 ⟨v2, u2, h⟩
        exact ⟨v2, u1.tick.trans u2, h⟩
      · rename_i hne hcmp
        refine wp_mono (ih (rite - 1 - pivot) (by omega) pivot (rite - 1)
          { s with cmps := s.cmps + 1 } v rfl h1 (by omega) hh hx ha ?_) ?_
        · intro i a b c
          by_cases e : i = rite
          · subst e; simpa using hcmp
          · exact hc i a (by omega) c
        · rintro res s2 ⟨v2, u2, h⟩
          exact ⟨v2, u2.tick, h⟩
    · apply wp_bind
      refine wp_swap hh (by omega) (by omega) ?_
      intro s1 u1
      exact wp_pure ⟨_, u1, Piv.finishRight h1 hx ha (fun i a b => hc i a (by omega) b)⟩

theorem expandPartitionRight_spec (hlt : StrictWeak lt) {r hi rite : Nat} {s : St α} {v : Nat → α}
    (h : hi ≤ rite) (hh : Holds s.cell r (r + rite + 1) v)
    (hb : ∀ i, 0 < i → i ≤ hi → lt (v (r + i)) (v r) = false) :
    wp (expandPartitionRight (tick lt) r hi rite) (fun p s' => ∃ v',
      Upd r (r + rite + 1) s s' v v' ∧ Piv lt r (r + p) (r + rite + 1) v' (v r)) s := by
  unfold expandPartitionRight
  apply wp_bind
  refine wp_mono (epRight1_spec hlt r hi rite (v r) (rite - hi) 0 rite s v rfl (by omega) h
    (Nat.le_refl _) hh rfl (fun i a b => by omega) hb (fun i a b => by omega)) ?_
  rintro ⟨p, o⟩ s1 ⟨v1, u1, h1⟩
  cases o with
  | none => exact wp_pure ⟨v1, u1, h1⟩
  | some rite' =>
    obtain ⟨a, b, c, d, e⟩ := h1
    refine wp_mono (epRight2_spec hlt r rite (v r) (rite' - p) p rite' s1 v1 rfl a b
      u1.holds c d e) ?_
    rintro res s2 ⟨v2, u2, h2⟩
    exact ⟨v2, u1.trans u2, h2⟩

theorem epScanLeft_spec (r lo pivot E : Nat) (hp : pivot ≤ E) {s0 : St α} {v : Nat → α}
    (hh : Holds s0.cell r (r + E + 1) v) (hlo : lo ≤ pivot) :
    ∀ (n left k : Nat), lo - left = n → left ≤ lo →
    (∀ i, i < left → lt (v (r + pivot)) (v (r + i)) = false) →
    wp (epScanLeft (tick lt) r lo pivot left) (fun res s' => ∃ k, s' = { s0 with cmps := k } ∧
      match res with
      | none => ∀ i, i < lo → lt (v (r + pivot)) (v (r + i)) = false
      | some q => q < lo ∧ lt (v (r + pivot)) (v (r + q)) = true ∧ left ≤ q ∧
          ∀ i, i < q → lt (v (r + pivot)) (v (r + i)) = false) { s0 with cmps := k } := by
  intro n
  induction n with
  | zero =>
    intro left k hn h ha
    rw [epScanLeft, if_pos (by omega)]
    exact wp_pure ⟨k, rfl, fun i a => ha i (by omega)⟩
  | succ n ih =>
    intro left k hn h ha
    rw [epScanLeft, if_neg (by omega)]
    apply wp_bind
    refine wp_read (v := v) hh (by omega) (by omega) ?_
    apply wp_bind
    refine wp_read (v := v) hh (by omega) (by omega) ?_
    wtick
    split
    · rename_i hc
      exact wp_pure ⟨k + 1, rfl, by omega, hc, Nat.le_refl _, ha⟩
    · rename_i hc
      refine wp_mono (ih (left + 1) (k + 1) (by omega) (by omega) ?_) ?_
      · intro i a
        by_cases e : i = left
        · subst e; simpa using hc
        · exact ha i (by omega)
      · rintro res s2 ⟨k', hk, h2⟩
        refine ⟨k', hk, ?_⟩
        cases res with
        | none => exact h2
        | some q => exact ⟨h2.1, h2.2.1, by have := h2.2.2.1; omega, h2.2.2.2⟩

theorem epScanRight_spec (hlt : StrictWeak lt) (r hi pivot E : Nat) (hp : pivot ≤ hi) {s0 : St α}
    {v : Nat → α} (hh : Holds s0.cell r (r + E + 1) v) :
    ∀ (n length k : Nat), length - hi = n → hi ≤ length → length ≤ E →
    (∀ i, length < i → i ≤ E → lt (v (r + i)) (v (r + pivot)) = false) →
    wp (epScanRight (tick lt) r hi pivot length) (fun res s' => ∃ k, s' = { s0 with cmps := k } ∧
      match res with
      | none => ∀ i, hi < i → i ≤ E → lt (v (r + i)) (v (r + pivot)) = false
      | some q => hi < q ∧ q ≤ length ∧ lt (v (r + pivot)) (v (r + q)) = false ∧
          ∀ i, q < i → i ≤ E → lt (v (r + i)) (v (r + pivot)) = false) { s0 with cmps := k } := by
  intro n
  induction n with
  | zero =>
    intro length k hn h hE ha
    rw [epScanRight, if_pos (by omega)]
    exact wp_pure ⟨k, rfl, fun i a b => ha i (by omega) b⟩
  | succ n ih =>
    intro length k hn h hE ha
    rw [epScanRight, if_neg (by omega)]
    apply wp_bind
    refine wp_read (v := v) hh (by omega) (by omega) ?_
    apply wp_bind
    refine wp_read (v := v) hh (by omega) (by omega) ?_
    wtick
    split
    · rename_i hc
      refine wp_mono (ih (length - 1) (k + 1) (by omega) (by omega) (by omega) ?_) ?_
      · intro i a b
        by_cases e : i = length
        · subst e; exact hlt.asymm hc
        · exact ha i (by omega) b
      · rintro res s2 ⟨k', hk, h2⟩
        refine ⟨k', hk, ?_⟩
        cases res with
        | none => exact h2
        | some q => exact ⟨h2.1, by have := h2.2.1; omega, h2.2.2⟩
    · rename_i hc
      exact wp_pure ⟨k + 1, rfl, by omega, Nat.le_refl _, by simpa using hc, ha⟩

theorem epLoop_spec (hlt : StrictWeak lt) (r lo pivot hi E : Nat) (x : α) (hlo : lo ≤ pivot)
    (hp : pivot ≤ hi) :
    ∀ (n left length : Nat) (s : St α) (v : Nat → α), lo - left = n → left ≤ lo → hi ≤ length →
    length ≤ E → Holds s.cell r (r + E + 1) v → v (r + pivot) = x →
    (∀ i, i < left → lt x (v (r + i)) = false) →
    (∀ i, lo ≤ i → i < pivot → lt x (v (r + i)) = false) →
    (∀ i, pivot < i → i ≤ hi → lt (v (r + i)) x = false) →
    (∀ i, length < i → i ≤ E → lt (v (r + i)) x = false) →
    wp (epLoop (tick lt) r lo pivot hi left length) (fun p s' => ∃ v',
      Upd r (r + E + 1) s s' v v' ∧ Piv lt r (r + p) (r + E + 1) v' x) s := by
  intro n
  induction n using Nat.strongRecOn with
  | _ n ih =>
    intro left length s v hn h1 h2 h3 hh hx ha hb hc hd
    rw [epLoop]
    apply wp_bind
    refine wp_mono (epScanLeft_spec (lt := lt) r lo pivot E (by omega) hh hlo (lo - left) left s.cmps rfl h1
      (by rw [hx]; exact ha)) ?_
    rintro res _ ⟨k, rfl, hres⟩
    cases res with
    | none =>
      rw [hx] at hres
      simp only
      apply wp_bind
      have hh' : Holds s.cell (r + pivot) (r + pivot + (length - pivot) + 1) v :=
        hh.sub (by omega) (by omega)
      refine wp_mono (expandPartitionRight_spec hlt (s := { s with cmps := k }) (by omega) hh' ?_) ?_
      · intro i a b
        rw [Nat.add_assoc, hx]
        exact hc _ (by omega) (by omega)
      · rintro p s1 ⟨v1, u1, q⟩
        rw [hx] at q
        have := q.hi
        refine wp_pure ⟨v1, (u1.tick.widen hh (by omega) (by omega)), by omega, by omega, ?_, ?_, ?_⟩
        · rw [← Nat.add_assoc]; exact q.at_
        · intro i a b
          by_cases e : i < r + pivot
          · rw [u1.perm.out (by omega)]
            have : lt x (v (r + (i - r))) = false := by
              by_cases e2 : i - r < lo
              · exact hres _ e2
              · exact hb _ (by omega) (by omega)
            rwa [show r + (i - r) = i by omega] at this
          · exact q.left i (by omega) (by omega)
        · intro i a b
          by_cases e : i < r + pivot + (length - pivot) + 1
          · exact q.right i (by omega) e
          · rw [u1.perm.out (by omega)]
            have := hd (i - r) (by omega) (by omega)
            rwa [show r + (i - r) = i by omega] at this
    | some q =>
      obtain ⟨q1, q2, q3, q4⟩ := hres
      rw [hx] at q2
      rw [hx] at q4
      simp only
      apply wp_bind
      refine wp_mono (epScanRight_spec hlt r hi pivot E hp hh (length - hi) length k rfl h2 h3
        (by rw [hx]; exact hd)) ?_
      rintro res _ ⟨k, rfl, hres⟩
      cases res with
      | none =>
        rw [hx] at hres
        simp only
        apply wp_bind
        have hh' : Holds s.cell (r + q) (r + q + (pivot - q) + 1) v :=
          hh.sub (by omega) (by omega)
        have e1 : r + q + (pivot - q) = r + pivot := by omega
        refine wp_mono (expandPartitionLeft_spec hlt (s := { s with cmps := k }) (lo := lo - q)
          (by omega) hh' ?_) ?_
        · intro i a b
          rw [e1, hx, Nat.add_assoc]
          exact hb _ (by omega) (by omega)
        · rintro p s1 ⟨v1, u1, w⟩
          rw [e1, hx] at w
          rw [e1] at u1
          have := w.hi
          refine wp_pure ⟨v1, (u1.tick.widen hh (by omega) (by omega)), by omega, by omega, ?_, ?_,
            ?_⟩
          · rw [← Nat.add_assoc]; exact w.at_
          · intro i a b
            by_cases e : i < r + q
            · rw [u1.perm.out (by omega)]
              have := q4 (i - r) (by omega)
              rwa [show r + (i - r) = i by omega] at this
            · exact w.left i (by omega) (by omega)
          · intro i a b
            by_cases e : i < r + pivot + 1
            · exact w.right i (by omega) e
            · rw [u1.perm.out (by omega)]
              have : lt (v (r + (i - r))) x = false := by
                by_cases e2 : i - r ≤ hi
                · exact hc _ (by omega) (by omega)
                · exact hres _ (by omega) (by omega)
              rwa [show r + (i - r) = i by omega] at this
      | some t =>
        obtain ⟨t1, t2, t3, t4⟩ := hres
        rw [hx] at t3 t4
        simp only
        apply wp_bind
        refine wp_swap (v := v) (f := r) (l := r + E + 1) hh (by omega) (by omega) ?_
        intro s1 u1
        refine wp_mono (ih (lo - (q + 1)) (by omega) (q + 1) (t - 1) s1 _ rfl (by omega) (by omega)
          (by omega) u1.holds ?_ ?_ ?_ ?_ ?_) ?_
        · rw [swp_o (by omega) (by omega)]; exact hx
        · intro i a
          by_cases e : i = q
          · rw [swp_l (by omega)]; exact t3
          · rw [swp_o (by omega) (by omega)]; exact q4 i (by omega)
        · intro i a b
          rw [swp_o (by omega) (by omega)]; exact hb i a b
        · intro i a b
          rw [swp_o (by omega) (by omega)]; exact hc i a b
        · intro i a b
          by_cases e : i = t
          · rw [swp_r (by omega)]; exact hlt.asymm q2
          · rw [swp_o (by omega) (by omega)]; exact t4 i (by omega) b
        · rintro res s2 ⟨v2, u2, h⟩
          exact ⟨v2, u1.tick.trans u2, h⟩

/-- adaptive_quickselect.h `expand_partition`: a pivot of a middle part becomes a pivot of the whole
range. -/
theorem expandPartition_spec (hlt : StrictWeak lt) {r lo pivot hi len : Nat} {s : St α} {v : Nat → α}
    (hlen : hi ≤ len) (hh : Holds s.cell r (r + len) v) {x : α}
    (hp : Piv lt (r + lo) (r + pivot) (r + hi) v x) :
    wp (expandPartition (tick lt) r lo pivot hi len) (fun p s' => p < len ∧ ∃ v',
      Upd r (r + len) s s' v v' ∧ Piv lt r (r + p) (r + len) v' x) s := by
  have h1 := hp.lo
  have h2 := hp.hi
  have e : r + (len - 1) + 1 = r + len := by omega
  unfold expandPartition
  refine wp_mono (epLoop_spec hlt r lo pivot (hi - 1) (len - 1) x (by omega) (by omega) lo 0
    (len - 1) s v (by omega) (by omega) (by omega) (Nat.le_refl _) (by rw [e]; exact hh) hp.at_
    (fun i a => by omega) (fun i a b => hp.left _ (by omega) (by omega))
    (fun i a b => hp.right _ (by omega) (by omega)) (fun i a b => by omega)) ?_
  rintro p s' ⟨v', u, q⟩
  rw [e] at u q
  have := q.hi
  exact ⟨by omega, v', u, q⟩

/-! ### The strategies -/

theorem pivotPartition_spec (hlt : StrictWeak lt) {r k len : Nat} {s : St α} {v : Nat → α}
    (hk : k < len) (hh : Holds s.cell r (r + len) v) :
    wp (pivotPartition (tick lt) r k len) (fun p s' => ∃ v' x, Upd r (r + len) s s' v v' ∧
      Piv lt r p (r + len) v' x) s := by
  unfold pivotPartition
  apply wp_bind
  refine wp_swap hh (by omega) (by omega) ?_
  intro s1 u1
  generalize hx : swp v r (r + k) r = x
  have hpred : IsPred r (r + len) r (r + len)
      (fun p => do return ! (← tick lt (← read r) (← read p)))
      (fun y => ! lt x y) (fun v => v r = x) := by
    refine ⟨fun s v p hh hI a b => ?_, fun v i j hI a b c d _ => ?_⟩
    · wread hh
      wread hh
      wtick
      rw [hI]
      exact wp_pure ⟨rfl, rfl⟩
    · show swp v i j r = x
      by_cases e : i = r
      · subst e
        rw [hI, hlt.irrefl] at d
        simp at d
      · rw [swp_o (by omega) (by omega)]; exact hI
  apply wp_bind
  refine wp_mono (partition_spec .random hpred (Nat.le_refl _) (Nat.le_refl _) (by omega) u1.holds
    hx) ?_
  rintro q s2 ⟨v2, u2, p2⟩
  have hlo := p2.lo
  have hhi := p2.hi
  have hx2 : v2 r = x := p2.inv
  have hq : r < q := by
    by_contra hc
    have := p2.right r (by omega) (by omega)
    rw [hx2, hlt.irrefl] at this
    simp at this
  apply wp_bind
  refine wp_swap u2.holds (by omega) (by omega) ?_
  intro s3 u3
  refine wp_pure ⟨_, x, (u1.trans u2).trans u3, by omega, by omega, ?_, ?_, ?_⟩
  · rw [swp_r rfl]; exact hx2
  · intro i a b
    by_cases e : i = r
    · rw [swp_l e]
      have := p2.left (q - 1) (by omega) (by omega)
      simpa using this
    · rw [swp_o e (by omega)]
      have := p2.left i a (by omega)
      simpa using this
  · intro i a b
    rw [swp_o (by omega) (by omega)]
    have := p2.right i (by omega) b
    simp only [Bool.not_eq_false'] at this
    exact hlt.asymm this

theorem minIndexLoop_spec (hlt : StrictWeak lt) (r lo : Nat) {s0 : St α} {v : Nat → α} {L : Nat}
    (hh : Holds s0.cell r L v) (limit : Nat) (hL : r + limit ≤ L) :
    ∀ (n j mi k : Nat), limit - j = n → lo ≤ mi → mi ≤ j → j < limit →
    (∀ i, lo ≤ i → i ≤ j → lt (v (r + i)) (v (r + mi)) = false) →
    wp (minIndexLoop (tick lt) r j limit mi) (fun q s' => ∃ k, s' = { s0 with cmps := k } ∧
      lo ≤ q ∧ q < limit ∧ ∀ i, lo ≤ i → i < limit → lt (v (r + i)) (v (r + q)) = false)
      { s0 with cmps := k } := by
  intro n
  induction n with
  | zero => intros; omega
  | succ n ih =>
    intro j mi k hn h1 h2 h3 ha
    rw [minIndexLoop]
    show wp (if j + 1 < limit then _ else _) _ _
    split
    · apply wp_bind
      refine wp_read (v := v) hh (by omega) (by omega) ?_
      apply wp_bind
      refine wp_read (v := v) hh (by omega) (by omega) ?_
      wtick
      split
      · rename_i hc
        refine ih (j + 1) (j + 1) (k + 1) (by omega) (by omega) (Nat.le_refl _) (by omega) ?_
        intro i a b
        by_cases e : i = j + 1
        · subst e; exact hlt.irrefl _
        · exact hlt.le_trans (hlt.asymm hc) (ha i a (by omega))
      · rename_i hc
        refine ih (j + 1) mi (k + 1) (by omega) h1 (by omega) (by omega) ?_
        intro i a b
        by_cases e : i = j + 1
        · subst e; simpa using hc
        · exact ha i a (by omega)
    · exact wp_pure ⟨k, rfl, h1, by omega, fun i a b => ha i a (by omega)⟩

theorem maxIndexLoop_spec (hlt : StrictWeak lt) (r lo : Nat) {s0 : St α} {v : Nat → α} {L : Nat}
    (hh : Holds s0.cell r L v) (limit : Nat) (hL : r + limit ≤ L) :
    ∀ (n j mi k : Nat), limit - j = n → lo ≤ mi → mi ≤ j → j < limit →
    (∀ i, lo ≤ i → i ≤ j → lt (v (r + mi)) (v (r + i)) = false) →
    wp (maxIndexLoop (tick lt) r j limit mi) (fun q s' => ∃ k, s' = { s0 with cmps := k } ∧
      lo ≤ q ∧ q < limit ∧ ∀ i, lo ≤ i → i < limit → lt (v (r + q)) (v (r + i)) = false)
      { s0 with cmps := k } := by
  intro n
  induction n with
  | zero => intros; omega
  | succ n ih =>
    intro j mi k hn h1 h2 h3 ha
    rw [maxIndexLoop]
    show wp (if j + 1 < limit then _ else _) _ _
    split
    · apply wp_bind
      refine wp_read (v := v) hh (by omega) (by omega) ?_
      apply wp_bind
      refine wp_read (v := v) hh (by omega) (by omega) ?_
      wtick
      split
      · rename_i hc
        refine ih (j + 1) (j + 1) (k + 1) (by omega) (by omega) (Nat.le_refl _) (by omega) ?_
        intro i a b
        by_cases e : i = j + 1
        · subst e; exact hlt.irrefl _
        · exact hlt.le_trans (ha i a (by omega)) (hlt.asymm hc)
      · rename_i hc
        refine ih (j + 1) mi (k + 1) (by omega) h1 (by omega) (by omega) ?_
        intro i a b
        by_cases e : i = j + 1
        · subst e; simpa using hc
        · exact ha i a (by omega)
    · exact wp_pure ⟨k, rfl, h1, by omega, fun i a b => ha i a (by omega)⟩

theorem minimaLoop_mixes (hlt : StrictWeak lt) (r over subset len : Nat) (ho : 0 < over) :
    ∀ (n i j : Nat), subset - i = n → i ≤ subset → subset ≤ len → j + over * n ≤ len →
    Mixes r (r + len) (minimaLoop (tick lt) r over i j subset) (fun _ => True) := by
  intro n
  induction n with
  | zero =>
    intro i j hn h1 h2 h3
    rw [minimaLoop, if_neg (by omega)]
    exact Mixes.pure trivial
  | succ n ih =>
    intro i j hn h1 h2 h3
    rw [minimaLoop, if_pos (by omega)]
    rw [Nat.mul_succ] at h3
    refine Mixes.bind (R := fun q => j ≤ q ∧ q < j + over) ?_ fun q hq => ?_
    · intro s v hh
      refine wp_mono (minIndexLoop_spec hlt r j hh (j + over) (by omega) over j j s.cmps (by omega)
        (Nat.le_refl _) (Nat.le_refl _) (by omega) (fun i a b => ?_)) ?_
      · rw [show i = j by omega]; exact hlt.irrefl _
      · rintro q _ ⟨k, rfl, a, b, -⟩
        exact ⟨⟨a, b⟩, v, (Upd.refl hh).tickr⟩
    · have hh : over * n ≥ 0 := Nat.zero_le _
      have ih' := ih (i + 1) (j + over) (by omega) (by omega) h2 (by omega)
      generalize over * n = z at *
      mix1
      mix1
      mix1
      mix1
      · mix1
        exact ih'
      · exact ih'

theorem maximaLoop_mixes (hlt : StrictWeak lt) (r over len : Nat) (ho : 0 < over) :
    ∀ (n i j : Nat), len - i = n → i ≤ len → j + over * n ≤ len →
    Mixes r (r + len) (maximaLoop (tick lt) r over i j len) (fun _ => True) := by
  intro n
  induction n with
  | zero =>
    intro i j hn h1 h3
    rw [maximaLoop, if_neg (by omega)]
    exact Mixes.pure trivial
  | succ n ih =>
    intro i j hn h1 h3
    rw [maximaLoop, if_pos (by omega)]
    rw [Nat.mul_succ] at h3
    refine Mixes.bind (R := fun q => j ≤ q ∧ q < j + over) ?_ fun q hq => ?_
    · intro s v hh
      refine wp_mono (maxIndexLoop_spec hlt r j hh (j + over) (by omega) over j j s.cmps (by omega)
        (Nat.le_refl _) (Nat.le_refl _) (by omega) (fun i a b => ?_)) ?_
      · rw [show i = j by omega]; exact hlt.irrefl _
      · rintro q _ ⟨k, rfl, a, b, -⟩
        exact ⟨⟨a, b⟩, v, (Upd.refl hh).tickr⟩
    · have ih' := ih (i + 1) (j + over) (by omega) (by omega) (by omega)
      generalize over * n = z at *
      mix1
      mix1
      mix1
      mix1
      · mix1
        exact ih'
      · exact ih'

theorem medianIndex_mixes {f l r a b c : Nat} (ha : f ≤ r + a ∧ r + a < l)
    (hb : f ≤ r + b ∧ r + b < l) (hc : f ≤ r + c ∧ r + c < l) :
    Mixes f l (medianIndex (tick lt) r a b c) (fun q => f ≤ r + q ∧ r + q < l) := by
  unfold medianIndex
  mix1
  mix1
  refine Mixes.bind Mixes.tick fun t _ => ?_
  split
  · rename_i heq
    cases t <;> simp only [Bool.false_eq_true, if_true, if_false, Prod.mk.injEq] at heq <;>
      obtain ⟨rfl, rfl⟩ := heq <;> mix

theorem ninther_mixes {f l r i1 i2 i3 i4 i5 i6 i7 i8 i9 : Nat} (h1 : f ≤ r + i1 ∧ r + i1 < l)
    (h2 : f ≤ r + i2 ∧ r + i2 < l) (h3 : f ≤ r + i3 ∧ r + i3 < l) (h4 : f ≤ r + i4 ∧ r + i4 < l)
    (h5 : f ≤ r + i5 ∧ r + i5 < l) (h6 : f ≤ r + i6 ∧ r + i6 < l) (h7 : f ≤ r + i7 ∧ r + i7 < l)
    (h8 : f ≤ r + i8 ∧ r + i8 < l) (h9 : f ≤ r + i9 ∧ r + i9 < l) :
    Mixes f l (ninther (tick lt) r i1 i2 i3 i4 i5 i6 i7 i8 i9) (fun _ => True) := by
  have htail : ∀ a b c d, f ≤ r + a ∧ r + a < l → f ≤ r + b ∧ r + b < l → f ≤ r + c ∧ r + c < l →
      f ≤ r + d ∧ r + d < l →
      Mixes f l (ninther.nintherTail (tick lt) r a b c d) (fun _ => True) := by
    intro a b c d ha hb hc hd
    unfold ninther.nintherTail
    mix
  unfold ninther
  refine Mixes.bind (medianIndex_mixes h1 h2 h3) fun m2 hm2 => ?_
  refine Mixes.bind (medianIndex_mixes h7 h8 h9) fun m8 hm8 => ?_
  mix1
  mix1
  refine Mixes.bind Mixes.tick fun t _ => ?_
  split
  rename_i n2 n8 heq
  have hn : (f ≤ r + n2 ∧ r + n2 < l) ∧ (f ≤ r + n8 ∧ r + n8 < l) := by
    cases t <;> simp only [Bool.false_eq_true, if_true, if_false, Prod.mk.injEq] at heq <;> omega
  obtain ⟨hn2, hn8⟩ := hn
  mix1
  mix1
  refine Mixes.bind Mixes.tick fun t _ => ?_
  split
  rename_i n4 n6 heq
  have hn : (f ≤ r + n4 ∧ r + n4 < l) ∧ (f ≤ r + n6 ∧ r + n6 < l) := by
    cases t <;> simp only [Bool.false_eq_true, if_true, if_false, Prod.mk.injEq] at heq <;> omega
  obtain ⟨hn4, hn6⟩ := hn
  mix1
  mix1
  mix1
  mix1
  · exact htail _ _ _ _ hn2 hn4 h5 hn8
  · mix1
    mix1
    mix1
    mix1
    · exact htail _ _ _ _ hn2 hn6 h5 hn8
    · mix

theorem nintherLoop_mixes (r frac hi len : Nat) :
    ∀ (n i a b : Nat), hi - i = n → i ≤ hi → frac ≤ i → hi + frac ≤ len → a + 3 * n ≤ len →
    b + 3 * n ≤ len →
    Mixes r (r + len) (nintherLoop (tick lt) r frac i hi a b) (fun _ => True) := by
  intro n
  induction n with
  | zero =>
    intro i a b hn h1 h2 h3 h4 h5
    rw [nintherLoop, if_neg (by omega)]
    exact Mixes.pure trivial
  | succ n ih =>
    intro i a b hn h1 h2 h3 h4 h5
    rw [nintherLoop, if_pos (by omega)]
    refine Mixes.bind (ninther_mixes (by omega) (by omega) (by omega) (by omega) (by omega)
      (by omega) (by omega) (by omega) (by omega)) fun _ _ => ?_
    exact ih (i + 1) (a + 3) (b + 3) (by omega) (by omega) (by omega) h3 (by omega) (by omega)

theorem nintherFrac_bounds {len : Nat} (h : 12 ≤ len) :
    1 ≤ nintherFrac len ∧ 12 * nintherFrac len ≤ len := by
  unfold nintherFrac
  split
  · omega
  · split <;> omega

/-- `adaptive_quickselect` for sizes below `N`. -/
def AdaOk (lt : α → α → Bool) (N : Nat) : Prop :=
  ∀ (r n len : Nat) (s : St α) (v : Nat → α), len < N → n < len → Holds s.cell r (r + len) v →
    wp (adaptiveQuickselect (tick lt) r n len) (fun _ s' => ∃ v' x, Upd r (r + len) s s' v v' ∧
      Piv lt r (r + n) (r + len) v' x) s

/-- Mixing a range, selecting in a part of it, expanding: common to the three strategies. -/
theorem strategy_spec (hlt : StrictWeak lt) {N : Nat} (hN : AdaOk lt N)
    {r lo n k len pivot hi : Nat} {mixer : M α Unit} (hm : Mixes r (r + len) mixer (fun _ => True))
    (h1 : lo + k ≤ len) (h2 : n < k) (h3 : k < N) (hp : pivot = lo + n) (hhi : hi = lo + k)
    {s : St α} {v : Nat → α} (hh : Holds s.cell r (r + len) v) :
    wp (do mixer; adaptiveQuickselect (tick lt) (r + lo) n k
           expandPartition (tick lt) r lo pivot hi len)
      (fun p s' => p < len ∧ ∃ v' x, Upd r (r + len) s s' v v' ∧
        Piv lt r (r + p) (r + len) v' x) s := by
  subst hp hhi
  apply wp_bind
  refine wp_mono (hm s v hh) ?_
  rintro _ s1 ⟨-, v1, u1⟩
  apply wp_bind
  refine wp_mono (hN (r + lo) n k s1 v1 h3 h2 (u1.holds.sub (by omega) (by omega))) ?_
  rintro _ s2 ⟨v2, x, u2, p2⟩
  have u2' := u2.widen u1.holds (show r ≤ r + lo by omega) (show r + lo + k ≤ r + len by omega)
  rw [Nat.add_assoc, Nat.add_assoc] at p2
  refine wp_mono (expandPartition_spec hlt h1 u2'.holds p2) ?_
  rintro p s3 ⟨hp, v3, u3, p3⟩
  exact ⟨hp, v3, x, (u1.trans u2').trans u3, p3⟩

theorem quickselectPivot_spec (hlt : StrictWeak lt) {N : Nat} (hN : AdaOk lt N) {r n len : Nat}
    {s : St α} {v : Nat → α} (h0 : 0 < n) (hn : n + 1 < len) (hlen : len ≤ N)
    (hh : Holds s.cell r (r + len) v) :
    wp (quickselectPivot (tick lt) r n len) (fun p s' => p < len ∧ ∃ v' x,
      Upd r (r + len) s s' v v' ∧ Piv lt r (r + p) (r + len) v' x) s := by
  rw [quickselectPivot]
  split
  · apply wp_bind
    refine wp_mono (pivotPartition_spec hlt (by omega) hh) ?_
    rintro p s1 ⟨v1, x, u1, p1⟩
    have a := p1.lo
    have b := p1.hi
    refine wp_pure ⟨by omega, v1, x, u1, ?_⟩
    rw [show r + (p - r) = p by omega]; exact p1
  · split
    · rw [medianOfMinima]
      have ho : 0 < (len - n * 2) / (n * 2) := Nat.div_pos (by omega) (by omega)
      have hm := Nat.div_mul_le_self (len - n * 2) (n * 2)
      refine strategy_spec hlt hN (lo := 0) (n := n) (k := n * 2)
        (minimaLoop_mixes hlt r _ (n * 2) len ho (n * 2) 0 (n * 2) (by omega) (by omega) (by omega)
          (by omega)) (by omega) (by omega) (by omega) (by omega) (by omega) hh
    · split
      · rw [medianOfMaxima]
        generalize hd : len - n = d
        have hdn : n = len - d := by omega
        have ho : 0 < (len - d * 2) / (d * 2) := Nat.div_pos (by omega) (by omega)
        have hm := Nat.div_mul_le_self (len - d * 2) (d * 2)
        refine strategy_spec hlt hN (lo := len - d * 2) (n := d) (k := d * 2)
          (maximaLoop_mixes hlt r _ len ho (d * 2) (len - d * 2) _ (by omega) (by omega) ?_)
          (by omega) (by omega) (by omega) (by omega) (by omega) hh
        rw [Nat.mul_comm (d * 2)]
        omega
      · rw [medianOfNinthers]
        obtain ⟨f1, f2⟩ := nintherFrac_bounds (len := len) (by omega)
        generalize nintherFrac len = frac at f1 f2
        refine strategy_spec hlt hN (lo := len / 2 - frac / 2) (n := frac / 2) (k := frac)
          (nintherLoop_mixes r frac _ len frac _ _ _ (by omega) (by omega) (by omega) (by omega)
            (by omega) (by omega))
          (by omega) (by omega) (by omega) (by omega) (by omega) hh

theorem adaOk (hlt : StrictWeak lt) : ∀ N, AdaOk lt N := by
  intro N
  induction N with
  | zero => intro r n len s v h; omega
  | succ N ih =>
    intro r n len s v h hn hh
    rw [adaptiveQuickselect]
    split
    · subst_vars
      apply wp_bind
      refine wp_mono (minIndexLoop_spec hlt r 0 hh len (Nat.le_refl _) len 0 0 s.cmps (by omega)
        (Nat.le_refl _) (Nat.le_refl _) (by omega) (fun i a b => ?_)) ?_
      · rw [show i = 0 by omega]; exact hlt.irrefl _
      · rintro q _ ⟨k, rfl, a, b, hq⟩
        refine wp_swap (v := v) (f := r) (l := r + len) hh (by omega) (by omega) ?_
        intro s1 u1
        refine ⟨_, v (r + q), u1.tick, by omega, by omega, ?_, fun i a b => by omega,
          fun i a b => ?_⟩
        · rw [swp_l (by omega)]
        · have h0 := hq 0 (by omega) (by omega)
          by_cases e : i = r + q
          · rw [swp_r e]; exact h0
          · rw [swp_o (by omega) e]
            have := hq (i - r) (by omega) (by omega)
            rwa [show r + (i - r) = i by omega] at this
    · split
      · apply wp_bind
        refine wp_mono (maxIndexLoop_spec hlt r 0 hh len (Nat.le_refl _) len 0 0 s.cmps (by omega)
          (Nat.le_refl _) (Nat.le_refl _) (by omega) (fun i a b => ?_)) ?_
        · rw [show i = 0 by omega]; exact hlt.irrefl _
        · rintro q _ ⟨k, rfl, a, b, hq⟩
          refine wp_swap (v := v) (f := r) (l := r + len) hh (by omega) (by omega) ?_
          intro s1 u1
          refine ⟨_, v (r + q), u1.tick, by omega, by omega, ?_, fun i a b => ?_,
            fun i a b => by omega⟩
          · rw [swp_r (by omega)]
          · by_cases e : i = r + q
            · rw [swp_l e]
              exact hq (len - 1) (by omega) (by omega)
            · rw [swp_o e (by omega)]
              have := hq (i - r) (by omega) (by omega)
              rwa [show r + (i - r) = i by omega] at this
      · apply wp_bind
        refine wp_mono (quickselectPivot_spec hlt ih (by omega) (by omega) (by omega) hh) ?_
        rintro p s1 ⟨hp, v1, x, u1, p1⟩
        show wp (if p = n then _ else _) _ _
        split
        · subst_vars
          exact wp_pure ⟨v1, x, u1, p1⟩
        · split
          · refine wp_mono (ih r n p s1 v1 (by omega) (by omega)
              (u1.holds.sub (Nat.le_refl _) (by omega))) ?_
            rintro _ s2 ⟨v2, y, u2, p2⟩
            refine ⟨v2, y, u1.trans (u2.widen u1.holds (Nat.le_refl _) (by omega)), p2.lo, by omega,
              p2.at_, p2.left, fun i a b => ?_⟩
            by_cases e : i < r + p
            · exact p2.right i a e
            · rw [u2.perm.out (by omega)]
              have hy : lt x y = false := by
                rw [← p2.at_]
                exact u2.perm.forall (P := fun z => lt x z = false) p1.left _ p2.lo p2.hi
              have hi : lt (v1 i) x = false := by
                by_cases e2 : i = r + p
                · rw [e2, p1.at_]; exact hlt.irrefl _
                · exact p1.right i (by omega) b
              exact hlt.le_trans hy hi
          · have hh' : Holds s1.cell (r + (p + 1)) (r + (p + 1) + (len - (p + 1))) v1 :=
              u1.holds.sub (by omega) (by omega)
            refine wp_mono (ih (r + (p + 1)) (n - (p + 1)) (len - (p + 1)) s1 v1 (by omega) (by omega)
              hh') ?_
            rintro _ s2 ⟨v2, y, u2, p2⟩
            have e1 : r + (p + 1) + (len - (p + 1)) = r + len := by omega
            have e2 : r + (p + 1) + (n - (p + 1)) = r + n := by omega
            rw [e1] at u2 p2
            rw [e2] at p2
            refine ⟨v2, y, u1.trans (u2.widen u1.holds (by omega) (Nat.le_refl _)), by omega, p2.hi,
              p2.at_, fun i a b => ?_, p2.right⟩
            by_cases e : r + (p + 1) ≤ i
            · exact p2.left i e b
            · rw [u2.perm.out (by omega)]
              have hy : lt y x = false := by
                rw [← p2.at_]
                exact u2.perm.forall (P := fun z => lt z x = false)
                  (fun j c d => p1.right j (by omega) d) _ p2.lo p2.hi
              have hi : lt x (v1 i) = false := by
                by_cases e2 : i = r + p
                · rw [e2, p1.at_]; exact hlt.irrefl _
                · exact p1.left i a (by omega)
              exact hlt.le_trans hi hy

/-- adaptive_quickselect.h, for every size. -/
theorem adaptiveQuickselect_spec (hlt : StrictWeak lt) {r n len : Nat} {s : St α} {v : Nat → α}
    (hn : n < len) (hh : Holds s.cell r (r + len) v) :
    wp (adaptiveQuickselect (tick lt) r n len) (fun _ s' => ∃ v' x, Upd r (r + len) s s' v v' ∧
      Piv lt r (r + n) (r + len) v' x) s :=
  adaOk hlt (len + 1) r n len s v (by omega) hn hh

theorem Piv.cut (hlt : StrictWeak lt) {f p l : Nat} {v : Nat → α} {x : α} (h : Piv lt f p l v x) :
    CutAt lt f p l v := by
  intro i j a b c d
  have h2 : lt (v j) x = false := by
    by_cases e : j = p
    · rw [e, h.at_]; exact hlt.irrefl _
    · exact h.right j (by omega) d
  exact hlt.le_trans (h.left i a b) h2

/-- nth_element.h: the returned position is `first + nth`, and the range is cut there. -/
theorem nthElement_spec (hlt : StrictWeak lt) (cat : Cat) {f l nth : Nat} {s : St α} {v : Nat → α}
    (hn : nth < l - f) (hh : Holds s.cell f l v) :
    wp (nthElement (tick lt) cat f l nth (l - f)) (fun r s' => r = f + nth ∧
      ∃ v', Upd f l s s' v v' ∧ CutAt lt f r l v') s := by
  cases cat with
  | forward => exact introselect_spec hlt _ hn hh
  | bidirectional => exact introselect_spec hlt _ hn hh
  | random =>
    simp only [nthElement, medianOfNinthersSelect]
    rw [if_pos (by omega)]
    have e : f + (l - f) = l := by omega
    apply wp_bind
    have := adaptiveQuickselect_spec hlt (r := f) (n := nth) (len := l - f) (s := s) (v := v) hn
      (by rw [e]; exact hh)
    rw [show f + nth - f = nth by omega]
    refine wp_mono this ?_
    rintro _ s' ⟨v', x, u, p⟩
    rw [e] at u p
    exact wp_pure ⟨rfl, v', u, p.cut hlt⟩

end CppSort
