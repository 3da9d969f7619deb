import Verif.Base.Merge
import Verif.Model.Merge
set_option autoImplicit false

namespace CppSort
variable {α : Type} {lt : α → α → Bool}

/-- The comparison with `value` decides the predicate `p` (counting one comparison). -/
def Decides (cmp : α → α → M α Bool) (value : α) (p : α → Bool) : Prop :=
  ∀ x (s : St α), cmp x value s = some (.ok (p x), { s with cmps := s.cmps + 1 })

theorem Decides.wp {cmp : α → α → M α Bool} {value : α} {p : α → Bool}
    (h : Decides cmp value p) {x : α} {s : St α} {Q : Bool → St α → Prop}
    (hQ : Q (p x) { s with cmps := s.cmps + 1 }) : wp (cmp x value) Q s := ⟨_, _, h x s, hQ⟩

theorem decides_tick (value : α) : Decides (tick lt) value (fun x => lt x value) := fun _ _ => rfl

theorem decides_notFlip (value : α) :
    Decides (notC (flipC (tick lt))) value (fun x => !lt value x) := fun x s => by
  unfold notC flipC
  exact bind_ok (m := tick lt value x) rfl

theorem lowerBoundN_spec {cmp : α → α → M α Bool} {value : α} {p : α → Bool}
    (hd : Decides cmp value p) {f l : Nat} {v : Nat → α} :
    ∀ (n first size : Nat) (s : St α), size ≤ n → f ≤ first → first + size ≤ l →
    Holds s.cell f l v →
    (∀ i j, first ≤ i → i < j → j < first + size → p (v j) = true → p (v i) = true) →
    wp (lowerBoundN cmp first size value) (fun r s' => first ≤ r ∧ r ≤ first + size ∧
      (∀ i, first ≤ i → i < r → p (v i) = true) ∧
      (∀ i, r ≤ i → i < first + size → p (v i) = false) ∧
      ∃ k, s' = { s with cmps := k } ∧ (k = s.cmps ∨ 2 ^ (k - s.cmps) ≤ 2 * size) ∧ s.cmps ≤ k) s := by
  intro n
  induction n with
  | zero =>
    intro first size s hs _ _ _ _
    rw [lowerBoundN, if_neg (by omega)]
    apply wp_pure
    exact ⟨by omega, by omega, fun i _ _ => by omega, fun i _ _ => by omega, s.cmps, rfl, Or.inl rfl,
      Nat.le_refl _⟩
  | succ n ih =>
    intro first size s hs hf hl hh hm
    rw [lowerBoundN]
    split
    · rename_i h0
      wread hh
      apply wp_bind
      apply hd.wp
      split
      · rename_i hc
        refine wp_mono (ih (first + size / 2 + 1) (size - (size / 2 + 1)) _ (by omega) (by omega)
          (by omega) hh fun i j a b c => hm i j (by omega) b (by omega)) ?_
        rintro r s' ⟨h1, h2, h3, h4, k, rfl, h5, h6⟩
        simp only at h5 h6
        refine ⟨by omega, by omega, ?_, fun i a b => h4 i a (by omega), k, rfl, ?_, by omega⟩
        · intro i a b
          by_cases hi : first + size / 2 + 1 ≤ i
          · exact h3 i hi b
          · by_cases e : i = first + size / 2
            · rw [e]; exact hc
            · exact hm i (first + size / 2) a (by omega) (by omega) hc
        · right
          rw [show k - s.cmps = (k - (s.cmps + 1)) + 1 by omega, Nat.pow_succ]
          rcases h5 with e | e
          · rw [e]; simp; omega
          · omega
      · rename_i hc
        refine wp_mono (ih first (size / 2) _ (by omega) (by omega)
          (by omega) hh fun i j a b c => hm i j (by omega) b (by omega)) ?_
        rintro r s' ⟨h1, h2, h3, h4, k, rfl, h5, h6⟩
        simp only at h5 h6
        refine ⟨by omega, by omega, h3, ?_, k, rfl, ?_, by omega⟩
        · intro i a b
          by_cases hi : i < first + size / 2
          · exact h4 i a hi
          · by_cases e : i = first + size / 2
            · rw [e]; simpa using hc
            · cases hp : p (v i) with
              | false => rfl
              | true => exact absurd (hm (first + size / 2) i (by omega) (by omega) b hp) hc
        · right
          rw [show k - s.cmps = (k - (s.cmps + 1)) + 1 by omega, Nat.pow_succ]
          rcases h5 with e | e
          · rw [e]; simp; omega
          · omega
    · apply wp_pure
      exact ⟨by omega, by omega, fun i _ _ => by omega, fun i _ _ => by omega, s.cmps, rfl,
        Or.inl rfl, Nat.le_refl _⟩

/-- `lower_bound` in a sorted range: the first element that is not less than `value`. -/
theorem lowerBound_spec (hlt : StrictWeak lt) {f l first last : Nat} {v : Nat → α} {s : St α}
    (value : α) (h1 : f ≤ first) (h2 : first ≤ last) (h3 : last ≤ l) (hh : Holds s.cell f l v)
    (hs : SortedOn lt first last v) :
    wp (lowerBound (tick lt) first last value) (fun r s' => first ≤ r ∧ r ≤ last ∧
      (∀ i, first ≤ i → i < r → lt (v i) value = true) ∧
      (∀ i, r ≤ i → i < last → lt (v i) value = false) ∧
      ∃ k, s' = { s with cmps := k } ∧ (k = s.cmps ∨ 2 ^ (k - s.cmps) ≤ 2 * (last - first)) ∧ s.cmps ≤ k) s := by
  unfold lowerBound
  have := lowerBoundN_spec (decides_tick (lt := lt) value) (f := f) (l := l) (v := v) (last - first)
    first (last - first) s (Nat.le_refl _) h1 (by omega) hh
    (fun i j a b c hp => hlt.lt_of_le_of_lt (hs i j a b (by omega)) hp)
  rwa [show first + (last - first) = last by omega] at this

/-- `upper_bound` in a sorted range: the first element greater than `value`. -/
theorem upperBound_spec (hlt : StrictWeak lt) {f l first last : Nat} {v : Nat → α} {s : St α}
    (value : α) (h1 : f ≤ first) (h2 : first ≤ last) (h3 : last ≤ l) (hh : Holds s.cell f l v)
    (hs : SortedOn lt first last v) :
    wp (upperBound (tick lt) first last value) (fun r s' => first ≤ r ∧ r ≤ last ∧
      (∀ i, first ≤ i → i < r → lt value (v i) = false) ∧
      (∀ i, r ≤ i → i < last → lt value (v i) = true) ∧
      ∃ k, s' = { s with cmps := k } ∧ (k = s.cmps ∨ 2 ^ (k - s.cmps) ≤ 2 * (last - first)) ∧ s.cmps ≤ k) s := by
  unfold upperBound upperBoundN
  have := lowerBoundN_spec (decides_notFlip (lt := lt) value) (f := f) (l := l) (v := v)
    (last - first) first (last - first) s (Nat.le_refl _) h1 (by omega) hh
    (fun i j a b c hp => by
      simp only [Bool.not_eq_true'] at hp ⊢
      exact hlt.le_trans (hs i j a b (by omega)) hp)
  rw [show first + (last - first) = last by omega] at this
  simpa using this

theorem lowerMonoboundLoop_spec {cmp : α → α → M α Bool} {value : α} {p : α → Bool}
    (hd : Decides cmp value p) {f l : Nat} {v : Nat → α} :
    ∀ (n first size : Nat) (s : St α), size ≤ n → 0 < size → f ≤ first → first + size ≤ l →
    Holds s.cell f l v →
    (∀ i j, first ≤ i → i < j → j < first + size → p (v j) = true → p (v i) = true) →
    wp (lowerMonoboundLoop cmp first size value) (fun r s' => first ≤ r ∧ r < first + size ∧
      (∀ i, first ≤ i → i < r → p (v i) = true) ∧
      (∀ i, r < i → i < first + size → p (v i) = false) ∧
      ∃ k, s' = { s with cmps := k } ∧ s.cmps ≤ k) s := by
  intro n
  induction n with
  | zero => intros; omega
  | succ n ih =>
    intro first size s hs h0 hf hl hh hm
    rw [lowerMonoboundLoop]
    split
    · wread hh
      apply wp_bind
      apply hd.wp
      split
      · rename_i hc
        refine wp_mono (ih (first + size / 2) (size - size / 2) _ (by omega) (by omega) (by omega)
          (by omega) hh fun i j a b c => hm i j (by omega) b (by omega)) ?_
        rintro r s' ⟨h1, h2, h3, h4, k, rfl, h5⟩
        simp only at h5
        refine ⟨by omega, by omega, ?_, fun i a b => h4 i a (by omega), k, rfl, by omega⟩
        intro i a b
        by_cases hi : first + size / 2 ≤ i
        · exact h3 i hi b
        · exact hm i (first + size / 2) a (by omega) (by omega) hc
      · rename_i hc
        refine wp_mono (ih first (size - size / 2) _ (by omega) (by omega) (by omega)
          (by omega) hh fun i j a b c => hm i j (by omega) b (by omega)) ?_
        rintro r s' ⟨h1, h2, h3, h4, k, rfl, h5⟩
        simp only at h5
        refine ⟨by omega, by omega, h3, ?_, k, rfl, by omega⟩
        intro i a b
        by_cases hi : i < first + (size - size / 2)
        · exact h4 i a hi
        · cases hp : p (v i) with
          | false => rfl
          | true =>
            by_cases e : i = first + size / 2
            · rw [e] at hp; exact absurd hp hc
            · exact absurd (hm (first + size / 2) i (by omega) (by omega) b hp) hc
    · apply wp_pure
      exact ⟨by omega, by omega, fun i _ _ => by omega, fun i _ _ => by omega, s.cmps, rfl,
        Nat.le_refl _⟩

theorem lowerMonoboundN_spec {cmp : α → α → M α Bool} {value : α} {p : α → Bool}
    (hd : Decides cmp value p) {f l first size : Nat} {v : Nat → α} {s : St α} (hf : f ≤ first)
    (hl : first + size ≤ l) (hh : Holds s.cell f l v)
    (hm : ∀ i j, first ≤ i → i < j → j < first + size → p (v j) = true → p (v i) = true) :
    wp (lowerMonoboundN cmp first size value) (fun r s' => first ≤ r ∧ r ≤ first + size ∧
      (∀ i, first ≤ i → i < r → p (v i) = true) ∧
      (∀ i, r ≤ i → i < first + size → p (v i) = false) ∧
      ∃ k, s' = { s with cmps := k } ∧ s.cmps ≤ k) s := by
  unfold lowerMonoboundN
  split
  · apply wp_pure
    exact ⟨by omega, by omega, fun i _ _ => by omega, fun i _ _ => by omega, s.cmps, rfl,
      Nat.le_refl _⟩
  · apply wp_bind
    refine wp_mono (lowerMonoboundLoop_spec hd size first size s (Nat.le_refl _) (by omega) hf hl hh
      hm) ?_
    rintro r s' ⟨h1, h2, h3, h4, k, rfl, h5⟩
    wread hh
    apply wp_bind
    apply hd.wp
    split
    · rename_i hc
      apply wp_pure
      refine ⟨by omega, by omega, fun i a b => ?_, fun i a b => h4 i (by omega) b, k + 1, rfl,
        by omega⟩
      by_cases e : i = r
      · rw [e]; exact hc
      · exact h3 i a (by omega)
    · rename_i hc
      apply wp_pure
      refine ⟨by omega, by omega, h3, fun i a b => ?_, k + 1, rfl, by omega⟩
      by_cases e : i = r
      · rw [e]; simpa using hc
      · exact h4 i (by omega) b

end CppSort
