import Verif.Proof.AnyQuick
import Verif.Model.Pdq
/-
pdqsort.h with a comparison function which says that every element is before every other: the scan of the first partition
has no guard and runs past the end of the range.
-/
set_option autoImplicit false

namespace CppSort
variable {α β γ : Type}

/-- The program ends with a read of something which holds no value. -/
def Derefs (m : M α β) (s : St α) : Prop := ∃ s', m s = some (.error .deref, s')

theorem Derefs.here {m : M α β} {k : β → M α γ} {s : St α} (h : Derefs m s) : Derefs (m >>= k) s := by
  obtain ⟨s', h⟩ := h
  refine ⟨s', ?_⟩
  show ExceptT.bind m k s = _
  simp only [ExceptT.bind, ExceptT.mk, bind, StateT.bind, h]
  rfl

theorem Derefs.after {m : M α β} {k : β → M α γ} {s : St α} (h : wp m (fun r s' => Derefs (k r) s') s) :
    Derefs (m >>= k) s := by
  obtain ⟨r, s1, e, s2, h⟩ := h
  refine ⟨s2, ?_⟩
  show ExceptT.bind m k s = _
  simp only [ExceptT.bind, ExceptT.mk, bind, StateT.bind, e]
  exact h

theorem Derefs.read {i : Nat} {s : St α} (h : ∀ a, s.cell i ≠ .val a) : Derefs (read i) s := by
  refine ⟨s, ?_⟩
  unfold CppSort.read
  cases e : s.cell i with
  | val a => exact absurd e (h a)
  | _ => rfl

/-- pdqsort.h 361: the unguarded scan when the pivot is never reached. -/
theorem scanUp_derefs {lt : α → α → Bool} {f l h : Nat} {t : α} {v : Nat → α}
    (hlt : ∀ i, f ≤ i → i < l → lt (v i) t = true) : ∀ (n p : Nat) (s : St α), p + n = l → f ≤ p → h < p →
    HoldsX s.cell f l h v → (∀ a, s.cell l ≠ .val a) → Derefs (scanUp (belowPivot (tick lt) t) p) s := by
  intro n
  induction n with
  | zero =>
    intro p s h1 h2 h3 h4 h5
    rw [scanUp]
    refine Derefs.here ?_
    unfold belowPivot
    rw [show p = l by omega]
    exact Derefs.here (Derefs.read h5)
  | succ n ih =>
    intro p s h1 h2 h3 h4 h5
    rw [scanUp]
    refine Derefs.after ?_
    unfold belowPivot
    apply wp_bind
    refine wp_readX h4 h2 (by omega) (by omega) ?_
    refine wp_tick ?_
    rw [if_pos (hlt p h2 (by omega))]
    exact ih (p + 1) _ (by omega) (by omega) (by omega) h4 h5

theorem pdqPivot_any {T : Shape α → Prop} {cmp : α → α → M α Bool} (hc : AnswersW T cmp) {f l : Nat} (h : 24 ≤ l - f) :
    Intact T f l (pdqPivot cmp f l) fun _ => True := by
  unfold pdqPivot
  simp only []
  refine Keep.ite (fun _ => ?_) fun _ => ?_
  · refine (iterSort3_any hc (by omega) (by omega) (by omega)).bind ?_
    rintro _ _ ⟨rfl, -⟩
    refine (iterSort3_any hc (by omega) (by omega) (by omega)).bind ?_
    rintro _ _ ⟨rfl, -⟩
    refine (iterSort3_any hc (by omega) (by omega) (by omega)).bind ?_
    rintro _ _ ⟨rfl, -⟩
    refine (iterSort3_any hc (by omega) (by omega) (by omega)).bind ?_
    rintro _ _ ⟨rfl, -⟩
    keep
  · refine (iterSort3_any hc (by omega) (by omega) (by omega)).bind ?_
    rintro _ _ ⟨rfl, -⟩
    keep

theorem prScan_derefs {lt : α → α → Bool} {f l : Nat} {t : α} {v : Nat → α} {s : St α}
    (hlt : ∀ i, f ≤ i → i < l → lt (v i) t = true) (hfl : f < l) (hx : HoldsX s.cell f l f v)
    (hl : ∀ a, s.cell l ≠ .val a) : Derefs (prScan (tick lt) t f l) s := by
  unfold prScan
  exact Derefs.here (scanUp_derefs hlt (l - (f + 1)) (f + 1) s (by omega) (by omega) (by omega) hx hl)

theorem pdqPartition_derefs {lt : α → α → Bool} {f l : Nat} {v : Nat → α} {s : St α} (branchless : Bool)
    (hlt : ∀ i, f ≤ i → i < l → lt (v i) (v f) = true) (hfl : f < l) (hx : Holds s.cell f l v)
    (hl : ∀ a, s.cell l ≠ .val a) : Derefs (pdqPartition (tick lt) branchless f l) s := by
  unfold pdqPartition
  split
  · unfold partitionRightBranchless
    refine Derefs.after (wp_moveOut hx (Nat.le_refl _) hfl fun s' h1 fr _ _ => Derefs.here ?_)
    exact prScan_derefs hlt hfl h1 (by rw [fr.cell l (by omega)]; exact hl)
  · unfold partitionRight
    refine Derefs.after (wp_moveOut hx (Nat.le_refl _) hfl fun s' h1 fr _ _ => Derefs.here ?_)
    exact prScan_derefs hlt hfl h1 (by rw [fr.cell l (by omega)]; exact hl)

theorem pdqsort_derefs [Inhabited α] {lt : α → α → Bool} (branchless : Bool) {s : St α} {first : Nat} {xs : List α}
    (hs : Seg s.cell first xs) (hn : 24 ≤ xs.length) (hlt : ∀ x ∈ xs, ∀ y ∈ xs, lt x y = true)
    (hl : ∀ a, s.cell (first + xs.length) ≠ .val a) :
    Derefs (pdqsort (tick lt) branchless first (first + xs.length)) s := by
  obtain ⟨v, hv, he⟩ := hs.holds
  unfold pdqsort
  rw [if_neg (by omega), pdqsortLoop, if_neg (by omega)]
  refine Derefs.after (wp_mono ((pdqPivot_any (answers_tick _ lt).w (by omega)).wp s v hv) ?_)
  rintro _ s1 ⟨P, ⟨rfl, -⟩, v1, i1, p1, fr⟩
  have hm : ∀ i, first ≤ i → i < first + xs.length → v1 i ∈ xs := by
    intro i a b
    rw [← he]
    have := p1.2
    refine (this.mem_iff).1 ?_
    simp only [lst, List.mem_map, List.mem_range'_1]
    exact ⟨i, by omega, rfl⟩
  refine Derefs.after (wp_pure ?_)
  rw [if_neg (by simp)]
  refine Derefs.here (pdqPartition_derefs branchless (v := v1) ?_ (by omega) i1 ?_)
  · intro i a b
    exact hlt _ (hm i a b) _ (hm first (Nat.le_refl _) (by omega))
  · rw [fr.cell _ (by omega)]
    exact hl

end CppSort
