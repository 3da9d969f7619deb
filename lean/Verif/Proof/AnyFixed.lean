import Verif.Proof.AnyCmp
import Verif.Proof.Network
import Verif.Proof.Batcher
import Verif.Model.FixedSize
/-
The fixed-size sorters with any comparison function.
-/
set_option autoImplicit false

namespace CppSort
variable {α : Type} {T : Shape α → Prop} {cmp : α → α → M α Bool}

/-! ### Lists of exchanges -/

theorem swapIndexPairs_any (hc : AnswersW T cmp) {f n : Nat} : ∀ (ps : List (Nat × Nat)),
    (∀ p ∈ ps, p.1 < p.2 ∧ p.2 < n) → Intact T f (f + n) (swapIndexPairs cmp f ps) fun _ => True := by
  intro ps
  induction ps with
  | nil => intro _; unfold swapIndexPairs; keep
  | cons p ps ih =>
    intro h
    have := h p (by simp)
    unfold swapIndexPairs
    keep
    exact ih fun q hq => h q (by simp [hq])

theorem networkSort_any (hc : AnswersW T cmp) {f n : Nat} (hn : n ≤ 64) :
    Intact T f (f + n) (networkSort cmp n f (f + n)) fun _ => True := by
  unfold networkSort
  exact swapIndexPairs_any hc _ (netBody_range hn)

theorem mergeExchangeSort_any (hc : AnswersW T cmp) {f n : Nat} :
    Intact T f (f + n) (mergeExchangeSort cmp n f (f + n)) fun _ => True := by
  unfold mergeExchangeSort
  exact swapIndexPairs_any hc _ (mergeExchange_range n)

theorem oddEvenMergeSort_any (hc : AnswersW T cmp) {f t : Nat} :
    Intact T f (f + 2 ^ t) (oddEvenMergeSort cmp (2 ^ t) f (f + 2 ^ t)) fun _ => True := by
  unfold oddEvenMergeSort
  exact swapIndexPairs_any hc _ (oddEvenMerge_range t)

/-! ### Decision trees -/

/-- Every position of the chain lies below `n`, none is the one before it. -/
def chainFits (n : Nat) : Nat → List Nat → Bool
  | _, [] => true
  | h, c :: cs => decide (c < n) && decide (c ≠ h) && chainFits n c cs

def cycleFits (n : Nat) : List Nat → Bool
  | [] => true
  | c :: cs => decide (c < n) && chainFits n c cs

/-- Every position of the program lies below `n`. -/
def DP.fits (n : Nat) : DP → Nat → Bool
  | .nop, _ => true
  | .stop, _ => true
  | .cswap i j, o => decide (o + i < n) && decide (o + j < n)
  | .swap i j, o => decide (o + i < n) && decide (o + j < n)
  | .rotR m i, o => cycleFits n ((List.range' i m).reverse.map (o + ·))
  | .rotL m i, o => cycleFits n ((List.range' i m).map (o + ·))
  | .cyc cs, o => cycleFits n (cs.map (o + ·))
  | .ite i j t e, o => decide (o + i < n) && decide (o + j < n) && t.fits n o && e.fits n o
  | .seq a b, o => a.fits n o && b.fits n o
  | .catch a b, o => a.fits n o && b.fits n o
  | .call k p, o => p.fits n (o + k)

theorem moveChain_any {f n o : Nat} {t : α} : ∀ (cs : List Nat) (h : Nat),
    chainFits n (o + h) (cs.map (o + ·)) = true →
    Keep T f (f + n) (.hole (f + o + h) t) (moveChain (f + o) h cs) fun r P => P = .hole (f + o + r) t := by
  intro cs
  induction cs with
  | nil => intro h _; unfold moveChain; exact Keep.pure rfl
  | cons c cs ih =>
    intro h hh
    simp only [List.map_cons, chainFits, Bool.and_eq_true, decide_eq_true_eq] at hh
    unfold moveChain
    keep
    exact ih c hh.2

theorem cycleMoves_any {f n o : Nat} {cs : List Nat} (h : cycleFits n (cs.map (o + ·)) = true) :
    Intact (α := α) T f (f + n) (cycleMoves (f + o) cs) fun _ => True := by
  cases cs with
  | nil => unfold cycleMoves; keep
  | cons c cs =>
    simp only [List.map_cons, cycleFits, Bool.and_eq_true, decide_eq_true_eq] at h
    unfold cycleMoves
    keep
    refine (moveChain_any cs c h.2).bind ?_
    rintro _ _ rfl
    keep

theorem DP.exec_any (hc : AnswersW T cmp) {f n : Nat} : ∀ (p : DP) (o : Nat), p.fits n o = true →
    Intact T f (f + n) (p.exec cmp (f + o)) fun _ => True := by
  intro p
  induction p with
  | nop => intro o _; unfold DP.exec; keep
  | stop => intro o _; unfold DP.exec; keep
  | cswap i j =>
    intro o h
    simp only [DP.fits, Bool.and_eq_true, decide_eq_true_eq] at h
    unfold DP.exec
    keep
  | swap i j =>
    intro o h
    simp only [DP.fits, Bool.and_eq_true, decide_eq_true_eq] at h
    unfold DP.exec
    keep
  | rotR m i =>
    intro o h
    unfold DP.exec
    refine (cycleMoves_any h).bind ?_
    rintro _ _ ⟨rfl, -⟩
    keep
  | rotL m i =>
    intro o h
    unfold DP.exec
    refine (cycleMoves_any h).bind ?_
    rintro _ _ ⟨rfl, -⟩
    keep
  | cyc cs =>
    intro o h
    unfold DP.exec
    refine (cycleMoves_any h).bind ?_
    rintro _ _ ⟨rfl, -⟩
    keep
  | ite i j t e iht ihe =>
    intro o h
    simp only [DP.fits, Bool.and_eq_true, decide_eq_true_eq] at h
    unfold DP.exec
    keep
    · exact iht o h.1.2
    · exact ihe o h.2
  | seq a b iha ihb =>
    intro o h
    simp only [DP.fits, Bool.and_eq_true] at h
    unfold DP.exec
    refine (iha o h.1).bind ?_
    rintro _ _ ⟨rfl, -⟩
    refine Keep.ite (fun _ => by keep) fun _ => ihb o h.2
  | «catch» a b iha ihb =>
    intro o h
    simp only [DP.fits, Bool.and_eq_true] at h
    unfold DP.exec
    refine (iha o h.1).bind ?_
    rintro _ _ ⟨rfl, -⟩
    refine Keep.ite (fun _ => by keep) fun _ => ihb o h.2
  | call k p ih =>
    intro o h
    unfold DP.exec
    rw [Nat.add_assoc]
    refine (ih (o + k) h).bind ?_
    rintro _ _ ⟨rfl, -⟩
    keep

theorem lowComparisonsBody_fits : ∀ n : Fin 14, ((lowComparisonsBody n).getD .nop).fits n 0 = true ∧
    (lowComparisonsBody n).isSome = true := by decide +kernel

theorem lowComparisonsSort_any (hc : AnswersW T cmp) {f n : Nat} (hn : n ≤ 13) :
    Intact T f (f + n) (lowComparisonsSort cmp n f (f + n)) fun _ => True := by
  have h := lowComparisonsBody_fits ⟨n, by omega⟩
  unfold lowComparisonsSort
  simp only [] at h
  cases hp : lowComparisonsBody n with
  | none => rw [hp] at h; cases h.2
  | some p =>
    rw [hp] at h
    refine (DP.exec_any hc (f := f) p 0 h.1).bind ?_
    rintro _ _ ⟨rfl, -⟩
    keep

/-! ### `low_moves_sorter` -/

theorem minmaxLoop_any (hc : AnswersW T cmp) {f l lo last : Nat} (hf : f ≤ lo) (hl : last ≤ l) :
    ∀ (d b mn mx : Nat), last ≤ b + d → b < last → lo ≤ b → lo ≤ mn ∧ mn < last → lo ≤ mx ∧ mx < last →
    Intact T f l (minmaxLoop cmp b last mn mx) fun r => (lo ≤ r.1 ∧ r.1 < last) ∧ (lo ≤ r.2 ∧ r.2 < last) := by
  intro d
  induction d with
  | zero => intros; omega
  | succ d ih =>
    intro b mn mx h1 h2 h3 h4 h5
    rw [minmaxLoop]
    simp only []
    refine Keep.ite (fun _ => Keep.pure ⟨rfl, h4, h5⟩) fun e1 => ?_
    refine Keep.ite (fun _ => ?_) fun e2 => ?_
    · keep
    · have pick : ∀ (x y p q : Nat), lo ≤ x ∧ x < last → lo ≤ y ∧ y < last → lo ≤ p ∧ p < last → lo ≤ q ∧ q < last →
          Intact T f l (do if ← cmp (← read x) (← read y) then pure p else pure q) fun r => lo ≤ r ∧ r < last := by
        intro x y p q hx hy hp hq
        keep
      keep1
      keep1
      keep1
      refine Keep.ite (fun _ => ?_) fun _ => ?_
      · refine (pick _ _ _ _ (by omega) (by omega) (by omega) (by omega)).bind ?_
        rintro mn' _ ⟨rfl, h6⟩
        refine (pick _ _ _ _ (by omega) (by omega) (by omega) (by omega)).bind ?_
        rintro mx' _ ⟨rfl, h7⟩
        exact ih _ _ _ (by omega) (by omega) (by omega) h6 h7
      · refine (pick _ _ _ _ (by omega) (by omega) (by omega) (by omega)).bind ?_
        rintro mn' _ ⟨rfl, h6⟩
        refine (pick _ _ _ _ (by omega) (by omega) (by omega) (by omega)).bind ?_
        rintro mx' _ ⟨rfl, h7⟩
        exact ih _ _ _ (by omega) (by omega) (by omega) h6 h7

theorem swapUnlessSame_any {f l i j : Nat} (hi : f ≤ i ∧ i < l) (hj : f ≤ j ∧ j < l) :
    Keep (α := α) T f l .whole (swapUnlessSame i j) fun _ P => P = .whole := by
  unfold swapUnlessSame
  exact Keep.ite (fun _ => Keep.swap hi hj) fun _ => Keep.pure rfl

theorem lowMovesPlace_any {f l first last mn mx : Nat} (h1 : f ≤ first ∧ first < l) (h2 : f ≤ last ∧ last < l)
    (h3 : f ≤ mn ∧ mn < l) (h4 : f ≤ mx ∧ mx < l) :
    Intact (α := α) T f l (lowMovesPlace first last mn mx) fun _ => True := by
  unfold lowMovesPlace
  refine Keep.ite (fun _ => by keep) fun _ => Keep.ite (fun _ => ?_) fun _ => ?_
  · exact (swapUnlessSame_any h2 h4).next fun _ => (swapUnlessSame_any h1 h3).next fun _ => Keep.pure ⟨rfl, trivial⟩
  · exact (swapUnlessSame_any h1 h3).next fun _ => (swapUnlessSame_any h2 h4).next fun _ => Keep.pure ⟨rfl, trivial⟩

theorem lowMovesSort_any (hc : AnswersW T cmp) {f l : Nat} : ∀ (n first : Nat), f ≤ first → first + n ≤ l →
    Intact T f l (lowMovesSort cmp n first (first + n)) fun _ => True := by
  have s3 : ∀ first, f ≤ first → first + 3 ≤ l → Intact T f l (sortN3.exec cmp first) fun _ => True :=
    fun first h1 h2 => (DP.exec_any hc (f := first) (n := 3) sortN3 0 (by decide +kernel)).widen h1 h2
  intro n
  induction n using Nat.strongRecOn with
  | _ n ih =>
    intro first h1 h2
    match n, ih, h2 with
    | 0, _, _ => unfold lowMovesSort; keep
    | 1, _, _ => unfold lowMovesSort; keep
    | 2, _, h2 => unfold lowMovesSort; keep
    | 3, _, h2 =>
      unfold lowMovesSort
      refine (s3 first h1 h2).bind ?_
      rintro _ _ ⟨rfl, -⟩
      keep
    | 4, _, h2 =>
      unfold lowMovesSort
      rw [if_neg (by omega)]
      refine (uncheckedMinElement_any hc h1 (by omega) h2).bind ?_
      rintro m _ ⟨rfl, h3⟩
      keep
      · refine (s3 (first + 1) (by omega) (by omega)).bind ?_
        rintro _ _ ⟨rfl, -⟩
        keep
      · refine (s3 (first + 1) (by omega) (by omega)).bind ?_
        rintro _ _ ⟨rfl, -⟩
        keep
    | n + 5, ih, h2 =>
      unfold lowMovesSort uncheckedMinmax
      refine (minmaxLoop_any hc h1 h2 (n + 5) first first first (by omega) (by omega) (Nat.le_refl _) (by omega)
        (by omega)).bind ?_
      rintro ⟨mn, mx⟩ _ ⟨rfl, h3, h4⟩
      simp only [] at h3 h4 ⊢
      refine (lowMovesPlace_any (by omega) (by omega) (by omega) (by omega)).bind ?_
      rintro b _ ⟨rfl, -⟩
      refine Keep.ite (fun _ => ?_) fun _ => by keep
      rw [show first + (n + 5) - 1 = first + 1 + (n + 3) by omega]
      exact ih (n + 3) (by omega) (first + 1) (by omega) (by omega)

end CppSort
