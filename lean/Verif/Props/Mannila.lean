import Verif.Proof.MannilaRank
import Mathlib.Tactic.IntervalCases
set_option autoImplicit false

/-!
Mannila's definition of the measures of presortedness (C77, C78), as the documentation gives it
(docs/Measures-of-presortedness.md 7-15), for sequences of pairwise distinct elements. `Gives m r`: from every state,
`m` returns `r`. `IsMop V` is the conjunction of the five properties `Mannila.Zero`, `Iso`, `Sub`, `Cat`, `Cons` with
the fact that the measure has a value on every sequence of distinct elements.
-/

namespace CppSort
namespace Measures

/-- The value of `probe::inv`. -/
def inv : Meas := fun _ _ lt xs r => Gives (probeInv lt xs) r
/-- The value of `probe::runs`. -/
def runs : Meas := fun _ _ lt xs r => Gives (probeRuns (tick lt) xs) r
/-- The value of `probe::dis`. -/
def dis (bidirectional memory : Bool) : Meas := fun _ _ lt xs r => Gives (probeDis (tick lt) bidirectional memory xs) r
/-- The value of `probe::rem`. -/
def rem : Meas := fun _ _ lt xs r => Gives (probeRem (tick lt) xs) r
/-- The value of `probe::sus`. -/
def sus : Meas := fun _ _ lt xs r => Gives (probeSus (tick lt) xs) r
/-- The value of `probe::max`. -/
def max (bl : Bool) : Meas := fun _ _ lt xs r => Gives (probeMax lt bl xs) r
/-- The value of `probe::enc`. -/
def enc : Meas := fun _ _ lt xs r => Gives (probeEnc (tick lt) xs) r
/-- The value of `probe::mono`. -/
def mono : Meas := fun _ _ lt xs r => Gives (probeMono (tick lt) xs) r
/-- The value of `probe::osc` (a signed integer in the model). -/
def osc (bl memory : Bool) : Meas := fun _ _ lt xs r => Gives (probeOsc lt bl memory xs) (r : Int)
/-- The value of `probe::exc`. -/
def exc (bl : Bool) : Meas := fun _ _ lt xs r => Gives (probeExc lt bl xs) r
/-- The value of `probe::ham`. -/
def ham (bl : Bool) : Meas := fun _ _ lt xs r => Gives (probeHam lt bl xs) r
/-- The value of `probe::block`. -/
def block (bl : Bool) : Meas := fun _ _ lt xs r => Gives (probeBlock lt bl xs) r

theorem inv_spec : Spec inv fun _ lt xs r => r = invCount lt xs where
  has := fun _ _ _ hlt xs _ => (probeInv_keeps hlt xs).gives fun a b ha hb => ha.trans hb.symm
  one := fun _ _ _ _ _ _ => Gives.unique
  uniq := fun _ _ _ _ _ _ a b ha hb => ha.trans hb.symm

theorem runs_spec : Spec runs fun _ lt xs r => r = stepDowns lt xs where
  has := fun _ _ _ _ xs _ => (probeRuns_runs xs).keeps.gives fun a b ha hb => ha.trans hb.symm
  one := fun _ _ _ _ _ _ => Gives.unique
  uniq := fun _ _ _ _ _ _ a b ha hb => ha.trans hb.symm

theorem dis_spec (bidirectional memory : Bool) : Spec (dis bidirectional memory) fun _ lt xs r => MaxInvDist lt xs r where
  has := fun _ _ _ hlt xs _ => (probeDis_runs hlt bidirectional memory xs).keeps.gives fun _ _ => MaxInvDist.unique
  one := fun _ _ _ _ _ _ => Gives.unique
  uniq := fun _ _ _ _ _ _ _ _ => MaxInvDist.unique

theorem rem_spec : Spec rem fun _ lt xs r => RemIs lt xs r where
  has := fun _ _ _ hlt xs _ => (probeRem_runs hlt xs).keeps.gives fun _ _ => RemIs.unique
  one := fun _ _ _ _ _ _ => Gives.unique
  uniq := fun _ _ _ _ _ _ _ _ => RemIs.unique

theorem sus_spec : Spec sus fun _ lt xs r => SusIs lt xs r where
  has := fun _ _ _ hlt xs _ => ((probeSus_runs hlt xs).keeps.mono fun r h => by
    rcases h with ⟨rfl, rfl⟩ | ⟨h1, h2⟩
    · exact ⟨⟨fun _ => 0, fun _ _ => Nat.zero_lt_one, fun i j hi hj => by simp at hj⟩, fun k _ => by omega⟩
    · exact ⟨h1, fun k hk => by have := h2 _ hk; omega⟩).gives fun _ _ => SusIs.unique
  one := fun _ _ _ _ _ _ => Gives.unique
  uniq := fun _ _ _ _ _ _ _ _ => SusIs.unique

theorem max_spec (bl : Bool) : Spec (max bl) fun _ lt xs r => MaxOff lt xs r where
  has := fun _ _ _ hlt xs hd => ((probeMax_keeps hlt bl xs).mono fun r h => by
    obtain ⟨ys, h1, h2⟩ := exists_sorted hlt xs
    exact (h ys h1 h2).off hlt hd h1 h2).gives fun _ _ => MaxOff.unique
  one := fun _ _ _ _ _ _ => Gives.unique
  uniq := fun _ _ _ _ _ _ _ _ => MaxOff.unique

theorem enc_spec : Spec enc fun _ lt xs r => r = (encroaching lt xs).length - 1 where
  has := fun _ _ _ hlt xs _ => (probeEnc_runs hlt xs).keeps.gives fun a b ha hb => ha.trans hb.symm
  one := fun _ _ _ _ _ _ => Gives.unique
  uniq := fun _ _ _ _ _ _ a b ha hb => ha.trans hb.symm

theorem mono_spec : Spec mono fun _ lt xs r => MinCuts lt xs r where
  has := fun _ _ _ hlt xs _ => (probeMono_runs hlt xs).keeps.gives fun _ _ => MinCuts.unique
  one := fun _ _ _ _ _ _ => Gives.unique
  uniq := fun _ _ _ _ _ _ _ _ => MinCuts.unique

theorem osc_spec (bl memory : Bool) : Spec (osc bl memory) fun _ lt xs r => r = oscOf lt xs where
  has := fun _ _ lt hlt xs _ => by
    obtain ⟨r, h1, h2⟩ := (probeOsc_keeps hlt bl memory xs).gives fun a b ha hb => ha.trans hb.symm
    subst h2
    exact ⟨oscOf lt xs, h1, rfl⟩
  one := fun _ _ _ _ _ _ h h' => by exact_mod_cast Gives.unique h h'
  uniq := fun _ _ _ _ _ _ a b ha hb => ha.trans hb.symm

theorem exc_spec (bl : Bool) : Spec (exc bl) fun _ lt xs r => ExcIs lt xs r where
  has := fun _ _ _ hlt xs hd => ((probeExc_keeps hlt bl xs).mono fun r h => ⟨h.1, h.2.1, h.2.2 hd⟩).gives
    fun _ _ => ExcIs.unique
  one := fun _ _ _ _ _ _ => Gives.unique
  uniq := fun _ _ _ _ _ _ _ _ => ExcIs.unique

theorem ham_spec (bl : Bool) : Spec (ham bl) fun _ lt xs r => r = misplaced lt xs where
  has := fun _ _ lt hlt xs hd => ((probeHam_keeps hlt bl xs).mono (R' := fun r => r = misplaced lt xs) fun r h => by
    obtain ⟨ys, h1, h2⟩ := exists_sorted hlt xs
    rw [h ys h1 h2, misplaced_zip hlt hd h1 h2]).gives fun a b ha hb => ha.trans hb.symm
  one := fun _ _ _ _ _ _ => Gives.unique
  uniq := fun _ _ _ _ _ _ a b ha hb => ha.trans hb.symm

theorem block_spec (bl : Bool) : Spec (block bl) fun _ lt xs r => r = brokenIn lt xs where
  has := fun _ _ lt hlt xs hd => ((probeBlock_keeps hlt bl xs).mono (R' := fun r => r = brokenIn lt xs) fun r h => by
    obtain ⟨ys, h1, h2⟩ := exists_sorted hlt xs
    rw [h.2 hd ys h1 h2, brokenPairs_in hlt hd h1 h2]).gives fun a b ha hb => ha.trans hb.symm
  one := fun _ _ _ _ _ _ => Gives.unique
  uniq := fun _ _ _ _ _ _ a b ha hb => ha.trans hb.symm

end Measures

open Measures

/-- C77. `probe::inv` is a measure of presortedness. -/
theorem C77_inv : IsMop inv := inv_mop inv_spec

/-- C77. `probe::runs` is a measure of presortedness. -/
theorem C77_runs : IsMop runs := runs_mop runs_spec

/-- C77. `probe::dis` is a measure of presortedness, with every algorithm. -/
theorem C77_dis (bidirectional memory : Bool) : IsMop (dis bidirectional memory) := dis_mop (dis_spec _ _)

/-- C77. `probe::rem` is a measure of presortedness. -/
theorem C77_rem : IsMop rem := rem_mop rem_spec

/-- C77. `probe::sus` is a measure of presortedness. -/
theorem C77_sus : IsMop sus := sus_mop sus_spec

/-- C77. `probe::max` is a measure of presortedness. -/
theorem C77_max (bl : Bool) : IsMop (max bl) := max_mop (max_spec bl)

/-- C78, the part that holds of `probe::enc`: all the properties but the fourth (see `C78_enc_cat_false`). -/
theorem C78_enc_partial : Mannila.Valued enc ∧ Mannila.Zero enc ∧ Mannila.Iso enc ∧ Mannila.Sub enc ∧
    Mannila.Cons enc :=
  have h := enc_part enc_spec
  ⟨h.valued, h.zero, h.iso, h.sub, h.cons⟩

/-- C78, the part that holds of `probe::mono`: all the properties but the fourth (see `C78_mono_cat_false`). -/
theorem C78_mono_partial : Mannila.Valued mono ∧ Mannila.Zero mono ∧ Mannila.Iso mono ∧ Mannila.Sub mono ∧
    Mannila.Cons mono :=
  have h := mono_part mono_spec
  ⟨h.valued, h.zero, h.iso, h.sub, h.cons⟩

/-- C78, the part that holds of `probe::block`: all the properties but the fourth (see `C78_block_cat_false`). -/
theorem C78_block_partial (bl : Bool) : Mannila.Valued (block bl) ∧ Mannila.Zero (block bl) ∧
    Mannila.Iso (block bl) ∧ Mannila.Sub (block bl) ∧ Mannila.Cons (block bl) :=
  have h := block_part (block_spec bl)
  ⟨h.valued, h.zero, h.iso, h.sub, h.cons⟩

/-- C78, the part that holds of `probe::osc`: the first three properties (see `C78_osc_cat_false` and
`C78_osc_cons_false`). -/
theorem C78_osc_partial (bl memory : Bool) : Mannila.Valued (osc bl memory) ∧ Mannila.Zero (osc bl memory) ∧
    Mannila.Iso (osc bl memory) ∧ Mannila.Sub (osc bl memory) :=
  have h := osc_part (osc_spec bl memory)
  ⟨h.valued, h.zero, h.iso, h.sub⟩

/-- C78, the part that holds of `probe::exc`: all the properties but the third (see `C78_exc_sub_false`). -/
theorem C78_exc_partial (bl : Bool) : Mannila.Valued (exc bl) ∧ Mannila.Zero (exc bl) ∧ Mannila.Iso (exc bl) ∧
    Mannila.Cat (exc bl) ∧ Mannila.Cons (exc bl) :=
  have h := exc_part (exc_spec bl)
  ⟨h.valued, h.zero, h.iso, h.cat, h.cons⟩

/-- C78, the part that holds of `probe::ham`: all the properties but the third and the fifth (see
`C78_ham_sub_false` and `C78_ham_cons_false`). -/
theorem C78_ham_partial (bl : Bool) : Mannila.Valued (ham bl) ∧ Mannila.Zero (ham bl) ∧ Mannila.Iso (ham bl) ∧
    Mannila.Cat (ham bl) :=
  have h := ham_part (ham_spec bl)
  ⟨h.valued, h.zero, h.iso, h.cat⟩

/-- C78, violated: `{0}` and `{2, 1}` give `0`, `{0, 2, 1}` gives `1`. -/
theorem C78_enc_cat_false : ¬ Mannila.Cat enc := fun h => by
  have := h Nat Demo.natLt Demo.natLt_sw [0] [2, 1] 0 0 1 (by unfold Distinct; decide) (by decide)
    ((enc_spec.iff Demo.natLt_sw (by unfold Distinct; decide)).2 (by decide))
    ((enc_spec.iff Demo.natLt_sw (by unfold Distinct; decide)).2 (by decide))
    ((enc_spec.iff Demo.natLt_sw (by unfold Distinct; decide)).2 (by decide))
  omega

/-- C78, violated: `{0}` and `{2, 1}` give `0`, `{0, 2, 1}` gives `1`. -/
theorem C78_mono_cat_false : ¬ Mannila.Cat mono := fun h => by
  have hd : Distinct Demo.natLt [0, 2, 1] := by unfold Distinct; decide
  obtain ⟨c, hc, -⟩ := mono_spec.valued Nat Demo.natLt Demo.natLt_sw [0, 2, 1] hd
  have := h Nat Demo.natLt Demo.natLt_sw [0] [2, 1] 0 0 c hd (by decide)
    ((mono_spec.iff Demo.natLt_sw (by unfold Distinct; decide)).2 (MinCuts.whole (.inl (by unfold SortedList; decide))))
    ((mono_spec.iff Demo.natLt_sw (by unfold Distinct; decide)).2 (MinCuts.whole (.inr (by decide)))) hc
  have h0 : c = 0 := by omega
  subst h0
  have h1 := MinCuts.zero.1 ((mono_spec.iff Demo.natLt_sw hd).1 hc)
  unfold Monotonic SortedList at h1
  revert h1
  decide

/-- C78, violated: `{0}` gives `0`, `{2, 1}` gives `1` and `{0, 2, 1}` gives `2`. -/
theorem C78_block_cat_false (bl : Bool) : ¬ Mannila.Cat (block bl) := fun h => by
  have := h Nat Demo.natLt Demo.natLt_sw [0] [2, 1] 0 1 2 (by unfold Distinct; decide) (by decide)
    (((block_spec bl).iff Demo.natLt_sw (by unfold Distinct; decide)).2 (by decide))
    (((block_spec bl).iff Demo.natLt_sw (by unfold Distinct; decide)).2 (by decide))
    (((block_spec bl).iff Demo.natLt_sw (by unfold Distinct; decide)).2 (by decide))
  omega

/-- C78, violated: `{0}` and `{2, 1}` give `0`, `{0, 2, 1}` gives `1`. -/
theorem C78_osc_cat_false (bl memory : Bool) : ¬ Mannila.Cat (osc bl memory) := fun h => by
  have := h Nat Demo.natLt Demo.natLt_sw [0] [2, 1] 0 0 1 (by unfold Distinct; decide) (by decide)
    (((osc_spec bl memory).iff Demo.natLt_sw (by unfold Distinct; decide)).2 (by decide))
    (((osc_spec bl memory).iff Demo.natLt_sw (by unfold Distinct; decide)).2 (by decide))
    (((osc_spec bl memory).iff Demo.natLt_sw (by unfold Distinct; decide)).2 (by decide))
  omega

/-- C78, violated: adding `2` before `{5, 0, 3, 1, 4}` adds more than `5` to the measure. -/
theorem C78_osc_cons_false (bl memory : Bool) : ¬ Mannila.Cons (osc bl memory) := fun h => by
  have := h Nat Demo.natLt Demo.natLt_sw 2 [5, 0, 3, 1, 4] _ _ (by unfold Distinct; decide)
    (((osc_spec bl memory).iff Demo.natLt_sw (by unfold Distinct; decide)).2 rfl)
    (((osc_spec bl memory).iff Demo.natLt_sw (by unfold Distinct; decide)).2 rfl)
  revert this
  decide

/-- C78, violated: one exchange sorts `{3, 1, 2, 0}`, two are needed for `{1, 2, 0}`. -/
theorem C78_exc_sub_false (bl : Bool) : ¬ Mannila.Sub (exc bl) := fun h => by
  have hd : Distinct Demo.natLt [3, 1, 2, 0] := by unfold Distinct; decide
  have hd' : Distinct Demo.natLt [1, 2, 0] := by unfold Distinct; decide
  obtain ⟨a, ha, -⟩ := (exc_spec bl).valued Nat Demo.natLt Demo.natLt_sw [1, 2, 0] hd'
  obtain ⟨b, hb, -⟩ := (exc_spec bl).valued Nat Demo.natLt Demo.natLt_sw [3, 1, 2, 0] hd
  have hab := h Nat Demo.natLt Demo.natLt_sw [1, 2, 0] [3, 1, 2, 0] a b hd (by simp) ha hb
  have h1 := ((exc_spec bl).iff Demo.natLt_sw hd).1 hb
  have h2 := ((exc_spec bl).iff Demo.natLt_sw hd').1 ha
  have h3 := h1.2.2 [(0, 3)] (by unfold SortedList; decide)
  obtain ⟨⟨ps, p1, p2⟩, -⟩ := h2
  simp at h3
  have key : ∀ p : Nat × Nat, ¬ SortedList Demo.natLt (exch [1, 2, 0] p) := by
    rintro ⟨i, j⟩
    by_cases hi : i < 3 ∧ j < 3
    · obtain ⟨hi, hj⟩ := hi
      interval_cases i <;> interval_cases j <;> (unfold SortedList; decide)
    · rw [exch_out (by simpa using hi)]
      unfold SortedList; decide
  match ps, p1, p2 with
  | [], _, p2 =>
    revert p2
    unfold SortedList
    decide
  | [p], _, p2 => exact key p p2
  | _ :: _ :: _, p1, _ => simp at p1; omega

/-- C78, violated: `{3, 1, 2, 0}` gives `2`, its subsequence `{1, 2, 0}` gives `3`. -/
theorem C78_ham_sub_false (bl : Bool) : ¬ Mannila.Sub (ham bl) := fun h => by
  have := h Nat Demo.natLt Demo.natLt_sw [1, 2, 0] [3, 1, 2, 0] 3 2 (by unfold Distinct; decide) (by simp)
    (((ham_spec bl).iff Demo.natLt_sw (by unfold Distinct; decide)).2 (by decide))
    (((ham_spec bl).iff Demo.natLt_sw (by unfold Distinct; decide)).2 (by decide))
  omega

/-- C78, violated: `{0}` gives `0` and `{1, 0}` gives `2`. -/
theorem C78_ham_cons_false (bl : Bool) : ¬ Mannila.Cons (ham bl) := fun h => by
  have := h Nat Demo.natLt Demo.natLt_sw 1 [0] 0 2 (by unfold Distinct; decide)
    (((ham_spec bl).iff Demo.natLt_sw (by unfold Distinct; decide)).2 (by decide))
    (((ham_spec bl).iff Demo.natLt_sw (by unfold Distinct; decide)).2 (by decide))
  simp at this

/-! Cases of the hypotheses. -/

/-- Two order isomorphic ranges of different types have the same number of inversions. -/
example : ∀ r, Gives (probeInv Demo.natLt [5, 1, 3]) r →
    Gives (probeInv (fun x y : Int => decide (x < y)) [7, -2, 0]) r := fun r h =>
  C77_inv.iso Nat Int Demo.natLt _ Demo.natLt_sw
    ⟨fun x => by simp, fun x y z => by simp; omega, fun x y z => by simp; omega⟩ _ _ r
    (by unfold Distinct; decide) (by unfold Distinct; decide)
    ⟨rfl, fun i j hi hj => by
      simp only [List.length_cons, List.length_nil] at hi hj
      interval_cases i <;> interval_cases j <;> rfl⟩ h

/-- The value on a subsequence of a range. -/
example : ∀ a b, Gives (probeRem (tick Demo.natLt) [5, 1, 3]) a → Gives (probeRem (tick Demo.natLt) [5, 2, 1, 3]) b →
    a ≤ b := fun a b =>
  C77_rem.sub Nat Demo.natLt Demo.natLt_sw [5, 1, 3] [5, 2, 1, 3] a b (by unfold Distinct; decide) (by decide)

/-- The value on the concatenation of two ranges. -/
example : ∀ a b c, Gives (probeMax Demo.natLt false [2, 1]) a → Gives (probeMax Demo.natLt false [9, 7]) b →
    Gives (probeMax Demo.natLt false ([2, 1] ++ [9, 7])) c → c ≤ a + b := fun a b c =>
  (C77_max false).cat Nat Demo.natLt Demo.natLt_sw [2, 1] [9, 7] a b c (by unfold Distinct; decide) (by decide)

/-- The value on a range with a new first element. -/
example : ∀ a b, Gives (probeExc Demo.natLt false [1, 2]) a → Gives (probeExc Demo.natLt false [3, 1, 2]) b →
    b ≤ 2 + a := fun a b =>
  (C78_exc_partial false).2.2.2.2 Nat Demo.natLt Demo.natLt_sw 3 [1, 2] a b (by unfold Distinct; decide)

/-- The value on a sorted range. -/
example : Gives (probeBlock Demo.natLt true [1, 4, 6]) 0 :=
  (C78_block_partial true).2.1 Nat Demo.natLt Demo.natLt_sw [1, 4, 6] (by unfold Distinct; decide)
    (by unfold SortedList; decide)

end CppSort
