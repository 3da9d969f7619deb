import Verif.Proof.ProbesMono
import Verif.Proof.ProbesSeq
import Verif.Proof.ProbesEnc
import Verif.Proof.ProbesDis
import Verif.Proof.ProbesSorted
import Verif.Proof.ProbesOsc
import Verif.Proof.ProbesInv
import Verif.Proof.ProbesBlock
import Verif.Model.FuelProbes
import Verif.Props.Demo
set_option autoImplicit false

/-!
The measures of presortedness (C41-C52). A probe reads the range `xs` and never writes it.

`Runs m R`: from every state `m` returns a result satisfying `R` and changes nothing but the number of
comparisons. `Keeps m R` also allows answers of the allocator to be consumed (temporary buffers).
-/

namespace CppSort
variable {α : Type} {lt : α → α → Bool}

/-- C41. `probe::inv` is the number of inversions, at most `n(n-1)/2`. -/
theorem C41_probe_inv (hlt : StrictWeak lt) (xs : List α) : Keeps (probeInv lt xs) (fun r =>
    r = invCount lt xs ∧ 2 * r ≤ xs.length * (xs.length - 1)) :=
  (probeInv_keeps hlt xs).mono fun _ h => ⟨h, by rw [h]; exact invCount_le xs⟩

/-- The count is the number of pairs of positions in the wrong order, stated with positions. -/
theorem C41_inv_pairs (xs : List α) : invCount lt xs =
    ((List.range xs.length).map (fun i => (List.range xs.length).countP (fun j =>
      decide (i < j) && (match xs[i]?, xs[j]? with | some x, some y => lt y x | _, _ => false)))).sum := by
  induction xs with
  | nil => rfl
  | cons x xs ih =>
    have cnt : ∀ (ys : List α) (p : α → Bool), (List.range ys.length).countP
        (fun j => match ys[j]? with | some y => p y | none => false) = ys.countP p := by
      intro ys p
      induction ys with
      | nil => rfl
      | cons y ys ih =>
        rw [List.length_cons, List.range_succ_eq_map, List.countP_cons, List.countP_cons, List.countP_map, ← ih]
        rfl
    rw [invCount, ih, List.length_cons, List.range_succ_eq_map, List.map_cons, List.sum_cons, List.map_map,
      List.countP_cons, List.countP_map, ← cnt xs (fun y => lt y x)]
    congr 1
    · simp only [Nat.lt_irrefl, decide_false, Bool.false_and, Bool.false_eq_true, if_false, Nat.add_zero]
      refine List.countP_congr fun j _ => ?_
      simp
      cases xs[j]? <;> simp
    · congr 1
      refine List.map_congr_left fun i _ => ?_
      simp only [Function.comp, List.countP_cons, List.countP_map]
      simp only [Nat.not_lt_zero, decide_false, Bool.false_and, Bool.false_eq_true, if_false, Nat.add_zero]
      refine List.countP_congr fun j _ => ?_
      simp

/-- C41. The bound is reached by every strictly decreasing range. -/
theorem C41_inv_max_reached {xs : List α} (h : xs.Pairwise (fun x y => lt y x = true)) :
    2 * invCount lt xs = xs.length * (xs.length - 1) := invCount_desc h

/-- C41. `0` exactly on sorted ranges. -/
theorem C41_inv_zero (xs : List α) : invCount lt xs = 0 ↔ SortedList lt xs := invCount_zero xs

example : ∃ r k g, probeInv Demo.byFst Demo.pairs (Demo.mem 7 Demo.pairs) =
    some (.ok r, { Demo.mem 7 Demo.pairs with cmps := k, grant := g }) ∧ r = 6 := by
  obtain ⟨r, k, g, h1, h2, -⟩ := C41_probe_inv Demo.byFst_sw Demo.pairs (Demo.mem 7 Demo.pairs)
  exact ⟨r, k, g, h1, h2.trans (by decide)⟩

example : 2 * invCount Demo.natLt [5, 3, 2, 0] = 12 := C41_inv_max_reached (by decide)

/-- C42. `probe::runs` is the number of step-downs; `0` iff sorted; at most `n-1`. -/
theorem C42_probe_runs (hlt : StrictWeak lt) (xs : List α) : Runs (probeRuns (tick lt) xs) (fun r =>
    r = (xs.zip xs.tail).countP (fun p => lt p.2 p.1) ∧ (r = 0 ↔ SortedList lt xs) ∧
      r ≤ xs.length - 1) :=
  (probeRuns_runs xs).mono fun _ h =>
    ⟨h, by rw [h]; exact stepDowns_eq_zero hlt xs, by rw [h]; exact stepDowns_le xs⟩

example : ∃ r k, probeRuns (tick Demo.byFst) Demo.pairs (Demo.mem 7 Demo.pairs) =
    some (.ok r, { Demo.mem 7 Demo.pairs with cmps := k }) ∧ r = 3 := by
  obtain ⟨r, k, h1, h2, -⟩ := C42_probe_runs Demo.byFst_sw Demo.pairs (Demo.mem 7 Demo.pairs)
  exact ⟨r, k, h1, h2.trans (by decide)⟩

/-- C43. `probe::dis` is the largest distance of an inversion, with every algorithm. -/
theorem C43_probe_dis (hlt : StrictWeak lt) (bidirectional memory : Bool) (xs : List α) :
    Runs (probeDis (tick lt) bidirectional memory xs) (fun r =>
      MaxInvDist lt xs r ∧ r ≤ xs.length - 1) :=
  (probeDis_runs hlt bidirectional memory xs).mono fun _ h => ⟨h, h.le⟩

example : ∃ r k, probeDis (tick Demo.byFst) true false Demo.pairs (Demo.mem 7 Demo.pairs) =
    some (.ok r, { Demo.mem 7 Demo.pairs with cmps := k }) ∧ MaxInvDist Demo.byFst Demo.pairs r := by
  obtain ⟨r, k, h1, h2, -⟩ := C43_probe_dis Demo.byFst_sw true false Demo.pairs (Demo.mem 7 Demo.pairs)
  exact ⟨r, k, h1, h2⟩

/-- C44. `probe::rem` is the least number of elements to remove to leave a sorted sequence. -/
theorem C44_probe_rem (hlt : StrictWeak lt) (xs : List α) : Runs (probeRem (tick lt) xs) (fun r =>
    (∃ ys, ys.Sublist xs ∧ SortedList lt ys ∧ ys.length + r = xs.length) ∧
    (∀ ys, ys.Sublist xs → SortedList lt ys → ys.length + r ≤ xs.length) ∧ r ≤ xs.length - 1) :=
  (probeRem_runs hlt xs).mono fun r h => ⟨h.1, h.2, by
    cases xs with
    | nil => have := h.2 [] (List.nil_sublist _) List.Pairwise.nil; simpa using this
    | cons x xs =>
      have := h.2 [x] (by simp) (List.pairwise_singleton _ _)
      simp at this ⊢; omega⟩

example : ∃ r k, probeRem (tick Demo.byFst) Demo.pairs (Demo.mem 7 Demo.pairs) =
    some (.ok r, { Demo.mem 7 Demo.pairs with cmps := k }) ∧ r ≤ 4 := by
  obtain ⟨r, k, h1, -, -, h2⟩ := C44_probe_rem Demo.byFst_sw Demo.pairs (Demo.mem 7 Demo.pairs)
  exact ⟨r, k, h1, h2⟩

/-- C45. `probe::sus` is the least number of sorted subsequences the range splits into, minus one. -/
theorem C45_probe_sus (hlt : StrictWeak lt) (xs : List α) :
    Runs (probeSus (tick lt) xs) (fun r => r = 0 ∧ xs = [] ∨
      PartitionsInto lt xs (r + 1) ∧ ∀ k, PartitionsInto lt xs k → r + 1 ≤ k) :=
  probeSus_runs hlt xs

example : ∃ r k, probeSus (tick Demo.byFst) Demo.pairs (Demo.mem 7 Demo.pairs) =
    some (.ok r, { Demo.mem 7 Demo.pairs with cmps := k }) ∧
    PartitionsInto Demo.byFst Demo.pairs (r + 1) := by
  obtain ⟨r, k, h1, h2⟩ := C45_probe_sus Demo.byFst_sw Demo.pairs (Demo.mem 7 Demo.pairs)
  rcases h2 with ⟨-, h2⟩ | h2
  · exact absurd h2 (by decide)
  · exact ⟨r, k, h1, h2.1⟩

/-- C46. `probe::enc` is the number of encroaching lists, minus one. -/
theorem C46_probe_enc (hlt : StrictWeak lt) (xs : List α) : Runs (probeEnc (tick lt) xs) (fun r =>
    r = (encroaching lt xs).length - 1 ∧ r ≤ (xs.length + 1) / 2 - 1) :=
  (probeEnc_runs hlt xs).mono fun _ h => ⟨h, by have := encroaching_le hlt xs; omega⟩

example : ∃ r k, probeEnc (tick Demo.byFst) Demo.pairs (Demo.mem 7 Demo.pairs) =
    some (.ok r, { Demo.mem 7 Demo.pairs with cmps := k }) ∧
    r = (encroaching Demo.byFst Demo.pairs).length - 1 := by
  obtain ⟨r, k, h1, h2, -⟩ := C46_probe_enc Demo.byFst_sw Demo.pairs (Demo.mem 7 Demo.pairs)
  exact ⟨r, k, h1, h2⟩

/-- A sorted permutation exists (used to apply statements about all of them). -/
theorem exists_sorted (hlt : StrictWeak lt) (xs : List α) : ∃ ys, ys.Perm xs ∧ SortedList lt ys := by
  induction xs with
  | nil => exact ⟨[], .refl _, List.Pairwise.nil⟩
  | cons x xs ih =>
    obtain ⟨ys, h1, h2⟩ := ih
    have hd : ∀ z ∈ ys.takeWhile (fun y => lt y x), lt z x = true := fun z hz => by
      exact List.all_eq_true.1 List.all_takeWhile z hz
    refine ⟨ys.takeWhile (fun y => lt y x) ++ x :: ys.dropWhile (fun y => lt y x), ?_, ?_⟩
    · refine List.perm_middle.trans ((List.perm_cons x).2 ?_)
      rw [List.takeWhile_append_dropWhile]; exact h1
    · have hs := h2
      rw [← List.takeWhile_append_dropWhile (p := fun y => lt y x) (l := ys)] at hs
      obtain ⟨a, b, c⟩ := List.pairwise_append.1 hs
      have hx : ∀ z ∈ ys.dropWhile (fun y => lt y x), lt z x = false := by
        intro z hz
        cases e : ys.dropWhile (fun y => lt y x) with
        | nil => rw [e] at hz; exact absurd hz (by simp)
        | cons d ds =>
          have hd := List.head?_dropWhile_not (fun y => lt y x) ys
          rw [e] at hd hz b
          simp only [List.head?_cons] at hd
          rcases List.mem_cons.1 hz with rfl | hz
          · simpa using hd
          · exact hlt.le_trans (by simpa using hd) ((List.pairwise_cons.1 b).1 z hz)
      refine List.pairwise_append.2 ⟨a, List.pairwise_cons.2 ⟨hx, b⟩, fun p hp q hq => ?_⟩
      rcases List.mem_cons.1 hq with rfl | hq
      · exact hlt.asymm (hd p hp)
      · exact c p hp q hq

variable [Inhabited α]

/-- C47. `probe::ham` is the number of positions whose element is not equivalent to the element there
in the sorted permutation; at most `n`. -/
theorem C47_probe_ham (hlt : StrictWeak lt) (bl : Bool) (xs : List α) :
    Keeps (probeHam lt bl xs) (fun r => (∀ ys, ys.Perm xs → SortedList lt ys →
      r = (xs.zip ys).countP (fun p => !eqv lt p.1 p.2)) ∧ r ≤ xs.length) := by
  refine (probeHam_keeps hlt bl xs).mono fun r h => ⟨h, ?_⟩
  obtain ⟨ys, h1, h2⟩ := exists_sorted hlt xs
  rw [h ys h1 h2]
  refine List.countP_le_length.trans ?_
  rw [List.length_zip]
  omega

example : ∃ r k g, probeHam Demo.natLt false [3, 1, 2, 3] (Demo.mem 0 []) =
    some (.ok r, { Demo.mem 0 [] with cmps := k, grant := g }) ∧ r = 3 := by
  obtain ⟨r, k, g, h1, h2, -⟩ := C47_probe_ham Demo.natLt_sw false [3, 1, 2, 3] (Demo.mem 0 [])
  exact ⟨r, k, g, h1, (h2 [1, 2, 3, 3] (by decide) (by unfold SortedList; decide)).trans (by decide)⟩

/-- C48. `probe::max` is the largest distance an element is away from the places it may take in the
sorted permutation; at most `n-1`. -/
theorem C48_probe_max (hlt : StrictWeak lt) (bl : Bool) (xs : List α) :
    Keeps (probeMax lt bl xs) (fun r => (∀ ys, ys.Perm xs → SortedList lt ys → MaxTravel lt xs ys r) ∧
      r ≤ xs.length - 1) := by
  refine (probeMax_keeps hlt bl xs).mono fun r h => ⟨h, ?_⟩
  obtain ⟨ys, h1, h2⟩ := exists_sorted hlt xs
  exact (h ys h1 h2).le hlt h1

example : ∃ r k g, probeMax Demo.natLt false [3, 1, 2, 3] (Demo.mem 0 []) =
    some (.ok r, { Demo.mem 0 [] with cmps := k, grant := g }) ∧
    MaxTravel Demo.natLt [3, 1, 2, 3] [1, 2, 3, 3] r := by
  obtain ⟨r, k, g, h1, h2, -⟩ := C48_probe_max Demo.natLt_sw false [3, 1, 2, 3] (Demo.mem 0 [])
  exact ⟨r, k, g, h1, h2 [1, 2, 3, 3] (by decide) (by unfold SortedList; decide)⟩

/-- C49, the part that holds: the result of `probe::exc` is a number of exchanges that sort the range, at
most `n-1`; it is the least such number when no two elements are equivalent. (The full claim is that it is
the least number for every range, see `C49_probe_exc_minimal_false`.) -/
theorem C49_probe_exc_partial (hlt : StrictWeak lt) (bl : Bool) (xs : List α) :
    Keeps (probeExc lt bl xs) (fun r =>
      (∃ ps : List (Nat × Nat), ps.length = r ∧ SortedList lt (ps.foldl exch xs)) ∧ r ≤ xs.length - 1 ∧
      (xs.Pairwise (fun x y => eqv lt x y = false) →
        ∀ ps : List (Nat × Nat), SortedList lt (ps.foldl exch xs) → r ≤ ps.length)) :=
  probeExc_keeps hlt bl xs

example : ∃ r k g, probeExc Demo.natLt false [3, 1, 2, 0] (Demo.mem 0 []) =
    some (.ok r, { Demo.mem 0 [] with cmps := k, grant := g }) ∧ r ≤ 1 := by
  obtain ⟨r, k, g, h1, -, -, h2⟩ := C49_probe_exc_partial Demo.natLt_sw false [3, 1, 2, 0] (Demo.mem 0 [])
  exact ⟨r, k, g, h1, h2 (by decide) [(0, 3)] (by unfold SortedList; decide)⟩

/-- The result of a run from the empty memory. -/
def runEmpty (m : M Nat Nat) : Option Nat :=
  match m (Demo.mem 0 []) with
  | some (.ok r, _) => some r
  | _ => none

theorem not_keeps_of_run {m m' : M Nat Nat} (h : Le m' m) {r : Nat} (hr : runEmpty m' = some r) {R : Nat → Prop}
    (hn : ¬ R r) : ¬ Keeps m R := by
  intro hk
  obtain ⟨q, k, g, h1, h2⟩ := hk (Demo.mem 0 [])
  unfold runEmpty at hr
  split at hr
  · rename_i p s' e
    have := h _ _ e
    rw [h1] at this
    injection this with this
    injection this with this
    injection this with this
    injection hr with hr
    rw [← hr, ← this] at hn
    exact hn h2
  · exact absurd hr (by simp)

/-- C49, the violated part: on `{2, 2, 1}` the probe returns `2`, while one exchange sorts the range. -/
theorem C49_probe_exc_minimal_false : SortedList Demo.natLt ([(0, 2)].foldl exch [2, 2, 1]) ∧
    ¬ Keeps (probeExc Demo.natLt false [2, 2, 1]) (fun r => r ≤ 1) :=
  ⟨by unfold SortedList; decide,
   not_keeps_of_run (probeExcF_le _ 20 _ _) (r := 2) (by decide +kernel) (by decide)⟩

/-- C52, the part that holds: `probe::block` never exceeds `n-1`; when no two elements are equivalent it is
the number of adjacent pairs of the sorted sequence that are not adjacent in the range, and `0` when the
range is sorted. (With equivalent elements see `C52_probe_block_sorted_false`.) -/
theorem C52_probe_block_partial (hlt : StrictWeak lt) (bl : Bool) (xs : List α) :
    Keeps (probeBlock lt bl xs) (fun r => r ≤ xs.length - 1 ∧
      (xs.Pairwise (fun x y => eqv lt x y = false) →
        (∀ ys, ys.Perm xs → SortedList lt ys → r = brokenPairs lt xs ys) ∧
        (SortedList lt xs → r = 0))) :=
  (probeBlock_keeps hlt bl xs).mono fun _ h => ⟨h.1, fun hd => ⟨h.2 hd, fun hs => by
    rw [h.2 hd xs (.refl _) hs, brokenPairs_self hlt]⟩⟩

example : ∃ r k g, probeBlock Demo.natLt false [2, 3, 0, 1] (Demo.mem 0 []) =
    some (.ok r, { Demo.mem 0 [] with cmps := k, grant := g }) ∧ r = 1 := by
  obtain ⟨r, k, g, h1, -, h2⟩ := C52_probe_block_partial Demo.natLt_sw false [2, 3, 0, 1] (Demo.mem 0 [])
  exact ⟨r, k, g, h1, ((h2 (by decide)).1 [0, 1, 2, 3] (by decide) (by unfold SortedList; decide)).trans
    (by decide)⟩

/-- A sorted range of 24 elements, two of which are equal. -/
def sortedTie : List Nat :=
  [0, 1, 2, 3, 4, 5, 6, 7, 8, 9, 10, 11, 11, 13, 14, 15, 16, 17, 18, 19, 20, 21, 22, 23]

/-- C52, the violated part: the probe does not return `0` on a sorted range with two equal elements. -/
theorem C52_probe_block_sorted_false : SortedList Demo.natLt sortedTie ∧
    ¬ Keeps (probeBlock Demo.natLt false sortedTie) (fun r => r = 0) :=
  ⟨by unfold SortedList sortedTie; decide,
   not_keeps_of_run (probeBlockF_le _ 60 _ _) (r := 2) (by decide +kernel) (by decide)⟩

/-- C50. `probe::osc` is the oscillation measure, with both algorithms. It never exceeds `n(n-2)/2`,
which is the documented maximum for odd sizes only. -/
theorem C50_probe_osc_partial (hlt : StrictWeak lt) (bl memory : Bool) (xs : List α) :
    Keeps (probeOsc lt bl memory xs) (fun r =>
      r = ((xs.map (fun x => (xs.zip xs.tail).countP (fun p =>
        (lt p.1 x && lt x p.2) || (lt p.2 x && lt x p.1)))).sum : Nat) ∧
      2 * r ≤ (xs.length * (xs.length - 2) : Nat) ∧
      (xs.length % 2 = 1 → 3 ≤ xs.length → r ≤ oscMaxForSize xs.length)) := by
  refine (probeOsc_keeps hlt bl memory xs).mono fun r h => ?_
  obtain ⟨ys, h1, h2⟩ := exists_sorted hlt xs
  have hb := oscOf_le hlt xs h1 h2
  refine ⟨h, by rw [h]; exact_mod_cast hb, fun ho h3 => ?_⟩
  unfold oscMaxForSize
  rw [if_neg (by omega), h]
  obtain ⟨m, hm⟩ : ∃ m, xs.length = 2 * m + 3 := ⟨(xs.length - 3) / 2, by omega⟩
  have hb' : 2 * (oscOf lt xs : Int) ≤ (2 * m + 3) * (2 * m + 1) := by
    rw [hm, show 2 * m + 3 - 2 = 2 * m + 1 by omega] at hb
    exact_mod_cast hb
  rw [hm]
  have e : (((2 * m + 3 : Nat) : Int) * (((2 * m + 3 : Nat) : Int) - 2) - 1) = 2 * (2 * (m * m) + 4 * m + 1) := by
    push_cast; ring
  rw [e, Int.mul_tdiv_cancel_left _ (by decide)]
  nlinarith

/-- C50, the violated part: on `{2, 4, 1, 3}` the probe returns `4` while `max_for_size(4)` is `3`. -/
theorem C50_probe_osc_max_false (bl memory : Bool) :
    Keeps (probeOsc Demo.natLt bl memory [2, 4, 1, 3]) (fun r => ¬ r ≤ oscMaxForSize 4) :=
  (probeOsc_keeps Demo.natLt_sw bl memory [2, 4, 1, 3]).mono fun r h => by
    rw [h]; decide

/-- C50: the documented maximum of a range of one element is negative. -/
theorem C50_probe_osc_max_one_false (bl memory : Bool) (x : Nat) :
    Keeps (probeOsc Demo.natLt bl memory [x]) (fun r => ¬ r ≤ oscMaxForSize 1) :=
  (probeOsc_keeps Demo.natLt_sw bl memory [x]).mono fun r h => by
    rw [h, oscOf_short (by simp)]; decide

example : ∃ r k g, probeOsc Demo.natLt false true [5, 1, 4, 2, 3] (Demo.mem 0 []) =
    some (.ok r, { Demo.mem 0 [] with cmps := k, grant := g }) ∧ r = 6 ∧ r ≤ oscMaxForSize 5 := by
  obtain ⟨r, k, g, h1, h2, -, h3⟩ :=
    C50_probe_osc_partial Demo.natLt_sw false true [5, 1, 4, 2, 3] (Demo.mem 0 [])
  exact ⟨r, k, g, h1, h2.trans (by decide), h3 (by decide) (by decide)⟩

/-- C51. `probe::mono` is the least number of cuts into monotonic blocks; `0` iff the range is
monotonic; at most `(n+1)/2 - 1`. -/
theorem C51_probe_mono (hlt : StrictWeak lt) (xs : List α) : Runs (probeMono (tick lt) xs) (fun r =>
    MinCuts lt xs r ∧ (r = 0 ↔ Monotonic lt xs) ∧ r ≤ (xs.length + 1) / 2 - 1) :=
  (probeMono_runs hlt xs).mono fun r h => ⟨h,
    ⟨fun e => MinCuts.zero.1 (e ▸ h), fun e => h.unique (MinCuts.zero.2 e)⟩, h.le hlt⟩

example : ∃ r k, probeMono (tick Demo.byFst) Demo.pairs (Demo.mem 7 Demo.pairs) =
    some (.ok r, { Demo.mem 7 Demo.pairs with cmps := k }) ∧ MinCuts Demo.byFst Demo.pairs r := by
  obtain ⟨r, k, h1, h2, -⟩ := C51_probe_mono Demo.byFst_sw Demo.pairs (Demo.mem 7 Demo.pairs)
  exact ⟨r, k, h1, h2⟩

end CppSort
