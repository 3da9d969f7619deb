import Verif.Props.Probes
import Verif.Proof.ProbesCost
set_option autoImplicit false

/-!
C79: the number of comparisons of the probes, against the tables of docs/Measures-of-presortedness.md: linear for
`mono`, `runs` and the allocating `dis`; `n log n` for the others, but `n²` for `osc` without memory.
-/

namespace CppSort
variable {α : Type} {lt : α → α → Bool}

/-- From every state `m` returns, after at most `C` comparisons. -/
def ReturnsWithin {β : Type} (m : M α β) (C : Nat) : Prop :=
  ∀ s, ∃ r s', m s = some (.ok r, s') ∧ s'.cmps ≤ s.cmps + C

theorem Keeps.within {β : Type} {m : M α β} {R R' : β → Prop} {C : Nat} (h : Keeps m R) (hc : Upto m C R') :
    ReturnsWithin m C := fun s => by
  obtain ⟨r, k, g, e, -⟩ := h s
  exact ⟨r, _, e, (hc s r _ e).1⟩

/-- C79. `probe::runs` compares each element with the next one. -/
theorem C79_probe_runs (hlt : StrictWeak lt) (xs : List α) :
    ReturnsWithin (probeRuns (tick lt) xs) (xs.length - 1) :=
  (C42_probe_runs hlt xs).keeps.within probeRuns_cost.upto

/-- C79. `probe::mono` compares each element at most twice with the next one. -/
theorem C79_probe_mono (hlt : StrictWeak lt) (xs : List α) :
    ReturnsWithin (probeMono (tick lt) xs) (2 * (xs.length - 1)) :=
  (probeMono_runs hlt xs).keeps.within probeMono_cost.upto

/-- C79. `probe::dis` with a buffer is linear. -/
theorem C79_probe_dis_linear (hlt : StrictWeak lt) (xs : List α) :
    ReturnsWithin (probeDis (tick lt) true true xs) (6 * xs.length) :=
  (C43_probe_dis hlt true true xs).keeps.within disAllocating_cost.upto

/-- C79. `probe::dis` without a buffer, or on forward iterators. -/
theorem C79_probe_dis (hlt : StrictWeak lt) (bidirectional memory : Bool) (h : ¬ (bidirectional ∧ memory))
    (xs : List α) :
    ReturnsWithin (probeDis (tick lt) bidirectional memory xs) (2 * xs.length * (xs.length.log2 + 1)) := by
  refine (C43_probe_dis hlt bidirectional memory xs).keeps.within (R' := fun _ => True) ?_
  unfold probeDis
  rw [if_neg (by simpa using h)]
  exact disInplace_cost.upto

/-- C79. `probe::rem`. -/
theorem C79_probe_rem (hlt : StrictWeak lt) (xs : List α) :
    ReturnsWithin (probeRem (tick lt) xs) (xs.length * (xs.length.log2 + 1)) :=
  (C44_probe_rem hlt xs).keeps.within probeRem_cost.upto

/-- C79. `probe::sus`. -/
theorem C79_probe_sus (hlt : StrictWeak lt) (xs : List α) :
    ReturnsWithin (probeSus (tick lt) xs) (xs.length * (xs.length.log2 + 1)) :=
  (C45_probe_sus hlt xs).keeps.within probeSus_cost.upto

/-- C79. `probe::enc`. -/
theorem C79_probe_enc (hlt : StrictWeak lt) (xs : List α) :
    ReturnsWithin (probeEnc (tick lt) xs) (xs.length * (xs.length.log2 + 3)) :=
  (C46_probe_enc hlt xs).keeps.within probeEnc_cost.upto

/-- C79. `probe::inv`. -/
theorem C79_probe_inv (hlt : StrictWeak lt) (xs : List α) :
    ReturnsWithin (probeInv lt xs) (xs.length * (xs.length.log2 + 1)) :=
  (C41_probe_inv hlt xs).within (probeInv_cost hlt xs)

/-- The bounds of a sort of the iterators and of a pass over them, added. -/
theorem sortCmps_add (n a b : Nat) : sortCmps n + n * (a * n.log2 + b) = n * ((52 + a) * n.log2 + (23 + b)) := by
  unfold sortCmps
  ring

theorem sortCmps_pass (n : Nat) : sortCmps n + 2 * n = n * (52 * n.log2 + 25) := by
  unfold sortCmps
  ring

variable [Inhabited α]

/-- C79. `probe::ham`. -/
theorem C79_probe_ham (hlt : StrictWeak lt) (bl : Bool) (xs : List α) :
    ReturnsWithin (probeHam lt bl xs) (xs.length * (52 * xs.length.log2 + 25)) :=
  (C47_probe_ham hlt bl xs).within ((probeHam_cost hlt bl xs).mono
    (by have := sortCmps_pass xs.length; omega)
    fun _ h => h)

/-- C79. `probe::max`. -/
theorem C79_probe_max (hlt : StrictWeak lt) (bl : Bool) (xs : List α) :
    ReturnsWithin (probeMax lt bl xs) (xs.length * (54 * xs.length.log2 + 25)) :=
  (C48_probe_max hlt bl xs).within ((probeMax_cost hlt bl xs).mono
    (by rw [Nat.mul_add 2]; exact (sortCmps_add xs.length 2 2).le) fun _ h => h)

/-- C79. `probe::exc`. -/
theorem C79_probe_exc (hlt : StrictWeak lt) (bl : Bool) (xs : List α) :
    ReturnsWithin (probeExc lt bl xs) (xs.length * (52 * xs.length.log2 + 25)) :=
  (C49_probe_exc_partial hlt bl xs).within ((probeExc_cost hlt bl xs).mono
    (by have := sortCmps_pass xs.length; omega)
    fun _ h => h)

/-- C79. `probe::block`. -/
theorem C79_probe_block (hlt : StrictWeak lt) (bl : Bool) (xs : List α) :
    ReturnsWithin (probeBlock lt bl xs) (xs.length * (52 * xs.length.log2 + 25)) :=
  (C52_probe_block_partial hlt bl xs).within ((probeBlock_cost hlt bl xs).mono
    (by have := sortCmps_pass xs.length; omega)
    fun _ h => h)

/-- C79. `probe::osc` with a buffer. -/
theorem C79_probe_osc (hlt : StrictWeak lt) (bl : Bool) (xs : List α) :
    ReturnsWithin (probeOsc lt bl true xs) (xs.length * (54 * xs.length.log2 + 27)) :=
  (C50_probe_osc_partial hlt bl true xs).within ((oscAllocating_cost hlt bl xs).mono
    (sortCmps_add xs.length 2 4).le fun _ h => h)

/-- C79. `probe::osc` without a buffer. -/
theorem C79_probe_osc_inplace (hlt : StrictWeak lt) (bl : Bool) (xs : List α) :
    ReturnsWithin (probeOsc lt bl false xs) (4 * xs.length * (xs.length - 1)) :=
  (C50_probe_osc_partial hlt bl false xs).within oscInplace_cost.upto

omit [Inhabited α]

/-- A list of a thousand and twenty-four numbers. -/
example : ∃ r s', probeInv Demo.natLt (List.range 1024) (Demo.mem 0 []) = some (.ok r, s') ∧ s'.cmps ≤ 11264 := by
  obtain ⟨r, s', h1, h2⟩ := C79_probe_inv Demo.natLt_sw (List.range 1024) (Demo.mem 0 [])
  refine ⟨r, s', h1, h2.trans (le_of_eq ?_)⟩
  rw [List.length_range]
  rfl

example : ∃ r s', probeRuns (tick Demo.byFst) Demo.pairs (Demo.mem 0 []) = some (.ok r, s') ∧ s'.cmps ≤ 4 :=
  C79_probe_runs Demo.byFst_sw Demo.pairs (Demo.mem 0 [])

example : ∃ r s', probeMono (tick Demo.byFst) Demo.pairs (Demo.mem 0 []) = some (.ok r, s') ∧ s'.cmps ≤ 8 :=
  C79_probe_mono Demo.byFst_sw Demo.pairs (Demo.mem 0 [])

example : ∃ r s', probeDis (tick Demo.byFst) true true Demo.pairs (Demo.mem 0 []) = some (.ok r, s') ∧
    s'.cmps ≤ 30 := C79_probe_dis_linear Demo.byFst_sw Demo.pairs (Demo.mem 0 [])

example : ∃ r s', probeDis (tick Demo.byFst) false true Demo.pairs (Demo.mem 0 []) = some (.ok r, s') ∧
    s'.cmps ≤ 30 := C79_probe_dis Demo.byFst_sw false true (by decide) Demo.pairs (Demo.mem 0 [])

example : ∃ r s', probeRem (tick Demo.byFst) Demo.pairs (Demo.mem 0 []) = some (.ok r, s') ∧ s'.cmps ≤ 15 :=
  C79_probe_rem Demo.byFst_sw Demo.pairs (Demo.mem 0 [])

example : ∃ r s', probeSus (tick Demo.byFst) Demo.pairs (Demo.mem 0 []) = some (.ok r, s') ∧ s'.cmps ≤ 15 :=
  C79_probe_sus Demo.byFst_sw Demo.pairs (Demo.mem 0 [])

example : ∃ r s', probeEnc (tick Demo.byFst) Demo.pairs (Demo.mem 0 []) = some (.ok r, s') ∧ s'.cmps ≤ 25 :=
  C79_probe_enc Demo.byFst_sw Demo.pairs (Demo.mem 0 [])

example : ∃ r s', probeExc Demo.natLt false [3, 1, 2, 0] (Demo.mem 0 []) = some (.ok r, s') ∧ s'.cmps ≤ 516 :=
  C79_probe_exc Demo.natLt_sw false [3, 1, 2, 0] (Demo.mem 0 [])

example : ∃ r s', probeOsc Demo.natLt true false [3, 1, 2, 0] (Demo.mem 0 []) = some (.ok r, s') ∧ s'.cmps ≤ 48 :=
  C79_probe_osc_inplace Demo.natLt_sw true [3, 1, 2, 0] (Demo.mem 0 [])

example : ∃ r s', probeOsc Demo.natLt true true [3, 1, 2, 0] (Demo.mem 0 []) = some (.ok r, s') ∧ s'.cmps ≤ 540 :=
  C79_probe_osc Demo.natLt_sw true [3, 1, 2, 0] (Demo.mem 0 [])

example : ∃ r s', probeMax Demo.natLt true [3, 1, 2, 0] (Demo.mem 0 []) = some (.ok r, s') ∧ s'.cmps ≤ 532 :=
  C79_probe_max Demo.natLt_sw true [3, 1, 2, 0] (Demo.mem 0 [])

example : ∃ r s', probeHam Demo.natLt true [3, 1, 2, 0] (Demo.mem 0 []) = some (.ok r, s') ∧ s'.cmps ≤ 516 :=
  C79_probe_ham Demo.natLt_sw true [3, 1, 2, 0] (Demo.mem 0 [])

example : ∃ r s', probeBlock Demo.natLt true [3, 1, 2, 0] (Demo.mem 0 []) = some (.ok r, s') ∧ s'.cmps ≤ 516 :=
  C79_probe_block Demo.natLt_sw true [3, 1, 2, 0] (Demo.mem 0 [])

end CppSort
