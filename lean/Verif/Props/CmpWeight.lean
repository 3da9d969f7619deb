import Verif.Proof.CmpWeightNine
import Verif.Props.Demo
/-
C106: the documented "comparison weight" of `low_comparisons_sorter<N>` (docs/Fixed-size-sorters.md,
lines 19-40): the number of comparisons made to sort all the permutations of `N` different elements.
-/
set_option autoImplicit false

namespace CppSort
variable {α : Type} {lt : α → α → Bool}

/-- Sorting each permutation of `zs` in turn with `sort`, wherever the permutations are in memory, takes
`w` comparisons altogether. -/
def TotalComparisons (sort : Nat → Nat → M α Unit) (zs : List α) (w : Nat) : Prop :=
  ∃ c : List α → Nat, (∀ (s : St α) (first : Nat) (xs : List α), xs.Perm zs → Seg s.cell first xs →
    ∃ s', sort first (first + xs.length) s = some (.ok (), s') ∧ s'.cmps = s.cmps + c xs) ∧
    (zs.permutations.map c).sum = w

/-- There is one total. -/
theorem TotalComparisons.unique {sort : Nat → Nat → M α Unit} {zs : List α} {w w' : Nat}
    (h : TotalComparisons sort zs w) (h' : TotalComparisons sort zs w') : w = w' := by
  obtain ⟨c, h1, rfl⟩ := h
  obtain ⟨c', h1', rfl⟩ := h'
  congr 1
  refine List.map_congr_left fun xs hx => ?_
  have hp := List.mem_permutations.1 hx
  obtain ⟨s1, e1, m1⟩ := h1 (Demo.mem 0 xs) 0 xs hp (Demo.mem_seg 0 xs)
  obtain ⟨s2, e2, m2⟩ := h1' (Demo.mem 0 xs) 0 xs hp (Demo.mem_seg 0 xs)
  rw [e1] at e2
  obtain rfl : s1 = s2 := by
    injection e2 with e2
    exact (Prod.mk.inj e2).2
  omega

/-- The documented table (docs/Fixed-size-sorters.md, lines 25-40). -/
def documentedCmpWeights : List Nat :=
  [0, 0, 2, 16, 112, 832, 6912, 62784, 623232, 6759936, 79937280, 1020833280, 15167554560,
    223436206080]

/-- A body on its own, as the sorter that `low_comparisons_sorter` would make of it
(fixed/low_comparisons_sorter.h, lines 46-49). -/
def DP.sort (p : DP) (cmp : α → α → M α Bool) (first _last : Nat) : M α Unit := do
  let _ ← p.exec cmp first
  pure ()

theorem lowComparisonsSort_body {n : Nat} {p : DP} (hb : lowComparisonsBody n = some p)
    (cmp : α → α → M α Bool) : lowComparisonsSort cmp n = p.sort cmp := by
  funext first last
  unfold lowComparisonsSort
  rw [hb]
  rfl

theorem totalComparisons_body (hlt : StrictWeak lt) (zs : List α)
    (hz : zs.Pairwise fun x y => lt x y = true) (p : DP) (h0 : zs = [] → p = .nop)
    (hp : p.inb zs.length 0 = true) (w : Nat) (hw : cmpSum p (List.range zs.length) = w) :
    TotalComparisons (p.sort (tick lt)) zs w := by
  cases zs with
  | nil =>
    refine ⟨fun _ => 0, fun s first xs hx _ => ?_, ?_⟩
    · rw [List.perm_nil.1 hx, h0 rfl]
      exact ⟨s, rfl, rfl⟩
    · rw [← hw, h0 rfl]
      simp [cmpSum, cmpCost, DP.ev]
  | cons a zs =>
    haveI : Inhabited α := ⟨a⟩
    refine ⟨fun xs => (p.ev lt 0 (valAt xs)).1, fun s first xs hx hs => ?_,
      (sum_rank hp hz hlt rfl).trans hw⟩
    obtain ⟨v, hh, hv⟩ := hs.holds
    obtain ⟨r, s', e, v', -, -, hc, -⟩ := DP.exec_ev (lt := lt) p 0 (hx.length_eq ▸ hp) hh
    refine ⟨s', ?_, ?_⟩
    · unfold DP.sort
      exact bind_ok e
    · rw [hc]
      congr 1
      have hx' : xs.length = (a :: zs).length := hx.length_eq
      have := (DP.ev_shift (lt := lt) (lt' := lt) (g := id) (d := 0) (D := fun _ => True)
        (fun _ _ _ _ => rfl) p 0 (v := fun k => v (first + k)) (w := valAt xs) hp fun k hk => ?_).1
      · exact this
      · refine ⟨?_, trivial⟩
        rw [Nat.zero_add]
        show v (first + k) = valAt xs k
        have e2 : xs = lst (fun i => v (i + first)) 0 xs.length := by
          rw [lst_shift, Nat.zero_add, Nat.add_comm xs.length]
          exact hv.symm
        rw [e2, valAt_lst (by omega), Nat.add_comm]

/-- The documented weights are right, for all the sizes, all the orders and all the elements. -/
theorem C106_documented_weights (hlt : StrictWeak lt) (zs : List α)
    (hz : zs.Pairwise fun x y => lt x y = true) (w : Nat)
    (hw : documentedCmpWeights[zs.length]? = some w) :
    TotalComparisons (lowComparisonsSort (tick lt) zs.length) zs w := by
  have hn : zs.length < 14 := by
    obtain ⟨h, -⟩ := List.getElem?_eq_some_iff.1 hw
    exact h
  have key : ∃ p, lowComparisonsBody zs.length = some p ∧ p.inb zs.length 0 = true ∧
      cmpSum p (List.range zs.length) = w := by
    generalize zs.length = n at hw hn
    obtain rfl | rfl | rfl | rfl | rfl | rfl | rfl | rfl | rfl | rfl | rfl | rfl | rfl | rfl :
      n = 0 ∨ n = 1 ∨ n = 2 ∨ n = 3 ∨ n = 4 ∨ n = 5 ∨ n = 6 ∨ n = 7 ∨ n = 8 ∨ n = 9 ∨ n = 10 ∨ n = 11 ∨
      n = 12 ∨ n = 13 := by omega
    all_goals
      simp only [documentedCmpWeights, List.getElem?_cons_succ, List.getElem?_cons_zero,
        Option.some.injEq] at hw
      subst hw
    · exact ⟨_, rfl, by decide +kernel, by simp [cmpSum, cmpCost, DP.ev]⟩
    · exact ⟨_, rfl, by decide +kernel, by rw [cmpSum_enum]; rfl⟩
    · exact ⟨_, rfl, by decide +kernel, cmpSum_two⟩
    · exact ⟨_, rfl, by decide +kernel, cmpSum_three⟩
    · exact ⟨_, rfl, by decide +kernel, cmpSum_four⟩
    · exact ⟨_, rfl, by decide +kernel, cmpSum_five⟩
    · exact ⟨_, rfl, by decide +kernel, cmpSum_six⟩
    · exact ⟨_, rfl, by decide +kernel, cmpSum_seven⟩
    · exact ⟨_, rfl, by decide +kernel, cmpSum_eight⟩
    · exact ⟨_, rfl, by decide +kernel, cmpSum_nine⟩
    · exact ⟨_, rfl, by decide +kernel, cmpSum_ten⟩
    · exact ⟨_, rfl, by decide +kernel, cmpSum_eleven⟩
    · exact ⟨_, rfl, by decide +kernel, cmpSum_twelve⟩
    · exact ⟨_, rfl, by decide +kernel, cmpSum_thirteen⟩
  obtain ⟨p, h1, h2, h3⟩ := key
  rw [lowComparisonsSort_body h1]
  refine totalComparisons_body hlt zs hz p (fun h => ?_) h2 w h3
  subst h
  exact (Option.some.inj h1).symm

example : TotalComparisons (lowComparisonsSort (tick Demo.natLt) 13) (List.range 13) 223436206080 :=
  C106_documented_weights Demo.natLt_sw (List.range 13) (by decide) _ (by decide)

example : TotalComparisons (lowComparisonsSort (tick Demo.natLt) 9) [1, 2, 3, 5, 8, 13, 21, 34, 55]
    6759936 :=
  C106_documented_weights Demo.natLt_sw [1, 2, 3, 5, 8, 13, 21, 34, 55] (by decide) _ (by decide)

end CppSort
