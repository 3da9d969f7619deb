import Verif.Props.Verge
import Verif.Props.WorstCase
import Verif.Proof.VergeCost
/-
C93: the comparisons of verge_sorter and verge_adapter.
-/
set_option autoImplicit false

namespace CppSort
variable {α : Type} {lt : α → α → Bool}

/-- C93 for verge_adapter over random-access iterators: whenever it returns, in the right order or not, it has made at
most `n (3 log2 (log2 n) + 14)` comparisons on top of those of the adapted sorter, whatever memory the merges got. `C n`
bounds the comparisons of the adapted sorter, and two ranges do not cost more than one range of their elements. The
stable version (`stable = true`) has the same bound. -/
theorem C93_verge_adapter (triv stable : Bool) {fb : Nat → Nat → M α Unit} {C : Nat → Nat}
    (hC : ∀ m n, C m + C n ≤ C (m + n)) (hfb : Sorts lt fb) (hc : ComparesWithin fb C)
    (s s' : St α) (f : Nat) (xs : List α) (hw : s.WF) (hs : Seg s.cell f xs)
    (h : vergesortRandom (tick lt) ⟨.random, triv⟩ fb stable f (f + xs.length) s = some (.ok (), s')) :
    s'.cmps ≤ s.cmps + (C xs.length + xs.length * (3 * xs.length.log2.log2 + 14)) :=
  vergesortRandom_cmps hfb hc.bound hC triv stable s f xs s' hw hs h

theorem nlogn_superadd (a b m n : Nat) :
    m * (a * m.log2 + b) + n * (a * n.log2 + b) ≤ (m + n) * (a * (m + n).log2 + b) := by
  rw [Nat.add_mul]
  exact Nat.add_le_add
    (Nat.mul_le_mul_left _ (Nat.add_le_add_right (Nat.mul_le_mul_left _ (log2_mono (by omega))) _))
    (Nat.mul_le_mul_left _ (Nat.add_le_add_right (Nat.mul_le_mul_left _ (log2_mono (by omega))) _))

/-- C93 for verge_sorter over random-access iterators, on the ranges for which C21 gives that it sorts: it returns
after at most `n (52 log2 n + 3 log2 (log2 n) + 37)` comparisons. -/
theorem C93_verge_sorter (hlt : StrictWeak lt) (triv branchless : Bool) (s : St α) (f : Nat) (xs : List α) (hw : s.WF)
    (hs : Seg s.cell f xs)
    (hlone : 128 ≤ xs.length →
      ¬ Lone lt false (xs.length / Nat.log2 xs.length) (fun e x c => !goes lt false e x c) xs) :
    ∃ s', vergesortRandom (tick lt) ⟨.random, triv⟩ (pdqsort (tick lt) branchless) false f (f + xs.length) s =
        some (.ok (), s') ∧
      s'.cmps ≤ s.cmps + xs.length * (52 * xs.length.log2 + 3 * xs.length.log2.log2 + 37) := by
  obtain _ | ⟨x, t⟩ := xs
  · refine ⟨s, ?_, by simp⟩
    simp [vergesortRandom, pdqsort]; rfl
  haveI : Inhabited α := ⟨x⟩
  generalize x :: t = xs at *
  obtain ⟨s', ys, h1, -⟩ := C21_verge_adapter_partial hlt triv (C10_pdq_sorter hlt branchless) s f xs hw hs hlone
  have h2 := C93_verge_adapter triv false (nlogn_superadd 52 23) (C10_pdq_sorter hlt branchless)
    (C73_pdq_sorter hlt branchless) s s' f xs hw hs h1
  refine ⟨s', h1, Nat.le_trans h2 (Nat.le_of_eq ?_)⟩
  ring

example : ∃ s', vergesortRandom (tick Demo.byFst) ⟨.random, false⟩ (pdqsort (tick Demo.byFst) true) false 7 157
    (Demo.mem 7 vergeDemo) = some (.ok (), s') ∧ s'.cmps ≤ 0 + 150 * (52 * 7 + 3 * 2 + 37) := by
  have := C93_verge_sorter Demo.byFst_sw false true _ 7 vergeDemo (Demo.mem_wf _ _) (Demo.mem_seg _ _)
    fun _ => not_lone (by decide +kernel)
  have hl : vergeDemo.length = 150 := by simp [vergeDemo]
  have hg : Nat.log2 150 = 7 := by decide +kernel
  have hg' : Nat.log2 7 = 2 := by decide +kernel
  rw [hl, hg, hg'] at this
  exact this

/-- The bound also holds where vergesort does not sort: on the range of `C21_verge_adapter_false`. -/
example (s' : St Nat) (h : vergesortRandom (tick Demo.natLt) ⟨.random, false⟩ (pdqsort (tick Demo.natLt) true) false 0
    128 vergeBadMem = some (.ok (), s')) : s'.cmps ≤ 128 * (52 * 7 + 23) + 128 * (3 * 2 + 14) := by
  have hl : vergeBad.length = 128 := by simp [vergeBad]
  have := C93_verge_adapter false false (nlogn_superadd 52 23) (C10_pdq_sorter Demo.natLt_sw true)
    (C73_pdq_sorter Demo.natLt_sw true) vergeBadMem s' 0 vergeBad vergeBad_wf vergeBad_seg (by rw [hl]; exact h)
  have hg : Nat.log2 128 = 7 := by decide +kernel
  have hg' : Nat.log2 7 = 2 := by decide +kernel
  have h0 : vergeBadMem.cmps = 0 := by unfold vergeBadMem; dsimp only
  rw [hl, hg, hg', h0, Nat.zero_add] at this
  exact this

end CppSort
