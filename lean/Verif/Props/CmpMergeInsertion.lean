import Verif.Props.CmpOptimal
import Verif.Props.MergeInsertion
/-
C108: "merge_insertion_sort performs fewer comparisons on average than some other specializations" of
`low_comparisons_sorter` (docs/Fixed-size-sorters.md, line 40).
-/
set_option autoImplicit false

namespace CppSort
variable {α : Type} {lt : α → α → Bool}

/-- Twelve elements: over all the orders, wherever they are in memory and whatever buffers are granted,
`merge_insertion_sorter` takes fewer comparisons than `low_comparisons_sorter<12>`. -/
theorem C108_merge_insertion_fewer (hlt : StrictWeak lt) (zs : List α)
    (hz : zs.Pairwise fun x y => lt x y = true) (hn : zs.length = 12) (c : List α → Nat)
    (hc : ∀ xs, xs.Perm zs → ∃ (s s' : St α) (first : Nat), s.WF ∧ Seg s.cell first xs ∧
      mergeInsertionSort (tick lt) first (first + xs.length) s = some (.ok (), s') ∧
      s'.cmps = s.cmps + c xs) :
    ∃ w, TotalComparisons (lowComparisonsSort (tick lt) zs.length) zs w ∧
      (zs.permutations.map c).sum < w := by
  have h0 : zs ≠ [] := by rintro rfl; simp at hn
  haveI : Inhabited α := ⟨zs.head h0⟩
  refine ⟨15167554560, C106_documented_weights hlt zs hz _ (by rw [hn]; rfl), ?_⟩
  have hd : ∀ xs ∈ zs.permutations, c xs ≤ 31 := by
    intro xs hx
    have hx := List.mem_permutations.1 hx
    obtain ⟨s, s', first, h1, h2, h3, h4⟩ := hc xs hx
    obtain ⟨v, hh, -⟩ := h2.holds
    obtain ⟨_, s2, hr, v', -, -, -, -, -, h⟩ :=
      mergeInsertionSort_spec hlt first (first + xs.length) v s (by omega) h1 hh
    rw [h3] at hr
    obtain rfl : s' = s2 := by
      injection hr with hr
      exact (Prod.mk.inj hr).2
    rw [Nat.add_sub_cancel_left, hx.length_eq, hn] at h
    have : mergeInsertionCost 12 12 = 31 := by decide +kernel
    omega
  have sum_le : ∀ l : List (List α), (∀ xs ∈ l, c xs ≤ 31) → (l.map c).sum ≤ l.length * 31 := by
    intro l
    induction l with
    | nil => intro _; simp
    | cons x l ih =>
      intro h
      have a := h x (by simp)
      have b := ih fun y hy => h y (by simp [hy])
      simp only [List.map_cons, List.sum_cons, List.length_cons, Nat.add_mul, Nat.one_mul]
      omega
  have h := sum_le _ hd
  rw [List.length_permutations, hn] at h
  have : Nat.factorial 12 = 479001600 := by decide +kernel
  omega

/-- The runs asked for exist. -/
example : ∃ c : List Nat → Nat, (∀ xs, xs.Perm (List.range 12) → ∃ (s s' : St Nat) (first : Nat), s.WF ∧
    Seg s.cell first xs ∧
    mergeInsertionSort (tick Demo.natLt) first (first + xs.length) s = some (.ok (), s') ∧
    s'.cmps = s.cmps + c xs) ∧
    ∃ w, TotalComparisons (lowComparisonsSort (tick Demo.natLt) 12) (List.range 12) w ∧
      ((List.range 12).permutations.map c).sum < w := by
  have run : ∀ xs : List Nat, ∃ (c : Nat) (s' : St Nat),
      mergeInsertionSort (tick Demo.natLt) 0 (0 + xs.length) (Demo.mem 0 xs) = some (.ok (), s') ∧
      s'.cmps = (Demo.mem 0 xs).cmps + c := by
    intro xs
    obtain ⟨s', ys, h, -⟩ := C11_merge_insertion_sorter Demo.natLt_sw (Demo.mem 0 xs) 0 xs (Demo.mem_wf _ _)
      (Demo.mem_seg _ _)
    exact ⟨s'.cmps, s', h, by simp [Demo.mem]⟩
  choose c s' h1 h2 using run
  have hc : ∀ xs : List Nat, xs.Perm (List.range 12) → ∃ (s s' : St Nat) (first : Nat), s.WF ∧
    Seg s.cell first xs ∧
    mergeInsertionSort (tick Demo.natLt) first (first + xs.length) s = some (.ok (), s') ∧
    s'.cmps = s.cmps + c xs :=
    fun xs _ => ⟨Demo.mem 0 xs, s' xs, 0, Demo.mem_wf _ _, Demo.mem_seg _ _, h1 xs, h2 xs⟩
  exact ⟨c, hc, C108_merge_insertion_fewer Demo.natLt_sw (List.range 12) (by decide) (by decide) c hc⟩

end CppSort
