import Verif.Proof.SpreadStrRec
import Verif.Props.SpreadNum
/-
C72: string_spread_sorter.
-/
set_option autoImplicit false

namespace CppSort
variable {α : Type}

/-- C72: string_spread_sorter sorts the elements by the lexicographical order of their strings, in ascending or descending order (`rv`). `w` is the
size of a character in bytes, the characters are numbers below `256 ^ w`, and `<` is the order of the lists. -/
theorem C72_string_spread_sorter [Inhabited α] (rv : Bool) {w : Nat} (hw : w = 1 ∨ w = 2) (proj : α → List Nat) (branchless : Bool)
    (s : St α) (first : Nat) (xs : List α) (hwf : s.WF) (hs : Seg s.cell first xs) (hx : ∀ x ∈ xs, ∀ c ∈ proj x, c < 256 ^ w) :
    Transforms (stringSpreadSort rv w proj branchless first (first + xs.length)) s first xs
      (fun ys => ys.Perm xs ∧ SortedList (fun x y => if rv then decide (proj y < proj x) else decide (proj x < proj y)) ys) := by
  obtain ⟨v, hv, he⟩ := hs.holds
  have hm : ∀ i, first ≤ i → i < first + xs.length → v i ∈ xs := fun i a b => he ▸ mem_lst.2 ⟨i, a, b, rfl⟩
  obtain ⟨_, s', hr, v', hu, hso⟩ := stringSpreadSort_spec (rv := rv) (w := w) (bl := branchless) (proj := proj)
    (by rcases hw with rfl | rfl <;> decide) (show first ≤ first + xs.length by omega) hv (fun i a b => hx _ (hm i a b))
  have e : strLt rv proj = fun x y => if rv then decide (proj y < proj x) else decide (proj x < proj y) := by
    funext x y
    unfold strLt strLess
    rw [← lexN_eq, ← lexN_eq]
  rw [e] at hso
  refine hu.transforms hwf hv he hr ⟨?_, sortedOn_iff.1 hso⟩
  have := hu.perm.2
  rwa [he] at this

/-- 1000 strings: "ab" and "b", in descending order. -/
example : Transforms (stringSpreadSort true 1 id true 0 (0 + (Demo.twice 500 [97, 98] [98]).length)) (Demo.mem 0 (Demo.twice 500 [97, 98] [98])) 0
    (Demo.twice 500 [97, 98] [98])
    (fun ys => ys.Perm (Demo.twice 500 [97, 98] [98]) ∧ SortedList (fun x y : List Nat => if true then decide (y < x) else decide (x < y)) ys) :=
  C72_string_spread_sorter true (.inl rfl) id true _ 0 _ (Demo.mem_wf _ _) (Demo.mem_seg _ _) fun x h c hc => by
    rcases Demo.mem_twice h with rfl | rfl
    · have : c = 97 ∨ c = 98 := by simpa using hc
      omega
    · have : c = 98 := by simpa using hc
      omega

/-- The strings are not sorted in this order at first. -/
example : ¬ SortedList (fun x y : List Nat => if true then decide (y < x) else decide (x < y)) (Demo.twice 500 [97, 98] [98]) :=
  Demo.twice_unsorted (by omega) (by decide)

end CppSort
