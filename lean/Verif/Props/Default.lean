import Verif.Props.Demo
import Verif.Props.Hybrid
import Verif.Props.Pdq
import Verif.Props.Quick
import Verif.Props.FixedSize
import Verif.Props.Simple
import Verif.Model.Default
/-
C74: default_sorter, as called by `cppsort::sort`.
-/
set_option autoImplicit false

namespace CppSort
variable {α : Type} {lt : α → α → Bool} [Inhabited α]

theorem flatten3 {σ : Type} (a b c : σ) :
    flattenFold [Nest.sorter a, .sorter b, .sorter c] [] = [a, b, c] := by
  simp [flattenFold]

/-- The sorter chosen: the method of the container if it has one; for arrays of at most 13 elements the
specialised algorithms; otherwise pdq_sorter for random-access iterators and quick_sorter for the others. -/
theorem C74_choice (a : Arg) : defaultCall a = some (match a with
    | .selfSort _ stable => .method stable
    | .array n => .part (if n ≤ 13 then .smallArray else .pdq)
    | .range .random => .part .pdq
    | .range _ => .part .quick) := by
  cases a with
  | selfSort c stable => rfl
  | range c => 
    unfold defaultCall hybridAdapterCall
    dsimp only
    rw [flatten3]
    cases c <;> rfl
  | array n =>
    unfold defaultCall hybridAdapterCall
    dsimp only
    rw [flatten3]
    by_cases h : n ≤ 13
    · have e : inIndices n = true := by unfold inIndices; simp; omega
      have e' : DefaultPart.invocable (.array n) = fun _ => true := by
        funext p; cases p <;> simp [DefaultPart.invocable, e]
      rw [e', if_pos h]
      rfl
    · have e : inIndices n = false := by unfold inIndices; simp; omega
      have e' : DefaultPart.invocable (.array n) = fun p => decide (p ≠ .smallArray) := by
        funext p; cases p <;> simp [DefaultPart.invocable, e]
      rw [e', if_neg h]
      rfl

/-- What a call of `default_sorter` can be given: an array has the size of its type. -/
def Arg.Fits (a : Arg) (n : Nat) : Prop := ∀ k, a = .array k → n = k

/-- C74: default_sorter sorts whatever it is called with, provided that the `sort` methods of the containers which have one
do. -/
theorem C74_default_sorter (hlt : StrictWeak lt) (branchless : Bool) {method : Bool → Nat → Nat → M α Unit}
    (hm : ∀ b, Sorts lt (method b)) (a : Arg) (s : St α) (first : Nat) (xs : List α) (ha : a.Fits xs.length)
    (hw : s.WF) (hs : Seg s.cell first xs) :
    Transforms (defaultSort (tick lt) branchless method a first (first + xs.length)) s first xs
      (fun ys => ys.Perm xs ∧ SortedList lt ys) := by
  unfold defaultSort
  rw [C74_choice]
  cases a with
  | selfSort c stable => exact hm stable s first xs hw hs
  | range c =>
    cases c
    · exact C07_quick_sorter hlt _ s first xs hw hs
    · exact C07_quick_sorter hlt _ s first xs hw hs
    · exact C10_pdq_sorter hlt branchless s first xs hw hs
  | array n =>
    have hn := ha n rfl
    dsimp only
    by_cases h : n ≤ 13
    · rw [if_pos h]
      have := C25_low_comparisons_sorter hlt n h s first xs hn hw hs
      rw [hn]
      exact this
    · rw [if_neg h]
      exact C10_pdq_sorter hlt branchless s first xs hw hs

example : Transforms (defaultSort (tick Demo.byFst) true (fun _ => insertionSort (tick Demo.byFst)) (.array 5) 7 12)
    (Demo.mem 7 Demo.pairs) 7 Demo.pairs (fun ys => ys.Perm Demo.pairs ∧ SortedList Demo.byFst ys) :=
  C74_default_sorter Demo.byFst_sw true (fun _ => (C01_insertion_sorter Demo.byFst_sw).sorts) (.array 5) _ 7 Demo.pairs
    (by intro k h; cases h; rfl) (Demo.mem_wf _ _) (Demo.mem_seg _ _)

end CppSort
