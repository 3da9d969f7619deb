import Verif.Props.Demo
import Verif.Proof.WikiMain
import Verif.Model.FuelWiki
/-
C62: wiki_sorter.
-/
set_option autoImplicit false

namespace CppSort
variable {α : Type} {lt : α → α → Bool}

/-- C62 for the types with a trivial destructor and for the caches of at most four elements: `wiki_sorter` sorts every range stably, whatever the
values of its uninitialized variables are. Missing: the larger caches with the other types, for which the claim is false
(`C62_wiki_sorter_false`). -/
theorem C62_wiki_sorter_partial (hlt : StrictWeak lt) (c : Cfg) {t : TypeTraits} {size : Nat → Nat}
    (h : t.trivDtor = true ∨ ∀ n, 15 ≤ n → size n ≤ 4) (junk : Nat → Nat → Nat) :
    SortsStably lt (wikiSort (tick lt) c t junk size) :=
  wikiSort_stable hlt c h junk

/-- `wiki_sort` and `wiki_sorter<>` with the default buffer, a `fixed_buffer<512>`, on a type with a trivial destructor. -/
theorem C62_wiki_sorter_default_partial (hlt : StrictWeak lt) (c : Cfg) {t : TypeTraits} (ht : t.trivDtor = true) (junk : Nat → Nat → Nat) :
    SortsStably lt (wikiSort (tick lt) c t junk fun _ => 512) :=
  C62_wiki_sorter_partial hlt c (.inl ht) junk

/-- `wiki_sorter<fixed_buffer<0>>`, on every type. -/
theorem C62_wiki_sorter_nobuffer (hlt : StrictWeak lt) (c : Cfg) (t : TypeTraits) (junk : Nat → Nat → Nat) :
    SortsStably lt (wikiSort (tick lt) c t junk fun _ => 0) :=
  C62_wiki_sorter_partial hlt c (.inr fun _ _ => by omega) junk

/-- Two hundred pairs with ties, out of order. -/
def wikiDemo : List (Nat × Nat) := (List.range 200).map fun i => (i * 37 % 50, i)

example : Transforms (wikiSort (tick Demo.byFst) ⟨.random, false⟩ ⟨true, true⟩ (fun _ j => j) (fun _ => 20) 7 (7 + wikiDemo.length)) (Demo.mem 7 wikiDemo) 7 wikiDemo
    (fun ys => ys.Perm wikiDemo ∧ SortedList Demo.byFst ys ∧ SameOrder Demo.byFst wikiDemo ys) :=
  C62_wiki_sorter_partial Demo.byFst_sw _ (.inl rfl) _ _ 7 wikiDemo (Demo.mem_wf _ _) (Demo.mem_seg _ _)

example : Transforms (wikiSort (tick Demo.byFst) ⟨.random, false⟩ ⟨true, true⟩ (fun _ j => j) (fun _ => 512) 7 (7 + wikiDemo.length)) (Demo.mem 7 wikiDemo) 7 wikiDemo
    (fun ys => ys.Perm wikiDemo ∧ SortedList Demo.byFst ys ∧ SameOrder Demo.byFst wikiDemo ys) :=
  C62_wiki_sorter_default_partial Demo.byFst_sw _ rfl _ _ 7 wikiDemo (Demo.mem_wf _ _) (Demo.mem_seg _ _)

example : Transforms (wikiSort (tick Demo.byFst) ⟨.random, false⟩ ⟨false, false⟩ (fun _ j => j) (fun _ => 0) 7 (7 + wikiDemo.length)) (Demo.mem 7 wikiDemo) 7 wikiDemo
    (fun ys => ys.Perm wikiDemo ∧ SortedList Demo.byFst ys ∧ SameOrder Demo.byFst wikiDemo ys) :=
  C62_wiki_sorter_nobuffer Demo.byFst_sw _ _ _ _ 7 wikiDemo (Demo.mem_wf _ _) (Demo.mem_seg _ _)

/-- Fifteen numbers: the first group is merged with the second. -/
def wikiBad : List Nat := [1, 2, 3, 4, 5, 6, 7, 0, 8, 9, 10, 11, 12, 13, 14]

/-- Whether the run on `wikiBad` with the default buffer stops on an object that is not alive. -/
def wikiDead : Bool :=
  match wikiSortF (tick Demo.natLt) ⟨.random, false⟩ 30 ⟨false, false⟩ (fun _ _ => 0) (fun _ => 512) 0 15 (Demo.mem 0 wikiBad) with
  | some (.error .dead, _) => true
  | _ => false

/-- C62 is false with the default buffer for a type with a destructor: `buffered_inplace_merge` constructs elements on top of the objects of the cache
and destroys them (wiki_sort.h 493-497), and the buffer destroys them again. -/
theorem C62_wiki_sorter_false :
    ¬ ∀ (c : Cfg) (t : TypeTraits) (junk : Nat → Nat → Nat), SortsStably Demo.natLt (wikiSort (tick Demo.natLt) c t junk fun _ => 512) := by
  intro h
  obtain ⟨s', _, h1, -⟩ := h ⟨.random, false⟩ ⟨false, false⟩ (fun _ _ => 0) (Demo.mem 0 wikiBad) 0 wikiBad (Demo.mem_wf _ _) (Demo.mem_seg _ _)
  have hc : wikiDead = true := by decide +kernel
  unfold wikiDead at hc
  split at hc
  · rename_i s e
    have e1 := wikiSortF_le (tick Demo.natLt) ⟨.random, false⟩ 30 ⟨false, false⟩ (fun _ _ => 0) (fun _ => 512) 0 15 _ _ e
    rw [show (0 : Nat) + wikiBad.length = 15 from by simp [wikiBad]] at h1
    rw [h1] at e1
    injection e1 with e1
    cases e1
  · cases hc

end CppSort
