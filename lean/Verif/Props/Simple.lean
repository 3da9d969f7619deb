import Verif.Proof.Heap
import Verif.Props.Demo
/-
C01–C04: insertion_sorter, selection_sorter, heap_sorter, d_ary_heap_sorter.
-/
set_option autoImplicit false

namespace CppSort
variable {α : Type} [Inhabited α] {lt : α → α → Bool}

/-- C01: `insertion_sorter` sorts every range stably. -/
theorem C01_insertion_sorter (hlt : StrictWeak lt) :
    SortsStably lt (insertionSort (tick lt)) :=
  sortsStably_of_w fun _ _ _ _ hfl _ hh =>
    wp_mono (insertionSort_spec hlt hfl hh) fun _ _ ⟨v', h1, h2, _⟩ => ⟨v', h1, h2⟩

example : Transforms (insertionSort (tick Demo.byFst) 7 12) (Demo.mem 7 Demo.pairs) 7 Demo.pairs
    (fun ys => ys.Perm Demo.pairs ∧ SortedList Demo.byFst ys ∧
      SameOrder Demo.byFst Demo.pairs ys) :=
  C01_insertion_sorter Demo.byFst_sw _ 7 Demo.pairs (Demo.mem_wf _ _) (Demo.mem_seg _ _)

/-- C02: `selection_sorter` sorts every range. -/
theorem C02_selection_sorter (hlt : StrictWeak lt) :
    Sorts lt (selectionSort (tick lt)) :=
  sorts_of_w fun s f l v hfl _ hh =>
    wp_mono (selectionSortLoop_spec hlt f l (l - f) f s v (by omega) (Nat.le_refl _) hh
      (SortedOn.trivial (by omega)) (fun i j _ _ _ _ => by omega))
      fun _ _ ⟨v', h1, h2, _⟩ => ⟨v', h1, h2⟩

example : Transforms (selectionSort (tick Demo.byFst) 7 12) (Demo.mem 7 Demo.pairs) 7 Demo.pairs
    (fun ys => ys.Perm Demo.pairs ∧ SortedList Demo.byFst ys) :=
  C02_selection_sorter Demo.byFst_sw _ 7 Demo.pairs (Demo.mem_wf _ _) (Demo.mem_seg _ _)

/-- C03: `heap_sorter` sorts every range. -/
theorem C03_heap_sorter (hlt : StrictWeak lt) : Sorts lt (heapsort (tick lt)) :=
  sorts_of_w fun _ _ _ _ hfl _ hh => heapsort_spec hlt hfl hh

example : Transforms (heapsort (tick Demo.byFst) 7 12) (Demo.mem 7 Demo.pairs) 7 Demo.pairs
    (fun ys => ys.Perm Demo.pairs ∧ SortedList Demo.byFst ys) :=
  C03_heap_sorter Demo.byFst_sw _ 7 Demo.pairs (Demo.mem_wf _ _) (Demo.mem_seg _ _)

/-- C04: `d_ary_heap_sorter<D>` sorts every range, for every arity `D ≥ 2`. -/
theorem C04_d_ary_heap_sorter (hlt : StrictWeak lt) (D : Nat) (hD : 2 ≤ D) :
    Sorts lt (dAryHeapsort (tick lt) D) :=
  sorts_of_w fun _ _ _ _ hfl _ hh => dAryHeapsort_spec hlt (by omega) hfl hh

example : Transforms (dAryHeapsort (tick Demo.byFst) 3 7 12) (Demo.mem 7 Demo.pairs) 7 Demo.pairs
    (fun ys => ys.Perm Demo.pairs ∧ SortedList Demo.byFst ys) :=
  C04_d_ary_heap_sorter Demo.byFst_sw 3 (by omega) _ 7 Demo.pairs (Demo.mem_wf _ _)
    (Demo.mem_seg _ _)

end CppSort
