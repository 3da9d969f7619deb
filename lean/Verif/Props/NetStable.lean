import Verif.Proof.NetStable
import Verif.Props.Demo
/-
C91: the stability trait of sorting_network_sorter<N> is exact.
-/
set_option autoImplicit false

namespace CppSort
variable {α : Type} [Inhabited α] {lt : α → α → Bool}

/-- `sort` sorts every range of exactly `n` elements stably. -/
def SortsSizedStably (lt : α → α → Bool) (n : Nat) (sort : Nat → Nat → M α Unit) : Prop :=
  ∀ (s : St α) (first : Nat) (xs : List α), xs.length = n → s.WF → Seg s.cell first xs →
    Transforms (sort first (first + n)) s first xs
      (fun ys => ys.Perm xs ∧ SortedList lt ys ∧ SameOrder lt xs ys)

/-- C91, sound: where `is_always_stable` is declared, ranges of `N` elements are sorted stably. -/
theorem C91_network_stable (hlt : StrictWeak lt) (n : Nat) (h : networkAlwaysStable n = true) :
    SortsSizedStably lt n (networkSort (tick lt) n) := by
  have hn : n ≤ 3 := by
    by_contra hc
    obtain ⟨k, rfl⟩ : ∃ k, n = k + 4 := ⟨n - 4, by omega⟩
    cases h
  intro s f xs hl hw hs
  obtain ⟨s', ys, h1, h2, h3, ⟨h4, h5, h6⟩, h7⟩ := networkSort_list hlt (by omega) hl hw hs
  refine ⟨s', ys, h1, h2, h3, ⟨h4, h5, ?_⟩, h7⟩
  rw [h6]
  refine runList_sameOrder hlt _ ?_ xs
  have : ∀ n : Fin 4, ∀ p ∈ netBody n.1, p.2 = p.1 + 1 := by decide
  exact this ⟨n, by omega⟩

example : Transforms (networkSort (tick Demo.byFst) 3 7 10) (Demo.mem 7 [(2, 0), (1, 1), (2, 2)]) 7
    [(2, 0), (1, 1), (2, 2)] (fun ys => ys.Perm [(2, 0), (1, 1), (2, 2)] ∧ SortedList Demo.byFst ys ∧
      SameOrder Demo.byFst [(2, 0), (1, 1), (2, 2)] ys) :=
  C91_network_stable Demo.byFst_sw 3 rfl _ 7 _ rfl (Demo.mem_wf _ _) (Demo.mem_seg _ _)

/-- `n - 1` equivalent elements and a smaller one at the end. -/
def lastLeast (n : Nat) : List (Nat × Nat) := (List.range n).map fun i => (if i + 1 = n then 0 else 1, i)

theorem networks_unstable : ∀ n : Fin 61,
    (runList Demo.byFst (netBody (n.1 + 4)) (lastLeast (n.1 + 4))).filter (eqv Demo.byFst (1, 0)) ≠
      (lastLeast (n.1 + 4)).filter (eqv Demo.byFst (1, 0)) := by
  decide +kernel

/-- C91, exact: the other sizes have a range that is not sorted stably. -/
theorem C91_network_unstable (n : Nat) (hn : n ≤ 64) (h : networkAlwaysStable n = false) :
    ¬ SortsSizedStably Demo.byFst n (networkSort (tick Demo.byFst) n) := by
  intro hst
  obtain ⟨k, rfl⟩ : ∃ k, n = k + 4 := by
    refine ⟨n - 4, ?_⟩
    by_contra hc
    have : n = 0 ∨ n = 1 ∨ n = 2 ∨ n = 3 := by omega
    rcases this with rfl | rfl | rfl | rfl <;> cases h
  have hl : (lastLeast (k + 4)).length = k + 4 := by simp [lastLeast]
  obtain ⟨s', ys, h1, h2, h3, ⟨-, -, h6⟩, -⟩ := networkSort_list Demo.byFst_sw hn hl
    (Demo.mem_wf 0 (lastLeast (k + 4))) (Demo.mem_seg 0 (lastLeast (k + 4)))
  obtain ⟨t', zs, g1, g2, g3, ⟨-, -, g6⟩, -⟩ := hst _ 0 _ hl
    (Demo.mem_wf 0 (lastLeast (k + 4))) (Demo.mem_seg 0 (lastLeast (k + 4)))
  rw [h1] at g1
  injection g1 with e; injection e with _ e; subst e
  have e : ys = zs := Seg.inj h3 g3 (by omega)
  have hk : k < 61 := by omega
  subst e
  rw [h6] at g6
  exact networks_unstable ⟨k, hk⟩ (g6 (1, 0))

example : networkAlwaysStable 4 = false ∧ networkAlwaysStable 64 = false := ⟨rfl, rfl⟩

/-- C91: for the sizes of the domain, `is_always_stable` is declared exactly for the sizes for which
ranges of every type, under every comparison, are sorted stably. -/
theorem C91_is_always_stable_exact (n : Nat) (hn : n ≤ 64) :
    networkAlwaysStable n = true ↔
      ∀ (β : Type) (_ : Inhabited β) (ltb : β → β → Bool), StrictWeak ltb →
        SortsSizedStably ltb n (networkSort (tick ltb) n) := by
  refine ⟨fun h β _ ltb hlt => C91_network_stable hlt n h, fun h => ?_⟩
  by_contra hc
  exact C91_network_unstable n hn (by simpa using hc) (h _ inferInstance _ Demo.byFst_sw)

example : ¬ ∀ (β : Type) (_ : Inhabited β) (ltb : β → β → Bool), StrictWeak ltb →
    SortsSizedStably ltb 32 (networkSort (tick ltb) 32) :=
  fun h => Bool.false_ne_true ((C91_is_always_stable_exact 32 (by omega)).2 h)

end CppSort
