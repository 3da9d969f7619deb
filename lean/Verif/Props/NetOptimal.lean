import Verif.Proof.NetDepth
import Verif.Props.Network
import Mathlib.Data.Nat.Log
/-
C109: the networks of `sorting_network_sorter` are said to be size-optimal (docs/Fixed-size-sorters.md,
line 143). The networks considered are the arguments of `swap_index_pairs`: any comparators between two
positions of the range, in either direction.
-/
set_option autoImplicit false

namespace CppSort
variable {α : Type} {lt : α → α → Bool}

/-- A network that sorts all the ranges of two values sorts, in one direction, the 0-1 inputs. -/
theorem sorts01_of_sortsSized (hlt : StrictWeak lt) {a b : α} (hab : lt a b = true) {n : Nat}
    {net : List (Nat × Nat)} (hp : ∀ p ∈ net, p.1 ≠ p.2 ∧ p.1 < n ∧ p.2 < n)
    (hs : SortsSized lt n fun first _ => swapIndexPairs (tick lt) first net) : Sorts01 n net := by
  haveI : Inhabited α := ⟨a⟩
  intro x i j hij hj hi
  let g : Nat → α := fun k => if x k then b else a
  have hl : ((List.range n).map g).length = n := by simp
  obtain ⟨s', ys, e, h1, h2, ⟨-, h5⟩, -⟩ := hs (Demo.mem 0 ((List.range n).map g)) 0
    ((List.range n).map g) hl (Demo.mem_wf _ _) (Demo.mem_seg _ _)
  have hh : Holds (Demo.mem 0 ((List.range n).map g)).cell 0 (0 + n) g := by
    intro k _ hk
    have := Demo.mem_seg 0 ((List.range n).map g) k (by omega)
    simpa using this
  obtain ⟨r, s2, e2, v', hu, hv', -⟩ := swapIndexPairs_spec hlt net (fun p hpm => (hp p hpm).2) _ _ hh
  obtain rfl : s' = s2 := by
    dsimp only at e
    rw [e] at e2
    injection e2 with e2
    exact (Prod.mk.inj e2).2
  have hm := runNet_map hlt (f := fun y => lt a y) (fun y z hyz hy => hlt.lt_of_lt_of_le hy hyz) net
    (fun p hpm => (hp p hpm).1) (fun k => g (0 + k))
  rw [← hv'] at hm
  have hx : (fun k => lt a (g (0 + k))) = x := by
    funext k
    simp only [g, Nat.zero_add]
    cases x k
    · simp [hlt.irrefl]
    · simp [hab]
  rw [hx] at hm
  have hc : ∀ k (h : k < ys.length), v' (0 + k) = ys[k] := by
    intro k hk
    have c1 := hu.holds k (by omega) (by omega)
    have c2 := h2 k hk
    rw [Nat.zero_add] at c2 ⊢
    rw [c2] at c1
    exact (Cell.val.inj c1).symm
  have hi' := congrFun hm i
  have hj' := congrFun hm j
  simp only at hi' hj'
  rw [← hi', hc i (by omega)] at hi
  rw [← hj', hc j (by omega)]
  exact hlt.lt_of_lt_of_le hi (List.pairwise_iff_getElem.1 h5 i j (by omega) (by omega) hij)

/-- The 0-1 part: van Voorhis' bound, improved by one from 5 elements on. -/
theorem sorts01_lower : ∀ (n : Nat) (net : List (Nat × Nat)), (∀ p ∈ net, p.1 < p.2 ∧ p.2 < n) →
    Sorts01 n net →
    ∑ k ∈ Finset.range n, Nat.clog 2 (k + 1) + (if 5 ≤ n then 1 else 0) ≤ net.length := by
  intro n
  induction n with
  | zero => intro net _ _; simp
  | succ n ih =>
    intro net hp hs
    by_cases h5 : n = 4
    · subst h5
      have := net_lower (netFacts_le 5 (by omega)) noNetwork5 hp hs
      have : ∑ k ∈ Finset.range (4 + 1), Nat.clog 2 (k + 1) + (if 5 ≤ 4 + 1 then 1 else 0) = 9 := by decide
      omega
    · obtain ⟨d, net', h1, h2, h3, h4⟩ := network_drop (by omega) hp hs
      rw [Nat.add_sub_cancel] at h3 h4
      have h6 := ih net' h3 h4
      have h7 : Nat.clog 2 (n + 1) ≤ d := (Nat.clog_le_iff_le_pow (by omega)).2 h1
      rw [Finset.sum_range_succ]
      split at h6 <;> split <;> omega

/-- For every `n`, a network that sorts `n` elements — in any order of its comparators, in either
direction, for any type with two different values — has at least `∑ ⌈log2 k⌉` comparators, `k = 1, …, n`,
and one more from 5 elements on. -/
theorem C109_lower_bound (hlt : StrictWeak lt) {a b : α} (hab : lt a b = true) (n : Nat)
    (net : List (Nat × Nat)) (hp : ∀ p ∈ net, p.1 ≠ p.2 ∧ p.1 < n ∧ p.2 < n)
    (hs : SortsSized lt n fun first _ => swapIndexPairs (tick lt) first net) :
    ∑ k ∈ Finset.range n, Nat.clog 2 (k + 1) + (if 5 ≤ n then 1 else 0) ≤ net.length := by
  obtain ⟨net', e1, e2, e3⟩ := sorts01_of_order hp id (fun _ h => h) (fun _ _ _ _ h => h)
    (sorts01_of_sortsSized hlt hab hp hs)
  rw [← e1]
  exact sorts01_lower n net' e2 e3

example : ∑ k ∈ Finset.range 8, Nat.clog 2 (k + 1) + 1 ≤ (netIndexPairs 8).length :=
  C109_lower_bound Demo.natLt_sw (a := 0) (b := 1) rfl 8 _
    (fun p hp => by
      have := (C26_index_pairs Demo.natLt_sw 8 (by omega)).2 p hp
      omega) (C26_index_pairs Demo.natLt_sw 8 (by omega)).1

/-- Size-optimal up to 6: no network that sorts has fewer compare-exchanges than
`sorting_network_sorter<N>`. The documentation claims it up to 64: the other sizes are not proved (from 7
on the bounds above are below the sizes of the library's networks). -/
theorem C109_size_optimal_partial (hlt : StrictWeak lt) {a b : α} (hab : lt a b = true) (n : Nat)
    (hn : n ≤ 6) (net : List (Nat × Nat)) (hp : ∀ p ∈ net, p.1 ≠ p.2 ∧ p.1 < n ∧ p.2 < n)
    (hs : SortsSized lt n fun first _ => swapIndexPairs (tick lt) first net) :
    (netIndexPairs n).length ≤ net.length := by
  refine Nat.le_trans ?_ (C109_lower_bound hlt hab n net hp hs)
  have : ∀ n : Fin 7, (netIndexPairs n.1).length ≤
      ∑ k ∈ Finset.range n.1, Nat.clog 2 (k + 1) + (if 5 ≤ n.1 then 1 else 0) := by decide +kernel
  exact this ⟨n, by omega⟩

/-- The hypotheses are met by networks that are not the library's: one with a comparator the wrong way
round, for instance. -/
example : 1 ≤ [(1, 0), (0, 1)].length ∧ Sorts01 2 [(1, 0), (0, 1)] := by
  refine ⟨by decide, ?_⟩
  intro x i j hi hj
  obtain ⟨rfl, rfl⟩ : i = 0 ∧ j = 1 := by omega
  cases h0 : x 0 <;> cases h1 : x 1 <;> simp [runB, ceB, h0, h1]

example (net : List (Nat × Nat)) (hp : ∀ p ∈ net, p.1 ≠ p.2 ∧ p.1 < 6 ∧ p.2 < 6)
    (hs : SortsSized Demo.natLt 6 fun first _ => swapIndexPairs (tick Demo.natLt) first net) :
    12 ≤ net.length :=
  C109_size_optimal_partial Demo.natLt_sw (a := 0) (b := 1) rfl 6 (by omega) net hp hs

example : (netIndexPairs 6).length = 12 := rfl

end CppSort
