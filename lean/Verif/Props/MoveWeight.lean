import Verif.Proof.MoveWeight
import Verif.Props.Demo
/-
C105: the documented "move weight" of `low_moves_sorter<N>` (docs/Fixed-size-sorters.md, lines 55-76):
the number of moves made to sort all the permutations of `N` different elements, a swap being three
moves (docs/Metrics.md, line 52).
-/
set_option autoImplicit false

namespace CppSort
variable {α : Type} {lt : α → α → Bool}

/-- Sorting each permutation of `zs` in turn with `sort`, wherever the permutations are in memory, takes
`w` moves altogether. -/
def TotalMoves (sort : Nat → Nat → M α Unit) (zs : List α) (w : Nat) : Prop :=
  ∃ c : List α → Nat, (∀ (s : St α) (first : Nat) (xs : List α), xs.Perm zs → Seg s.cell first xs →
    ∃ s', sort first (first + xs.length) s = some (.ok (), s') ∧ s'.movs = s.movs + c xs) ∧
    (zs.permutations.map c).sum = w

/-- There is one total. -/
theorem TotalMoves.unique {sort : Nat → Nat → M α Unit} {zs : List α} {w w' : Nat}
    (h : TotalMoves sort zs w) (h' : TotalMoves sort zs w') : w = w' := by
  obtain ⟨c, h1, rfl⟩ := h
  obtain ⟨c', h1', rfl⟩ := h'
  congr 1
  refine List.map_congr_left fun xs hx => ?_
  have hp := List.mem_permutations.1 hx
  obtain ⟨s1, e1, m1⟩ := h1 (Demo.mem 0 xs) 0 xs hp (Demo.mem_seg 0 xs)
  obtain ⟨s2, e2, m2⟩ := h1' (Demo.mem 0 xs) 0 xs hp (Demo.mem_seg 0 xs)
  rw [e1] at e2
  obtain rfl : s1 = s2 := by
    injection e2 with e2
    exact (Prod.mk.inj e2).2
  omega

/-- The documented table (docs/Fixed-size-sorters.md, lines 59-74). -/
def documentedMoveWeights : List Nat :=
  [0, 0, 2, 17, 122, 898, 7188, 63276, 612048, 6476112, 74558880, 929011680, 12465394560, 179294186880]

/-- What the permutations of `N` different elements take, for every `N`: 0, 0, 3, 17, 122, and for
`N ≥ 5` the inner range of `N - 2` elements is seen `N (N - 1)` times in each of its orders, and each of
its orders is seen with each placement of the two extremes. -/
theorem C105_move_weight (hlt : StrictWeak lt) (zs : List α)
    (hz : zs.Pairwise fun x y => lt x y = true) :
    TotalMoves (lowMovesSort (tick lt) zs.length) zs (moveWeight zs.length) := by
  cases zs with
  | nil =>
    refine ⟨fun _ => 0, fun s first xs hp _ => ?_, by simp [moveWeight]⟩
    rw [List.perm_nil.1 hp]
    exact ⟨s, rfl, rfl⟩
  | cons a zs =>
    haveI : Inhabited α := ⟨a⟩
    obtain ⟨c, h1, h2⟩ := moveWeight_spec hlt _ (a :: zs) hz rfl
    refine ⟨c, fun s first xs hp hs => ?_, h2⟩
    obtain ⟨v, hh, hv⟩ := hs.holds
    rw [hp.length_eq] at hh hv ⊢
    obtain ⟨_, s', e, m⟩ := h1 first s v hh (by rw [hv]; exact hp)
    rw [hv] at m
    exact ⟨s', e, m⟩

example : TotalMoves (lowMovesSort (tick Demo.natLt) 6) [1, 2, 3, 5, 8, 13] 7188 :=
  C105_move_weight Demo.natLt_sw [1, 2, 3, 5, 8, 13] (by decide)

/-- The recurrence, for every size from 5 on. -/
theorem C105_move_weight_recurrence (hlt : StrictWeak lt) (zs ys : List α)
    (hz : zs.Pairwise fun x y => lt x y = true) (hy : ys.Pairwise fun x y => lt x y = true)
    (hl : zs.length = ys.length + 2) (h3 : 3 ≤ ys.length) (W V : Nat)
    (hW : TotalMoves (lowMovesSort (tick lt) zs.length) zs W)
    (hV : TotalMoves (lowMovesSort (tick lt) ys.length) ys V) :
    W = zs.length * (zs.length - 1) * V +
      ys.length.factorial * (3 * (2 * (zs.length - 1) ^ 2 - 1)) := by
  rw [hW.unique (C105_move_weight hlt zs hz), hV.unique (C105_move_weight hlt ys hy), hl]
  obtain ⟨n, hn⟩ := Nat.exists_eq_add_of_le h3
  rw [hn, show 3 + n + 2 = n + 5 by omega, show 3 + n = n + 3 by omega, moveWeight]
  have : 6 * (n + 4) ^ 2 - 3 = 3 * (2 * (n + 4) ^ 2 - 1) := by omega
  rw [this]
  rfl

example : ∀ W V, TotalMoves (lowMovesSort (tick Demo.natLt) 5) [1, 2, 3, 5, 8] W →
    TotalMoves (lowMovesSort (tick Demo.natLt) 3) [1, 2, 3] V → W = 5 * 4 * V + 6 * (3 * 31) :=
  fun W V hW hV => C105_move_weight_recurrence Demo.natLt_sw [1, 2, 3, 5, 8] [1, 2, 3] (by decide)
    (by decide) rfl (by decide) W V hW hV

/-- The table is right for every size but 2. -/
theorem C105_documented_weights_partial (hlt : StrictWeak lt) (zs : List α)
    (hz : zs.Pairwise fun x y => lt x y = true) (w : Nat)
    (hw : documentedMoveWeights[zs.length]? = some w) (h2 : zs.length ≠ 2) :
    TotalMoves (lowMovesSort (tick lt) zs.length) zs w := by
  have h := C105_move_weight hlt zs hz
  have key : ∀ n < 14, n ≠ 2 → documentedMoveWeights[n]? = some (moveWeight n) := by decide +kernel
  have hn : zs.length < 14 := by
    obtain ⟨h, -⟩ := List.getElem?_eq_some_iff.1 hw
    exact h
  rw [key _ hn h2] at hw
  obtain rfl := Option.some.inj hw
  exact h

example : TotalMoves (lowMovesSort (tick Demo.natLt) 13) (List.range 13) 179294186880 :=
  C105_documented_weights_partial Demo.natLt_sw (List.range 13) (by decide) _ (by decide) (by decide)

/-- Two elements take three moves, and not two, whatever the elements and the order. -/
theorem C105_documented_weight_of_two_false (hlt : StrictWeak lt) (a b : α) (hab : lt a b = true) :
    ∃ w, documentedMoveWeights[2]? = some w ∧
      ¬ TotalMoves (lowMovesSort (tick lt) 2) [a, b] w ∧
      TotalMoves (lowMovesSort (tick lt) 2) [a, b] 3 := by
  have h : TotalMoves (lowMovesSort (tick lt) 2) [a, b] 3 :=
    C105_move_weight hlt [a, b] (by simpa using hab)
  refine ⟨2, rfl, fun h' => ?_, h⟩
  have := h.unique h'
  omega

example : ∃ w, documentedMoveWeights[2]? = some w ∧
    ¬ TotalMoves (lowMovesSort (tick Demo.natLt) 2) [1, 2] w ∧
    TotalMoves (lowMovesSort (tick Demo.natLt) 2) [1, 2] 3 :=
  C105_documented_weight_of_two_false Demo.natLt_sw 1 2 (by decide)

end CppSort
