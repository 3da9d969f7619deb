import Verif.Proof.LowMoves
import Verif.Base.Merge
import Mathlib.Data.List.Permutation
import Mathlib.Data.Finset.Prod
import Mathlib.Algebra.BigOperators.Ring.Finset
import Mathlib.Algebra.BigOperators.Ring.Nat
import Mathlib.Tactic.Ring
import Mathlib.Tactic.Linarith
/-
The number of moves made by `low_moves_sorter<N>`, added up over all the orders of `N` different
elements.
-/
set_option autoImplicit false

namespace CppSort
variable {α : Type} {lt : α → α → Bool}

/-! ### Placing the extremes, on functions -/

/-- The values after the exchanges of `lowMovesPlace` (fixed/low_moves_sorter.h, lines 56-72). -/
def placed (b i j : Nat) (v : Nat → α) : Nat → α :=
  if j = 0 ∧ i = b then swp v i j
  else if j = 0 then swp (swp v b j) 0 i
  else swp (swp v 0 i) b j

/-- The inverse of `placed`. -/
def displaced (b i j : Nat) (v : Nat → α) : Nat → α :=
  if j = 0 ∧ i = b then swp v i j
  else if j = 0 then swp (swp v 0 i) b j
  else swp (swp v b j) 0 i

/-- The moves made by the exchanges. -/
def placeMoves (b i j : Nat) : Nat :=
  if j = 0 ∧ i = b then 3 else (if i = 0 then 0 else 3) + (if j = b then 0 else 3)

theorem swp_swp (v : Nat → α) (i j : Nat) : swp (swp v i j) i j = v := by
  funext k
  by_cases h1 : k = i
  · rw [swp_l h1, swp_r rfl, h1]
  · by_cases h2 : k = j
    · rw [swp_r h2, swp_l rfl, h2]
    · rw [swp_o h1 h2, swp_o h1 h2]

theorem swp_same (v : Nat → α) (i : Nat) : swp v i i = v := by
  funext k
  by_cases h1 : k = i
  · rw [swp_l h1, h1]
  · rw [swp_o h1 h1]

theorem placed_displaced (b i j : Nat) (v : Nat → α) : placed b i j (displaced b i j v) = v := by
  unfold placed displaced
  split
  · rw [swp_swp]
  · split <;> rw [swp_swp, swp_swp]

theorem displaced_placed (b i j : Nat) (v : Nat → α) : displaced b i j (placed b i j v) = v := by
  unfold placed displaced
  split
  · rw [swp_swp]
  · split <;> rw [swp_swp, swp_swp]

theorem swp_shift (v : Nat → α) (f i j k : Nat) :
    swp v (f + i) (f + j) (f + k) = swp (fun k => v (f + k)) i j k := by
  by_cases h1 : k = i
  · rw [swp_l h1, swp_l (by omega)]
  · by_cases h2 : k = j
    · rw [swp_r h2, swp_r (by omega)]
    · rw [swp_o h1 h2, swp_o (by omega) (by omega)]

theorem swp_congr {n i j : Nat} {v w : Nat → α} (hi : i < n) (hj : j < n)
    (h : ∀ k, k < n → v k = w k) : ∀ k, k < n → swp v i j k = swp w i j k := by
  intro k hk
  by_cases h1 : k = i
  · rw [swp_l h1, swp_l h1, h j hj]
  · by_cases h2 : k = j
    · rw [swp_r h2, swp_r h2, h i hi]
    · rw [swp_o h1 h2, swp_o h1 h2, h k hk]

theorem placed_congr {b i j : Nat} {v w : Nat → α} (hi : i ≤ b) (hj : j ≤ b)
    (h : ∀ k, k < b + 1 → v k = w k) : ∀ k, k < b + 1 → placed b i j v k = placed b i j w k := by
  unfold placed
  split
  · exact swp_congr (by omega) (by omega) h
  · split
    · exact swp_congr (by omega) (by omega) (swp_congr (by omega) (by omega) h)
    · exact swp_congr (by omega) (by omega) (swp_congr (by omega) (by omega) h)

theorem displaced_congr {b i j : Nat} {v w : Nat → α} (hi : i ≤ b) (hj : j ≤ b)
    (h : ∀ k, k < b + 1 → v k = w k) :
    ∀ k, k < b + 1 → displaced b i j v k = displaced b i j w k := by
  unfold displaced
  split
  · exact swp_congr (by omega) (by omega) h
  · split
    · exact swp_congr (by omega) (by omega) (swp_congr (by omega) (by omega) h)
    · exact swp_congr (by omega) (by omega) (swp_congr (by omega) (by omega) h)

theorem placed_zero {b i j : Nat} (v : Nat → α) (hij : i ≠ j) (hb : 0 < b) :
    placed b i j v 0 = v i := by
  unfold placed
  split
  · rename_i h; rw [swp_r h.1.symm]
  · split
    · rw [swp_l rfl, swp_o (by omega) (by omega)]
    · rw [swp_o (by omega) (by omega), swp_l rfl]

theorem placed_last {b i j : Nat} (v : Nat → α) (hij : i ≠ j) (hb : 0 < b) :
    placed b i j v b = v j := by
  unfold placed
  split
  · rename_i h; rw [swp_l h.2.symm]
  · split
    · rw [swp_o (by omega) (by omega), swp_l rfl]
    · rw [swp_l rfl]
      by_cases h : j = i
      · omega
      · rw [swp_o (by omega) (by omega)]

theorem lst_swp_perm {n i j : Nat} {v : Nat → α} (hi : i < n) (hj : j < n) :
    (lst (swp v i j) 0 n).Perm (lst v 0 n) :=
  (PermOn.swp (f := 0) (l := n) (v := v) ⟨by omega, hi⟩ ⟨by omega, hj⟩).2

theorem lst_placed_perm {b i j : Nat} {v : Nat → α} (hi : i ≤ b) (hj : j ≤ b) :
    (lst (placed b i j v) 0 (b + 1)).Perm (lst v 0 (b + 1)) := by
  unfold placed
  split
  · exact lst_swp_perm (by omega) (by omega)
  · split
    · exact (lst_swp_perm (by omega) (by omega)).trans (lst_swp_perm (by omega) (by omega))
    · exact (lst_swp_perm (by omega) (by omega)).trans (lst_swp_perm (by omega) (by omega))

theorem lst_displaced_perm {b i j : Nat} {v : Nat → α} (hi : i ≤ b) (hj : j ≤ b) :
    (lst (displaced b i j v) 0 (b + 1)).Perm (lst v 0 (b + 1)) := by
  unfold displaced
  split
  · exact lst_swp_perm (by omega) (by omega)
  · split
    · exact (lst_swp_perm (by omega) (by omega)).trans (lst_swp_perm (by omega) (by omega))
    · exact (lst_swp_perm (by omega) (by omega)).trans (lst_swp_perm (by omega) (by omega))

/-- The exchanges in memory are those of `placed`, with their number of moves. -/
theorem lowMovesPlace_moves {f b i j : Nat} {s : St α} {v : Nat → α} (hb : 0 < b)
    (hh : Holds s.cell f (f + b + 1) v) (hi : i ≤ b) (hj : j ≤ b) (hij : i ≠ j) :
    wp (lowMovesPlace f (f + b) (f + i) (f + j)) (fun r s' => r = true ∧ ∃ v',
      Holds s'.cell f (f + b + 1) v' ∧ (∀ k, v' (f + k) = placed b i j (fun k => v (f + k)) k) ∧
      s'.movs = s.movs + placeMoves b i j) s := by
  have sus : ∀ {s : St α} {v : Nat → α} {i j : Nat}, Holds s.cell f (f + b + 1) v → i ≤ b → j ≤ b →
      wp (swapUnlessSame (f + i) (f + j)) (fun _ s' => Holds s'.cell f (f + b + 1)
        (swp v (f + i) (f + j)) ∧ s'.movs = s.movs + if i = j then 0 else 3) s := by
    intro s v i j hh hi hj
    unfold swapUnlessSame
    split
    · rename_i h
      rw [if_neg (by omega)]
      exact wp_swap_c hh ⟨by omega, by omega⟩ ⟨by omega, by omega⟩ fun s' hu _ hm => ⟨hu.holds, hm⟩
    · rename_i h
      have : i = j := by omega
      subst this
      rw [if_pos rfl, swp_same]
      exact wp_pure ⟨hh, rfl⟩
  unfold lowMovesPlace placed placeMoves
  by_cases h : j = 0 ∧ i = b
  · rw [if_pos (by omega), if_neg (by omega), if_pos h, if_pos h]
    apply wp_bind
    refine wp_swap_c hh ⟨by omega, by omega⟩ ⟨by omega, by omega⟩ fun s' hu _ hm => ?_
    exact wp_pure ⟨rfl, _, hu.holds, fun k => swp_shift _ _ _ _ _, hm⟩
  · rw [if_neg (by omega), if_neg h, if_neg h]
    by_cases h0 : j = 0
    · rw [if_pos (by omega), if_pos h0]
      apply wp_bind
      refine wp_mono (sus hh (i := b) (j := j) le_rfl hj) ?_
      rintro _ s1 ⟨hh1, m1⟩
      apply wp_bind
      refine wp_mono (sus hh1 (i := 0) (j := i) (by omega) hi) ?_
      rintro _ s2 ⟨hh2, m2⟩
      refine wp_pure ⟨rfl, _, hh2, fun k => ?_, ?_⟩
      · rw [swp_shift]
        congr 1
        funext k
        exact swp_shift _ _ _ _ _
      · rw [m2, m1]
        split_ifs <;> omega
    · rw [if_neg (by omega), if_neg h0]
      apply wp_bind
      refine wp_mono (sus hh (i := 0) (j := i) (by omega) hi) ?_
      rintro _ s1 ⟨hh1, m1⟩
      apply wp_bind
      refine wp_mono (sus hh1 (i := b) (j := j) (by omega) hj) ?_
      rintro _ s2 ⟨hh2, m2⟩
      refine wp_pure ⟨rfl, _, hh2, fun k => ?_, ?_⟩
      · rw [swp_shift]
        congr 1
        funext k
        exact swp_shift _ _ _ _ _
      · rw [m2, m1]
        split_ifs <;> omega

/-! ### Sums over positions -/

theorem placeMoves_add {b i j : Nat} (hb : 0 < b) :
    placeMoves b i j + (if i = b ∧ j = 0 then 3 else 0) =
      (if i = 0 then 0 else 3) + (if j = b then 0 else 3) := by
  unfold placeMoves
  split_ifs <;> omega

theorem sum_offDiag_add {n : Nat} (g : Nat × Nat → Nat) :
    ∑ p ∈ (Finset.range n).offDiag, g p + ∑ i ∈ Finset.range n, g (i, i) =
      ∑ i ∈ Finset.range n, ∑ j ∈ Finset.range n, g (i, j) := by
  rw [← Finset.sum_product (s := Finset.range n) (t := Finset.range n) (f := g),
    ← Finset.diag_union_offDiag,
    Finset.sum_union (Finset.disjoint_diag_offDiag _), Finset.sum_diag]
  omega

theorem sum_ite_one {n k : Nat} (h : k < n) :
    ∑ i ∈ Finset.range n, (if i = k then 0 else 3) = 3 * (n - 1) := by
  have : ∑ i ∈ Finset.range n, (if i = k then 0 else 3) + ∑ i ∈ Finset.range n, (if i = k then 3 else 0)
      = 3 * n := by
    rw [← Finset.sum_add_distrib, Finset.sum_congr rfl (g := fun _ => 3), Finset.sum_const,
      Finset.card_range, nsmul_eq_mul, Nat.cast_id, mul_comm]
    intro i _
    split <;> rfl
  rw [Finset.sum_ite_eq' , if_pos (Finset.mem_range.2 h)] at this
  omega

/-- All the placements together. -/
theorem sum_placeMoves (b : Nat) (hb : 0 < b) :
    ∑ p ∈ (Finset.range (b + 1)).offDiag, placeMoves b p.1 p.2 + 3 = 6 * b ^ 2 := by
  have e1 : ∑ p ∈ (Finset.range (b + 1)).offDiag, (if p.1 = b ∧ p.2 = 0 then 3 else 0) = 3 := by
    rw [Finset.sum_eq_single (b, 0)]
    · simp
    · rintro ⟨i, j⟩ _ hne
      rw [if_neg]
      rintro ⟨rfl, h⟩
      exact hne (by rw [← h])
    · intro h
      exact absurd (Finset.mem_offDiag.2 ⟨by simp, by simp, by simp; omega⟩) h
  have e2 : ∑ p ∈ (Finset.range (b + 1)).offDiag, (if p.1 = 0 then 0 else 3) = 3 * b ^ 2 := by
    have h : _ + ∑ i ∈ Finset.range (b + 1), (if i = 0 then 0 else 3) =
        ∑ i ∈ Finset.range (b + 1), ∑ j ∈ Finset.range (b + 1), (if i = 0 then 0 else 3) :=
      sum_offDiag_add (n := b + 1) (fun p => if p.1 = 0 then 0 else 3)
    rw [sum_ite_one (by omega), Finset.sum_comm, Finset.sum_const,
      Finset.card_range, nsmul_eq_mul, Nat.cast_id, sum_ite_one (by omega)] at h
    have : b + 1 - 1 = b := by omega
    rw [this] at h
    nlinarith
  have e3 : ∑ p ∈ (Finset.range (b + 1)).offDiag, (if p.2 = b then 0 else 3) = 3 * b ^ 2 := by
    have h : _ + ∑ i ∈ Finset.range (b + 1), (if i = b then 0 else 3) =
        ∑ i ∈ Finset.range (b + 1), ∑ j ∈ Finset.range (b + 1), (if j = b then 0 else 3) :=
      sum_offDiag_add (n := b + 1) (fun p => if p.2 = b then 0 else 3)
    rw [sum_ite_one (by omega), Finset.sum_const, Finset.card_range, nsmul_eq_mul,
      Nat.cast_id] at h
    have : b + 1 - 1 = b := by omega
    rw [this] at h
    nlinarith
  have : ∑ p ∈ (Finset.range (b + 1)).offDiag,
      (placeMoves b p.1 p.2 + (if p.1 = b ∧ p.2 = 0 then 3 else 0)) = 6 * b ^ 2 := by
    rw [Finset.sum_congr rfl (fun p _ => placeMoves_add hb), Finset.sum_add_distrib, e2, e3]
    omega
  rw [Finset.sum_add_distrib, e1] at this
  exact this

/-! ### Orders of different elements -/

/-- Strictly increasing elements. -/
def Inc (lt : α → α → Bool) (zs : List α) : Prop := zs.Pairwise fun x y => lt x y = true

theorem Inc.nodup (hlt : StrictWeak lt) {zs : List α} (h : Inc lt zs) : zs.Nodup :=
  h.imp fun {x y} hxy e => by rw [e, hlt.irrefl] at hxy; cases hxy

theorem Inc.total {zs : List α} (h : Inc lt zs) {f l : Nat} {v : Nat → α}
    (hp : (lst v f l).Perm zs) : ∀ i j, f ≤ i → i < l → f ≤ j → j < l → i ≠ j →
    lt (v i) (v j) = true ∨ lt (v j) (v i) = true := by
  have h2 : (lst v f l).Pairwise fun x y => lt x y = true ∨ lt y x = true :=
    hp.symm.pairwise (h.imp fun hxy => Or.inl hxy) (fun hxy => hxy.symm)
  have key : ∀ i j, f ≤ i → i < j → j < l → lt (v i) (v j) = true ∨ lt (v j) (v i) = true := by
    intro i j h1 h3 h4
    rw [List.pairwise_iff_getElem] at h2
    have := h2 (i - f) (j - f) (by rw [lst_length]; omega) (by rw [lst_length]; omega) (by omega)
    simp only [lst, List.getElem_map, List.getElem_range', one_mul] at this
    rwa [show f + (i - f) = i by omega, show f + (j - f) = j by omega] at this
  intro i j h1 h3 h4 h5 hne
  rcases Nat.lt_or_gt_of_ne hne with h | h
  · exact key i j h1 h h5
  · exact (key j i h4 h h3).symm

/-- The number of moves is `c` of the order of the elements, for every order of `zs`. -/
def MovesBy (lt : α → α → Bool) (n : Nat) (zs : List α) (c : List α → Nat) : Prop :=
  ∀ (f : Nat) (s : St α) (v : Nat → α), Holds s.cell f (f + n) v → (lst v f (f + n)).Perm zs →
    wp (lowMovesSort (tick lt) n f (f + n)) (fun _ s' => s'.movs = s.movs + c (lst v f (f + n))) s

/-- The values of a list, as a function of the position. -/
def valAt [Inhabited α] (xs : List α) : Nat → α := fun k => xs.getD k default

theorem valAt_lst [Inhabited α] {v : Nat → α} {n k : Nat} (hk : k < n) : valAt (lst v 0 n) k = v k := by
  unfold valAt
  rw [List.getD_eq_getElem _ _ (by rw [lst_length]; omega)]
  simp [lst]

theorem lst_valAt [Inhabited α] (xs : List α) {n : Nat} (h : xs.length = n) : lst (valAt xs) 0 n = xs := by
  apply List.ext_getElem
  · rw [lst_length]; omega
  · intro k h1 h2
    simp [lst, valAt, h2]

theorem lst_ends {v : Nat → α} {m : Nat} :
    lst v 0 (m + 2) = v 0 :: (lst v 1 (m + 1) ++ [v (m + 1)]) := by
  rw [lst_cons (by omega), lst_snoc (by omega)]

open Classical in
theorem idxOf_lst {v : Nat → α} {n i : Nat} (hnd : (lst v 0 n).Nodup) (hi : i < n) :
    (lst v 0 n).idxOf (v i) = i := by
  have h : i < (lst v 0 n).length := by rw [lst_length]; omega
  have e : (lst v 0 n)[i] = v i := by simp [lst]
  rw [← e]
  exact hnd.idxOf_getElem i h

/-! ### The recursion of the generic case -/

/-- The moves of a size from those of the size two below. -/
theorem weight_step [Inhabited α] (hlt : StrictWeak lt) {n W : Nat}
    (ih : ∀ zs : List α, Inc lt zs → zs.length = n + 3 → ∃ c, MovesBy lt (n + 3) zs c ∧
      (zs.permutations.map c).sum = W)
    (zs : List α) (hz : Inc lt zs) (hl : zs.length = n + 5) :
    ∃ c, MovesBy lt (n + 5) zs c ∧ (zs.permutations.map c).sum + 3 * (n + 3).factorial =
      (n + 5) * (n + 4) * W + (n + 3).factorial * (6 * (n + 4) ^ 2) := by
  classical
  -- the two extremes and the rest
  obtain ⟨a, zs', z, rfl⟩ : ∃ a zs' z, zs = a :: (zs' ++ [z]) := by
    have e := lst_valAt zs hl
    rw [lst_ends] at e
    exact ⟨_, _, _, e.symm⟩
  have hl' : zs'.length = n + 3 := by simp at hl; omega
  have hz' : Inc lt zs' := by
    have := (List.pairwise_cons.1 hz).2
    exact (List.pairwise_append.1 this).1
  have ha : ∀ y ∈ zs' ++ [z], lt a y = true := (List.pairwise_cons.1 hz).1
  have hzl : ∀ y ∈ a :: zs', lt y z = true := by
    intro y hy
    rcases List.mem_cons.1 hy with rfl | hy
    · exact ha z (by simp)
    · exact (List.pairwise_append.1 (List.pairwise_cons.1 hz).2).2.2 y hy z (by simp)
  have haz : a ≠ z := fun e => by
    have := ha z (by simp)
    rw [e, hlt.irrefl] at this; cases this
  have hnd := hz.nodup hlt
  obtain ⟨c', hc', hw⟩ := ih zs' hz' hl'
  -- positions of the extremes and what is left in the middle
  let inner : List α → List α := fun xs =>
    lst (placed (n + 4) (xs.idxOf a) (xs.idxOf z) (valAt xs)) 1 (n + 4)
  -- facts about an order of the elements
  have facts : ∀ v : Nat → α, (lst v 0 (n + 5)).Perm (a :: (zs' ++ [z])) → ∃ i j, i ≤ n + 4 ∧
      j ≤ n + 4 ∧ i ≠ j ∧ v i = a ∧ v j = z ∧ (lst v 0 (n + 5)).idxOf a = i ∧
      (lst v 0 (n + 5)).idxOf z = j ∧ inner (lst v 0 (n + 5)) = lst (placed (n + 4) i j v) 1 (n + 4) ∧
      (inner (lst v 0 (n + 5))).Perm zs' ∧
      lst (placed (n + 4) i j v) 0 (n + 5) = a :: (inner (lst v 0 (n + 5)) ++ [z]) := by
    intro v hp
    have hndv : (lst v 0 (n + 5)).Nodup := hp.nodup_iff.2 hnd
    obtain ⟨i, -, hi, ei⟩ := mem_lst.1 (hp.mem_iff.2 (List.mem_cons_self (a := a)))
    obtain ⟨j, -, hj, ej⟩ := mem_lst.1 (hp.mem_iff.2 (show z ∈ a :: (zs' ++ [z]) by simp))
    have hij : i ≠ j := fun e => by subst e; exact haz (ei.symm.trans ej)
    have e1 : (lst v 0 (n + 5)).idxOf a = i := by rw [← ei]; exact idxOf_lst hndv hi
    have e2 : (lst v 0 (n + 5)).idxOf z = j := by rw [← ej]; exact idxOf_lst hndv hj
    have e3 : inner (lst v 0 (n + 5)) = lst (placed (n + 4) i j v) 1 (n + 4) := by
      show lst (placed (n + 4) ((lst v 0 (n + 5)).idxOf a) _ _) 1 (n + 4) = _
      rw [e1, e2]
      exact lst_congr fun k h1 h2 => placed_congr (by omega) (by omega)
        (fun k hk => valAt_lst hk) k (by omega)
    have e4 : lst (placed (n + 4) i j v) 0 (n + 5) = a :: (inner (lst v 0 (n + 5)) ++ [z]) := by
      rw [lst_ends, placed_zero v hij (by omega), placed_last v hij (by omega), ei, ej, e3]
    refine ⟨i, j, by omega, by omega, hij, ei, ej, e1, e2, e3, ?_, e4⟩
    have hp2 : (a :: (inner (lst v 0 (n + 5)) ++ [z])).Perm (a :: (zs' ++ [z])) := by
      rw [← e4]
      exact (lst_placed_perm (by omega) (by omega)).trans hp
    exact (List.perm_append_right_iff [z]).1 ((List.perm_cons a).1 hp2)
  refine ⟨fun xs => placeMoves (n + 4) (xs.idxOf a) (xs.idxOf z) + c' (inner xs), ?_, ?_⟩
  · -- the run
    intro f s v hh hp
    have hsh : lst (fun k => v (f + k)) 0 (n + 5) = lst v f (f + (n + 5)) := by
      have := lst_shift (v := v) (f := 0) (l := n + 5) (k := f)
      rw [Nat.zero_add, Nat.add_comm (n + 5) f] at this
      rw [← this]
      simp only [Nat.add_comm]
    rw [← hsh] at hp ⊢
    obtain ⟨i, j, hi, hj, hij, ei, ej, e1, e2, e3, hpi, -⟩ := facts _ hp
    rw [lowMovesSort]
    apply wp_bind
    refine wp_mono (minmaxLoop_spec hlt _ f f f rfl (by omega) le_rfl hh (MinMax.init hlt)) ?_
    rintro ⟨mn, mx⟩ _ ⟨⟨k, rfl⟩, hm⟩
    have vmem : ∀ k, f ≤ k → k < f + (n + 5) → v k ∈ a :: (zs' ++ [z]) := fun k h1 h2 => by
      refine hp.mem_iff.1 (mem_lst.2 ⟨k - f, by omega, by omega, ?_⟩)
      show v (f + (k - f)) = v k
      rw [show f + (k - f) = k by omega]
    have inj : ∀ k k', k < n + 5 → k' < n + 5 → v (f + k) = v (f + k') → k = k' := by
      intro k k' h1 h2 e
      have hndv : (lst (fun k => v (f + k)) 0 (n + 5)).Nodup := hp.nodup_iff.2 hnd
      rw [← idxOf_lst hndv h1, ← idxOf_lst hndv h2]
      show List.idxOf (v (f + k)) _ = List.idxOf (v (f + k')) _
      rw [e]
    have hn1 := hm.n1
    have hn2 := hm.n2
    have hx1 := hm.x1
    have hx2 := hm.x2
    dsimp only at hn1 hn2 hx1 hx2
    have emn : mn = f + i := by
      have hmem := vmem mn hn1 (by omega)
      have hle := hm.nle (f + i) (by omega) (by omega)
      dsimp only at hle
      rcases List.mem_cons.1 hmem with e | e
      · have := inj (mn - f) i (by omega) (by omega)
          (by rw [show f + (mn - f) = mn by omega, e]; exact ei.symm)
        omega
      · have h1 := ha _ e
        rw [show v (f + i) = a from ei, h1] at hle
        cases hle
    have emx : mx = f + j := by
      have hmem := vmem mx hx1 (by omega)
      have hle := hm.xle (f + j) (by omega) (by omega)
      dsimp only at hle
      rw [← List.cons_append] at hmem
      rcases List.mem_append.1 hmem with e | e
      · have h1 := hzl _ e
        rw [show v (f + j) = z from ej, h1] at hle
        cases hle
      · have := inj (mx - f) j (by omega) (by omega)
          (by rw [show f + (mx - f) = mx by omega, List.mem_singleton.1 e]; exact ej.symm)
        omega
    subst emn emx
    apply wp_bind
    dsimp only
    rw [show f + (n + 5) - 1 = f + (n + 4) by omega]
    refine wp_mono (lowMovesPlace_moves (b := n + 4) (s := {s with cmps := k}) (by omega)
      (show Holds s.cell f (f + (n + 4) + 1) v from hh) hi hj hij) ?_
    rintro r s1 ⟨rfl, v1, hh1, ev, m1⟩
    rw [if_pos rfl]
    have el : lst v1 (f + 1) (f + 1 + (n + 3)) = inner (lst (fun k => v (f + k)) 0 (n + 5)) := by
      rw [e3]
      have := lst_shift (v := v1) (f := 1) (l := n + 4) (k := f)
      rw [show f + 1 = 1 + f by omega, show 1 + f + (n + 3) = n + 4 + f by omega, ← this]
      refine lst_congr fun k _ _ => ?_
      show v1 (k + f) = _
      rw [Nat.add_comm]; exact ev k
    have := hc' (f + 1) s1 v1 (hh1.sub (by omega) (by omega)) (by rw [el]; exact hpi)
    rw [show f + (n + 4) = f + 1 + (n + 3) by omega]
    refine wp_mono this ?_
    intro _ s2 m2
    rw [m2, m1, el, e1, e2]
    show s.movs + _ + _ = s.movs + _
    omega
  · -- the sum
    have nd1 : (a :: (zs' ++ [z])).permutations.Nodup := List.nodup_permutations _ hnd
    have nd2 : zs'.permutations.Nodup := List.nodup_permutations _ (hz'.nodup hlt)
    rw [← List.sum_toFinset _ nd1]
    rw [← List.sum_toFinset _ nd2] at hw
    have bij : ∑ xs ∈ (a :: (zs' ++ [z])).permutations.toFinset,
          (placeMoves (n + 4) (xs.idxOf a) (xs.idxOf z) + c' (inner xs)) =
        ∑ p ∈ zs'.permutations.toFinset ×ˢ (Finset.range (n + 4 + 1)).offDiag,
          (placeMoves (n + 4) p.2.1 p.2.2 + c' p.1) := by
      have elim : ∀ xs, xs ∈ (a :: (zs' ++ [z])).permutations.toFinset →
          lst (valAt xs) 0 (n + 5) = xs ∧ (lst (valAt xs) 0 (n + 5)).Perm (a :: (zs' ++ [z])) := by
        intro xs hx
        have hx := List.mem_permutations.1 (List.mem_toFinset.1 hx)
        have e := lst_valAt xs (n := n + 5) (hx.length_eq.trans hl)
        exact ⟨e, by rw [e]; exact hx⟩
      -- from a triple to an order
      have back : ∀ (p : List α × Nat × Nat),
          p ∈ zs'.permutations.toFinset ×ˢ (Finset.range (n + 4 + 1)).offDiag →
          let w := valAt (a :: (p.1 ++ [z]))
          let u := displaced (n + 4) p.2.1 p.2.2 w
          (lst u 0 (n + 5)).Perm (a :: (zs' ++ [z])) ∧ u p.2.1 = a ∧ u p.2.2 = z ∧
          p.2.1 ≤ n + 4 ∧ p.2.2 ≤ n + 4 ∧ lst w 1 (n + 4) = p.1 := by
        rintro ⟨ys, i, j⟩ hp
        obtain ⟨h1, h2⟩ := Finset.mem_product.1 hp
        obtain ⟨h3, h4, h5⟩ := Finset.mem_offDiag.1 h2
        dsimp only at h1 h3 h4 h5 ⊢
        have h3 := Finset.mem_range.1 h3
        have h4 := Finset.mem_range.1 h4
        have hys := List.mem_permutations.1 (List.mem_toFinset.1 h1)
        have hlen : (a :: (ys ++ [z])).length = n + 5 := by
          simp [hys.length_eq, hl']
        have ew := lst_valAt (a :: (ys ++ [z])) hlen
        have ew2 := ew
        rw [lst_ends] at ew2
        have hw0 : valAt (a :: (ys ++ [z])) 0 = a := rfl
        obtain ⟨-, ew3⟩ := List.cons.inj ew2
        obtain ⟨ew4, ew5⟩ := List.append_inj' ew3 rfl
        have hwb : valAt (a :: (ys ++ [z])) (n + 4) = z := (List.cons.inj ew5).1
        refine ⟨?_, ?_, ?_, by omega, by omega, ew4⟩
        · refine (lst_displaced_perm (by omega) (by omega)).trans ?_
          rw [ew]
          exact (hys.append_right [z]).cons a
        · have := placed_zero (b := n + 4)
            (displaced (n + 4) i j (valAt (a :: (ys ++ [z])))) h5 (by omega)
          rw [placed_displaced, hw0] at this
          exact this.symm
        · have := placed_last (b := n + 4)
            (displaced (n + 4) i j (valAt (a :: (ys ++ [z])))) h5 (by omega)
          rw [placed_displaced, hwb] at this
          exact this.symm
      refine Finset.sum_bij' (fun xs _ => (inner xs, xs.idxOf a, xs.idxOf z))
        (fun p _ => lst (displaced (n + 4) p.2.1 p.2.2 (valAt (a :: (p.1 ++ [z])))) 0 (n + 5))
        ?_ ?_ ?_ ?_ ?_
      · intro xs hx
        obtain ⟨e, hp⟩ := elim xs hx
        obtain ⟨i, j, hi, hj, hij, ei, ej, e1, e2, e3, hpi, -⟩ := facts _ hp
        rw [e] at e1 e2 hpi
        refine Finset.mem_product.2 ⟨List.mem_toFinset.2 (List.mem_permutations.2 hpi),
          Finset.mem_offDiag.2 ⟨Finset.mem_range.2 ?_, Finset.mem_range.2 ?_, ?_⟩⟩
        · show xs.idxOf a < _
          omega
        · show xs.idxOf z < _
          omega
        · show xs.idxOf a ≠ xs.idxOf z
          omega
      · intro p hp
        exact List.mem_toFinset.2 (List.mem_permutations.2 (back p hp).1)
      · intro xs hx
        obtain ⟨e, hp⟩ := elim xs hx
        obtain ⟨i, j, hi, hj, hij, ei, ej, e1, e2, e3, hpi, e4⟩ := facts _ hp
        rw [e] at e1 e2 e4
        show lst (displaced (n + 4) (xs.idxOf a) (xs.idxOf z) (valAt (a :: (inner xs ++ [z])))) 0 (n + 5) = xs
        rw [e1, e2, ← e4]
        refine Eq.trans (lst_congr fun k _ hk => ?_) e
        rw [displaced_congr hi hj (w := placed (n + 4) i j (valAt xs)) (fun k hk => valAt_lst hk) k hk,
          displaced_placed]
      · intro p hp
        obtain ⟨b1, b2, b3, b4, b5, b6⟩ := back p hp
        obtain ⟨i, j, hi, hj, hij, ei, ej, e1, e2, e3, hpi, e4⟩ := facts _ b1
        have hndu := b1.nodup_iff.2 hnd
        have q1 : i = p.2.1 := by
          have g1 := idxOf_lst hndu (i := i) (by omega)
          have g2 := idxOf_lst hndu (i := p.2.1) (by omega)
          rw [ei] at g1
          rw [b2] at g2
          exact g1.symm.trans g2
        have q2 : j = p.2.2 := by
          have g1 := idxOf_lst hndu (i := j) (by omega)
          have g2 := idxOf_lst hndu (i := p.2.2) (by omega)
          rw [ej] at g1
          rw [b3] at g2
          exact g1.symm.trans g2
        refine Prod.ext ?_ (Prod.ext ?_ ?_)
        · dsimp only
          rw [e3, q1, q2, placed_displaced, b6]
        · dsimp only; rw [e1, q1]
        · dsimp only; rw [e2, q2]
      · intro xs hx
        rfl
    have hcard : (zs'.permutations.toFinset).card = (n + 3).factorial := by
      rw [List.toFinset_card_of_nodup nd2, List.length_permutations, hl']
    have hoff : (Finset.range (n + 4 + 1)).offDiag.card = (n + 5) * (n + 4) := by
      rw [Finset.offDiag_card, Finset.card_range, show n + 4 + 1 = n + 5 by omega]
      have : (n + 5) * (n + 5) = (n + 5) * (n + 4) + (n + 5) := by ring
      omega
    have hs := sum_placeMoves (n + 4) (by omega)
    rw [bij, Finset.sum_product]
    simp only [Finset.sum_add_distrib, Finset.sum_const, nsmul_eq_mul, Nat.cast_id, hcard, hoff]
    rw [← Finset.mul_sum, hw]
    have : (n + 3).factorial * (∑ p ∈ (Finset.range (n + 4 + 1)).offDiag, placeMoves (n + 4) p.1 p.2)
        + 3 * (n + 3).factorial = (n + 3).factorial * (6 * (n + 4) ^ 2) := by
      rw [← hs]; ring
    omega


/-! ### The small sizes -/

/-- Moves of `sort3` (detail/low_moves/sort3.h). -/
def moves3 (lt : α → α → Bool) (x y z : α) : Nat :=
  if lt y x then (if lt z x then (if lt z y then 3 else 4) else 3)
  else if lt z y then (if lt z x then 4 else 3) else 0

theorem sortN3_moves {f : Nat} {s : St α} {v : Nat → α} (hh : Holds s.cell f (f + 3) v) :
    wp (sortN3.exec (tick lt) f) (fun _ s' => s'.movs =
      s.movs + moves3 lt (v f) (v (f + 1)) (v (f + 2))) s := by
  have h0 := hh f le_rfl (by omega)
  have h1 := hh (f + 1) (by omega) (by omega)
  have h2 := hh (f + 2) (by omega) (by omega)
  have cyc : ∀ (s : St α) (i j k : Nat) (x y z : α), i ≠ j → j ≠ k → k ≠ i →
      s.cell (f + i) = .val x → s.cell (f + j) = .val y → s.cell (f + k) = .val z →
      wp (do cycleMoves f [i, j, k]; pure false) (fun _ s' => s'.movs = s.movs + 4) s := by
    intro s i j k x y z hij hjk hki hi hj hk
    apply wp_bind
    unfold cycleMoves
    apply wp_bind
    refine wp_moveOut' hi fun s1 c1 _ _ m1 => ?_
    apply wp_bind
    simp only [moveChain]
    apply wp_bind
    refine wp_moveTo' (a := y) (by omega) (by rw [c1]; sc; exact hj)
      (by rw [c1]; exact .inl (by sc)) fun s2 c2 _ _ m2 => ?_
    apply wp_bind
    refine wp_moveTo' (a := z) (by omega) (by rw [c2, c1]; sc; exact hk)
      (by rw [c2, c1]; exact .inl (by sc)) fun s3 c3 _ _ m3 => ?_
    refine wp_pure ?_
    refine wp_assign' (by rw [c3]; exact .inl (by sc)) fun s4 c4 _ _ m4 => ?_
    refine wp_pure ?_
    omega
  have sw : ∀ (s : St α) (i j : Nat) (x y : α), s.cell i = .val x → s.cell j = .val y →
      wp (do swap i j; pure false) (fun _ s' => s'.movs = s.movs + 3) s := by
    intro s i j x y hi hj
    apply wp_bind
    exact wp_swap' hi hj fun s' _ _ _ hm => wp_pure hm
  generalize hk : moves3 lt (v f) (v (f + 1)) (v (f + 2)) = k
  unfold moves3 at hk
  unfold sortN3
  simp only [DP.exec]
  wread hh
  wread hh
  wtick
  split
  · wread hh
    wread hh
    wtick
    split
    · wread hh
      wread hh
      wtick
      split
      · refine wp_mono (sw _ _ _ _ _ h0 h2) fun _ s' hm => ?_
        simp_all
      · refine wp_mono (cyc _ 0 1 2 _ _ _ (by omega) (by omega) (by omega) h0 h1 h2) fun _ s' hm => ?_
        simp_all
    · refine wp_mono (sw _ _ _ _ _ h0 h1) fun _ s' hm => ?_
      simp_all
  · wread hh
    wread hh
    wtick
    split
    · wread hh
      wread hh
      wtick
      split
      · refine wp_mono (cyc _ 2 1 0 _ _ _ (by omega) (by omega) (by omega) h2 h1 h0) fun _ s' hm => ?_
        simp_all
      · refine wp_mono (sw _ _ _ _ _ h1 h2) fun _ s' hm => ?_
        simp_all
    · refine wp_pure ?_
      simp_all

theorem weight_two (hlt : StrictWeak lt) (zs : List α) (hz : Inc lt zs) (hl : zs.length = 2) :
    ∃ c, MovesBy lt 2 zs c ∧ (zs.permutations.map c).sum = 3 := by
  obtain ⟨a, b, rfl⟩ := List.length_eq_two.1 hl
  have hab : lt a b = true := by simpa [Inc] using hz
  have hba := hlt.asymm hab
  refine ⟨fun xs => match xs with | [x, y] => if lt y x then 3 else 0 | _ => 0, ?_, ?_⟩
  · intro f s v hh _
    rw [lst_cons (by omega), lst_cons (by omega), lst_nil (by omega), lowMovesSort]
    unfold iterSwapIf
    wread hh
    wread hh
    wtick
    dsimp only
    split
    · refine wp_swap_c (s := {s with cmps := s.cmps + 1}) hh ⟨by omega, by omega⟩
        ⟨by omega, by omega⟩ fun s' _ _ hm => ?_
      exact hm
    · exact wp_pure rfl
  · rw [((List.permutations_perm_permutations' [a, b]).map _).sum_eq]
    simp [List.permutations', List.permutations'Aux, hab, hba]

theorem weight_three (hlt : StrictWeak lt) (zs : List α) (hz : Inc lt zs) (hl : zs.length = 3) :
    ∃ c, MovesBy lt 3 zs c ∧ (zs.permutations.map c).sum = 17 := by
  obtain ⟨a, b, c, rfl⟩ := List.length_eq_three.1 hl
  obtain ⟨⟨hab, hac⟩, hbc⟩ : (lt a b = true ∧ lt a c = true) ∧ lt b c = true := by
    simpa [Inc] using hz
  have hba := hlt.asymm hab
  have hca := hlt.asymm hac
  have hcb := hlt.asymm hbc
  refine ⟨fun xs => match xs with | [x, y, z] => moves3 lt x y z | _ => 0, ?_, ?_⟩
  · intro f s v hh _
    rw [lst_cons (by omega), lst_cons (by omega), lst_cons (by omega), lst_nil (by omega),
      lowMovesSort]
    apply wp_bind
    exact wp_mono (sortN3_moves hh) fun _ s' hm => wp_pure hm
  · rw [((List.permutations_perm_permutations' [a, b, c]).map _).sum_eq]
    simp [List.permutations', List.permutations'Aux, moves3, hab, hba, hac, hca, hbc, hcb]

/-- Moves of `sort4` (detail/low_moves/sort4.h) on different elements. -/
def moves4 (lt : α → α → Bool) (x y z t : α) : Nat :=
  if lt x y && lt x z && lt x t then moves3 lt y z t
  else if lt y x && lt y z && lt y t then 3 + moves3 lt x z t
  else if lt z x && lt z y && lt z t then 3 + moves3 lt y x t
  else 3 + moves3 lt y z x

theorem weight_four (hlt : StrictWeak lt) (zs : List α) (hz : Inc lt zs) (hl : zs.length = 4) :
    ∃ c, MovesBy lt 4 zs c ∧ (zs.permutations.map c).sum = 122 := by
  refine ⟨fun xs => match xs with | [x, y, z, t] => moves4 lt x y z t | _ => 0, ?_, ?_⟩
  · intro f s v hh hp
    have tot := hz.total hp
    rw [lst_cons (by omega), lst_cons (by omega), lst_cons (by omega), lst_cons (by omega),
      lst_nil (by omega), lowMovesSort, if_neg (by omega)]
    dsimp only
    apply wp_bind
    refine wp_mono (minElementLoop_spec hlt f (f + 4) 3 (f + 1) f s v (by omega) le_rfl (by omega) hh
      (fun i h1 h2 => by have : i = f := by omega
                         rw [this]; exact hlt.irrefl _) (fun i h1 h2 => by omega)) ?_
    rintro mn _ ⟨rfl, h1, h2, h3, -⟩
    have low : ∀ i, f ≤ i → i < f + 4 → i ≠ mn → lt (v mn) (v i) = true := by
      intro i g1 g2 g3
      rcases tot i mn g1 g2 h1 h2 g3 with h | h
      · rw [h3 i g1 g2] at h; cases h
      · exact h
    have cases4 : mn = f ∨ mn = f + 1 ∨ mn = f + 1 + 1 ∨ mn = f + 1 + 1 + 1 := by omega
    have fin : ∀ {s1 : St α} {v1 : Nat → α}, Holds s1.cell f (f + 4) v1 →
        wp (do let _ ← sortN3.exec (tick lt) (f + 1); pure ()) (fun _ s' => s'.movs =
          s1.movs + moves3 lt (v1 (f + 1)) (v1 (f + 1 + 1)) (v1 (f + 1 + 1 + 1))) s1 := by
      intro s1 v1 hh1
      apply wp_bind
      exact wp_mono (sortN3_moves (hh1.sub (by omega) (by omega))) fun _ s' hm => wp_pure hm
    show wp (if mn ≠ f then _ else _) _ _
    rcases cases4 with rfl | rfl | rfl | rfl
    · rw [if_neg (by simp)]
      refine wp_mono (fin (s1 := {s with cmps := s.cmps + 3}) hh) fun _ s' hm => ?_
      rw [hm, moves4, low (mn + 1) (by omega) (by omega) (by omega),
        low (mn + 1 + 1) (by omega) (by omega) (by omega),
        low (mn + 1 + 1 + 1) (by omega) (by omega) (by omega)]
      rfl
    all_goals
      rw [if_pos (by omega)]
      apply wp_bind
      refine wp_swap_c (s := {s with cmps := s.cmps + 3}) hh ⟨h1, h2⟩ ⟨le_rfl, by omega⟩
        fun s1 hu1 _ hm1 => ?_
      refine wp_mono (fin hu1.holds) fun _ s' hm => ?_
      rw [hm, hm1, moves4]
    · have l0 := low f (by omega) (by omega) (by omega)
      have l2 := low (f + 1 + 1) (by omega) (by omega) (by omega)
      have l3 := low (f + 1 + 1 + 1) (by omega) (by omega) (by omega)
      sw
      simp only [l0, l2, l3, hlt.asymm l0, Bool.and_self, Bool.false_and, if_true, Bool.false_eq_true,
        if_false]
      omega
    · have l0 := low f (by omega) (by omega) (by omega)
      have l1 := low (f + 1) (by omega) (by omega) (by omega)
      have l3 := low (f + 1 + 1 + 1) (by omega) (by omega) (by omega)
      sw
      simp only [l0, l1, l3, hlt.asymm l0, hlt.asymm l1, Bool.and_self, Bool.false_and, Bool.and_false,
        if_true, Bool.false_eq_true, if_false]
      omega
    · have l0 := low f (by omega) (by omega) (by omega)
      have l1 := low (f + 1) (by omega) (by omega) (by omega)
      have l2 := low (f + 1 + 1) (by omega) (by omega) (by omega)
      sw
      simp only [hlt.asymm l0, hlt.asymm l1, hlt.asymm l2, Bool.and_false,
        Bool.false_eq_true, if_false]
      omega
  · match zs, hl with
    | [a, b, c, d], _ =>
      obtain ⟨⟨hab, hac, had⟩, ⟨hbc, hbd⟩, hcd⟩ : (lt a b = true ∧ lt a c = true ∧ lt a d = true) ∧
          (lt b c = true ∧ lt b d = true) ∧ lt c d = true := by
        simpa [Inc] using hz
      have hba := hlt.asymm hab
      have hca := hlt.asymm hac
      have hda := hlt.asymm had
      have hcb := hlt.asymm hbc
      have hdb := hlt.asymm hbd
      have hdc := hlt.asymm hcd
      rw [((List.permutations_perm_permutations' [a, b, c, d]).map _).sum_eq]
      simp [List.permutations', List.permutations'Aux, moves3, moves4, hab, hba, hac, hca, hbc, hcb,
        had, hda, hbd, hdb, hcd, hdc]

/-! ### All sizes -/

/-- The total number of moves of `low_moves_sorter<n>` over the orders of `n` different elements. -/
def moveWeight : Nat → Nat
  | 0 => 0
  | 1 => 0
  | 2 => 3
  | 3 => 17
  | 4 => 122
  | n + 5 => (n + 5) * (n + 4) * moveWeight (n + 3) + (n + 3).factorial * (6 * (n + 4) ^ 2 - 3)

theorem moveWeight_spec [Inhabited α] (hlt : StrictWeak lt) : ∀ (n : Nat) (zs : List α), Inc lt zs →
    zs.length = n → ∃ c, MovesBy lt n zs c ∧ (zs.permutations.map c).sum = moveWeight n := by
  intro n
  induction n using Nat.strong_induction_on with
  | _ n ih =>
  match n, ih with
  | 0, _ =>
    intro zs _ hl
    rw [List.length_eq_zero_iff] at hl
    subst hl
    exact ⟨fun _ => 0, fun f s v _ _ => wp_pure rfl, by simp [moveWeight]⟩
  | 1, _ =>
    intro zs _ hl
    obtain ⟨a, rfl⟩ := List.length_eq_one_iff.1 hl
    exact ⟨fun _ => 0, fun f s v _ _ => wp_pure rfl, by simp [moveWeight]⟩
  | 2, _ => exact weight_two hlt
  | 3, _ => exact weight_three hlt
  | 4, _ => exact weight_four hlt
  | n + 5, ih =>
    intro zs hz hl
    obtain ⟨c, h1, h2⟩ := weight_step hlt (ih (n + 3) (by omega)) zs hz hl
    refine ⟨c, h1, ?_⟩
    have h3 : 3 ≤ 6 * (n + 4) ^ 2 := by nlinarith
    obtain ⟨k, hk⟩ := Nat.exists_eq_add_of_le h3
    rw [moveWeight]
    rw [hk] at h2 ⊢
    rw [Nat.add_sub_cancel_left]
    nlinarith

end CppSort
