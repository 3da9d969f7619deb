import Verif.Proof.CmpWeightSum
/-
Comparison weight of `low_comparisons_sorter<9>`: the first seven comparisons are those of a tournament,
each of them can be turned around by exchanging two parts of the range, so that only one order out of
128 has to be followed through the rest of the body.
-/
set_option autoImplicit false

namespace CppSort

/-- An exchange that turns the answer of a test around halves the orders to consider. -/
theorem half_sum (A : Finset (Nat → Nat)) (τ : (Nat → Nat) → Nat → Nat) (t : (Nat → Nat) → Bool)
    (h1 : ∀ v ∈ A, τ v ∈ A) (h2 : ∀ v, τ (τ v) = v) (h3 : ∀ v ∈ A, t (τ v) = !t v)
    (F : (Nat → Nat) → Nat) :
    ∑ v ∈ A, F (if t v then τ v else v) = 2 * ∑ v ∈ A.filter (fun v => t v = false), F v := by
  classical
  rw [← Finset.sum_filter_add_sum_filter_not A (fun v => t v = false), two_mul]
  congr 1
  · refine Finset.sum_congr rfl fun v hv => ?_
    rw [(Finset.mem_filter.1 hv).2]
    rfl
  · refine Finset.sum_bij' (fun v _ => τ v) (fun v _ => τ v) ?_ ?_ ?_ ?_ ?_
    · intro v hv
      obtain ⟨a, b⟩ := Finset.mem_filter.1 hv
      have b : t v = true := by simpa using b
      exact Finset.mem_filter.2 ⟨h1 v a, by rw [h3 v a, b]; rfl⟩
    · intro v hv
      obtain ⟨a, b⟩ := Finset.mem_filter.1 hv
      exact Finset.mem_filter.2 ⟨h1 v a, by rw [h3 v a, b]; simp⟩
    · intro v _; exact h2 v
    · intro v _; exact h2 v
    · intro v hv
      obtain ⟨a, b⟩ := Finset.mem_filter.1 hv
      have b : t v = true := by simpa using b
      rw [b]
      rfl

/-- The second of two statements. -/
def DP.second : DP → DP
  | .seq _ q => q
  | p => p

def tail9 : DP := sortN9.second.second.second.second.second.second.second

/-- Do the values, last one first, agree with the tournament? -/
def ok9 : List Nat → Bool
  | [b, a] => Nat.ble a b
  | [d, c, b, _] => Nat.ble c d && Nat.ble b d
  | [f, e, _, _, _, _] => Nat.ble e f
  | [h, g, f, _, d, _, _, _] => Nat.ble g h && Nat.ble f h && Nat.ble d h
  | _ => true

set_option maxRecDepth 100000 in
theorem enum9 : backSum ok9 (cmpCost tail9) 9 [] (List.range 9) = 32967 := by decide +kernel

set_option maxRecDepth 100000 in
theorem enum9_one : backSum ok9 (fun _ => 1) 9 [] (List.range 9) = 2835 := by decide +kernel

open Classical in
/-- The orders of `0, ..., 8`, as functions. -/
noncomputable def orders9 : Finset (Nat → Nat) := (List.range 9).permutations.toFinset.image valAt

theorem mem_orders9 {v : Nat → Nat} :
    v ∈ orders9 ↔ (lst v 0 9).Perm (List.range 9) ∧ ∀ k, 9 ≤ k → v k = 0 := by
  classical
  unfold orders9
  rw [Finset.mem_image]
  constructor
  · rintro ⟨xs, h, rfl⟩
    have h := List.mem_permutations.1 (List.mem_toFinset.1 h)
    have hl : xs.length = 9 := by rw [h.length_eq, List.length_range]
    refine ⟨by rw [lst_valAt xs hl]; exact h, fun k hk => ?_⟩
    unfold valAt
    rw [List.getD_eq_default _ _ (by omega)]
    rfl
  · rintro ⟨h1, h2⟩
    refine ⟨lst v 0 9, List.mem_toFinset.2 (List.mem_permutations.2 h1), ?_⟩
    funext k
    by_cases hk : k < 9
    · exact valAt_lst hk
    · rw [h2 k (by omega)]
      unfold valAt
      rw [List.getD_eq_default _ _ (by rw [lst_length]; omega)]
      rfl

theorem orders9_ne {v : Nat → Nat} (h : v ∈ orders9) {i j : Nat} (hi : i < 9) (hj : j < 9)
    (hij : i ≠ j) : v i ≠ v j := by
  intro e
  rcases (inc_range 9).total (mem_orders9.1 h).1 i j (by omega) hi (by omega) hj hij with h | h <;>
  · rw [e] at h; simp [natB] at h

theorem orders9_swp {v : Nat → Nat} (h : v ∈ orders9) {i j : Nat} (hi : i < 9) (hj : j < 9) :
    swp v i j ∈ orders9 := by
  obtain ⟨h1, h2⟩ := mem_orders9.1 h
  refine mem_orders9.2 ⟨(lst_swp_perm hi hj).trans h1, fun k hk => ?_⟩
  rw [swp_o (by omega) (by omega)]
  exact h2 k hk

theorem natB_flip {a b : Nat} (h : a ≠ b) : natB a b = !natB b a := by
  unfold natB
  rcases Nat.lt_or_gt_of_ne h with h | h
  · simp [h]; omega
  · simp [h]; omega

theorem cost_cswap (i j : Nat) (q : DP) (v : Nat → Nat) : (DP.ev natB (.seq (.cswap i j) q) 0 v).1 =
    1 + (q.ev natB 0 (if natB (v (0 + j)) (v (0 + i)) then swp v (0 + i) (0 + j) else v)).1 := rfl

theorem cost_ite2 (i j a b c d : Nat) (q : DP) (v : Nat → Nat) :
    (DP.ev natB (.seq (.ite i j (.seq (.swap a b) (.swap c d)) .nop) q) 0 v).1 =
    1 + (q.ev natB 0 (if natB (v (0 + i)) (v (0 + j)) then swp (swp v (0 + a) (0 + b)) (0 + c) (0 + d)
      else v)).1 := by
  simp only [DP.ev, Nat.zero_add]
  by_cases h : natB (v i) (v j) = true
  · simp [h]
  · simp [h]

theorem cost_ite4 (i j a b c d a' b' c' d' : Nat) (q : DP) (v : Nat → Nat) :
    (DP.ev natB (.seq (.ite i j (.seq (.swap a b) (.seq (.swap c d) (.seq (.swap a' b') (.swap c' d'))))
      .nop) q) 0 v).1 =
    1 + (q.ev natB 0 (if natB (v (0 + i)) (v (0 + j)) then swp (swp (swp (swp v (0 + a) (0 + b)) (0 + c)
      (0 + d)) (0 + a') (0 + b')) (0 + c') (0 + d') else v)).1 := by
  simp only [DP.ev, Nat.zero_add]
  by_cases h : natB (v i) (v j) = true
  · simp [h]
  · simp [h]

/-- One comparison of the tournament. -/
theorem half_step (A : Finset (Nat → Nat)) (τ : (Nat → Nat) → Nat → Nat) (i j m : Nat) (p q : DP)
    (h1 : ∀ v ∈ A, τ v ∈ A) (h2 : ∀ v, τ (τ v) = v)
    (h3 : ∀ v ∈ A, v i ≠ v j ∧ τ v i = v j ∧ τ v j = v i)
    (hc : ∀ v, (p.ev natB 0 v).1 = 1 + (q.ev natB 0 (if natB (v i) (v j) then τ v else v)).1) :
    ∑ v ∈ A, (m + (p.ev natB 0 v).1) =
      2 * ∑ v ∈ A.filter (fun v => natB (v i) (v j) = false), (m + 1 + (q.ev natB 0 v).1) := by
  rw [← half_sum A τ (fun v => natB (v i) (v j)) h1 h2 (fun v hv => ?_)
    (fun v => m + 1 + (q.ev natB 0 v).1)]
  · refine Finset.sum_congr rfl fun v _ => ?_
    rw [hc v]
    omega
  · obtain ⟨a, b, c⟩ := h3 v hv
    rw [b, c]
    exact natB_flip fun e => a e.symm

theorem swp4_swp4 (v : Nat → Nat) :
    swp (swp (swp (swp (swp (swp (swp (swp v 0 4) 1 5) 2 6) 3 7) 0 4) 1 5) 2 6) 3 7 = v := by
  funext k
  by_cases hk : k < 8
  · obtain h | h | h | h | h | h | h | h : k = 0 ∨ k = 1 ∨ k = 2 ∨ k = 3 ∨ k = 4 ∨ k = 5 ∨ k = 6 ∨
      k = 7 := by omega
    all_goals subst h; simp [swp]
  · iterate 8 rw [swp_o (by omega) (by omega)]

theorem swp2_swp2 (v : Nat → Nat) (a : Nat) :
    swp (swp (swp (swp v a (a + 2)) (a + 1) (a + 3)) a (a + 2)) (a + 1) (a + 3) = v := by
  funext k
  by_cases hk : a ≤ k ∧ k < a + 4
  · obtain h | h | h | h : k = a ∨ k = a + 1 ∨ k = a + 2 ∨ k = a + 3 := by omega
    all_goals subst h; simp [swp]
  · iterate 4 rw [swp_o (by omega) (by omega)]

theorem cmpSum_nine : cmpSum sortN9 (List.range 9) = 6759936 := by
  classical
  -- from lists to functions
  have toFun : ∀ F : (Nat → Nat) → Nat, ((List.range 9).permutations.map fun xs => F (valAt xs)).sum =
      ∑ v ∈ orders9, F v := by
    intro F
    unfold orders9
    rw [Finset.sum_image, ← List.sum_toFinset _ (List.nodup_permutations _ List.nodup_range)]
    intro xs hx ys hy e
    have hx : xs.length = 9 := by
      rw [(List.mem_permutations.1 (List.mem_toFinset.1 hx)).length_eq, List.length_range]
    have hy : ys.length = 9 := by
      rw [(List.mem_permutations.1 (List.mem_toFinset.1 hy)).length_eq, List.length_range]
    rw [← lst_valAt xs hx, ← lst_valAt ys hy, e]
  have start : cmpSum sortN9 (List.range 9) = ∑ v ∈ orders9, (0 + (sortN9.ev natB 0 v).1) := by
    simp only [Nat.zero_add]
    exact toFun fun v => (sortN9.ev natB 0 v).1
  rw [start]
  rw [half_step orders9 (fun v => swp v 0 1) 1 0 0 sortN9 sortN9.second
    (fun v hv => orders9_swp hv (by omega) (by omega)) (fun v => swp_swp v _ _)
    (fun v hv => ⟨orders9_ne hv (by omega) (by omega) (by omega), swp_r rfl, swp_l rfl⟩)
    (fun v => cost_cswap 0 1 _ v)]
  rw [half_step _ (fun v => swp v 2 3) 3 2 _ sortN9.second sortN9.second.second
    (fun v hv => by
      simp only [Finset.mem_filter] at hv ⊢
      refine ⟨orders9_swp hv.1 (by omega) (by omega), ?_⟩
      simpa [swp] using hv.2) (fun v => swp_swp v _ _)
    (fun v hv => by
      simp only [Finset.mem_filter] at hv
      exact ⟨orders9_ne hv.1 (by omega) (by omega) (by omega), swp_r rfl, swp_l rfl⟩)
    (fun v => cost_cswap 2 3 _ v)]
  rw [half_step _ (fun v => swp v 4 5) 5 4 _ sortN9.second.second sortN9.second.second.second
    (fun v hv => by
      simp only [Finset.mem_filter] at hv ⊢
      refine ⟨⟨orders9_swp hv.1.1 (by omega) (by omega), ?_⟩, ?_⟩
      · simpa [swp] using hv.1.2
      · simpa [swp] using hv.2) (fun v => swp_swp v _ _)
    (fun v hv => by
      simp only [Finset.mem_filter] at hv
      exact ⟨orders9_ne hv.1.1 (by omega) (by omega) (by omega), swp_r rfl, swp_l rfl⟩)
    (fun v => cost_cswap 4 5 _ v)]
  rw [half_step _ (fun v => swp v 6 7) 7 6 _ sortN9.second.second.second
    sortN9.second.second.second.second
    (fun v hv => by
      simp only [Finset.mem_filter] at hv ⊢
      obtain ⟨⟨⟨a, b⟩, c⟩, d⟩ := hv
      refine ⟨⟨⟨orders9_swp a (by omega) (by omega), ?_⟩, ?_⟩, ?_⟩
      · simpa [swp] using b
      · simpa [swp] using c
      · simpa [swp] using d) (fun v => swp_swp v _ _)
    (fun v hv => by
      simp only [Finset.mem_filter] at hv
      exact ⟨orders9_ne hv.1.1.1 (by omega) (by omega) (by omega), swp_r rfl, swp_l rfl⟩)
    (fun v => cost_cswap 6 7 _ v)]
  rw [half_step _ (fun v => swp (swp v 0 2) 1 3) 3 1 _ sortN9.second.second.second.second
    sortN9.second.second.second.second.second
    (fun v hv => by
      simp only [Finset.mem_filter] at hv ⊢
      obtain ⟨⟨⟨⟨a, b⟩, c⟩, d⟩, e⟩ := hv
      refine ⟨⟨⟨⟨orders9_swp (orders9_swp a (by omega) (by omega)) (by omega) (by omega), ?_⟩, ?_⟩, ?_⟩,
        ?_⟩
      · simpa [swp] using c
      · simpa [swp] using b
      · simpa [swp] using d
      · simpa [swp] using e) (fun v => swp2_swp2 v 0)
    (fun v hv => by
      simp only [Finset.mem_filter] at hv
      exact ⟨orders9_ne hv.1.1.1.1 (by omega) (by omega) (by omega), rfl, rfl⟩)
    (fun v => cost_ite2 3 1 0 2 1 3 _ v)]
  rw [half_step _ (fun v => swp (swp v 4 6) 5 7) 7 5 _ sortN9.second.second.second.second.second
    sortN9.second.second.second.second.second.second
    (fun v hv => by
      simp only [Finset.mem_filter] at hv ⊢
      obtain ⟨⟨⟨⟨⟨a, b⟩, c⟩, d⟩, e⟩, f⟩ := hv
      refine ⟨⟨⟨⟨⟨orders9_swp (orders9_swp a (by omega) (by omega)) (by omega) (by omega), ?_⟩, ?_⟩, ?_⟩,
        ?_⟩, ?_⟩
      · simpa [swp] using b
      · simpa [swp] using c
      · simpa [swp] using e
      · simpa [swp] using d
      · simpa [swp] using f) (fun v => swp2_swp2 v 4)
    (fun v hv => by
      simp only [Finset.mem_filter] at hv
      exact ⟨orders9_ne hv.1.1.1.1.1 (by omega) (by omega) (by omega), rfl, rfl⟩)
    (fun v => cost_ite2 7 5 4 6 5 7 _ v)]
  rw [half_step _ (fun v => swp (swp (swp (swp v 0 4) 1 5) 2 6) 3 7) 7 3 _
    sortN9.second.second.second.second.second.second tail9
    (fun v hv => by
      simp only [Finset.mem_filter] at hv ⊢
      obtain ⟨⟨⟨⟨⟨⟨a, b⟩, c⟩, d⟩, e⟩, f⟩, g⟩ := hv
      refine ⟨⟨⟨⟨⟨⟨orders9_swp (orders9_swp (orders9_swp (orders9_swp a (by omega) (by omega)) (by omega)
        (by omega)) (by omega) (by omega)) (by omega) (by omega), ?_⟩, ?_⟩, ?_⟩, ?_⟩, ?_⟩, ?_⟩
      · simpa [swp] using d
      · simpa [swp] using e
      · simpa [swp] using b
      · simpa [swp] using c
      · simpa [swp] using g
      · simpa [swp] using f) swp4_swp4
    (fun v hv => by
      simp only [Finset.mem_filter] at hv
      exact ⟨orders9_ne hv.1.1.1.1.1.1 (by omega) (by omega) (by omega), rfl, rfl⟩)
    (fun v => cost_ite4 7 3 0 4 1 5 2 6 3 7 _ v)]
  -- the orders that are left
  have last : ∑ v ∈ orders9, (if natB (v 1) (v 0) = false then if natB (v 3) (v 2) = false then
      if natB (v 5) (v 4) = false then if natB (v 7) (v 6) = false then if natB (v 3) (v 1) = false then
      if natB (v 7) (v 5) = false then if natB (v 7) (v 3) = false then 7 + (tail9.ev natB 0 v).1
      else 0 else 0 else 0 else 0 else 0 else 0 else 0) = 52812 := by
    rw [← toFun]
    have h : ∀ xs ∈ (List.range 9).permutations, (fun v : Nat → Nat =>
        (if natB (v 1) (v 0) = false then if natB (v 3) (v 2) = false then
        if natB (v 5) (v 4) = false then if natB (v 7) (v 6) = false then
        if natB (v 3) (v 1) = false then
        if natB (v 7) (v 5) = false then if natB (v 7) (v 3) = false then 7 + (tail9.ev natB 0 v).1
        else 0 else 0 else 0 else 0 else 0 else 0 else 0)) (valAt xs) =
        7 * (if allOk ok9 [] xs then (fun _ => 1) ([].reverse ++ xs) else 0) +
          (if allOk ok9 [] xs then cmpCost tail9 ([].reverse ++ xs) else 0) := by
      intro xs hx
      have hl : xs.length = 9 := by
        rw [(List.mem_permutations.1 hx).length_eq, List.length_range]
      match xs, hl with
      | [a, b, c, d, e, f, g, h, i], _ =>
        have ea : allOk ok9 [] [a, b, c, d, e, f, g, h, i] = (Nat.ble a b && (Nat.ble c d &&
            Nat.ble b d) && Nat.ble e f && (Nat.ble g h && Nat.ble f h && Nat.ble d h)) := by
          simp [allOk, ok9, Bool.and_assoc]
        have eb : ∀ x y : Nat, Nat.ble x y = !natB y x := by
          intro x y
          unfold natB
          by_cases h : x ≤ y
          · rw [Nat.ble_eq_true_of_le h]; simp; omega
          · have : Nat.ble x y = false := by
              rw [← Bool.not_eq_true, Nat.ble_eq]; exact h
            rw [this]; simp; omega
        rw [ea]
        show (if natB b a = false then if natB d c = false then
          if natB f e = false then if natB h g = false then if natB d b = false then
          if natB h f = false then if natB h d = false then 7 + cmpCost tail9 _
          else 0 else 0 else 0 else 0 else 0 else 0 else 0) = _
        simp only [eb, List.reverse_nil, List.nil_append]
        cases natB b a <;> cases natB d c <;> cases natB f e <;> cases natB h g <;> cases natB d b <;>
          cases natB h f <;> cases natB h d <;> simp
    rw [List.map_congr_left h, List.sum_map_add, List.sum_map_mul_left,
      ← backSum_eq ok9 (fun _ => 1) 9 [] _ List.nodup_range List.length_range,
      ← backSum_eq ok9 (cmpCost tail9) 9 [] _ List.nodup_range List.length_range, enum9, enum9_one]
    rfl
  simp only [Finset.sum_filter]
  simp only [Nat.zero_add] at last ⊢
  rw [last]

/-! ### The other sizes -/

theorem cmpSum_two : cmpSum sortN2 (List.range 2) = 2 := by rw [cmpSum_enum]; decide +kernel
theorem cmpSum_three : cmpSum sortN3 (List.range 3) = 16 := by rw [cmpSum_enum]; decide +kernel
set_option maxRecDepth 100000 in
theorem cmpSum_five : cmpSum sortN5 (List.range 5) = 832 := by rw [cmpSum_enum]; decide +kernel
set_option maxRecDepth 100000 in
theorem cmpSum_six : cmpSum sortN6 (List.range 6) = 6912 := by rw [cmpSum_enum]; decide +kernel

theorem cmpSum_four : cmpSum sortN4 (List.range 4) = 112 := by
  have h := cmpSum_insert (q := .call 0 frontInsert4) (p := sortN3) (n := 3) (by decide +kernel) check3
  rw [cmpSum_three] at h
  exact h.trans (by decide +kernel)

theorem cmpSum_seven : cmpSum sortN7 (List.range 7) = 62784 := by
  have h := cmpSum_insert (q := .call 0 frontInsert7) (p := sortN6) (n := 6) (by decide +kernel) check6
  rw [cmpSum_six] at h
  exact h.trans (by decide +kernel)

theorem cmpSum_eight : cmpSum sortN8 (List.range 8) = 623232 := by
  have h := cmpSum_insert (q := .call 0 frontInsert8) (p := sortN7) (n := 7) (by decide +kernel) check7
  rw [cmpSum_seven] at h
  exact h.trans (by decide +kernel)

theorem cmpSum_ten : cmpSum sortN10 (List.range 10) = 79937280 := by
  have h := cmpSum_insert (q := .call 0 frontInsert10) (p := sortN9) (n := 9) (by decide +kernel) check9
  rw [cmpSum_nine] at h
  exact h.trans (by decide +kernel)

theorem cmpSum_eleven : cmpSum sortN11 (List.range 11) = 1020833280 := by
  have h := cmpSum_insert (q := .call 0 frontInsert11) (p := sortN10) (n := 10) (by decide +kernel)
    check10
  rw [cmpSum_ten] at h
  exact h.trans (by decide +kernel)

theorem cmpSum_twelve : cmpSum sortN12 (List.range 12) = 15167554560 := by
  have h := cmpSum_insert2 (q := sortN12.second) (p := sortN10) (n := 10) (by decide +kernel) check10
  rw [cmpSum_ten] at h
  exact h.trans (by decide +kernel)

theorem cmpSum_thirteen : cmpSum sortN13 (List.range 13) = 223436206080 := by
  have h := cmpSum_insert2 (q := sortN13.second) (p := sortN11) (n := 11) (by decide +kernel) check11
  rw [cmpSum_eleven] at h
  exact h.trans (by decide +kernel)

end CppSort
