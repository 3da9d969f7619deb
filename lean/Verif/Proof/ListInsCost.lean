import Verif.Proof.MelCost
/-
The comparisons made by insertion sort on lists: one binary search for each element, whatever the input.
-/
set_option autoImplicit false

namespace CppSort
variable {α : Type} {lt : α → α → Bool} {N : Nat}

theorem lowerBoundBy_costs {test : Nat → M α Bool} (ht : ∀ i, Cost N (test i) (fun _ c => c = 1)) :
    ∀ (k j first size : Nat), 2 ^ k ≤ size + 1 → size < 2 ^ j →
      Cost N (lowerBoundBy test first size) (fun _ c => k ≤ c ∧ c ≤ j) := by
  intro k j
  induction j generalizing k with
  | zero =>
    intro first size h h'
    rw [lowerBoundBy, if_neg (by omega)]
    refine Cost.pure ⟨?_, by omega⟩
    obtain _ | k := k
    · omega
    · rw [Nat.pow_succ] at h
      have := Nat.two_pow_pos k
      omega
  | succ j ih =>
    intro first size h h'
    rw [Nat.pow_succ] at h'
    rw [lowerBoundBy]
    refine Cost.ite (fun h0 => ?_) fun h0 => Cost.pure ⟨?_, by omega⟩
    · dsimp only
      refine (ht _).bind fun b c hc => ?_
      have hk : ∀ m, (size + 1) / 2 ≤ m + 1 → 2 ^ (k - 1) ≤ m + 1 := by
        intro m hm
        obtain _ | k := k
        · simp
        · rw [Nat.pow_succ] at h
          simp only [Nat.add_sub_cancel]
          omega
      refine Cost.ite (fun _ => ?_) fun _ => ?_
      · exact (ih (k - 1) _ _ (hk _ (by omega)) (by omega)).mono fun _ c' h' => by omega
      · exact (ih (k - 1) _ _ (hk _ (by omega)) (by omega)).mono fun _ c' h' => by omega
    · obtain _ | k := k
      · omega
      · rw [Nat.pow_succ] at h
        have := Nat.two_pow_pos k
        omega

theorem splice_cost {xs : List α} {pos it : Nat} :
    Cost N (splice xs pos it) (fun r c => r.length = xs.length ∧ c = 0) := by
  unfold splice
  refine nth_cost.bind ?_
  rintro x c ⟨hx, rfl⟩
  obtain ⟨hi, -⟩ := List.getElem?_eq_some_iff.1 hx
  refine Cost.ite (fun h => Cost.pure ⟨?_, rfl⟩) fun h => Cost.ite (fun h' => Cost.pure ⟨?_, rfl⟩) fun _ => ?_
  · rw [List.length_insertIdx_of_le_length, List.length_eraseIdx_of_lt hi]
    · omega
    · rw [List.length_eraseIdx_of_lt hi]; omega
  · rw [List.length_insertIdx_of_le_length, List.length_eraseIdx_of_lt hi]
    · omega
    · rw [List.length_eraseIdx_of_lt hi]; omega
  · intro s r s' _ h; cases h

theorem insTest_cost {value : α} {xs : List α} (i : Nat) :
    Cost N (do return !(← tick lt value (← nth xs i))) (fun _ c => c = 1) := by
  refine nth_cost.bind ?_
  rintro x c ⟨-, rfl⟩
  exact (Cost.tick (R := fun _ c => c = 1) rfl).bind fun _ c hc => Cost.pure (by omega)

/-- The least number of comparisons of `k` binary searches, the first one among `size` elements. -/
def logSum : Nat → Nat → Nat
  | _, 0 => 0
  | size, k + 1 => (size + 1).log2 + logSum (size + 1) k

theorem logSum_ge : ∀ (k m size : Nat), m ≤ size → k * m.log2 ≤ logSum size k := by
  intro k
  induction k with
  | zero => intro m size _; simp
  | succ k ih =>
    intro m size h
    have h1 := ih m (size + 1) (by omega)
    have h2 : m.log2 ≤ (size + 1).log2 := log2_mono (by omega)
    rw [logSum, Nat.succ_mul]
    omega

theorem logSum_drop : ∀ (d k size : Nat), logSum (size + d) k ≤ logSum size (k + d) := by
  intro d
  induction d with
  | zero => intro k size; exact Nat.le_refl _
  | succ d ih =>
    intro k size
    have := ih k (size + 1)
    rw [← Nat.add_assoc k, logSum, show size + (d + 1) = size + 1 + d by omega]
    omega

theorem search_costs {test : Nat → M α Bool} (ht : ∀ i, Cost N (test i) (fun _ c => c = 1)) (size : Nat) (h : 0 < size) :
    Cost N (lowerBoundBy test 0 size) (fun _ c => (size + 1).log2 ≤ c ∧ c ≤ size.log2 + 1) :=
  lowerBoundBy_costs ht _ _ _ _ (Nat.log2_self_le (by omega)) (by rw [Nat.pow_succ]; have := @Nat.lt_log2_self size; omega)

theorem listInsertionLoop_costs : ∀ (k n it : Nat) (xs : List α), xs.length = n → n - it = k → it ≤ n → 0 < it →
    Cost N (listInsertionLoop (tick lt) xs it it) (fun _ c => logSum it k ≤ c ∧ c ≤ k * (n.log2 + 1)) := by
  intro k n
  induction k with
  | zero =>
    intro it xs hn hk hle h0
    rw [listInsertionLoop, if_neg (by omega)]
    exact Cost.pure ⟨Nat.le_refl _, Nat.zero_le _⟩
  | succ k ih =>
    intro it xs hn hk hle h0
    rw [listInsertionLoop, if_pos (by omega)]
    have hl : it.log2 ≤ n.log2 := log2_mono hle
    refine nth_cost.bind ?_
    rintro value c ⟨-, rfl⟩
    refine (search_costs (fun i => insTest_cost i) it h0).bind ?_
    rintro p c1 ⟨h1, h2⟩
    have fin : ∀ c2, logSum (it + 1) k ≤ c2 ∧ c2 ≤ k * (n.log2 + 1) →
        logSum it (k + 1) ≤ c1 + c2 ∧ c1 + c2 ≤ (k + 1) * (n.log2 + 1) := by
      intro c2 h
      rw [logSum, Nat.succ_mul]
      omega
    refine Cost.ite (fun _ => ?_) fun _ => ?_
    · exact (ih (it + 1) xs hn (by omega) (by omega) (by omega)).mono fun _ c2 h => by
        have := fin c2 h; omega
    · dsimp only
      refine splice_cost.bind ?_
      rintro ys c3 ⟨hy, rfl⟩
      exact (ih (it + 1) ys (by omega) (by omega) (by omega) (by omega)).mono fun _ c2 h => by
        have := fin c2 h; omega

theorem listInsertionSort_costs (xs : List α) : Cost N (listInsertionSort (tick lt) xs)
    (fun _ c => logSum 1 (xs.length - 1) ≤ c ∧ c ≤ xs.length * (xs.length.log2 + 1)) := by
  unfold listInsertionSort
  split
  · rename_i h
    rw [h]
    exact Cost.pure ⟨Nat.le_refl _, Nat.zero_le _⟩
  · refine (listInsertionLoop_costs (xs.length - 1) xs.length 1 xs rfl rfl (by omega) (by omega)).mono ?_
    rintro _ c ⟨h1, h2⟩
    exact ⟨h1, h2.trans (Nat.mul_le_mul_right _ (by omega))⟩

theorem flistSearch_costs {xs : List α} {value : α} :
    ∀ (k j first size : Nat), 2 ^ k ≤ size + 1 → size < 2 ^ j →
      Cost N (flistSearch (tick lt) xs value first size) (fun _ c => k ≤ c ∧ c ≤ j) := by
  intro k j
  induction j generalizing k with
  | zero =>
    intro first size h h'
    rw [flistSearch, if_neg (by omega)]
    refine Cost.pure ⟨?_, by omega⟩
    obtain _ | k := k
    · omega
    · rw [Nat.pow_succ] at h
      have := Nat.two_pow_pos k
      omega
  | succ j ih =>
    intro first size h h'
    rw [Nat.pow_succ] at h'
    rw [flistSearch]
    refine Cost.ite (fun h0 => ?_) fun h0 => Cost.pure ⟨?_, by omega⟩
    · dsimp only
      refine nth_cost.bind ?_
      rintro x c0 ⟨-, rfl⟩
      refine (Cost.tick (R := fun _ c => c = 1) rfl).bind fun b c hc => ?_
      have hk : ∀ m, (size + 1) / 2 ≤ m + 1 → 2 ^ (k - 1) ≤ m + 1 := by
        intro m hm
        obtain _ | k := k
        · simp
        · rw [Nat.pow_succ] at h
          simp only [Nat.add_sub_cancel]
          omega
      refine Cost.ite (fun _ => ?_) fun _ => ?_
      · exact (ih (k - 1) _ _ (hk _ (by omega)) (by omega)).mono fun _ c' h' => by omega
      · exact (ih (k - 1) _ _ (hk _ (by omega)) (by omega)).mono fun _ c' h' => by omega
    · obtain _ | k := k
      · omega
      · rw [Nat.pow_succ] at h
        have := Nat.two_pow_pos k
        omega

theorem flistInsertionLoop_costs : ∀ (k n it : Nat) (xs : List α), xs.length = n → n - it = k → it ≤ n → 0 < it →
    Cost N (flistInsertionLoop (tick lt) xs it it) (fun _ c => logSum it k ≤ c ∧ c ≤ k * (n.log2 + 1)) := by
  intro k n
  induction k with
  | zero =>
    intro it xs hn hk hle h0
    rw [flistInsertionLoop, if_neg (by omega)]
    exact Cost.pure ⟨Nat.le_refl _, Nat.zero_le _⟩
  | succ k ih =>
    intro it xs hn hk hle h0
    rw [flistInsertionLoop, if_pos (by omega)]
    have hl : it.log2 ≤ n.log2 := log2_mono hle
    refine nth_cost.bind ?_
    rintro value c ⟨-, rfl⟩
    refine (flistSearch_costs _ _ 0 it (Nat.log2_self_le (n := it + 1) (by omega))
      (by rw [Nat.pow_succ]; have := @Nat.lt_log2_self it; omega : it < 2 ^ (it.log2 + 1))).bind ?_
    rintro p c1 ⟨h1, h2⟩
    have fin : ∀ c2, logSum (it + 1) k ≤ c2 ∧ c2 ≤ k * (n.log2 + 1) →
        logSum it (k + 1) ≤ c1 + c2 ∧ c1 + c2 ≤ (k + 1) * (n.log2 + 1) := by
      intro c2 h
      rw [logSum, Nat.succ_mul]
      omega
    refine Cost.ite (fun _ => ?_) fun _ => ?_
    · exact (ih (it + 1) xs hn (by omega) (by omega) (by omega)).mono fun _ c2 h => by
        have := fin c2 h; omega
    · refine splice_cost.bind ?_
      rintro ys c3 ⟨hy, rfl⟩
      exact (ih (it + 1) ys (by omega) (by omega) (by omega) (by omega)).mono fun _ c2 h => by
        have := fin c2 h; omega

theorem flistInsertionSort_costs (xs : List α) : Cost N (flistInsertionSort (tick lt) xs)
    (fun _ c => logSum 1 (xs.length - 1) ≤ c ∧ c ≤ xs.length * (xs.length.log2 + 1)) := by
  unfold flistInsertionSort
  split
  · rename_i h
    rw [h]
    exact Cost.pure ⟨Nat.le_refl _, Nat.zero_le _⟩
  · refine (flistInsertionLoop_costs (xs.length - 1) xs.length 1 xs rfl rfl (by omega) (by omega)).mono ?_
    rintro _ c ⟨h1, h2⟩
    exact ⟨h1, h2.trans (Nat.mul_le_mul_right _ (by omega))⟩

/-- `n - 1` binary searches make more than a constant times `n` comparisons. -/
theorem logSum_big (C : Nat) : ∃ n, 0 < n ∧ C * n < logSum 1 (n - 1) := by
  refine ⟨2 ^ (2 * C + 2), Nat.two_pow_pos _, ?_⟩
  have e : (2 : Nat) ^ (2 * C + 2) = 2 * 2 ^ (2 * C + 1) := by rw [show 2 * C + 2 = 2 * C + 1 + 1 by omega, Nat.pow_succ]; omega
  rw [e]
  generalize hp : (2 : Nat) ^ (2 * C + 1) = p
  have h0 : 0 < p := hp ▸ Nat.two_pow_pos _
  have h1 := logSum_drop (p - 1) p 1
  have h2 := logSum_ge p p (1 + (p - 1)) (by omega)
  have h3 : p.log2 = 2 * C + 1 := by rw [← hp, Nat.log2_two_pow]
  rw [h3] at h2
  rw [show 2 * p - 1 = p + (p - 1) by omega]
  refine Nat.lt_of_lt_of_le ?_ (h2.trans h1)
  rw [Nat.mul_comm C, Nat.mul_assoc, Nat.mul_left_comm]
  exact Nat.mul_lt_mul_of_pos_left (by omega) h0

end CppSort
