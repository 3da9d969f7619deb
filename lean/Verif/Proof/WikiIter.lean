import Verif.Proof.WikiCache
/-
wiki_sort.h 258-327: the iterator over the ranges, and the loops over it.
-/
set_option autoImplicit false

namespace CppSort
variable {α : Type} {lt : α → α → Bool}

/-- Where the range `i` of `m` begins in `N` elements. -/
def wcut (N m i : Nat) : Nat := N * i / m

/-- The iterator at the range `i` of `m`. -/
def iterAt (N t m i : Nat) : WIter := ⟨N, t * m, wcut N m i, t * (N * i % m), N / m, t * (N % m)⟩

theorem iterAt_next {N t m i : Nat} (ht : 0 < t) (hm : 0 < m) : (iterAt N t m i).next = iterAt N t m (i + 1) := by
  unfold WIter.next iterAt wcut
  simp only []
  rw [← Nat.mul_add, Nat.mul_succ N i, Nat.add_div hm]
  by_cases h : m ≤ N * i % m + N % m
  · rw [if_pos (Nat.mul_le_mul_left t h), if_pos h, ← Nat.mul_sub]
    have := Nat.add_mod_add_of_le_add_mod h
    rw [show (N * i + N) % m = N * i % m + N % m - m by omega]
  · rw [if_neg (fun h' => h (Nat.le_of_mul_le_mul_left h' ht)), if_neg h, Nat.add_mod_of_add_mod_lt (by omega)]
    rfl

theorem iterAt_begin {N t m i : Nat} : (iterAt N t m i).begin = iterAt N t m 0 := by simp [WIter.begin, iterAt, wcut]

theorem iterAt_finished {N t m i : Nat} (hN : 0 < N) (hm : 0 < m) : (iterAt N t m i).finished = decide (m ≤ i) := by
  unfold WIter.finished iterAt wcut
  simp only [ge_iff_le, Nat.le_div_iff_mul_le hm, Nat.mul_le_mul_left_iff hN]

theorem iterAt_nextLevel {N t m i : Nat} (ht : 0 < t) (hm : 0 < m) : ((iterAt N t (2 * m) i).nextLevel).begin = iterAt N (2 * t) m 0 := by
  have e1 : N / m = N / (2 * m) + N / (2 * m) + if m ≤ N % (2 * m) then 1 else 0 := by
    have h1 := Nat.div_add_mod N (2 * m)
    have h2 := Nat.mod_lt N (show 0 < 2 * m by omega)
    generalize N / (2 * m) = q at *
    generalize N % (2 * m) = r at *
    split
    · rw [← h1, show 2 * m * q + r = (q + q + 1) * m + (r - m) by
        have : (q + q + 1) * m = 2 * m * q + m := by ring
        omega, Nat.add_comm, Nat.add_mul_div_right _ _ hm, Nat.div_eq_of_lt (by omega)]
      omega
    · rw [← h1, show 2 * m * q + r = (q + q) * m + r by ring, Nat.add_comm, Nat.add_mul_div_right _ _ hm, Nat.div_eq_of_lt (by omega)]
      omega
  have e2 : N % m = N % (2 * m) - if m ≤ N % (2 * m) then m else 0 := by
    have h2 := Nat.mod_lt N (show 0 < 2 * m by omega)
    rw [← Nat.mod_mul_left_mod N 2 m]
    split
    · rw [Nat.mod_eq_sub_mod (by omega), Nat.mod_eq_of_lt (by omega)]
    · rw [Nat.mod_eq_of_lt (by omega)]; omega
  unfold WIter.nextLevel WIter.begin iterAt wcut
  simp only []
  by_cases h : m ≤ N % (2 * m)
  · rw [if_pos h] at e1 e2
    rw [if_pos]
    · simp only [WIter.mk.injEq, Nat.mul_zero, Nat.zero_div, Nat.zero_mod]
      refine ⟨trivial, by ring, trivial, trivial, e1.symm, ?_⟩
      rw [e2, Nat.mul_sub, show t * (2 * m) = 2 * t * m by ring, show 2 * t * (N % (2 * m)) = t * (N % (2 * m)) + t * (N % (2 * m)) by ring]
    · have := Nat.mul_le_mul_left t h
      have e3 : t * (2 * m) = t * m + t * m := by ring
      omega
  · rw [if_neg h] at e1 e2
    rw [if_neg]
    · simp only [WIter.mk.injEq, Nat.mul_zero, Nat.zero_div, Nat.zero_mod]
      refine ⟨trivial, by ring, trivial, trivial, e1.symm, ?_⟩
      rw [e2, Nat.sub_zero]; ring
    · have := Nat.mul_lt_mul_of_pos_left (Nat.lt_of_not_le h) ht
      have e3 : t * (2 * m) = t * m + t * m := by ring
      omega

theorem wcut_double {N m i : Nat} : wcut N (2 * m) (2 * i) = wcut N m i := by
  unfold wcut
  rw [show N * (2 * i) = 2 * (N * i) by ring, Nat.mul_div_mul_left _ _ (by omega)]

theorem wcut_zero {N m : Nat} : wcut N m 0 = 0 := by simp [wcut]

theorem wcut_top {N m : Nat} (hm : 0 < m) : wcut N m m = N := Nat.mul_div_cancel _ hm

theorem wcut_step {N m i : Nat} (hm : 0 < m) : wcut N m i + N / m ≤ wcut N m (i + 1) ∧ wcut N m (i + 1) ≤ wcut N m i + N / m + 1 := by
  unfold wcut
  rw [Nat.mul_succ, Nat.add_div hm]
  split <;> omega

theorem wcut_mono {N m i j : Nat} (h : i ≤ j) : wcut N m i ≤ wcut N m j := Nat.div_le_div_right (Nat.mul_le_mul_left N h)

theorem wcut_le {N m i : Nat} (hm : 0 < m) (h : i ≤ m) : wcut N m i ≤ N := by
  have := wcut_mono (N := N) (m := m) h
  rwa [wcut_top hm] at this

/-- The elements of `[a, b)`. -/
def wsl (xs : List α) (a b : Nat) : List α := (xs.drop a).take (b - a)

theorem wsl_length {xs : List α} {a b : Nat} (h : b ≤ xs.length) : (wsl xs a b).length = b - a := by
  simp [wsl]; omega

theorem wsl_append {xs : List α} {a b c : Nat} (h1 : a ≤ b) (h2 : b ≤ c) : wsl xs a b ++ wsl xs b c = wsl xs a c := by
  unfold wsl
  rw [show xs.drop b = (xs.drop a).drop (b - a) by rw [List.drop_drop, Nat.add_sub_cancel' h1], show c - a = (b - a) + (c - b) by omega, List.take_add]

theorem wsl_all {xs : List α} : wsl xs 0 xs.length = xs := by simp [wsl]

/-! ### The loops -/

theorem wikiPairs_spec {N t m first : Nat} (hN : 0 < N) (ht : 0 < t) (hm : 0 < m) {body : Nat → Nat → Nat → M α Unit} (I : Nat → St α → Prop)
    (hb : ∀ i, i < m → ∀ s, I i s → wp (body (first + wcut N (2 * m) (2 * i)) (first + wcut N (2 * m) (2 * i + 1)) (first + wcut N (2 * m) (2 * i + 2)))
      (fun _ s' => I (i + 1) s') s) (n : Nat) :
    ∀ i, i + n = m → ∀ s, I i s → wp (wikiPairs body first (iterAt N t (2 * m) (2 * i))) (fun _ s' => I m s') s := by
  induction n with
  | zero =>
    intro i hi s hs
    rw [wikiPairs, iterAt_finished hN (by omega), if_pos (by simp; omega)]
    rw [show i = m by omega] at hs
    exact wp_pure hs
  | succ n ih =>
    intro i hi s hs
    rw [wikiPairs, iterAt_finished hN (by omega), if_neg (by simp; omega), iterAt_next ht (by omega), iterAt_next ht (by omega)]
    apply wp_bind
    refine wp_mono (hb i (by omega) s hs) ?_
    rintro _ s1 h1
    exact ih (i + 1) (by omega) s1 h1

theorem wikiFours_spec {N t m first cache : Nat} (hN : 0 < N) (ht : 0 < t) (hm : 0 < m) {cmp : α → α → M α Bool} (I : Nat → St α → Prop)
    (hb : ∀ i, i < m → ∀ s, I i s → wp (wikiFour cmp cache (first + wcut N (4 * m) (4 * i)) (first + wcut N (4 * m) (4 * i + 1))
      (first + wcut N (4 * m) (4 * i + 2)) (first + wcut N (4 * m) (4 * i + 3)) (first + wcut N (4 * m) (4 * i + 4))) (fun _ s' => I (i + 1) s') s) (n : Nat) :
    ∀ i, i + n = m → ∀ s, I i s → wp (wikiFours cmp first cache (iterAt N t (4 * m) (4 * i))) (fun _ s' => I m s') s := by
  induction n with
  | zero =>
    intro i hi s hs
    rw [wikiFours, iterAt_finished hN (by omega), if_pos (by simp; omega)]
    rw [show i = m by omega] at hs
    exact wp_pure hs
  | succ n ih =>
    intro i hi s hs
    rw [wikiFours, iterAt_finished hN (by omega), if_neg (by simp; omega), iterAt_next ht (by omega), iterAt_next ht (by omega), iterAt_next ht (by omega),
      iterAt_next ht (by omega)]
    apply wp_bind
    refine wp_mono (hb i (by omega) s hs) ?_
    rintro _ s1 h1
    exact ih (i + 1) (by omega) s1 h1

theorem wikiGroups_spec {N t m first : Nat} (hN : 0 < N) (ht : 0 < t) (hm : 0 < m) {cmp : α → α → M α Bool} (I : Nat → St α → Prop)
    (hb : ∀ i, i < m → ∀ s, I i s → wp (wikiNetwork cmp (first + wcut N m i) id (wikiNet (wcut N m (i + 1) - wcut N m i))) (fun _ s' => I (i + 1) s') s)
    (n : Nat) : ∀ i, i + n = m → ∀ s, I i s → wp (wikiGroups cmp first (iterAt N t m i)) (fun _ s' => I m s') s := by
  induction n with
  | zero =>
    intro i hi s hs
    rw [wikiGroups, iterAt_finished hN (by omega), if_pos (by simp; omega)]
    rw [show i = m by omega] at hs
    exact wp_pure hs
  | succ n ih =>
    intro i hi s hs
    rw [wikiGroups, iterAt_finished hN (by omega), if_neg (by simp; omega), iterAt_next ht (by omega)]
    apply wp_bind
    refine wp_mono (hb i (by omega) s hs) ?_
    rintro _ s1 h1
    exact ih (i + 1) (by omega) s1 h1

end CppSort
