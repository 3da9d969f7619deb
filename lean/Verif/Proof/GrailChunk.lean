import Verif.Proof.SegFind
/-
Lists: stable sorting, of a list and of its blocks.
-/
set_option autoImplicit false

namespace CppSort
variable {α : Type} {lt : α → α → Bool}

/-- The stably sorted list. -/
def ssort (lt : α → α → Bool) : List α → List α
  | [] => []
  | x :: xs => mergeL lt [x] (ssort lt xs)

theorem ssort_ssorted (hlt : StrictWeak lt) : ∀ xs : List α, SSorted lt xs (ssort lt xs)
  | [] => SSorted.refl List.Pairwise.nil
  | x :: xs => SSorted.merge hlt (xs := [x]) (SSorted.refl (List.pairwise_singleton _ _)) (ssort_ssorted hlt xs)

theorem SSorted.eq_ssort (hlt : StrictWeak lt) {xs ys : List α} (h : SSorted lt xs ys) : ys = ssort lt xs := by
  obtain ⟨h1, h2, h3⟩ := ssort_ssorted hlt xs
  exact SSorted.unique hlt (h.1.trans h1.symm) h.2.1 h2 fun x => (h3 x).trans (h.2.2 x).symm

theorem ssort_sorted (hlt : StrictWeak lt) (xs : List α) : SortedList lt (ssort lt xs) := (ssort_ssorted hlt xs).2.1

theorem ssort_perm : ∀ xs : List α, (ssort lt xs).Perm xs
  | [] => .refl _
  | x :: xs => (mergeL_perm _ _).trans ((ssort_perm xs).cons x)

@[simp] theorem ssort_length (xs : List α) : (ssort lt xs).length = xs.length := (ssort_perm xs).length_eq

@[simp] theorem ssort_one (x : α) : ssort lt [x] = [x] := by
  show mergeL lt [x] [] = _
  rw [mergeL_nil_right]

theorem ssort_merge (hlt : StrictWeak lt) (X Y : List α) : mergeL lt (ssort lt X) (ssort lt Y) = ssort lt (X ++ Y) :=
  ((ssort_ssorted hlt X).merge hlt (ssort_ssorted hlt Y)).eq_ssort hlt

theorem ssort_of_sorted (hlt : StrictWeak lt) {xs : List α} (h : SortedList lt xs) : ssort lt xs = xs :=
  ((SSorted.refl h).eq_ssort hlt).symm

theorem ssort_congr (hlt : StrictWeak lt) {xs ys : List α} (h : ys.Perm xs) (ho : SameOrder lt xs ys) : ssort lt xs = ssort lt ys := by
  refine SSorted.eq_ssort hlt ⟨(ssort_perm xs).trans h.symm, ssort_sorted hlt xs, fun x => ?_⟩
  rw [(ssort_ssorted hlt xs).2.2 x, ho x]

/-- Blocks of `n` elements, stably sorted. -/
def chunkSort (lt : α → α → Bool) (n : Nat) (xs : List α) : List α :=
  if h : n = 0 ∨ xs = [] then xs else ssort lt (xs.take n) ++ chunkSort lt n (xs.drop n)
termination_by xs.length
decreasing_by
  have : 0 < xs.length := List.length_pos_iff.2 fun e => h (.inr e)
  rw [List.length_drop]; omega

theorem chunkSort_nil {n : Nat} : chunkSort lt n ([] : List α) = [] := by rw [chunkSort]; simp

theorem chunkSort_append {n : Nat} {X Y : List α} (hn : 0 < n) (hX : X.length = n) :
    chunkSort lt n (X ++ Y) = ssort lt X ++ chunkSort lt n Y := by
  rw [chunkSort, dif_neg]
  · rw [← hX]; simp
  · rintro (h | h)
    · omega
    · have := congrArg List.length h
      rw [List.length_append, List.length_nil] at this; omega

theorem chunkSort_short {n : Nat} {X : List α} (hn : 0 < n) (hX : X.length ≤ n) : chunkSort lt n X = ssort lt X := by
  rw [chunkSort]
  split
  · rename_i h
    rcases h with h | h
    · omega
    · rw [h]; rfl
  · rw [List.take_of_length_le hX, List.drop_of_length_le hX, chunkSort_nil, List.append_nil]

theorem chunkSort_append_mul {n : Nat} (hn : 0 < n) : ∀ (k : Nat) {X Y : List α}, X.length = k * n →
    chunkSort lt n (X ++ Y) = chunkSort lt n X ++ chunkSort lt n Y
  | 0, X, Y, h => by
    have : X = [] := by rw [← List.length_eq_zero_iff, h, Nat.zero_mul]
    rw [this, chunkSort_nil]; rfl
  | k + 1, X, Y, h => by
    have h1 : (X.take n).length = n := by rw [List.length_take, h, Nat.succ_mul]; omega
    have h2 : (X.drop n).length = k * n := by rw [List.length_drop, h, Nat.succ_mul]; omega
    have e : X = X.take n ++ X.drop n := (List.take_append_drop n X).symm
    rw [e, List.append_assoc, chunkSort_append hn h1, chunkSort_append hn h1, chunkSort_append_mul hn k h2, List.append_assoc]

theorem chunkSort_perm {n : Nat} (m : Nat) : ∀ {X : List α}, X.length = m → (chunkSort lt n X).Perm X := by
  induction m using Nat.strongRecOn with
  | _ m ih =>
    intro X hX
    rw [chunkSort]
    split
    · exact .refl _
    · rename_i h
      have h1 : X ≠ [] := fun e => h (.inr e)
      have h1 := List.length_pos_iff.2 h1
      have h0 : n ≠ 0 := fun e => h (.inl e)
      have := ih (X.drop n).length (by rw [List.length_drop]; omega) (X := X.drop n) rfl
      exact ((ssort_perm _).append this).trans (by rw [List.take_append_drop])

@[simp] theorem chunkSort_length {n : Nat} (X : List α) : (chunkSort lt n X).length = X.length := (chunkSort_perm _ rfl).length_eq

theorem chunkSort_one : ∀ X : List α, chunkSort lt 1 X = X
  | [] => chunkSort_nil
  | x :: X => by
    have := chunkSort_append (lt := lt) (n := 1) (X := [x]) (Y := X) (by omega) rfl
    rw [List.singleton_append] at this
    rw [this, chunkSort_one X]
    show mergeL lt [x] [] ++ X = _
    rw [mergeL_nil_right]
    rfl

end CppSort
