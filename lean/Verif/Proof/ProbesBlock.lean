import Verif.Proof.ProbesExc
set_option autoImplicit false

namespace CppSort
variable {α β γ : Type} {lt : α → α → Bool}

theorem differ_runs (a b : α) : Runs (differ lt a b) (fun r => r = !eqv lt a b) := by
  unfold differ
  refine Runs.tickBind (Runs.ite (fun h => Runs.pure ?_) fun h => (Runs.tick).mono fun r hr => ?_)
  · simp [eqv, h]
  · rw [hr]; simp [eqv, h]

/-- Whether the block loop counts the position `i` of the sorted order. -/
def blockAt (lt : α → α → Bool) (n : Nat) (x : Nat → α) (σ : Nat → Nat) (i : Nat) : Bool :=
  if σ i + 1 = n then !eqv lt (x (σ i)) (x (σ (n - 1))) else !eqv lt (x (σ i + 1)) (x (σ (i + 1)))

theorem blockLoop_runs {xs : List α} {its : List (α × Nat)} {x : Nat → α}
    {σ : Nat → Nat} (hi : ItsPerm lt xs its x σ) (hl : its.length = xs.length) : ∀ (n it count : Nat),
    it + n + 1 = xs.length → Runs (blockLoop lt xs its it count) (fun r =>
      r = count + (List.range' it n).countP (blockAt lt xs.length x σ)) := by
  intro n
  induction n with
  | zero =>
    intro it count h
    rw [blockLoop, if_neg (by omega)]
    exact Runs.pure (by simp)
  | succ n ih =>
    intro it count h
    rw [blockLoop, if_pos (by omega), List.range'_succ, List.countP_cons]
    have hlt' := hi.perm.lt it (by omega)
    have nxt : ∀ b, b = blockAt lt xs.length x σ it →
        Runs (if b = true then blockLoop lt xs its (it + 1) (count + 1) else blockLoop lt xs its (it + 1) count)
          (fun r => r = count + ((List.range' (it + 1) n).countP (blockAt lt xs.length x σ) +
            if blockAt lt xs.length x σ it = true then 1 else 0)) := by
      rintro b rfl
      refine Runs.ite (fun e => ?_) fun e => ?_
      · refine (ih (it + 1) _ (by omega)).mono fun r hr => ?_
        rw [hr, if_pos e]; omega
      · refine (ih (it + 1) _ (by omega)).mono fun r hr => ?_
        rw [hr, if_neg e]; omega
    refine Runs.nthBind (hi.get it (by omega)) ?_
    dsimp only
    refine Runs.ite (fun e => ?_) fun e => ?_
    · rw [hl]
      refine Runs.nthBind (hi.get (xs.length - 1) (by omega)) ?_
      refine (differ_runs _ _).bind fun b hb => nxt b ?_
      rw [hb, blockAt, if_pos e]
    · refine Runs.nthBind (hi.reads (σ it + 1) (by omega)) ?_
      refine Runs.nthBind (hi.get (it + 1) (by omega)) ?_
      refine (differ_runs _ _).bind fun b hb => nxt b ?_
      rw [hb, blockAt, if_neg e]

/-- Whether two elements equivalent to `a` and `b` follow each other in `xs`. -/
def adjacentIn (lt : α → α → Bool) (xs : List α) (a b : α) : Bool :=
  (xs.zip xs.tail).any (fun q => eqv lt q.1 a && eqv lt q.2 b)

/-- The number of adjacent pairs of `ys` that are not adjacent in `xs`. -/
def brokenPairs (lt : α → α → Bool) (xs ys : List α) : Nat :=
  (ys.zip ys.tail).countP (fun p => !adjacentIn lt xs p.1 p.2)

theorem adjacentIn_iff {xs : List α} {x : Nat → α} (hx : Reads xs x) {a b : α} :
    adjacentIn lt xs a b = true ↔ ∃ i, i + 1 < xs.length ∧ eqv lt (x i) a = true ∧ eqv lt (x (i + 1)) b = true := by
  unfold adjacentIn
  rw [List.any_eq_true]
  constructor
  · rintro ⟨q, hq, h⟩
    obtain ⟨i, hi, rfl⟩ := List.getElem_of_mem hq
    simp only [List.length_zip, List.length_tail] at hi
    simp only [List.getElem_zip, List.getElem_tail, Bool.and_eq_true] at h
    rw [hx.get (by omega), hx.get (by omega)] at h
    exact ⟨i, by omega, h⟩
  · rintro ⟨i, hi, h⟩
    refine ⟨_, List.getElem_mem (l := xs.zip xs.tail) (n := i) (by simp; omega), ?_⟩
    simp only [List.getElem_zip, List.getElem_tail, Bool.and_eq_true]
    rw [hx.get (by omega), hx.get (by omega)]
    exact h

theorem brokenPairs_range {xs ys : List α} {y : Nat → α} (hy : Reads ys y) :
    brokenPairs lt xs ys = (List.range' 0 (ys.length - 1)).countP (fun i => !adjacentIn lt xs (y i) (y (i + 1))) := by
  have key : ys.zip ys.tail = (List.range' 0 (ys.length - 1)).map (fun i => (y i, y (i + 1))) := by
    refine List.ext_getElem (by simp) fun i h1 h2 => ?_
    simp only [List.length_zip, List.length_tail] at h1
    simp only [List.getElem_zip, List.getElem_tail, List.getElem_map, List.getElem_range']
    rw [hy.get (by omega), hy.get (by omega)]
    simp
  rw [brokenPairs, key, List.countP_map]
  rfl

theorem probeBlock_keeps [Inhabited α] (hlt : StrictWeak lt) (bl : Bool) (xs : List α) :
    Keeps (probeBlock lt bl xs) (fun r => r ≤ xs.length - 1 ∧
      (Distinct lt xs → ∀ ys, ys.Perm xs → SortedList lt ys → r = brokenPairs lt xs ys)) := by
  unfold probeBlock
  refine Keeps.ite (fun h => Keeps.pure ⟨by omega, fun _ ys hp _ => ?_⟩) fun h => ?_
  · have hl := hp.length_eq
    have : ys.zip ys.tail = [] := List.length_eq_zero_iff.1 (by simp; omega)
    rw [brokenPairs, this]; rfl
  · refine (sortedIterators_keeps hlt bl xs).bind fun its hi => Runs.keeps ?_
    obtain ⟨x, σ, ip⟩ := hi.itsPerm (by omega)
    refine (blockLoop_runs ip hi.length (xs.length - 1) 0 0 (by omega)).mono fun r hr => ⟨?_, fun hd ys hp hs => ?_⟩
    · rw [hr, Nat.zero_add]
      exact List.countP_le_length.trans (by simp)
    · have hl := hp.length_eq
      obtain ⟨y, hy⟩ := exists_reads (xs := ys) (by omega)
      have hyx : ∀ i, i < xs.length → eqv lt (y i) (x (σ i)) = true := by
        intro i hil
        have e := sorted_perm_eqv hlt (hp.trans hi.vals.symm) hs hi.sorted (i := i) (by omega)
          (by rw [List.length_map, hi.length]; exact hil)
        have g := ip.get i hil
        rw [List.getElem?_eq_getElem (by rw [hi.length]; exact hil)] at g
        rwa [hy.get (by omega), List.getElem_map, Option.some_inj.1 g] at e
      rw [hr, brokenPairs_range hy, Nat.zero_add, hl]
      refine List.countP_congr fun i him => ?_
      have him : i + 1 < xs.length := by
        have := List.mem_range'_1.1 him; omega
      have adj : adjacentIn lt xs (y i) (y (i + 1)) = true ↔
          σ i + 1 < xs.length ∧ eqv lt (x (σ i + 1)) (x (σ (i + 1))) = true := by
        rw [adjacentIn_iff ip.reads]
        constructor
        · rintro ⟨j, h1, h2, h3⟩
          have : j = σ i := hd.eq ip.reads (by omega) (ip.perm.lt i (by omega)) (hlt.eqv_trans h2 (hyx i (by omega)))
          rw [this] at h1 h3
          exact ⟨h1, hlt.eqv_trans h3 (hyx _ him)⟩
        · rintro ⟨h1, h2⟩
          exact ⟨σ i, h1, StrictWeak.eqv_symm (hyx i (by omega)), hlt.eqv_trans h2 (StrictWeak.eqv_symm (hyx _ him))⟩
      have hsl := ip.perm.lt i (by omega)
      rw [Bool.not_eq_true', ← Bool.not_eq_true, adj, blockAt]
      split
      · rename_i e
        have : eqv lt (x (σ i)) (x (σ (xs.length - 1))) ≠ true := fun h' => by
          have h1 := hd.eq ip.reads hsl (ip.perm.lt _ (by omega)) h'
          have := ip.perm.inj _ _ (by omega) (by omega) h1
          omega
        simp [this, e]
      · rename_i e
        have : σ i + 1 < xs.length := by omega
        simp [this]

/-- A sorted range has no broken pairs. -/
theorem brokenPairs_self (hlt : StrictWeak lt) (xs : List α) : brokenPairs lt xs xs = 0 := by
  unfold brokenPairs
  refine List.countP_eq_zero.2 fun p hp => ?_
  have : adjacentIn lt xs p.1 p.2 = true :=
    List.any_eq_true.2 ⟨p, hp, by simp [hlt.eqv_refl]⟩
  simp [this]

end CppSort
