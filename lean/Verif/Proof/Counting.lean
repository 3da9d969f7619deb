import Verif.Model.Counting
import Verif.Proof.LowMoves
import Verif.Proof.VergeMerge
import Mathlib.Data.List.Count
import Mathlib.Data.List.Chain
/-
Counting sort.
-/
set_option autoImplicit false

namespace CppSort
variable {α : Type} {lt : α → α → Bool}

/-! ### Minimum, maximum, sortedness -/

theorem sortedStart_spec (hlt : StrictWeak lt) {f l : Nat} {v : Nat → α} : ∀ (n c : Nat) (s : St α), l - c = n → f ≤ c →
    c + 1 < l → Holds s.cell f l v → SortedOn lt f (c + 1) v →
    wp (sortedStart (tick lt) l c) (fun r s' => (∃ k, s' = { s with cmps := k }) ∧
      if r.2 then SortedOn lt f l v else
        f ≤ r.1 ∧ r.1 + 1 < l ∧ SortedOn lt f (r.1 + 1) v ∧ lt (v (r.1 + 1)) (v r.1) = true) s := by
  intro n
  induction n with
  | zero => intro c s h1 h2 h3; omega
  | succ n ih =>
    intro c s h1 h2 h3 hh hso
    rw [sortedStart]
    wread hh
    wread hh
    wtick
    split
    · rename_i hl
      exact wp_pure ⟨⟨_, rfl⟩, h2, h3, hso, hl⟩
    · rename_i hl
      have hso' : SortedOn lt f (c + 2) v :=
        hso.snoc hlt (fun _ => by rw [Nat.add_sub_cancel]; simpa using hl)
      split
      · rename_i e
        refine wp_pure ⟨⟨_, rfl⟩, ?_⟩
        rw [← e]; exact hso'
      · refine wp_mono (ih (c + 1) _ (by omega) (by omega) (by omega) hh hso') ?_
        rintro r _ ⟨⟨k, rfl⟩, h⟩
        exact ⟨⟨k, rfl⟩, h⟩

/-- What is returned for a range that is not sorted. -/
structure Extremes (lt : α → α → Bool) (c : Nat → Cell α) (xs : List α) (mn mx : Nat) (a b : α) : Prop where
  cmin : c mn = .val a
  cmax : c mx = .val b
  amem : a ∈ xs
  bmem : b ∈ xs
  le : ∀ x ∈ xs, lt x a = false
  ge : ∀ x ∈ xs, lt b x = false

theorem minmaxAndIsSorted_spec [Inhabited α] (hlt : StrictWeak lt) {f : Nat} {xs : List α} {s : St α}
    (hs : Seg s.cell f xs) :
    wp (minmaxAndIsSorted (tick lt) f (f + xs.length)) (fun r s' => (∃ k, s' = { s with cmps := k }) ∧
      (r.2.2 = true → SortedList lt xs) ∧
      (r.2.2 = false → ¬ SortedList lt xs ∧ ∃ a b, Extremes lt s.cell xs r.1 r.2.1 a b)) s := by
  obtain ⟨v, hh, hx⟩ := hs.holds
  have hsorted : SortedList lt xs ↔ SortedOn lt f (f + xs.length) v := by
    conv_lhs => rw [← hx]
    exact sortedOn_iff.symm
  have hmem : ∀ x, x ∈ xs ↔ ∃ i, f ≤ i ∧ i < f + xs.length ∧ v i = x := by
    intro x
    conv_lhs => rw [← hx]
    simp only [lst, List.mem_map, List.mem_range'_1]
    exact ⟨fun ⟨i, h1, h2⟩ => ⟨i, h1.1, by omega, h2⟩, fun ⟨i, h1, h2, h3⟩ => ⟨i, ⟨h1, by omega⟩, h3⟩⟩
  have hfl : f ≤ f + xs.length := by omega
  generalize f + xs.length = l at *
  unfold minmaxAndIsSorted
  split
  · rename_i h
    refine wp_pure ⟨⟨_, rfl⟩, fun _ => hsorted.2 (SortedOn.trivial (by omega)), by simp⟩
  rename_i hne
  apply wp_bind
  refine wp_mono (sortedStart_spec hlt _ f s rfl (Nat.le_refl _) (by omega) hh (SortedOn.trivial (by omega))) ?_
  rintro ⟨c, b⟩ _ ⟨⟨k, rfl⟩, h⟩
  cases b with
  | true => exact wp_pure ⟨⟨_, rfl⟩, fun _ => hsorted.2 h, by simp⟩
  | false =>
    obtain ⟨h1, h2, h3, h4⟩ := h
    dsimp only at h1 h2 h3 h4 ⊢
    rw [if_neg (by simp)]
    apply wp_bind
    refine wp_mono (Q := fun r s' => (∃ k, s' = { s with cmps := k }) ∧ MinMax lt (c + 1) (l - 1) r.1 r.2 v) ?_ ?_
    · unfold minmaxElement
      split
      · have : l - 1 = c + 1 := by omega
        rw [this]
        exact wp_pure ⟨⟨_, rfl⟩, .init hlt⟩
      · refine wp_mono (minmaxLoop_spec hlt _ (c + 1) (c + 1) (c + 1) rfl (by omega) (Nat.le_refl _)
          (hh.sub (by omega) (Nat.le_refl _)) (.init hlt)) ?_
        rintro r _ ⟨⟨k, rfl⟩, h⟩
        exact ⟨⟨k, rfl⟩, h⟩
    rintro ⟨tmn, tmx⟩ _ ⟨⟨k, rfl⟩, hm⟩
    dsimp only at hm ⊢
    have a1 := hm.n1
    have a2 := hm.n2
    have a3 := hm.x1
    have a4 := hm.x2
    apply wp_bind
    refine wp_mono (Q := fun r s' => (∃ k, s' = { s with cmps := k }) ∧ f ≤ r ∧ r < l ∧
      ∀ i, f ≤ i → i < l → lt (v i) (v r) = false) ?_ ?_
    · wread hh
      wread hh
      wtick
      split
      · rename_i hl
        refine wp_pure ⟨⟨_, rfl⟩, by omega, by omega, fun i i1 i2 => ?_⟩
        by_cases hi : i ≤ c
        · exact hlt.le_trans (hlt.le_of_lt hl) (h3.le hlt (Nat.le_refl _) i1 (by omega))
        · exact hm.nle i (by omega) (by omega)
      · rename_i hl
        refine wp_pure ⟨⟨_, rfl⟩, by omega, by omega, fun i i1 i2 => ?_⟩
        by_cases hi : i ≤ c
        · exact h3.le hlt (Nat.le_refl _) i1 (by omega)
        · exact hlt.le_trans (by simpa using hl) (hm.nle i (by omega) (by omega))
    rintro mn _ ⟨⟨k, rfl⟩, m1, m2, m3⟩
    apply wp_bind
    refine wp_mono (Q := fun r s' => (∃ k, s' = { s with cmps := k }) ∧ f ≤ r ∧ r < l ∧
      ∀ i, f ≤ i → i < l → lt (v r) (v i) = false) ?_ ?_
    · wread hh
      wread hh
      wtick
      split
      · rename_i hl
        refine wp_pure ⟨⟨_, rfl⟩, by omega, by omega, fun i i1 i2 => ?_⟩
        by_cases hi : i ≤ c
        · exact h3.le hlt i1 hi (by omega)
        · exact hlt.le_trans (hm.xle i (by omega) (by omega)) (hlt.le_of_lt hl)
      · rename_i hl
        refine wp_pure ⟨⟨_, rfl⟩, by omega, by omega, fun i i1 i2 => ?_⟩
        by_cases hi : i ≤ c
        · exact hlt.le_trans (h3.le hlt i1 hi (by omega)) (by simpa using hl)
        · exact hm.xle i (by omega) (by omega)
    rintro mx _ ⟨⟨k, rfl⟩, x1, x2, x3⟩
    refine wp_pure ⟨⟨_, rfl⟩, by simp, fun _ => ⟨?_, v mn, v mx, hh _ m1 m2, hh _ x1 x2, (hmem _).2 ⟨mn, m1, m2, rfl⟩,
      (hmem _).2 ⟨mx, x1, x2, rfl⟩, ?_, ?_⟩⟩
    · intro hc
      have := (hsorted.1 hc).le hlt (i := c) (j := c + 1) (by omega) (by omega) (by omega)
      rw [h4] at this; cases this
    · intro x hx
      obtain ⟨i, i1, i2, rfl⟩ := (hmem x).1 hx
      exact m3 i i1 i2
    · intro x hx
      obtain ⟨i, i1, i2, rfl⟩ := (hmem x).1 hx
      exact x3 i i1 i2

/-! ### Values written from the counters -/

/-- The values written. -/
def expand (d : Int) (x : Int) : List Nat → List Int
  | [] => []
  | c :: cs => List.replicate c x ++ expand d (x + d) cs

theorem expand_length (d : Int) : ∀ (cs : List Nat) (x : Int), (expand d x cs).length = cs.sum := by
  intro cs
  induction cs with
  | nil => intro x; rfl
  | cons c cs ih => intro x; simp [expand, ih]

theorem expand_append (d : Int) : ∀ (cs ds : List Nat) (x : Int),
    expand d x (cs ++ ds) = expand d x cs ++ expand d (x + d * cs.length) ds := by
  intro cs
  induction cs with
  | nil => intro ds x; simp [expand]
  | cons c cs ih =>
    intro ds x
    rw [List.cons_append, expand, ih, expand, List.append_assoc]
    congr 3
    simp only [List.length_cons]
    push_cast
    rw [Int.mul_add]; omega

theorem expand_reverse : ∀ (cs : List Nat) (x : Int), expand (-1) (x + cs.length - 1) cs.reverse = (expand 1 x cs).reverse := by
  intro cs
  induction cs with
  | nil => intro x; rfl
  | cons c cs ih =>
    intro x
    rw [List.reverse_cons, expand_append, expand.eq_2 1, List.reverse_append, ← ih]
    congr 1
    · congr 1
      simp only [List.length_cons]; push_cast; omega
    · simp only [expand, List.append_nil, List.reverse_replicate]
      congr 1
      simp only [List.length_cons, List.length_reverse]; push_cast; omega

theorem mem_expand : ∀ (cs : List Nat) (x y : Int), y ∈ expand 1 x cs → x ≤ y := by
  intro cs
  induction cs with
  | nil => intro x y h; simp [expand] at h
  | cons c cs ih =>
    intro x y h
    rcases List.mem_append.1 h with h | h
    · rw [(List.mem_replicate.1 h).2]
    · have := ih _ _ h; omega

theorem expand_sorted : ∀ (cs : List Nat) (x : Int), SortedList (fun x y => decide (x < y)) (expand 1 x cs) := by
  intro cs
  induction cs with
  | nil => intro x; exact List.Pairwise.nil
  | cons c cs ih =>
    intro x
    rw [expand, sortedList_append]
    refine ⟨?_, ih _, ?_⟩
    · apply List.pairwise_replicate.2
      right; simp
    · intro a ha b hb
      have h1 := (List.mem_replicate.1 ha).2
      have h2 := mem_expand _ _ _ hb
      simp; omega

theorem expand_count : ∀ (cs : List Nat) (x v : Int),
    (expand 1 x cs).count v = if x ≤ v ∧ v < x + cs.length then cs.getD (v - x).toNat 0 else 0 := by
  intro cs
  induction cs with
  | nil => intro x v; simp [expand]
  | cons c cs ih =>
    intro x v
    rw [expand, List.count_append, ih, List.count_replicate]
    simp only [List.length_cons]
    push_cast
    by_cases h1 : v < x
    · rw [if_neg (by simp; omega), if_neg (by omega), if_neg (by omega)]
    · by_cases h2 : v = x
      · subst h2
        rw [if_pos (by simp), if_neg (by omega), if_pos (by omega)]
        simp
      · rw [if_neg (by simp; omega)]
        by_cases h3 : v < x + (cs.length + 1)
        · rw [if_pos (by omega), if_pos (by omega), show (v - x).toNat = (v - (x + 1)).toNat + 1 by omega]
          simp
        · rw [if_neg (by omega), if_neg (by omega)]

/-! ### The loops -/

theorem fillN_seg (x : α) : ∀ (n f : Nat) (s : St α), (∀ i, f ≤ i → i < f + n → Live s.cell i) →
    wp (fillN f n x) (fun r s' => r = f + n ∧ s'.brk = s.brk ∧ Seg s'.cell f (List.replicate n x) ∧
      ∀ i, i < f ∨ f + n ≤ i → s'.cell i = s.cell i) s := by
  intro n
  induction n with
  | zero => intro f s h; exact wp_pure ⟨rfl, rfl, Seg.nil, fun _ _ => rfl⟩
  | succ n ih =>
    intro f s h
    rw [fillN]
    apply wp_bind
    refine wp_assign' (h f (by omega) (by omega)) ?_
    intro s1 c1 e1 _ _
    refine wp_mono (ih (f + 1) s1 ?_) ?_
    · intro i h1 h2
      rw [c1]
      exact (h i (by omega) (by omega)).out (by omega)
    · rintro r s' ⟨rfl, h1, h2, h3⟩
      refine ⟨by omega, h1.trans (St.env_brk e1), ?_, ?_⟩
      · rw [List.replicate_succ]
        refine seg_cons.2 ⟨?_, h2⟩
        rw [h3 _ (by omega), c1, sc_eq rfl]
      · intro i hi
        rw [h3 i (by omega), c1, sc_ne (by omega)]

theorem countOut_seg (t : IntTy) (d : Int) : ∀ (cs : List Nat) (f : Nat) (x : Int) (s : St Int),
    (∀ i, f ≤ i → i < f + cs.sum → Live s.cell i) →
    (∀ j, j < cs.length → ∃ y, (∀ s, t.step (x + d * j + d) s = some (.ok y, s)) ∧ (j + 1 < cs.length → y = x + d * j + d)) →
    wp (countOut t d f x cs) (fun _ s' => s'.brk = s.brk ∧ Seg s'.cell f (expand d x cs) ∧
      ∀ i, i < f ∨ f + cs.sum ≤ i → s'.cell i = s.cell i) s := by
  intro cs
  induction cs with
  | nil => intro f x s _ _; exact wp_pure ⟨rfl, Seg.nil, fun _ _ => rfl⟩
  | cons c cs ih =>
    intro f x s hl hok
    rw [List.sum_cons] at hl
    rw [countOut]
    obtain ⟨y, y1, y2⟩ := hok 0 (by simp)
    simp only [Nat.cast_zero, Int.mul_zero, Int.add_zero] at y1 y2
    apply wp_bind
    refine ⟨y, s, y1 s, ?_⟩
    apply wp_bind
    refine wp_mono (fillN_seg x c f s fun i h1 h2 => hl i h1 (by omega)) ?_
    rintro _ s1 ⟨rfl, b1, b2, b3⟩
    by_cases hcs : cs = []
    · subst hcs
      refine wp_pure ⟨b1, ?_, ?_⟩
      · simpa [expand] using b2
      · intro i hi
        rw [List.sum_cons, List.sum_nil] at hi
        exact b3 i (by omega)
    obtain rfl := y2 (by have := List.length_pos_iff.2 hcs; simp; omega)
    refine wp_mono (ih (f + c) (x + d) s1 ?_ ?_) ?_
    · intro i h1 h2
      unfold Live
      rw [b3 i (by omega)]
      exact hl i (by omega) (by omega)
    · intro j hj
      obtain ⟨z, z1, z2⟩ := hok (j + 1) (by simp; omega)
      have e : x + d + d * (j : Int) + d = x + d * ((j + 1 : Nat) : Int) + d := by
        push_cast; rw [Int.mul_add]; omega
      rw [e]
      exact ⟨z, z1, fun h => z2 (by simp; omega)⟩
    · rintro _ s' ⟨h1, h2, h3⟩
      refine ⟨h1.trans b1, seg_append.2 ⟨?_, ?_⟩, ?_⟩
      · refine b2.congr fun i i1 i2 => ?_
        rw [List.length_replicate] at i2
        exact h3 i (by omega)
      · rw [List.length_replicate]; exact h2
      · intro i hi
        rw [List.sum_cons] at hi
        rw [h3 i (by omega), b3 i (by omega)]

/-! ### Integer operations that do not overflow -/

/-- The widths of the built-in types. -/
def IntTy.Builtin (t : IntTy) : Prop := t.bits = 8 ∨ t.bits = 16 ∨ t.bits = 32 ∨ t.bits = 64 ∨ t.bits = 128

theorem IntTy.wrap_of {t : IntTy} (ht : 0 < t.bits) {x : Int} (h : t.Has x) : t.wrap x = x := by
  obtain ⟨h1, h2⟩ := h
  have e : t.hi - t.lo + 1 = 2 ^ t.bits := by
    unfold hi lo
    split
    · obtain ⟨k, hk⟩ : ∃ k, t.bits = k + 1 := ⟨t.bits - 1, by omega⟩
      rw [hk, Nat.add_sub_cancel, Int.pow_succ]; omega
    · omega
  unfold wrap
  rw [Int.emod_eq_of_lt (by omega) (by omega)]
  omega

theorem IntTy.arith_of {t : IntTy} (ht : 0 < t.bits) {x : Int} (h : t.Has x) (s : St Int) :
    t.arith x s = some (.ok x, s) := by
  unfold arith
  split
  · rw [if_pos (show t.lo ≤ x ∧ x ≤ t.hi from h)]; rfl
  · rw [wrap_of ht h]; rfl

theorem IntTy.promote_bits (t : IntTy) : 0 < t.promote.bits := by
  unfold promote; split
  · decide
  · omega

theorem IntTy.promote_lo (t : IntTy) : t.promote.lo ≤ 0 := by
  unfold lo; split
  · have : (0 : Int) < 2 ^ (t.promote.bits - 1) := Int.pow_pos (by decide)
    omega
  · omega

theorem ptrdiff_wrap {x : Int} (h0 : 0 ≤ x) (h1 : x < 2 ^ 63) : ptrdiff.wrap x = x :=
  IntTy.wrap_of (by decide) ⟨by simp [ptrdiff, IntTy.lo]; omega, by simp [ptrdiff, IntTy.hi]; omega⟩

theorem valueRange_of {t : IntTy} {mx mn : Int} (h0 : mn ≤ mx) (h1 : mx - mn + 1 ≤ t.promote.hi) (h2 : mx - mn + 1 < 2 ^ 63)
    (s : St Int) : valueRange t mx mn s = some (.ok (mx - mn + 1), s) := by
  have hl := t.promote_lo
  unfold valueRange
  rw [bind_ok (IntTy.arith_of t.promote_bits ⟨by omega, by omega⟩ s),
    bind_ok (IntTy.arith_of t.promote_bits ⟨by omega, h1⟩ s), ptrdiff_wrap (by omega) h2]
  rfl

theorem countLoop_seg {t : IntTy} {mn : Int} : ∀ (xs : List Int) (f l : Nat) (cs : List Nat) (s : St Int), Seg s.cell f xs →
    l = f + xs.length → (∀ x ∈ xs, mn ≤ x ∧ x < mn + cs.length) → (cs.length : Int) ≤ t.promote.hi →
    (cs.length : Int) < 2 ^ 63 →
    wp (countLoop t mn l f cs) (fun r s' => s' = s ∧ r.length = cs.length ∧
      ∀ j : Nat, j < cs.length → r.getD j 0 = cs.getD j 0 + xs.count (mn + j)) s := by
  intro xs
  induction xs with
  | nil =>
    intro f l cs s hs hl _ _ _
    rw [countLoop, if_neg (by simp at hl; omega)]
    exact wp_pure ⟨rfl, rfl, fun j _ => by simp⟩
  | cons x xs ih =>
    intro f l cs s hs hl hx h1 h2
    obtain ⟨s1, s2⟩ := seg_cons.1 hs
    simp only [List.length_cons] at hl
    obtain ⟨x1, x2⟩ := hx x (by simp)
    have hlo := t.promote_lo
    rw [countLoop, if_pos (by omega)]
    apply wp_bind
    refine wp_read' (x := x) s1 ?_
    apply wp_bind
    refine ⟨x - mn, s, IntTy.arith_of t.promote_bits ⟨by omega, by omega⟩ s, ?_⟩
    dsimp only
    rw [ptrdiff_wrap (by omega) (by omega)]
    rw [if_pos ⟨by omega, by omega⟩]
    refine wp_mono (ih (f + 1) l (cs.modify (x - mn).toNat (· + 1)) s s2 (by omega)
      (by simpa using fun y hy => hx y (by simp [hy])) (by simpa using h1) (by simpa using h2)) ?_
    rintro r _ ⟨rfl, k1, k2⟩
    rw [List.length_modify] at k1 k2
    refine ⟨rfl, k1, fun j hj => ?_⟩
    rw [k2 j hj, List.count_cons, List.getD_eq_getElem?_getD, List.getElem?_modify, List.getD_eq_getElem?_getD,
      List.getElem?_eq_getElem hj]
    by_cases e : (x - mn).toNat = j
    · rw [if_pos (show (x == mn + (j : Int)) = true by simp; omega)]
      simp [e]; omega
    · rw [if_neg (show ¬ (x == mn + (j : Int)) = true by simp; omega)]
      simp [e]

/-- The values counted are those of the range. -/
theorem expand_perm {mn : Int} {xs : List Int} {n : Nat} {r : List Nat} (hx : ∀ x ∈ xs, mn ≤ x ∧ x < mn + n) (hr : r.length = n)
    (h : ∀ j : Nat, j < n → r.getD j 0 = (List.replicate n 0).getD j 0 + xs.count (mn + j)) : (expand 1 mn r).Perm xs := by
  rw [List.perm_iff_count]
  intro v
  rw [expand_count, hr]
  split
  · rename_i hv
    rw [h _ (by omega), show mn + ((v - mn).toNat : Int) = v by omega, List.getD_eq_getElem?_getD,
      List.getElem?_replicate, if_pos (by omega)]
    simp
  · rename_i hv
    rw [eq_comm, List.count_eq_zero]
    intro hm
    exact hv (hx v hm)

/-- Incrementing or decrementing: no overflow inside the type, nor past its limit for the unsigned types and the types
narrower than `int`. -/
theorem IntTy.step_of {t : IntTy} (ht : t.Builtin) {x d : Int} (hx : t.Has x) (hd : d = 1 ∨ d = -1)
    (hlim : t.signed = true → 32 ≤ t.bits → t.Has (x + d)) :
    ∃ y, (∀ s, t.step (x + d) s = some (.ok y, s)) ∧ (t.Has (x + d) → y = x + d) := by
  have h0 : 0 < t.bits := by rcases ht with h | h | h | h | h <;> omega
  by_cases hs : t.promote.Has (x + d)
  · refine ⟨t.wrap (x + d), fun s => ?_, fun h => wrap_of h0 h⟩
    unfold step
    rw [bind_ok (arith_of t.promote_bits hs s)]
    rfl
  · by_cases hb : t.bits < 32
    · exfalso
      apply hs
      rw [promote, if_pos hb]
      have h16 : t.bits = 8 ∨ t.bits = 16 := by rcases ht with h | h | h | h | h <;> omega
      unfold Has lo hi at *
      rcases h16 with h | h <;> rw [h] at hx <;> cases hq : t.signed <;> simp [hq] at hx ⊢ <;> omega
    · have hp : t.promote = t := if_neg hb
      rw [hp] at hs
      have hu : t.signed = false := by
        cases hq : t.signed with
        | false => rfl
        | true => exact absurd (hlim hq (by omega)) hs
      refine ⟨t.wrap (t.wrap (x + d)), fun s => ?_, fun h => absurd h hs⟩
      unfold step
      rw [hp]
      have : t.arith (x + d) s = some (.ok (t.wrap (x + d)), s) := by unfold arith; rw [hu]; rfl
      rw [bind_ok this]
      rfl

theorem intLt_sw : StrictWeak (fun x y : Int => decide (x < y)) := by
  constructor
  · simp
  · intro x y z; simp only [decide_eq_true_eq]; omega
  · intro x y z; simp only [decide_eq_false_iff_not]; omega

/-- Values spanning few enough others, and away from the limit of the type for the types at least as wide as `int`. -/
structure CountFits (t : IntTy) (d : Int) (xs : List Int) : Prop where
  range : ∀ x ∈ xs, ∀ y ∈ xs, y - x + 1 ≤ t.promote.hi ∧ y - x + 1 < 2 ^ 63
  limit : t.signed = true → 32 ≤ t.bits → ∀ x ∈ xs, t.Has (x + d)

theorem countingSort_seg {t : IntTy} (ht : t.Builtin) {s : St Int} {f : Nat} {xs : List Int} (hw : s.WF)
    (hs : Seg s.cell f xs) (hx : ∀ x ∈ xs, t.Has x)
    (hfit : ¬ SortedList (fun x y => decide (x < y)) xs → CountFits t 1 xs) :
    wp (countingSort t f (f + xs.length)) (fun _ s' => ∃ ys, ys.Perm xs ∧ SortedList (fun x y => decide (x < y)) ys ∧
      VTo f xs.length ys s s') s := by
  unfold countingSort
  apply wp_bind
  refine wp_mono (minmaxAndIsSorted_spec intLt_sw hs) ?_
  rintro ⟨pmn, pmx, b⟩ _ ⟨⟨k, rfl⟩, h1, h2⟩
  cases b with
  | true => exact wp_pure ⟨xs, .refl _, h1 rfl, (VTo.refl hw hs rfl).cmpsr⟩
  | false =>
    obtain ⟨h3, mn, mx, E⟩ := h2 rfl
    have F := hfit h3
    dsimp only
    rw [if_neg (by simp)]
    apply wp_bind
    refine wp_read' (x := mn) E.cmin ?_
    apply wp_bind
    refine wp_read' (x := mx) E.cmax ?_
    have hle : ∀ x ∈ xs, mn ≤ x := fun x hx => by have := E.le x hx; simpa using this
    have hge : ∀ x ∈ xs, x ≤ mx := fun x hx => by have := E.ge x hx; simpa using this
    have h0 := hle mx E.bmem
    obtain ⟨r1, r2⟩ := F.range mn E.amem mx E.bmem
    apply wp_bind
    refine ⟨_, _, valueRange_of h0 r1 r2 _, ?_⟩
    apply wp_bind
    rw [newCounts, if_neg (by omega)]
    refine wp_pure ?_
    have hn : (((mx - mn + 1).toNat : Nat) : Int) = mx - mn + 1 := by omega
    generalize (mx - mn + 1).toNat = n at hn
    have hin : ∀ x ∈ xs, mn ≤ x ∧ x < mn + n := fun x hx => ⟨hle x hx, by have := hge x hx; omega⟩
    apply wp_bind
    refine wp_mono (countLoop_seg xs f _ (List.replicate n 0) _ hs rfl (by simpa using hin) (by simp; omega)
      (by simp; omega)) ?_
    rintro cs _ ⟨rfl, k1, k2⟩
    rw [List.length_replicate] at k1 k2
    have hp := expand_perm hin k1 k2
    have hl : cs.sum = xs.length := by rw [← expand_length 1 cs mn]; exact hp.length_eq
    refine wp_mono (countOut_seg t 1 cs f mn _ (fun i i1 i2 => hs.live i1 (by omega)) ?_) ?_
    · intro j hj
      have hb : t.Has (mn + 1 * j) := by
        have q1 := hx mn E.amem
        have q2 := hx mx E.bmem
        exact ⟨by have := q1.1; omega, by have := q2.2; omega⟩
      obtain ⟨y, y1, y2⟩ := IntTy.step_of ht (d := 1) hb (.inl rfl) (fun g1 g2 => by
        have q1 := F.limit g1 g2 mx E.bmem
        exact ⟨by have := hb.1; omega, by have := q1.2; omega⟩)
      refine ⟨y, y1, fun hj' => y2 ?_⟩
      have q2 := hx mx E.bmem
      exact ⟨by have := hb.1; omega, by have := q2.2; omega⟩
    · rintro _ s' ⟨b1, b2, b3⟩
      refine ⟨_, hp, expand_sorted _ _, hp.length_eq, b2, fun i hi => b3 i (by omega), hw.of_live b1 fun i => ?_⟩
      by_cases c : i < f ∨ f + cs.sum ≤ i
      · exact .inl (b3 i c)
      · exact .inr (hs.live (by omega) (by omega))

theorem reverseCountingSort_seg {t : IntTy} (ht : t.Builtin) {s : St Int} {f : Nat} {xs : List Int} (hw : s.WF)
    (hs : Seg s.cell f xs) (hx : ∀ x ∈ xs, t.Has x)
    (hfit : ¬ SortedList (fun x y => decide (y < x)) xs → CountFits t (-1) xs) :
    wp (reverseCountingSort t f (f + xs.length)) (fun _ s' => ∃ ys, ys.Perm xs ∧
      SortedList (fun x y => decide (y < x)) ys ∧ VTo f xs.length ys s s') s := by
  unfold reverseCountingSort
  apply wp_bind
  refine wp_mono (minmaxAndIsSorted_spec intLt_sw.flip hs) ?_
  rintro ⟨pmn, pmx, b⟩ _ ⟨⟨k, rfl⟩, h1, h2⟩
  cases b with
  | true => exact wp_pure ⟨xs, .refl _, h1 rfl, (VTo.refl hw hs rfl).cmpsr⟩
  | false =>
    obtain ⟨h3, mx, mn, E⟩ := h2 rfl
    have F := hfit h3
    dsimp only
    rw [if_neg (by simp)]
    apply wp_bind
    refine wp_read' (x := mn) E.cmax ?_
    apply wp_bind
    refine wp_read' (x := mx) E.cmin ?_
    have hle : ∀ x ∈ xs, mn ≤ x := fun x hx => by have := E.ge x hx; simpa using this
    have hge : ∀ x ∈ xs, x ≤ mx := fun x hx => by have := E.le x hx; simpa using this
    have h0 := hle mx E.amem
    obtain ⟨r1, r2⟩ := F.range mn E.bmem mx E.amem
    apply wp_bind
    refine ⟨_, _, valueRange_of h0 r1 r2 _, ?_⟩
    apply wp_bind
    rw [newCounts, if_neg (by omega)]
    refine wp_pure ?_
    have hn : (((mx - mn + 1).toNat : Nat) : Int) = mx - mn + 1 := by omega
    generalize (mx - mn + 1).toNat = n at hn
    have hin : ∀ x ∈ xs, mn ≤ x ∧ x < mn + n := fun x hx => ⟨hle x hx, by have := hge x hx; omega⟩
    apply wp_bind
    refine wp_mono (countLoop_seg xs f _ (List.replicate n 0) _ hs rfl (by simpa using hin) (by simp; omega)
      (by simp; omega)) ?_
    rintro cs _ ⟨rfl, k1, k2⟩
    rw [List.length_replicate] at k1 k2
    have hp := expand_perm hin k1 k2
    have hl : cs.sum = xs.length := by rw [← expand_length 1 cs mn]; exact hp.length_eq
    have hlr : cs.reverse.sum = xs.length := by rw [List.sum_reverse]; exact hl
    refine wp_mono (countOut_seg t (-1) cs.reverse f mx _ (fun i i1 i2 => hs.live i1 (by omega)) ?_) ?_
    · intro j hj
      rw [List.length_reverse] at hj ⊢
      have hb : t.Has (mx + -1 * j) := by
        have q1 := hx mn E.bmem
        have q2 := hx mx E.amem
        exact ⟨by have := q1.1; omega, by have := q2.2; omega⟩
      obtain ⟨y, y1, y2⟩ := IntTy.step_of ht (d := -1) hb (.inr rfl) (fun g1 g2 => by
        have q1 := F.limit g1 g2 mn E.bmem
        exact ⟨by have := q1.1; omega, by have := hb.2; omega⟩)
      refine ⟨y, y1, fun hj' => y2 ?_⟩
      have q2 := hx mn E.bmem
      exact ⟨by have := q2.1; omega, by have := hb.2; omega⟩
    · rintro _ s' ⟨b1, b2, b3⟩
      have e : expand (-1) mx cs.reverse = (expand 1 mn cs).reverse := by
        rw [← expand_reverse, show mn + (cs.length : Int) - 1 = mx by omega]
      rw [e] at b2
      refine ⟨_, (List.reverse_perm _).trans hp, List.pairwise_reverse.2 (expand_sorted _ _),
        by rw [List.length_reverse]; exact hp.length_eq, b2, fun i hi => b3 i (by omega), hw.of_live b1 fun i => ?_⟩
      by_cases c : i < f ∨ f + cs.reverse.sum ≤ i
      · exact .inl (b3 i c)
      · exact .inr (hs.live (by omega) (by omega))

theorem bind_fails {β γ : Type} {m : M α β} {g : β → M α γ} {s s' : St α} {e : Err} (h : m s = some (.error e, s')) :
    (m >>= g) s = some (.error e, s') := by
  show (StateT.bind m (ExceptT.bindCont g)) s = _
  simp only [StateT.bind, h]
  rfl

/-- A wide signed type: the computation of the number of counters overflows. -/
theorem countingSort_range_overflow {t : IntTy} (hsg : t.signed = true) (hb : 32 ≤ t.bits) {s : St Int} {f : Nat}
    {xs : List Int} (hs : Seg s.cell f xs) (hns : ¬ SortedList (fun x y => decide (x < y)) xs)
    (hbig : ∃ x ∈ xs, ∃ y ∈ xs, t.hi < y - x + 1) :
    ∃ s', countingSort t f (f + xs.length) s = some (.error .overflow, s') := by
  obtain ⟨⟨pmn, pmx, b⟩, _, e, ⟨k, rfl⟩, h1, h2⟩ := minmaxAndIsSorted_spec intLt_sw hs
  cases b with
  | true => exact absurd (h1 rfl) hns
  | false =>
    obtain ⟨-, mn, mx, E⟩ := h2 rfl
    have hp : t.promote = t := if_neg (by omega)
    obtain ⟨x, hx, y, hy, hxy⟩ := hbig
    have g1 : mn ≤ x := by have := E.le x hx; simpa using this
    have g2 : y ≤ mx := by have := E.ge y hy; simpa using this
    have g3 : mn ≤ mx := by have := E.le mx E.bmem; simpa using this
    have hlo : t.lo ≤ 0 := by have := t.promote_lo; rwa [hp] at this
    unfold countingSort
    rw [bind_ok e]
    dsimp only
    rw [if_neg (by simp)]
    have e1 : (read pmn : M Int Int) { s with cmps := k } = some (.ok mn, { s with cmps := k }) := by
      simp only [read, E.cmin]
    have e2 : (read pmx : M Int Int) { s with cmps := k } = some (.ok mx, { s with cmps := k }) := by
      simp only [read, E.cmax]
    rw [bind_ok e1, bind_ok e2]
    refine ⟨{ s with cmps := k }, ?_⟩
    have hv : valueRange t mx mn { s with cmps := k } = some (.error .overflow, { s with cmps := k }) := by
      unfold valueRange
      rw [hp]
      by_cases c : mx - mn ≤ t.hi
      · rw [bind_ok (IntTy.arith_of (by omega) ⟨by omega, c⟩ _)]
        unfold IntTy.arith
        rw [if_pos hsg, if_neg (by omega)]
        rfl
      · unfold IntTy.arith
        rw [if_pos hsg, if_neg (by omega)]
        rfl
    exact bind_fails hv

theorem countOut_overflow {t : IntTy} (ht : t.Builtin) (hsg : t.signed = true) (hb : 32 ≤ t.bits) : ∀ (cs : List Nat) (f : Nat)
    (x : Int) (s : St Int), (∀ i, f ≤ i → i < f + cs.sum → Live s.cell i) → cs ≠ [] → t.Has x → x + cs.length = t.hi + 1 →
    ∃ s', countOut t 1 f x cs s = some (.error .overflow, s') := by
  intro cs
  induction cs with
  | nil => intro f x s _ h; exact absurd rfl h
  | cons c cs ih =>
    intro f x s hl _ hx he
    rw [List.sum_cons] at hl
    simp only [List.length_cons] at he
    push_cast at he
    rw [countOut]
    have hp : t.promote = t := if_neg (by omega)
    by_cases hcs : cs = []
    · subst hcs
      simp at he
      refine ⟨s, bind_fails ?_⟩
      unfold IntTy.step
      rw [hp]
      refine bind_fails ?_
      unfold IntTy.arith
      rw [if_pos hsg, if_neg (by omega)]
      rfl
    · have hc1 := List.length_pos_iff.2 hcs
      have hx1 : t.Has (x + 1) := ⟨by have := hx.1; omega, by omega⟩
      obtain ⟨y, y1, y2⟩ := IntTy.step_of ht hx (.inl rfl) fun _ _ => hx1
      obtain rfl := y2 hx1
      rw [bind_ok (y1 s)]
      obtain ⟨r, s1, e1, rfl, b1, b2, b3⟩ := fillN_seg x c f s fun i h1 h2 => hl i h1 (by omega)
      rw [bind_ok e1]
      refine ih (f + c) (x + 1) s1 ?_ hcs hx1 (by omega)
      intro i h1 h2
      unfold Live
      rw [b3 i (by omega)]
      exact hl i (by omega) (by omega)

/-- A wide signed type whose greatest value is in the range: the increment after the last value overflows. -/
theorem countingSort_limit_overflow {t : IntTy} (ht : t.Builtin) (hsg : t.signed = true) (hb : 32 ≤ t.bits) {s : St Int}
    {f : Nat} {xs : List Int} (hs : Seg s.cell f xs) (hx : ∀ x ∈ xs, t.Has x)
    (hns : ¬ SortedList (fun x y => decide (x < y)) xs)
    (hr : ∀ x ∈ xs, ∀ y ∈ xs, y - x + 1 ≤ t.hi ∧ y - x + 1 < 2 ^ 63) (hlim : t.hi ∈ xs) :
    ∃ s', countingSort t f (f + xs.length) s = some (.error .overflow, s') := by
  obtain ⟨⟨pmn, pmx, b⟩, _, e, ⟨k, rfl⟩, h1, h2⟩ := minmaxAndIsSorted_spec intLt_sw hs
  cases b with
  | true => exact absurd (h1 rfl) hns
  | false =>
    obtain ⟨-, mn, mx, E⟩ := h2 rfl
    have hp : t.promote = t := if_neg (by omega)
    have hle : ∀ x ∈ xs, mn ≤ x := fun x hx => by have := E.le x hx; simpa using this
    have hge : ∀ x ∈ xs, x ≤ mx := fun x hx => by have := E.ge x hx; simpa using this
    have h0 := hle mx E.bmem
    have hm : mx = t.hi := by have := hge _ hlim; have := (hx mx E.bmem).2; omega
    obtain ⟨r1, r2⟩ := hr mn E.amem mx E.bmem
    unfold countingSort
    rw [bind_ok e]
    dsimp only
    rw [if_neg (by simp)]
    have e1 : (read pmn : M Int Int) { s with cmps := k } = some (.ok mn, { s with cmps := k }) := by
      simp only [read, E.cmin]
    have e2 : (read pmx : M Int Int) { s with cmps := k } = some (.ok mx, { s with cmps := k }) := by
      simp only [read, E.cmax]
    rw [bind_ok e1, bind_ok e2, bind_ok (valueRange_of h0 (by rw [hp]; exact r1) r2 _)]
    have hn : (((mx - mn + 1).toNat : Nat) : Int) = mx - mn + 1 := by omega
    have e3 : newCounts (mx - mn + 1) { s with cmps := k } = some (.ok (List.replicate (mx - mn + 1).toNat 0), { s with cmps := k }) := by
      rw [newCounts, if_neg (by omega)]; rfl
    rw [bind_ok e3]
    generalize (mx - mn + 1).toNat = n at hn
    have hin : ∀ x ∈ xs, mn ≤ x ∧ x < mn + n := fun x hx => ⟨hle x hx, by have := hge x hx; omega⟩
    obtain ⟨cs, _, e4, rfl, k1, k2⟩ := countLoop_seg (t := t) xs f _ (List.replicate n 0) { s with cmps := k } hs rfl (by simpa using hin)
      (by rw [hp]; simp; omega) (by simp; omega)
    rw [bind_ok e4]
    rw [List.length_replicate] at k1 k2
    have hl : cs.sum = xs.length := by rw [← expand_length 1 cs mn]; exact (expand_perm hin k1 k2).length_eq
    exact countOut_overflow ht hsg hb cs f mn _ (fun i i1 i2 => hs.live i1 (by omega)) (by
      intro h; subst h; simp at k1; omega) (hx mn E.amem) (by omega)

end CppSort
