import Verif.Model.MergeInsertion
import Verif.Proof.AdaptersMem
import Verif.Proof.RotateGcd
import Verif.Base.Segs
import Mathlib.Data.Nat.Size
/-
merge_insertion_sort: correctness, and number of comparisons.
-/
set_option autoImplicit false

namespace CppSort
variable {α : Type} {lt : α → α → Bool}

/-! ### Groups -/

/-- The elements of the `i`-th group of `g` elements from `f`. -/
def grp (v : Nat → α) (f g i : Nat) : List α := (List.range g).map fun j => v (f + i * g + j)

/-- All the groups. -/
def grps (v : Nat → α) (f g n : Nat) : List (List α) := (List.range n).map (grp v f g)

theorem grp_below {i j : Nat} (g : Nat) (h : i < j) : i * g + g ≤ j * g := by
  have := Nat.mul_le_mul_right g (show i + 1 ≤ j by omega)
  rw [Nat.succ_mul] at this
  exact this

theorem grp_length {v : Nat → α} {f g i : Nat} : (grp v f g i).length = g := by simp [grp]

theorem grp_at {v w : Nat → α} {f g i k : Nat} (h : grp v f g i = grp w f g k) {j : Nat} (hj : j < g) :
    v (f + i * g + j) = w (f + k * g + j) := by
  have := congrArg (fun l => l[j]?) h
  simp only [grp, List.getElem?_map] at this
  simpa [List.getElem?_range hj] using this

theorem grp_double {v : Nat → α} {f g i : Nat} :
    grp v f (2 * g) i = grp v f g (2 * i) ++ grp v f g (2 * i + 1) := by
  unfold grp
  rw [show 2 * g = g + g by omega, List.range_add, List.map_append, List.map_map]
  congr 1
  · apply List.map_congr_left
    intro j _
    congr 2
    rw [← show 2 * g = g + g by omega, Nat.mul_left_comm, Nat.mul_assoc]
  · apply List.map_congr_left
    intro j _
    show v (f + i * (g + g) + (g + j)) = v _
    congr 1
    rw [← show 2 * g = g + g by omega, Nat.mul_left_comm, Nat.add_mul, Nat.mul_assoc]
    omega

theorem grps_double {v : Nat → α} {f g : Nat} : ∀ n,
    grps v f g (2 * n) = (grps v f (2 * g) n).flatMap (fun z => [z.take g, z.drop g]) := by
  intro n
  induction n with
  | zero => rfl
  | succ n ih =>
    rw [show 2 * (n + 1) = 2 * n + 1 + 1 by omega]
    unfold grps at ih ⊢
    rw [List.range_succ, List.range_succ, List.map_append, List.map_append, ih,
      List.range_succ (n := n), List.map_append, List.flatMap_append, List.append_assoc]
    congr 1
    simp only [List.map_cons, List.map_nil, List.flatMap_cons, List.flatMap_nil, grp_double]
    rw [List.take_left' grp_length, List.drop_left' grp_length]
    rfl

theorem grps_flatten {v : Nat → α} {f g : Nat} : ∀ n, (grps v f g n).flatten = lst v f (f + n * g) := by
  intro n
  induction n with
  | zero => rw [lst_nil (by omega)]; rfl
  | succ n ih =>
    unfold grps at ih ⊢
    rw [List.range_succ, List.map_append, List.flatten_append, ih, Nat.succ_mul,
      lst_append (f := f) (m := f + n * g) (l := f + (n * g + g)) (by omega) (by omega)]
    congr 1
    simp only [List.map_cons, List.map_nil, List.flatten_cons, List.flatten_nil, List.append_nil]
    unfold grp lst
    rw [show f + (n * g + g) - (f + n * g) = g by omega, List.range'_eq_map_range, List.map_map]
    rfl

theorem flatten_inj {g : Nat} : ∀ {xs ys : List (List α)}, (∀ x ∈ xs, x.length = g) →
    (∀ y ∈ ys, y.length = g) → xs.length = ys.length → xs.flatten = ys.flatten → xs = ys := by
  intro xs
  induction xs with
  | nil => intro ys _ _ h _; exact (List.length_eq_zero_iff.1 h.symm).symm
  | cons x xs ih =>
    intro ys hx hy hl h
    cases ys with
    | nil => simp at hl
    | cons y ys =>
      rw [List.flatten_cons, List.flatten_cons] at h
      have h1 := List.append_inj h ((hx x (by simp)).trans (hy y (by simp)).symm)
      rw [h1.1, ih (fun z hz => hx z (by simp [hz])) (fun z hz => hy z (by simp [hz]))
        (by simpa using hl) h1.2]

/-! ### The pairs -/

/-- The last element of a group. -/
def lastOf (v : Nat → α) (f g i : Nat) : α := v (f + i * g + (g - 1))

theorem groupKey_wp {f g n i : Nat} {v : Nat → α} {s : St α} {Q : α → St α → Prop} (hg : 0 < g)
    (hi : i < n) (hh : Holds s.cell f (f + n * g) v) (hQ : Q (lastOf v f g i) s) :
    wp (groupKey f g i) Q s := by
  have := grp_below g hi
  exact wp_read hh (by omega) (by omega) hQ

theorem groupSwapIf_spec (hlt : StrictWeak lt) {f g n i : Nat} {v : Nat → α} {s : St α} (hg : 0 < g)
    (hi : i + 1 < n) (hh : Holds s.cell f (f + n * g) v) :
    wp (groupSwapIf (tick lt) f g i (i + 1)) (fun _ s' => ∃ v', Upd f (f + n * g) s s' v v' ∧
      (grps v' f g n).Perm (grps v f g n) ∧ lt (lastOf v' f g (i + 1)) (lastOf v' f g i) = false ∧
      (∀ k, k ≠ i → k ≠ i + 1 → lastOf v' f g k = lastOf v f g k) ∧ s'.cmps = s.cmps + 1) s := by
  unfold groupSwapIf
  have h1 := grp_below g (show i < i + 1 by omega)
  have h2 := grp_below g hi
  have h3 : (i + 1) * g = i * g + g := Nat.succ_mul _ _
  apply wp_bind
  refine groupKey_wp hg hi hh ?_
  apply wp_bind
  refine groupKey_wp hg (show i < n by omega) hh ?_
  wtick
  split
  · rename_i hc
    unfold groupSwap
    apply wp_bind
    refine wp_mono (swapRanges_spec (f := f) (l := f + n * g) g (f + i * g) (f + i * g + g) (f + (i + 1) * g) _ v
      rfl (by omega) (by omega) (by omega) hh) ?_
    rintro r s' ⟨-, v', a1, a2, a3, a4, a5, -⟩
    apply wp_pure
    have hgrp : grp v' f g = swp (grp v f g) i (i + 1) := by
      funext k
      by_cases e1 : k = i
      · subst e1
        rw [swp_l rfl]
        exact List.map_congr_left fun j hj => a2 j (List.mem_range.1 hj)
      · by_cases e2 : k = i + 1
        · subst e2
          rw [swp_r rfl]
          exact List.map_congr_left fun j hj => a3 j (List.mem_range.1 hj)
        · rw [swp_o e1 e2]
          refine List.map_congr_left fun j hj => a4 _ ?_
          have hj := List.mem_range.1 hj
          rcases Nat.lt_or_ge k i with h | h
          · have := grp_below g h; omega
          · have := grp_below g (show i + 1 < k by omega); omega
    refine ⟨v', a1.tick, ?_, ?_, fun k e1 e2 => ?_, a5⟩
    · have := (PermOn.swp (f := 0) (l := n) (v := grp v f g) (i := i) (j := i + 1) (by omega) (by omega)).2
      rw [← hgrp] at this
      unfold lst at this
      rw [show n - 0 = n by omega, ← List.range_eq_range'] at this
      exact this
    · unfold lastOf
      rw [a2 (g - 1) (by omega), a3 (g - 1) (by omega)]
      exact hlt.le_of_lt hc
    · have := congrFun hgrp k
      rw [swp_o e1 e2] at this
      exact grp_at this (by omega)
  · rename_i hc
    apply wp_pure
    exact ⟨v, (Upd.refl hh).tickr, List.Perm.refl _, by simpa using hc, fun _ _ _ => rfl, rfl⟩

theorem mergeInsertionPairs_spec (hlt : StrictWeak lt) {f g n : Nat} (hg : 0 < g) :
    ∀ (h it : Nat) (v : Nat → α) (s : St α), it + 2 * h ≤ n → Holds s.cell f (f + n * g) v →
    wp (mergeInsertionPairs (tick lt) f g it (it + 2 * h)) (fun _ s' => ∃ v', Upd f (f + n * g) s s' v v' ∧
      (grps v' f g n).Perm (grps v f g n) ∧
      (∀ k, k < h → lt (lastOf v' f g (it + 2 * k + 1)) (lastOf v' f g (it + 2 * k)) = false) ∧
      (∀ k, k < it → lastOf v' f g k = lastOf v f g k) ∧ s'.cmps = s.cmps + h) s := by
  intro h
  induction h with
  | zero =>
    intro it v s hn hh
    rw [mergeInsertionPairs, if_neg (by omega)]
    exact wp_pure ⟨v, Upd.refl hh, List.Perm.refl _, fun k hk => by omega, fun _ _ => rfl, rfl⟩
  | succ h ih =>
    intro it v s hn hh
    rw [mergeInsertionPairs, if_pos (by omega)]
    apply wp_bind
    refine wp_mono (groupSwapIf_spec hlt hg (show it + 1 < n by omega) hh) ?_
    rintro _ s1 ⟨v1, a1, a2, a3, a4, a5⟩
    rw [show it + 2 * (h + 1) = it + 2 + 2 * h by omega]
    refine wp_mono (ih (it + 2) v1 s1 (by omega) a1.holds) ?_
    rintro _ s2 ⟨v2, b1, b2, b3, b4, b5⟩
    refine ⟨v2, a1.trans b1, b2.trans a2, fun k hk => ?_, fun k hk => ?_, by omega⟩
    · cases k with
      | zero =>
        rw [b4 _ (by omega), b4 _ (by omega)]
        exact a3
      | succ k =>
        have := b3 k (by omega)
        rw [show it + 2 * (k + 1) = it + 2 + 2 * k by omega]
        exact this
    · rw [b4 k (by omega), a4 k (by omega) (by omega)]

/-! ### The chain -/

theorem chainUpper_spec {f g n : Nat} {chain : List Nat} {v : Nat → α} {value : α} (hg : 0 < g)
    (hc : ∀ x ∈ chain, x < n) {w : Nat → α}
    (hw : ∀ k i, chain[k]? = some i → w k = lastOf v f g i) :
    ∀ (m first size : Nat) (s : St α), size ≤ m → first + size ≤ chain.length →
    Holds s.cell f (f + n * g) v →
    (∀ i j, first ≤ i → i < j → j < first + size → lt value (w j) = false → lt value (w i) = false) →
    wp (chainUpper (tick lt) f g chain value first size) (fun r s' => first ≤ r ∧ r ≤ first + size ∧
      (∀ i, first ≤ i → i < r → lt value (w i) = false) ∧
      (∀ i, r ≤ i → i < first + size → lt value (w i) = true) ∧
      ∃ k, s' = { s with cmps := k } ∧ k ≤ s.cmps + Nat.size size) s := by
  intro m
  induction m with
  | zero =>
    intro first size s hs _ _ _
    rw [chainUpper, if_neg (by omega)]
    apply wp_pure
    exact ⟨by omega, by omega, fun i _ _ => by omega, fun i _ _ => by omega, s.cmps, rfl, by omega⟩
  | succ m ih =>
    intro first size s hs hl hh hm
    rw [chainUpper]
    split
    · rename_i h0
      obtain ⟨x, hx⟩ : ∃ x, chain[first + size / 2]? = some x :=
        ⟨_, List.getElem?_eq_getElem (show first + size / 2 < chain.length by omega)⟩
      have hwx := hw _ _ hx
      apply wp_bind
      unfold chainKey
      rw [hx]
      refine groupKey_wp hg (hc x (List.mem_of_getElem? hx)) hh ?_
      rw [← hwx]
      apply wp_bind
      apply (decides_notFlip value).wp
      have hlow : ∀ t, t ≤ size / 2 → Nat.size t + 1 ≤ Nat.size size := by
        intro t ht
        have h1 : Nat.size t ≤ Nat.size (size / 2) := Nat.size_le_size ht
        have h2 : Nat.size (size / 2) < Nat.size size := by
          by_cases e : size / 2 = 0
          · rw [e, Nat.size_zero]; exact Nat.size_pos.2 h0
          · have h3 : 0 < Nat.size (size / 2) := Nat.size_pos.2 (by omega)
            have h4 := Nat.lt_size.1 (show Nat.size (size / 2) - 1 < Nat.size (size / 2) by omega)
            refine Nat.lt_size.2 ?_
            rw [show Nat.size (size / 2) = Nat.size (size / 2) - 1 + 1 by omega, Nat.pow_succ]
            omega
        omega
      split
      · rename_i hc
        refine wp_mono (ih (first + size / 2 + 1) (size - (size / 2 + 1)) _ (by omega) (by omega)
          hh fun i j a b c => hm i j (by omega) b (by omega)) ?_
        rintro r s' ⟨h1, h2, h3, h4, k, rfl, h5⟩
        simp only at h5
        refine ⟨by omega, by omega, ?_, fun i a b => h4 i a (by omega), k, rfl, ?_⟩
        · intro i a b
          have hc : lt value (w (first + size / 2)) = false := by simpa using hc
          by_cases hi : first + size / 2 + 1 ≤ i
          · exact h3 i hi b
          · by_cases e : i = first + size / 2
            · rw [e]; exact hc
            · exact hm i (first + size / 2) a (by omega) (by omega) hc
        · have := hlow (size - (size / 2 + 1)) (by omega)
          omega
      · rename_i hc
        refine wp_mono (ih first (size / 2) _ (by omega)
          (by omega) hh fun i j a b c => hm i j (by omega) b (by omega)) ?_
        rintro r s' ⟨h1, h2, h3, h4, k, rfl, h5⟩
        simp only at h5
        refine ⟨by omega, by omega, h3, ?_, k, rfl, ?_⟩
        · intro i a b
          have hc : lt value (w (first + size / 2)) = true := by simpa using hc
          by_cases hi : i < first + size / 2
          · exact h4 i a hi
          · by_cases e : i = first + size / 2
            · rw [e]; exact hc
            · cases hp : lt value (w i) with
              | true => rfl
              | false =>
                have := hm (first + size / 2) i (by omega) (by omega) b hp
                rw [hc] at this; cases this
        · have := hlow (size / 2) (by omega)
          omega
    · apply wp_pure
      exact ⟨by omega, by omega, fun i _ _ => by omega, fun i _ _ => by omega, s.cmps, rfl, by omega⟩

theorem chainInsert_idxOf (a it : Nat) : ∀ (chain : List Nat) (k : Nat),
    (chainInsert chain k it).idxOf a ≤ chain.idxOf a + 1 := by
  intro chain
  induction chain with
  | nil =>
    intro k
    simp only [chainInsert, List.take_nil, List.drop_nil, List.nil_append, List.idxOf_cons, List.idxOf_nil]
    cases it == a <;> simp
  | cons x chain ih =>
    intro k
    cases k with
    | zero =>
      simp only [chainInsert, List.take_zero, List.drop_zero, List.nil_append]
      rw [List.idxOf_cons]
      cases it == a <;> simp
    | succ k =>
      have := ih k
      simp only [chainInsert, List.take_succ_cons, List.drop_succ_cons, List.cons_append] at this ⊢
      rw [List.idxOf_cons, List.idxOf_cons]
      cases x == a
      · simpa using this
      · simp

theorem chainInsert_length (it : Nat) (chain : List Nat) (k : Nat) :
    (chainInsert chain k it).length = chain.length + 1 := by
  unfold chainInsert
  simp only [List.length_append, List.length_take, List.length_cons, List.length_drop]
  omega

theorem chainInsert_perm (it : Nat) (chain : List Nat) (k : Nat) :
    (chainInsert chain k it).Perm (it :: chain) := by
  unfold chainInsert
  refine List.perm_middle.trans ?_
  rw [List.take_append_drop]

theorem chainInsert_pos (it : Nat) (chain : List Nat) (k : Nat) (p : Option Nat) :
    chainPos (chainInsert chain k it) p ≤ chainPos chain p + 1 := by
  cases p with
  | none => exact Nat.le_of_eq (chainInsert_length _ _ _)
  | some a => exact chainInsert_idxOf a it chain k

/-- The chain after `c` insertions. -/
structure ChainInv (lt : α → α → Bool) (key : Nat → α) (n : Nat) (pend : List (Option Nat))
    (chain : List Nat) (c : Nat) : Prop where
  sorted : chain.Pairwise fun x y => lt (key y) (key x) = false
  bound : ∀ x ∈ chain, x < n
  pend : ∀ j, j < pend.length → 2 * j + 2 < n ∧ ∃ p, pend[j]? = some p ∧ chainPos chain p ≤ j + 2 + c ∧
    ∀ a, p = some a → a ∈ chain ∧ lt (key a) (key (2 * j + 2)) = false

theorem mergeInsertionPut_spec (hlt : StrictWeak lt) {f g n : Nat} {pend : List (Option Nat)}
    {chain : List Nat} {c pe it : Nat} {v : Nat → α} {s : St α} (hg : 0 < g)
    (hi : ChainInv lt (lastOf v f g) n pend chain c) (hpe : pe < pend.length) (hit : it = 2 * pe + 2)
    (hh : Holds s.cell f (f + n * g) v) :
    wp (mergeInsertionPut (tick lt) f g pend chain pe it) (fun chain' s' =>
      chain'.Perm (it :: chain) ∧ ChainInv lt (lastOf v f g) n pend chain' (c + 1) ∧
      ∃ k, s' = { s with cmps := k } ∧ k ≤ s.cmps + Nat.size (pe + 2 + c)) s := by
  subst hit
  obtain ⟨hn, p, hp, hpos, hpa⟩ := hi.pend pe hpe
  unfold mergeInsertionPut
  apply wp_bind
  unfold pendAt
  rw [hp]
  refine wp_pure ?_
  apply wp_bind
  refine groupKey_wp hg hn hh ?_
  have hle : chainPos chain p ≤ chain.length := by
    cases p with
    | none => exact Nat.le_refl _
    | some a => exact List.idxOf_le_length
  have hw : ∀ k i, chain[k]? = some i → lastOf v f g (chain.getD k 0) = lastOf v f g i := by
    intro k i h
    rw [List.getD_eq_getElem?_getD, h]
    rfl
  have hso : ∀ (i j x y : Nat), i < j → chain[i]? = some x → chain[j]? = some y →
      lt (lastOf v f g y) (lastOf v f g x) = false := by
    intro i j x y h1 h2 h3
    obtain ⟨h4, h5⟩ := List.getElem?_eq_some_iff.1 h2
    obtain ⟨h6, h7⟩ := List.getElem?_eq_some_iff.1 h3
    have := List.pairwise_iff_getElem.1 hi.sorted i j h4 h6 h1
    rwa [h5, h7] at this
  apply wp_bind
  refine wp_mono (chainUpper_spec (w := fun k => lastOf v f g (chain.getD k 0)) hg hi.bound hw _ 0 (chainPos chain p) s
    (Nat.le_refl _) (by omega) hh ?_) ?_
  · intro i j _ h1 h2 h3
    have hj := List.getElem?_eq_getElem (show j < chain.length by omega)
    have hi := List.getElem?_eq_getElem (show i < chain.length by omega)
    rw [hw j _ hj] at h3
    rw [hw i _ hi]
    exact hlt.le_trans (hso i j _ _ h1 hi hj) h3
  · rintro k s' ⟨-, h1, h2, h3, m, rfl, h4⟩
    apply wp_pure
    refine ⟨chainInsert_perm _ _ _, ⟨?_, ?_, ?_⟩, m, rfl, Nat.le_trans h4 ?_⟩
    · unfold chainInsert
      rw [List.pairwise_append, List.pairwise_cons]
      have hlow : ∀ x ∈ chain.take k, lt (lastOf v f g (2 * pe + 2)) (lastOf v f g x) = false := by
        intro x hx
        obtain ⟨i, hi⟩ := List.getElem?_of_mem hx
        rw [List.getElem?_take] at hi
        split at hi
        · rename_i hik
          have := h2 i (by omega) hik
          rwa [hw i x hi] at this
        · cases hi
      have hhigh : ∀ x ∈ chain.drop k, lt (lastOf v f g x) (lastOf v f g (2 * pe + 2)) = false := by
        intro x hx
        obtain ⟨i, hi⟩ := List.getElem?_of_mem hx
        rw [List.getElem?_drop] at hi
        by_cases hik : k + i < chainPos chain p
        · have := h3 (k + i) (by omega) (by omega)
          rw [hw _ x hi] at this
          exact hlt.le_of_lt this
        · cases p with
          | none =>
            obtain ⟨h5, -⟩ := List.getElem?_eq_some_iff.1 hi
            exact absurd h5 hik
          | some a =>
            obtain ⟨ha, hb⟩ := hpa a rfl
            have hb' : chain[chain.idxOf a]? = some a := by
              rw [List.getElem?_eq_getElem (List.idxOf_lt_length_iff.2 ha), List.getElem_idxOf]
            by_cases e : chain.idxOf a = k + i
            · rw [e, hi] at hb'
              rw [Option.some.inj hb']
              exact hb
            · have e2 : chain.idxOf a < k + i := by
                simp only [chainPos] at hik
                omega
              exact hlt.le_trans hb (hso _ _ _ _ e2 hb' hi)
      refine ⟨hi.sorted.sublist (List.take_sublist _ _), ⟨hhigh, hi.sorted.sublist (List.drop_sublist _ _)⟩, ?_⟩
      intro x hx y hy
      rcases List.mem_cons.1 hy with e | hy
      · rw [e]; exact hlow x hx
      · have := hi.sorted
        rw [← List.take_append_drop k chain, List.pairwise_append] at this
        exact this.2.2 x hx y hy
    · intro x hx
      rcases List.mem_cons.1 ((chainInsert_perm _ _ _).mem_iff.1 hx) with e | hx
      · rw [e]; exact hn
      · exact hi.bound x hx
    · intro j hj
      obtain ⟨a1, q, a2, a3, a4⟩ := hi.pend j hj
      refine ⟨a1, q, a2, ?_, fun a ha => ⟨?_, (a4 a ha).2⟩⟩
      · have := chainInsert_pos (2 * pe + 2) chain k q
        omega
      · exact (chainInsert_perm _ _ _).mem_iff.2 (List.mem_cons_of_mem _ (a4 a ha).1)
    · have := Nat.size_le_size hpos
      omega

/-- The groups inserted for the indices `[a, b)` of `pend`. -/
def items (a b : Nat) : List Nat := (List.range' a (b - a)).map fun j => 2 * j + 2

theorem items_nil {a b : Nat} (h : b ≤ a) : items a b = [] := by
  unfold items
  rw [show b - a = 0 by omega]
  rfl

theorem items_cons {a b : Nat} (h : a < b) : items a b = (2 * a + 2) :: items (a + 1) b := by
  unfold items
  rw [show b - a = (b - (a + 1)) + 1 by omega, List.range'_succ]
  rfl

theorem items_snoc {a b : Nat} (h : a ≤ b) : items a (b + 1) = items a b ++ [2 * b + 2] := by
  unfold items
  rw [show b + 1 - a = (b - a) + 1 by omega, List.range'_concat, List.map_append]
  simp
  omega

theorem items_append {a b c : Nat} (h1 : a ≤ b) (h2 : b ≤ c) : items a b ++ items b c = items a c := by
  unfold items
  rw [← List.map_append]
  congr 1
  rw [show c - a = (b - a) + (c - b) by omega, ← List.range'_append]
  congr 2
  omega

theorem mergeInsertionCycle_spec (hlt : StrictWeak lt) {f g n : Nat} {pend : List (Option Nat)}
    {v : Nat → α} (hg : 0 < g) {current : Nat} : ∀ (d c : Nat) (chain : List Nat) (pe it : Nat) (s : St α),
    ChainInv lt (lastOf v f g) n pend chain c → pe = current + d + 1 → pe ≤ pend.length → it = 2 * pe →
    Holds s.cell f (f + n * g) v →
    wp (mergeInsertionCycle (tick lt) f g pend current chain pe it) (fun chain' s' =>
      chain'.Perm (items current pe ++ chain) ∧ ChainInv lt (lastOf v f g) n pend chain' (c + (d + 1)) ∧
      ∃ k, s' = { s with cmps := k } ∧ k ≤ s.cmps + (d + 1) * Nat.size (pe + 1 + c)) s := by
  intro d
  induction d with
  | zero =>
    intro c chain pe it s hi he hp hit hh
    rw [mergeInsertionCycle]
    apply wp_bind
    refine wp_mono (mergeInsertionPut_spec hlt hg hi (show pe - 1 < pend.length by omega) (by omega) hh) ?_
    rintro chain' s' ⟨h1, h2, k, rfl, h3⟩
    rw [if_pos (by omega)]
    apply wp_pure
    refine ⟨?_, h2, k, rfl, ?_⟩
    · rw [items_cons (by omega), items_nil (by omega)]
      rw [show 2 * current + 2 = it by omega]
      exact h1
    · rw [show pe - 1 + 2 + c = pe + 1 + c by omega] at h3
      omega
  | succ d ih =>
    intro c chain pe it s hi he hp hit hh
    rw [mergeInsertionCycle]
    apply wp_bind
    refine wp_mono (mergeInsertionPut_spec hlt hg hi (show pe - 1 < pend.length by omega) (by omega) hh) ?_
    rintro chain' s' ⟨h1, h2, k, rfl, h3⟩
    rw [if_neg (by omega)]
    refine wp_mono (ih (c + 1) chain' (pe - 1) (it - 2) _ h2 (by omega) (by omega) (by omega) hh) ?_
    rintro chain'' s' ⟨h4, h5, m, rfl, h6⟩
    refine ⟨?_, ?_, m, rfl, ?_⟩
    · refine h4.trans ((List.Perm.append_left _ h1).trans ?_)
      obtain ⟨q, rfl⟩ : ∃ q, pe = q + 1 := ⟨pe - 1, by omega⟩
      rw [items_snoc (by omega), List.append_assoc, show 2 * q + 2 = it by omega]
      exact List.Perm.refl _
    · rw [show c + (d + 1 + 1) = c + 1 + (d + 1) by omega]
      exact h5
    · simp only at h6
      rw [show pe - 1 + 2 + c = pe + 1 + c by omega] at h3
      rw [show pe - 1 + 1 + (c + 1) = pe + 1 + c by omega] at h6
      rw [Nat.succ_mul (d + 1)]
      omega

/-- The number of comparisons of the last insertions. -/
def restCost (p a : Nat) : Nat := ((List.range' a (p - a)).map fun j => Nat.size (2 * j + 2)).sum

/-- A bound of the number of comparisons for all the insertions. -/
def insertCost (p : Nat) : Nat → Nat → Nat → Nat → Nat → Nat
  | 0, a, _, _, _ => restCost p a
  | fuel + 1, a, pow2, jn, dist =>
    if dist ≤ p - a then
      dist * Nat.size (2 * a + dist + 1) +
        insertCost p fuel (a + dist) (pow2 * 2) (pow2 * 2 - jn) (2 * (pow2 * 2 - jn))
    else restCost p a

theorem mergeInsertionRest_spec (hlt : StrictWeak lt) {f g n : Nat} {pend : List (Option Nat)}
    {v : Nat → α} (hg : 0 < g) : ∀ (d : Nat) (chain : List Nat) (a it : Nat) (s : St α),
    ChainInv lt (lastOf v f g) n pend chain a → a + d = pend.length → it = 2 * a →
    Holds s.cell f (f + n * g) v →
    wp (mergeInsertionRest (tick lt) f g pend chain a it) (fun chain' s' =>
      chain'.Perm (items a pend.length ++ chain) ∧
      ChainInv lt (lastOf v f g) n pend chain' pend.length ∧
      ∃ k, s' = { s with cmps := k } ∧ k ≤ s.cmps + restCost pend.length a) s := by
  intro d
  induction d with
  | zero =>
    intro chain a it s hi ha hit hh
    rw [mergeInsertionRest, if_neg (by omega)]
    apply wp_pure
    refine ⟨?_, ?_, s.cmps, rfl, by omega⟩
    · rw [items_nil (by omega)]
      exact List.Perm.refl _
    · rw [← ha]; exact hi
  | succ d ih =>
    intro chain a it s hi ha hit hh
    rw [mergeInsertionRest, if_pos (by omega)]
    apply wp_bind
    refine wp_mono (mergeInsertionPut_spec hlt hg hi (show a < pend.length by omega) (by omega) hh) ?_
    rintro chain' s' ⟨h1, h2, k, rfl, h3⟩
    refine wp_mono (ih chain' (a + 1) (it + 2) _ h2 (by omega) (by omega) hh) ?_
    rintro chain'' s' ⟨h4, h5, m, rfl, h6⟩
    refine ⟨?_, h5, m, rfl, ?_⟩
    · refine h4.trans ((List.Perm.append_left _ h1).trans ?_)
      rw [items_cons (show a < pend.length by omega), show 2 * a + 2 = it + 2 by omega]
      exact List.perm_middle
    · simp only at h6
      unfold restCost at h6 ⊢
      rw [show pend.length - a = (pend.length - (a + 1)) + 1 by omega, List.range'_succ, List.map_cons,
        List.sum_cons]
      rw [show a + 2 + a = 2 * a + 2 by omega] at h3
      omega

theorem mergeInsertionCycles_spec (hlt : StrictWeak lt) {f g n : Nat} {pend : List (Option Nat)}
    {v : Nat → α} (hg : 0 < g) : ∀ (fuel : Nat) (chain : List Nat) (a it pow2 jn dist : Nat) (s : St α),
    ChainInv lt (lastOf v f g) n pend chain a → a ≤ pend.length → pend.length < a + fuel → it = 2 * a →
    0 < dist → jn ≤ pow2 → 0 < pow2 → Holds s.cell f (f + n * g) v →
    wp (mergeInsertionCycles (tick lt) f g pend chain a it pow2 jn dist) (fun r s' =>
      a ≤ r.2.1 ∧ r.2.1 ≤ pend.length ∧ r.2.2 = 2 * r.2.1 ∧
      r.1.Perm (items a r.2.1 ++ chain) ∧ ChainInv lt (lastOf v f g) n pend r.1 r.2.1 ∧
      ∃ k, s' = { s with cmps := k } ∧
        k + restCost pend.length r.2.1 ≤ s.cmps + insertCost pend.length fuel a pow2 jn dist) s := by
  intro fuel
  induction fuel with
  | zero => intro chain a it pow2 jn dist s _ h1 h2; omega
  | succ fuel ih =>
    intro chain a it pow2 jn dist s hi h1 h2 h3 h4 h5 h6 hh
    rw [mergeInsertionCycles, insertCost]
    by_cases hd : dist ≤ pend.length - a
    · rw [if_pos hd, if_pos hd]
      apply wp_bind
      refine wp_mono (mergeInsertionCycle_spec hlt hg (current := a) (dist - 1) a chain (a + dist) (it + dist * 2) s
        hi (by omega) (by omega) (by omega) hh) ?_
      rintro chain' s' ⟨a1, a2, k, rfl, a3⟩
      rw [show a + (dist - 1 + 1) = a + dist by omega] at a2
      refine wp_mono (ih chain' (a + dist) (it + dist * 2) (pow2 * 2) (pow2 * 2 - jn) (2 * (pow2 * 2 - jn)) _ a2
        (by omega) (by omega) (by omega) (by omega) (by omega) (by omega) hh) ?_
      rintro r s' ⟨b1, b2, b3, b4, b5, m, rfl, b6⟩
      refine ⟨by omega, b2, b3, ?_, b5, m, rfl, ?_⟩
      · refine b4.trans ((List.Perm.append_left _ a1).trans ?_)
        rw [← List.append_assoc, ← items_append (show a ≤ a + dist by omega) b1]
        exact List.Perm.append_right _ List.perm_append_comm
      · simp only at b6
        rw [show dist - 1 + 1 = dist by omega, show a + dist + 1 + a = 2 * a + dist + 1 by omega] at a3
        omega
    · rw [if_neg hd, if_neg hd]
      apply wp_pure
      refine ⟨Nat.le_refl _, h1, h3, ?_, hi, s.cmps, rfl, Nat.le_refl _⟩
      rw [items_nil (Nat.le_refl _)]
      exact List.Perm.refl _

/-! ### Moving the groups -/

theorem mergeInsertionGather_spec {f g n : Nat} {v : Nat → α} : ∀ (chain : List Nat) (dst : Nat) (s : St α),
    chain.Nodup → (∀ i ∈ chain, i < n) → f + n * g ≤ dst →
    (∀ i ∈ chain, ∀ j, j < g → s.cell (f + i * g + j) = .val (v (f + i * g + j))) →
    (∀ k, dst ≤ k → k < dst + chain.length * g → s.cell k = .raw) →
    wp (mergeInsertionGather f g chain dst) (fun r s' => r = dst + chain.length * g ∧
      Seg s'.cell dst (chain.map (grp v f g)).flatten ∧
      (∀ i ∈ chain, ∀ j, j < g → s'.cell (f + i * g + j) = .moved) ∧
      (∀ k, (k < f ∨ f + n * g ≤ k) → (k < dst ∨ dst + chain.length * g ≤ k) → s'.cell k = s.cell k) ∧
      (∀ i, i ∉ chain → ∀ j, j < g → f + i * g + j < dst → s'.cell (f + i * g + j) = s.cell (f + i * g + j)) ∧
      s'.env = s.env ∧ s'.cmps = s.cmps) s := by
  intro chain
  induction chain with
  | nil =>
    intro dst s _ _ _ _ _
    exact wp_pure ⟨by simp, Seg.nil, fun i hi => by simp at hi, fun k _ _ => rfl, fun i _ j _ _ => rfl, rfl, rfl⟩
  | cons x chain ih =>
    intro dst s hnd hn hd hc hr
    have hlen : (x :: chain).length * g = chain.length * g + g := by
      rw [List.length_cons, Nat.succ_mul]
    rw [hlen] at hr ⊢
    have hx := grp_below g (hn x (by simp))
    rw [mergeInsertionGather]
    apply wp_bind
    refine wp_mono (uninitMove_spec (x := v) g (f + x * g) (f + x * g + g) dst s rfl (fun k h1 h2 => ?_)
      (fun k h1 h2 => hr k h1 (by omega))) ?_
    · have := hc x (by simp) (k - (f + x * g)) (by omega)
      rwa [show f + x * g + (k - (f + x * g)) = k by omega] at this
    rintro r s1 ⟨rfl, a1, a2, a3, a4, a5, -⟩
    have hne : ∀ i, i ≠ x → ∀ j, j < g → f + i * g + j < f + x * g ∨ f + x * g + g ≤ f + i * g + j := by
      intro i hi j hj
      rcases Nat.lt_or_ge i x with h | h
      · have := grp_below g h; omega
      · have := grp_below g (show x < i by omega); omega
    have hnx : ∀ i, i ∈ chain → i ≠ x := fun i hi e => by
      rw [List.nodup_cons] at hnd
      exact hnd.1 (e ▸ hi)
    refine wp_mono (ih (dst + g) s1 (List.nodup_cons.1 hnd).2 (fun i hi => hn i (by simp [hi])) (by omega)
      (fun i hi j hj => ?_) (fun k h1 h2 => ?_)) ?_
    · have := grp_below g (hn i (by simp [hi]))
      rw [a3 _ (hne i (hnx i hi) j hj) (by omega)]
      exact hc i (by simp [hi]) j hj
    · rw [a3 k (by omega) (by omega)]
      exact hr k (by omega) (by omega)
    rintro r s2 ⟨b1, b2, b3, b4, b5, b6, b7⟩
    refine ⟨by omega, ?_, ?_, ?_, ?_, b6.trans a4, by omega⟩
    · rw [List.map_cons, List.flatten_cons, seg_append, grp_length]
      refine ⟨?_, b2⟩
      intro j hj
      rw [grp_length] at hj
      rw [b4 (dst + j) (by omega) (by omega), a2 (dst + j) (by omega) (by omega)]
      simp [grp]
    · intro i hi j hj
      rcases List.mem_cons.1 hi with e | hi
      · subst e
        rw [b5 i (fun h => hnx i h rfl) j hj (by omega)]
        exact a1 _ (by omega) (by omega)
      · exact b3 i hi j hj
    · intro k h1 h2
      rw [b4 k h1 (by omega), a3 k (by omega) (by omega)]
    · intro i hi j hj h
      rw [List.mem_cons, not_or] at hi
      rw [b5 i hi.2 j hj (by omega), a3 _ (hne i hi.1 j hj) (by omega)]

theorem mergeInsertionMove_spec [Inhabited α] {f g n : Nat} {v : Nat → α} {chain : List Nat} {s : St α} (hg : 0 < g)
    (hn : 0 < n) (hp : chain.Perm (List.range n)) (hw : s.WF) (hh : Holds s.cell f (f + n * g) v) :
    wp (mergeInsertionMove f g n chain) (fun _ s' => ∃ v', Holds s'.cell f (f + n * g) v' ∧
      grps v' f g n = chain.map (grp v f g) ∧
      (∀ i, (i < f ∨ f + n * g ≤ i) → s'.cell i = s.cell i) ∧ s'.WF ∧ s'.cmps = s.cmps) s := by
  have hng : 0 < n * g := Nat.mul_pos hn hg
  have hb : ∀ i, f ≤ i → i < f + n * g → i < s.brk := fun i h1 h2 => holds_brk hw hh h1 h2
  have hbrk := hb (f + n * g - 1) (by omega) (by omega)
  have hlen : chain.length = n := by rw [hp.length_eq, List.length_range]
  have hmem : ∀ i, i ∈ chain ↔ i < n := fun i => by rw [hp.mem_iff, List.mem_range]
  unfold mergeInsertionMove
  apply wp_bind
  refine wp_alloc fun s1 a1 a2 a3 a4 a5 a6 => ?_
  apply wp_bind
  refine wp_mono (mergeInsertionGather_spec (v := v) (n := n) chain s.brk s1 (hp.nodup_iff.2 List.nodup_range)
    (fun i hi => (hmem i).1 hi) (by omega) (fun i hi j hj => ?_) (fun k h1 h2 => a1 k h1 (by rwa [hlen] at h2))) ?_
  · have := grp_below g ((hmem i).1 hi)
    rw [a2 _ (by omega)]
    exact hh _ (by omega) (by omega)
  rintro r s2 ⟨rfl, b1, b2, b3, -, b5, b6⟩
  rw [hlen] at b3 ⊢
  have hL : ((chain.map (grp v f g)).flatten).length = n * g := by
    rw [List.length_flatten, List.map_map]
    rw [show (List.length ∘ grp v f g) = fun _ => g from funext fun i => grp_length]
    simp [hlen]
  obtain ⟨y, c1, c2⟩ := b1.holds
  rw [hL] at c1 c2
  have hm : ∀ k, f ≤ k → k < f + n * g → s2.cell k = .moved := fun k h1 h2 => by
    have h3 := Nat.div_add_mod (k - f) g
    have h4 := Nat.mod_lt (k - f) hg
    have h5 : (k - f) / g < n := Nat.div_lt_of_lt_mul (by rw [Nat.mul_comm]; omega)
    have := b2 _ ((hmem _).2 h5) _ h4
    rw [Nat.mul_comm] at h3
    rwa [show f + (k - f) / g * g + (k - f) % g = k by omega] at this
  apply wp_bind
  generalize hN : n * g = N at *
  refine wp_mono (moveRange_spec (d1 := id) (d2 := id) (D := fun k => f + (k - s.brk)) (x := y) N s.brk
    (s.brk + N) f s2 rfl (fun k _ _ => rfl) (fun k h1 h2 => c1 k h1 h2)
    (fun k h1 h2 => .inl (hm _ (by omega) (by omega))) (fun j k h1 h2 h3 => by simp; omega)
    (fun j k h1 h2 h3 => by omega) (fun j k h1 h2 h3 => by simp; omega)) ?_
  rintro r4 s4 ⟨-, e1, e2, e3, e4, e5, -⟩
  have hbuf : ∀ k, s.brk ≤ k → k < s.brk + N → s4.cell k = .moved := fun k h1 h2 => by
    refine e2 k h1 h2 fun j h3 h4 => ?_
    simp; omega
  apply wp_bind
  rw [show s.brk + N - s.brk = N by omega]
  refine wp_mono (destroyN_spec N s.brk s4 fun k h1 h2 => .inl (hbuf k h1 h2)) ?_
  rintro _ s5 ⟨g1, g2, g3, g4, -⟩
  refine wp_free g1 fun s6 i1 i2 i3 i4 i5 => ?_
  have hval : ∀ i, i < N → s6.cell (f + i) = .val (y (s.brk + i)) := by
    intro i hi
    rw [i2 _ (by omega), g2 _ (by omega)]
    have := e1 (s.brk + i) (by omega) (by omega)
    rwa [show s.brk + i - s.brk = i by omega] at this
  have hbr : s6.brk = s.brk + N := by
    have h1 := congrArg Prod.fst i3
    have h2 := congrArg Prod.fst g3
    have h3 := congrArg Prod.fst e4
    have h4 := congrArg Prod.fst b5
    exact h1.trans (h2.trans (h3.trans (h4.trans a3)))
  have hout : ∀ i, (i < f ∨ f + N ≤ i) → s6.cell i = s.cell i := by
    intro i hi
    by_cases hbi : s.brk ≤ i ∧ i < s.brk + N
    · rw [i1 i hbi.1 hbi.2, hw i hbi.1]
    · rw [i2 i (by omega), g2 i (by omega), e3 i (fun j h1 h2 => by simp; omega) (fun j h1 h2 => by simp; omega),
        b3 i hi (by omega), a2 i (by omega)]
  refine ⟨fun i => y (s.brk + (i - f)), fun i h1 h2 => ?_, ?_, hout, fun i hi => ?_, by omega⟩
  · have := hval (i - f) (by omega)
    rwa [show f + (i - f) = i by omega] at this
  · refine flatten_inj (g := g) ?_ ?_ (by simp [grps, hlen]) ?_
    · intro x hx
      simp only [grps, List.mem_map] at hx
      obtain ⟨i, -, rfl⟩ := hx
      exact grp_length
    · intro x hx
      rw [List.mem_map] at hx
      obtain ⟨i, -, rfl⟩ := hx
      exact grp_length
    · rw [grps_flatten, hN, ← c2]
      apply List.ext_getElem
      · simp
      · intro i h1 h2
        rw [lst_length] at h1
        simp only [lst, List.getElem_map, List.getElem_range']
        congr 1
        omega
  · rw [hout i (by omega)]
    exact hw i (by omega)

/-! ### The sort -/

/-- A bound of the number of comparisons made to sort `n` elements (`fuel` is at least `n`). -/
def mergeInsertionCost : Nat → Nat → Nat
  | 0, _ => 0
  | fuel + 1, n =>
    if n < 2 then 0
    else n / 2 + mergeInsertionCost fuel (n / 2) +
      insertCost ((n + 1) / 2 - 1) ((n + 1) / 2 - 1 + 1) 0 1 0 2

theorem lastOf_even {v : Nat → α} {f g k : Nat} : lastOf v f g (2 * k) = v (f + k * (2 * g) + (g - 1)) := by
  unfold lastOf
  rw [Nat.mul_comm 2 k, Nat.mul_assoc]

theorem lastOf_odd {v : Nat → α} {f g k : Nat} (hg : 0 < g) :
    lastOf v f g (2 * k + 1) = v (f + k * (2 * g) + (2 * g - 1)) := by
  unfold lastOf
  rw [Nat.mul_comm 2 k, Nat.add_mul, Nat.mul_assoc]
  congr 1
  omega

theorem idxOf_le_of_getElem? {a : Nat} : ∀ {l : List Nat} {k : Nat}, l[k]? = some a → l.idxOf a ≤ k := by
  intro l
  induction l with
  | nil => intro k h; simp at h
  | cons x l ih =>
    intro k h
    rw [List.idxOf_cons]
    cases k with
    | zero =>
      simp only [List.getElem?_cons_zero, Option.some.injEq] at h
      simp [h]
    | succ k =>
      rw [List.getElem?_cons_succ] at h
      have := ih h
      cases x == a
      · simpa using this
      · simp

theorem chain_init {key : Nat → α} (hlt : StrictWeak lt) {n h : Nat} {stray : Bool} (hh : 0 < h)
    (hn : n = 2 * h + (if stray then 1 else 0))
    (hp : ∀ k, k < h → lt (key (2 * k + 1)) (key (2 * k)) = false)
    (hs : ∀ i j, i < j → j < h → lt (key (2 * j + 1)) (key (2 * i + 1)) = false) :
    ChainInv lt key n (mergeInsertionPend h stray) (mergeInsertionChain h) 0 := by
  have h2 : 2 * h ≤ n := by omega
  refine ⟨?_, ?_, ?_⟩
  · unfold mergeInsertionChain
    rw [List.pairwise_cons, List.pairwise_map]
    refine ⟨fun x hx => ?_, ?_⟩
    · simp only [List.mem_map, List.mem_range] at hx
      obtain ⟨k, hk, rfl⟩ := hx
      by_cases e : k = 0
      · subst e; exact hp 0 hh
      · exact hlt.le_trans (hp 0 hh) (hs 0 k (by omega) hk)
    · rw [List.pairwise_iff_getElem]
      intro i j h1 h3 h4
      rw [List.length_range] at h3
      simp only [List.getElem_range]
      exact hs i j h4 h3
  · intro x hx
    simp only [mergeInsertionChain, List.mem_cons, List.mem_map, List.mem_range] at hx
    rcases hx with e | ⟨k, hk, rfl⟩ <;> omega
  · intro j hj
    have hlen : (mergeInsertionPend h stray).length = h - 1 + (if stray then 1 else 0) := by
      unfold mergeInsertionPend
      cases stray <;> simp
    rw [hlen] at hj
    by_cases hjh : j < h - 1
    · refine ⟨by omega, some (2 * j + 3), ?_, ?_, ?_⟩
      · unfold mergeInsertionPend
        rw [List.getElem?_append_left (by simpa using hjh), List.getElem?_map, List.getElem?_range hjh]
        rfl
      · show (mergeInsertionChain h).idxOf (2 * j + 3) ≤ j + 2 + 0
        apply idxOf_le_of_getElem?
        unfold mergeInsertionChain
        rw [show j + 2 + 0 = (j + 1) + 1 by omega, List.getElem?_cons_succ, List.getElem?_map,
          List.getElem?_range (by omega)]
        rfl
      · intro a ha
        cases ha
        refine ⟨?_, hp (j + 1) (by omega)⟩
        simp only [mergeInsertionChain, List.mem_cons, List.mem_map, List.mem_range]
        exact Or.inr ⟨j + 1, by omega, by omega⟩
    · cases stray with
      | false => simp at hj; omega
      | true =>
        simp only [if_true] at hj hn
        refine ⟨by omega, none, ?_, ?_, fun a ha => by cases ha⟩
        · unfold mergeInsertionPend
          rw [List.getElem?_append_right (by simp; omega)]
          simp only [List.length_map, List.length_range, if_true]
          rw [show j - (h - 1) = 0 by omega]
          rfl
        · show (mergeInsertionChain h).length ≤ _
          simp [mergeInsertionChain]
          omega

theorem chain_all {n h : Nat} {stray : Bool} (hh : 0 < h) (hn : n = 2 * h + (if stray then 1 else 0)) :
    (items 0 (mergeInsertionPend h stray).length ++ mergeInsertionChain h).Perm (List.range n) := by
  have hlen : (mergeInsertionPend h stray).length = h - 1 + (if stray then 1 else 0) := by
    unfold mergeInsertionPend
    cases stray <;> simp
  rw [hlen]
  generalize hq : (if stray then 1 else 0 : Nat) = q at *
  have hq2 : q ≤ 1 := by rw [← hq]; split <;> omega
  have hi : ∀ x, x ∈ items 0 (h - 1 + q) ↔ ∃ j, j < h - 1 + q ∧ 2 * j + 2 = x := by
    intro x
    simp [items, List.mem_range'_1]
  have hm : ∀ x, x ∈ mergeInsertionChain h ↔ x = 0 ∨ ∃ k, k < h ∧ 2 * k + 1 = x := by
    intro x
    simp [mergeInsertionChain]
  apply (List.perm_ext_iff_of_nodup ?_ List.nodup_range).2
  · intro x
    rw [List.mem_append, hi, hm, List.mem_range]
    constructor
    · rintro (⟨j, h1, rfl⟩ | rfl | ⟨k, h1, rfl⟩) <;> omega
    · intro hx
      rcases Nat.mod_two_eq_zero_or_one x with e | e
      · by_cases e0 : x = 0
        · exact Or.inr (Or.inl e0)
        · exact Or.inl ⟨x / 2 - 1, by omega, by omega⟩
      · exact Or.inr (Or.inr ⟨x / 2, by omega, by omega⟩)
  · rw [List.nodup_append]
    refine ⟨?_, ?_, ?_⟩
    · unfold items
      refine List.Nodup.map (fun a b (e : 2 * a + 2 = 2 * b + 2) => ?_) List.nodup_range'
      omega
    · unfold mergeInsertionChain
      rw [List.nodup_cons]
      refine ⟨by simp, List.Nodup.map (fun a b (e : 2 * a + 1 = 2 * b + 1) => ?_) List.nodup_range⟩
      omega
    · intro a ha b hb e
      subst e
      obtain ⟨j, -, rfl⟩ := (hi a).1 ha
      rcases (hm _).1 hb with e | ⟨k, -, e⟩ <;> omega

theorem mergeInsertionImpl_spec [Inhabited α] (hlt : StrictWeak lt) : ∀ (fuel n f g : Nat) (v : Nat → α)
    (s : St α), n ≤ fuel → 0 < g → s.WF → Holds s.cell f (f + n * g) v →
    wp (mergeInsertionImpl (tick lt) f g n) (fun _ s' => ∃ v', Holds s'.cell f (f + n * g) v' ∧
      (grps v' f g n).Perm (grps v f g n) ∧
      (∀ i j, i < j → j < n → lt (lastOf v' f g j) (lastOf v' f g i) = false) ∧
      (∀ i, (i < f ∨ f + n * g ≤ i) → s'.cell i = s.cell i) ∧ s'.WF ∧
      s'.cmps ≤ s.cmps + mergeInsertionCost fuel n) s := by
  intro fuel
  induction fuel with
  | zero =>
    intro n f g v s hn hg hw hh
    rw [mergeInsertionImpl, if_pos (by omega)]
    exact wp_pure ⟨v, hh, List.Perm.refl _, fun i j h1 h2 => by omega, fun _ _ => rfl, hw, by omega⟩
  | succ fuel ih =>
    intro n f g v s hn hg hw hh
    rw [mergeInsertionImpl, mergeInsertionCost]
    by_cases h2 : n < 2
    · rw [if_pos h2, if_pos h2]
      exact wp_pure ⟨v, hh, List.Perm.refl _, fun i j h1 h2 => by omega, fun _ _ => rfl, hw, by omega⟩
    rw [if_neg h2, if_neg h2]
    dsimp only
    obtain ⟨h, hh0⟩ : ∃ h, h = n / 2 := ⟨_, rfl⟩
    have hstop : (if n % 2 ≠ 0 then n - 1 else n) = 2 * h := by split <;> omega
    rw [hstop, show 2 * h / 2 = h by omega, ← hh0]
    obtain ⟨stray, hst⟩ : ∃ b, b = decide (n % 2 ≠ 0) := ⟨_, rfl⟩
    rw [← hst]
    have hnq : n = 2 * h + (if stray then 1 else 0) := by
      rw [hst]
      by_cases e : n % 2 ≠ 0
      · rw [decide_eq_true e]; simp; omega
      · rw [decide_eq_false e]; simp; omega
    apply wp_bind
    have hpairs := mergeInsertionPairs_spec (n := n) hlt hg h 0 v s (by omega) hh
    rw [Nat.zero_add] at hpairs
    refine wp_mono hpairs ?_
    rintro _ s1 ⟨v1, a1, a2, a3, -, a5⟩
    have hw1 := a1.wf hh hw
    have hh1 := a1.holds
    have hmul : h * (2 * g) = 2 * h * g := by rw [Nat.mul_comm 2 h, Nat.mul_assoc]
    have hmul2 : n * g = 2 * h * g + (if stray then g else 0) := by
      rw [hnq, Nat.add_mul]; cases stray <;> simp
    apply wp_bind
    refine wp_mono (ih h f (2 * g) v1 s1 (by omega) (by omega) hw1
      (fun i b1 b2 => hh1 i b1 (by omega))) ?_
    rintro _ s2 ⟨v2', b1, b2, b3, b4, b5, b6⟩
    obtain ⟨v2, hv2⟩ : ∃ v2 : Nat → α, v2 = fun i => if i < f + h * (2 * g) then v2' i else v1 i := ⟨_, rfl⟩
    have hlow : ∀ i, i < f + h * (2 * g) → v2 i = v2' i := fun i hi => by rw [hv2]; exact if_pos hi
    have hhigh : ∀ i, f + h * (2 * g) ≤ i → v2 i = v1 i := fun i hi => by
      rw [hv2]; exact if_neg (by omega)
    have hh2 : Holds s2.cell f (f + n * g) v2 := by
      intro i c1 c2
      by_cases e : i < f + h * (2 * g)
      · rw [hlow i e]; exact b1 i c1 e
      · rw [hhigh i (by omega), b4 i (by omega)]; exact hh1 i c1 c2
    have hg2 : ∀ k, k < h → grp v2 f (2 * g) k = grp v2' f (2 * g) k := by
      intro k hk
      refine List.map_congr_left fun j hj => hlow _ ?_
      have := grp_below (2 * g) hk
      have := List.mem_range.1 hj
      omega
    have hgs : (grps v2 f (2 * g) h).Perm (grps v1 f (2 * g) h) := by
      have : grps v2 f (2 * g) h = grps v2' f (2 * g) h :=
        List.map_congr_left fun k hk => hg2 k (List.mem_range.1 hk)
      rw [this]; exact b2
    have hperm12 : (grps v2 f g n).Perm (grps v1 f g n) := by
      have hd : (grps v2 f g (2 * h)).Perm (grps v1 f g (2 * h)) := by
        rw [grps_double, grps_double]
        exact hgs.flatMap_right _
      rw [hnq]
      cases hs : stray with
      | false => simpa using hd
      | true =>
        simp only [if_true]
        unfold grps at hd ⊢
        rw [List.range_succ, List.map_append, List.map_append]
        have : grp v2 f g (2 * h) = grp v1 f g (2 * h) :=
          List.map_congr_left fun j _ => hhigh _ (by omega)
        rw [List.map_cons, List.map_cons, this]
        exact hd.append_right _
    have hpair : ∀ k, k < h → lt (lastOf v2 f g (2 * k + 1)) (lastOf v2 f g (2 * k)) = false := by
      intro k hk
      have hmem : grp v2 f (2 * g) k ∈ grps v1 f (2 * g) h :=
        hgs.mem_iff.1 (List.mem_map.2 ⟨k, List.mem_range.2 hk, rfl⟩)
      obtain ⟨k', hk', e⟩ := List.mem_map.1 hmem
      have hk' := List.mem_range.1 hk'
      rw [lastOf_even, lastOf_odd hg, grp_at e.symm (show g - 1 < 2 * g by omega),
        grp_at e.symm (show 2 * g - 1 < 2 * g by omega), ← lastOf_even (v := v1), ← lastOf_odd (v := v1) hg]
      have := a3 k' hk'
      rwa [Nat.zero_add] at this
    have hsort : ∀ i j, i < j → j < h → lt (lastOf v2 f g (2 * j + 1)) (lastOf v2 f g (2 * i + 1)) = false := by
      intro i j hij hj
      rw [lastOf_odd hg, lastOf_odd hg, grp_at (hg2 j hj) (show 2 * g - 1 < 2 * g by omega),
        grp_at (hg2 i (by omega)) (show 2 * g - 1 < 2 * g by omega)]
      exact b3 i j hij hj
    have hinit := chain_init (stray := stray) hlt (by omega) hnq hpair hsort
    have hplen : (mergeInsertionPend h stray).length = (n + 1) / 2 - 1 := by
      unfold mergeInsertionPend
      cases hs : stray with
      | false => rw [hs] at hnq; simp at hnq ⊢; omega
      | true => rw [hs] at hnq; simp at hnq ⊢; omega
    apply wp_bind
    refine wp_mono (mergeInsertionCycles_spec hlt hg ((mergeInsertionPend h stray).length + 1) _ 0 0 1 0 2 s2 hinit
      (by omega) (by omega) rfl (by omega) (by omega) (by omega) hh2) ?_
    rintro ⟨chain, cp, ci⟩ s3 ⟨-, c2, c3, c4, c5, k, rfl, c6⟩
    dsimp only at c2 c3 c4 c5 c6 ⊢
    apply wp_bind
    refine wp_mono (mergeInsertionRest_spec hlt hg ((mergeInsertionPend h stray).length - cp) chain cp ci _ c5
      (by omega) c3 hh2) ?_
    rintro chain' s3 ⟨d1, d2, m, rfl, d3⟩
    have hall : chain'.Perm (List.range n) := by
      refine (d1.trans (List.Perm.append_left _ c4)).trans (List.Perm.trans ?_ (chain_all (stray := stray) (by omega) hnq))
      rw [← List.append_assoc, ← items_append (Nat.zero_le cp) c2]
      exact List.Perm.append_right _ List.perm_append_comm
    refine wp_mono (mergeInsertionMove_spec hg (by omega) hall b5 hh2) ?_
    rintro _ s4 ⟨v3, e1, e2, e3, e4, e5⟩
    refine ⟨v3, e1, ?_, ?_, fun i hi => ?_, e4, ?_⟩
    · rw [e2]
      exact ((hall.map _).trans hperm12).trans a2
    · intro i j hij hj
      have hlen : chain'.length = n := by rw [hall.length_eq, List.length_range]
      have hat : ∀ k (hk : k < n), lastOf v3 f g k = lastOf v2 f g (chain'[k]'(by omega)) := by
        intro k hk
        have h1 : (grps v3 f g n)[k]? = (chain'.map (grp v2 f g))[k]? := by rw [e2]
        unfold grps at h1
        rw [List.getElem?_map, List.getElem?_map, List.getElem?_range hk,
          List.getElem?_eq_getElem (show k < chain'.length by omega)] at h1
        exact grp_at (Option.some.inj h1) (by omega)
      rw [hat j hj, hat i (by omega)]
      exact List.pairwise_iff_getElem.1 d2.sorted i j (by omega) (by omega) hij
    · rw [e3 i hi, b4 i (by omega), a1.frame.cell i hi]
    · simp only at d3 e5 c6
      rw [hplen] at d3 c6
      omega

theorem mergeInsertionSort_spec [Inhabited α] (hlt : StrictWeak lt) (f l : Nat) (v : Nat → α) (s : St α)
    (hfl : f ≤ l) (hw : s.WF) (hh : Holds s.cell f l v) :
    wp (mergeInsertionSort (tick lt) f l) (fun _ s' => ∃ v', Holds s'.cell f l v' ∧
      (lst v' f l).Perm (lst v f l) ∧ SortedOn lt f l v' ∧
      (∀ i, (i < f ∨ l ≤ i) → s'.cell i = s.cell i) ∧ s'.WF ∧
      s'.cmps ≤ s.cmps + mergeInsertionCost (l - f) (l - f)) s := by
  unfold mergeInsertionSort
  by_cases h : l - f < 2
  · rw [if_pos h]
    exact wp_pure ⟨v, hh, List.Perm.refl _, SortedOn.trivial (by omega), fun _ _ => rfl, hw, by omega⟩
  · rw [if_neg h]
    have e : f + (l - f) * 1 = l := by omega
    have := mergeInsertionImpl_spec hlt (l - f) (l - f) f 1 v s (Nat.le_refl _) (by omega) hw (by rw [e]; exact hh)
    rw [e] at this
    refine wp_mono this ?_
    rintro _ s' ⟨v', a1, a2, a3, a4, a5, a6⟩
    refine ⟨v', a1, ?_, ?_, a4, a5, a6⟩
    · have := a2.flatten
      rwa [grps_flatten, grps_flatten, e] at this
    · intro i j h1 h2 h3
      have := a3 (i - f) (j - f) (by omega) (by omega)
      unfold lastOf at this
      rwa [show f + (j - f) * 1 + (1 - 1) = j by omega, show f + (i - f) * 1 + (1 - 1) = i by omega] at this

theorem mergeInsertionSort_sorts [Inhabited α] (hlt : StrictWeak lt) : Sorts lt (mergeInsertionSort (tick lt)) := by
  intro s f xs hw hs
  obtain ⟨v, hh, hv⟩ := hs.holds
  obtain ⟨_, s', hr, v', a1, a2, a3, a4, a5, -⟩ :=
    mergeInsertionSort_spec hlt f (f + xs.length) v s (by omega) hw hh
  refine ⟨s', lst v' f (f + xs.length), hr, by simp, a1.seg, ⟨?_, ?_⟩, a4, a5⟩
  · rwa [hv] at a2
  · exact sortedOn_iff.1 a3

/-! ### The number of comparisons -/

theorem restCost_le {p m : Nat} (hm : ∀ j, j < p → Nat.size (2 * j + 2) ≤ m) : ∀ (d a : Nat), a + d = p →
    restCost p a ≤ d * m := by
  intro d
  induction d with
  | zero =>
    intro a h
    unfold restCost
    rw [show p - a = 0 by omega]
    simp
  | succ d ih =>
    intro a h
    have h1 := ih (a + 1) (by omega)
    have h2 := hm a (by omega)
    unfold restCost at h1 ⊢
    rw [show p - a = (p - (a + 1)) + 1 by omega, List.range'_succ, List.map_cons, List.sum_cons, Nat.succ_mul d,
      Nat.add_comm (d * m)]
    exact Nat.add_le_add h2 h1

theorem insertCost_le {p m : Nat} (hm : Nat.size (2 * p + 1) ≤ m) : ∀ (fuel a pow2 jn dist : Nat), a ≤ p →
    insertCost p fuel a pow2 jn dist ≤ (p - a) * m := by
  have hr : ∀ a, a ≤ p → restCost p a ≤ (p - a) * m := fun a ha =>
    restCost_le (fun j hj => Nat.le_trans (Nat.size_le_size (by omega)) hm) (p - a) a (by omega)
  intro fuel
  induction fuel with
  | zero => intro a _ _ _ ha; exact hr a ha
  | succ fuel ih =>
    intro a pow2 jn dist ha
    rw [insertCost]
    split
    · rename_i hd
      have h1 := ih (a + dist) (pow2 * 2) (pow2 * 2 - jn) (2 * (pow2 * 2 - jn)) (by omega)
      have h2 : Nat.size (2 * a + dist + 1) ≤ m := Nat.le_trans (Nat.size_le_size (by omega)) hm
      have h3 := Nat.mul_le_mul_left dist h2
      rw [show p - a = dist + (p - (a + dist)) by omega, Nat.add_mul]
      omega
    · exact hr a ha

theorem mergeInsertionCost_le : ∀ (fuel n : Nat), mergeInsertionCost fuel n ≤ n * Nat.size n := by
  intro fuel
  induction fuel with
  | zero => intro n; exact Nat.zero_le _
  | succ fuel ih =>
    intro n
    rw [mergeInsertionCost]
    split
    · exact Nat.zero_le _
    · rename_i hn
      have h1 := ih (n / 2)
      have h2 := insertCost_le (p := (n + 1) / 2 - 1) (m := Nat.size n) (Nat.size_le_size (by omega))
        ((n + 1) / 2 - 1 + 1) 0 1 0 2 (by omega)
      have h3 : Nat.size (n / 2) + 1 ≤ Nat.size n := by
        have h3 : 0 < Nat.size (n / 2) := Nat.size_pos.2 (by omega)
        have h4 := Nat.lt_size.1 (show Nat.size (n / 2) - 1 < Nat.size (n / 2) by omega)
        refine Nat.lt_size.2 ?_
        rw [show Nat.size (n / 2) = Nat.size (n / 2) - 1 + 1 by omega, Nat.pow_succ]
        omega
      have h4 := Nat.mul_le_mul_left (n / 2) h3
      rw [Nat.mul_succ] at h4
      have h5 := Nat.mul_le_mul_right (Nat.size n) (show (n + 1) / 2 - 1 - 0 ≤ n / 2 by omega)
      have h6 := Nat.mul_le_mul_right (Nat.size n) (show n / 2 + n / 2 ≤ n by omega)
      rw [Nat.add_mul] at h6
      omega

end CppSort
