import Verif.Proof.Median
import Verif.Model.FuelQuick
import Verif.Props.Demo
/-
C95: `detail::nth_element` puts at position `nth` the element that would be there in the sorted range.
C96: the median of five, the median of the rest, the median of medians.
-/
set_option autoImplicit false

namespace CppSort
variable {α : Type} {lt : α → α → Bool}

/-- `m`, run on a memory holding `xs` at `first`, returns the position of some element, say the `k`-th; the range then
holds a permutation of `xs` related to `k` by `R`; the rest of the memory is as before. -/
def Picks (m : M α Nat) (s : St α) (first : Nat) (xs : List α) (R : Nat → List α → Prop) : Prop :=
  ∃ s' ys k, m s = some (.ok (first + k), s') ∧ k < xs.length ∧ ys.Perm xs ∧ Seg s'.cell first ys ∧ R k ys ∧
    (∀ i, i < first ∨ first + xs.length ≤ i → s'.cell i = s.cell i) ∧ s'.WF

/-- The element at position `k` is where a sort may put it: nothing before it is greater, nothing after is less. -/
def NthPlaced (lt : α → α → Bool) (k : Nat) (ys : List α) : Prop :=
  ∃ x, ys[k]? = some x ∧ (∀ y ∈ ys.take k, lt x y = false) ∧ ∀ y ∈ ys.drop (k + 1), lt y x = false

/-- Nothing before position `k` is greater than anything from there on. -/
def NthCut (lt : α → α → Bool) (k : Nat) (ys : List α) : Prop :=
  ∀ x ∈ ys.take k, ∀ y ∈ ys.drop k, lt y x = false

/-- The element at position `k` is a median. -/
def MedianAt (lt : α → α → Bool) (k : Nat) (ys : List α) : Prop :=
  ∃ x, ys[k]? = some x ∧ MedianOf lt x ys

theorem mem_lst_take {v : Nat → α} {f n k : Nat} {x : α} (h : x ∈ (lst v f (f + n)).take k) :
    ∃ i, i < n ∧ i < k ∧ x = v (f + i) := by
  obtain ⟨i, hi, e⟩ := List.mem_iff_getElem.1 h
  simp only [List.length_take, lst_length] at hi
  refine ⟨i, by omega, by omega, ?_⟩
  rw [← e]
  simp [lst]

theorem mem_lst_drop {v : Nat → α} {f n k : Nat} {x : α} (h : x ∈ (lst v f (f + n)).drop k) :
    ∃ i, k ≤ i ∧ i < n ∧ x = v (f + i) := by
  obtain ⟨i, hi, e⟩ := List.mem_iff_getElem.1 h
  simp only [List.length_drop, lst_length] at hi
  refine ⟨k + i, by omega, by omega, ?_⟩
  rw [← e]
  simp [lst]

theorem lst_getElem? {v : Nat → α} {f n k : Nat} (h : k < n) : (lst v f (f + n))[k]? = some (v (f + k)) := by
  rw [List.getElem?_eq_getElem (by simpa using h)]
  simp [lst]

theorem Piv.placed {f n k : Nat} {v : Nat → α} {x : α} (h : Piv lt f (f + k) (f + n) v x) :
    NthPlaced lt k (lst v f (f + n)) := by
  have := h.hi
  refine ⟨v (f + k), lst_getElem? (by omega), fun y hy => ?_, fun y hy => ?_⟩
  · obtain ⟨i, h1, h2, rfl⟩ := mem_lst_take hy
    rw [h.at_]
    exact h.left _ (by omega) (by omega)
  · obtain ⟨i, h1, h2, rfl⟩ := mem_lst_drop hy
    rw [h.at_]
    exact h.right _ (by omega) (by omega)

theorem picks_of_wp {m : M α Nat} {s : St α} {first : Nat} {xs : List α} {R : Nat → List α → Prop} (hw : s.WF)
    (hs : Seg s.cell first xs) (hx : 0 < xs.length)
    (h : ∀ v, Holds s.cell first (first + xs.length) v → wp m (fun r s' => ∃ k v', r = first + k ∧ k < xs.length ∧
      Upd first (first + xs.length) s s' v v' ∧ R k (lst v' first (first + xs.length))) s) :
    Picks m s first xs R := by
  haveI : Inhabited α := ⟨xs[0]⟩
  obtain ⟨v, hv, he⟩ := hs.holds
  obtain ⟨_, s', hr, k, v', rfl, hk, hu, hR⟩ := h v hv
  refine ⟨s', lst v' first (first + xs.length), k, hr, hk, ?_, hu.holds.seg, hR, hu.frame.cell, hu.wf hv hw⟩
  have := hu.perm.2
  rwa [he] at this

/-! ### C95 -/

/-- C95, random-access iterators (adaptive_quickselect.h 472-481): the element at `nth` is where a sort may put it. -/
theorem C95_nth_element_random (hlt : StrictWeak lt) (s : St α) (first : Nat) (xs : List α) (nth : Nat) (hw : s.WF)
    (hs : Seg s.cell first xs) (hn : nth < xs.length) :
    Picks (nthElement (tick lt) .random first (first + xs.length) nth xs.length) s first xs
      (fun k ys => k = nth ∧ NthPlaced lt nth ys) := by
  refine picks_of_wp hw hs (by omega) fun v hv => ?_
  simp only [nthElement, medianOfNinthersSelect]
  rw [if_pos (by omega)]
  apply wp_bind
  have := adaptiveQuickselect_spec hlt (r := first) (n := nth) (len := xs.length) (s := s) (v := v) hn hv
  rw [show first + nth - first = nth by omega, show first + xs.length - first = xs.length by omega]
  refine wp_mono this ?_
  rintro _ s' ⟨v', x, u, p⟩
  exact wp_pure ⟨nth, v', rfl, hn, u, rfl, p.placed⟩

example : Picks (nthElement (tick Demo.byFst) .random 7 (7 + Demo.pairs.length) 2 Demo.pairs.length)
    (Demo.mem 7 Demo.pairs) 7 Demo.pairs (fun k ys => k = 2 ∧ NthPlaced Demo.byFst 2 ys) :=
  C95_nth_element_random Demo.byFst_sw _ 7 Demo.pairs 2 (Demo.mem_wf _ _) (Demo.mem_seg _ _) (by decide)

/-- C95, any iterators, at most 32 elements. -/
theorem C95_nth_element_small (hlt : StrictWeak lt) (cat : Cat) (s : St α) (first : Nat) (xs : List α) (nth : Nat)
    (hw : s.WF) (hs : Seg s.cell first xs) (hn : nth < xs.length) (h32 : xs.length ≤ 32) :
    Picks (nthElement (tick lt) cat first (first + xs.length) nth xs.length) s first xs
      (fun k ys => k = nth ∧ NthPlaced lt nth ys) := by
  have e : first + xs.length - first = xs.length := by omega
  have key : ∀ cat, Picks (introselect (tick lt) cat first (first + xs.length) nth xs.length) s first xs
      (fun k ys => k = nth ∧ NthPlaced lt nth ys) := by
    intro cat
    refine picks_of_wp hw hs (by omega) fun v hv => ?_
    have := introselect_small hlt cat (f := first) (l := first + xs.length) (nth := nth) (by omega) (by omega) hv
    rw [e] at this
    refine wp_mono this ?_
    rintro _ s' ⟨rfl, v', u, p⟩
    exact ⟨nth, v', rfl, hn, u, rfl, p.placed⟩
  cases cat with
  | forward => exact key _
  | bidirectional => exact key _
  | random => exact C95_nth_element_random hlt s first xs nth hw hs hn

example : Picks (nthElement (tick Demo.byFst) .forward 7 (7 + Demo.pairs.length) 2 Demo.pairs.length)
    (Demo.mem 7 Demo.pairs) 7 Demo.pairs (fun k ys => k = 2 ∧ NthPlaced Demo.byFst 2 ys) :=
  C95_nth_element_small Demo.byFst_sw .forward _ 7 Demo.pairs 2 (Demo.mem_wf _ _) (Demo.mem_seg _ _) (by decide)
    (by decide)

/-- C95, any iterators, any number of elements: the range is cut at `nth`, but the element there need not be the least
of the second part (missing: see `C95_nth_element_false`). -/
theorem C95_nth_element_partial (hlt : StrictWeak lt) (cat : Cat) (s : St α) (first : Nat) (xs : List α) (nth : Nat)
    (hw : s.WF) (hs : Seg s.cell first xs) (hn : nth < xs.length) :
    Picks (nthElement (tick lt) cat first (first + xs.length) nth xs.length) s first xs
      (fun k ys => k = nth ∧ NthCut lt nth ys) := by
  refine picks_of_wp hw hs (by omega) fun v hv => ?_
  have := nthElement_spec hlt cat (f := first) (l := first + xs.length) (nth := nth) (by omega) hv
  rw [show first + xs.length - first = xs.length by omega] at this
  refine wp_mono this ?_
  rintro _ s' ⟨rfl, v', u, c⟩
  refine ⟨nth, v', rfl, hn, u, rfl, fun x hx y hy => ?_⟩
  obtain ⟨i, h1, h2, rfl⟩ := mem_lst_take hx
  obtain ⟨j, h3, h4, rfl⟩ := mem_lst_drop hy
  exact c _ _ (by omega) (by omega) (by omega) (by omega)

/-- Thirty-three numbers; the 31 and the 17 are exchanged. -/
def selectBad : List Nat := List.range 17 ++ [31] ++ List.range' 18 13 ++ [17, 32]

example : Picks (nthElement (tick Demo.natLt) .forward 0 (0 + selectBad.length) 17 selectBad.length)
    (Demo.mem 0 selectBad) 0 selectBad (fun k ys => k = 17 ∧ NthCut Demo.natLt 17 ys) :=
  C95_nth_element_partial Demo.natLt_sw .forward _ 0 selectBad 17 (Demo.mem_wf _ _) (Demo.mem_seg _ _) (by decide)

/-- Whether the run on `selectBad` leaves the 31 before the 17. -/
def selectWrong (cat : Cat) : Bool :=
  match introselectF (tick Demo.natLt) 40 cat 0 33 17 33 (Demo.mem 0 selectBad) with
  | some (.ok _, s) =>
    match s.cell 17, s.cell 31 with
    | .val x, .val y => Demo.natLt y x
    | _, _ => false
  | _ => false

/-- C95 is false of forward and of bidirectional iterators: when `nth_pos == size_left + size_middle`, introselect.h
307 takes the position to be in the middle part (`>` where `>=` is needed), and returns without looking into the
right part. -/
theorem C95_nth_element_false (cat : Cat) (hc : cat ≠ .random) :
    ¬ ∀ (xs : List Nat) (nth : Nat), nth < xs.length →
      Picks (nthElement (tick Demo.natLt) cat 0 (0 + xs.length) nth xs.length) (Demo.mem 0 xs) 0 xs
        (fun _ ys => NthPlaced Demo.natLt nth ys) := by
  intro h
  have hd : ∀ cat, cat ≠ Cat.random → selectWrong cat = true := by
    intro cat hc
    cases cat with
    | forward => decide +kernel
    | bidirectional => decide +kernel
    | random => exact absurd rfl hc
  obtain ⟨s', ys, k, h1, -, h2, h3, ⟨x, h4, -, h5⟩, -⟩ := h selectBad 17 (by decide)
  have hl : ys.length = 33 := by rw [h2.length_eq]; decide
  have e : nthElement (tick Demo.natLt) cat 0 (0 + selectBad.length) 17 selectBad.length =
      introselect (tick Demo.natLt) cat 0 33 17 33 := by
    cases cat with
    | forward => rfl
    | bidirectional => rfl
    | random => exact absurd rfl hc
  rw [e] at h1
  have hd := hd cat hc
  unfold selectWrong at hd
  split at hd
  · rename_i a s e1
    have e2 := introselectF_le (tick Demo.natLt) 40 cat 0 33 17 33 _ _ e1
    rw [h1] at e2
    injection e2 with e2
    injection e2 with _ e2
    subst e2
    have a1 := h3 17 (by omega)
    have a2 := h3 31 (by omega)
    simp only [Nat.zero_add] at a1 a2
    rw [a1, a2] at hd
    simp only at hd
    rw [List.getElem?_eq_getElem (by omega)] at h4
    injection h4 with h4
    rw [h4] at hd
    have := h5 ys[31] (List.mem_iff_getElem.2 ⟨13, by simp [hl], by simp⟩)
    rw [this] at hd
    cases hd
  · cases hd

/-! ### C96 -/

/-- C96, `iter_median_rest` on one to four elements (introselect.h 104-127): the element returned is a median. -/
theorem C96_iter_median_rest_partial (hlt : StrictWeak lt) (s : St α) (first : Nat) (xs : List α) (hw : s.WF)
    (hs : Seg s.cell first xs) (h0 : 0 < xs.length) (h4 : xs.length ≤ 4) :
    Picks (iterMedianRest (tick lt) first xs.length) s first xs (MedianAt lt) := by
  refine picks_of_wp hw hs h0 fun v hv => ?_
  refine wp_mono (iterMedianRest_spec hlt h0 h4 hv) ?_
  rintro r s' ⟨h1, h2, v', u, hm⟩
  obtain ⟨k, rfl⟩ : ∃ k, r = first + k := ⟨r - first, by omega⟩
  exact ⟨k, v', rfl, by omega, u, _, lst_getElem? (by omega), hm⟩

example : Picks (iterMedianRest (tick Demo.natLt) 7 4) (Demo.mem 7 [30, 10, 20, 40]) 7 [30, 10, 20, 40]
    (MedianAt Demo.natLt) :=
  C96_iter_median_rest_partial Demo.natLt_sw _ 7 [30, 10, 20, 40] (Demo.mem_wf _ _) (Demo.mem_seg _ _) (by decide)
    (by decide)

/-- C96, `iter_median_5`: the element returned is not less than at least three of the others. -/
theorem C96_iter_median_5_partial (hlt : StrictWeak lt) (s : St α) (first : Nat) (xs : List α) (hw : s.WF)
    (hs : Seg s.cell first xs) (h5 : xs.length = 5) :
    Picks (iterMedianRest (tick lt) first xs.length) s first xs
      (fun k ys => ∃ x, ys[k]? = some x ∧ 4 ≤ ys.countP (fun y => ! lt x y)) := by
  refine picks_of_wp hw hs (by omega) fun v hv => ?_
  rw [h5] at hv ⊢
  refine wp_mono (iterMedian5_spec hlt hv) ?_
  rintro r s' ⟨h1, h2, v', u, hm⟩
  obtain ⟨k, rfl⟩ : ∃ k, r = first + k := ⟨r - first, by omega⟩
  exact ⟨k, v', rfl, by omega, u, _, lst_getElem? (by omega), hm⟩

example : Picks (iterMedianRest (tick Demo.byFst) 7 Demo.pairs.length) (Demo.mem 7 Demo.pairs) 7 Demo.pairs
    (fun k ys => ∃ x, ys[k]? = some x ∧ 4 ≤ ys.countP (fun y => ! Demo.byFst x y)) :=
  C96_iter_median_5_partial Demo.byFst_sw _ 7 Demo.pairs (Demo.mem_wf _ _) (Demo.mem_seg _ _) rfl

theorem countP_eqv_le_one {x : α} : ∀ {ys : List α}, StrictWeak lt → ys.Pairwise (fun a b => eqv lt a b = false) →
    ys.countP (fun y => eqv lt x y) ≤ 1 := by
  intro ys
  induction ys with
  | nil => intros; simp
  | cons a t ih =>
    intro hlt h
    rw [List.pairwise_cons] at h
    rw [List.countP_cons]
    split
    · rename_i hx
      have : t.countP (fun y => eqv lt x y) = 0 := by
        rw [List.countP_eq_zero]
        intro b hb hc
        have h1 := h.1 b hb
        simp only [eqv, Bool.and_eq_true, Bool.not_eq_true', Bool.and_eq_false_iff, Bool.not_eq_false'] at h1 hx hc
        rcases h1 with h1 | h1
        · have := hlt.le_trans hc.1 hx.2
          rw [this] at h1
          cases h1
        · have := hlt.le_trans hx.1 hc.2
          rw [this] at h1
          cases h1
      omega
    · have := ih hlt h.2
      omega

/-- C96 is false of `iter_median_5`: of five elements no two of which are equivalent, it never returns the median. Once
the two least are set aside, the median is the lesser of two candidates; introselect.h 83-91 return the greater one, which
is the fourth or the fifth. -/
theorem C96_iter_median_5_false (hlt : StrictWeak lt) (s : St α) (first : Nat) (xs : List α) (hw : s.WF)
    (hs : Seg s.cell first xs) (h5 : xs.length = 5) (hd : xs.Pairwise (fun a b => eqv lt a b = false)) :
    Picks (iterMedianRest (tick lt) first xs.length) s first xs
      (fun k ys => (∃ x, ys[k]? = some x ∧ 3 ≤ ys.countP (fun y => lt y x)) ∧ ¬ MedianAt lt k ys) := by
  obtain ⟨s', ys, k, h1, h2, h3, h4, ⟨x, h6, h7⟩, h8⟩ := C96_iter_median_5_partial hlt s first xs hw hs h5
  have hd' : ys.Pairwise (fun a b => eqv lt a b = false) := by
    refine (h3.pairwise_iff fun {a b} h => ?_).2 hd
    simp only [eqv] at h ⊢
    rwa [Bool.and_comm]
  have hc := countP_eqv_le_one (x := x) hlt hd'
  have : ∀ zs : List α, zs.countP (fun y => ! lt x y) ≤ zs.countP (fun y => lt y x) + zs.countP (fun y => eqv lt x y) := by
    intro zs
    induction zs with
    | nil => simp
    | cons a t ih =>
      simp only [List.countP_cons, eqv]
      simp only [eqv] at ih
      cases lt x a <;> cases lt a x <;> simp <;> omega
  have := this ys
  have h9 : 3 ≤ ys.countP (fun y => lt y x) := by omega
  refine ⟨s', ys, k, h1, h2, h3, h4, ⟨⟨x, h6, h9⟩, ?_⟩, h8⟩
  rintro ⟨y, e, m, -⟩
  rw [h6] at e
  injection e with e
  subst e
  have := h3.length_eq
  omega

example : Picks (iterMedianRest (tick Demo.natLt) 7 5) (Demo.mem 7 [30, 10, 20, 50, 40]) 7 [30, 10, 20, 50, 40]
    (fun k ys => (∃ x, ys[k]? = some x ∧ 3 ≤ ys.countP (fun y => Demo.natLt y x)) ∧ ¬ MedianAt Demo.natLt k ys) :=
  C96_iter_median_5_false Demo.natLt_sw _ 7 [30, 10, 20, 50, 40] (Demo.mem_wf _ _) (Demo.mem_seg _ _) rfl (by decide)

/-- 165 numbers in groups of five. -/
def mediansBad (cat : Cat) : List Nat :=
  (match cat with
  | .forward => [12, 5, 6, 17, 15, 29, 19, 7, 21, 30, 26, 13, 8, 4, 11, 23, 22, 28, 14, 3, 9, 18, 0, 1, 24, 25, 20, 2,
      27, 16, 31, 10, 32]
  | _ => [11, 21, 0, 9, 31, 24, 27, 25, 2, 28, 12, 20, 3, 4, 6, 29, 19, 5, 7, 16, 17, 18, 14, 23, 13, 22, 26, 10, 15, 1,
      8, 30, 32]).flatMap fun m => [5 * m, 5 * m + 1, 5 * m + 2, 5 * m + 3, 5 * m + 4]

/-- Whether the run on `mediansBad` returns the position of 164. -/
def mediansWrong (cat : Cat) : Bool :=
  match medianOfMediansF (tick Demo.natLt) 40 cat 0 165 165 (Demo.mem 0 (mediansBad cat)) with
  | some (.ok r, s) =>
    match s.cell r with
    | .val x => x == 164
    | _ => false
  | _ => false

/-- C96 is false of `median_of_medians`, for every category: there is a range of 165 elements, all distinct, for which
the pivot returned is the greatest of all. A median of medians of five is greater than or equal to, and less than or
equal to, at least 51 of 165. -/
theorem C96_median_of_medians_false (cat : Cat) :
    ∃ xs : List Nat, xs.length = 165 ∧ xs.Nodup ∧
      ∃ s' r x, medianOfMedians (tick Demo.natLt) cat 0 xs.length xs.length (Demo.mem 0 xs) = some (.ok r, s') ∧
        s'.cell r = .val x ∧ ∀ y ∈ xs, y ≤ x := by
  have hd : mediansWrong cat = true := by
    cases cat <;> decide +kernel
  have hl : (mediansBad cat).length = 165 := by cases cat <;> decide +kernel
  refine ⟨mediansBad cat, hl, by cases cat <;> decide +kernel, ?_⟩
  rw [hl]
  unfold mediansWrong at hd
  split at hd
  · rename_i r s e1
    have e2 := medianOfMediansF_le (tick Demo.natLt) 40 cat 0 165 165 rfl _ _ e1
    refine ⟨s, r, 164, e2, ?_, by cases cat <;> decide +kernel⟩
    split at hd
    · rename_i x hx
      rw [hx]
      have : x = 164 := by simpa using hd
      rw [this]
    · cases hd
  · cases hd

end CppSort
