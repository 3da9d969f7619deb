import Verif.Proof.Pdq
import Verif.Proof.Select
/-
The pivots picked among five or fewer elements (introselect.h 59-141), and the element placed by `nth_element`.
-/
set_option autoImplicit false

namespace CppSort
variable {α : Type} {lt : α → α → Bool}

/-- The last two comparisons of `iter_median_5` (introselect.h 82-91). -/
theorem median5Pick_spec (hlt : StrictWeak lt) {f : Nat} {s s3 : St α} {v w : Nat → α}
    (u3 : Upd f (f + 5) s s3 v w) (h1 : lt (w (f + 1)) (w f) = false)
    (h2 : lt (w (f + 3)) (w (f + 2)) = false) (h3 : lt (w (f + 1)) (w (f + 4)) = false)
    (h4 : lt (w (f + 3)) (w (f + 4)) = false) :
    wp (do
      if ← tick lt (← read f) (← read (f + 2)) then
        if ← tick lt (← read (f + 1)) (← read (f + 2)) then pure (f + 2) else pure (f + 1)
      else
        if ← tick lt (← read (f + 3)) (← read f) then pure f else pure (f + 3))
      (fun r s' => f ≤ r ∧ r < f + 5 ∧ ∃ v', Upd f (f + 5) s s' v v' ∧
        4 ≤ (lst v' f (f + 5)).countP (fun y => ! lt (v' r) y)) s3 := by
  have hl : ∀ w : Nat → α, lst w f (f + 5) = [w f, w (f + 1), w (f + 2), w (f + 3), w (f + 4)] := by
    intro w
    simp [lst, List.range']
  wread u3.holds
  wread u3.holds
  wtick
  split
  · rename_i hc
    wread u3.holds
    wread u3.holds
    wtick
    split
    · rename_i hd
      refine wp_pure ⟨by omega, by omega, w, u3.tickr.tickr, ?_⟩
      rw [hl]
      simp [List.countP_cons, hlt.asymm hc, hlt.asymm hd, hlt.irrefl, hlt.le_trans h3 (hlt.asymm hd)]
    · rename_i hd
      have hd : lt (w (f + 1)) (w (f + 2)) = false := by simpa using hd
      refine wp_pure ⟨by omega, by omega, w, u3.tickr.tickr, ?_⟩
      rw [hl]
      simp [List.countP_cons, h1, h3, hlt.irrefl, hd]
  · rename_i hc
    have hc : lt (w f) (w (f + 2)) = false := by simpa using hc
    wread u3.holds
    wread u3.holds
    wtick
    split
    · rename_i hd
      refine wp_pure ⟨by omega, by omega, w, u3.tickr.tickr, ?_⟩
      rw [hl]
      simp [List.countP_cons, hlt.asymm hd, hlt.irrefl, hlt.le_trans h4 (hlt.asymm hd), hc]
    · rename_i hd
      have hd : lt (w (f + 3)) (w f) = false := by simpa using hd
      refine wp_pure ⟨by omega, by omega, w, u3.tickr.tickr, ?_⟩
      rw [hl]
      simp [List.countP_cons, h2, h4, hlt.irrefl, hd]

/-- `iter_median_5` returns an element that is not less than three of the other four. -/
theorem iterMedian5_spec (hlt : StrictWeak lt) {f : Nat} {s : St α} {v : Nat → α}
    (hh : Holds s.cell f (f + 5) v) :
    wp (iterMedian5 (tick lt) f (f + 1) (f + 2) (f + 3) (f + 4)) (fun r s' => f ≤ r ∧ r < f + 5 ∧
      ∃ v', Upd f (f + 5) s s' v v' ∧
        4 ≤ (lst v' f (f + 5)).countP (fun y => ! lt (v' r) y)) s := by
  unfold iterMedian5
  apply wp_bind
  refine wp_mono (iterSwapIf_ce hlt hh (i := f) (j := f + 1) (by omega) (by omega)) ?_
  rintro _ s1 ⟨u1, -⟩
  obtain ⟨p1, p2, p3, p4⟩ := ce_cases hlt (i := f) (j := f + 1) (by omega) v
  generalize ce lt (f, f + 1) v = v1 at *
  apply wp_bind
  refine wp_mono (iterSwapIf_ce hlt u1.holds (i := f + 2) (j := f + 3) (by omega) (by omega)) ?_
  rintro _ s2 ⟨u2, -⟩
  obtain ⟨q1, q2, q3, q4⟩ := ce_cases hlt (i := f + 2) (j := f + 3) (by omega) v1
  generalize ce lt (f + 2, f + 3) v1 = v2 at *
  have hab : lt (v2 (f + 1)) (v2 f) = false := by
    rw [q2 _ (by omega) (by omega), q2 _ (by omega) (by omega)]; exact p1
  wread u2.holds
  wread u2.holds
  wtick
  dsimp only
  split
  · rename_i hc
    apply wp_bind
    refine wp_swap (f := f) (l := f + 5) u2.holds (by omega) (by omega) fun s3 u3 => ?_
    apply wp_bind
    refine wp_mono (iterSwapIf_ce hlt u3.holds (i := f) (j := f + 1) (by omega) (by omega)) ?_
    rintro _ s4 ⟨u4, -⟩
    obtain ⟨r1, r2, r3, r4⟩ := ce_cases hlt (i := f) (j := f + 1) (by omega) (swp v2 f (f + 4))
    refine median5Pick_spec hlt ((u1.trans u2).trans (u3.tick.trans u4)) r1 ?_ ?_ ?_
    · rw [r2 _ (by omega) (by omega), r2 _ (by omega) (by omega), swp_o (by omega) (by omega),
        swp_o (by omega) (by omega)]
      exact q1
    · rw [r2 (f + 4) (by omega) (by omega), swp_r rfl]
      have := r3.1
      rw [swp_o (by omega) (by omega)] at this
      exact hlt.le_trans hab this
    · rw [r2 (f + 4) (by omega) (by omega), r2 (f + 3) (by omega) (by omega), swp_r rfl,
        swp_o (by omega) (by omega)]
      exact hlt.le_trans (hlt.asymm hc) q1
  · rename_i hc
    have hc : lt (v2 f) (v2 (f + 2)) = false := by simpa using hc
    apply wp_bind
    refine wp_swap (f := f) (l := f + 5) u2.holds (by omega) (by omega) fun s3 u3 => ?_
    apply wp_bind
    refine wp_mono (iterSwapIf_ce hlt u3.holds (i := f + 2) (j := f + 3) (by omega) (by omega)) ?_
    rintro _ s4 ⟨u4, -⟩
    obtain ⟨r1, r2, r3, r4⟩ := ce_cases hlt (i := f + 2) (j := f + 3) (by omega) (swp v2 (f + 2) (f + 4))
    refine median5Pick_spec hlt ((u1.trans u2).trans (u3.tick.trans u4)) ?_ r1 ?_ ?_
    · rw [r2 _ (by omega) (by omega), r2 _ (by omega) (by omega), swp_o (by omega) (by omega),
        swp_o (by omega) (by omega)]
      exact hab
    · rw [r2 (f + 4) (by omega) (by omega), r2 (f + 1) (by omega) (by omega), swp_r rfl,
        swp_o (by omega) (by omega)]
      exact hlt.le_trans hc hab
    · rw [r2 (f + 4) (by omega) (by omega), swp_r rfl]
      have := r3.1
      rw [swp_o (by omega) (by omega)] at this
      exact hlt.le_trans q1 this

/-- At most half of the elements are below `x`, and at most half are above. -/
def MedianOf (lt : α → α → Bool) (x : α) (ys : List α) : Prop :=
  ys.countP (fun y => lt y x) ≤ ys.length / 2 ∧ ys.countP (fun y => lt x y) ≤ ys.length / 2

theorem iterMedianRest_spec (hlt : StrictWeak lt) {f n : Nat} {s : St α} {v : Nat → α}
    (h0 : 0 < n) (h4 : n ≤ 4) (hh : Holds s.cell f (f + n) v) :
    wp (iterMedianRest (tick lt) f n) (fun r s' => f ≤ r ∧ r < f + n ∧
      ∃ v', Upd f (f + n) s s' v v' ∧ MedianOf lt (v' r) (lst v' f (f + n))) s := by
  have : n = 1 ∨ n = 2 ∨ n = 3 ∨ n = 4 := by omega
  rcases this with rfl | rfl | rfl | rfl
  · refine wp_pure ⟨by omega, by omega, v, Upd.refl hh, ?_⟩
    simp [MedianOf, lst, List.range', hlt.irrefl]
  · refine wp_pure ⟨by omega, by omega, v, Upd.refl hh, ?_⟩
    simp [MedianOf, lst, List.range', hlt.irrefl, List.countP_cons]
    constructor <;> split <;> omega
  · have e : iterMedianRest (tick lt) f 3 = (do
        swapIndexPairs (tick lt) f [(0, 1), (1, 2), (0, 1)]
        pure (f + 1)) := by
      simp [iterMedianRest, swapIndexPairs]
    rw [e]
    apply wp_bind
    refine wp_mono (swapIndexPairs_sorts hlt (n := 3) (by decide) ?_ hh) ?_
    · intro x i j hij hj
      simp only [runB, List.foldl, ceB]
      have : i = 0 ∧ j = 1 ∨ i = 0 ∧ j = 2 ∨ i = 1 ∧ j = 2 := by omega
      cases h0 : x 0 <;> cases h1 : x 1 <;> cases h2 : x 2 <;>
        rcases this with ⟨rfl, rfl⟩ | ⟨rfl, rfl⟩ | ⟨rfl, rfl⟩ <;> simp [h0, h1, h2]
    · rintro _ s' ⟨w, u, hs, -⟩
      refine wp_pure ⟨by omega, by omega, w, u, ?_⟩
      have a := hs f (f + 1) (by omega) (by omega) (by omega)
      have b := hs (f + 1) (f + 2) (by omega) (by omega) (by omega)
      simp [MedianOf, lst, List.range', hlt.irrefl, List.countP_cons, a, b]
      constructor <;> split <;> omega
  · have e : iterMedianRest (tick lt) f 4 = (do
        swapIndexPairs (tick lt) f [(0, 1), (2, 3), (0, 2), (1, 3), (1, 2)]
        pure (f + 1)) := by
      simp [iterMedianRest, swapIndexPairs]
    rw [e]
    apply wp_bind
    refine wp_mono (swapIndexPairs_sorts hlt (n := 4) (by decide) ?_ hh) ?_
    · intro x i j hij hj
      simp only [runB, List.foldl, ceB]
      have : i = 0 ∧ j = 1 ∨ i = 0 ∧ j = 2 ∨ i = 1 ∧ j = 2 ∨ i = 0 ∧ j = 3 ∨ i = 1 ∧ j = 3 ∨ i = 2 ∧ j = 3 := by omega
      cases h0 : x 0 <;> cases h1 : x 1 <;> cases h2 : x 2 <;> cases h3 : x 3 <;>
        rcases this with ⟨rfl, rfl⟩ | ⟨rfl, rfl⟩ | ⟨rfl, rfl⟩ | ⟨rfl, rfl⟩ | ⟨rfl, rfl⟩ | ⟨rfl, rfl⟩ <;>
        simp [h0, h1, h2, h3]
    · rintro _ s' ⟨w, u, hs, -⟩
      refine wp_pure ⟨by omega, by omega, w, u, ?_⟩
      have a := hs f (f + 1) (by omega) (by omega) (by omega)
      have b := hs (f + 1) (f + 2) (by omega) (by omega) (by omega)
      have c := hs (f + 1) (f + 3) (by omega) (by omega) (by omega)
      simp [MedianOf, lst, List.range', hlt.irrefl, List.countP_cons, a, b, c]
      constructor <;> repeat' split
      all_goals omega

/-- Up to 32 elements, `introselect` sorts. -/
theorem introselect_small (hlt : StrictWeak lt) (cat : Cat) {f l nth : Nat} {s : St α} {v : Nat → α}
    (hn : nth < l - f) (h : l - f ≤ 32) (hh : Holds s.cell f l v) :
    wp (introselect (tick lt) cat f l nth (l - f)) (fun r s' => r = f + nth ∧
      ∃ v', Upd f l s s' v v' ∧ Piv lt f (f + nth) l v' (v' (f + nth))) s := by
  rw [introselect, introselectLoop, if_neg (by omega)]
  apply wp_bind
  refine wp_mono (smallSort_spec hlt cat (by omega) hh) ?_
  rintro _ s' ⟨w, u, hs⟩
  exact wp_pure ⟨rfl, w, u, ⟨by omega, by omega, rfl, fun i a b => hs i _ a b (by omega),
    fun i a b => hs _ i (by omega) a b⟩⟩

end CppSort
