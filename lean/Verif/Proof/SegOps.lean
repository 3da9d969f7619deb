import Verif.Base.Segs
import Verif.Proof.Bound
import Verif.Model.Spin
/-
Moves, merges, searches and reversals of ranges described by lists.
-/
set_option autoImplicit false

namespace CppSort
variable {α : Type} {lt : α → α → Bool}

/-- Changes of live cells only, without allocation, keep the heap well formed. -/
theorem St.WF.of_live {s s' : St α} (hw : s.WF) (hb : s'.brk = s.brk)
    (h : ∀ i, s'.cell i = s.cell i ∨ Live s.cell i) : s'.WF := by
  intro i hi
  rw [hb] at hi
  rcases h i with h | h | ⟨a, h⟩
  · rw [h]; exact hw i hi
  · rw [hw i hi] at h; cases h
  · rw [hw i hi] at h; cases h

theorem LiveSeg.below {s : St α} {i : Nat} (hw : s.WF) (h : Live s.cell i) : i < s.brk := by
  by_contra hc
  rcases h with h | ⟨a, h⟩
  · rw [hw i (by omega)] at h; cases h
  · rw [hw i (by omega)] at h; cases h

/-- `detail::move` to a range that does not start inside of the source. -/
theorem moveRange_seg {s0 : St α} : ∀ (xs : List α) (a l b : Nat) (s : St α), l = a + xs.length →
    (b < a ∨ a + xs.length ≤ b) →
    Seg s.cell a xs → (∀ i, b ≤ i → i < b + xs.length → Live s.cell i) → s.env = s0.env →
    wp (moveRange id id a l b) (fun r s' => r = b + xs.length ∧ Seg s'.cell b xs ∧
      (∀ i, a ≤ i → i < a + xs.length → (i < b ∨ b + xs.length ≤ i) → s'.cell i = .moved) ∧
      (∀ i, (i < a ∨ a + xs.length ≤ i) → (i < b ∨ b + xs.length ≤ i) → s'.cell i = s.cell i) ∧
      s'.env = s0.env ∧ s'.cmps = s.cmps) s := by
  intro xs
  induction xs with
  | nil =>
    intro a l b s hl hd hx hb he
    rw [moveRange, if_neg (by simpa using hl.symm)]
    exact wp_pure ⟨rfl, Seg.nil, fun i h1 h2 _ => by simp at h2; omega, fun i _ _ => rfl, he, rfl⟩
  | cons x xs ih =>
    intro a l b s hl hd hx hb he
    simp only [List.length_cons] at hl hd hb ⊢
    obtain ⟨hx1, hx2⟩ := seg_cons.1 hx
    rw [moveRange, if_pos (by omega)]
    apply wp_bind
    refine wp_moveTo' (i := b) (j := a) (by omega) hx1 (hb b (by omega) (by omega)) ?_
    intro s1 hc1 he1 hk1 hm1
    refine wp_mono (ih (a + 1) l (b + 1) s1 (by omega) (by omega) ?_ ?_ (by rw [he1, he])) ?_
    · rw [hc1]
      exact (hx2.out (by omega)).out (by omega)
    · intro i h1 h2
      rw [hc1]
      by_cases e : i = b
      · exact Live.val e
      · refine Live.out ?_ e
        by_cases e : i = a
        · exact Live.moved e
        · exact (hb i (by omega) (by omega)).out e
    · rintro r s' ⟨h1, h2, h3, h4, h5, h6⟩
      refine ⟨by omega, seg_cons.2 ⟨?_, h2⟩, ?_, ?_, h5, by rw [h6, hk1]⟩
      · by_cases e : a + 1 ≤ b ∧ b < a + 1 + xs.length
        · omega
        · rw [h4 b (by omega) (by omega), hc1, sc_eq rfl]
      · intro i g1 g2 g3
        by_cases e : i = a
        · rw [h4 i (by omega) (by omega), hc1, sc_ne (by omega), sc_eq e]
        · exact h3 i (by omega) (by omega) (by omega)
      · intro i g1 g2
        rw [h4 i (by omega) (by omega), hc1, sc_ne (by omega), sc_ne (by omega)]

/-- `detail::move_backward` to a range that does not end inside of the source. -/
theorem moveBackward_seg {s0 : St α} (n : Nat) : ∀ (xs : List α) (a l b : Nat) (s : St α),
    xs.length = n → l = a + xs.length → xs.length ≤ b →
    (l < b ∨ b ≤ a) →
    Seg s.cell a xs → (∀ i, b ≤ i + xs.length → i < b → Live s.cell i) → s.env = s0.env →
    wp (moveBackward a l b) (fun r s' => r = b - xs.length ∧ Seg s'.cell (b - xs.length) xs ∧
      (∀ i, a ≤ i → i < a + xs.length → (i + xs.length < b ∨ b ≤ i) → s'.cell i = .moved) ∧
      (∀ i, (i < a ∨ a + xs.length ≤ i) → (i + xs.length < b ∨ b ≤ i) → s'.cell i = s.cell i) ∧
      s'.env = s0.env ∧ s'.cmps = s.cmps) s := by
  induction n with
  | zero =>
    intro xs a l b s hn hl hxb hd hx hb he
    have : xs = [] := List.length_eq_zero_iff.1 hn
    subst this
    rw [moveBackward, if_neg (by simpa using hl.symm)]
    exact wp_pure ⟨rfl, Seg.nil, fun i h1 h2 _ => by simp at h2; omega, fun i _ _ => rfl, he, rfl⟩
  | succ n ih =>
    intro xs a l b s hn hl hxb hd hx hb he
    obtain ⟨xs', x, rfl⟩ : ∃ xs' x, xs = xs' ++ [x] :=
      ⟨xs.dropLast, xs.getLast (by intro e; rw [e] at hn; simp at hn), (List.dropLast_append_getLast _).symm⟩
    simp only [List.length_append, List.length_singleton] at hn hl hxb hd hb ⊢
    obtain ⟨hx1, hx2⟩ := seg_snoc.1 hx
    rw [moveBackward, if_pos (by omega)]
    apply wp_bind
    refine wp_moveTo' (i := b - 1) (j := l - 1) (a := x) (by omega)
      (by rw [show l - 1 = a + xs'.length by omega]; exact hx2) (hb (b - 1) (by omega) (by omega)) ?_
    intro s1 hc1 he1 hk1 hm1
    refine wp_mono (ih xs' a (l - 1) (b - 1) s1 (by omega) (by omega) (by omega) (by omega) ?_ ?_ (by rw [he1, he])) ?_
    · rw [hc1]
      exact (hx1.out (by omega)).out (by omega)
    · intro i h1 h2
      rw [hc1]
      by_cases e : i = b - 1
      · exact Live.val e
      · refine Live.out ?_ e
        by_cases e : i = l - 1
        · exact Live.moved e
        · exact (hb i (by omega) (by omega)).out e
    · rintro r s' ⟨h1, h2, h3, h4, h5, h6⟩
      refine ⟨by omega, seg_snoc.2 ⟨?_, ?_⟩, ?_, ?_, h5, by rw [h6, hk1]⟩
      · rw [show b - (xs'.length + 1) = b - 1 - xs'.length by omega]; exact h2
      · rw [show b - (xs'.length + 1) + xs'.length = b - 1 by omega,
          h4 (b - 1) (by omega) (by omega), hc1, sc_eq rfl]
      · intro i g1 g2 g3
        by_cases e : i = l - 1
        · rw [h4 i (by omega) (by omega), hc1, sc_ne (by omega), sc_eq e]
        · exact h3 i (by omega) (by omega) (by omega)
      · intro i g1 g2
        rw [h4 i (by omega) (by omega), hc1, sc_ne (by omega), sc_ne (by omega)]

/-- `uninitialized_move`. -/
theorem uninitMove_seg {s0 : St α} : ∀ (xs : List α) (a l b : Nat) (s : St α), l = a + xs.length →
    Seg s.cell a xs → (∀ i, b ≤ i → i < b + xs.length → s.cell i = .raw) → s.env = s0.env →
    wp (uninitMove a l b) (fun r s' => r = b + xs.length ∧ Seg s'.cell b xs ∧
      (∀ i, a ≤ i → i < a + xs.length → s'.cell i = .moved) ∧
      (∀ i, (i < a ∨ a + xs.length ≤ i) → (i < b ∨ b + xs.length ≤ i) → s'.cell i = s.cell i) ∧
      s'.env = s0.env) s := by
  intro xs
  induction xs with
  | nil =>
    intro a l b s hl hx hb he
    rw [uninitMove, if_neg (by simpa using hl.symm)]
    exact wp_pure ⟨rfl, Seg.nil, fun i h1 h2 => by simp at h2; omega, fun i _ _ => rfl, he⟩
  | cons x xs ih =>
    intro a l b s hl hx hb he
    have hd : ∀ i j, a ≤ i → i < a + (x :: xs).length → b ≤ j → j < b + (x :: xs).length → i ≠ j := by
      intro i j h1 h2 h3 h4 e
      subst e
      have := hx.live h1 h2
      unfold Live at this
      rw [hb i h3 h4] at this
      rcases this with h | ⟨_, h⟩ <;> cases h
    simp only [List.length_cons] at hl hd hb ⊢
    obtain ⟨hx1, hx2⟩ := seg_cons.1 hx
    rw [uninitMove, if_pos (by omega)]
    apply wp_bind
    refine wp_constructFrom hx1 (hb b (by omega) (by omega)) ?_
    intro s1 hc1 he1 hk1 hm1
    refine wp_mono (ih (a + 1) l (b + 1) s1 (by omega) ?_ ?_ (by rw [he1, he])) ?_
    · rw [hc1]
      refine (hx2.out (by omega)).congr fun i h1 h2 => sc_ne ?_
      exact hd i b (by omega) (by omega) (by omega) (by omega)
    · intro i h1 h2
      rw [hc1, sc_ne (by omega), sc_ne (hd a i (by omega) (by omega) (by omega) (by omega)).symm]
      exact hb i (by omega) (by omega)
    · have hab := hd a b (by omega) (by omega) (by omega) (by omega)
      rintro r s' ⟨h1, h2, h3, h4, h5⟩
      refine ⟨by omega, seg_cons.2 ⟨?_, h2⟩, ?_, ?_, h5⟩
      · by_cases e : a + 1 ≤ b ∧ b < a + 1 + xs.length
        · exact absurd rfl (hd b b (by omega) (by omega) (by omega) (by omega))
        · rw [h4 b (by omega) (by omega), hc1, sc_eq rfl]
      · intro i g1 g2
        by_cases e : i = a
        · by_cases e' : b + 1 ≤ i ∧ i < b + 1 + xs.length
          · exact absurd rfl (hd i i (by omega) (by omega) (by omega) (by omega))
          · rw [h4 i (by omega) (by omega), hc1, sc_ne (by omega), sc_eq e]
        · exact h3 i (by omega) (by omega)
      · intro i g1 g2
        rw [h4 i (by omega) (by omega), hc1, sc_ne (by omega), sc_ne (by omega)]

/-- `merge_move`, to a range apart from its sources. -/
theorem mergeMoveLoop_seg {s0 : St α} (n : Nat) : ∀ (xs ys : List α) (a e1 b e2 r : Nat) (s : St α),
    xs.length + ys.length = n → xs ≠ [] → ys ≠ [] → e1 = a + xs.length → e2 = b + ys.length →
    (e1 ≤ b ∨ e2 ≤ a) →
    (∀ i, r ≤ i → i < r + n → ¬ (a ≤ i ∧ i < e1) ∧ ¬ (b ≤ i ∧ i < e2)) →
    Seg s.cell a xs → Seg s.cell b ys → (∀ i, r ≤ i → i < r + n → Live s.cell i) → s.env = s0.env →
    wp (mergeMoveLoop (tick lt) id id id a e1 b e2 r) (fun q s' => q = r + n ∧ Seg s'.cell r (mergeL lt xs ys) ∧
      (∀ i, (a ≤ i ∧ i < e1) ∨ (b ≤ i ∧ i < e2) → s'.cell i = .moved) ∧
      (∀ i, ¬ (a ≤ i ∧ i < e1) → ¬ (b ≤ i ∧ i < e2) → (i < r ∨ r + n ≤ i) → s'.cell i = s.cell i) ∧
      s'.env = s0.env) s := by
  induction n with
  | zero =>
    intro xs ys a e1 b e2 r s hn hx
    exact absurd (List.length_eq_zero_iff.1 (by omega)) hx
  | succ n ih =>
    intro xs ys a e1 b e2 r s hn hx hy he1 he2 hab hr sx sy hl he
    obtain ⟨x, xs, rfl⟩ := List.exists_cons_of_ne_nil hx
    obtain ⟨y, ys, rfl⟩ := List.exists_cons_of_ne_nil hy
    simp only [List.length_cons] at hn he1 he2
    obtain ⟨sx1, sx2⟩ := seg_cons.1 sx
    obtain ⟨sy1, sy2⟩ := seg_cons.1 sy
    have hra := hr r (by omega) (by omega)
    rw [mergeMoveLoop]
    apply wp_bind
    refine wp_read' sy1 ?_
    apply wp_bind
    refine wp_read' sx1 ?_
    apply wp_bind
    refine wp_tick ?_
    rw [mergeL_cons]
    split
    · apply wp_bind
      refine wp_moveTo' (i := r) (j := b) (by omega) sy1 (hl r (by omega) (by omega)) ?_
      intro s1 hc1 h1 _ _
      have hc2 : ∀ i, i ≠ r → i ≠ b → s1.cell i = s.cell i := fun i h1 h2 => by
        rw [hc1, sc_ne h1, sc_ne h2]
      have hcr : s1.cell r = .val y := by rw [hc1, sc_eq rfl]
      have hcb : s1.cell b = .moved := by rw [hc1, sc_ne (by omega), sc_eq rfl]
      split
      · rename_i hend
        have : ys = [] := List.length_eq_zero_iff.1 (by omega)
        subst this
        simp only [List.length_nil] at *
        refine wp_mono (moveRange_seg (s0 := s0) (x :: xs) a e1 (r + 1) s1 (by simp; omega) ?_ ?_ ?_ (by rw [h1]; exact he)) ?_
        · by_contra hc
          have := (hr a (by simp at hc; omega) (by simp at hc; omega)).1
          omega
        · exact sx.congr fun i g1 g2 => by
            simp at g2
            exact hc2 i (fun e => (hr i (by omega) (by omega)).1 ⟨g1, by omega⟩) (by omega)
        · intro i g1 g2
          simp at g2
          have := hr i (by omega) (by omega)
          unfold Live
          rw [hc2 i (by omega) (by omega)]
          exact hl i (by omega) (by omega)
        · rintro q s' ⟨k1, k2, k3, k4, k5, k6⟩
          simp only [List.length_cons] at *
          refine ⟨by omega, ?_, ?_, ?_, k5⟩
          · rw [mergeL_nil_right]
            refine seg_cons.2 ⟨?_, k2⟩
            rw [k4 r (by omega) (by omega)]; exact hcr
          · intro i hi
            rcases hi with hi | hi
            · refine k3 i hi.1 (by omega) ?_
              by_contra hc
              exact (hr i (by omega) (by omega)).1 hi
            · have e : i = b := by omega
              rw [k4 i (by omega) ?_, e]
              · exact hcb
              · by_contra hc
                exact (hr i (by omega) (by omega)).2 ⟨by omega, by omega⟩
          · intro i g1 g2 g3
            rw [k4 i (by omega) (by omega)]
            exact hc2 i (by omega) (by omega)
      · rename_i hend
        have hys : ys ≠ [] := by intro e; subst e; simp at he2; omega
        refine wp_mono (ih (x :: xs) ys a e1 (b + 1) e2 (r + 1) s1 (by simp; omega) (by simp) hys
          (by simp; omega) (by omega) (by omega) ?_ ?_ ?_ ?_ (by rw [h1]; exact he)) ?_
        · intro i g1 g2
          have := hr i (by omega) (by omega)
          omega
        · exact sx.congr fun i g1 g2 => by
            simp at g2
            exact hc2 i (fun e => (hr i (by omega) (by omega)).1 ⟨g1, by omega⟩) (by omega)
        · exact sy2.congr fun i g1 g2 => by
            exact hc2 i (fun e => (hr i (by omega) (by omega)).2 ⟨by omega, by omega⟩) (by omega)
        · intro i g1 g2
          have := hr i (by omega) (by omega)
          unfold Live
          rw [hc2 i (by omega) (by omega)]
          exact hl i (by omega) (by omega)
        · rintro q s' ⟨k1, k2, k3, k4, k5⟩
          refine ⟨by omega, ?_, ?_, ?_, k5⟩
          · refine seg_cons.2 ⟨?_, k2⟩
            rw [k4 r (by omega) (by omega) (by omega)]; exact hcr
          · intro i hi
            by_cases e : i = b
            · have := hr
              rw [k4 i (by omega) (by omega) ?_, e]
              · exact hcb
              · by_contra hc
                exact (hr i (by omega) (by omega)).2 ⟨by omega, by omega⟩
            · exact k3 i (by omega)
          · intro i g1 g2 g3
            rw [k4 i (by omega) (by omega) (by omega)]
            exact hc2 i (by omega) (by omega)
    · apply wp_bind
      refine wp_moveTo' (i := r) (j := a) (by omega) sx1 (hl r (by omega) (by omega)) ?_
      intro s1 hc1 h1 _ _
      have hc2 : ∀ i, i ≠ r → i ≠ a → s1.cell i = s.cell i := fun i h1 h2 => by
        rw [hc1, sc_ne h1, sc_ne h2]
      have hcr : s1.cell r = .val x := by rw [hc1, sc_eq rfl]
      have hcb : s1.cell a = .moved := by rw [hc1, sc_ne (by omega), sc_eq rfl]
      split
      · rename_i hend
        have : xs = [] := List.length_eq_zero_iff.1 (by omega)
        subst this
        simp only [List.length_nil] at *
        refine wp_mono (moveRange_seg (s0 := s0) (y :: ys) b e2 (r + 1) s1 (by simp; omega) ?_ ?_ ?_ (by rw [h1]; exact he)) ?_
        · by_contra hc
          have := (hr b (by simp at hc; omega) (by simp at hc; omega)).2
          omega
        · exact sy.congr fun i g1 g2 => by
            simp at g2
            exact hc2 i (fun e => (hr i (by omega) (by omega)).2 ⟨g1, by omega⟩) (by omega)
        · intro i g1 g2
          simp at g2
          have := hr i (by omega) (by omega)
          unfold Live
          rw [hc2 i (by omega) (by omega)]
          exact hl i (by omega) (by omega)
        · rintro q s' ⟨k1, k2, k3, k4, k5, k6⟩
          simp only [List.length_cons] at *
          refine ⟨by omega, ?_, ?_, ?_, k5⟩
          · rw [mergeL_nil_left]
            refine seg_cons.2 ⟨?_, k2⟩
            rw [k4 r (by omega) (by omega)]; exact hcr
          · intro i hi
            rcases hi with hi | hi
            · have e : i = a := by omega
              rw [k4 i (by omega) ?_, e]
              · exact hcb
              · by_contra hc
                exact (hr i (by omega) (by omega)).1 ⟨by omega, by omega⟩
            · refine k3 i hi.1 (by omega) ?_
              by_contra hc
              exact (hr i (by omega) (by omega)).2 hi
          · intro i g1 g2 g3
            rw [k4 i (by omega) (by omega)]
            exact hc2 i (by omega) (by omega)
      · rename_i hend
        have hxs : xs ≠ [] := by intro e; subst e; simp at he1; omega
        refine wp_mono (ih xs (y :: ys) (a + 1) e1 b e2 (r + 1) s1 (by simp; omega) hxs (by simp)
          (by omega) (by simp; omega) (by omega) ?_ ?_ ?_ ?_ (by rw [h1]; exact he)) ?_
        · intro i g1 g2
          have := hr i (by omega) (by omega)
          omega
        · exact sx2.congr fun i g1 g2 => by
            exact hc2 i (fun e => (hr i (by omega) (by omega)).1 ⟨by omega, by omega⟩) (by omega)
        · exact sy.congr fun i g1 g2 => by
            simp at g2
            exact hc2 i (fun e => (hr i (by omega) (by omega)).2 ⟨g1, by omega⟩) (by omega)
        · intro i g1 g2
          have := hr i (by omega) (by omega)
          unfold Live
          rw [hc2 i (by omega) (by omega)]
          exact hl i (by omega) (by omega)
        · rintro q s' ⟨k1, k2, k3, k4, k5⟩
          refine ⟨by omega, ?_, ?_, ?_, k5⟩
          · refine seg_cons.2 ⟨?_, k2⟩
            rw [k4 r (by omega) (by omega) (by omega)]; exact hcr
          · intro i hi
            by_cases e : i = a
            · rw [k4 i (by omega) (by omega) ?_, e]
              · exact hcb
              · by_contra hc
                exact (hr i (by omega) (by omega)).1 ⟨by omega, by omega⟩
            · exact k3 i (by omega)
          · intro i g1 g2 g3
            rw [k4 i (by omega) (by omega) (by omega)]
            exact hc2 i (by omega) (by omega)

theorem mergeMove_seg {xs ys : List α} {a e1 b e2 r : Nat} {s : St α}
    (he1 : e1 = a + xs.length) (he2 : e2 = b + ys.length) (hab : e1 ≤ b ∨ e2 ≤ a)
    (hr : ∀ i, r ≤ i → i < r + (xs.length + ys.length) → ¬ (a ≤ i ∧ i < e1) ∧ ¬ (b ≤ i ∧ i < e2))
    (sx : Seg s.cell a xs) (sy : Seg s.cell b ys)
    (hl : ∀ i, r ≤ i → i < r + (xs.length + ys.length) → Live s.cell i) :
    wp (mergeMove (tick lt) id id id a e1 b e2 r) (fun q s' => q = r + (xs.length + ys.length) ∧
      Seg s'.cell r (mergeL lt xs ys) ∧
      (∀ i, (a ≤ i ∧ i < e1) ∨ (b ≤ i ∧ i < e2) → s'.cell i = .moved) ∧
      (∀ i, ¬ (a ≤ i ∧ i < e1) → ¬ (b ≤ i ∧ i < e2) → (i < r ∨ r + (xs.length + ys.length) ≤ i) →
        s'.cell i = s.cell i) ∧
      s'.env = s.env) s := by
  unfold mergeMove
  split
  · rename_i h
    have : xs = [] := List.length_eq_zero_iff.1 (by omega)
    subst this
    simp only [List.length_nil, Nat.zero_add] at *
    by_cases hy : ys = []
    · subst hy
      rw [moveRange, if_neg (by simp at he2; omega)]
      exact wp_pure ⟨by simp, by simpa using Seg.nil, fun i hi => by simp at he2; omega, fun _ _ _ _ => rfl, rfl⟩
    have hlen : 0 < ys.length := List.length_pos_iff.2 hy
    refine wp_mono (moveRange_seg (s0 := s) ys b e2 r s (by omega) ?_ sy hl rfl) ?_
    · by_contra hc
      by_cases hrb : b ≤ r
      · exact (hr r (by omega) (by omega)).2 ⟨by omega, by omega⟩
      · omega
    · rintro q s' ⟨k1, k2, k3, k4, k5, k6⟩
      refine ⟨by omega, by simpa using k2, ?_, ?_, k5⟩
      · intro i hi
        refine k3 i (by omega) (by omega) ?_
        by_contra hc
        exact (hr i (by omega) (by omega)).2 (by omega)
      · intro i g1 g2 g3
        exact k4 i (by omega) (by omega)
  · split
    · rename_i h0 h
      have : ys = [] := List.length_eq_zero_iff.1 (by omega)
      subst this
      simp only [List.length_nil, Nat.add_zero] at *
      refine wp_mono (moveRange_seg (s0 := s) xs a e1 r s (by omega) ?_ sx hl rfl) ?_
      · by_contra hc
        by_cases hrb : a ≤ r
        · exact (hr r (by omega) (by omega)).1 ⟨by omega, by omega⟩
        · omega
      · rintro q s' ⟨k1, k2, k3, k4, k5, k6⟩
        refine ⟨by omega, by simpa using k2, ?_, ?_, k5⟩
        · intro i hi
          refine k3 i (by omega) (by omega) ?_
          by_contra hc
          exact (hr i (by omega) (by omega)).1 (by omega)
        · intro i g1 g2 g3
          exact k4 i (by omega) (by omega)
    · rename_i h0 h
      exact mergeMoveLoop_seg (s0 := s) _ xs ys a e1 b e2 r s rfl
        (by intro e; subst e; simp at he1; omega) (by intro e; subst e; simp at he2; omega) he1 he2 hab hr sx sy hl rfl

end CppSort
