import Verif.Model.Grail
import Verif.Proof.SegOps
import Verif.Proof.SegFind
import Verif.Proof.StablePartition
/-
grail_sort.h: comparisons; the cells of a buffer, and moving elements over them.
-/
set_option autoImplicit false

namespace CppSort
variable {α : Type} {lt : α → α → Bool}

/-- Permutations, by counting. -/
macro "permc" "[" hs:term,* "]" : tactic => do
  let hs := hs.getElems
  `(tactic| (classical
             refine List.perm_iff_count.2 fun z => ?_
             $[have := List.Perm.count_eq $hs z]*
             simp only [List.count_append, List.count_cons, List.count_nil] at *
             omega))

/-! ### Comparisons -/

/-- The value of a three-way comparison. -/
def cmp3 (lt : α → α → Bool) (x y : α) : Int := if lt x y then -1 else if lt y x then 1 else 0

theorem grailCmp3_spec {x y : α} {s : St α} {Q : Int → St α → Prop} (hQ : ∀ k, Q (cmp3 lt x y) { s with cmps := k }) :
    wp (grailCmp3 (tick lt) x y) Q s := by
  unfold grailCmp3
  refine wp_bind (wp_tick ?_)
  unfold cmp3 at hQ
  cases h : lt x y with
  | true => exact wp_pure (by simpa [h] using hQ _)
  | false =>
    refine wp_bind (wp_tick ?_)
    cases h' : lt y x with
    | true => exact wp_pure (by simpa [h, h'] using hQ _)
    | false => exact wp_pure (by simpa [h, h'] using hQ _)

theorem grailCmp3At_spec {i j : Nat} {x y : α} {s : St α} {Q : Int → St α → Prop} (hi : s.cell i = .val x)
    (hj : s.cell j = .val y) (hQ : ∀ k, Q (cmp3 lt x y) { s with cmps := k }) :
    wp (grailCmp3At (tick lt) i j) Q s :=
  wp_bind (wp_read' hi (wp_bind (wp_read' hj (grailCmp3_spec hQ))))

theorem cmp3_pos (hlt : StrictWeak lt) {x y : α} : decide (cmp3 lt x y > 0) = lt y x := by
  unfold cmp3
  cases h : lt x y with
  | true => rw [hlt.asymm h]; rfl
  | false => cases lt y x <;> rfl

theorem cmp3_neg {x y : α} : decide (cmp3 lt x y < 0) = lt x y := by
  unfold cmp3
  cases h : lt x y with
  | true => rfl
  | false => cases lt y x <;> rfl

theorem cmp3_le (hlt : StrictWeak lt) {x y : α} : cmp3 lt x y ≤ 0 ↔ lt y x = false := by
  rw [← cmp3_pos hlt]; simp

theorem cmp3_ne (hlt : StrictWeak lt) {x y : α} : decide (cmp3 lt x y ≠ 0) = (lt x y || lt y x) := by
  unfold cmp3
  cases h : lt x y with
  | true => rfl
  | false => cases lt y x <;> rfl

/-- The test that chooses the left element in a merge. -/
def leftFirst (lt : α → α → Bool) (fragType : Bool) (x y : α) : Bool := if fragType then !lt y x else lt x y

theorem fragLess_spec (hlt : StrictWeak lt) {ft : Bool} {i j : Nat} {x y : α} {s : St α} {Q : Bool → St α → Prop}
    (hi : s.cell i = .val x) (hj : s.cell j = .val y) (hQ : ∀ k, Q (leftFirst lt ft x y) { s with cmps := k }) :
    wp (fragLess (tick lt) ft i j) Q s := by
  unfold fragLess
  refine wp_bind (grailCmp3At_spec hi hj fun k => wp_pure ?_)
  have : decide (cmp3 lt x y - (if ft = true then 1 else 0) < 0) = leftFirst lt ft x y := by
    unfold leftFirst
    cases ft with
    | false => simpa using cmp3_neg
    | true =>
      have h := cmp3_pos hlt (x := x) (y := y)
      cases h' : lt y x <;> rw [h'] at h <;> simp at h ⊢ <;> omega
  rw [this]
  exact hQ k

theorem orGreater_spec (hlt : StrictWeak lt) {stop : Bool} {i j : Nat} {s : St α} {Q : Bool → St α → Prop}
    (h1 : stop = true → Q true s)
    (h2 : stop = false → ∃ x y, s.cell i = .val x ∧ s.cell j = .val y ∧ ∀ k, Q (lt y x) { s with cmps := k }) :
    wp (orGreater (tick lt) stop i j) Q s := by
  unfold orGreater
  cases stop with
  | true => exact wp_pure (h1 rfl)
  | false =>
    obtain ⟨x, y, hx, hy, hQ⟩ := h2 rfl
    refine wp_bind (grailCmp3At_spec hx hy fun k => wp_pure ?_)
    rw [cmp3_pos hlt]; exact hQ k

/-! ### Buffers -/

/-- The cells from `a` are a buffer: live objects when elements are moved, the elements `J` when they are exchanged. -/
def Gap (b : GrailBuf) (c : Nat → Cell α) (a : Nat) (J : List α) : Prop :=
  match b with
  | .extra => ∀ i, a ≤ i → i < a + J.length → Live c i
  | _ => Seg c a J

theorem Gap.nil {b : GrailBuf} {c : Nat → Cell α} {a : Nat} : Gap b c a [] := by
  cases b <;> first | exact Seg.nil | exact fun i h1 h2 => absurd h2 (by simp; omega)

theorem Gap.congr {b : GrailBuf} {c c' : Nat → Cell α} {a : Nat} {J : List α} (h : Gap b c a J)
    (e : ∀ i, a ≤ i → i < a + J.length → c' i = c i) : Gap b c' a J := by
  cases b with
  | extra => exact fun i h1 h2 => by unfold Live; rw [e i h1 h2]; exact h i h1 h2
  | inner => exact Seg.congr h e
  | none => exact Seg.congr h e

theorem gap_append {b : GrailBuf} {c : Nat → Cell α} {a : Nat} {J K : List α} :
    Gap b c a (J ++ K) ↔ Gap b c a J ∧ Gap b c (a + J.length) K := by
  cases b with
  | extra =>
    simp only [Gap, List.length_append]
    refine ⟨fun h => ⟨fun i h1 h2 => h i h1 (by omega), fun i h1 h2 => h i (by omega) (by omega)⟩, fun h i h1 h2 => ?_⟩
    by_cases hi : i < a + J.length
    · exact h.1 i h1 hi
    · exact h.2 i (by omega) (by omega)
  | inner => exact seg_append
  | none => exact seg_append

theorem gap_cons {b : GrailBuf} {c : Nat → Cell α} {a : Nat} {j : α} {J : List α} :
    Gap b c a (j :: J) ↔ Gap b c a [j] ∧ Gap b c (a + 1) J :=
  gap_append (J := [j])

theorem gap_snoc {b : GrailBuf} {c : Nat → Cell α} {a : Nat} {j : α} {J : List α} :
    Gap b c a (J ++ [j]) ↔ Gap b c a J ∧ Gap b c (a + J.length) [j] := gap_append

theorem Seg.gap {b : GrailBuf} {c : Nat → Cell α} {a : Nat} {J : List α} (h : Seg c a J) : Gap b c a J := by
  cases b with
  | extra => exact fun i h1 h2 => h.live h1 h2
  | inner => exact h
  | none => exact h

theorem Gap.live {b : GrailBuf} {c : Nat → Cell α} {a : Nat} {J : List α} (h : Gap b c a J) {i : Nat} (h1 : a ≤ i)
    (h2 : i < a + J.length) : Live c i := by
  cases b with
  | extra => exact h i h1 h2
  | inner => exact Seg.live h h1 h2
  | none => exact Seg.live h h1 h2

/-- The order of the arguments of `iter_swap` does not matter. -/
theorem swap_comm (i j : Nat) (s : St α) (hi : ∃ a, s.cell i = .val a) (hj : ∃ a, s.cell j = .val a) :
    swap i j s = swap j i s := by
  obtain ⟨a, ha⟩ := hi
  obtain ⟨b, hb⟩ := hj
  by_cases h : i = j
  · rw [h]
  · simp only [swap, ha, hb]
    congr 3
    funext k
    simp only [setCell]
    by_cases h1 : k = i <;> by_cases h2 : k = j <;> simp_all

/-- Putting an element in a cell of the buffer: the buffer gets the cell of the element. -/
theorem put_spec {b : GrailBuf} {dst src : Nat} {x j : α} {s : St α} {Q : Unit → St α → Prop} (hne : dst ≠ src)
    (hs : s.cell src = .val x) (hd : Gap b s.cell dst [j])
    (hQ : ∀ s', s'.cell dst = .val x → Gap b s'.cell src [j] → (∀ i, i ≠ dst → i ≠ src → s'.cell i = s.cell i) →
      s'.env = s.env → Q () s') : wp (b.put dst src) Q s := by
  have sw : ∀ (hd : s.cell dst = .val j) (hQ : ∀ s', s'.cell dst = .val x → s'.cell src = .val j →
      (∀ i, i ≠ dst → i ≠ src → s'.cell i = s.cell i) → s'.env = s.env → Q () s'), wp (swap dst src) Q s := by
    intro hd hQ
    refine wp_swap' hd hs fun s' hc he _ _ => hQ s' ?_ ?_ ?_ he
    · rw [hc]; sc
    · rw [hc]; sc
    · intro i h1 h2; rw [hc, sc_ne h2, sc_ne h1]
  cases b with
  | extra =>
    refine wp_moveTo' hne hs (hd dst (Nat.le_refl _) (by simp)) fun s' hc he _ _ => hQ s' ?_ ?_ ?_ he
    · rw [hc]; sc
    · intro i h1 h2
      have : i = src := by simp at h2; omega
      subst this
      exact .inl (by rw [hc, sc_ne (by omega), sc_eq rfl])
    · intro i h1 h2; rw [hc, sc_ne h1, sc_ne h2]
  | inner => exact sw (seg_one.1 hd) fun s' h1 h2 => hQ s' h1 (seg_one.2 h2)
  | none => exact sw (seg_one.1 hd) fun s' h1 h2 => hQ s' h1 (seg_one.2 h2)

/-- Moving elements to the left over a buffer. -/
theorem putRange_spec {b : GrailBuf} : ∀ (xs J : List α) (a m l : Nat) (s : St α), m = a + J.length → l = m + xs.length →
    0 < J.length → Gap b s.cell a J → Seg s.cell m xs →
    wp (putRange b.put m l a) (fun _ s' => ∃ J', J'.Perm J ∧ Seg s'.cell a xs ∧ Gap b s'.cell (a + xs.length) J' ∧
      Frame a l s s') s := by
  intro xs
  induction xs with
  | nil =>
    intro J a m l s hm hl hJ hg hs
    rw [putRange, if_neg (by simp at hl; omega)]
    exact wp_pure ⟨J, .refl _, Seg.nil, by simpa using hg, Frame.refl _ _ _⟩
  | cons x xs ih =>
    intro J a m l s hm hl hJ hg hs
    cases J with
    | nil => simp at hJ
    | cons j J =>
      simp only [List.length_cons] at hm hl
      obtain ⟨g1, g2⟩ := gap_cons.1 hg
      obtain ⟨h1, h2⟩ := seg_cons.1 hs
      rw [putRange, if_pos (by omega)]
      apply wp_bind
      refine put_spec (by omega) h1 g1 ?_
      intro s1 k1 k2 k3 k4
      refine wp_mono (ih (J ++ [j]) (a + 1) (m + 1) l s1 (by simp; omega) (by omega) (by simp) ?_ ?_) ?_
      · refine gap_snoc.2 ⟨g2.congr fun i _ _ => k3 i (by omega) (by omega), ?_⟩
        rw [show a + 1 + J.length = m by omega]; exact k2
      · exact h2.congr fun i _ _ => k3 i (by omega) (by omega)
      · rintro _ s2 ⟨J', p1, p2, p3, p4⟩
        refine ⟨J', p1.trans (List.perm_append_comm), seg_cons.2 ⟨?_, p2⟩, ?_, ?_⟩
        · rw [p4.cell a (by omega)]; exact k1
        · rw [List.length_cons, show a + (xs.length + 1) = a + 1 + xs.length by omega]; exact p3
        · exact (Frame.of_env k4 fun i hi => k3 i (by omega) (by omega)).trans (p4.mono (by omega) (Nat.le_refl _))

/-- Moving elements to the right over a buffer. -/
theorem putBack_spec {b : GrailBuf} : ∀ (n : Nat) (xs J : List α) (a m l : Nat) (s : St α), xs.length = n → m = a + n →
    l = m + J.length → 0 < J.length → Seg s.cell a xs → Gap b s.cell m J →
    wp (putBack b.put m l n) (fun _ s' => ∃ J', J'.Perm J ∧ Gap b s'.cell a J' ∧ Seg s'.cell (a + J.length) xs ∧
      Frame a l s s') s := by
  intro n
  induction n with
  | zero =>
    intro xs J a m l s hn hm hl hJ hs hg
    rw [List.length_eq_zero_iff] at hn
    subst hn
    rw [putBack]
    exact wp_pure ⟨J, .refl _, by rwa [show a = m by omega], Seg.nil, Frame.refl _ _ _⟩
  | succ n ih =>
    intro xs J a m l s hn hm hl hJ hs hg
    obtain ⟨xs, x, rfl⟩ := List.eq_nil_or_concat' xs |>.resolve_left (by rintro rfl; simp at hn)
    obtain ⟨J, j, rfl⟩ := List.eq_nil_or_concat' J |>.resolve_left (by rintro rfl; simp at hJ)
    simp only [List.length_append, List.length_cons, List.length_nil] at hn hl
    obtain ⟨g1, g2⟩ := gap_snoc.1 hg
    obtain ⟨h1, h2⟩ := seg_snoc.1 hs
    rw [putBack]
    apply wp_bind
    refine put_spec (x := x) (j := j) (by omega) ?_ ?_ ?_
    · rw [show m - 1 = a + xs.length by omega]; exact h2
    · rw [show l - 1 = m + J.length by omega]; exact g2
    intro s1 k1 k2 k3 k4
    refine wp_mono (ih xs (j :: J) a (m - 1) (l - 1) s1 (by omega) (by omega) (by simp; omega) (by simp) ?_ ?_) ?_
    · exact h1.congr fun i _ _ => k3 i (by omega) (by omega)
    · refine gap_cons.2 ⟨k2, ?_⟩
      rw [show m - 1 + 1 = m by omega]
      exact g1.congr fun i _ _ => k3 i (by omega) (by omega)
    · rintro _ s2 ⟨J', p1, p2, p3, p4⟩
      simp only [List.length_cons] at p3
      refine ⟨J', p1.trans ?_, p2, seg_snoc.2 ⟨?_, ?_⟩, ?_⟩
      · exact (List.perm_append_comm (l₁ := [j]))
      · simpa using p3
      · rw [show a + (J ++ [j]).length + xs.length = l - 1 by simp; omega, p4.cell _ (by omega)]; exact k1
      · exact (Frame.of_env k4 fun i hi => k3 i (by omega) (by omega)).trans (p4.mono (Nat.le_refl _) (by omega))

end CppSort
