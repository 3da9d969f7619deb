import Verif.Model.Tim
import Verif.Proof.Spin
/-
Reversal, rotations by one element, runs and binary insertion (timsort.h) on ranges described by lists.
-/
set_option autoImplicit false

namespace CppSort
variable {α : Type} {lt : α → α → Bool}

/-- The range `[a, a+n)` now holds `ys`; nothing else changed. -/
structure SegTo (a n : Nat) (ys : List α) (s s' : St α) : Prop where
  out : Seg s'.cell a ys
  rest : ∀ i, i < a ∨ a + n ≤ i → s'.cell i = s.cell i
  env : s'.env = s.env

theorem SegTo.cmps {a n k : Nat} {ys : List α} {s s' : St α} (h : SegTo a n ys { s with cmps := k } s') :
    SegTo a n ys s s' := ⟨h.1, h.2, h.3⟩

theorem SegTo.refl {a k : Nat} {xs : List α} {s : St α} (h : Seg s.cell a xs) :
    SegTo a xs.length xs s { s with cmps := k } := ⟨h, fun _ _ => rfl, rfl⟩

theorem reverse_seg (n : Nat) : ∀ (xs : List α) (a l : Nat) (s : St α), xs.length = n → l = a + xs.length →
    Seg s.cell a xs → wp (reverse a l) (fun _ s' => SegTo a xs.length xs.reverse s s') s := by
  induction n using Nat.strongRecOn with
  | _ n ih =>
    intro xs a l s hn hl hs
    match xs with
    | [] =>
      rw [reverse, if_neg (by simp at hl; omega)]
      exact wp_pure ⟨hs, fun _ _ => rfl, rfl⟩
    | [x] =>
      rw [reverse, if_pos (by simp at hl; omega), if_pos (by simp at hl; omega)]
      exact wp_pure ⟨hs, fun _ _ => rfl, rfl⟩
    | x :: z :: zs =>
      obtain ⟨ys, y, e⟩ : ∃ ys y, z :: zs = ys ++ [y] :=
        ⟨_, _, (List.dropLast_append_getLast (l := z :: zs) (by simp)).symm⟩
      rw [e] at hs hn hl ⊢
      simp only [List.length_cons, List.length_append, List.length_nil] at hn hl ⊢
      obtain ⟨h1, h2⟩ := seg_cons.1 hs
      obtain ⟨h2, h3⟩ := seg_snoc.1 h2
      rw [reverse, if_pos (by omega), if_neg (by omega)]
      apply wp_bind
      refine wp_swap' h1 (show s.cell (l - 1) = .val y by rw [show l - 1 = a + 1 + ys.length by omega]; exact h3) ?_
      intro s1 hc1 he1 _ _
      refine wp_mono (ih ys.length (by omega) ys (a + 1) (l - 1) s1 rfl (by omega) ?_) ?_
      · rw [hc1]; exact (h2.out (by omega)).out (by omega)
      · rintro _ s' ⟨k1, k2, k3⟩
        refine ⟨?_, ?_, by rw [k3, he1]⟩
        · rw [List.reverse_cons, List.reverse_append, List.reverse_singleton, List.singleton_append]
          refine seg_snoc.2 ⟨seg_cons.2 ⟨?_, k1⟩, ?_⟩
          · rw [k2 a (by omega), hc1, sc_ne (by omega), sc_eq rfl]
          · simp only [List.length_cons, List.length_reverse]
            rw [k2 _ (by omega), hc1, sc_eq (by omega)]
        · intro i hi
          rw [k2 i (by omega), hc1, sc_ne (by omega), sc_ne (by omega)]

theorem rotateLeft_seg {x : α} {xs : List α} {a l : Nat} {s : St α} (hl : l = a + xs.length + 1)
    (hs : Seg s.cell a (x :: xs)) :
    wp (rotateLeft a l) (fun _ s' => SegTo a (xs.length + 1) (xs ++ [x]) s s') s := by
  obtain ⟨h1, h2⟩ := seg_cons.1 hs
  unfold rotateLeft
  apply wp_bind
  refine wp_moveOut' h1 ?_
  intro s1 hc1 he1 _ _
  apply wp_bind
  refine wp_mono (moveRange_seg (s0 := s) xs (a + 1) l a s1 (by omega) (by omega)
    (by rw [hc1]; exact h2.out (by omega)) ?_ he1) ?_
  · intro i k1 k2
    rw [hc1]
    by_cases e : i = a
    · exact .moved e
    · exact (h2.live (by omega) (by omega)).out e
  rintro r s2 ⟨rfl, k1, k2, k3, k4, _⟩
  apply wp_bind
  refine wp_assign' ?_ ?_
  · by_cases e : xs.length = 0
    · left; rw [k3 _ (by omega) (by omega), hc1, sc_eq (by omega)]
    · left; exact k2 _ (by omega) (by omega) (by omega)
  intro s3 hc3 he3 _ _
  refine wp_pure ⟨seg_snoc.2 ⟨?_, ?_⟩, ?_, by rw [he3, k4]⟩
  · rw [hc3]; exact k1.out (by omega)
  · rw [hc3, sc_eq rfl]
  · intro i hi
    rw [hc3, sc_ne (by omega), k3 i (by omega) (by omega), hc1, sc_ne (by omega)]

theorem rotateRight_seg {x : α} {xs : List α} {a l : Nat} {s : St α} (hl : l = a + xs.length + 1)
    (hs : Seg s.cell a (xs ++ [x])) :
    wp (rotateRight a l) (fun _ s' => SegTo a (xs.length + 1) (x :: xs) s s') s := by
  obtain ⟨h1, h2⟩ := seg_snoc.1 hs
  unfold rotateRight
  apply wp_bind
  refine wp_moveOut' (a := x) (by rw [show l - 1 = a + xs.length by omega]; exact h2) ?_
  intro s1 hc1 he1 _ _
  apply wp_bind
  refine wp_mono (moveBackward_seg (s0 := s) xs.length xs a (l - 1) l s1 rfl (by omega) (by omega) (by omega)
    (by rw [hc1]; exact h1.out (by omega)) ?_ he1) ?_
  · intro i k1 k2
    rw [hc1]
    by_cases e : i = l - 1
    · exact .moved e
    · exact (h1.live (by omega) (by omega)).out e
  rintro r s2 ⟨rfl, k1, k2, k3, k4, _⟩
  apply wp_bind
  refine wp_assign' ?_ ?_
  · by_cases e : xs.length = 0
    · left; rw [k3 _ (by omega) (by omega), hc1, sc_eq (by omega)]
    · left; exact k2 _ (by omega) (by omega) (by omega)
  intro s3 hc3 he3 _ _
  refine wp_pure ⟨seg_cons.2 ⟨?_, ?_⟩, ?_, by rw [he3, k4]⟩
  · rw [hc3, sc_eq rfl]
  · rw [hc3, show a + 1 = l - xs.length by omega]; exact k1.out (by omega)
  · intro i hi
    rw [hc3, sc_ne (by omega), k3 i (by omega) (by omega), hc1, sc_ne (by omega)]

/-- One insertion of timsort.h 153-162. -/
theorem binaryLoop_seg (hlt : StrictWeak lt) : ∀ (ys xs : List α) (lo hi start : Nat) (s : St α),
    start = lo + xs.length → hi = start + ys.length → Seg s.cell lo (xs ++ ys) → SortedList lt xs →
    wp (binaryLoop (tick lt) lo hi start) (fun _ s' => ∃ zs, SSorted lt (xs ++ ys) zs ∧
      SegTo lo (xs.length + ys.length) zs s s') s := by
  intro ys
  induction ys with
  | nil =>
    intro xs lo hi start s h1 h2 hs ho
    rw [binaryLoop, if_neg (by simp at h2; omega)]
    rw [List.append_nil] at hs ⊢
    exact wp_pure ⟨xs, .refl ho, hs, fun _ _ => rfl, rfl⟩
  | cons y ys ih =>
    intro xs lo hi start s h1 h2 hs ho
    simp only [List.length_cons] at h2
    obtain ⟨sx, sy⟩ := seg_append.1 hs
    obtain ⟨sy, sys⟩ := seg_cons.1 sy
    rw [← h1] at sy sys
    rw [binaryLoop, if_pos (by omega)]
    apply wp_bind
    refine wp_moveOut' sy ?_
    intro s1 hc1 he1 _ _
    have sx1 : Seg s1.cell lo xs := by rw [hc1]; exact sx.out (by omega)
    apply wp_bind
    refine wp_mono (upperBound_seg hlt y h1 sx1 ho) ?_
    rintro pos _ ⟨us, vs, k, rfl, rfl, g1, g2, rfl⟩
    simp only [List.length_append] at h1
    obtain ⟨su, sv⟩ := seg_append.1 sx1
    apply wp_bind
    refine wp_mono (moveBackward_seg (s0 := s) vs.length vs (lo + us.length) start (start + 1) _ rfl (by omega) (by omega)
      (by omega) sv ?_ he1) ?_
    · intro i k1 k2
      show Live s1.cell i
      by_cases e : i = start
      · rw [hc1]; exact .moved e
      · exact sv.live (by omega) (by omega)
    rintro r s2 ⟨rfl, k1, k2, k3, k4, _⟩
    apply wp_bind
    refine wp_assign' ?_ ?_
    · by_cases e : vs.length = 0
      · left; rw [k3 _ (by omega) (by omega)]; show s1.cell _ = _; rw [hc1, sc_eq (by omega)]
      · left; exact k2 _ (by omega) (by omega) (by omega)
    intro s3 hc3 he3 _ _
    have hm : mergeL lt (us ++ vs) [y] = us ++ y :: vs := by
      rw [mergeL_prefix g1, mergeL_head g2]; simp
    have hss : SSorted lt ((us ++ vs) ++ [y]) (us ++ y :: vs) := by
      have := SSorted.merge hlt (SSorted.refl ho) (SSorted.refl (lt := lt) (xs := [y]) (List.pairwise_singleton _ _))
      rwa [hm] at this
    have h3 : ∀ i, (i < lo ∨ start + 1 ≤ i) → s3.cell i = s.cell i := by
      intro i hi
      rw [hc3, sc_ne (by omega), k3 i (by omega) (by omega)]
      show s1.cell i = _
      rw [hc1, sc_ne (by omega)]
    refine wp_mono (ih (us ++ y :: vs) lo hi (start + 1) s3 (by simp; omega) (by omega) ?_ hss.2.1) ?_
    · refine seg_append.2 ⟨seg_append.2 ⟨?_, seg_cons.2 ⟨?_, ?_⟩⟩, ?_⟩
      · refine su.congr fun i k1 k2 => ?_
        rw [hc3, sc_ne (by omega), k3 i (by omega) (by omega)]
      · rw [hc3, sc_eq rfl]
      · rw [hc3, show lo + us.length + 1 = start + 1 - vs.length by omega]
        exact k1.out (by omega)
      · simp only [List.length_append, List.length_cons]
        rw [show lo + (us.length + (vs.length + 1)) = start + 1 by omega]
        exact sys.congr fun i k1 k2 => h3 i (by omega)
    · rintro _ s' ⟨zs, z1, z2⟩
      refine ⟨zs, ?_, z2.1, ?_, by rw [z2.3, he3, k4]⟩
      · rw [List.append_cons]
        refine ⟨z1.1.trans (hss.1.append_right _), z1.2.1, fun x => ?_⟩
        rw [z1.2.2 x, List.filter_append, hss.2.2 x, ← List.filter_append]
      · intro i hi
        simp only [List.length_append, List.length_cons] at hi
        rw [z2.2 i (by simp only [List.length_append, List.length_cons]; omega), h3 i (by omega)]

theorem binarySort_seg (hlt : StrictWeak lt) {ys xs : List α} {lo hi start : Nat} {s : St α} (hx : xs ≠ [])
    (h1 : start = lo + xs.length) (h2 : hi = start + ys.length) (hs : Seg s.cell lo (xs ++ ys)) (ho : SortedList lt xs) :
    wp (binarySort (tick lt) lo hi start) (fun _ s' => ∃ zs, SSorted lt (xs ++ ys) zs ∧
      SegTo lo (xs.length + ys.length) zs s s') s := by
  have := List.length_pos_iff.2 hx
  unfold binarySort
  rw [if_neg (by omega)]
  exact binaryLoop_seg hlt ys xs lo hi start s h1 h2 hs ho

theorem runLoop_seg : ∀ (zs : List α) (y : α) (runHi hi : Nat) (s : St α), hi = runHi + 1 + zs.length →
    Seg s.cell runHi (y :: zs) →
    wp (runLoop (tick lt) hi runHi) (fun q s' => ∃ us vs k, zs = (us ++ vs : List α) ∧ q = runHi + 1 + us.length ∧
      (y :: us).IsChain (fun u w => lt w u = true) ∧ s' = { s with cmps := k }) s := by
  intro zs
  induction zs with
  | nil =>
    intro y runHi hi s h hs
    rw [runLoop, if_neg (by simp at h; omega)]
    exact wp_pure ⟨[], [], s.cmps, rfl, rfl, .singleton _, rfl⟩
  | cons z zs ih =>
    intro y runHi hi s h hs
    simp only [List.length_cons] at h
    obtain ⟨h1, h2⟩ := seg_cons.1 hs
    rw [runLoop, if_pos (by omega)]
    apply wp_bind
    refine wp_read' (seg_cons.1 h2).1 ?_
    apply wp_bind
    refine wp_read' (x := y) (by rw [show runHi + 1 - 1 = runHi by omega]; exact h1) ?_
    apply wp_bind
    refine wp_tick ?_
    split
    · rename_i hc
      refine wp_mono (ih z (runHi + 1) hi _ (by omega) h2) ?_
      rintro q _ ⟨us, vs, k, rfl, rfl, g1, rfl⟩
      exact ⟨z :: us, vs, k, rfl, by simp; omega, .cons_cons hc g1, rfl⟩
    · exact wp_pure ⟨[], z :: zs, _, rfl, rfl, .singleton _, rfl⟩

/-- timsort.h `countRunAndMakeAscending`. -/
theorem countRun_seg (hlt : StrictWeak lt) {xs : List α} {lo hi : Nat} {s : St α} (hx : xs ≠ [])
    (hl : hi = lo + xs.length) (hs : Seg s.cell lo xs) :
    wp (countRun (tick lt) lo hi) (fun n s' => ∃ us us' vs, xs = (us ++ vs : List α) ∧ us ≠ [] ∧ n = us.length ∧
      SSorted lt us us' ∧ SegTo lo us.length us' s s') s := by
  unfold countRun
  match xs with
  | [x] =>
    rw [if_pos (by simp at hl; omega)]
    exact wp_pure ⟨[x], [x], [], rfl, by simp, rfl, .refl (List.pairwise_singleton _ _), hs, fun _ _ => rfl, rfl⟩
  | x :: y :: zs =>
    simp only [List.length_cons] at hl
    rw [if_neg (by omega)]
    obtain ⟨h1, h2⟩ := seg_cons.1 hs
    apply wp_bind
    refine wp_read' (seg_cons.1 h2).1 ?_
    apply wp_bind
    refine wp_read' h1 ?_
    apply wp_bind
    refine wp_tick ?_
    split
    · rename_i hc
      apply wp_bind
      refine wp_mono (runLoop_seg zs y (lo + 1) hi _ (by omega) h2) ?_
      rintro q _ ⟨us, vs, k, rfl, rfl, g1, rfl⟩
      have hu : Seg s.cell lo (x :: y :: us) := ((seg_append (xs := x :: y :: us)).1 hs).1
      apply wp_bind
      refine wp_mono (reverse_seg _ (x :: y :: us) lo _ { s with cmps := k } rfl (by simp; omega) hu) ?_
      intro _ s' hs'
      refine wp_pure ⟨x :: y :: us, _, vs, rfl, by simp, by simp; omega, ssorted_reverse hlt ?_, hs'.cmps⟩
      apply strict_of_chain hlt
      have := List.IsChain.cons_cons (R := fun u w => lt w u = true) hc g1
      simpa using this
    · rename_i hc
      apply wp_bind
      rw [notC_tick]
      refine wp_mono (runLoop_seg zs y (lo + 1) hi _ (by omega) h2) ?_
      rintro q _ ⟨us, vs, k, rfl, rfl, g1, rfl⟩
      have hu : Seg s.cell lo (x :: y :: us) := ((seg_append (xs := x :: y :: us)).1 hs).1
      refine wp_pure ⟨x :: y :: us, _, vs, rfl, by simp, by simp; omega, .refl (sorted_of_chain hlt ?_), hu,
        fun _ _ => rfl, rfl⟩
      refine List.IsChain.cons_cons (by simpa using hc) ?_
      simpa using g1

end CppSort
