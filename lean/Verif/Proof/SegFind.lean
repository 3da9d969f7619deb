import Verif.Proof.SegMerge
/-
`is_sorted_until`, `upper_bound`, `lower_bound`, a reversal by swaps, and merging by insertion, on ranges
described by lists.
-/
set_option autoImplicit false

namespace CppSort
variable {α : Type} {lt : α → α → Bool}

theorem notC_tick : notC (tick lt) = tick (fun x y => !lt x y) := rfl

theorem isSortedUntilLoop_seg : ∀ (xs : List α) (x : α) (a l : Nat) (s : St α), l = a + xs.length + 1 →
    Seg s.cell a (x :: xs) →
    wp (isSortedUntilLoop (tick lt) a l) (fun q s' => ∃ us vs k, x :: xs = (us ++ vs : List α) ∧ us ≠ [] ∧
      q = a + us.length ∧ us.IsChain (fun u w => lt w u = false) ∧ (∀ u ∈ us.getLast?, ∀ w ∈ vs.head?, lt w u = true) ∧
      s' = { s with cmps := k }) s := by
  intro xs
  induction xs with
  | nil =>
    intro x a l s hl hs
    rw [isSortedUntilLoop]
    rw [if_neg (by simp at hl; omega)]
    exact wp_pure ⟨[x], [], s.cmps, rfl, by simp, by simpa using hl, by simp, by simp, rfl⟩
  | cons y ys ih =>
    intro x a l s hl hs
    simp only [List.length_cons] at hl
    obtain ⟨h1, h2⟩ := seg_cons.1 hs
    rw [isSortedUntilLoop]
    rw [if_pos (by omega)]
    apply wp_bind
    refine wp_read' (seg_cons.1 h2).1 ?_
    apply wp_bind
    refine wp_read' h1 ?_
    apply wp_bind
    refine wp_tick ?_
    split
    · rename_i hb
      exact wp_pure ⟨[x], y :: ys, _, rfl, by simp, rfl, by simp, by simpa using hb, rfl⟩
    · rename_i hb
      refine wp_mono (ih y (a + 1) l _ (by omega) h2) ?_
      rintro q s' ⟨us, vs, k, e1, e2, e3, e4, e5, e6⟩
      obtain ⟨u, us, rfl⟩ := List.exists_cons_of_ne_nil e2
      simp only [List.cons_append, List.cons.injEq] at e1
      obtain ⟨e0, e1⟩ := e1
      subst e0
      refine ⟨x :: y :: us, vs, k, by simp [e1], by simp, by simp at e3 ⊢; omega, ?_, ?_, e6⟩
      · exact List.isChain_cons_cons.2 ⟨by simpa using hb, e4⟩
      · simpa using e5

theorem isSortedUntil_seg {xs : List α} {a l : Nat} {s : St α} (hl : l = a + xs.length) (hx : xs ≠ [])
    (hs : Seg s.cell a xs) :
    wp (isSortedUntil (tick lt) a l) (fun q s' => ∃ us vs k, xs = (us ++ vs : List α) ∧ us ≠ [] ∧
      q = a + us.length ∧ us.IsChain (fun u w => lt w u = false) ∧ (∀ u ∈ us.getLast?, ∀ w ∈ vs.head?, lt w u = true) ∧
      s' = { s with cmps := k }) s := by
  obtain ⟨x, xs, rfl⟩ := List.exists_cons_of_ne_nil hx
  simp only [List.length_cons] at hl
  unfold isSortedUntil
  rw [if_pos (by omega)]
  exact isSortedUntilLoop_seg xs x a l s (by omega) hs

theorem sorted_of_chain (hlt : StrictWeak lt) {us : List α} (h : us.IsChain (fun u w => lt w u = false)) :
    SortedList lt us := by
  haveI : Trans (fun u w : α => lt w u = false) (fun u w => lt w u = false) (fun u w => lt w u = false) :=
    ⟨fun h1 h2 => hlt.le_trans h1 h2⟩
  exact List.isChain_iff_pairwise.1 h

theorem strict_of_chain (hlt : StrictWeak lt) {us : List α} (h : us.IsChain (fun u w => (!lt w u) = false)) :
    us.Pairwise (fun u w => lt w u = true) := by
  haveI : Trans (fun u w : α => (!lt w u) = false) (fun u w => (!lt w u) = false) (fun u w => (!lt w u) = false) :=
    ⟨fun h1 h2 => by simp at h1 h2 ⊢; exact hlt.trans _ _ _ h2 h1⟩
  exact (List.isChain_iff_pairwise.1 h).imp fun h => by simpa using h

/-- A strictly descending list reversed is the stably sorted one. -/
theorem ssorted_reverse (hlt : StrictWeak lt) {us : List α} (h : us.Pairwise (fun u w => lt w u = true)) :
    SSorted lt us us.reverse := by
  refine ⟨List.reverse_perm us, ?_, ?_⟩
  · show List.Pairwise _ _
    rw [List.pairwise_reverse]
    exact h.imp fun h => hlt.asymm h
  · intro x
    rw [List.filter_reverse]
    have hl : (us.filter (eqv lt x)).length ≤ 1 := by
      have hp := h.filter (eqv lt x)
      have hm : ∀ u ∈ us.filter (eqv lt x), eqv lt x u = true := fun u hu => (List.mem_filter.1 hu).2
      match e : us.filter (eqv lt x) with
      | [] => simp
      | [_] => simp
      | u :: w :: _ =>
        rw [e] at hp hm
        have h1 := (List.pairwise_cons.1 hp).1 w (by simp)
        have h2 := hlt.eqv_trans (StrictWeak.eqv_symm (hm u (by simp))) (hm w (by simp))
        simp [eqv, h1] at h2
    match e : us.filter (eqv lt x) with
    | [] => rfl
    | [_] => rfl
    | u :: w :: _ => rw [e] at hl; simp at hl

/-- Swapping the elements of the first half with those of the second half, from the outside in. -/
theorem swapRangesRev_seg {s0 : St α} (n : Nat) : ∀ (xs : List α) (a m l : Nat) (s : St α), xs.length = n →
    m = a + xs.length / 2 → l = a + xs.length → Seg s.cell a xs → s.env = s0.env →
    wp (swapRangesRev a m l) (fun _ s' => Seg s'.cell a xs.reverse ∧
      (∀ i, i < a ∨ a + xs.length ≤ i → s'.cell i = s.cell i) ∧ s'.env = s0.env) s := by
  induction n using Nat.strongRecOn with
  | _ n ih =>
    intro xs a m l s hn hm hl hs he
    match xs with
    | [] =>
      rw [swapRangesRev, if_neg (by simp at hm; omega)]
      exact wp_pure ⟨hs, fun _ _ => rfl, he⟩
    | [x] =>
      rw [swapRangesRev, if_neg (by simp at hm; omega)]
      exact wp_pure ⟨hs, fun _ _ => rfl, he⟩
    | x :: z :: zs =>
      obtain ⟨ys, y, e⟩ : ∃ ys y, z :: zs = ys ++ [y] :=
        ⟨_, _, (List.dropLast_append_getLast (l := z :: zs) (by simp)).symm⟩
      rw [e] at hs hn hm hl ⊢
      simp only [List.length_cons, List.length_append, List.length_nil] at hn hm hl ⊢
      obtain ⟨h1, h2⟩ := seg_cons.1 hs
      obtain ⟨h2, h3⟩ := seg_snoc.1 h2
      rw [swapRangesRev, if_pos (by omega)]
      apply wp_bind
      refine wp_swap' h1 (show s.cell (l - 1) = .val y by rw [show l - 1 = a + 1 + ys.length by omega]; exact h3) ?_
      intro s1 hc1 he1 _ _
      refine wp_mono (ih ys.length (by omega) ys (a + 1) m (l - 1) s1 rfl (by omega) (by omega) ?_ (by rw [he1, he])) ?_
      · rw [hc1]; exact (h2.out (by omega)).out (by omega)
      · rintro _ s' ⟨k1, k2, k3⟩
        refine ⟨?_, ?_, k3⟩
        · rw [List.reverse_cons, List.reverse_append, List.reverse_singleton, List.singleton_append]
          refine seg_snoc.2 ⟨seg_cons.2 ⟨?_, k1⟩, ?_⟩
          · rw [k2 a (by omega), hc1, sc_ne (by omega), sc_eq rfl]
          · simp only [List.length_cons, List.length_reverse]
            rw [k2 _ (by omega), hc1, sc_eq (by omega)]
        · intro i hi
          rw [k2 i (by omega), hc1, sc_ne (by omega), sc_ne (by omega)]

theorem upperBound_seg (hlt : StrictWeak lt) {xs : List α} {a l : Nat} {s : St α} (value : α)
    (hl : l = a + xs.length) (hs : Seg s.cell a xs) (ho : SortedList lt xs) :
    wp (upperBound (tick lt) a l value) (fun q s' => ∃ us vs k, xs = (us ++ vs : List α) ∧ q = a + us.length ∧
      (∀ u ∈ us, lt value u = false) ∧ (∀ w ∈ vs, lt value w = true) ∧ s' = { s with cmps := k }) s := by
  haveI : Inhabited α := ⟨value⟩
  obtain ⟨v, h1, h2⟩ := hs.holds
  rw [← hl] at h1 h2
  refine wp_mono (upperBound_spec hlt value (Nat.le_refl a) (by omega) (Nat.le_refl l) h1
    (sortedOn_iff.2 (by rw [h2]; exact ho))) ?_
  rintro q s' ⟨k1, k2, k3, k4, k, k5, _⟩
  have e : xs = lst v a q ++ lst v q l := by rw [← h2]; exact lst_append k1 k2
  refine ⟨lst v a q, lst v q l, k, e, by simp; omega, ?_, ?_, k5⟩
  · intro u hu
    obtain ⟨i, i1, i2, rfl⟩ := mem_lst.1 hu
    exact k3 i i1 i2
  · intro u hu
    obtain ⟨i, i1, i2, rfl⟩ := mem_lst.1 hu
    exact k4 i i1 i2

theorem lowerBound_seg (hlt : StrictWeak lt) {xs : List α} {a l : Nat} {s : St α} (value : α)
    (hl : l = a + xs.length) (hs : Seg s.cell a xs) (ho : SortedList lt xs) :
    wp (lowerBound (tick lt) a l value) (fun q s' => ∃ us vs k, xs = (us ++ vs : List α) ∧ q = a + us.length ∧
      (∀ u ∈ us, lt u value = true) ∧ (∀ w ∈ vs, lt w value = false) ∧ s' = { s with cmps := k }) s := by
  haveI : Inhabited α := ⟨value⟩
  obtain ⟨v, h1, h2⟩ := hs.holds
  rw [← hl] at h1 h2
  refine wp_mono (lowerBound_spec hlt value (Nat.le_refl a) (by omega) (Nat.le_refl l) h1
    (sortedOn_iff.2 (by rw [h2]; exact ho))) ?_
  rintro q s' ⟨k1, k2, k3, k4, k, k5, _⟩
  have e : xs = lst v a q ++ lst v q l := by rw [← h2]; exact lst_append k1 k2
  refine ⟨lst v a q, lst v q l, k, e, by simp; omega, ?_, ?_, k5⟩
  · intro u hu
    obtain ⟨i, i1, i2, rfl⟩ := mem_lst.1 hu
    exact k3 i i1 i2
  · intro u hu
    obtain ⟨i, i1, i2, rfl⟩ := mem_lst.1 hu
    exact k4 i i1 i2

/-- Merging when the first elements of the first list come before the whole second one. -/
theorem mergeL_prefix {A1 A2 : List α} {d : α} {D : List α} (h1 : ∀ a ∈ A1, lt d a = false) :
    mergeL lt (A1 ++ A2) (d :: D) = A1 ++ mergeL lt A2 (d :: D) := by
  induction A1 with
  | nil => rfl
  | cons a A1 ih =>
    rw [List.cons_append, mergeL_cons, if_neg (by simp [h1 a (by simp)]), ih fun x hx => h1 x (by simp [hx]),
      List.cons_append]

theorem mergeL_head {A : List α} {d : α} {D : List α} (h : ∀ a ∈ A, lt d a = true) :
    mergeL lt A (d :: D) = d :: mergeL lt A D := by
  cases A with
  | nil => simp
  | cons a A => rw [mergeL_cons, if_pos (h a (by simp))]

theorem mergeL_before : ∀ {xs ys : List α}, (∀ x ∈ xs, ∀ y ∈ ys, lt y x = false) → mergeL lt xs ys = xs ++ ys
  | xs, [], _ => by simp
  | xs, y :: ys, h => by
    have := mergeL_prefix (lt := lt) (A1 := xs) (A2 := []) (d := y) (D := ys) fun a ha => h a ha y (by simp)
    simpa using this

theorem mergeL_after : ∀ {ys xs : List α}, (∀ x ∈ xs, ∀ y ∈ ys, lt y x = true) → mergeL lt xs ys = ys ++ xs
  | [], xs, _ => by simp
  | y :: ys, xs, h => by
    rw [mergeL_head fun a ha => h a ha y (by simp), mergeL_after fun x hx z hz => h x hx z (by simp [hz])]
    rfl

theorem SSorted.refl {xs : List α} (h : SortedList lt xs) : SSorted lt xs xs := ⟨.refl _, h, fun _ => rfl⟩

theorem SSorted.merge (hlt : StrictWeak lt) {xs ys xs' ys' : List α} (h1 : SSorted lt xs xs') (h2 : SSorted lt ys ys') :
    SSorted lt (xs ++ ys) (mergeL lt xs' ys') := by
  obtain ⟨k1, k2, k3⟩ := mergeL_ssorted hlt xs' ys' h1.2.1 h2.2.1
  refine ⟨k1.trans (h1.1.append h2.1), k2, fun x => ?_⟩
  rw [k3 x, List.filter_append, h1.2.2 x, h2.2.2 x, List.filter_append]

/-- The positions where the pieces end. -/
def posL (f : Nat) : List (List α) → List Nat
  | [] => []
  | q :: Qs => (f + q.length) :: posL (f + q.length) Qs

theorem posL_length : ∀ (Qs : List (List α)) (f : Nat), (posL f Qs).length = Qs.length
  | [], _ => rfl
  | _ :: Qs, _ => by simp [posL, posL_length Qs]

theorem posL_append : ∀ (Qs Rs : List (List α)) (f : Nat), posL f (Qs ++ Rs) = posL f Qs ++ posL (f + Qs.flatten.length) Rs
  | [], _, _ => by simp [posL]
  | q :: Qs, Rs, f => by
    simp only [List.cons_append, posL, posL_append Qs Rs, List.flatten_cons, List.length_append]
    rw [show f + q.length + Qs.flatten.length = f + (q.length + Qs.flatten.length) by omega]

/-- Pieces of one list, each followed by an element of another one. -/
def weave : List (List α) → List α → List α → List α
  | q :: Qs, d :: D, t => q ++ d :: weave Qs D t
  | _, _, t => t

theorem weave_snoc : ∀ (Qs : List (List α)) (D : List α) (q : List α) (d : α) (t : List α), Qs.length = D.length →
    weave (Qs ++ [q]) (D ++ [d]) t = weave Qs D q ++ d :: t
  | [], [], q, d, t, _ => by simp [weave]
  | p :: Qs, e :: D, q, d, t, h => by
    simp only [List.cons_append, weave, List.append_assoc]
    rw [weave_snoc Qs D q d t (by simpa using h)]
  | [], _ :: _, _, _, _, h => by simp at h
  | _ :: _, [], _, _, _, h => by simp at h

theorem insertBounds_seg (hlt : StrictWeak lt) {aux nd : Nat} : ∀ (D A : List α) (f l i : Nat) (s : St α),
    l = f + A.length → i + D.length = nd → Seg s.cell f A → SortedList lt A → Seg s.cell (aux + i) D →
    wp (insertBounds (tick lt) f l aux i nd) (fun ps s' => ∃ Qs tail k, A = (Qs.flatten ++ tail : List α) ∧
      Qs.length = D.length ∧ ps = posL f Qs ∧ mergeL lt A D = weave Qs D tail ∧ s' = { s with cmps := k }) s := by
  intro D
  induction D with
  | nil =>
    intro A f l i s hl hi hA hoA hD
    rw [insertBounds, if_neg (by simp at hi; omega)]
    exact wp_pure ⟨[], A, s.cmps, by simp, rfl, rfl, by simp [weave], rfl⟩
  | cons d D ih =>
    intro A f l i s hl hi hA hoA hD
    simp only [List.length_cons] at hi
    obtain ⟨hd1, hd2⟩ := seg_cons.1 hD
    rw [insertBounds, if_pos (by omega)]
    apply wp_bind
    refine wp_read' hd1 ?_
    apply wp_bind
    refine wp_mono (upperBound_seg hlt d hl hA hoA) ?_
    rintro q s1 ⟨us, vs, k, e, rfl, h1, h2, rfl⟩
    subst e
    rw [List.length_append] at hl
    apply wp_bind
    refine wp_mono (ih vs (f + us.length) l (i + 1) _ (by omega) (by omega) (seg_append.1 hA).2
      (sortedList_append.1 hoA).2.1 (by rw [← Nat.add_assoc]; exact hd2)) ?_
    rintro ps s2 ⟨Qs, tail, k', e1, e2, e3, e4, rfl⟩
    refine wp_pure ⟨us :: Qs, tail, k', by simp [e1], by simp [e2], by simp [posL, e3], ?_, rfl⟩
    rw [mergeL_prefix h1, mergeL_head h2, e4]
    rfl

theorem insertShift_seg {s0 : St α} {f aux : Nat} (n : Nat) : ∀ (Qs : List (List α)) (D cur S : List α)
    (rest : List Nat) (s : St α), Qs.length = n → D.length = n →
    (aux + n ≤ f ∨ f + Qs.flatten.length + cur.length + n + S.length ≤ aux) →
    Seg s.cell f (Qs.flatten ++ cur) →
    (∀ i, f + Qs.flatten.length + cur.length ≤ i → i < f + Qs.flatten.length + cur.length + n → Live s.cell i) →
    Seg s.cell (f + Qs.flatten.length + cur.length + n) S → Seg s.cell aux D → s.env = s0.env →
    wp (insertShift (posL f (Qs ++ [cur]) ++ rest) aux n) (fun _ s' => Seg s'.cell f (weave Qs D cur ++ S) ∧
      (∀ i, aux ≤ i → i < aux + n → Live s'.cell i) ∧
      (∀ i, (i < f ∨ f + Qs.flatten.length + cur.length + n + S.length ≤ i) → (i < aux ∨ aux + n ≤ i) →
        s'.cell i = s.cell i) ∧ s'.env = s0.env) s := by
  induction n with
  | zero =>
    intro Qs D cur S rest s hq hd _ hs _ hS _ he
    rw [List.length_eq_zero_iff] at hq hd
    subst hq hd
    simp only [List.flatten_nil, List.nil_append, List.length_nil, Nat.add_zero] at hs hS ⊢
    unfold insertShift
    refine wp_pure ⟨?_, fun i h1 h2 => by omega, fun _ _ _ => rfl, he⟩
    exact seg_append.2 ⟨hs, hS⟩
  | succ n ih =>
    intro Qs D cur S rest s hq hd hdis hs hgap hS hD he
    obtain ⟨Qs, q, rfl⟩ : ∃ Qs' q, Qs = Qs' ++ [q] :=
      ⟨_, _, (List.dropLast_append_getLast (l := Qs) (by intro e; subst e; simp at hq)).symm⟩
    obtain ⟨D, d, rfl⟩ : ∃ D' d, D = D' ++ [d] :=
      ⟨_, _, (List.dropLast_append_getLast (l := D) (by intro e; subst e; simp at hd)).symm⟩
    simp only [List.length_append, List.length_singleton, List.flatten_append, List.flatten_singleton] at *
    have hqn : Qs.length = n := by omega
    have hdn : D.length = n := by omega
    have ep : posL f (Qs ++ [q] ++ [cur]) ++ rest = posL f Qs ++ (f + Qs.flatten.length + q.length) ::
        (f + Qs.flatten.length + q.length + cur.length) :: rest := by
      rw [List.append_assoc, posL_append]
      simp [posL]
    have e1 : (posL f (Qs ++ [q] ++ [cur]) ++ rest)[n + 1]? = some (f + Qs.flatten.length + q.length + cur.length) := by
      rw [ep, List.getElem?_append_right (by rw [posL_length]; omega), posL_length, hqn]
      simp
    have e2 : (posL f (Qs ++ [q] ++ [cur]) ++ rest)[n]? = some (f + Qs.flatten.length + q.length) := by
      rw [ep, List.getElem?_append_right (by rw [posL_length]; omega), posL_length, hqn]
      simp
    have e3 : posL f (Qs ++ [q] ++ [cur]) ++ rest = posL f (Qs ++ [q]) ++
        ((f + Qs.flatten.length + q.length + cur.length) :: rest) := by
      rw [ep, posL_append]
      simp [posL]
    unfold insertShift
    rw [e1, e2]
    dsimp only
    rw [e3]
    generalize hL : f + Qs.flatten.length + q.length = lim at *
    rw [show f + (Qs.flatten.length + q.length) = lim by omega] at *
    obtain ⟨hsq, hsc⟩ := seg_append.1 hs
    rw [List.length_append, show f + (Qs.flatten.length + q.length) = lim by omega] at hsc
    obtain ⟨hD1, hD2⟩ := seg_snoc.1 hD
    apply wp_bind
    refine wp_mono (moveBackward_seg (s0 := s0) _ cur lim _ (lim + cur.length + (n + 1)) s rfl rfl (by omega)
      (by omega) hsc ?_ he) ?_
    · intro i h1 h2
      by_cases hi : i < lim + cur.length
      · exact hsc.live (by omega) hi
      · exact hgap i (by omega) (by omega)
    rintro _ s1 ⟨_, m2, m3, m4, m5, _⟩
    rw [show lim + cur.length + (n + 1) - cur.length = lim + n + 1 by omega] at m2
    have hlive : ∀ i, lim ≤ i → i < lim + n + 1 → Live s1.cell i := by
      intro i h1 h2
      by_cases hi : i < lim + cur.length
      · exact .inl (m3 i h1 hi (by omega))
      · unfold Live
        rw [m4 i (by omega) (by omega)]
        exact hgap i (by omega) (by omega)
    apply wp_bind
    refine wp_moveTo' (i := lim + n) (j := aux + n) (a := d) (by omega) ?_ (hlive _ (by omega) (by omega)) ?_
    · rw [m4 _ (by omega) (by omega), ← hdn]; exact hD2
    intro s2 hc2 he2 _ _
    have hc : ∀ i, i ≠ lim + n → i ≠ aux + n → s2.cell i = s1.cell i := fun i h1 h2 => by
      rw [hc2, sc_ne h1, sc_ne h2]
    refine wp_mono (ih Qs D q (d :: (cur ++ S)) _ s2 hqn hdn ?_ ?_ ?_ ?_ ?_ (by rw [he2, m5])) ?_
    · simp only [List.length_cons, List.length_append]; omega
    · refine hsq.congr fun i h1 h2 => ?_
      rw [List.length_append] at h2
      rw [hc i (by omega) (by omega), m4 i (by omega) (by omega)]
    · intro i h1 h2
      unfold Live
      rw [hc i (by omega) (by omega)]
      exact hlive i (by omega) (by omega)
    · rw [hL]
      refine seg_cons.2 ⟨by rw [hc2, sc_eq rfl], seg_append.2 ⟨?_, ?_⟩⟩
      · exact m2.congr fun i h1 h2 => hc i (by omega) (by omega)
      · rw [show lim + n + 1 + cur.length = lim + cur.length + (n + 1) by omega]
        refine hS.congr fun i h1 h2 => ?_
        rw [hc i (by omega) (by omega), m4 i (by omega) (by omega)]
    · refine hD1.congr fun i h1 h2 => ?_
      rw [hc i (by omega) (by omega), m4 i (by omega) (by omega)]
    rintro _ s' ⟨k1, k2, k3, k4⟩
    simp only [List.length_cons, List.length_append] at k3
    refine ⟨?_, ?_, ?_, k4⟩
    · rw [weave_snoc _ _ _ _ _ (by omega)]
      simpa using k1
    · intro i h1 h2
      by_cases e : i = aux + n
      · left; rw [k3 i (by omega) (by omega), hc2, sc_ne (by omega), sc_eq e]
      · exact k2 i h1 (by omega)
    · intro i h1 h2
      rw [k3 i (by omega) (by omega), hc i (by omega) (by omega), m4 i (by omega) (by omega)]

theorem insertPartialSort_seg (hlt : StrictWeak lt) {A D : List α} {f mid last aux : Nat} {s : St α}
    (hm : mid = f + A.length) (hl : last = mid + D.length) (hdis : aux + D.length ≤ f ∨ last ≤ aux)
    (hA : Seg s.cell f A) (hoA : SortedList lt A) (hD : Seg s.cell mid D)
    (haux : ∀ i, aux ≤ i → i < aux + D.length → Live s.cell i) :
    wp (insertPartialSort (tick lt) f mid last aux) (fun _ s' => Seg s'.cell f (mergeL lt A D) ∧
      (∀ i, aux ≤ i → i < aux + D.length → Live s'.cell i) ∧
      (∀ i, (i < f ∨ last ≤ i) → (i < aux ∨ aux + D.length ≤ i) → s'.cell i = s.cell i) ∧ s'.env = s.env) s := by
  unfold insertPartialSort
  split
  · rename_i h
    refine wp_pure ⟨?_, haux, fun _ _ _ => rfl, rfl⟩
    rcases h with h | h
    · have : D = [] := List.length_eq_zero_iff.1 (by omega)
      subst this; simpa using hA
    · have : A = [] := List.length_eq_zero_iff.1 (by omega)
      subst this; rw [mergeL_nil_left, h]; exact hD
  · rename_i h
    apply wp_bind
    refine wp_mono (moveRange_seg (s0 := s) D mid last aux s hl (by omega) hD haux rfl) ?_
    rintro _ s1 ⟨_, m2, m3, m4, m5, _⟩
    have hA1 : Seg s1.cell f A := hA.congr fun i h1 h2 => m4 i (by omega) (by omega)
    dsimp only
    apply wp_bind
    refine wp_mono (insertBounds_seg hlt D A f mid 0 s1 hm (by omega) hA1 hoA m2) ?_
    rintro ps s2 ⟨Qs, tail, k, e1, e2, rfl, e4, rfl⟩
    have hlen : A.length = Qs.flatten.length + tail.length := by rw [e1, List.length_append]
    have ep : posL f Qs ++ [mid] = posL f (Qs ++ [tail]) ++ [] := by
      rw [posL_append]; simp only [posL, List.append_nil]; rw [hm, hlen, Nat.add_assoc]
    rw [ep, show last - mid = D.length by omega]
    refine wp_mono (insertShift_seg (s0 := s) D.length Qs D tail [] [] _ e2 rfl (by simp only [List.length_nil]; omega)
      (by rw [← e1]; exact hA1) ?_ Seg.nil m2 m5) ?_
    · intro i h1 h2
      exact .inl (m3 i (by omega) (by omega) (by omega))
    rintro _ s' ⟨k1, k2, k3, k4⟩
    simp only [List.length_nil, Nat.add_zero] at k3
    refine ⟨by rw [e4]; simpa using k1, k2, ?_, k4⟩
    intro i h1 h2
    rw [k3 i (by omega) (by omega)]
    exact m4 i (by omega) (by omega)

end CppSort
