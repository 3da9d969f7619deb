import Verif.Proof.MannilaRest
set_option autoImplicit false

namespace CppSort
variable {α β : Type} {lt : α → α → Bool}

/-! ### Ranks of distinct elements -/

theorem rank_insert (P : List α) (y : α) (Q : List α) (v : α) :
    rankLo lt (P ++ y :: Q) v = rankLo lt (P ++ Q) v + if lt y v = true then 1 else 0 := by
  unfold rankLo
  rw [List.countP_append, List.countP_append, List.countP_cons]
  omega

theorem rank_lt (hlt : StrictWeak lt) {xs : List α} {a b : α} (ha : a ∈ xs) (h : lt a b = true) :
    rankLo lt xs a < rankLo lt xs b := by
  obtain ⟨P, Q, rfl⟩ := List.append_of_mem ha
  rw [rank_insert, rank_insert, if_pos h, if_neg (by simp [hlt.irrefl])]
  have : rankLo lt (P ++ Q) a ≤ rankLo lt (P ++ Q) b := List.countP_mono_left fun x _ hx => hlt.trans _ _ _ hx h
  omega

theorem rank_lt_length (hlt : StrictWeak lt) {xs : List α} {a : α} (ha : a ∈ xs) : rankLo lt xs a < xs.length := by
  obtain ⟨P, Q, rfl⟩ := List.append_of_mem ha
  rw [rank_insert, if_neg (by simp [hlt.irrefl])]
  have : rankLo lt (P ++ Q) a ≤ (P ++ Q).length := List.countP_le_length
  simp at this ⊢
  omega

theorem rankLo_eqv (hlt : StrictWeak lt) {xs : List α} {a b : α} (h : eqv lt a b = true) :
    rankLo lt xs a = rankLo lt xs b := by
  simp only [eqv, Bool.and_eq_true, Bool.not_eq_true'] at h
  unfold rankLo
  refine List.countP_congr fun x _ => ⟨fun e => ?_, fun e => ?_⟩
  · exact hlt.lt_of_lt_of_le e h.2
  · exact hlt.lt_of_lt_of_le e h.1

/-- Elements of the same rank are equivalent. -/
theorem rank_eq (hlt : StrictWeak lt) {xs : List α} {a b : α} (ha : a ∈ xs) (hb : b ∈ xs)
    (h : rankLo lt xs a = rankLo lt xs b) : eqv lt a b = true := by
  cases e : eqv lt a b with
  | true => rfl
  | false =>
    rcases lt_or_of_ne e with e | e
    · have := rank_lt hlt ha e; omega
    · have := rank_lt hlt hb e; omega

theorem rank_lt_iff (hlt : StrictWeak lt) {xs : List α} {a b : α} (ha : a ∈ xs) (hb : b ∈ xs) :
    lt a b = true ↔ rankLo lt xs a < rankLo lt xs b := by
  refine ⟨rank_lt hlt ha, fun h => ?_⟩
  cases e : lt a b with
  | true => rfl
  | false =>
    cases e' : lt b a with
    | true => have := rank_lt hlt hb e'; omega
    | false => have := rankLo_eqv hlt (xs := xs) (a := a) (b := b) (by simp [eqv, e, e']); omega

theorem rank_inj (hlt : StrictWeak lt) {xs : List α} (hd : Distinct lt xs) {i j : Nat} (hi : i < xs.length)
    (hj : j < xs.length) (h : rankLo lt xs xs[i] = rankLo lt xs xs[j]) : i = j := by
  have he := rank_eq hlt (List.getElem_mem hi) (List.getElem_mem hj) h
  have hp := List.pairwise_iff_getElem.1 hd
  rcases Nat.lt_trichotomy i j with hl | hl | hl
  · rw [hp i j hi hj hl] at he; exact absurd he (by simp)
  · exact hl
  · rw [eqv, Bool.and_comm] at he
    have := hp j i hj hi hl
    rw [eqv, he] at this
    exact absurd this (by simp)

theorem rank_sorted (hlt : StrictWeak lt) {ys : List α} (hd : Distinct lt ys) (hs : SortedList lt ys) {i : Nat}
    (hi : i < ys.length) : rankLo lt ys ys[i] = i := by
  have h1 := (sorted_rank hlt hs ys[i] hi).1
  rw [hlt.irrefl] at h1
  have h2 : ¬ i < rankLo lt ys ys[i] := fun h => absurd (h1.2 h) (by simp)
  by_cases h0 : i = 0
  · omega
  · have h3 := (sorted_rank hlt hs ys[i] (i := i - 1) (by omega)).1
    have h4 : lt ys[i - 1] ys[i] = true := by
      rcases lt_or_of_ne (List.pairwise_iff_getElem.1 hd (i - 1) i (by omega) hi (by omega)) with h | h
      · exact h
      · rw [List.pairwise_iff_getElem.1 hs (i - 1) i (by omega) hi (by omega)] at h
        exact absurd h (by simp)
    have := h3.1 h4
    omega

theorem Distinct.perm {xs ys : List α} (hp : ys.Perm xs) (hd : Distinct lt xs) : Distinct lt ys :=
  hp.symm.pairwise hd fun h => by rw [eqv, Bool.and_comm]; exact h

/-- The place of an element in the sorted permutation is its rank. -/
theorem place_rank (hlt : StrictWeak lt) {xs ys : List α} (hd : Distinct lt xs) (hp : ys.Perm xs)
    (hs : SortedList lt ys) {v : α} (hv : v ∈ xs) {p : Nat} (hi : p < ys.length) :
    eqv lt v ys[p] = true ↔ p = rankLo lt xs v := by
  have key : ∀ q (hq : q < ys.length), rankLo lt xs ys[q] = q := fun q hq => by
    rw [← rankLo_perm hp]; exact rank_sorted hlt (hd.perm hp) hs hq
  constructor
  · intro h
    rw [rankLo_eqv hlt h, key]
  · intro h
    obtain ⟨q, hq, rfl⟩ := List.getElem_of_mem (hp.mem_iff.2 hv)
    rw [key] at h
    subst h
    simp [eqv, hlt.irrefl]

theorem rank_push (g : β → α) (l : List β) (v : β) :
    rankLo lt (l.map g) (g v) = rankLo (fun x y => lt (g x) (g y)) l v := by
  unfold rankLo
  rw [List.countP_map]
  rfl

theorem rank_left (hlt : StrictWeak lt) {xs ys : List α} (hs : ∀ x ∈ xs, ∀ y ∈ ys, lt x y = true) {v : α}
    (hv : v ∈ xs) : rankLo lt (xs ++ ys) v = rankLo lt xs v := by
  unfold rankLo
  rw [List.countP_append, (List.countP_eq_zero (l := ys)).2 fun y hy => by simp [hlt.asymm (hs v hv y hy)]]
  omega

theorem rank_right {xs ys : List α} (hs : ∀ x ∈ xs, ∀ y ∈ ys, lt x y = true) {v : α}
    (hv : v ∈ ys) : rankLo lt (xs ++ ys) v = xs.length + rankLo lt ys v := by
  unfold rankLo
  rw [List.countP_append, (List.countP_eq_length (l := xs)).2 fun x hx => hs x hx v hv]

/-! ### max -/

/-- `r` is the largest distance between the position of an element and its rank. -/
def MaxOff (lt : α → α → Bool) (xs : List α) (r : Nat) : Prop :=
  (∀ (i : Nat) (hi : i < xs.length), dist i (rankLo lt xs xs[i]) ≤ r) ∧
  (r = 0 ∨ ∃ (i : Nat) (hi : i < xs.length), r ≤ dist i (rankLo lt xs xs[i]))

theorem MaxOff.unique {xs : List α} {r r' : Nat} (h : MaxOff lt xs r) (h' : MaxOff lt xs r') : r = r' := by
  have key : ∀ r r', MaxOff lt xs r → MaxOff lt xs r' → r ≤ r' := by
    intro r r' h h'
    rcases h.2 with h0 | ⟨i, hi, h1⟩
    · omega
    · exact h1.trans (h'.1 i hi)
  exact Nat.le_antisymm (key _ _ h h') (key _ _ h' h)

theorem MaxTravel.off (hlt : StrictWeak lt) {xs ys : List α} {r : Nat} (hd : Distinct lt xs) (hp : ys.Perm xs)
    (hs : SortedList lt ys) (h : MaxTravel lt xs ys r) : MaxOff lt xs r := by
  refine ⟨fun i hi => ?_, h.2.imp id ?_⟩
  · obtain ⟨p, hp', h1, h2⟩ := h.1 i hi
    rw [(place_rank hlt hd hp hs (List.getElem_mem hi) hp').1 h1] at h2
    exact h2
  · rintro ⟨i, hi, h1⟩
    have hr := rank_lt_length hlt (List.getElem_mem hi)
    have hl := hp.length_eq
    exact ⟨i, hi, h1 _ (by omega) ((place_rank hlt hd hp hs (List.getElem_mem hi) (by omega)).2 rfl)⟩

theorem maxOff_insert (hlt : StrictWeak lt) {P Q : List α} {y : α} (hd : Distinct lt (P ++ y :: Q)) {a : Nat}
    (h : ∃ (i : Nat) (hi : i < (P ++ Q).length), a ≤ dist i (rankLo lt (P ++ Q) (P ++ Q)[i])) :
    ∃ (i : Nat) (hi : i < (P ++ y :: Q).length), a ≤ dist i (rankLo lt (P ++ y :: Q) (P ++ y :: Q)[i]) := by
  obtain ⟨i, hi, h⟩ := h
  have hy : (P ++ y :: Q)[P.length]'(by simp) = y := by simp
  have hry : rankLo lt (P ++ y :: Q) y = rankLo lt (P ++ Q) y := by
    rw [rank_insert, if_neg (by simp [hlt.irrefl])]; omega
  have hm := List.getElem_mem hi
  have hne := hd.ne hm
  simp only [List.length_append] at hi
  by_cases hP : i < P.length
  · have e : (P ++ y :: Q)[i]'(by simp; omega) = (P ++ Q)[i]'(by simp; omega) := by
      rw [List.getElem_append_left hP, List.getElem_append_left hP]
    generalize (P ++ Q)[i]'(by simp; omega) = x at *
    cases c : lt y x with
    | false =>
      refine ⟨i, by simp; omega, ?_⟩
      rw [e, rank_insert, c]
      simpa using h
    | true =>
      by_cases c2 : i ≤ rankLo lt (P ++ Q) x
      · refine ⟨i, by simp; omega, ?_⟩
        rw [e, rank_insert, c]
        unfold dist at *
        simp
        omega
      · have hr : rankLo lt (P ++ Q) y ≤ rankLo lt (P ++ Q) x :=
          List.countP_mono_left fun z _ hz => hlt.trans _ _ _ hz c
        refine ⟨P.length, by simp, ?_⟩
        rw [hy, hry]
        unfold dist at *
        omega
  · have e : (P ++ y :: Q)[i + 1]'(by simp; omega) = (P ++ Q)[i]'(by simp; omega) := by
      rw [List.getElem_append_right (by omega), List.getElem_append_right (by omega)]
      simp [Nat.succ_sub (show P.length ≤ i by omega)]
    generalize (P ++ Q)[i]'(by simp; omega) = x at *
    rcases lt_or_of_ne hne with c | c
    · by_cases c2 : rankLo lt (P ++ Q) x ≤ i
      · refine ⟨i + 1, by simp; omega, ?_⟩
        rw [e, rank_insert, hlt.asymm c]
        unfold dist at *
        simp
        omega
      · have hr := rank_lt hlt hm c
        refine ⟨P.length, by simp, ?_⟩
        rw [hy, hry]
        unfold dist at *
        omega
    · refine ⟨i + 1, by simp; omega, ?_⟩
      rw [e, rank_insert, c]
      unfold dist at *
      simp
      omega

theorem max_mop {V : Meas} (h : Spec V fun _ lt xs r => MaxOff lt xs r) : IsMop V where
  valued := h.valued
  zero := h.zero fun α _ lt hlt xs hd hs => ⟨fun i hi => by
    rw [rank_sorted hlt hd hs hi]; simp [dist], .inl rfl⟩
  iso := h.iso fun α β lt g hlt l r hr => by
    refine ⟨fun i hi => ?_, hr.2.imp id ?_⟩
    · rw [List.getElem_map, rank_push]
      exact hr.1 i (by simpa using hi)
    · rintro ⟨i, hi, h1⟩
      refine ⟨i, by simpa using hi, ?_⟩
      rw [List.getElem_map, rank_push]
      exact h1
  sub := h.sub fun α lt hlt xs ys a b hd hs ha hb => by
    rcases ha.2 with h0 | h1
    · omega
    · obtain ⟨i, hi, h2⟩ := sublist_insert
        (F := fun l => ∃ (i : Nat) (hi : i < l.length), a ≤ dist i (rankLo lt l l[i]))
        (fun P y Q hd h => maxOff_insert hlt hd h) hs hd h1
      exact h2.trans (hb.1 i hi)
  cat := h.cat fun α lt hlt xs ys a b c hd hs ha hb hc => by
    rcases hc.2 with h0 | ⟨i, hi, h2⟩
    · omega
    · rw [List.length_append] at hi
      by_cases hx : i < xs.length
      · rw [List.getElem_append_left hx, rank_left hlt hs (List.getElem_mem hx)] at h2
        have := ha.1 i hx
        omega
      · rw [List.getElem_append_right (by omega), rank_right hs (List.getElem_mem _)] at h2
        have := hb.1 (i - xs.length) (by omega)
        unfold dist at *
        omega
  cons := h.cons fun α lt hlt x xs a b hd ha hb => by
    rcases hb.2 with h0 | ⟨i, hi, h2⟩
    · omega
    · have := rank_lt_length hlt (List.getElem_mem hi)
      simp only [List.length_cons] at hi this
      unfold dist at *
      omega

/-! ### ham -/

/-- The number of positions that are not the rank of their element. -/
def misplaced (lt : α → α → Bool) (xs : List α) : Nat := xs.zipIdx.countP (fun p => rankLo lt xs p.1 != p.2)

theorem countP_pointwise {p : α → Bool} {q : β → Bool} {l : List α} {l' : List β} (hl : l.length = l'.length)
    (h : ∀ (i : Nat) (hi : i < l.length), p l[i] = q (l'[i]'(hl ▸ hi))) : l.countP p = l'.countP q := by
  have : l.map p = l'.map q := List.ext_getElem (by simpa using hl) fun i h1 h2 => by
    rw [List.getElem_map, List.getElem_map]
    exact h i (by simpa using h1)
  have h2 := congrArg (List.countP id) this
  rwa [List.countP_map, List.countP_map] at h2

theorem misplaced_zip (hlt : StrictWeak lt) {xs ys : List α} (hd : Distinct lt xs) (hp : ys.Perm xs)
    (hs : SortedList lt ys) : (xs.zip ys).countP (fun p => !eqv lt p.1 p.2) = misplaced lt xs := by
  have hl := hp.length_eq
  refine countP_pointwise (by simp [hl]) fun i hi => ?_
  have h1 : i < xs.length := by simp at hi; omega
  simp only [List.getElem_zip, List.getElem_zipIdx, Nat.zero_add]
  have := place_rank hlt hd hp hs (List.getElem_mem h1) (p := i) (by omega)
  cases e : eqv lt xs[i] (ys[i]'(by omega)) with
  | true => rw [← this.1 e]; simp
  | false =>
    have : i ≠ rankLo lt xs xs[i] := fun h => by rw [this.2 h] at e; cases e
    simp [bne_iff_ne, Ne.symm this]

structure HamPart (V : Meas) : Prop where
  valued : Mannila.Valued V
  zero : Mannila.Zero V
  iso : Mannila.Iso V
  cat : Mannila.Cat V

theorem ham_part {V : Meas} (h : Spec V fun _ lt xs r => r = misplaced lt xs) : HamPart V where
  valued := h.valued
  zero := h.zero fun α _ lt hlt xs hd hs => by
    unfold misplaced
    rw [eq_comm, List.countP_eq_zero]
    rintro ⟨x, i⟩ hx
    have hx : xs[i]? = some x := List.mem_zipIdx_iff_getElem?.1 hx
    obtain ⟨hi, rfl⟩ := List.getElem?_eq_some_iff.1 hx
    simp [rank_sorted hlt hd hs hi]
  iso := h.iso fun α β lt g hlt l r hr => by
    rw [hr]
    unfold misplaced
    rw [List.zipIdx_map, List.countP_map]
    refine List.countP_congr fun p _ => ?_
    simp only [Function.comp, Prod.map, rank_push, id]
  cat := h.cat fun α lt hlt xs ys a b c hd hs ha hb hc => by
    rw [ha, hb, hc]
    unfold misplaced
    rw [List.zipIdx_append, List.countP_append, Nat.zero_add, List.zipIdx_eq_map_add (l := ys) (i := xs.length),
      List.countP_map]
    refine Nat.add_le_add (le_of_eq ?_) (le_of_eq ?_)
    · refine List.countP_congr fun p hp => ?_
      rw [rank_left hlt hs (List.fst_mem_of_mem_zipIdx hp)]
    · refine List.countP_congr fun p hp => ?_
      simp only [Function.comp]
      rw [rank_right hs (List.fst_mem_of_mem_zipIdx hp)]
      simp

/-! ### block -/

/-- Whether the second element comes just after the first one in the sorted order of `xs`. -/
def nextIn (lt : α → α → Bool) (xs : List α) (p : α × α) : Bool := rankLo lt xs p.2 == rankLo lt xs p.1 + 1

/-- The number of adjacent pairs of the sorted order that are not adjacent in `xs`, counted in `xs`. -/
def brokenIn (lt : α → α → Bool) (xs : List α) : Nat :=
  xs.length - 1 - (xs.zip xs.tail).countP (nextIn lt xs)

theorem nextIn_le (xs : List α) : (xs.zip xs.tail).countP (nextIn lt xs) ≤ xs.length - 1 :=
  List.countP_le_length.trans (by simp)

theorem brokenPairs_in (hlt : StrictWeak lt) {xs ys : List α} (hd : Distinct lt xs) (hp : ys.Perm xs)
    (hs : SortedList lt ys) : brokenPairs lt xs ys = brokenIn lt xs := by
  have hl := hp.length_eq
  by_cases h0 : xs.length = 0
  · have e1 := List.length_eq_zero_iff.1 h0
    have e2 := List.length_eq_zero_iff.1 (hl.trans h0)
    subst e1 e2
    rfl
  obtain ⟨y, hy⟩ := exists_reads (xs := ys) (by omega)
  obtain ⟨x, hx⟩ := exists_reads (xs := xs) (by omega)
  rw [brokenPairs_range hy, brokenIn, hl]
  have kx : (xs.zip xs.tail).countP (nextIn lt xs) =
      (List.range' 0 (xs.length - 1)).countP (fun j => nextIn lt xs (x j, x (j + 1))) := by
    refine countP_pointwise (by simp) fun i hi => ?_
    simp only [List.length_zip, List.length_tail] at hi
    simp only [List.getElem_zip, List.getElem_tail, List.getElem_range']
    rw [hx.get (by omega), hx.get (by omega)]
    simp
  have hm : ∀ i, i < xs.length → x i ∈ xs := fun i hi => by rw [← hx.get hi]; exact List.getElem_mem hi
  have pl : ∀ i p, i < xs.length → p < xs.length → (eqv lt (x i) (y p) = true ↔ p = rankLo lt xs (x i)) := by
    intro i p hi hp'
    have := place_rank hlt hd hp hs (hm i hi) (p := p) (by omega)
    rwa [hy.get] at this
  have ky : (List.range' 0 (xs.length - 1)).countP (fun i => adjacentIn lt xs (y i) (y (i + 1))) =
      (List.range' 0 (xs.length - 1)).countP (fun j => nextIn lt xs (x j, x (j + 1))) := by
    rw [List.countP_eq_length_filter, List.countP_eq_length_filter,
      ← List.length_map (f := fun j => rankLo lt xs (x j))
        (as := (List.range' 0 (xs.length - 1)).filter (fun j => nextIn lt xs (x j, x (j + 1))))]
    refine List.Perm.length_eq ((List.perm_ext_iff_of_nodup ?_ ?_).2 fun i => ?_)
    · exact (List.nodup_range' (step := 1)).filter _
    · refine List.Nodup.map_on ?_ ((List.nodup_range' (step := 1)).filter _)
      intro a ha b hb he
      rw [List.mem_filter, List.mem_range'_1] at ha hb
      refine rank_inj hlt hd (i := a) (j := b) (by omega) (by omega) ?_
      rw [hx.get (by omega), hx.get (by omega)]
      exact he
    · rw [List.mem_filter, List.mem_map, List.mem_range'_1, adjacentIn_iff hx]
      constructor
      · rintro ⟨hi, j, h1, h2, h3⟩
        have e1 := (pl j i (by omega) (by omega)).1 h2
        have e2 := (pl (j + 1) (i + 1) (by omega) (by omega)).1 h3
        refine ⟨j, ?_, e1.symm⟩
        rw [List.mem_filter, List.mem_range'_1]
        exact ⟨by omega, by simp only [nextIn, beq_iff_eq]; omega⟩
      · rintro ⟨j, h1, rfl⟩
        rw [List.mem_filter, List.mem_range'_1] at h1
        obtain ⟨h1, h2⟩ := h1
        simp only [nextIn, beq_iff_eq] at h2
        have r1 := rank_lt_length hlt (hm (j + 1) (by omega))
        have r2 := rank_lt_length hlt (hm j (by omega))
        refine ⟨by omega, j, by omega, (pl j _ (by omega) r2).2 rfl, (pl (j + 1) _ (by omega) (by omega)).2 h2.symm⟩
  have hc := List.length_eq_countP_add_countP (fun i => adjacentIn lt xs (y i) (y (i + 1)))
    (l := List.range' 0 (xs.length - 1))
  rw [List.length_range', ky, ← kx] at hc
  have : (List.range' 0 (xs.length - 1)).countP (fun i => !adjacentIn lt xs (y i) (y (i + 1))) =
      (List.range' 0 (xs.length - 1)).countP (fun a => decide ¬adjacentIn lt xs (y a) (y (a + 1)) = true) :=
    List.countP_congr fun i _ => by simp
  omega

theorem nextIn_insert (hlt : StrictWeak lt) {P Q : List α} {y : α} (hd : Distinct lt (P ++ y :: Q)) {p : α × α}
    (h1 : p.1 ∈ P ++ Q) (h2 : p.2 ∈ P ++ Q) (h : nextIn lt (P ++ y :: Q) p = true) : nextIn lt (P ++ Q) p = true := by
  have sub : ∀ x, x ∈ P ++ Q → x ∈ P ++ y :: Q := fun x hx =>
    (List.Sublist.append_left (List.sublist_cons_self _ _) _).subset hx
  simp only [nextIn, beq_iff_eq] at h ⊢
  have hlt12 : lt p.1 p.2 = true := (rank_lt_iff hlt (sub _ h1) (sub _ h2)).2 (by omega)
  have hy : y ∈ P ++ y :: Q := by simp
  have e1 := rank_insert (lt := lt) P y Q p.1
  have e2 := rank_insert (lt := lt) P y Q p.2
  rcases lt_or_of_ne (hd.ne h1) with c | c
  · rw [hlt.asymm c] at e1
    cases c2 : lt y p.2 with
    | false => rw [c2] at e2; simp at e1 e2; omega
    | true =>
      have := rank_lt hlt (sub _ h1) c
      have := rank_lt hlt hy c2
      omega
  · rw [c] at e1
    rw [hlt.trans _ _ _ c hlt12] at e2
    simp at e1 e2
    omega

theorem mem_pairs {xs : List α} {p : α × α} (h : p ∈ xs.zip xs.tail) : p.1 ∈ xs ∧ p.2 ∈ xs := by
  obtain ⟨a, b⟩ := p
  exact ⟨(List.of_mem_zip h).1, List.mem_of_mem_tail (List.of_mem_zip h).2⟩

theorem brokenIn_insert (hlt : StrictWeak lt) {P Q : List α} {y : α} (hd : Distinct lt (P ++ y :: Q)) :
    brokenIn lt (P ++ Q) ≤ brokenIn lt (P ++ y :: Q) := by
  have hL : ∀ L : List (α × α), (∀ p ∈ L, p.1 ∈ P ++ Q ∧ p.2 ∈ P ++ Q) →
      L.countP (nextIn lt (P ++ y :: Q)) ≤ L.countP (nextIn lt (P ++ Q)) := fun L h =>
    List.countP_mono_left fun p hp => nextIn_insert hlt hd (h p hp).1 (h p hp).2
  unfold brokenIn
  rcases pairs_insert P y Q with ⟨p, h1, h2⟩ | ⟨rfl, rfl⟩ | ⟨a, b, L, ha, hb, h1, h2⟩
  · have h3 := hL _ fun p hp => mem_pairs hp
    rw [h1.countP_eq, List.countP_cons]
    have : (P ++ Q).length ≠ 0 := by
      intro h
      have := List.length_eq_zero_iff.1 h
      rw [List.append_eq_nil_iff] at this
      rw [this.1, this.2] at h2
      simp at h2
    have : (P ++ y :: Q).length = (P ++ Q).length + 1 := by simp; omega
    split <;> omega
  · simp
  · have hp : ∀ p ∈ (a, b) :: L, p.1 ∈ P ++ Q ∧ p.2 ∈ P ++ Q := fun p hp => mem_pairs (h2.mem_iff.2 hp)
    have h3 := hL L fun p hp' => hp p (by simp [hp'])
    rw [h1.countP_eq, h2.countP_eq, List.countP_cons, List.countP_cons, List.countP_cons]
    have hlen : (P ++ y :: Q).length = (P ++ Q).length + 1 := by simp; omega
    have hpos : 0 < (P ++ Q).length := List.length_pos_of_mem (hp (a, b) (by simp)).1
    have key : nextIn lt (P ++ y :: Q) (a, y) = true → nextIn lt (P ++ y :: Q) (y, b) = true →
        nextIn lt (P ++ Q) (a, b) = true := by
      simp only [nextIn, beq_iff_eq]
      intro k1 k2
      have hy : y ∈ P ++ y :: Q := by simp
      have c1 : lt a y = true := (rank_lt_iff hlt (by simp [ha]) hy).2 (by omega)
      have c2 : lt y b = true := (rank_lt_iff hlt hy (by simp [hb])).2 (by omega)
      rw [rank_insert, rank_insert, hlt.irrefl, hlt.asymm c1] at k1
      rw [rank_insert, rank_insert, hlt.irrefl, c2] at k2
      simp at k1 k2
      omega
    by_cases k1 : nextIn lt (P ++ y :: Q) (a, y) = true
    · by_cases k2 : nextIn lt (P ++ y :: Q) (y, b) = true
      · rw [if_pos k1, if_pos k2, if_pos (key k1 k2)]; omega
      · rw [if_pos k1, if_neg k2]; omega
    · rw [if_neg k1]; split <;> split <;> omega

theorem block_part {V : Meas} (h : Spec V fun _ lt xs r => r = brokenIn lt xs) : MonoPart V where
  valued := h.valued
  zero := h.zero fun α _ lt hlt xs hd hs => by
    unfold brokenIn
    rw [List.countP_eq_length.2 fun p hp => ?_]
    · simp
    · obtain ⟨i, hi, rfl⟩ := List.getElem_of_mem hp
      simp only [List.length_zip, List.length_tail] at hi
      simp only [nextIn, List.getElem_zip, List.getElem_tail]
      rw [rank_sorted hlt hd hs, rank_sorted hlt hd hs]
      simp
  iso := h.iso fun α β lt g hlt l r hr => by
    rw [hr]
    unfold brokenIn
    rw [← List.map_tail, List.zip_map, List.countP_map, List.length_map]
    congr 1
    refine List.countP_congr fun p _ => ?_
    simp only [Function.comp, nextIn, Prod.map, rank_push]
  sub := h.sub fun α lt hlt xs ys a b hd hs ha hb => by
    rw [ha, hb]
    exact sublist_insert (F := fun l => brokenIn lt xs ≤ brokenIn lt l)
      (fun P y Q hd h => h.trans (brokenIn_insert hlt hd)) hs hd (le_refl _)
  cons := h.cons fun α lt hlt x xs a b hd ha hb => by
    rw [hb]
    unfold brokenIn
    simp
    omega

end CppSort
