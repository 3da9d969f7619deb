import Verif.Proof.Mannila
set_option autoImplicit false

namespace CppSort
variable {α β : Type} {lt : α → α → Bool}

theorem Distinct.ne {P Q : List α} {y x : α} (h : Distinct lt (P ++ y :: Q)) (hx : x ∈ P ++ Q) :
    eqv lt x y = false := by
  obtain ⟨-, h2, h3⟩ := List.pairwise_append.1 h
  rcases List.mem_append.1 hx with hx | hx
  · exact h3 x hx y (by simp)
  · have := (List.pairwise_cons.1 h2).1 x hx
    simp only [eqv] at this ⊢
    rw [Bool.and_comm]
    exact this

theorem lt_or_of_ne {x y : α} (h : eqv lt x y = false) : lt x y = true ∨ lt y x = true := by
  simp only [eqv] at h
  cases h1 : lt x y <;> cases h2 : lt y x <;> simp_all

/-! ### inv -/

theorem invCount_sub {xs ys : List α} (h : xs.Sublist ys) : invCount lt xs ≤ invCount lt ys := by
  induction h with
  | slnil => exact le_refl _
  | cons a h ih => exact ih.trans (by rw [invCount]; omega)
  | cons_cons a h ih =>
    rw [invCount, invCount]
    have := h.countP_le (p := fun y => lt y a)
    omega

theorem invCount_push (g : β → α) (l : List β) :
    invCount lt (l.map g) = invCount (fun x y => lt (g x) (g y)) l := by
  induction l with
  | nil => rfl
  | cons x l ih => rw [List.map_cons, invCount, invCount, ih, List.countP_map]; rfl

theorem inv_mop {V : Meas} (h : Spec V fun _ lt xs r => r = invCount lt xs) : IsMop V where
  valued := h.valued
  zero := h.zero fun α _ lt hlt xs _ hs => ((invCount_zero xs).2 hs).symm
  iso := h.iso fun α β lt g hlt l r hr => by rw [hr, invCount_push]
  sub := h.sub fun α lt hlt xs ys a b hd hs ha hb => by rw [ha, hb]; exact invCount_sub hs
  cat := h.cat fun α lt hlt xs ys a b c hd hs ha hb hc => by
    rw [ha, hb, hc, invCount_append, crossInv_zero fun x hx y hy => hlt.asymm (hs x hx y hy)]
    omega
  cons := h.cons fun α lt hlt x xs a b hd ha hb => by
    rw [ha, hb, invCount]
    have := List.countP_le_length (p := fun y => lt y x) (l := xs)
    omega

/-! ### Adjacent pairs -/

theorem pairs_split (P : List α) (a : α) (Q : List α) :
    (P ++ a :: Q).zip (P ++ a :: Q).tail = (P ++ [a]).zip (P ++ [a]).tail ++ (a :: Q).zip Q := by
  induction P with
  | nil => simp
  | cons p P ih =>
    cases P with
    | nil => simp
    | cons q P =>
      simp only [List.cons_append, List.tail_cons, List.zip_cons_cons] at ih ⊢
      rw [ih]

theorem pairs_join (P : List α) (a b : α) (Q : List α) :
    (P ++ a :: b :: Q).zip (P ++ a :: b :: Q).tail =
      (P ++ [a]).zip (P ++ [a]).tail ++ (a, b) :: (b :: Q).zip (b :: Q).tail := by
  rw [pairs_split]; simp

/-- The pairs of a sequence with an element inserted: nothing more than before at the ends, and the pair around the
place is replaced with two pairs. -/
theorem pairs_insert (P : List α) (y : α) (Q : List α) :
    (∃ p, ((P ++ y :: Q).zip (P ++ y :: Q).tail).Perm (p :: (P ++ Q).zip (P ++ Q).tail) ∧
      (p.1 = y ∧ p.2 ∈ Q ∨ p.1 ∈ P ∧ p.2 = y)) ∨ (P = [] ∧ Q = []) ∨
    ∃ a b L, a ∈ P ∧ b ∈ Q ∧ ((P ++ y :: Q).zip (P ++ y :: Q).tail).Perm ((a, y) :: (y, b) :: L) ∧
      ((P ++ Q).zip (P ++ Q).tail).Perm ((a, b) :: L) := by
  rcases List.eq_nil_or_concat P with rfl | ⟨P, a, rfl⟩
  · cases Q with
    | nil => exact .inr (.inl ⟨rfl, rfl⟩)
    | cons b Q => exact .inl ⟨(y, b), by simp, .inl ⟨rfl, by simp⟩⟩
  · rw [List.concat_eq_append, List.append_assoc, List.append_assoc, List.singleton_append, List.singleton_append]
    cases Q with
    | nil =>
      refine .inl ⟨(a, y), ?_, .inr ⟨by simp, rfl⟩⟩
      rw [pairs_join]
      exact List.perm_append_comm
    | cons b Q =>
      refine .inr (.inr ⟨a, b, (P ++ [a]).zip (P ++ [a]).tail ++ (b :: Q).zip (b :: Q).tail, by simp, by simp, ?_, ?_⟩)
      · rw [pairs_join, List.tail_cons, List.zip_cons_cons]
        exact List.perm_middle.trans (List.Perm.cons _ List.perm_middle)
      · rw [pairs_join]
        exact List.perm_middle

/-! ### runs -/

theorem stepDowns_insert (hlt : StrictWeak lt) (P : List α) (y : α) (Q : List α) :
    stepDowns lt (P ++ Q) ≤ stepDowns lt (P ++ y :: Q) := by
  unfold stepDowns
  rcases pairs_insert P y Q with ⟨p, h1, -⟩ | ⟨rfl, rfl⟩ | ⟨a, b, L, -, -, h1, h2⟩
  · rw [h1.countP_eq, List.countP_cons]; omega
  · simp
  · rw [h1.countP_eq, h2.countP_eq, List.countP_cons, List.countP_cons, List.countP_cons]
    dsimp only
    cases e : lt b a
    · simp; omega
    · cases e1 : lt y a
      · rw [hlt.lt_of_lt_of_le e e1]; simp
      · simp

theorem stepDowns_push (g : β → α) (l : List β) :
    stepDowns lt (l.map g) = stepDowns (fun x y => lt (g x) (g y)) l := by
  unfold stepDowns
  rw [← List.map_tail, List.zip_map, List.countP_map]
  rfl

theorem runs_mop {V : Meas} (h : Spec V fun _ lt xs r => r = stepDowns lt xs) : IsMop V where
  valued := h.valued
  zero := h.zero fun α _ lt hlt xs _ hs => ((stepDowns_eq_zero hlt xs).2 hs).symm
  iso := h.iso fun α β lt g hlt l r hr => by rw [hr, stepDowns_push]
  sub := h.sub fun α lt hlt xs ys a b hd hs ha hb => by
    rw [ha, hb]
    exact sublist_insert (F := fun l => stepDowns lt xs ≤ stepDowns lt l)
      (fun P y Q _ h => h.trans (stepDowns_insert hlt P y Q)) hs hd (le_refl _)
  cat := h.cat fun α lt hlt xs ys a b c hd hs ha hb hc => by
    rw [ha, hb, hc]
    rcases List.eq_nil_or_concat xs with rfl | ⟨P, p, rfl⟩
    · simp
    · cases ys with
      | nil => simp
      | cons q Q =>
        rw [List.concat_eq_append, List.append_assoc, List.singleton_append]
        unfold stepDowns
        rw [pairs_join, List.countP_append, List.countP_cons]
        rw [hlt.asymm (hs p (by simp) q (by simp))]
        simp
  cons := h.cons fun α lt hlt x xs a b hd ha hb => by
    rw [hb]
    have := stepDowns_le (lt := lt) (x :: xs)
    simp at this
    omega

/-! ### rem -/

/-- `r` is the least number of elements to remove to leave a sorted sequence. -/
def RemIs (lt : α → α → Bool) (xs : List α) (r : Nat) : Prop :=
  (∃ ys, ys.Sublist xs ∧ SortedList lt ys ∧ ys.length + r = xs.length) ∧
  ∀ ys, ys.Sublist xs → SortedList lt ys → ys.length + r ≤ xs.length

theorem RemIs.unique {xs : List α} {r r' : Nat} (h : RemIs lt xs r) (h' : RemIs lt xs r') : r = r' := by
  obtain ⟨⟨ys, a, b, c⟩, d⟩ := h
  obtain ⟨⟨ys', a', b', c'⟩, d'⟩ := h'
  have := d _ a' b'
  have := d' _ a b
  omega

theorem sorted_map_push {g : β → α} {l : List β} :
    SortedList lt (l.map g) ↔ SortedList (fun x y => lt (g x) (g y)) l := List.pairwise_map

theorem rem_mop {V : Meas} (h : Spec V fun _ lt xs r => RemIs lt xs r) : IsMop V where
  valued := h.valued
  zero := h.zero fun α _ lt hlt xs _ hs => ⟨⟨xs, .refl _, hs, by omega⟩, fun ys hy _ => by
    have := hy.length_le; omega⟩
  iso := h.iso fun α β lt g hlt l r hr => by
    obtain ⟨⟨ys, a, b, c⟩, d⟩ := hr
    refine ⟨⟨ys.map g, a.map g, sorted_map_push.2 b, by simpa using c⟩, fun zs hz hs => ?_⟩
    obtain ⟨l', h1, rfl⟩ := List.sublist_map_iff.1 hz
    simpa using d l' h1 (sorted_map_push.1 hs)
  sub := h.sub fun α lt hlt xs ys a b hd hs ha hb => by
    have key : ∀ zs, zs.Sublist ys → SortedList lt zs → zs.length + a ≤ ys.length := by
      refine sublist_insert (F := fun l => ∀ zs, zs.Sublist l → SortedList lt zs → zs.length + a ≤ l.length)
        (fun P y Q _ hF zs hz hs => ?_) hs hd ha.2
      obtain ⟨z1, z2, rfl, hz1, hz2⟩ := List.sublist_append_iff.1 hz
      rcases List.sublist_cons_iff.1 hz2 with hz2 | ⟨z3, rfl, hz3⟩
      · have := hF _ (hz1.append hz2) hs
        simp at this ⊢
        omega
      · have := hF _ (hz1.append hz3) (hs.sublist (List.Sublist.append_left (List.sublist_cons_self _ _) _))
        simp at this ⊢
        omega
    obtain ⟨⟨ys', a', b', c'⟩, -⟩ := hb
    have := key ys' a' b'
    omega
  cat := h.cat fun α lt hlt xs ys a b c hd hs ha hb hc => by
    obtain ⟨⟨x', a1, a2, a3⟩, -⟩ := ha
    obtain ⟨⟨y', b1, b2, b3⟩, -⟩ := hb
    have := hc.2 (x' ++ y') (a1.append b1) (List.pairwise_append.2 ⟨a2, b2, fun p hp q hq =>
      hlt.asymm (hs p (a1.subset hp) q (b1.subset hq))⟩)
    simp at this
    omega
  cons := h.cons fun α lt hlt x xs a b hd ha hb => by
    obtain ⟨⟨x', a1, a2, a3⟩, -⟩ := ha
    have h1 := hb.2 x' (a1.trans (List.sublist_cons_self _ _)) a2
    have h2 := hb.2 [x] (by simp) (List.pairwise_singleton _ _)
    simp at h1 h2
    omega

/-! ### Sublists as embeddings -/

theorem sublist_embed {xs ys : List α} (h : xs.Sublist ys) : ∃ f : Nat → Nat,
    (∀ i j, i < j → f i < f j) ∧ ∀ (i : Nat) (hi : i < xs.length), ∃ hf : f i < ys.length, ys[f i] = xs[i] := by
  obtain ⟨f, hf⟩ := List.sublist_iff_exists_orderEmbedding_getElem?_eq.1 h
  refine ⟨f, fun i j hij => f.strictMono hij, fun i hi => ?_⟩
  have := hf i
  rw [List.getElem?_eq_getElem hi] at this
  obtain ⟨h1, h2⟩ := List.getElem?_eq_some_iff.1 this.symm
  exact ⟨h1, h2⟩

theorem embed_far {f : Nat → Nat} (hf : ∀ i j, i < j → f i < f j) (i : Nat) : ∀ d, f i + d ≤ f (i + d) := by
  intro d
  induction d with
  | zero => exact le_refl _
  | succ d ih =>
    have := hf (i + d) (i + (d + 1)) (by omega)
    omega

/-! ### dis -/

theorem MaxInvDist.unique {xs : List α} {r r' : Nat} (h : MaxInvDist lt xs r) (h' : MaxInvDist lt xs r') :
    r = r' := by
  rcases h.1 with e | e
  · rcases h'.1 with e' | e'
    · omega
    · have := h.2 _ e'; omega
  · have := h'.2 _ e
    rcases h'.1 with e' | e'
    · omega
    · have := h.2 _ e'; omega

theorem invDist_push {g : β → α} {l : List β} {d : Nat} :
    InvDist lt (l.map g) d ↔ InvDist (fun x y => lt (g x) (g y)) l d := by
  constructor
  · rintro ⟨i, j, h1, h2, h3, h4⟩
    exact ⟨i, j, h1, by simpa using h2, h3, by simpa using h4⟩
  · rintro ⟨i, j, h1, h2, h3, h4⟩
    exact ⟨i, j, h1, by simpa using h2, h3, by simpa using h4⟩

theorem dis_mop {V : Meas} (h : Spec V fun _ lt xs r => MaxInvDist lt xs r) : IsMop V where
  valued := h.valued
  zero := h.zero fun α _ lt hlt xs _ hs => ⟨.inl rfl, fun d ⟨i, j, h1, h2, h3, h4⟩ => by
    rw [List.pairwise_iff_getElem.1 hs i j (by omega) h2 h1] at h4
    exact absurd h4 (by simp)⟩
  iso := h.iso fun α β lt g hlt l r hr =>
    ⟨hr.1.imp id invDist_push.2, fun d hd => hr.2 d (invDist_push.1 hd)⟩
  sub := h.sub fun α lt hlt xs ys a b hd hs ha hb => by
    rcases ha.1 with e | ⟨i, j, h1, h2, h3, h4⟩
    · omega
    · obtain ⟨f, f1, f2⟩ := sublist_embed hs
      obtain ⟨i1, i2⟩ := f2 i (by omega)
      obtain ⟨j1, j2⟩ := f2 j h2
      have hfar := embed_far f1 i a
      rw [← h3] at hfar
      have := hb.2 (f j - f i) ⟨f i, f j, f1 i j h1, j1, by omega, by rw [i2, j2]; exact h4⟩
      omega
  cat := h.cat fun α lt hlt xs ys a b c hd hs ha hb hc => by
    rcases hc.1 with e | ⟨i, j, h1, h2, h3, h4⟩
    · omega
    · rw [List.length_append] at h2
      by_cases hj : j < xs.length
      · rw [List.getElem_append_left hj, List.getElem_append_left (by omega)] at h4
        have := ha.2 c ⟨i, j, h1, hj, h3, h4⟩
        omega
      · by_cases hi : i < xs.length
        · rw [List.getElem_append_right (by omega), List.getElem_append_left hi] at h4
          rw [hlt.asymm (hs _ (List.getElem_mem _) _ (List.getElem_mem _))] at h4
          exact absurd h4 (by simp)
        · rw [List.getElem_append_right (by omega), List.getElem_append_right (by omega)] at h4
          have := hb.2 c ⟨i - xs.length, j - xs.length, by omega, by omega, by omega, h4⟩
          omega
  cons := h.cons fun α lt hlt x xs a b hd ha hb => by
    have := hb.le
    simp at this
    omega

/-! ### sus -/

/-- `r + 1` is the least positive number of sorted subsequences that make up the sequence. -/
def SusIs (lt : α → α → Bool) (xs : List α) (r : Nat) : Prop :=
  PartitionsInto lt xs (r + 1) ∧ ∀ k, PartitionsInto lt xs (k + 1) → r ≤ k

theorem SusIs.unique {xs : List α} {r r' : Nat} (h : SusIs lt xs r) (h' : SusIs lt xs r') : r = r' :=
  Nat.le_antisymm (h.2 _ h'.1) (h'.2 _ h.1)

theorem partitions_push {g : β → α} {l : List β} {k : Nat} :
    PartitionsInto lt (l.map g) k ↔ PartitionsInto (fun x y => lt (g x) (g y)) l k := by
  constructor
  · rintro ⟨col, h1, h2⟩
    exact ⟨col, fun i hi => h1 i (by simpa using hi), fun i j hi hj e => by
      have := h2 i j hi (by simpa using hj) e
      rwa [List.getElem_map, List.getElem_map] at this⟩
  · rintro ⟨col, h1, h2⟩
    exact ⟨col, fun i hi => h1 i (by simpa using hi), fun i j hi hj e => by
      simpa using h2 i j hi (by simpa using hj) e⟩

theorem PartitionsInto.sub {xs ys : List α} {k : Nat} (h : PartitionsInto lt ys k) (hs : xs.Sublist ys) :
    PartitionsInto lt xs k := by
  obtain ⟨col, h1, h2⟩ := h
  obtain ⟨f, f1, f2⟩ := sublist_embed hs
  refine ⟨fun i => col (f i), fun i hi => h1 _ (f2 i hi).1, fun i j hi hj e => ?_⟩
  obtain ⟨i1, i2⟩ := f2 i (by omega)
  obtain ⟨j1, j2⟩ := f2 j hj
  have := h2 (f i) (f j) (f1 i j hi) j1 e
  rw [i2, j2] at this
  exact this

theorem PartitionsInto.append (hlt : StrictWeak lt) {xs ys : List α} {a b k : Nat} (h : PartitionsInto lt xs a)
    (h' : PartitionsInto lt ys b) (ha : a ≤ k) (hb : b ≤ k) (hs : ∀ x ∈ xs, ∀ y ∈ ys, lt x y = true) :
    PartitionsInto lt (xs ++ ys) k := by
  obtain ⟨c, c1, c2⟩ := h
  obtain ⟨d, d1, d2⟩ := h'
  refine ⟨fun i => if i < xs.length then c i else d (i - xs.length), fun i hi => ?_, fun i j hi hj e => ?_⟩
  · dsimp only
    rw [List.length_append] at hi
    split
    · have := c1 i (by assumption); omega
    · have := d1 (i - xs.length) (by omega); omega
  · dsimp only at e
    rw [List.length_append] at hj
    by_cases h1 : j < xs.length
    · rw [List.getElem_append_left h1, List.getElem_append_left (by omega)]
      rw [if_pos h1, if_pos (by omega)] at e
      exact c2 i j hi h1 e
    · by_cases h2 : i < xs.length
      · rw [List.getElem_append_right (by omega), List.getElem_append_left h2]
        exact hlt.asymm (hs _ (List.getElem_mem _) _ (List.getElem_mem _))
      · rw [List.getElem_append_right (by omega), List.getElem_append_right (by omega)]
        rw [if_neg h1, if_neg h2] at e
        exact d2 _ _ (by omega) (by omega) e

theorem sus_mop {V : Meas} (h : Spec V fun _ lt xs r => SusIs lt xs r) : IsMop V where
  valued := h.valued
  zero := h.zero fun α _ lt hlt xs _ hs => ⟨⟨fun _ => 0, fun _ _ => Nat.zero_lt_one, fun i j hi hj _ =>
    List.pairwise_iff_getElem.1 hs i j (by omega) hj hi⟩, fun k _ => by omega⟩
  iso := h.iso fun α β lt g hlt l r hr =>
    ⟨partitions_push.2 hr.1, fun k hk => hr.2 k (partitions_push.1 hk)⟩
  sub := h.sub fun α lt hlt xs ys a b hd hs ha hb => ha.2 b (hb.1.sub hs)
  cat := h.cat fun α lt hlt xs ys a b c hd hs ha hb hc =>
    hc.2 _ (PartitionsInto.append hlt ha.1 hb.1 (by omega) (by omega) hs)
  cons := h.cons fun α lt hlt x xs a b hd ha hb => by
    cases xs with
    | nil =>
      have := hb.2 0 ⟨fun _ => 0, fun _ _ => Nat.zero_lt_one, fun i j hi hj => by simp at hj; omega⟩
      omega
    | cons y xs =>
      obtain ⟨c, c1, c2⟩ := ha.1
      have := hb.2 (a + 1) ⟨fun i => if i = 0 then a + 1 else c (i - 1), fun i hi => ?_, fun i j hi hj e => ?_⟩
      · simp; omega
      · dsimp only
        split
        · omega
        · have := c1 (i - 1) (by simp at hi ⊢; omega); omega
      · dsimp only at e
        rw [if_neg (show ¬ j = 0 by omega)] at e
        have hj' := c1 (j - 1) (by simp at hj ⊢; omega)
        by_cases hi0 : i = 0
        · rw [if_pos hi0] at e; omega
        · rw [if_neg hi0] at e
          obtain ⟨i, rfl⟩ : ∃ i', i = i' + 1 := ⟨i - 1, by omega⟩
          obtain ⟨j, rfl⟩ : ∃ j', j = j' + 1 := ⟨j - 1, by omega⟩
          simpa using c2 i j (by omega) (by simpa using hj) (by simpa using e)

end CppSort
