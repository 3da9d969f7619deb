import Verif.Proof.GrailWithout
import Verif.Proof.GrailBuild
import Verif.Proof.QuickMerge
/-
grail_sort.h 320-455, 585-607: blocks with keys, lists of blocks of two streams.
-/
set_option autoImplicit false

namespace CppSort
variable {α : Type} {lt : α → α → Bool} [Inhabited α]

/-! ### Two streams -/

/-- The elements of the blocks of a stream. -/
def side (t : Bool) (bs : List (Bool × List α)) : List α := (bs.filter (fun p => p.1 == t)).flatMap (·.2)

@[simp] theorem side_nil {t : Bool} : side t ([] : List (Bool × List α)) = [] := rfl

theorem side_same {t : Bool} {X : List α} {bs : List (Bool × List α)} : side t ((t, X) :: bs) = X ++ side t bs := by
  simp [side]

theorem side_other {t u : Bool} {X : List α} {bs : List (Bool × List α)} (h : u ≠ t) : side t ((u, X) :: bs) = side t bs := by
  simp [side, h]

theorem mem_side {t : Bool} {bs : List (Bool × List α)} {y : α} (h : y ∈ side t bs) : ∃ q ∈ bs, q.1 = t ∧ y ∈ q.2 := by
  obtain ⟨q, h1, h2⟩ := List.mem_flatMap.1 h
  obtain ⟨h3, h4⟩ := List.mem_filter.1 h1
  exact ⟨q, h3, by simpa using h4, h2⟩

/-- The two streams, merged. -/
def Mg (lt : α → α → Bool) (bs : List (Bool × List α)) : List α := mergeL lt (side false bs) (side true bs)

theorem Mg_eq (t : Bool) (bs : List (Bool × List α)) : Mg lt bs = mrg lt t (side t bs) (side (!t) bs) := by
  cases t <;> rfl

/-- The first element of a block goes before all of the elements of a later block of the other stream. -/
def Before (lt : α → α → Bool) (p q : Bool × List α) : Prop :=
  p.1 ≠ q.1 → ∀ x, p.2.head? = some x → ∀ y ∈ q.2, leftFirst lt (!p.1) x y = true

/-- Both streams are sorted. -/
def SidesSorted (lt : α → α → Bool) (bs : List (Bool × List α)) : Prop := ∀ t, SortedList lt (side t bs)

theorem Mg_same (hlt : StrictWeak lt) {t : Bool} {R Y : List α} {bs : List (Bool × List α)} (hY : Y ≠ [])
    (hs : SidesSorted lt ((t, R) :: (t, Y) :: bs)) (hb : ∀ q ∈ bs, Before lt (t, Y) q) :
    Mg lt ((t, R) :: (t, Y) :: bs) = R ++ Mg lt ((t, Y) :: bs) := by
  rw [Mg_eq t, Mg_eq t, side_same, side_other (t := !t) (X := R) (by cases t <;> simp)]
  cases hy : side (!t) ((t, Y) :: bs) with
  | nil => rw [mrg_nil_right, mrg_nil_right]
  | cons y ys =>
    refine mrg_left fun u hu => ?_
    rw [side_other (by cases t <;> simp)] at hy
    obtain ⟨q, q1, q2, q3⟩ := mem_side (t := !t) (bs := bs) (y := y) (by rw [hy]; simp)
    obtain ⟨x, Y', rfl⟩ := List.exists_cons_of_ne_nil hY
    have h1 := hb q q1 (by rw [q2]; cases t <;> simp) x rfl y q3
    have h2 := hs t
    rw [side_same, side_same] at h2
    have h3 := (List.pairwise_append.1 h2).2.2 u hu x (by simp)
    exact leftFirst_le hlt h3 h1

theorem Mg_smart {t fr : Bool} {X Y E R : List α} {bs : List (Bool × List α)} (h : SmartRel lt t X Y E R fr) :
    Mg lt ((t, X) :: (!t, Y) :: bs) = E ++ Mg lt ((fr, R) :: bs) := by
  have hn : t ≠ !t := by cases t <;> simp
  rw [Mg_eq t, Mg_eq t, side_same, side_other hn.symm, side_other hn, side_same]
  rcases h with ⟨rfl, _, h⟩ | ⟨rfl, _, h⟩
  · rw [h, side_same, side_other hn]
  · rw [h, side_same, side_other hn.symm]

theorem SidesSorted.tail {p : Bool × List α} {bs : List (Bool × List α)} (h : SidesSorted lt (p :: bs)) : SidesSorted lt bs := by
  intro t
  have := h t
  obtain ⟨u, X⟩ := p
  by_cases e : u = t
  · subst e
    rw [side_same] at this
    exact (List.pairwise_append.1 this).2.1
  · rwa [side_other e] at this

theorem SidesSorted.smart {t fr : Bool} {X Y E R : List α} {bs : List (Bool × List α)} (h : SmartRel lt t X Y E R fr)
    (hs : SidesSorted lt ((t, X) :: (!t, Y) :: bs)) : SidesSorted lt ((fr, R) :: bs) := by
  have hn : t ≠ !t := by cases t <;> simp
  have h1 := hs t
  have h2 := hs (!t)
  rw [side_same, side_other hn.symm] at h1
  rw [side_other hn, side_same] at h2
  have key : ∀ u Z, R <:+ Z → SortedList lt (Z ++ side u bs) → fr = u → SidesSorted lt ((fr, R) :: bs) := by
    intro u Z hz ho e v
    subst e
    by_cases hv : fr = v
    · subst hv
      rw [side_same]
      exact ho.sublist (hz.sublist.append_right _)
    · rw [side_other hv]; exact hs.tail.tail v
  rcases h with ⟨e, h, _⟩ | ⟨e, h, _⟩
  · exact key t X h h1 e
  · exact key (!t) Y h h2 e

theorem SidesSorted.first {t : Bool} {X : List α} {bs : List (Bool × List α)} (h : SidesSorted lt ((t, X) :: bs)) : SortedList lt X := by
  have := h t
  rw [side_same] at this
  exact (List.pairwise_append.1 this).1

theorem side_all {t : Bool} : ∀ {bs : List (Bool × List α)}, (∀ q ∈ bs, q.1 = t) → side t bs = bs.flatMap (·.2) ∧ side (!t) bs = []
  | [], _ => ⟨rfl, rfl⟩
  | (u, X) :: bs, h => by
    have e : u = t := h _ List.mem_cons_self
    subst e
    obtain ⟨h1, h2⟩ := side_all (bs := bs) (t := u) fun q hq => h q (List.mem_cons_of_mem _ hq)
    exact ⟨by rw [side_same, h1, List.flatMap_cons], by rw [side_other (by cases u <;> simp), h2]⟩

/-- The end: a fragment, the elements after the blocks, the last blocks, all of the first stream. -/
theorem Mg_end_right (hlt : StrictWeak lt) {R T : List α} {bs : List (Bool × List α)} (hT : T ≠ []) (hall : ∀ q ∈ bs, q.1 = false)
    (hs : SidesSorted lt ((true, R) :: (true, T) :: bs)) (hb : ∀ q ∈ bs, Before lt (true, T) q) :
    Mg lt ((true, R) :: (true, T) :: bs) = R ++ mergeL lt (bs.flatMap (·.2)) T := by
  obtain ⟨h1, h2⟩ := side_all hall
  rw [Bool.not_false] at h2
  rw [Mg_same hlt hT hs hb]
  show R ++ mergeL lt _ _ = _
  rw [side_same, side_other (by simp), h1, h2, List.append_nil]

theorem Mg_end_left {R T : List α} {bs : List (Bool × List α)} (hall : ∀ q ∈ bs, q.1 = false) :
    Mg lt ((false, R) :: (true, T) :: bs) = mergeL lt (R ++ bs.flatMap (·.2)) T := by
  obtain ⟨h1, h2⟩ := side_all hall
  rw [Bool.not_false] at h2
  show mergeL lt _ _ = _
  rw [side_same, side_other (by simp), side_other (by simp), side_same, h1, h2, List.append_nil]

theorem Mg_one {t : Bool} {R : List α} : Mg lt [(t, R)] = R := by
  rw [Mg_eq t, side_same, side_nil, side_other (by cases t <;> simp), side_nil, mrg_nil_right, List.append_nil]

/-! ### Blocks with keys -/

/-- The order of the blocks: by their first elements, then by their keys. -/
def blkLt (lt : α → α → Bool) (p q : α × List α) : Bool :=
  lt p.2.head! q.2.head! || (!lt q.2.head! p.2.head! && lt p.1 q.1)

theorem blkLt_false {p q : α × List α} : blkLt lt p q = false ↔
    lt p.2.head! q.2.head! = false ∧ (lt q.2.head! p.2.head! = true ∨ lt p.1 q.1 = false) := by
  unfold blkLt
  cases lt p.2.head! q.2.head! <;> cases lt q.2.head! p.2.head! <;> cases lt p.1 q.1 <;> simp

theorem blkLt_irrefl (hlt : StrictWeak lt) (p : α × List α) : blkLt lt p p = false := by
  simp [blkLt, hlt.irrefl]

theorem blkLt_trans (hlt : StrictWeak lt) {p q r : α × List α} (h1 : blkLt lt q p = false) (h2 : blkLt lt r q = false) :
    blkLt lt r p = false := by
  rw [blkLt_false] at *
  obtain ⟨a1, a2⟩ := h1
  obtain ⟨b1, b2⟩ := h2
  refine ⟨hlt.le_trans a1 b1, ?_⟩
  cases h : lt p.2.head! r.2.head! with
  | true => exact .inl rfl
  | false =>
    have c1 : lt p.2.head! q.2.head! = false := hlt.le_trans b1 h
    have c2 : lt q.2.head! r.2.head! = false := hlt.le_trans h a1
    rw [c1] at a2
    rw [c2] at b2
    refine .inr (hlt.le_trans (a2.resolve_left (by simp)) (b2.resolve_left (by simp)))

/-- No two keys are equivalent. -/
def DistinctKeys (lt : α → α → Bool) (ks : List α) : Prop := ks.Pairwise (fun x y => lt x y = true ∨ lt y x = true)

theorem blkLt_asymm (hlt : StrictWeak lt) {p q : α × List α} (h : blkLt lt p q = true) : blkLt lt q p = false := by
  rw [blkLt_false]
  simp only [blkLt, Bool.or_eq_true, Bool.and_eq_true, Bool.not_eq_true'] at h
  rcases h with h | ⟨h1, h2⟩
  · exact ⟨hlt.asymm h, .inl h⟩
  · exact ⟨h1, .inr (hlt.asymm h2)⟩

theorem blocks_length {lb : Nat} : ∀ {P : List (α × List α)}, (∀ p ∈ P, p.2.length = lb) → (P.flatMap (·.2)).length = P.length * lb
  | [], _ => by simp
  | p :: P, h => by
    rw [List.flatMap_cons, List.length_append, blocks_length fun q hq => h q (List.mem_cons_of_mem _ hq), h p List.mem_cons_self,
      List.length_cons, Nat.succ_mul]
    omega

theorem head!_val {c : Nat → Cell α} {a : Nat} {xs : List α} (h : Seg c a xs) (hx : 0 < xs.length) : c a = .val xs.head! := by
  cases xs with
  | nil => simp at hx
  | cons x xs => exact (seg_cons.1 h).1

theorem blk_split {P : List (α × List α)} {i : Nat} (hi : i < P.length) : ∃ M N, P = M ++ P[i]! :: N ∧ M.length = i := by
  refine ⟨P.take i, P.drop (i + 1), ?_, by rw [List.length_take]; omega⟩
  rw [getElem!_pos P i hi]
  simp

theorem blk_key {c : Nat → Cell α} {keys i : Nat} {P : List (α × List α)} (h : Seg c keys (P.map (·.1))) (hi : i < P.length) :
    c (keys + i) = .val P[i]!.1 := by
  obtain ⟨M, N, e, hM⟩ := blk_split hi
  rw [e, List.map_append, List.map_cons, seg_append] at h
  have := (seg_cons.1 h.2).1
  rw [List.length_map, hM] at this
  exact this

theorem blk_head {c : Nat → Cell α} {arr lb i : Nat} {P : List (α × List α)} (hP : ∀ p ∈ P, p.2.length = lb) (hlb : 0 < lb)
    (h : Seg c arr (P.flatMap (·.2))) (hi : i < P.length) : c (arr + i * lb) = .val P[i]!.2.head! := by
  obtain ⟨M, N, e, hM⟩ := blk_split hi
  have hm : P[i]! ∈ P := by rw [getElem!_pos P i hi]; exact List.getElem_mem hi
  have hl := hP _ hm
  rw [e, List.flatMap_append, List.flatMap_cons, seg_append, seg_append] at h
  rw [blocks_length (lb := lb) fun p hp => hP p (by rw [e]; simp [hp]), hM] at h
  exact head!_val h.2.1 (by omega)

theorem blockGreater_spec (hlt : StrictWeak lt) {keys arr lb p v : Nat} {g : Nat → α × List α} {s : St α} {Q : Bool → St α → Prop}
    (kp : s.cell (keys + p) = .val (g p).1) (kv : s.cell (keys + v) = .val (g v).1) (hp : s.cell (arr + p * lb) = .val (g p).2.head!)
    (hv : s.cell (arr + v * lb) = .val (g v).2.head!) (hQ : ∀ k, Q (blkLt lt (g v) (g p)) { s with cmps := k }) :
    wp (blockGreater (tick lt) keys arr lb p v) Q s := by
  unfold blockGreater
  apply wp_bind
  refine grailCmp3At_spec hp hv fun k => ?_
  have h1 := cmp3_pos hlt (x := (g p).2.head!) (y := (g v).2.head!)
  have h2 := cmp3_neg (lt := lt) (x := (g p).2.head!) (y := (g v).2.head!)
  unfold blkLt at hQ
  split
  · rename_i h
    rw [decide_eq_true h] at h1
    rw [← h1] at hQ
    exact wp_pure (hQ k)
  · rename_i h
    rw [decide_eq_false h] at h1
    rw [← h1] at hQ
    unfold keyGreater
    split
    · rename_i h0
      rw [h0] at h2
      apply wp_bind
      refine grailCmp3At_spec kp kv fun k' => ?_
      have h3 := cmp3_pos hlt (x := (g p).1) (y := (g v).1)
      rw [h3]
      rw [← h2] at hQ
      exact wp_pure (by simpa using hQ k')
    · rename_i h0
      have : decide (cmp3 lt (g p).2.head! (g v).2.head! < 0) = true := decide_eq_true (by omega)
      rw [this] at h2
      rw [← h2] at hQ
      exact wp_pure (by simpa using hQ k)

theorem selectMin_spec (hlt : StrictWeak lt) {keys arr lb nblk : Nat} {g : Nat → α × List α} (n : Nat) : ∀ (p v : Nat) (s : St α),
    nblk - v = n → p < nblk → (∀ i, i < nblk → s.cell (keys + i) = .val (g i).1) → (∀ i, i < nblk → s.cell (arr + i * lb) = .val (g i).2.head!) →
    wp (selectMin (tick lt) keys arr lb nblk p v) (fun r s' => (∃ k, s' = { s with cmps := k }) ∧ r < nblk ∧ (r = p ∨ v ≤ r) ∧
      blkLt lt (g p) (g r) = false ∧ ∀ i, v ≤ i → i < nblk → blkLt lt (g i) (g r) = false) s := by
  induction n with
  | zero =>
    intro p v s hn hp hk ha
    rw [selectMin, if_neg (by omega)]
    exact wp_pure ⟨⟨_, rfl⟩, hp, .inl rfl, blkLt_irrefl hlt _, fun i h1 h2 => by omega⟩
  | succ n ih =>
    intro p v s hn hp hk ha
    rw [selectMin, if_pos (by omega)]
    apply wp_bind
    refine blockGreater_spec hlt (hk p hp) (hk v (by omega)) (ha p hp) (ha v (by omega)) fun k => ?_
    cases hb : blkLt lt (g v) (g p) with
    | true =>
      simp only [if_true]
      refine wp_mono (ih v (v + 1) { s with cmps := k } (by omega) (by omega) hk ha) ?_
      rintro r s' ⟨⟨k', h1⟩, h2, h3, h4, h5⟩
      refine ⟨⟨k', h1⟩, h2, by omega, blkLt_trans hlt h4 (blkLt_asymm hlt hb), fun i i1 i2 => ?_⟩
      by_cases e : i = v
      · rw [e]; exact h4
      · exact h5 i (by omega) i2
    | false =>
      simp only [Bool.false_eq_true, if_false]
      refine wp_mono (ih p (v + 1) { s with cmps := k } (by omega) (by omega) hk ha) ?_
      rintro r s' ⟨⟨k', h1⟩, h2, h3, h4, h5⟩
      refine ⟨⟨k', h1⟩, h2, by omega, h4, fun i i1 i2 => ?_⟩
      by_cases e : i = v
      · rw [e]; exact blkLt_trans hlt h4 hb
      · exact h5 i (by omega) i2

/-- Exchange of two ranges of the same length. -/
theorem swapRanges_seg : ∀ (X Y M : List α) (a l b : Nat) (s : St α), X.length = Y.length → l = a + X.length → b = l + M.length →
    Seg s.cell a (X ++ (M ++ Y)) →
    wp (swapRanges a l b) (fun _ s' => Seg s'.cell a (Y ++ (M ++ X)) ∧ Frame a (b + Y.length) s s') s := by
  intro X
  induction X with
  | nil =>
    intro Y M a l b s hl e1 e2 hs
    have : Y = [] := by rw [← List.length_eq_zero_iff]; simpa using hl.symm
    subst this
    rw [swapRanges, if_neg (by simp at e1; omega)]
    exact wp_pure ⟨hs, Frame.refl _ _ _⟩
  | cons x X ih =>
    intro Y M a l b s hl e1 e2 hs
    cases Y with
    | nil => simp at hl
    | cons y Y =>
      simp only [List.length_cons] at hl e1
      rw [List.cons_append, seg_cons, seg_append, seg_append, seg_cons] at hs
      obtain ⟨x1, x2, x3, y1, y2⟩ := hs
      have eb : a + 1 + X.length + M.length = b := by omega
      rw [eb] at y1 y2
      rw [swapRanges, if_pos (by omega)]
      apply wp_bind
      refine wp_swap' x1 y1 fun s1 hc he _ _ => ?_
      refine wp_mono (ih Y (M ++ [x]) (a + 1) l (b + 1) s1 (by omega) (by omega) (by simp only [List.length_append, List.length_cons, List.length_nil]; omega) ?_) ?_
      · rw [List.append_assoc, seg_append, seg_append, List.singleton_append, seg_cons, eb]
        rw [hc]
        refine ⟨(x2.out (by omega)).out (by omega), (x3.out (by omega)).out (by omega), by sc, (y2.out (by omega)).out (by omega)⟩
      · rintro _ s2 ⟨q1, q2⟩
        refine ⟨?_, (Frame.of_env he (f := a) (l := b + (y :: Y).length) fun i hi => ?_).trans (q2.mono (by omega) (by simp only [List.length_cons]; omega))⟩
        · rw [List.cons_append, seg_cons]
          refine ⟨?_, by simpa using q1⟩
          rw [q2.cell _ (by omega), hc]; sc
        · rw [hc]; simp only [List.length_cons] at hi; sc

theorem xor_left (m p : Nat) : m ^^^ (m ^^^ p) = p := by rw [← Nat.xor_assoc, Nat.xor_self, Nat.zero_xor]

theorem xor_right (m p : Nat) : p ^^^ (m ^^^ p) = m := by rw [Nat.xor_comm m p, xor_left]

/-- Everything outside of two ranges is unchanged. -/
structure Frame2 (k n f l : Nat) (s s' : St α) : Prop where
  cell : ∀ i, (i < k ∨ k + n ≤ i) → (i < f ∨ l ≤ i) → s'.cell i = s.cell i
  brk : EnvLe s s'

theorem Frame2.refl (k n f l : Nat) (s : St α) : Frame2 k n f l s s := ⟨fun _ _ _ => rfl, .refl _⟩

theorem Frame2.trans {k n f l : Nat} {s s' s'' : St α} (h : Frame2 k n f l s s') (h' : Frame2 k n f l s' s'') : Frame2 k n f l s s'' :=
  ⟨fun i h1 h2 => (h'.cell i h1 h2).trans (h.cell i h1 h2), h.brk.trans h'.brk⟩

theorem Frame2.mono {k n n' f l f' l' : Nat} {s s' : St α} (h : Frame2 k n' f' l' s s') (hn : n' ≤ n) (hf : f ≤ f') (hl : l' ≤ l) :
    Frame2 k n f l s s' := ⟨fun i h1 h2 => h.cell i (by omega) (by omega), h.brk⟩

theorem Frame.two {k n f l : Nat} {s s' : St α} (h : Frame f l s s') : Frame2 k n f l s s' := ⟨fun i _ h2 => h.cell i h2, h.brk⟩

theorem Frame.one {k n f l : Nat} {s s' : St α} (h : Frame k (k + n) s s') : Frame2 k n f l s s' := ⟨fun i h1 _ => h.cell i h1, h.brk⟩

set_option maxHeartbeats 1000000 in
theorem selectBlocks_spec (hlt : StrictWeak lt) {keys arr lb : Nat} (hlb : 0 < lb) (n : Nat) : ∀ (D Q : List (α × List α)) (nblk mid : Nat) (s : St α),
    Q.length = n → nblk = D.length + Q.length → (∀ p ∈ D ++ Q, p.2.length = lb) → keys + nblk ≤ arr →
    (keys + mid < arr ∨ arr + nblk * lb ≤ keys + mid) →
    D.Pairwise (fun p q => blkLt lt q p = false) → (∀ p ∈ D, ∀ q ∈ Q, blkLt lt q p = false) →
    Seg s.cell keys ((D ++ Q).map (·.1)) → Seg s.cell arr ((D ++ Q).flatMap (·.2)) →
    wp (selectBlocks (tick lt) keys arr lb nblk mid (D.length + 1)) (fun r s' => ∃ P' : List (α × List α), P'.Perm (D ++ Q) ∧
      P'.Pairwise (fun p q => blkLt lt q p = false) ∧ Seg s'.cell keys (P'.map (·.1)) ∧ Seg s'.cell arr (P'.flatMap (·.2)) ∧
      s'.cell (keys + r) = s.cell (keys + mid) ∧ (mid < nblk → r < nblk) ∧ (nblk ≤ mid → r = mid) ∧
      Frame2 keys nblk arr (arr + nblk * lb) s s') s := by
  induction n with
  | zero =>
    intro D Q nblk mid s hn hb hP hka hmid hD hDQ hk ha
    have : Q = [] := List.length_eq_zero_iff.1 hn
    subst this
    rw [selectBlocks, if_neg (by simp at hb; omega)]
    rw [List.append_nil] at *
    exact wp_pure ⟨D, .refl _, hD, hk, ha, rfl, id, fun _ => rfl, Frame2.refl _ _ _ _ _⟩
  | succ n ih =>
    intro D Q nblk mid s hn hb hP hka hmid hD hDQ hk ha
    match Q, hn with
    | q :: Q, hn =>
    simp only [List.length_cons] at hn hb
    rw [selectBlocks]
    split
    · rename_i hu
      have hlen : (D ++ q :: Q).length = nblk := by rw [List.length_append, List.length_cons]; omega
      apply wp_bind
      refine wp_mono (selectMin_spec hlt (g := fun i => (D ++ q :: Q)[i]!) _ (D.length + 1 - 1) (D.length + 1) s rfl (by omega)
        (fun i hi => blk_key hk (by omega)) (fun i hi => blk_head hP hlb ha (by omega))) ?_
      rintro p _ ⟨⟨k, rfl⟩, h2, h3, h4, h5⟩
      simp only [Nat.add_sub_cancel] at h3 h4 ⊢
      have gq : (D ++ q :: Q)[D.length]! = q := by rw [getElem!_pos _ _ (by omega)]; simp
      have gi : ∀ x ∈ Q, ∃ i, D.length + 1 ≤ i ∧ i < nblk ∧ (D ++ q :: Q)[i]! = x := by
        intro x hx
        obtain ⟨i, hi, e⟩ := List.getElem_of_mem hx
        refine ⟨D.length + 1 + i, by omega, by omega, ?_⟩
        rw [getElem!_pos _ _ (by omega), List.getElem_append_right (by omega)]
        simp only [show D.length + 1 + i - D.length = i + 1 by omega, List.getElem_cons_succ]
        exact e
      split
      · rename_i hne
        obtain ⟨M, N, eQ, hM⟩ := blk_split (P := Q) (i := p - (D.length + 1)) (by omega)
        generalize hr : Q[p - (D.length + 1)]! = r at eQ
        have gp : (D ++ q :: Q)[p]! = r := by
          rw [getElem!_pos _ _ (by omega), List.getElem_append_right (by omega)]
          rw [getElem!_pos _ _ (by omega)] at hr
          rw [← hr, List.getElem_cons]
          rw [dif_neg (by omega)]
          congr 1
        subst eQ
        have hq := hP q (by simp)
        have hr' := hP r (by simp)
        have hMl : (M.flatMap (·.2)).length = M.length * lb := blocks_length fun x hx => hP x (by simp [hx])
        have hDl : (D.flatMap (·.2)).length = D.length * lb := blocks_length fun x hx => hP x (by simp [hx])
        have hNl : (N.flatMap (·.2)).length = N.length * lb := blocks_length fun x hx => hP x (by simp [hx])
        simp only [List.length_append, List.length_cons] at hb hn
        have ep : p = D.length + 1 + M.length := by omega
        have el : arr + p * lb = arr + (D.length + 1) * lb + M.length * lb := by rw [ep, Nat.add_mul]; omega
        have el2 : arr + (D.length + 1) * lb = arr + D.length * lb + lb := by rw [Nat.succ_mul]; omega
        have el3 : arr + nblk * lb = arr + p * lb + lb + N.length * lb := by
          rw [hb, ep]; simp only [Nat.add_mul, Nat.one_mul]; omega
        simp only [List.flatMap_append, List.flatMap_cons] at ha
        rw [seg_append, hDl] at ha
        obtain ⟨a1, a2⟩ := ha
        have a3 : Seg s.cell (arr + D.length * lb) ((q.2 ++ (M.flatMap (·.2) ++ r.2)) ++ N.flatMap (·.2)) := by
          simpa only [List.append_assoc] using a2
        obtain ⟨a3, a4⟩ := seg_append.1 a3
        apply wp_bind
        refine wp_mono (swapRanges_seg q.2 r.2 (M.flatMap (·.2)) (arr + D.length * lb) (arr + (D.length + 1) * lb) (arr + p * lb)
          { s with cmps := k } (by omega) (by omega) (by omega) a3) ?_
        rintro _ s1 ⟨b1, b2⟩
        simp only [List.map_append, List.map_cons] at hk
        rw [seg_append, seg_cons, seg_append, seg_cons] at hk
        simp only [List.length_map] at hk
        obtain ⟨k1, k2, k3, k4, k5⟩ := hk
        have hlt1 : D.length * lb + lb ≤ nblk * lb := by rw [← Nat.succ_mul]; exact Nat.mul_le_mul_right _ (by omega)
        apply wp_bind
        refine wp_swap' (i := keys + D.length) (j := keys + p) (a := q.1) (b := r.1) ?_ ?_ fun s2 hc he _ _ => ?_
        · rw [b2.cell _ (by omega)]; exact k2
        · rw [b2.cell _ (by omega), show keys + p = keys + D.length + 1 + M.length by omega]; exact k4
        have hfr : Frame2 keys nblk arr (arr + nblk * lb) s s2 := by
          refine (b2.tick.mono (f := arr) (l := arr + nblk * lb) (by omega) (by omega)).two.trans ⟨fun i h1 h2 => ?_, EnvLe.of_env he⟩
          rw [hc]; sc
        have hin : ∀ i, (i < keys ∨ keys + nblk ≤ i) → s2.cell i = s1.cell i := by intro i hi; rw [hc]; sc
        have hk' : Seg s2.cell keys ((D ++ r :: (M ++ q :: N)).map (·.1)) := by
          simp only [List.map_append, List.map_cons]
          rw [seg_append, seg_cons, seg_append, seg_cons]
          simp only [List.length_map]
          have out : ∀ i, keys ≤ i → i < keys + nblk → i ≠ keys + D.length → i ≠ keys + p → s2.cell i = s.cell i := by
            intro i h1 h2 h3 h4
            rw [hc]
            have := b2.cell i (by omega)
            sc
            exact this
          refine ⟨k1.congr fun i h1 h2 => ?_, by rw [hc]; sc, k3.congr fun i h1 h2 => ?_, ?_, k5.congr fun i h1 h2 => ?_⟩
          · rw [List.length_map] at h2
            exact out i (by omega) (by omega) (by omega) (by omega)
          · rw [List.length_map] at h2
            exact out i (by omega) (by omega) (by omega) (by omega)
          · rw [hc, show keys + D.length + 1 + M.length = keys + p by omega]; sc
          · rw [List.length_map] at h2
            exact out i (by omega) (by omega) (by omega) (by omega)
        have ha' : Seg s2.cell arr ((D ++ r :: (M ++ q :: N)).flatMap (·.2)) := by
          simp only [List.flatMap_append, List.flatMap_cons]
          rw [seg_append, hDl]
          refine ⟨a1.congr fun i h1 h2 => ?_, ?_⟩
          · rw [hDl] at h2
            rw [hin i (by omega), b2.cell i (by omega)]
          · rw [← List.append_assoc, ← List.append_assoc, seg_append, List.append_assoc]
            refine ⟨b1.congr fun i h1 h2 => hin i (by omega), ?_⟩
            have : (r.2 ++ (M.flatMap (·.2) ++ q.2)).length = (q.2 ++ (M.flatMap (·.2) ++ r.2)).length := by
              simp only [List.length_append]; omega
            rw [this]
            refine a4.congr fun i h1 h2 => ?_
            have hlen3 : (q.2 ++ (M.flatMap (·.2) ++ r.2)).length = lb + (M.length * lb + lb) := by
              simp only [List.length_append]; omega
            rw [hlen3] at h1 h2
            rw [hNl] at h2
            rw [hin i (by omega), b2.cell i (by omega)]
        have hperm : (D ++ r :: (M ++ q :: N)).Perm (D ++ q :: (M ++ r :: N)) := by
          refine List.Perm.append_left _ ?_
          have e1 : (r :: (M ++ q :: N)).Perm (r :: q :: (M ++ N)) := List.perm_middle.cons _
          have e2 : (q :: (M ++ r :: N)).Perm (q :: r :: (M ++ N)) := List.perm_middle.cons _
          exact e1.trans ((List.Perm.swap _ _ _).trans e2.symm)
        generalize hm' : (if mid = D.length ∨ mid = p then mid ^^^ (D.length ^^^ p) else mid) = mid'
        have hmid' : s2.cell (keys + mid') = s.cell (keys + mid) ∧ (mid < nblk → mid' < nblk) ∧ (nblk ≤ mid → mid' = mid) := by
          rw [← hm']
          by_cases c1 : mid = D.length
          · subst c1
            rw [if_pos (.inl rfl), xor_left]
            refine ⟨?_, fun _ => h2, fun _ => by omega⟩
            rw [hc, k2]; sc
          · by_cases c2 : mid = p
            · rw [if_pos (.inr c2), c2, xor_right]
              refine ⟨?_, fun _ => by omega, fun _ => by omega⟩
              rw [hc, show keys + p = keys + D.length + 1 + M.length by omega, k4]; sc
            · rw [if_neg (by omega)]
              refine ⟨?_, id, fun _ => rfl⟩
              rw [hc]
              have := b2.cell (keys + mid) (by omega)
              sc
              exact this
        have hle : ∀ x ∈ q :: (M ++ r :: N), blkLt lt x r = false := by
          intro x hx
          rw [gp] at h4 h5
          rcases List.mem_cons.1 hx with e | e
          · rw [e, ← gq]; exact h4
          · obtain ⟨i, i1, i2, i3⟩ := gi x e
            rw [← i3]; exact h5 i i1 i2
        have hsub : ∀ x ∈ M ++ q :: N, x ∈ q :: (M ++ r :: N) := by
          intro x hx
          simp only [List.mem_append, List.mem_cons] at hx ⊢
          tauto
        have := ih (D ++ [r]) (M ++ q :: N) nblk mid' s2 (by simp only [List.length_append, List.length_cons]; omega)
          (by simp only [List.length_append, List.length_cons, List.length_nil]; omega)
          (by intro x hx; rw [List.append_assoc] at hx; exact hP x (hperm.mem_iff.1 hx)) hka ?_ ?_ ?_ ?_ ?_
        · rw [List.length_append, List.length_singleton] at this
          refine wp_mono this ?_
          rintro m s3 ⟨P', p1, p2, p3, p4, p5, p6, p7, p8⟩
          obtain ⟨m1, m2, m3⟩ := hmid'
          refine ⟨P', p1.trans (by rw [List.append_assoc]; exact hperm), p2, p3, p4, p5.trans m1, fun h => p6 (m2 h), fun h => ?_, hfr.trans p8⟩
          rw [p7 (by rw [m3 h]; exact h), m3 h]
        · rcases Nat.lt_or_ge mid nblk with h | h
          · have := hmid'.2.1 h; omega
          · rw [hmid'.2.2 h]; exact hmid
        · rw [List.pairwise_append]
          refine ⟨hD, List.pairwise_singleton _ _, fun x hx y hy => ?_⟩
          rw [List.mem_singleton.1 hy]
          exact hDQ x hx r (by simp)
        · intro x hx y hy
          rcases List.mem_append.1 hx with e | e
          · exact hDQ x e y (hsub y hy)
          · rw [List.mem_singleton.1 e]; exact hle y (hsub y hy)
        · rw [List.append_assoc]; exact hk'
        · rw [List.append_assoc]; exact ha'
      · rename_i hne
        have e : p = D.length := by omega
        subst e
        rw [gq] at h5
        have := ih (D ++ [q]) Q nblk mid { s with cmps := k } (by omega)
          (by simp only [List.length_append, List.length_cons, List.length_nil]; omega) (by intro x hx; exact hP x (by simpa using hx)) hka hmid ?_ ?_
          (by simpa using hk) (by simpa using ha)
        · rw [List.length_append, List.length_singleton] at this
          refine wp_mono this ?_
          rintro m s3 ⟨P', p1, p2, p3, p4, p5, p6, p7, p8⟩
          refine ⟨P', p1.trans (by rw [List.append_assoc]; exact .refl _), p2, p3, p4, p5, p6, p7, p8.cell, p8.brk⟩
        · rw [List.pairwise_append]
          refine ⟨hD, List.pairwise_singleton _ _, fun x hx y hy => ?_⟩
          rw [List.mem_singleton.1 hy]
          exact hDQ x hx q (by simp)
        · intro x hx y hy
          rcases List.mem_append.1 hx with e | e
          · exact hDQ x e y (by simp [hy])
          · rw [List.mem_singleton.1 e]
            obtain ⟨i, i1, i2, i3⟩ := gi y hy
            rw [← i3]; exact h5 i i1 i2
    · rename_i hu
      have : Q = [] := by rw [← List.length_eq_zero_iff]; omega
      subst this
      refine wp_pure ⟨D ++ [q], .refl _, ?_, hk, ha, rfl, id, fun _ => rfl, Frame2.refl _ _ _ _ _⟩
      rw [List.pairwise_append]
      exact ⟨hD, List.pairwise_singleton _ _, hDQ⟩

end CppSort
