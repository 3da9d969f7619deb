import Verif.Proof.GrailCombine
import Verif.Proof.Spin
/-
grail_sort.h 585-626: one round of `combine_blocks`.
-/
set_option autoImplicit false

namespace CppSort
variable {α : Type} {lt : α → α → Bool} [Inhabited α]

theorem insertionSort_ssort (hlt : StrictWeak lt) {xs : List α} {f l : Nat} {s : St α} (hl : l = f + xs.length) (hs : Seg s.cell f xs) :
    wp (insertionSort (tick lt) f l) (fun _ s' => Seg s'.cell f (ssort lt xs) ∧ Frame f l s s') s := by
  subst hl
  obtain ⟨v, hv, he⟩ := hs.holds
  refine wp_mono (insertionSort_spec hlt (by omega) hv) ?_
  rintro _ s' ⟨v', hu, hso, _⟩
  have : SSorted lt xs (lst v' f (f + xs.length)) := by
    refine ⟨?_, sortedOn_iff.1 hso, ?_⟩
    · have := hu.sperm.1.2
      rwa [he] at this
    · have := hu.sperm.2
      rwa [he] at this
  rw [← this.eq_ssort hlt]
  exact ⟨hu.holds.seg, hu.frame⟩

theorem countLast_spec {arr lb nblk : Nat} (hlb : 0 < lb) {P : List (α × List α)} {T : List α} (hP : ∀ p ∈ P, p.2.length = lb)
    (hn : P.length = nblk) (hT : T ≠ []) (n : Nat) : ∀ (P1 P2 : List (α × List α)) (s : St α), P1.length = n → P = P1 ++ P2 →
    (∀ p ∈ P2, lt T.head! p.2.head! = true) → Seg s.cell arr (P.flatMap (·.2) ++ T) →
    wp (countLast (tick lt) arr lb nblk P2.length) (fun r s' => (∃ k, s' = { s with cmps := k }) ∧ ∃ Q1 Q2, P = Q1 ++ Q2 ∧ Q2.length = r ∧
      (∀ p ∈ Q2, lt T.head! p.2.head! = true) ∧ ∀ p, Q1.getLast? = some p → lt T.head! p.2.head! = false) s := by
  induction n with
  | zero =>
    intro P1 P2 s h1 e h2 hs
    have : P1 = [] := List.length_eq_zero_iff.1 h1
    subst this
    rw [countLast, if_neg (by rw [← hn, e]; simp)]
    exact wp_pure ⟨⟨_, rfl⟩, [], P2, e, rfl, h2, by simp⟩
  | succ n ih =>
    intro P1 P2 s h1 e h2 hs
    obtain ⟨h3, h4⟩ := seg_append.1 hs
    rcases List.eq_nil_or_concat' P1 with rfl | ⟨Q, p, rfl⟩
    · simp at h1
    have hlen := congrArg List.length e
    simp only [List.length_append, List.length_cons, List.length_nil] at hlen h1
    rw [countLast, if_pos (by omega)]
    apply wp_bind
    have hpe : P[nblk - P2.length - 1]! = p := by
      rw [getElem!_pos _ _ (by omega)]
      simp only [e]
      rw [List.getElem_append_left (by simp; omega), List.getElem_append_right (by omega)]
      simp
    have ht : s.cell (arr + nblk * lb) = .val T.head! := by
      rw [blocks_length hP, hn] at h4
      exact head!_val h4 (List.length_pos_iff.2 hT)
    have hp := blk_head hP hlb h3 (i := nblk - P2.length - 1) (by omega)
    rw [hpe] at hp
    refine grailCmp3At_spec ht hp fun k => ?_
    have hc := cmp3_neg (lt := lt) (x := T.head!) (y := p.2.head!)
    split
    · rename_i h
      rw [decide_eq_true h] at hc
      have := ih Q (p :: P2) { s with cmps := k } (by omega) (by rw [e]; simp) ?_ hs
      · refine wp_mono this ?_
        rintro r s' ⟨⟨k', q1⟩, q2⟩
        exact ⟨⟨k', q1⟩, q2⟩
      · intro x hx
        rcases List.mem_cons.1 hx with e' | e'
        · rw [e']; exact hc.symm
        · exact h2 x e'
    · rename_i h
      rw [decide_eq_false h] at hc
      refine wp_pure ⟨⟨k, rfl⟩, Q ++ [p], P2, e, rfl, h2, fun x hx => ?_⟩
      rw [List.getLast?_append_of_ne_nil _ (by simp)] at hx
      simp only [List.getLast?_singleton, Option.some.injEq] at hx
      rw [← hx]; exact hc.symm

/-! ### Streams of sorted blocks -/

theorem head!_of_head? {xs : List α} {x : α} (h : xs.head? = some x) : xs.head! = x := by
  cases xs with
  | nil => simp at h
  | cons y ys => simpa using h

theorem head!_le (hlt : StrictWeak lt) {xs : List α} (h : SortedList lt xs) {y : α} (hy : y ∈ xs) : lt y xs.head! = false := by
  cases xs with
  | nil => simp at hy
  | cons x xs =>
    rcases List.mem_cons.1 hy with e | e
    · rw [e]; exact hlt.irrefl _
    · exact (List.pairwise_cons.1 h).1 y e

theorem head!_mem {xs : List α} (h : xs ≠ []) : xs.head! ∈ xs := by
  cases xs with
  | nil => exact absurd rfl h
  | cons x xs => simp

/-- A block with its stream. -/
def tagOf (lt : α → α → Bool) (m : α) (p : α × List α) : Bool × List α := (!lt p.1 m, p.2)

theorem tagOf_before (hlt : StrictWeak lt) {m : α} {p q : α × List α} (hq : SortedList lt q.2) (h : blkLt lt q p = false) :
    Before lt (tagOf lt m p) (tagOf lt m q) := by
  intro hne x hx y hy
  simp only [tagOf] at hne hx hy ⊢
  rw [blkLt_false] at h
  obtain ⟨h1, h2⟩ := h
  have hy := head!_le hlt hq hy
  rw [← head!_of_head? hx]
  cases hp : lt p.1 m with
  | true =>
    simp only [leftFirst, Bool.not_true, Bool.not_false, if_true, Bool.not_eq_true']
    exact hlt.le_trans h1 hy
  | false =>
    have hqm : lt q.1 m = true := by
      rw [hp] at hne
      cases h : lt q.1 m with
      | true => rfl
      | false => rw [h] at hne; simp at hne
    have hqp : lt q.1 p.1 = true := hlt.lt_of_lt_of_le hqm hp
    simp only [leftFirst, Bool.not_false, Bool.not_true, Bool.false_eq_true, if_false]
    rw [hqp] at h2
    exact hlt.lt_of_lt_of_le (h2.resolve_right (by simp)) hy

theorem side_append {t : Bool} {bs cs : List (Bool × List α)} : side t (bs ++ cs) = side t bs ++ side t cs := by
  simp [side]

theorem side_tagOf {t : Bool} {m : α} {P : List (α × List α)} :
    side t (P.map (tagOf lt m)) = (P.filter (fun p => (!lt p.1 m) == t)).flatMap (·.2) := by
  induction P with
  | nil => rfl
  | cons p P ih =>
    rw [List.map_cons, List.filter_cons]
    split
    · rename_i h
      rw [show tagOf lt m p = (t, p.2) by unfold tagOf; rw [beq_iff_eq.1 h], side_same, ih, List.flatMap_cons]
    · rename_i h
      rw [← ih]
      exact side_other (fun e => h (by rw [e]; exact BEq.rfl))

/-- The blocks of a sorted list, with sorted keys, are in order. -/
theorem grail_blocks_sorted (hlt : StrictWeak lt) {lb : Nat} (hlb : 0 < lb) : ∀ {P : List (α × List α)}, (∀ p ∈ P, p.2.length = lb) →
    StrictList lt (P.map (·.1)) → SortedList lt (P.flatMap (·.2)) → P.Pairwise (fun p q => blkLt lt q p = false)
  | [], _, _, _ => .nil
  | p :: P, hP, hk, hs => by
    rw [List.map_cons] at hk
    obtain ⟨k1, k2⟩ := List.pairwise_cons.1 hk
    rw [List.flatMap_cons] at hs
    obtain ⟨s1, s2, s3⟩ := List.pairwise_append.1 hs
    refine List.pairwise_cons.2 ⟨fun q hq => ?_, grail_blocks_sorted hlt hlb (fun q hq => hP q (List.mem_cons_of_mem _ hq)) k2 s2⟩
    rw [blkLt_false]
    refine ⟨?_, .inr (hlt.asymm (k1 q.1 (List.mem_map.2 ⟨q, hq, rfl⟩)))⟩
    refine s3 _ (head!_mem ?_) _ (List.mem_flatMap.2 ⟨q, hq, head!_mem ?_⟩)
    · exact List.length_pos_iff.1 (by rw [hP p List.mem_cons_self]; exact hlb)
    · exact List.length_pos_iff.1 (by rw [hP q (List.mem_cons_of_mem _ hq)]; exact hlb)

/-- Keys and elements as blocks. -/
theorem exists_blocks {lb : Nat} : ∀ (ks X : List α), X.length = ks.length * lb →
    ∃ P : List (α × List α), P.map (·.1) = ks ∧ P.flatMap (·.2) = X ∧ ∀ p ∈ P, p.2.length = lb
  | [], X, h => by
    have : X = [] := by rw [← List.length_eq_zero_iff, h]; simp
    subst this
    exact ⟨[], rfl, rfl, by simp⟩
  | k :: ks, X, h => by
    rw [List.length_cons, Nat.succ_mul] at h
    obtain ⟨P, h1, h2, h3⟩ := exists_blocks (lb := lb) ks (X.drop lb) (by rw [List.length_drop]; omega)
    refine ⟨(k, X.take lb) :: P, by rw [List.map_cons, h1], by rw [List.flatMap_cons, h2]; exact List.take_append_drop _ _, ?_⟩
    intro p hp
    rcases List.mem_cons.1 hp with e | e
    · rw [e]; show (X.take lb).length = lb; rw [List.length_take]; omega
    · exact h3 p e

/-- The blocks of one stream, in the order of the blocks, are in their first order. -/
theorem filter_blocks (hlt : StrictWeak lt) {P P' Q : List (α × List α)} {f : α × List α → Bool} (hp : P'.Perm P)
    (hd : StrictList lt (P.map (·.1))) (h' : P'.Pairwise (fun p q => blkLt lt q p = false)) (hf : P.filter f = Q)
    (hQ : Q.Pairwise (fun p q => blkLt lt q p = false)) : P'.filter f = Q := by
  refine List.Perm.eq_of_pairwise (le := fun p q => blkLt lt q p = false) ?_ (h'.filter f) hQ (hf ▸ hp.filter f)
  intro p q hp1 hq1 h1 h2
  rw [blkLt_false] at h1 h2
  have k1 := h1.2.resolve_left (by rw [h2.1]; simp)
  have k2 := h2.2.resolve_left (by rw [h1.1]; simp)
  have hpP : p ∈ P := hp.mem_iff.1 (List.mem_filter.1 hp1).1
  have hqP : q ∈ P := by rw [← hf] at hq1; exact (List.mem_filter.1 hq1).1
  by_contra hne
  have hd' : P.Pairwise (fun p q => lt p.1 q.1 = true ∨ lt q.1 p.1 = true) :=
    (List.pairwise_map.1 hd).imp fun h => .inl h
  haveI : Std.Symm (fun p q : α × List α => lt p.1 q.1 = true ∨ lt q.1 p.1 = true) := ⟨fun _ _ h => h.symm⟩
  have := hd'.forall hpP hqP hne
  rw [k1, k2] at this
  simp at this

theorem strict_of_distinct {ks : List α} (h : DistinctKeys lt ks) (hs : SortedList lt ks) : StrictList lt ks :=
  (List.Pairwise.and h hs).imp fun ⟨h1, h2⟩ => h1.resolve_right (by rw [h2]; simp)

theorem DistinctKeys.perm {ks ks' : List α} (h : DistinctKeys lt ks) (hp : ks'.Perm ks) : DistinctKeys lt ks' :=
  (hp.pairwise_iff fun h => h.symm).2 h

theorem sublist_block {P : List (α × List α)} {p : α × List α} (h : p ∈ P) : List.Sublist p.2 (P.flatMap (·.2)) := by
  obtain ⟨M, N, rfl⟩ := List.append_of_mem h
  rw [List.flatMap_append, List.flatMap_cons]
  exact (List.sublist_append_left _ _).trans (List.sublist_append_right _ _)

/-- What the order of the blocks means for the merge. -/
theorem round_lists (hlt : StrictWeak lt) {lb : Nat} (hlb : 0 < lb) {PA PB P' Q1 Q2 : List (α × List α)} {T : List α} {m : α}
    (hA : ∀ p ∈ PA, p.2.length = lb) (hB : ∀ p ∈ PB, p.2.length = lb) (hk : StrictList lt ((PA ++ PB).map (·.1)))
    (hmA : ∀ p ∈ PA, lt p.1 m = true) (hmB : ∀ p ∈ PB, lt p.1 m = false) (oA : SortedList lt (PA.flatMap (·.2)))
    (oB : SortedList lt (PB.flatMap (·.2) ++ T)) (hp : P'.Perm (PA ++ PB)) (hs : P'.Pairwise (fun p q => blkLt lt q p = false))
    (e : P' = Q1 ++ Q2) (hT0 : T = [] → Q2 = []) (h2 : ∀ p ∈ Q2, lt T.head! p.2.head! = true)
    (h1 : T ≠ [] → ∀ p, Q1.getLast? = some p → lt T.head! p.2.head! = false) :
    (∀ q ∈ Q2.map (tagOf lt m), q.1 = false) ∧ (Q1.map (tagOf lt m) ++ (true, T) :: Q2.map (tagOf lt m)).Pairwise (Before lt) ∧
    side false (Q1.map (tagOf lt m) ++ (true, T) :: Q2.map (tagOf lt m)) = PA.flatMap (·.2) ∧
    side true (Q1.map (tagOf lt m) ++ (true, T) :: Q2.map (tagOf lt m)) = PB.flatMap (·.2) ++ T := by
  have hmem : ∀ p ∈ P', p ∈ PA ∨ p ∈ PB := fun p h => List.mem_append.1 (hp.mem_iff.1 h)
  have hne : ∀ p ∈ P', p.2 ≠ [] := fun p h => List.length_pos_iff.1 (by
    rcases hmem p h with h | h
    · rw [hA p h]; exact hlb
    · rw [hB p h]; exact hlb)
  obtain ⟨oB1, oT, oBT⟩ := List.pairwise_append.1 oB
  have hsort : ∀ p ∈ P', SortedList lt p.2 := by
    intro p h
    rcases hmem p h with h | h
    · exact oA.sublist (sublist_block h)
    · exact oB1.sublist (sublist_block h)
  -- the last blocks are of the first stream
  have hQ2 : ∀ p ∈ Q2, p ∈ PA := by
    intro p h
    have hT : T ≠ [] := fun eT => by rw [hT0 eT] at h; simp at h
    have hpP : p ∈ P' := by rw [e]; exact List.mem_append.2 (.inr h)
    rcases hmem p hpP with h' | h'
    · exact h'
    · have := oBT _ (List.mem_flatMap.2 ⟨p, h', head!_mem (hne p hpP)⟩) _ (head!_mem hT)
      rw [h2 p h] at this; cases this
  have hall : ∀ q ∈ Q2.map (tagOf lt m), q.1 = false := by
    intro q hq
    obtain ⟨p, hp1, rfl⟩ := List.mem_map.1 hq
    show (!lt p.1 m) = false
    rw [hmA p (hQ2 p hp1)]; rfl
  rw [e] at hs
  obtain ⟨o1, o2, o3⟩ := List.pairwise_append.1 hs
  have hle : T ≠ [] → ∀ p ∈ Q1, lt T.head! p.2.head! = false := by
    intro hT p hp1
    rcases List.eq_nil_or_concat' Q1 with rfl | ⟨L, z, rfl⟩
    · simp at hp1
    · have hz := h1 hT z (by simp)
      rcases List.mem_append.1 hp1 with h | h
      · have := ((List.pairwise_append.1 o1).2.2 p h z (by simp))
        rw [blkLt_false] at this
        exact hlt.le_trans this.1 hz
      · rw [List.mem_singleton.1 h]; exact hz
  have memP : ∀ p ∈ Q1, p ∈ P' := fun p h => by rw [e]; exact List.mem_append.2 (.inl h)
  have memP2 : ∀ p ∈ Q2, p ∈ P' := fun p h => by rw [e]; exact List.mem_append.2 (.inr h)
  have fA : P'.filter (fun p => (!lt p.1 m) == false) = PA := by
    refine filter_blocks hlt hp hk (by rw [e]; exact hs) ?_ (grail_blocks_sorted hlt hlb hA (List.pairwise_append.1 (by rw [← List.map_append]; exact hk)).1 oA)
    rw [List.filter_append, List.filter_eq_self.2, List.filter_eq_nil_iff.2, List.append_nil]
    · intro p h; simp [hmB p h]
    · intro p h; simp [hmA p h]
  have fB : P'.filter (fun p => (!lt p.1 m) == true) = PB := by
    refine filter_blocks hlt hp hk (by rw [e]; exact hs) ?_ (grail_blocks_sorted hlt hlb hB (List.pairwise_append.1 (by rw [← List.map_append]; exact hk)).2.1 oB1)
    rw [List.filter_append, List.filter_eq_nil_iff.2, List.filter_eq_self.2, List.nil_append]
    · intro p h; simp [hmB p h]
    · intro p h; simp [hmA p h]
  obtain ⟨sf, st⟩ := side_all hall
  refine ⟨hall, ?_, ?_, ?_⟩
  · rw [List.pairwise_append]
    refine ⟨?_, List.pairwise_cons.2 ⟨?_, ?_⟩, ?_⟩
    · rw [List.pairwise_map]
      exact o1.imp_of_mem fun _ hb h => tagOf_before hlt (hsort _ (memP _ hb)) h
    · intro q hq
      obtain ⟨p, hp1, rfl⟩ := List.mem_map.1 hq
      intro _ x hx y hy
      simp only [leftFirst, Bool.not_true, Bool.false_eq_true, if_false]
      rw [← head!_of_head? hx]
      exact hlt.lt_of_lt_of_le (h2 p hp1) (head!_le hlt (hsort p (memP2 p hp1)) hy)
    · rw [List.pairwise_map]
      exact o2.imp_of_mem fun _ hb h => tagOf_before hlt (hsort _ (memP2 _ hb)) h
    · intro q hq r hr
      obtain ⟨p, hp1, rfl⟩ := List.mem_map.1 hq
      rcases List.mem_cons.1 hr with rfl | hr
      · intro hne' x hx y hy
        have : lt p.1 m = true := by
          simp only [tagOf] at hne'
          cases h : lt p.1 m with
          | true => rfl
          | false => rw [h] at hne'; simp at hne'
        simp only [tagOf, this, leftFirst, Bool.not_true, Bool.not_false, if_true, Bool.not_eq_true'] at hx ⊢
        rw [← head!_of_head? hx]
        exact hlt.le_trans (hle (List.ne_nil_of_mem hy) p hp1) (head!_le hlt oT hy)
      · obtain ⟨p', hp2, rfl⟩ := List.mem_map.1 hr
        exact tagOf_before hlt (hsort p' (memP2 p' hp2)) (o3 p hp1 p' hp2)
  · rw [side_append, side_other (by simp), ← side_append, ← List.map_append, ← e, side_tagOf, fA]
  · have : side true (P'.map (tagOf lt m)) = PB.flatMap (·.2) := by rw [side_tagOf, fB]
    rw [e, List.map_append, side_append, show side true (Q2.map (tagOf lt m)) = [] from st, List.append_nil] at this
    rw [side_append, side_same, show side true (Q2.map (tagOf lt m)) = [] from st, List.append_nil, this]

set_option maxHeartbeats 400000 in
theorem combineOne_spec (hlt : StrictWeak lt) (c : Cfg) {b : GrailBuf} {keys arr LL lb nblk nkeys kA kB o : Nat} {A B T ks J : List α} {s : St α}
    (hlb : 0 < lb) (hA : A.length = kA * lb) (hB : B.length = kB * lb) (hT : T.length < lb) (hLL : LL = A.length) (hn : nblk = kA + kB)
    (hks : ks.length = nkeys) (hnk : nblk ≤ nkeys) (hkA : kA < nkeys) (oA : SortedList lt A) (oB : SortedList lt (B ++ T))
    (hd : DistinctKeys lt ks) (hJ : GapLen b lb J.length) (ha : arr = o + J.length) (hko : keys + nkeys ≤ o)
    (sk : Seg s.cell keys ks) (g : Gap b s.cell o J) (sx : Seg s.cell arr (A ++ (B ++ T))) :
    wp (combineOne (tick lt) c b keys arr LL lb nblk nkeys T.length) (fun _ s' => ∃ ks' J', ks'.Perm ks ∧ J'.Perm J ∧
      Seg s'.cell keys ks' ∧ Seg s'.cell o (mergeL lt A (B ++ T)) ∧ Gap b s'.cell (o + (A.length + B.length + T.length)) J' ∧
      Frame2 keys nkeys o (arr + (A.length + B.length + T.length)) s s') s := by
  unfold combineOne
  apply wp_bind
  refine wp_mono (insertionSort_ssort hlt (by omega) sk) ?_
  rintro _ s1 ⟨sk1, fr1⟩
  have hstrict : StrictList lt (ssort lt ks) := strict_of_distinct (hd.perm (ssort_perm _)) (ssort_sorted hlt _)
  have hlen : (ssort lt ks).length = nkeys := by rw [ssort_length, hks]
  have hkperm := ssort_perm (lt := lt) ks
  generalize hks1 : ssort lt ks = ks1 at *
  -- the keys of the two streams
  obtain ⟨kA', k2, rfl, hkA'⟩ : ∃ u v, ks1 = u ++ v ∧ u.length = kA := ⟨ks1.take kA, ks1.drop kA, by simp, by simp; omega⟩
  obtain ⟨kB', kr, rfl, hkB'⟩ : ∃ u v, k2 = u ++ v ∧ u.length = kB :=
    ⟨k2.take kB, k2.drop kB, by simp, by rw [List.length_append] at hlen; rw [List.length_take]; omega⟩
  simp only [List.length_append] at hlen
  obtain ⟨m, kt, hkt⟩ : ∃ m kt, kB' ++ kr = m :: kt := List.exists_cons_of_ne_nil (List.length_pos_iff.1 (by rw [List.length_append]; omega))
  obtain ⟨PA, a1, a2, a3⟩ := exists_blocks (lb := lb) kA' A (by rw [hA, hkA'])
  obtain ⟨PB, b1, b2, b3⟩ := exists_blocks (lb := lb) kB' B (by rw [hB, hkB'])
  have hPA : PA.length = kA := by rw [← hkA', ← a1, List.length_map]
  have hPB : PB.length = kB := by rw [← hkB', ← b1, List.length_map]
  have hP : ∀ p ∈ PA ++ PB, p.2.length = lb := fun p h => (List.mem_append.1 h).elim (a3 p) (b3 p)
  have hmid : LL / lb = kA := by rw [hLL, hA]; exact Nat.mul_div_cancel _ hlb
  have hmul : nblk * lb = A.length + B.length := by rw [hn, Nat.add_mul, hA, hB]
  rw [← List.append_assoc, seg_append] at sk1
  obtain ⟨sk1, skr⟩ := sk1
  have hm1 : s1.cell (keys + kA) = .val m := by
    rcases kB' with _ | ⟨u, kB'⟩
    · rw [List.nil_append] at hkt
      rw [hkt] at skr
      have := (seg_cons.1 skr).1
      simp only [List.append_nil, hkA'] at this
      exact this
    · rw [seg_append, hkA'] at sk1
      rw [List.cons_append, List.cons.injEq] at hkt
      rw [← hkt.1]
      exact (seg_cons.1 sk1.2).1
  have sx1 : Seg s1.cell arr (A ++ (B ++ T)) := sx.congr fun i h1 h2 => fr1.cell i (by omega)
  rw [← List.append_assoc, seg_append] at sx1
  obtain ⟨sx1, st1⟩ := sx1
  rw [List.length_append] at st1
  have g1 : Gap b s1.cell o J := g.congr fun i h1 h2 => fr1.cell i (by omega)
  have hw := selectBlocks_spec hlt hlb (keys := keys) (arr := arr) _ [] (PA ++ PB) nblk kA s1 rfl (by simp; omega) hP (by omega) (by omega)
    .nil (by simp) (by rw [List.nil_append, List.map_append, a1, b1]; exact sk1) (by rw [List.nil_append, List.flatMap_append, a2, b2]; exact sx1)
  rw [List.nil_append, List.length_nil] at hw
  rw [hmid]
  apply wp_bind
  refine wp_mono hw ?_
  rintro mid s2 ⟨P', q1, q2, q3, q4, q5, q6, q7, fr2⟩
  have hP'l := q1.length_eq
  rw [List.length_append] at hP'l
  have hP' : ∀ p ∈ P', p.2.length = lb := fun p h => hP p (q1.mem_iff.1 h)
  have hmidlt : mid < nkeys := by
    rcases Nat.lt_or_ge kA nblk with h | h
    · have := q6 h; omega
    · rw [q7 h]; exact hkA
  rw [hm1] at q5
  have skr2 : Seg s2.cell (keys + nblk) kr := by
    rw [List.length_append, hkA', hkB', ← hn] at skr
    exact skr.congr fun i h1 h2 => fr2.cell i (by omega) (by omega)
  have st2 : Seg s2.cell (arr + (A.length + B.length)) T := st1.congr fun i h1 h2 => fr2.cell i (by omega) (by omega)
  have g2 : Gap b s2.cell o J := g1.congr fun i h1 h2 => fr2.cell i (by omega) (by omega)
  have hP'b : (P'.flatMap (·.2)).length = A.length + B.length := by rw [blocks_length hP', hP'l, hPA, hPB, ← hn, hmul]
  have seg2 : Seg s2.cell arr (P'.flatMap (·.2) ++ T) := seg_append.2 ⟨q4, by rw [hP'b]; exact st2⟩
  -- the last blocks
  have hcount : wp (lastBlocks (tick lt) arr lb nblk T.length) (fun r s' => (∃ k, s' = { s2 with cmps := k }) ∧
      ∃ Q1 Q2, P' = Q1 ++ Q2 ∧ Q2.length = r ∧ (T = [] → Q2 = []) ∧ (∀ p ∈ Q2, lt T.head! p.2.head! = true) ∧
        (T ≠ [] → ∀ p, Q1.getLast? = some p → lt T.head! p.2.head! = false)) s2 := by
    unfold lastBlocks
    split
    · rename_i h
      have hT1 : T ≠ [] := List.length_pos_iff.1 (by omega)
      refine wp_mono (countLast_spec hlb (P := P') hP' (by omega) hT1 _ P' [] s2 rfl (by simp) (by simp) seg2) ?_
      rintro r s' ⟨h1, Q1, Q2, h2, h3, h4, h5⟩
      exact ⟨h1, Q1, Q2, h2, h3, fun e => absurd e hT1, h4, fun _ => h5⟩
    · rename_i h
      have hT1 : T = [] := List.length_eq_zero_iff.1 (by omega)
      exact wp_pure ⟨⟨_, rfl⟩, P', [], by simp, rfl, fun _ => rfl, by simp, fun e => absurd hT1 e⟩
  apply wp_bind
  refine wp_mono hcount ?_
  rintro nb2 _ ⟨⟨k, rfl⟩, Q1, Q2, e, hQ2, hT0, c1, c2⟩
  have hmA : ∀ p ∈ PA, lt p.1 m = true := by
    intro p hp
    have : p.1 ∈ kA' := by rw [← a1]; exact List.mem_map.2 ⟨p, hp, rfl⟩
    exact (List.pairwise_append.1 hstrict).2.2 _ this m (by rw [hkt]; simp)
  have hmB : ∀ p ∈ PB, lt p.1 m = false := by
    intro p hp
    have h1 : p.1 ∈ kB' ++ kr := List.mem_append.2 (.inl (by rw [← b1]; exact List.mem_map.2 ⟨p, hp, rfl⟩))
    have h2 := (List.pairwise_append.1 hstrict).2.1
    rw [hkt] at h1 h2
    rcases List.mem_cons.1 h1 with h | h
    · rw [h]; exact hlt.irrefl _
    · exact hlt.asymm ((List.pairwise_cons.1 h2).1 _ h)
  have hstrictP : StrictList lt ((PA ++ PB).map (·.1)) := by
    rw [List.map_append, a1, b1]
    rw [← List.append_assoc] at hstrict
    exact (List.pairwise_append.1 hstrict).1
  obtain ⟨r1, r2, r3, r4⟩ := round_lists hlt hlb (T := T) (m := m) a3 b3 hstrictP hmA hmB (by rw [a2]; exact oA) (by rw [b2]; exact oB) q1 q2 e hT0 c1 c2
  rw [a2] at r3
  rw [b2] at r4
  have hQl : Q1.length + Q2.length = nblk := by rw [← List.length_append, ← e]; omega
  have tags : ∀ Q : List (α × List α), (Q.map (tagOf lt m)).flatMap (·.2) = Q.flatMap (·.2) := by
    intro Q
    rw [List.flatMap_map]
    rfl
  have hQ1' : ∀ q ∈ Q1.map (tagOf lt m), q.2.length = lb := by
    intro q hq
    obtain ⟨p, hp, rfl⟩ := List.mem_map.1 hq
    exact hP' p (by rw [e]; exact List.mem_append.2 (.inl hp))
  have hQ2' : ∀ q ∈ Q2.map (tagOf lt m), q.2.length = lb := by
    intro q hq
    obtain ⟨p, hp, rfl⟩ := List.mem_map.1 hq
    exact hP' p (by rw [e]; exact List.mem_append.2 (.inr hp))
  have hmul2 : (nblk - nb2) * lb + nb2 * lb = A.length + B.length := by rw [← hmul, ← Nat.add_mul]; congr 1; omega
  rw [e, List.map_append] at q3
  have hMg : Mg lt (Q1.map (tagOf lt m) ++ (true, T) :: Q2.map (tagOf lt m)) = mergeL lt A (B ++ T) := by
    show mergeL lt _ _ = _
    rw [r3, r4]
  have hfin := mergeBuffersLeft_spec hlt c (b := b) (keys := keys) (midkey := keys + mid) (nblock := nblk - nb2) (lb := lb) (nb2 := nb2)
    (arr := arr) (o := o) (m := m) hlb (bs := Q1.map (tagOf lt m)) (tr := Q2.map (tagOf lt m)) (ks := Q1.map (·.1)) (J := J) (T := T)
    (s := { s2 with cmps := k }) (by rw [List.length_map]; omega) (by rw [List.length_map]; exact hQ2) hQ1' hQ2' r1 hT
    (fun h => by rw [hT0 h]; rfl) hJ ha (by omega) (by omega) r2 ?_ q5 (seg_append.1 q3).1 (by rw [List.map_map, List.map_map]; rfl) g2 ?_
  · refine wp_mono hfin ?_
    rintro _ s3 ⟨J3, u1, u2, u3, u4⟩
    rw [hMg] at u2
    refine ⟨P'.map (·.1) ++ kr, J3, ?_, u1, ?_, u2, ?_, ?_⟩
    · have := (q1.map (·.1)).append_right kr
      rw [List.map_append, a1, b1, List.append_assoc] at this
      exact this.trans hkperm
    · rw [e, List.map_append, seg_append]
      have hl2 : (Q1.map (·.1) ++ Q2.map (·.1)).length = nblk := by rw [List.length_append, List.length_map, List.length_map]; exact hQl
      rw [hl2]
      exact ⟨q3.congr fun i h1 h2 => u4.cell i (by omega), skr2.congr fun i h1 h2 => u4.cell i (by omega)⟩
    · rw [show o + (A.length + B.length + T.length) = o + ((nblk - nb2) * lb + nb2 * lb + T.length) by omega]; exact u3
    · have f1 : Frame2 keys nkeys o (arr + (A.length + B.length + T.length)) s s1 := Frame.one (by rw [← hks] at *; exact fr1)
      have f2 : Frame2 keys nkeys o (arr + (A.length + B.length + T.length)) s1 s2 := fr2.mono hnk (by omega) (by omega)
      have f3 : Frame2 keys nkeys o (arr + (A.length + B.length + T.length)) s2 s3 :=
        (u4.tick.mono (f := o) (l := arr + (A.length + B.length + T.length)) (Nat.le_refl _) (by omega)).two
      exact f1.trans (f2.trans f3)
  · intro t
    cases t
    · rw [r3]; exact oA
    · rw [r4]; exact oB
  · rw [tags, tags, ← List.append_assoc, ← List.flatMap_append, ← e]; exact seg2

end CppSort
