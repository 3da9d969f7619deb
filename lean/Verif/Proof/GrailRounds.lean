import Verif.Proof.GrailRound
/-
grail_sort.h 559-637: `combine_blocks`.
-/
set_option autoImplicit false

namespace CppSort
variable {α : Type} {lt : α → α → Bool} [Inhabited α]

theorem combineOne_keys (hlt : StrictWeak lt) (c : Cfg) {b : GrailBuf} {keys arr LL lb nblk nkeys kA kB o : Nat} {A B T ks J : List α} {s : St α}
    (hlb : 0 < lb) (hA : A.length = kA * lb) (hB : B.length = kB * lb) (hT : T.length < lb) (hLL : LL = A.length) (hn : nblk = kA + kB)
    (hks : nkeys ≤ ks.length) (hnk : nblk ≤ nkeys) (hkA : kA < nkeys) (oA : SortedList lt A) (oB : SortedList lt (B ++ T))
    (hd : DistinctKeys lt ks) (hJ : GapLen b lb J.length) (ha : arr = o + J.length) (hko : keys + ks.length ≤ o)
    (sk : Seg s.cell keys ks) (g : Gap b s.cell o J) (sx : Seg s.cell arr (A ++ (B ++ T))) :
    wp (combineOne (tick lt) c b keys arr LL lb nblk nkeys T.length) (fun _ s' => ∃ ks' J', ks'.Perm ks ∧ J'.Perm J ∧
      Seg s'.cell keys ks' ∧ Seg s'.cell o (mergeL lt A (B ++ T)) ∧ Gap b s'.cell (o + (A.length + B.length + T.length)) J' ∧
      Frame2 keys ks.length o (arr + (A.length + B.length + T.length)) s s') s := by
  obtain ⟨k1, k2, rfl, h1⟩ : ∃ u v, ks = u ++ v ∧ u.length = nkeys := ⟨ks.take nkeys, ks.drop nkeys, by simp, by simp; omega⟩
  obtain ⟨sk1, sk2⟩ := seg_append.1 sk
  rw [List.length_append] at hko hks
  refine wp_mono (combineOne_spec hlt c hlb hA hB hT hLL hn h1 hnk hkA oA oB (List.pairwise_append.1 hd).1 hJ ha (by omega) sk1 g sx) ?_
  rintro _ s' ⟨ks', J', q1, q2, q3, q4, q5, q6⟩
  refine ⟨ks' ++ k2, J', q1.append_right _, q2, seg_append.2 ⟨q3, ?_⟩, q4, q5, q6.mono (by rw [List.length_append]; omega) (Nat.le_refl _) (Nat.le_refl _)⟩
  rw [q1.length_eq]
  exact sk2.congr fun i h1 h2 => q6.cell i (by omega) (by omega)

theorem combineLoop_spec (hlt : StrictWeak lt) (c : Cfg) {b : GrailBuf} {keys LL lb lrest kA : Nat} (hlb : 0 < lb) (hLL : LL = kA * lb)
    (hkA : 0 < kA) (hr : lrest = 0 ∨ (LL < lrest ∧ lrest < 2 * LL)) : ∀ (n : Nat) (xs ks J : List α) (arr o : Nat) (s : St α),
    xs.length = n * (2 * LL) + lrest → (0 < n → 2 * kA ≤ ks.length) → (lrest ≠ 0 → lrest / lb + 1 ≤ ks.length) →
    DistinctKeys lt ks → GapLen b lb J.length → arr = o + J.length → keys + ks.length ≤ o →
    Seg s.cell keys ks → Gap b s.cell o J → Seg s.cell arr (chunkSort lt LL xs) →
    wp (combineLoop (tick lt) c b keys LL lb lrest arr n) (fun _ s' => ∃ ks' J', ks'.Perm ks ∧ J'.Perm J ∧
      Seg s'.cell keys ks' ∧ Seg s'.cell o (chunkSort lt (2 * LL) xs) ∧ Gap b s'.cell (o + xs.length) J' ∧
      Frame2 keys ks.length o (arr + xs.length) s s') s := by
  have hLL0 : 0 < LL := by rw [hLL]; exact Nat.mul_pos hkA hlb
  intro n
  induction n with
  | zero =>
    intro xs ks J arr o s hx _ hk hd hJ ha hko sk g sx
    rw [Nat.zero_mul, Nat.zero_add] at hx
    unfold combineLoop
    split
    · rename_i h0
      obtain ⟨A, B, rfl, hA⟩ : ∃ u v, xs = u ++ v ∧ u.length = LL := ⟨xs.take LL, xs.drop LL, by simp, by simp; omega⟩
      rw [List.length_append] at hx
      rw [chunkSort_append hLL0 hA, chunkSort_short (X := B) hLL0 (by omega)] at sx
      have hmod : lrest % lb = B.length % lb := by
        rw [← hx, hA, hLL, Nat.mul_comm kA, Nat.mul_add_mod]
      have hdiv : lrest / lb = kA + B.length / lb := by
        rw [← hx, hA, hLL, Nat.mul_comm kA, Nat.mul_add_div hlb]
      obtain ⟨B1, T, hBT, hB1, hT⟩ : ∃ u v, ssort lt B = u ++ v ∧ u.length = B.length / lb * lb ∧ v.length = B.length % lb := by
        have := Nat.div_add_mod B.length lb
        rw [Nat.mul_comm] at this
        exact ⟨(ssort lt B).take (B.length / lb * lb), (ssort lt B).drop (B.length / lb * lb), by simp,
          by rw [List.length_take, ssort_length]; omega, by rw [List.length_drop, ssort_length]; omega⟩
      have hTlt : T.length < lb := by rw [hT]; exact Nat.mod_lt _ hlb
      have hlen : B1.length + T.length = B.length := by rw [← ssort_length (lt := lt) B, hBT, List.length_append]
      have hk' := hk (by omega)
      rw [hBT] at sx
      have hw := combineOne_keys hlt c (b := b) (keys := keys) (nkeys := lrest / lb + 1) (nblk := lrest / lb) (LL := LL) (A := ssort lt A) (B := B1)
        (T := T) hlb (by rw [ssort_length, hA, hLL]) hB1 hTlt (by rw [ssort_length, hA]) hdiv (by omega) (by omega)
        (by rw [hdiv]; exact Nat.lt_succ_of_le (Nat.le_add_right _ _)) (ssort_sorted hlt _)
        (by rw [← hBT]; exact ssort_sorted hlt _) hd hJ ha hko sk g sx
      rw [hT, ← hmod] at hw
      refine wp_mono hw ?_
      rintro _ s' ⟨ks', J', q1, q2, q3, q4, q5, q6⟩
      rw [hmod, ← hT] at q5 q6
      rw [ssort_length] at q5 q6
      rw [← hBT, ssort_merge hlt] at q4
      refine ⟨ks', J', q1, q2, q3, ?_, ?_, ?_⟩
      · rw [chunkSort_short (by omega) (by rw [List.length_append]; omega)]; exact q4
      · rw [List.length_append, show A.length + B.length = A.length + B1.length + T.length by omega]; exact q5
      · rw [List.length_append, show A.length + B.length = A.length + B1.length + T.length by omega]; exact q6
    · rename_i h0
      have : xs = [] := List.length_eq_zero_iff.1 (by omega)
      subst this
      exact wp_pure ⟨ks, J, .refl _, .refl _, sk, by rw [chunkSort_nil]; exact Seg.nil, g, Frame2.refl _ _ _ _ _⟩
  | succ n ih =>
    intro xs ks J arr o s hx hk2 hk hd hJ ha hko sk g sx
    rw [Nat.succ_mul] at hx
    obtain ⟨A, B, C, rfl, hA, hB⟩ : ∃ A B C, xs = A ++ (B ++ C) ∧ A.length = LL ∧ B.length = LL :=
      ⟨xs.take LL, (xs.drop LL).take LL, (xs.drop LL).drop LL, by rw [List.take_append_drop, List.take_append_drop],
        by rw [List.length_take]; omega, by rw [List.length_take, List.length_drop]; omega⟩
    simp only [List.length_append] at hx
    rw [chunkSort_append hLL0 hA, chunkSort_append hLL0 hB, ← List.append_assoc, seg_append] at sx
    obtain ⟨sx, sc'⟩ := sx
    rw [List.length_append, ssort_length, ssort_length] at sc'
    have hk2' := hk2 (by omega)
    have hdiv : 2 * LL / lb = 2 * kA := by rw [hLL, ← Nat.mul_assoc]; exact Nat.mul_div_cancel _ hlb
    unfold combineLoop
    apply wp_bind
    rw [hdiv]
    have hw := combineOne_keys hlt c (b := b) (keys := keys) (nkeys := 2 * kA) (nblk := 2 * kA) (LL := LL) (A := ssort lt A) (B := ssort lt B)
        (T := []) hlb (by rw [ssort_length, hA, hLL]) (by rw [ssort_length, hB, hLL]) (by simpa using hlb) (by rw [ssort_length, hA])
        (show 2 * kA = kA + kA by omega) (by omega) (by omega) (by omega) (ssort_sorted hlt _)
        (by rw [List.append_nil]; exact ssort_sorted hlt _) hd hJ ha hko sk g (by rw [List.append_nil]; exact sx)
    rw [List.length_nil, List.append_nil, Nat.add_zero, ssort_length, ssort_length, ssort_merge hlt] at hw
    refine wp_mono hw ?_
    rintro _ s1 ⟨ks1, J1, q1, q2, q3, q4, q5, q6⟩
    have hl1 := q1.length_eq
    have hl2 := q2.length_eq
    refine wp_mono (ih C ks1 J1 (arr + 2 * LL) (o + (A.length + B.length)) s1 (by omega) (by rw [hl1]; intro; omega) (by rw [hl1]; exact hk)
      (hd.perm q1) (by rw [hl2]; exact hJ) (by omega) (by omega) q3 q5 ?_) ?_
    · rw [show arr + 2 * LL = arr + (A.length + B.length) by omega]
      exact sc'.congr fun i h1 h2 => q6.cell i (by omega) (by omega)
    rintro _ s2 ⟨ks2, J2, r1, r2, r3, r4, r5, r6⟩
    refine ⟨ks2, J2, r1.trans q1, r2.trans q2, r3, ?_, ?_, ?_⟩
    · rw [← List.append_assoc, chunkSort_append (by omega) (by rw [List.length_append]; omega), seg_append, ssort_length, List.length_append]
      refine ⟨q4.congr fun i h1 h2 => r6.cell i ?_ ?_, r4⟩
      · omega
      · rw [ssort_length, List.length_append] at h2; omega
    · simp only [List.length_append]
      rw [show o + (A.length + (B.length + C.length)) = o + (A.length + B.length) + C.length by omega]; exact r5
    · simp only [List.length_append]
      exact (q6.mono (Nat.le_refl _) (Nat.le_refl _) (by omega)).trans (r6.mono (by omega) (by omega) (by omega))

theorem combineBlocks_spec (hlt : StrictWeak lt) (c : Cfg) {b : GrailBuf} {keys arr len LL lb xbuf kA n : Nat} {xs ks J : List α} {s : St α}
    (hlb : 0 < lb) (hLL : LL = kA * lb) (hkA : 0 < kA) (hx : xs.length = len) (hk2 : 2 * LL ≤ len → 2 * kA ≤ ks.length)
    (hk : LL < len % (2 * LL) → len % (2 * LL) / lb + 1 ≤ ks.length) (hd : DistinctKeys lt ks) (hJ : GapLen b lb J.length)
    (ha : arr = keys + ks.length + J.length) (hn : b = .extra → lb ≤ n) (hdis : arr + len ≤ xbuf ∨ xbuf + n ≤ keys)
    (hlive : ∀ i, xbuf ≤ i → i < xbuf + n → Live s.cell i)
    (sk : Seg s.cell keys (ks ++ J)) (sx : Seg s.cell arr (chunkSort lt LL xs)) :
    wp (combineBlocks (tick lt) c b keys arr len LL lb xbuf) (fun _ s' => ∃ K', K'.Perm (ks ++ J) ∧ Seg s'.cell keys K' ∧
      Seg s'.cell arr (chunkSort lt (2 * LL) xs) ∧ GFrame keys (arr + len) xbuf n s s') s := by
  have hLL0 : 0 < LL := by rw [hLL]; exact Nat.mul_pos hkA hlb
  have hmod : len % (2 * LL) < 2 * LL := Nat.mod_lt _ (by omega)
  have hdm := Nat.div_add_mod len (2 * LL)
  rw [Nat.mul_comm] at hdm
  obtain ⟨sk, sj⟩ := seg_append.1 sk
  unfold combineBlocks
  generalize hlr : (if len % (2 * LL) ≤ LL then 0 else len % (2 * LL)) = lrest
  generalize hle : (if len % (2 * LL) ≤ LL then len - len % (2 * LL) else len) = len'
  simp only []
  -- the elements at the end that stay
  obtain ⟨x1, x2, rfl, e1, e2, e3, e4⟩ : ∃ x1 x2, xs = x1 ++ x2 ∧ x1.length = len' ∧ x2.length ≤ LL ∧ (x2 = [] ∨ lrest = 0) ∧
      x1.length = len / (2 * LL) * (2 * LL) + lrest := by
    by_cases h : len % (2 * LL) ≤ LL
    · rw [if_pos h] at hlr hle
      exact ⟨xs.take len', xs.drop len', by simp, by rw [List.length_take]; omega, by rw [List.length_drop]; omega, .inr hlr.symm,
        by rw [List.length_take]; omega⟩
    · rw [if_neg h] at hlr hle
      exact ⟨xs, [], by simp, by omega, by simp, .inl rfl, by omega⟩
  rw [List.length_append] at hx
  have hr : lrest = 0 ∨ (LL < lrest ∧ lrest < 2 * LL) := by rw [← hlr]; split <;> omega
  have hsplit : ∀ N, (N = LL ∨ N = 2 * LL) → chunkSort lt N (x1 ++ x2) = chunkSort lt N x1 ++ chunkSort lt LL x2 := by
    intro N hN
    have hN0 : 0 < N := by omega
    rcases e3 with e | e
    · rw [e, List.append_nil, chunkSort_nil, List.append_nil]
    · have : ∃ k, x1.length = k * N := by
        rw [e, Nat.add_zero] at e4
        rcases hN with h | h
        · exact ⟨len / (2 * LL) * 2, by rw [e4, h, Nat.mul_assoc]⟩
        · exact ⟨_, by rw [e4, h]⟩
      obtain ⟨k, hk⟩ := this
      rw [chunkSort_append_mul hN0 k hk, chunkSort_short (X := x2) hN0 (by omega), chunkSort_short (X := x2) hLL0 e2]
  rw [hsplit LL (.inl rfl), seg_append, chunkSort_length] at sx
  rw [hsplit (2 * LL) (.inr rfl)]
  obtain ⟨sx1, sx2⟩ := sx
  have hk2' : 0 < len / (2 * LL) → 2 * kA ≤ ks.length := by
    intro h
    refine hk2 ?_
    have : 1 * (2 * LL) ≤ len / (2 * LL) * (2 * LL) := Nat.mul_le_mul_right _ h
    omega
  have hk' : lrest ≠ 0 → lrest / lb + 1 ≤ ks.length := by
    intro h
    rw [← hlr] at h ⊢
    split at h
    · exact absurd rfl h
    · rename_i h'
      rw [if_neg h']; exact hk (by omega)
  -- the loop, then the way back
  cases b with
  | extra =>
    obtain ⟨hJl, _⟩ := hJ.2 (by simp)
    have hn := hn rfl
    simp only [if_true]
    apply wp_bind
    refine wp_mono (putAway_spec J (arr - lb) arr xbuf s (by omega) (by omega) (by rw [show arr - lb = keys + ks.length by omega]; exact sj)
      fun i h1 h2 => hlive i h1 (by omega)) ?_
    rintro _ s1 ⟨q1, q2, q3, q4⟩
    rw [hJl] at q2 q3
    apply wp_bind
    refine wp_mono (combineLoop_spec hlt c (b := .extra) (keys := keys) hlb hLL hkA hr _ x1 ks J arr (arr - lb) s1 e4 hk2' hk' hd hJ (by omega) (by omega)
      ?_ ?_ ?_) ?_
    · exact sk.congr fun i h1 h2 => q3 i (by omega) (by omega)
    · intro i h1 h2; exact q2 i h1 (by omega)
    · refine sx1.congr fun i h1 h2 => ?_
      rw [chunkSort_length] at h2
      exact q3 i (by omega) (by omega)
    rintro _ s2 ⟨ks2, J2, r1, r2, r3, r4, r5, r6⟩
    have hl1 := r1.length_eq
    have hl2 := r2.length_eq
    apply wp_bind
    refine wp_mono (putBack_spec (b := .extra) len' (chunkSort lt (2 * LL) x1) J2 (arr - lb) (arr + len' - lb) (arr + len') s2
      (by rw [chunkSort_length, e1]) (by omega) (by omega) (by omega) r4 ?_) ?_
    · rw [show arr + len' - lb = arr - lb + x1.length by omega]; exact r5
    rintro _ s3 ⟨J3, u1, u2, u3, u4⟩
    have hl3 := u1.length_eq
    refine wp_mono (putAway_spec J xbuf (xbuf + lb) (arr - lb) s3 (by omega) (by omega) ?_ fun i h1 h2 => u2 i h1 (by omega)) ?_
    · refine q1.congr fun i h1 h2 => ?_
      rw [u4.cell i (by omega), r6.cell i (by omega) (by omega)]
    rintro _ s4 ⟨v1, v2, v3, v4⟩
    rw [hJl] at v2 v3
    refine ⟨ks2 ++ J, r1.append_right _, seg_append.2 ⟨?_, ?_⟩, seg_append.2 ⟨?_, ?_⟩, ⟨fun i h1 h2 => ?_, fun i h1 h2 => ?_, ?_⟩⟩
    · refine r3.congr fun i h1 h2 => ?_
      rw [v3 i (by omega) (by omega), u4.cell i (by omega)]
    · rw [show keys + ks2.length = arr - lb by omega]; exact v1
    · rw [show arr = arr - lb + J2.length by omega]
      refine u3.congr fun i h1 h2 => ?_
      rw [chunkSort_length] at h2
      exact v3 i (by omega) (by omega)
    · rw [chunkSort_length]
      refine sx2.congr fun i h1 h2 => ?_
      rw [chunkSort_length] at h2
      rw [v3 i (by omega) (by omega), u4.cell i (by omega), r6.cell i (by omega) (by omega), q3 i (by omega) (by omega)]
    · rw [v3 i (by omega) (by omega), u4.cell i (by omega), r6.cell i (by omega) (by omega), q3 i (by omega) (by omega)]
    · by_cases hi : i < xbuf + lb
      · exact v2 i h1 hi
      · unfold Live
        rw [v3 i (by omega) (by omega), u4.cell i (by omega), r6.cell i (by omega) (by omega), q3 i (by omega) (by omega)]
        exact hlive i h1 h2
    · exact (EnvLe.of_env q4).trans (r6.brk.trans (u4.brk.trans (EnvLe.of_env v4)))
  | inner =>
    obtain ⟨hJl, _⟩ := hJ.2 (by simp)
    rw [if_neg (by simp)]
    apply wp_bind
    refine wp_mono (combineLoop_spec hlt c (b := .inner) (keys := keys) hlb hLL hkA hr _ x1 ks J arr (arr - lb) s e4 hk2' hk' hd hJ (by omega) (by omega)
      sk ?_ sx1) ?_
    · show Seg _ _ _
      rw [show arr - lb = keys + ks.length by omega]; exact sj
    rintro _ s2 ⟨ks2, J2, r1, r2, r3, r4, r5, r6⟩
    have hl1 := r1.length_eq
    have hl2 := r2.length_eq
    refine wp_mono (putBack_spec (b := .inner) len' (chunkSort lt (2 * LL) x1) J2 (arr - lb) (arr + len' - lb) (arr + len') s2
      (by rw [chunkSort_length, e1]) (by omega) (by omega) (by omega) r4 ?_) ?_
    · rw [show arr + len' - lb = arr - lb + x1.length by omega]; exact r5
    rintro _ s3 ⟨J3, u1, u2, u3, u4⟩
    have hl3 := u1.length_eq
    refine ⟨ks2 ++ J3, r1.append (u1.trans r2), seg_append.2 ⟨?_, ?_⟩, seg_append.2 ⟨?_, ?_⟩, ⟨fun i h1 h2 => ?_, fun i h1 h2 => ?_, ?_⟩⟩
    · exact r3.congr fun i h1 h2 => u4.cell i (by omega)
    · rw [show keys + ks2.length = arr - lb by omega]; exact u2
    · rw [show arr = arr - lb + J2.length by omega]; exact u3
    · rw [chunkSort_length]
      refine sx2.congr fun i h1 h2 => ?_
      rw [chunkSort_length] at h2
      rw [u4.cell i (by omega), r6.cell i (by omega) (by omega)]
    · rw [u4.cell i (by omega), r6.cell i (by omega) (by omega)]
    · unfold Live
      rw [u4.cell i (by omega), r6.cell i (by omega) (by omega)]
      exact hlive i h1 h2
    · exact r6.brk.trans u4.brk
  | none =>
    have hJl := hJ.1 rfl
    have : J = [] := List.length_eq_zero_iff.1 hJl
    subst this
    simp only [List.length_nil, Nat.add_zero] at ha
    rw [if_neg (by simp)]
    apply wp_bind
    refine wp_mono (combineLoop_spec hlt c (b := .none) (keys := keys) hlb hLL hkA hr _ x1 ks [] arr arr s e4 hk2' hk' hd hJ (by simp) (by omega)
      (by simpa using sk) Gap.nil sx1) ?_
    rintro _ s2 ⟨ks2, J2, r1, r2, r3, r4, r5, r6⟩
    have hl1 := r1.length_eq
    refine wp_pure ⟨ks2, by rw [List.append_nil]; exact r1, r3, seg_append.2 ⟨r4, ?_⟩, ⟨fun i h1 h2 => ?_, fun i h1 h2 => ?_, r6.brk⟩⟩
    · rw [chunkSort_length]
      refine sx2.congr fun i h1 h2 => ?_
      rw [chunkSort_length] at h2
      exact r6.cell i (by omega) (by omega)
    · exact r6.cell i (by omega) (by omega)
    · unfold Live
      rw [r6.cell i (by omega) (by omega)]
      exact hlive i h1 h2

end CppSort
