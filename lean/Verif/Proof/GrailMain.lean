import Verif.Proof.GrailRounds
/-
grail_sort.h 639-756: `lazy_stable_sort`, `common_sort`, `grail_sort`.
-/
set_option autoImplicit false

namespace CppSort
variable {α : Type} {lt : α → α → Bool} [Inhabited α]

/-! ### `lazy_stable_sort` -/

theorem lazyPairs_spec (hlt : StrictWeak lt) (n : Nat) : ∀ (xs : List α) (it stop : Nat) (s : St α), xs.length = n → (xs.length = stop - it ∨ xs.length = stop - it + 1) →
    it ≤ stop → (stop - it) % 2 = 0 → Seg s.cell it xs →
    wp (lazyPairs (tick lt) stop it) (fun _ s' => Seg s'.cell it (chunkSort lt 2 xs) ∧ Frame it (it + xs.length) s s') s := by
  induction n using Nat.strongRecOn with
  | _ n ih =>
    intro xs it stop s hn hx hle hm hs
    rw [lazyPairs]
    split
    · rename_i hne
      match xs, hn, hx, hs with
      | [], _, hx, _ => simp at hx; omega
      | [x], _, hx, _ => simp at hx; omega
      | x :: y :: xs, hn, hx, hs =>
        simp only [List.length_cons] at hn hx
        obtain ⟨x1, hs'⟩ := seg_cons.1 hs
        obtain ⟨y1, hs''⟩ := seg_cons.1 hs'
        have hso := chunkSort_append (lt := lt) (n := 2) (X := [x, y]) (Y := xs) (by omega) rfl
        rw [List.cons_append, List.cons_append, List.nil_append] at hso
        rw [hso]
        have hp := cmp3_pos hlt (x := x) (y := y)
        apply wp_bind
        refine grailCmp3At_spec x1 y1 fun k => ?_
        split
        · rename_i h
          rw [decide_eq_true h] at hp
          rw [ssort_pair true hp.symm]
          apply wp_bind
          refine wp_swap' x1 y1 fun s1 hc he _ _ => ?_
          refine wp_mono (ih xs.length (by omega) xs (it + 2) stop s1 rfl (by omega) (by omega) (by omega) ?_) ?_
          · rw [hc]; exact (hs''.out (by omega)).out (by omega)
          rintro _ s2 ⟨q1, q2⟩
          refine ⟨?_, (Frame.of_env he (f := it) (l := it + (x :: y :: xs).length) fun i hi => ?_).tick.trans
            (q2.mono (by omega) (by simp only [List.length_cons]; omega))⟩
          · simp only [if_true, List.cons_append, List.nil_append]
            rw [seg_cons, seg_cons]
            refine ⟨?_, ?_, q1⟩
            · rw [q2.cell _ (by omega), hc]; sc
            · rw [q2.cell _ (by omega), hc]; sc
          · rw [hc]; simp only [List.length_cons] at hi; sc
        · rename_i h
          rw [decide_eq_false h] at hp
          rw [ssort_pair false hp.symm]
          refine wp_mono (ih xs.length (by omega) xs (it + 2) stop { s with cmps := k } rfl (by omega) (by omega) (by omega) hs'') ?_
          rintro _ s2 ⟨q1, q2⟩
          refine ⟨?_, q2.tick.mono (by omega) (by simp only [List.length_cons]; omega)⟩
          simp only [Bool.false_eq_true, if_false, List.cons_append, List.nil_append]
          rw [seg_cons, seg_cons]
          refine ⟨?_, ?_, q1⟩
          · rw [q2.cell _ (by omega)]; exact x1
          · rw [q2.cell _ (by omega)]; exact y1
    · refine wp_pure ⟨?_, Frame.refl _ _ _⟩
      match xs, hx, hs with
      | [], _, hs => rw [chunkSort_nil]; exact hs
      | [x], _, hs => rw [chunkSort_short (by omega) (by simp), ssort_one]; exact hs
      | x :: y :: xs, hx, _ => simp at hx; omega

theorem lazyPass_spec (hlt : StrictWeak lt) (c : Cfg) {h last : Nat} (hh : 0 < h) (n : Nat) : ∀ (xs : List α) (p0 : Nat) (s : St α), xs.length = n →
    last = p0 + xs.length → Seg s.cell p0 (chunkSort lt h xs) →
    wp (lazyPass (tick lt) c h last p0) (fun _ s' => Seg s'.cell p0 (chunkSort lt (2 * h) xs) ∧ Frame p0 last s s') s := by
  induction n using Nat.strongRecOn with
  | _ n ih =>
    intro xs p0 s hn hl hs
    rw [lazyPass]
    split
    · rename_i h2
      obtain ⟨A, B, C, rfl, hA, hB⟩ : ∃ A B C, xs = A ++ (B ++ C) ∧ A.length = h ∧ B.length = h :=
        ⟨xs.take h, (xs.drop h).take h, (xs.drop h).drop h, by rw [List.take_append_drop, List.take_append_drop],
          by rw [List.length_take]; omega, by rw [List.length_take, List.length_drop]; omega⟩
      rw [chunkSort_append hh hA, chunkSort_append hh hB, ← List.append_assoc, seg_append, List.length_append, ssort_length, ssort_length] at hs
      simp only [List.length_append] at hl hn
      obtain ⟨s1, s2⟩ := hs
      apply wp_bind
      refine wp_mono (mergeWithoutBuffer_spec hlt c (X := ssort lt A) (Y := ssort lt B) (by rw [ssort_length]; omega) (by rw [ssort_length]; omega)
        (ssort_sorted hlt _) (ssort_sorted hlt _) s1) ?_
      rintro _ t ⟨q1, q2⟩
      rw [ssort_merge hlt] at q1
      refine wp_mono (ih C.length (by omega) C (p0 + 2 * h) t rfl (by omega) ?_) ?_
      · rw [show p0 + 2 * h = p0 + (A.length + B.length) by omega]
        exact s2.congr fun i h1 h2 => q2.cell i (by omega)
      rintro _ t2 ⟨r1, r2⟩
      refine ⟨?_, (q2.mono (Nat.le_refl _) (by omega)).trans (r2.mono (by omega) (Nat.le_refl _))⟩
      rw [← List.append_assoc, chunkSort_append (by omega) (by rw [List.length_append]; omega), seg_append, ssort_length, List.length_append]
      refine ⟨q1.congr fun i h1 h2 => r2.cell i (by rw [ssort_length, List.length_append] at h2; omega), ?_⟩
      rw [show p0 + (A.length + B.length) = p0 + 2 * h by omega]; exact r1
    · rename_i h2
      rw [chunkSort_short (n := 2 * h) (by omega) (by omega)]
      split
      · rename_i h1
        obtain ⟨A, B, rfl, hA⟩ : ∃ A B, xs = A ++ B ∧ A.length = h := ⟨xs.take h, xs.drop h, by simp, by rw [List.length_take]; omega⟩
        rw [List.length_append] at hl hn
        rw [chunkSort_append hh hA, chunkSort_short (X := B) hh (by omega)] at hs
        refine wp_mono (mergeWithoutBuffer_spec hlt c (X := ssort lt A) (Y := ssort lt B) (by rw [ssort_length]; omega) (by rw [ssort_length]; omega)
          (ssort_sorted hlt _) (ssort_sorted hlt _) hs) ?_
        rintro _ t ⟨q1, q2⟩
        rw [ssort_merge hlt] at q1
        exact ⟨q1, q2⟩
      · rw [chunkSort_short hh (by omega)] at hs
        exact wp_pure ⟨hs, Frame.refl _ _ _⟩

theorem lazyPasses_spec (hlt : StrictWeak lt) (c : Cfg) {xs : List α} {first last : Nat} (hl : last = first + xs.length) (n : Nat) :
    ∀ (h : Nat) (s : St α), xs.length - h = n → 0 < h → Seg s.cell first (chunkSort lt h xs) →
    wp (lazyPasses (tick lt) c first last h) (fun _ s' => Seg s'.cell first (ssort lt xs) ∧ Frame first last s s') s := by
  induction n using Nat.strongRecOn with
  | _ n ih =>
    intro h s hn hh hs
    rw [lazyPasses]
    split
    · apply wp_bind
      refine wp_mono (lazyPass_spec hlt c hh _ xs first s rfl hl hs) ?_
      rintro _ t ⟨q1, q2⟩
      rw [Nat.mul_comm 2 h] at q1
      refine wp_mono (ih (xs.length - h * 2) (by omega) (h * 2) t rfl (by omega) q1) ?_
      rintro _ t2 ⟨r1, r2⟩
      exact ⟨r1, q2.trans r2⟩
    · rw [chunkSort_short hh (by omega)] at hs
      exact wp_pure ⟨hs, Frame.refl _ _ _⟩

theorem lazyStableSort_spec (hlt : StrictWeak lt) (c : Cfg) {xs : List α} {first last : Nat} {s : St α} (hl : last = first + xs.length)
    (hs : Seg s.cell first xs) :
    wp (lazyStableSort (tick lt) c first last) (fun _ s' => Seg s'.cell first (ssort lt xs) ∧ Frame first last s s') s := by
  unfold lazyStableSort
  apply wp_bind
  refine wp_mono (lazyPairs_spec hlt _ xs first _ s rfl (by split <;> omega) (by split <;> omega) (by split <;> omega) hs) ?_
  rintro _ t ⟨q1, q2⟩
  refine wp_mono (lazyPasses_spec hlt c hl _ 2 t rfl (by omega) q1) ?_
  rintro _ t2 ⟨r1, r2⟩
  rw [hl] at r2 ⊢
  exact ⟨r1, q2.trans r2⟩

/-! ### Numbers -/

theorem grailBlockLen_spec {size : Nat} (n : Nat) : ∀ (lb : Nat) (s : St α), size - lb = n → 4 ≤ lb → (∃ e, lb = 2 ^ e) →
    wp (grailBlockLen (α := α) size lb) (fun r s' => s' = s ∧ 4 ≤ r ∧ (∃ e, r = 2 ^ e) ∧ size ≤ r * r) s := by
  induction n using Nat.strongRecOn with
  | _ n ih =>
    intro lb s hn h4 he
    rw [grailBlockLen]
    split
    · rename_i h
      have : lb < size := Nat.lt_of_le_of_lt (Nat.le_mul_of_pos_right lb (by omega)) h
      refine ih (size - lb * 2) (by omega) (lb * 2) s rfl (by omega) ?_
      obtain ⟨e, he⟩ := he
      exact ⟨e + 1, by rw [he, Nat.pow_succ]⟩
    · exact wp_pure ⟨rfl, h4, he, by omega⟩

theorem grailKeyCount_spec {found : Nat} (hf : 4 ≤ found) : ∀ (e : Nat) (s : St α), 2 ≤ e →
    wp (grailKeyCount (α := α) found (2 ^ e)) (fun r s' => s' = s ∧ r ≤ found ∧ ∃ e', 2 ≤ e' ∧ r = 2 ^ e') s := by
  intro e
  induction e with
  | zero => intro s h; omega
  | succ e ih =>
    intro s h2
    rw [grailKeyCount]
    split
    · rename_i h
      rw [show 2 ^ (e + 1) / 2 = 2 ^ e by rw [Nat.pow_succ]; omega]
      refine ih s ?_
      rcases Nat.lt_or_ge e 2 with h' | h'
      · have : e = 1 := by omega
        subst this
        simp at h; omega
      · exact h'
    · exact wp_pure ⟨rfl, by omega, e + 1, h2, rfl⟩

theorem grailFewKeys_spec {E : Nat} (n : Nat) : ∀ (e r : Nat) (s : St α), E - e = n → e ≤ E →
    wp (grailFewKeys (α := α) (2 ^ E) (2 ^ e) r) (fun nk s' => s' = s ∧ ∃ e', e ≤ e' ∧ e' ≤ E ∧ nk = 2 ^ e' ∧ (e < E ∧ r ≠ 0 → e < e')) s := by
  induction n with
  | zero =>
    intro e r s hn he
    have : e = E := by omega
    subst this
    rw [grailFewKeys, if_neg (by omega)]
    exact wp_pure ⟨rfl, e, Nat.le_refl _, Nat.le_refl _, rfl, fun h => absurd h.1 (by omega)⟩
  | succ n ih =>
    intro e r s hn he
    rw [grailFewKeys]
    split
    · rw [← Nat.pow_succ]
      refine wp_mono (ih (e + 1) (r / 8) s (by omega) (by omega)) ?_
      rintro nk s' ⟨h1, e', h2, h3, h4, -⟩
      exact ⟨h1, e', by omega, h3, h4, fun _ => by omega⟩
    · rename_i h
      refine wp_pure ⟨rfl, e, Nat.le_refl _, he, rfl, fun hh => absurd ⟨?_, hh.2⟩ h⟩
      exact Nat.pow_lt_pow_right (by omega) hh.1

/-- What is known about the number of keys: there is a buffer of `lblock` elements and enough keys for all of the blocks of `lblock`
elements, or no buffer and the number of keys is a power of two. -/
def KeysOk (havebuf : Bool) (lblock nkeys len : Nat) : Prop :=
  (havebuf = true ∧ 0 < lblock ∧ len + lblock ≤ nkeys * lblock) ∨ (havebuf = false ∧ lblock = 0 ∧ ∃ e, 2 ≤ e ∧ nkeys = 2 ^ e)

theorem div_lt_of {r lb k : Nat} (h : r < k * lb) : r / lb + 1 ≤ k := (Nat.div_lt_iff_lt_mul (by
  rcases Nat.eq_zero_or_pos lb with h' | h'
  · rw [h', Nat.mul_zero] at h; omega
  · exact h')).2 h

theorem grailChoose_spec {havebuf : Bool} {lblock nkeys found len C j : Nat} {s : St α} (hk : KeysOk havebuf lblock nkeys len)
    (hC : C = (if havebuf then lblock else nkeys) * 2 ^ j) (hj : 0 < j) (hf : 2 ≤ found) :
    wp (grailChoose (α := α) havebuf lblock nkeys found C) (fun r s' => s' = s ∧ 0 < r.1 ∧ (∃ kA, C = kA * r.1 ∧ 0 < kA ∧
      ∀ nk, nk + (if r.2 then r.1 else 0) = lblock + nkeys → (2 * C ≤ len → 2 * kA ≤ nk) ∧
        (C < len % (2 * C) → len % (2 * C) / r.1 + 1 ≤ nk)) ∧ (if r.2 then r.1 else 0) ≤ lblock + nkeys) s := by
  have hj2 : 0 < 2 ^ j := Nat.pow_pos (by omega)
  have hml : len % (2 * C) ≤ len := Nat.mod_le _ _
  unfold grailChoose
  split
  · rename_i hb
    subst hb
    rcases hk with ⟨-, h1, h2⟩ | ⟨h, _⟩
    · rw [if_pos rfl] at hC
      refine wp_pure ⟨rfl, h1, ⟨2 ^ j, by rw [hC, Nat.mul_comm], hj2, fun nk hnk => ⟨fun h => ?_, fun h => ?_⟩⟩, by simp⟩
      · simp only [if_true] at hnk
        have : nk = nkeys := by omega
        subst this
        have : 2 * 2 ^ j * lblock ≤ nk * lblock := by
          have : 2 * 2 ^ j * lblock = 2 * C := by rw [hC, Nat.mul_assoc, Nat.mul_comm (2 ^ j)]
          omega
        exact Nat.le_of_mul_le_mul_right this h1
      · simp only [if_true] at hnk
        have : nk = nkeys := by omega
        subst this
        exact div_lt_of (show _ < nk * lblock by omega)
    · cases h
  · rename_i hb
    rcases hk with ⟨h, _⟩ | ⟨-, h1, e, h2, h3⟩
    · exact absurd h hb
    rw [if_neg hb] at hC
    subst h1
    have hC0 : 0 < C := by rw [hC, h3]; exact Nat.mul_pos (Nat.pow_pos (by omega)) hj2
    have hmlt : len % (2 * C) < 2 * C := Nat.mod_lt _ (by omega)
    split
    · rename_i h
      obtain ⟨h4, h8⟩ := h
      have he3 : 3 ≤ e := by
        rcases Nat.lt_or_ge e 3 with h' | h'
        · have : e = 2 := by omega
          subst this
          simp at h3; omega
        · exact h'
      obtain ⟨d, rfl⟩ : ∃ d, e = d + 3 := ⟨e - 3, by omega⟩
      have hd : 0 < 2 ^ d := Nat.pow_pos (by omega)
      have h3' : nkeys = 8 * 2 ^ d := by rw [h3, Nat.pow_add]; omega
      have hlb : nkeys / 2 = 4 * 2 ^ d := by omega
      rw [hlb]
      have hCe : C = 2 * 2 ^ j * (4 * 2 ^ d) := by rw [hC, h3']; ring
      have hle : 2 * 2 ^ j ≤ 2 * 2 ^ d := by
        have h88 : nkeys / 8 = 2 ^ d := by omega
        rw [h88, hCe, h3'] at h8
        have : 2 * 2 ^ j * (4 * 2 ^ d) ≤ 2 * 2 ^ d * (4 * 2 ^ d) := by
          have e1 : 2 ^ d * (8 * 2 ^ d) = 2 * 2 ^ d * (4 * 2 ^ d) := by ring
          omega
        exact Nat.le_of_mul_le_mul_right this (by omega)
      refine wp_pure ⟨rfl, by simp only []; omega, ⟨2 * 2 ^ j, hCe, by omega, fun nk hnk => ?_⟩, by simp only [if_true]; omega⟩
      simp only [if_true] at hnk ⊢
      refine ⟨fun _ => by omega, fun h => div_lt_of ?_⟩
      have : 2 * C ≤ nk * (4 * 2 ^ d) := by
        have e1 : 2 * C = 2 * (2 * 2 ^ j) * (4 * 2 ^ d) := by rw [hCe]; ring
        rw [e1]
        exact Nat.mul_le_mul_right _ (by omega)
      omega
    · apply wp_bind
      rw [h3]
      have hr : C * found / 2 ≠ 0 := by
        have : 1 * 2 ≤ C * found := Nat.mul_le_mul hC0 hf
        omega
      refine wp_mono (grailFewKeys_spec (E := e) _ 0 (C * found / 2) s rfl (by omega)) ?_
      rintro nk _ ⟨rfl, e', -, q2, q3, q4⟩
      have := q4 ⟨by omega, hr⟩
      obtain ⟨d, rfl⟩ : ∃ d, e' = d + 1 := ⟨e' - 1, by omega⟩
      have hd : 0 < 2 ^ d := Nat.pow_pos (by omega)
      have hnk : nk = 2 * 2 ^ d := by rw [q3, Nat.pow_succ]; omega
      obtain ⟨q, hq⟩ : ∃ q, C = 2 ^ d * q := by
        rw [hC, h3]
        refine ⟨2 ^ (e - d) * 2 ^ j, ?_⟩
        rw [← Nat.mul_assoc, ← Nat.pow_add 2 d (e - d), show d + (e - d) = e by omega]
      have hdiv : 2 * C / nk = q := by
        rw [hnk, Nat.mul_div_mul_left _ _ (by omega), hq]
        exact Nat.mul_div_cancel_left _ hd
      rw [hdiv]
      have hq0 : 0 < q := by
        rcases Nat.eq_zero_or_pos q with h | h
        · rw [h, Nat.mul_zero] at hq; omega
        · exact h
      have hnle : nk ≤ nkeys := by rw [q3, h3]; exact Nat.pow_le_pow_right (by omega) q2
      refine wp_pure ⟨rfl, hq0, ⟨2 ^ d, hq, hd, fun nk' hnk' => ?_⟩, by simp⟩
      simp only [Bool.false_eq_true, if_false] at hnk' ⊢
      rw [← h3] at hnk'
      refine ⟨fun _ => by omega, fun h => div_lt_of ?_⟩
      have : 2 * C ≤ nk' * q := by
        have e1 : 2 * C = 2 * 2 ^ d * q := by rw [hq]; ring
        rw [e1]
        exact Nat.mul_le_mul_right _ (by omega)
      omega

/-! ### The loop -/

theorem grailCombine_spec (hlt : StrictWeak lt) (c : Cfg) {havebuf : Bool} {lblock nkeys found first ptr last extbuf n : Nat} {xs : List α}
    (hl : last = ptr + xs.length) (hp : ptr = first + (lblock + nkeys)) (hk : KeysOk havebuf lblock nkeys xs.length) (hf : 2 ≤ found)
    (hdis : last ≤ extbuf ∨ extbuf + n ≤ first) (m : Nat) : ∀ (K : List α) (C j : Nat) (s : St α), xs.length - C = m →
    C = (if havebuf then lblock else nkeys) * 2 ^ j → K.length = lblock + nkeys → DistinctKeys lt K →
    (∀ i, extbuf ≤ i → i < extbuf + n → Live s.cell i) → Seg s.cell first K → Seg s.cell ptr (chunkSort lt (2 * C) xs) →
    wp (grailCombine (tick lt) c havebuf lblock nkeys found first ptr last extbuf n C) (fun _ s' => ∃ K', K'.Perm K ∧ Seg s'.cell first K' ∧
      Seg s'.cell ptr (ssort lt xs) ∧ GFrame first last extbuf n s s') s := by
  have hbase : 0 < (if havebuf then lblock else nkeys) := by
    rcases hk with ⟨h, h1, _⟩ | ⟨h, _, e, _, h1⟩
    · rw [h]; exact h1
    · rw [h, h1]; exact Nat.pow_pos (by omega)
  induction m using Nat.strongRecOn with
  | _ m ih =>
    intro K C j s hm hC hKl hd hlive sk sx
    have hC0 : 0 < C := by rw [hC]; exact Nat.mul_pos hbase (Nat.pow_pos (by omega))
    rw [grailCombine]
    split
    · rename_i h
      apply wp_bind
      have hC2 : C * 2 = (if havebuf then lblock else nkeys) * 2 ^ (j + 1) := by rw [hC, Nat.pow_succ, Nat.mul_assoc]
      refine wp_mono (grailChoose_spec hk hC2 (by omega) hf) ?_
      rintro ⟨lb, ch⟩ _ ⟨rfl, p1, ⟨kA, p2, p3, p4⟩, p5⟩
      simp only at p1 p2 p4 p5 ⊢
      obtain ⟨ks, J, rfl, hJ⟩ : ∃ u v, K = u ++ v ∧ v.length = (if ch then lb else 0) :=
        ⟨K.take (K.length - (if ch then lb else 0)), K.drop (K.length - (if ch then lb else 0)), by simp, by rw [List.length_drop]; omega⟩
      rw [List.length_append] at hKl
      obtain ⟨p6, p7⟩ := p4 ks.length (by omega)
      have hgl : ∀ b : GrailBuf, b = (if ch then (if lb ≤ n then .extra else .inner) else .none) → GapLen b lb J.length := by
        intro b hb
        rw [hJ, hb]
        cases ch with
        | true => exact ⟨by simp only [if_true]; split <;> simp, fun _ => ⟨rfl, p1⟩⟩
        | false => exact ⟨fun _ => rfl, by simp⟩
      have hlen : last - ptr = xs.length := by omega
      rw [hlen]
      rw [Nat.mul_comm 2 C] at sx
      apply wp_bind
      refine wp_mono (combineBlocks_spec hlt c (b := if ch then (if lb ≤ n then .extra else .inner) else .none) (n := n) p1 p2 p3 rfl p6 p7
        (List.pairwise_append.1 hd).1 (hgl _ rfl) (by omega) ?_ (by omega) hlive sk sx) ?_
      · intro hb
        cases ch with
        | true =>
          simp only [if_true] at hb
          split at hb
          · assumption
          · cases hb
        | false => simp at hb
      rintro _ s1 ⟨K1, q1, q2, q3, q4⟩
      refine wp_mono (ih (xs.length - C * 2) (by omega) K1 (C * 2) (j + 1) s1 rfl hC2 (by rw [q1.length_eq, List.length_append]; omega) (hd.perm q1) q4.live q2 q3) ?_
      rintro _ s2 ⟨K2, r1, r2, r3, r4⟩
      exact ⟨K2, r1.trans q1, r2, r3, (q4.mono (Nat.le_refl _) (by omega)).trans r4⟩
    · rename_i h
      rw [chunkSort_short (by omega) (by omega)] at sx
      exact wp_pure ⟨K, .refl _, sk, sx, GFrame.refl hlive⟩

theorem ssort_distinct (hlt : StrictWeak lt) {K K' : List α} (hd : DistinctKeys lt K) (hp : K'.Perm K) : ssort lt K' = ssort lt K := by
  have h1 := strict_of_distinct (hd.perm (ssort_perm K)) (ssort_sorted hlt K)
  have h2 := strict_of_distinct ((hd.perm hp).perm (ssort_perm K')) (ssort_sorted hlt K')
  refine List.Perm.eq_of_pairwise (le := fun x y => lt x y = true) ?_ h2 h1 ((ssort_perm K').trans (hp.trans (ssort_perm K).symm))
  intro a b _ _ h3 h4
  rw [hlt.asymm h3] at h4; cases h4

theorem grailWithKeys_spec (hlt : StrictWeak lt) (c : Cfg) {havebuf : Bool} {lblock nkeys found first last extbuf n : Nat} {K xs : List α} {s : St α}
    (hKl : K.length = lblock + nkeys) (hl : last = first + (lblock + nkeys) + xs.length) (hk : KeysOk havebuf lblock nkeys xs.length) (hf : 2 ≤ found)
    (hpow : ∃ e, (if havebuf then lblock else nkeys) = 2 ^ e) (h2 : 2 ≤ (if havebuf then lblock else nkeys)) (hn1 : n ≠ 1)
    (hdis : last ≤ extbuf ∨ extbuf + n ≤ first) (hd : DistinctKeys lt K)
    (hlive : ∀ i, extbuf ≤ i → i < extbuf + n → Live s.cell i) (hs : Seg s.cell first (K ++ xs)) :
    wp (grailWithKeys (tick lt) c havebuf lblock nkeys found first last extbuf n) (fun _ s' => Seg s'.cell first (ssort lt (K ++ xs)) ∧
      GFrame first last extbuf n s s') s := by
  obtain ⟨sk, sx⟩ := seg_append.1 hs
  rw [hKl] at sx
  unfold grailWithKeys
  simp only []
  generalize hb : (if havebuf then lblock else nkeys) = base at *
  have hble : base ≤ lblock + nkeys := by rw [← hb]; split <;> omega
  obtain ⟨K1, J, rfl, hJ⟩ : ∃ u v, K = u ++ v ∧ v.length = base :=
    ⟨K.take (K.length - base), K.drop (K.length - base), by simp, by rw [List.length_drop]; omega⟩
  rw [List.length_append] at hKl
  obtain ⟨sk1, sj⟩ := seg_append.1 sk
  obtain ⟨e, he⟩ := hpow
  apply wp_bind
  refine wp_mono (buildBlocks_spec hlt c (xs := xs) (J := J) (n := n) (e := e) hl hJ (by omega) h2 he
    (by split <;> omega) (by split <;> omega) (by omega) hlive
    (by rw [show first + (lblock + nkeys) - base = first + K1.length by omega]; exact sj) sx) ?_
  rintro _ s1 ⟨J1, q1, q2, q3, q4⟩
  have hJ1 := q1.length_eq
  have hKp : (K1 ++ J1).Perm (K1 ++ J) := q1.append_left _
  apply wp_bind
  refine wp_mono (grailCombine_spec hlt c (havebuf := havebuf) (n := n) hl rfl hk hf (by omega) _ (K1 ++ J1) base 0 s1 rfl (by rw [hb]; simp)
    (by rw [hKp.length_eq, List.length_append]; omega) (hd.perm hKp) q4.live (seg_append.2 ⟨?_, ?_⟩) q3) ?_
  · exact sk1.congr fun i h1 h2 => q4.cell i (by omega) (by omega)
  · rw [show first + K1.length = first + (lblock + nkeys) - base by omega]; exact q2
  rintro _ s2 ⟨K2, r1, r2, r3, r4⟩
  have hK2 := r1.length_eq.trans hKp.length_eq
  rw [List.length_append] at hK2
  apply wp_bind
  refine wp_mono (insertionSort_ssort hlt (by omega) r2) ?_
  rintro _ s3 ⟨u1, u2⟩
  rw [ssort_distinct hlt hd (r1.trans hKp)] at u1
  refine wp_mono (mergeWithoutBuffer_spec hlt c (X := ssort lt (K1 ++ J)) (Y := ssort lt xs) (by rw [ssort_length, List.length_append]; omega)
    (by rw [ssort_length]; exact hl) (ssort_sorted hlt _) (ssort_sorted hlt _) (seg_append.2 ⟨u1, ?_⟩)) ?_
  · rw [ssort_length, List.length_append, show first + (K1.length + J.length) = first + (lblock + nkeys) by omega]
    exact r3.congr fun i h1 h2 => u2.cell i (by omega)
  rintro _ s4 ⟨v1, v2⟩
  rw [ssort_merge hlt] at v1
  refine ⟨v1, (q4.mono (by omega) (Nat.le_refl _)).trans (r4.trans ?_)⟩
  exact ((u2.mono (Nat.le_refl _) (by omega)).trans v2).g (by omega) r4.live

theorem StrictList.distinct {ks : List α} (h : StrictList lt ks) : DistinctKeys lt ks := h.imp fun h => .inl h

theorem commonSort_spec (hlt : StrictWeak lt) (c : Cfg) {first last extbuf n : Nat} {xs : List α} {s : St α} (hl : last = first + xs.length)
    (hn1 : 16 ≤ xs.length → n ≠ 1) (hdis : last ≤ extbuf ∨ extbuf + n ≤ first) (hlive : ∀ i, extbuf ≤ i → i < extbuf + n → Live s.cell i)
    (hs : Seg s.cell first xs) :
    wp (commonSort (tick lt) c first last extbuf n) (fun _ s' => Seg s'.cell first (ssort lt xs) ∧ GFrame first last extbuf n s s') s := by
  unfold commonSort
  split
  · refine wp_mono (insertionSort_ssort hlt hl hs) ?_
    rintro _ s1 ⟨u1, u2⟩
    exact ⟨u1, u2.g hdis hlive⟩
  · rename_i h16
    have hlen : last - first = xs.length := by omega
    replace hn1 := hn1 (by omega)
    rw [hlen]
    apply wp_bind
    refine wp_mono (grailBlockLen_spec _ 4 s rfl (by omega) ⟨2, rfl⟩) ?_
    rintro lb s ⟨rfl, h4, ⟨e, he⟩, hsq⟩
    simp only []
    generalize hnk : (xs.length - 1) / lb + 1 = nkeys
    have hcov : xs.length ≤ nkeys * lb := by
      have := Nat.lt_div_mul_add (a := xs.length - 1) (b := lb) (by omega)
      rw [← hnk, Nat.succ_mul]; omega
    apply wp_bind
    refine wp_mono (findKeys_spec hlt c (keyCount := nkeys + lb) (List.length_pos_iff.1 (by omega)) hl (by omega) hs) ?_
    rintro found s1 ⟨ks, ys, p1, p2, p3, p4, p5, p6, p7, p8⟩
    have hsort : ssort lt xs = ssort lt (ks ++ ys) := ssort_congr hlt p6 p7
    rw [hsort]
    have hlen2 := p6.length_eq
    rw [List.length_append] at hlen2
    have hlive1 : ∀ i, extbuf ≤ i → i < extbuf + n → Live s1.cell i := fun i h1 h2 => by
      unfold Live; rw [p8.cell i (by omega)]; exact hlive i h1 h2
    have hfr : GFrame first last extbuf n s s1 := p8.g hdis hlive
    split
    · split
      · refine wp_mono (lazyStableSort_spec hlt c (by rw [List.length_append]; omega) p5) ?_
        rintro _ s2 ⟨q1, q2⟩
        exact ⟨q1, hfr.trans (q2.g hdis hlive1)⟩
      · rename_i hf4
        apply wp_bind
        rw [he]
        have he2 : 2 ≤ e := by
          rcases Nat.lt_or_ge e 2 with h | h
          · have : 2 ^ e ≤ 2 ^ 1 := Nat.pow_le_pow_right (by omega) (by omega)
            omega
          · exact h
        refine wp_mono (grailKeyCount_spec (found := found) (by omega) e s1 he2) ?_
        rintro nk _ ⟨rfl, k1, e', k2, k3⟩
        have hnk4 : 4 ≤ nk := by
          have : 2 ^ 2 ≤ 2 ^ e' := Nat.pow_le_pow_right (by omega) k2
          omega
        have esplit : ks ++ ys = ks.take nk ++ (ks.drop nk ++ ys) := by rw [← List.append_assoc, List.take_append_drop]
        rw [esplit] at p5 ⊢
        refine wp_mono (grailWithKeys_spec hlt c (havebuf := false) (lblock := 0) (nkeys := nk) (found := found) (n := n) (by rw [List.length_take]; omega)
          (by rw [List.length_append, List.length_drop]; omega) (.inr ⟨rfl, rfl, e', k2, k3⟩) (by omega) ⟨e', k3⟩ (by simp; omega) hn1 hdis
          ((p4.sublist (List.take_sublist _ _)).imp fun h => .inl h) hlive1 p5) ?_
        rintro _ s2 ⟨q1, q2⟩
        exact ⟨q1, hfr.trans q2⟩
    · refine wp_mono (grailWithKeys_spec hlt c (havebuf := true) (lblock := lb) (nkeys := nkeys) (found := found) (n := n) (by omega)
          (by omega) (.inl ⟨rfl, by omega, by omega⟩) (by omega) ⟨e, he⟩ (by simp; omega) hn1 hdis p4.distinct hlive1 p5) ?_
      rintro _ s2 ⟨q1, q2⟩
      exact ⟨q1, hfr.trans q2⟩

omit [Inhabited α] in
theorem wp_newObjects {Q : Nat → St α → Prop} {s : St α} {n : Nat}
    (hQ : ∀ s', (∀ i, s.brk ≤ i → i < s.brk + n → s'.cell i = .moved) → (∀ i, (i < s.brk ∨ s.brk + n ≤ i) → s'.cell i = s.cell i) →
      s'.brk = s.brk + n → s'.grant = s.grant → Q s.brk s') : wp (newObjects n) Q s := by
  refine ⟨_, _, rfl, hQ _ (fun i h1 h2 => if_pos ⟨h1, h2⟩) (fun i h => if_neg (by omega)) rfl rfl⟩

omit [Inhabited α] in
theorem grailSort_stable (hlt : StrictWeak lt) (c : Cfg) {size : Nat → Nat} (hsize : ∀ n, 16 ≤ n → size n ≠ 1) :
    SortsStably lt (grailSort (tick lt) c size) := by
  intro s first xs hw hs
  have key : wp (grailSort (tick lt) c size first (first + xs.length)) (fun _ s' => Seg s'.cell first (ssort lt xs) ∧
      (∀ i, i < first ∨ first + xs.length ≤ i → s'.cell i = s.cell i) ∧ s'.WF) s := by
    unfold grailSort
    rw [show first + xs.length - first = xs.length by omega]
    generalize hn : size xs.length = n
    have hbl : 0 < xs.length → first + xs.length ≤ s.brk := fun h => Seg.below hw hs h
    simp only []
    apply wp_bind
    refine wp_newObjects fun s1 a1 a2 a3 a4 => ?_
    have hc : wp (commonSort (tick lt) c first (first + xs.length) s.brk n) (fun _ s' => Seg s'.cell first (ssort lt xs) ∧
        GFrame first (first + xs.length) s.brk n s1 s') s1 := by
      have hl1 : ∀ i, s.brk ≤ i → i < s.brk + n → Live s1.cell i := fun i h1 h2 => by unfold Live; rw [a1 i h1 h2]; simp
      cases xs with
      | nil =>
        unfold commonSort
        rw [if_pos (by simp)]
        unfold insertionSort
        simp only [List.length_nil, Nat.add_zero, if_true]
        exact wp_pure ⟨fun k hk => by simp [ssort] at hk, GFrame.refl hl1⟩
      | cons x xs =>
        haveI : Inhabited α := ⟨x⟩
        have := hbl (by simp)
        exact commonSort_spec hlt c rfl (fun h => by rw [← hn]; exact hsize _ h) (by omega) hl1
          (hs.congr fun i h1 h2 => a2 i (by omega))
    apply wp_bind
    refine wp_mono hc ?_
    rintro _ s2 ⟨b1, b2⟩
    apply wp_bind
    refine wp_mono (destroyN_spec n s.brk s2 b2.live) ?_
    rintro _ s3 ⟨c1, c2, c3, -, -⟩
    refine wp_free c1 fun s4 d1 d2 d3 _ _ => ?_
    have hbrk : s.brk ≤ s4.brk := by
      rw [St.env_brk d3, St.env_brk c3]
      have := b2.brk.1
      omega
    have hout : ∀ i, i < first ∨ first + xs.length ≤ i → s4.cell i = s.cell i := by
      intro i hi
      rcases Nat.lt_or_ge i s.brk with h | h
      · rw [d2 i (.inl h), c2 i (.inl h), b2.cell i hi (.inl h), a2 i (.inl h)]
      · rcases Nat.lt_or_ge i (s.brk + n) with h' | h'
        · rw [d1 i h h', hw i h]
        · rw [d2 i (.inr h'), c2 i (.inr h'), b2.cell i hi (.inr h'), a2 i (.inr h')]
    refine ⟨?_, hout, fun i hi => ?_⟩
    · refine b1.congr fun i h1 h2 => ?_
      rw [ssort_length] at h2
      have := hbl (by omega)
      rw [d2 i (.inl (by omega)), c2 i (.inl (by omega))]
    · rcases Nat.lt_or_ge i (first + xs.length) with h | h
      · rcases Nat.lt_or_ge i first with h' | h'
        · rw [hout i (.inl h')]; exact hw i (by omega)
        · have := hbl (by omega)
          omega
      · rw [hout i (.inr h)]; exact hw i (by omega)
  obtain ⟨_, s', h1, h2, h3, h4⟩ := key
  have hss := ssort_ssorted hlt xs
  exact ⟨s', ssort lt xs, h1, ssort_length xs, h2, hss, h3, h4⟩

end CppSort
