import Verif.Proof.WikiFound
/-
wiki_sort.h 553-659: the search of the buffers.
-/
set_option autoImplicit false

namespace CppSort
variable {α : Type} {lt : α → α → Bool}

theorem PullOf.setHi {pos mid : Nat → Nat} {X Y : Nat → List α} {right : Bool} {i : Nat} {p : WPull} {K rest : List α} (h : PullOf lt pos mid X Y right i p K rest)
    (h' : Nat) : PullOf lt pos mid X Y right i { p with hi := h' } K rest := by
  cases h with
  | left a b c => exact .left a b c
  | right a b c => exact .right a b c

/-- The variables of the search when the subarrays before the one numbered `e` have been examined: `A` of the pair `i` is numbered `2 * i`, `B` is
numbered `2 * i + 1`. -/
inductive SInv (lt : α → α → Bool) (first len m : Nat) (pos mid : Nat → Nat) (X Y : Nat → List α) (fit : Bool) (e : Nat) (st : WSearch) : Prop
  | none (he : e = 0) (hf : (fit = true ∧ st.find = wbuf len ∧ st.sep = false) ∨ (fit = false ∧ st.find = wbuf len + wbuf len ∧ st.sep = false) ∨
        (fit = false ∧ st.find = wbuf len ∧ st.sep = true)) (hp : st.pulled = false) (h1 : st.p1.count = 0) (hb1 : st.b1 = ⟨first, first⟩) (hb2 : st.b2 = ⟨first, first⟩)
  | part {right : Bool} {i : Nat} {K rest : List α} (hi : i < m) (h0 : PullOf lt pos mid X Y right i st.p0 K rest) (hhi : st.p0.hi = pos (i + 1))
      (hf : (fit = true ∧ st.find = wbuf len ∧ st.sep = false) ∨ (fit = false ∧ st.find = wbuf len + wbuf len ∧ st.sep = false) ∨
        (fit = false ∧ st.find = wbuf len ∧ st.sep = true)) (hp : st.pulled = false) (h1 : st.p1.count = 0) (hK : K ≠ [])
      (hb1 : st.b1 = ⟨pullPos pos right i K, pullPos pos right i K + K.length⟩) (hb2 : st.b2 = ⟨first, first⟩)
      (hflat : K.length = 1 → st.p0.src = st.p0.dst ∧ pullPos pos right i K = first ∧
        ∀ j, (2 * j < e → ∀ x ∈ X j, ∀ y ∈ X j, lt x y = false) ∧ (2 * j + 1 < e → ∀ x ∈ Y j, ∀ y ∈ Y j, lt x y = false))
  | pulled {right : Bool} {i : Nat} {K rest : List α} (hi : i < m) (h0 : PullOf lt pos mid X Y right i st.p0 K rest) (hhi : st.p0.hi = pos (i + 1))
      (hfit : fit = false) (hf : st.find = wbuf len) (hsep : st.sep = false) (hp : st.pulled = true) (h1 : st.p1.count = 0) (hK : wbuf len ≤ K.length)
      (hb1 : st.b1 = ⟨pullPos pos right i K, pullPos pos right i K + K.length⟩) (hb2 : st.b2 = ⟨first, first⟩)
      (hlt : 2 * i + (if right then 1 else 0) < e)

section
variable {first len m : Nat} {pos mid : Nat → Nat} {X Y : Nat → List α}

theorem SInv.find {fit : Bool} {e : Nat} {st : WSearch} (h : SInv lt first len m pos mid X Y fit e st) (hlen : 0 < len) : 2 ≤ st.find := by
  have := wbuf_two hlen
  cases h with
  | none he hf => omega
  | part hi h0 hhi hf => omega
  | pulled hi h0 hhi hfit hf => omega

/-- The search ends, or it goes on. -/
def SNext (lt : α → α → Bool) (first len m : Nat) (pos mid : Nat → Nat) (X Y : Nat → List α) (fit : Bool) (e : Nat) (r : WSearch × Bool) : Prop :=
  (r.2 = true → Found lt first len m pos mid X Y r.1) ∧ (r.2 = false → SInv lt first len m pos mid X Y fit e r.1)

/-- What the search does when it has not found a buffer yet. -/
theorem take_fresh (g : Geo lt first len m pos mid X Y) {fit right : Bool} {i e : Nat} {st : WSearch} {p : WPull} {K rest : List α} (hi : i < m)
    (he : e = 2 * i + if right then 1 else 0) (hp : PullOf lt pos mid X Y right i p K rest) (hhi : p.hi = pos (i + 1))
    (hdst : p.dst = if right then pos (i + 1) else pos i) (hle : K.length ≤ st.find)
    (hone : K.length = 1 → right = false → p.src = p.dst) (a1 : st.pulled = false) (a2 : st.p1.count = 0) (a3 : st.b2 = ⟨first, first⟩)
    (a5 : (fit = true ∧ st.find = wbuf len ∧ st.sep = false) ∨ (fit = false ∧ st.find = wbuf len + wbuf len ∧ st.sep = false) ∨
        (fit = false ∧ st.find = wbuf len ∧ st.sep = true))
    (a6 : K.length ≤ st.b1.stop - st.b1.start → SInv lt first len m pos mid X Y fit (e + 1) st)
    (a7 : st.b1.stop - st.b1.start < K.length → K.length = 1 → e = 0 ∧ ∀ x ∈ X 0, ∀ y ∈ X 0, lt x y = false) :
    SNext lt first len m pos mid X Y fit (e + 1) (st.take fit right (wbuf len) (pos i) (pos (i + 1)) p.src K.length p.dst) := by
  have hB := wbuf_two (len := len) (by have := g.hlen; omega)
  obtain ⟨hc, hlo⟩ := hp.count
  have hpe : (⟨p.src, p.dst, K.length, pos i, pos (i + 1)⟩ : WPull) = p := by
    cases p; simp only [WPull.mk.injEq] at *; exact ⟨trivial, trivial, hc.symm, hlo.symm, hhi.symm⟩
  have hf : (if right then p.dst - K.length else p.dst) = pullPos pos right i K := by
    rw [hdst]; unfold pullPos; cases right <;> rfl
  have hKne : K ≠ [] := by cases hp <;> simp
  have hKp := List.length_pos_iff.2 hKne
  have hpull : st.pull p = { st with p0 := p } := by unfold WSearch.pull; rw [a1]; rfl
  unfold WSearch.take
  simp only [hpe, hf, hpull]
  split
  · rename_i hbig
    split
    · rename_i h2
      refine ⟨fun _ => ?_, fun h => by cases h⟩
      have e1 : K.take (wbuf len) ++ K.drop (wbuf len) = K := List.take_append_drop _ _
      have l1 : (K.take (wbuf len)).length = wbuf len := by rw [List.length_take]; omega
      have l2 : (K.drop (wbuf len)).length = wbuf len := by rw [List.length_drop]; omega
      refine .one (K1 := K.take (wbuf len)) (K2 := K.drop (wbuf len)) (rest := rest) hi (by rw [e1]; exact hp) (by rw [e1]; omega)
        (List.ne_nil_of_length_pos (by omega)) hhi a2 (by rw [e1, l1]) (.inr ⟨l1, l2, ?_⟩)
      rw [e1, l1, l2]
      simp only [WRange.mk.injEq, true_and]; omega
    · split
      · rename_i h2 h3
        refine ⟨fun h => by (cases h), fun _ => ?_⟩
        have h4 : fit = false := by
          rcases a5 with ⟨-, h, -⟩ | ⟨h, -⟩ | ⟨h, -⟩
          · omega
          · exact h
          · exact h
        have h5 : st.sep = false := by
          rcases a5 with ⟨-, -, h⟩ | ⟨-, -, h⟩ | ⟨-, h, -⟩
          · exact h
          · exact h
          · omega
        exact .pulled hi hp hhi h4 rfl h5 rfl a2 hbig rfl a3 (by omega)
      · rename_i h2 h3
        split
        · refine ⟨fun _ => ?_, fun h => by (cases h)⟩
          exact .one (K1 := K) (K2 := []) (rest := rest) hi (by rw [List.append_nil]; exact hp) (by rw [List.append_nil]; omega) hKne hhi a2
            (by rw [List.append_nil]) (.inl ⟨rfl, a3⟩)
        · rename_i h4
          have h5 : st.sep = true ∧ st.find = wbuf len := by
            rcases a5 with ⟨h, -⟩ | ⟨-, h, -⟩ | ⟨-, h, h'⟩
            · exact absurd h h4
            · exact absurd h h3
            · exact ⟨h', h⟩
          rw [if_pos h5.1]
          refine ⟨fun h => by (cases h), fun _ => ?_⟩
          exact .pulled hi hp hhi (by simpa using h4) h5.2 rfl rfl a2 hbig rfl a3 (by omega)
  · rename_i hbig
    split
    · rename_i h2
      refine ⟨fun h => by (cases h), fun _ => ?_⟩
      refine .part hi hp hhi a5 a1 a2 hKne rfl a3 ?_
      intro h3
      obtain ⟨h4, h5⟩ := a7 h2.2 h3
      subst h4
      have hi0 : i = 0 := by omega
      have hr0 : right = false := by cases right with | false => rfl | true => (simp at he)
      subst hi0 hr0
      refine ⟨hone h3 rfl, g.zero, fun j => ⟨fun hj => ?_, fun hj => by omega⟩⟩
      rw [show j = 0 by omega]; exact h5
    · rename_i h2
      exact ⟨fun h => by (cases h), fun _ => a6 (by simp only [a1, true_and] at h2; omega)⟩

/-- What the search has found in one subarray. -/
theorem take_spec (g : Geo lt first len m pos mid X Y) {fit right : Bool} {i e : Nat} {st : WSearch} {p : WPull} {K rest : List α} (hi : i < m)
    (he : e = 2 * i + if right then 1 else 0)
    (h : SInv lt first len m pos mid X Y fit e st) (hp : PullOf lt pos mid X Y right i p K rest) (hhi : p.hi = pos (i + 1))
    (hdst : p.dst = if right then pos (i + 1) else pos i) (hle : K.length ≤ st.find)
    (hflat : K.length = 1 → ∀ x ∈ (if right then Y i else X i), ∀ y ∈ (if right then Y i else X i), lt x y = false)
    (hone : K.length = 1 → right = false → p.src = p.dst) :
    SNext lt first len m pos mid X Y fit (e + 1) (st.take fit right (wbuf len) (pos i) (pos (i + 1)) p.src K.length p.dst) := by
  have hB := wbuf_two (len := len) (by have := g.hlen; omega)
  have hKne : K ≠ [] := by cases hp <;> simp
  have hKp := List.length_pos_iff.2 hKne
  cases h with
  | none he0 hf hpu h1 hb1 hb2 =>
    refine take_fresh g hi he hp hhi hdst hle hone hpu h1 hb2 hf ?_ ?_
    · rw [hb1]; simp only []; omega
    · intro _ h3
      refine ⟨he0, ?_⟩
      have hi0 : i = 0 := by omega
      have hr0 : right = false := by cases right with | false => rfl | true => (simp at he; omega)
      subst hi0 hr0
      exact hflat h3
  | @part right0 i0 K0 rest0 hi0 h0 hhi0 hf hpu h1 hK0 hb1 hb2 hfl =>
    have hb1l : st.b1.stop - st.b1.start = K0.length := by rw [hb1]; simp only []; omega
    have := List.length_pos_iff.2 hK0
    refine take_fresh g hi he hp hhi hdst hle hone hpu h1 hb2 hf ?_ ?_
    · intro hle'
      refine .part hi0 h0 hhi0 hf hpu h1 hK0 hb1 hb2 fun h2 => ?_
      obtain ⟨u1, u2, u3⟩ := hfl h2
      refine ⟨u1, u2, fun j => ⟨fun hj => ?_, fun hj => ?_⟩⟩
      · by_cases hj' : 2 * j < e
        · exact (u3 j).1 hj'
        · have hr : right = false := by cases right with | false => rfl | true => (simp at he; omega)
          subst hr
          rw [show j = i by simp at he; omega]
          exact hflat (by omega)
      · by_cases hj' : 2 * j + 1 < e
        · exact (u3 j).2 hj'
        · have hr : right = true := by cases right with | true => rfl | false => (simp at he; omega)
          subst hr
          rw [show j = i by simp at he; omega]
          exact hflat (by omega)
    · omega
  | @pulled right0 i0 K0 rest0 hi0 h0 hhi0 hfit hf hsep hpu h1 hK0 hb1 hb2 hlt =>
    obtain ⟨hc, hlo⟩ := hp.count
    have hpe : (⟨p.src, p.dst, K.length, pos i, pos (i + 1)⟩ : WPull) = p := by
      cases p; simp only [WPull.mk.injEq] at *; exact ⟨trivial, trivial, hc.symm, hlo.symm, hhi.symm⟩
    have hff : (if right then p.dst - K.length else p.dst) = pullPos pos right i K := by
      rw [hdst]; unfold pullPos; cases right <;> rfl
    have hpull : st.pull p = { st with p1 := p } := by unfold WSearch.pull; rw [hpu]; rfl
    unfold WSearch.take
    simp only [hpe, hff, hpull]
    split
    · rename_i hbig
      rw [if_neg (by omega), if_neg (by omega), hfit, if_neg (by simp), hsep, if_neg (by simp)]
      refine ⟨fun _ => ?_, fun h => by cases h⟩
      have h01 : i0 < i ∨ (i0 = i ∧ right0 = false ∧ right = true) := by
        cases right0 <;> cases right <;> simp at he hlt <;> simp <;> omega
      have hcount0 := h0.count.2
      have hcond : (right = true ∧ st.p0.lo = pos i) ↔ i0 = i := by
        rw [hcount0]
        constructor
        · rintro ⟨-, h⟩; exact g.inj hi0 hi h
        · rintro rfl; exact ⟨(h01.resolve_left (by omega)).2.2, rfl⟩
      unfold WSearch.cut
      simp only [hcond]
      by_cases e01 : i0 = i
      · rw [if_pos e01]
        exact .two hi0 hi h01 (h0.setHi _) hp hK0 (by omega) (by rw [if_pos e01]; simp only []; rw [hhi0, hc]) hhi hb1 rfl
      · rw [if_neg e01]
        exact .two hi0 hi h01 h0 hp hK0 (by omega) (by rw [if_neg e01]; exact hhi0) hhi hb1 rfl
    · rw [hpu, if_neg (by simp)]
      exact ⟨fun h => by (cases h), fun _ => .pulled hi0 h0 hhi0 hfit hf hsep hpu h1 hK0 hb1 hb2 (by omega)⟩

theorem SInv.found {fit : Bool} {st : WSearch} (hm : 0 < m) (hB : 2 ≤ wbuf len) (h : SInv lt first len m pos mid X Y fit (2 * m) st) :
    Found lt first len m pos mid X Y st := by
  cases h with
  | none he => omega
  | @part right i K rest hi h0 hhi hf hp h1 hK hb1 hb2 hfl =>
    have := List.length_pos_iff.2 hK
    by_cases hK1 : K.length = 1
    · obtain ⟨u1, u2, u3⟩ := hfl hK1
      refine .flat (fun j hj => (u3 j).1 (by omega)) (fun j hj => (u3 j).2 (by omega)) u1 h1 ?_ hb2
      rw [hb1, u2, hK1]
    · exact .one (K1 := K) (K2 := []) (rest := rest) hi (by rw [List.append_nil]; exact h0) (by rw [List.append_nil]; omega) hK hhi h1
            (by rw [List.append_nil]; exact hb1) (.inl ⟨rfl, hb2⟩)
  | @pulled right i K rest hi h0 hhi hfit hf hsep hp h1 hK hb1 hb2 hlt =>
    exact .one (K1 := K) (K2 := []) (rest := rest) hi (by rw [List.append_nil]; exact h0) (by rw [List.append_nil]; omega) (List.ne_nil_of_length_pos (by omega)) hhi h1
            (by rw [List.append_nil]; exact hb1) (.inl ⟨rfl, hb2⟩)

theorem Heads.nil_of {P R : List α} (h : Heads lt P [] R) : P = [] := by
  generalize hK : ([] : List α) = K at h
  cases h with
  | nil => rfl
  | snoc => simp at hK

theorem Tails.nil_of {P R : List α} (h : Tails lt P [] R) : P = [] := by
  generalize hK : ([] : List α) = K at h
  cases h with
  | nil => rfl
  | cons => simp at hK

theorem wikiSearch_spec (hlt : StrictWeak lt) (g : Geo lt first len m pos mid X Y) {N t : Nat} (hN : 0 < N) (ht : 0 < t) (hm : 0 < m)
    (hp : ∀ i, i ≤ m → pos i = first + wcut N (2 * m) (2 * i)) (hq : ∀ i, i < m → mid i = first + wcut N (2 * m) (2 * i + 1)) {fit : Bool} (n : Nat) :
    ∀ (i : Nat) (st : WSearch) (s : St α), i + n = m → (∀ j, j < m → Seg s.cell (pos j) (X j ++ Y j)) → SInv lt first len m pos mid X Y fit (2 * i) st →
    wp (wikiSearch (tick lt) fit (wbuf len) first (iterAt N t (2 * m) (2 * i)) st) (fun st' s' => Found lt first len m pos mid X Y st' ∧ ∃ k, s' = { s with cmps := k }) s := by
  have hlen := g.hlen
  have hB := wbuf_two (len := len) (by omega)
  induction n with
  | zero =>
    intro i st s hi hs h
    rw [wikiSearch, iterAt_finished hN (by omega), if_pos (by simp; omega)]
    rw [show i = m by omega] at h
    exact wp_pure ⟨h.found hm hB, s.cmps, rfl⟩
  | succ n ih =>
    intro i st s hin hs h
    have hi : i < m := by omega
    have e0 : first + (iterAt N t (2 * m) (2 * i)).dec = pos i := (hp i (by omega)).symm
    have e1 : first + (iterAt N t (2 * m) (2 * i + 1)).dec = mid i := (hq i (by omega)).symm
    have e2 : first + (iterAt N t (2 * m) (2 * i + 1 + 1)).dec = pos (i + 1) := (hp (i + 1) (by omega)).symm
    rw [wikiSearch, iterAt_finished hN (by omega), if_neg (by simp; omega), iterAt_next ht (by omega), iterAt_next ht (by omega), e0, e1, e2]
    have h3 := g.hmid i hi
    have h4 := g.hpos i hi
    have h5 := g.lenX i hi
    have h6 := g.lenY i hi
    obtain ⟨sX, sY⟩ := seg_append.1 (hs i hi)
    rw [← h3] at sY
    have oX := g.oX i hi
    have oY := g.oY i hi
    have hf2 := h.find (by omega)
    obtain ⟨x, T, hX⟩ : ∃ x T, X i = x :: T := by
      cases hXi : X i with
      | nil => rw [hXi] at h5; simp at h5; omega
      | cons x T => exact ⟨x, T, rfl⟩
    apply wp_bind
    refine wp_mono (wikiCountA_spec hlt oX h3 _ [] [] [] T x (pos i) 1 s rfl (by rw [hX]; rfl) .nil (by simp) rfl rfl (by omega) sX) ?_
    rintro ⟨index, count⟩ s1 ⟨⟨P, K, R, T', x', u1, u2, u3, u4, u5, u6, u7⟩, k1, rfl⟩
    simp only [] at u4 u5 u6 u7
    have pA : PullOf lt pos mid X Y false i ⟨index, pos i, count, pos i, pos (i + 1)⟩ (K ++ [x']) (R ++ T') := by
      rw [u4, u5]; exact .left u1 u2 u3
    have ck : count = (K ++ [x']).length := by simp [u5]
    have hK1 : (K ++ [x']).length = 1 → P = [] := by
      intro h
      have : K = [] := by simpa using h
      subst this
      exact u2.nil_of
    have tA := take_spec g (fit := fit) (right := false) (e := 2 * i) (st := st) hi rfl h pA rfl rfl (by rw [← ck]; exact u6)
      (by
        intro h
        have hP := hK1 h
        subst hP
        rw [List.nil_append] at u1
        rw [u1] at oX
        have hT := u7 (by omega)
        have hc : ∀ z ∈ x' :: T', lt x' z = false ∧ lt z x' = false := by
          intro z hz
          rcases List.mem_cons.1 hz with rfl | hz
          · exact ⟨hlt.irrefl _, hlt.irrefl _⟩
          · exact ⟨hT z hz, (sortedList_cons.1 oX).1 z hz⟩
        simp only [Bool.false_eq_true, if_false, u1]
        intro a ha b hb
        exact hlt.le_trans (hc b hb).1 (hc a ha).2)
      (by
        intro h _
        have hP := hK1 h
        subst hP
        simpa using u4)
    simp only [] at tA
    rw [← ck] at tA
    dsimp only
    generalize st.take fit false (wbuf len) (pos i) (pos (i + 1)) index count (pos i) = tk at tA ⊢
    obtain ⟨st1, stop1⟩ := tk
    obtain ⟨tA1, tA2⟩ := tA
    simp only [] at tA1 tA2 ⊢
    split
    · rename_i hst
      exact wp_pure ⟨tA1 hst, k1, rfl⟩
    · rename_i hst
      have h' := tA2 (by simpa using hst)
      have hf2' := h'.find (by omega)
      have hYne : Y i ≠ [] := List.ne_nil_of_length_pos (by omega)
      obtain ⟨T, y, hY⟩ : ∃ T y, Y i = T ++ [y] := ⟨_, _, (List.dropLast_append_getLast hYne).symm⟩
      apply wp_bind
      refine wp_mono (wikiCountB_spec hlt (m := mid i) oY _ T [] [] [] y (pos (i + 1) - 1) 1 { s with cmps := k1 } rfl (by rw [hY]) .nil (by simp) ?_ rfl (by omega) sY) ?_
      · have := congrArg List.length hY
        simp at this; omega
      rintro ⟨index, count⟩ s2 ⟨⟨T', Q, K, R, x', v1, v2, v3, v4, v5, v6, v7⟩, k2, rfl⟩
      simp only [] at v4 v5 v6 v7
      have pB : PullOf lt pos mid X Y true i ⟨index, pos (i + 1), count, pos i, pos (i + 1)⟩ (x' :: K) (T' ++ R) := by
        rw [v4, v5]; exact .right v1 v2 v3
      have ck : count = (x' :: K).length := by simp [v5]
      have tB := take_spec g (fit := fit) (right := true) (e := 2 * i + 1) (st := st1) hi rfl h' pB rfl rfl (by rw [← ck]; exact v6)
        (by
          intro h
          have hP : Q = [] := by
            have : K = [] := by simpa using h
            subst this
            exact v2.nil_of
          subst hP
          rw [v1] at oY
          have hT := v7 (by omega)
          have hc : ∀ z ∈ T' ++ [x'], lt x' z = false ∧ lt z x' = false := by
            intro z hz
            rcases List.mem_append.1 hz with hz | hz
            · exact ⟨(sortedList_append.1 oY).2.2 z hz x' (by simp), hT z hz⟩
            · rw [List.mem_singleton] at hz; subst hz
              exact ⟨hlt.irrefl _, hlt.irrefl _⟩
          simp only [if_true, v1]
          intro a ha b hb
          exact hlt.le_trans (hc b hb).1 (hc a ha).2)
        (by intro _ h; cases h)
      simp only [] at tB
      rw [← ck] at tB
      dsimp only
      generalize st1.take fit true (wbuf len) (pos i) (pos (i + 1)) index count (pos (i + 1)) = tk at tB ⊢
      obtain ⟨st2, stop2⟩ := tk
      obtain ⟨tB1, tB2⟩ := tB
      simp only [] at tB1 tB2 ⊢
      split
      · rename_i hst
        exact wp_pure ⟨tB1 hst, k2, rfl⟩
      · rename_i hst
        refine wp_mono (ih (i + 1) st2 { s with cmps := k2 } (by omega) hs (tB2 (by simpa using hst))) ?_
        rintro st' s3 ⟨w1, k3, rfl⟩
        exact ⟨w1, k3, rfl⟩

theorem wikiInPlace_spec (hlt : StrictWeak lt) (c : Cfg) (g : Geo lt first len m pos mid X Y) {N t : Nat} (hN : 0 < N) (ht : 0 < t) (hm : 0 < m)
    (hp : ∀ i, i ≤ m → pos i = first + wcut N (2 * m) (2 * i)) (hq : ∀ i, i < m → mid i = first + wcut N (2 * m) (2 * i + 1)) {cache cs : Nat} {junk : Nat → Nat}
    (hcache : cache + cs ≤ first ∨ pos m ≤ cache) {it : WIter} (hit : it.begin = iterAt N t (2 * m) 0) (hdec : it.decStep = len) {s : St α}
    (hs : ∀ i, i < m → Seg s.cell (pos i) (X i ++ Y i)) (hlive : ∀ i, cache ≤ i → i < cache + cs → Live s.cell i) :
    wp (wikiInPlace (tick lt) c junk cache cs first it) (fun _ s' => (∀ i, i < m → Seg s'.cell (pos i) (mergeL lt (X i) (Y i))) ∧ GFrame first (pos m) cache cs s s') s := by
  have hlen := g.hlen
  unfold wikiInPlace
  rw [hdec]
  apply wp_bind
  refine wp_divC (Nat.sqrt_pos.2 (by omega)) ?_
  apply wp_bind
  rw [hit]
  refine wp_mono (wikiSearch_spec hlt g hN ht hm hp hq m 0 _ s (by omega) hs ?_) ?_
  · refine .none rfl ?_ rfl rfl rfl rfl
    unfold wikiSearchInit wbuf
    simp only []
    by_cases h1 : cs > 0 ∧ Nat.sqrt len ≤ cs
    · left; simp [h1]
    · by_cases h2 : len / Nat.sqrt len + 1 + (len / Nat.sqrt len + 1) > len
      · right; right; simp [h1, h2]
      · right; left; simp [h1, h2]
  · rintro st s1 ⟨hf, k, rfl⟩
    have := wikiRest_spec hlt c g hN ht hm hp hq hcache hit hdec (s := { s with cmps := k }) hs hlive hf
    unfold wikiRest at this
    rw [hdec, hit] at this
    refine wp_mono this ?_
    rintro _ s2 ⟨w1, w2, w3, w4⟩
    exact ⟨w1, w2, w3, (EnvLe.of_env rfl).trans w4⟩

end
end CppSort
