import Verif.Proof.WikiRows
/-
wiki_sort.h 661-905: a level of merges in place, with the buffers that the search can find.
-/
set_option autoImplicit false

namespace CppSort
variable {α : Type} {lt : α → α → Bool}

/-- wiki_sort.h 508: `buffer_size`. -/
def wbuf (len : Nat) : Nat := len / Nat.sqrt len + 1

theorem wbuf_two {len : Nat} (h : 0 < len) : 2 ≤ wbuf len := by
  have h1 := Nat.sqrt_pos.2 h
  have := Nat.div_pos (Nat.sqrt_le_self len) h1
  unfold wbuf; omega

theorem wbuf_big {len n : Nat} (h : 0 < len) (hn : wbuf len ≤ n) : len / n + 1 ≤ wbuf len := by
  have h1 := Nat.sqrt_pos.2 h
  have h2 : Nat.sqrt len ≤ len / Nat.sqrt len := (Nat.le_div_iff_mul_le h1).2 (Nat.sqrt_le len)
  have h3 : len < wbuf len * wbuf len :=
    Nat.lt_of_lt_of_le (Nat.lt_succ_sqrt len) (Nat.mul_le_mul (by unfold wbuf; omega) (by unfold wbuf; omega))
  have h4 : len < wbuf len * n := Nat.lt_of_lt_of_le h3 (Nat.mul_le_mul_left _ hn)
  have h5 := (Nat.div_lt_iff_lt_mul (show 0 < n by unfold wbuf at hn; omega)).2 h4
  omega

theorem blocks_fit {len n k : Nat} (hn : 0 < n) (hk : k ≤ len + 1) : k / (len / n + 1) ≤ n := by
  have h1 : len + 1 ≤ n * (len / n + 1) := by
    have := Nat.div_add_mod len n
    have h2 := Nat.mod_lt len hn
    rw [Nat.mul_add]; omega
  calc k / (len / n + 1) ≤ (n * (len / n + 1)) / (len / n + 1) := Nat.div_le_div_right (by omega)
    _ = n := Nat.mul_div_cancel _ (Nat.succ_pos _)

section
variable {first len m : Nat} {pos mid : Nat → Nat} {X Y : Nat → List α}

/-- The loop, with two buffers. -/
theorem wikiMid_spec (hlt : StrictWeak lt) (c : Cfg) (g : Geo lt first len m pos mid X Y) {N t : Nat} (hN : 0 < N) (ht : 0 < t) (hm : 0 < m)
    (hp : ∀ i, i ≤ m → pos i = first + wcut N (2 * m) (2 * i)) (hq : ∀ i, i < m → mid i = first + wcut N (2 * m) (2 * i + 1)) {ρ : Nat → WRow α}
    (hr : ∀ j, j < m → RowOk lt (X j) (Y j) (ρ j)) {cache cs : Nat} {b2 : WRange} {K1 K2 : List α} {b1 : Nat} {p0 p1 : WPull} {s : St α} (hK1 : K1 ≠ [])
    (hstop : b2.stop = b2.start + K2.length) (hbig : K2 = [] ∨ len / K1.length + 1 ≤ K2.length) (oK1 : StrictList lt K1) (oK2 : StrictList lt K2)
    (hcache : cache + cs ≤ first ∨ pos m ≤ cache) (hb1 : ∀ i, i < m → b1 + K1.length ≤ pos i + (ρ i).kl.length ∨ pos (i + 1) - (ρ i).kr.length ≤ b1)
    (hb2 : ∀ i, i < m → b2.start + K2.length ≤ pos i + (ρ i).kl.length ∨ pos (i + 1) - (ρ i).kr.length ≤ b2.start)
    (hb1' : first ≤ b1 ∧ b1 + K1.length ≤ pos m) (hb2' : first ≤ b2.start ∧ b2.start + K2.length ≤ pos m)
    (hb12 : b1 + K1.length ≤ b2.start ∨ b2.start + K2.length ≤ b1)
    (htrim : ∀ i, i < m → (p0.trim (pos i) (pos i, mid i, pos (i + 1))).bind (p1.trim (pos i)) =
      if (ρ i).A = [] ∨ (ρ i).B = [] then none else some (pos i + (ρ i).kl.length, mid i, pos (i + 1) - (ρ i).kr.length))
    (hrows : RowsAt m pos (fun j => (ρ j).tri) s.cell) (sK1 : Seg s.cell b1 K1) (sK2 : Seg s.cell b2.start K2) (hlive : ∀ i, cache ≤ i → i < cache + cs → Live s.cell i) :
    wp (do
      wikiPairs (wikiBody (tick lt) c ⟨cache, cs, len / K1.length + 1, b2⟩ p0 p1 first b1) first (iterAt N t (2 * m) 0)
      insertionSort (tick lt) b2.start b2.stop : M α Unit) (fun _ s' => RowsAt m pos (fun j => (ρ j).done lt) s'.cell ∧
        GFrame first (pos m) cache cs s s') s := by
  have hK1p := List.length_pos_iff.2 hK1
  refine wikiLoop_spec hlt c g hN ht hm hp hq hr (w := ⟨cache, cs, len / K1.length + 1, b2⟩) ⟨hstop, ?_, Nat.succ_pos _, hbig⟩ oK2 hcache hb2 hb2' htrim hrows sK2 hlive ?_
  · simp only []; omega
  · intro i hi hA hB s1 hcell hap sAB hidle
    have hri := hr i hi
    have h1 := hri.lenX
    have h2 := hri.lenY
    have h3 := g.hmid i hi
    have h4 := g.hpos i hi
    have h5 := g.lenX i hi
    refine wikiMerge_of hlt c hap (by omega) (by omega) hA hB hri.oA hri.oB sAB hidle ?_
    intro _ _ s2 e1 e2
    refine wp_mono (wikiBlocks_spec hlt c (w := ⟨cache, cs, len / K1.length + 1, b2⟩) (K1 := K1) (K2 := K2) (A := (ρ i).A) (B := (ρ i).B) (s := s2)
      ⟨hstop, by simp only []; omega, Nat.succ_pos _, hbig⟩ hap ⟨by simp only []; omega, by simp only []; omega⟩ (hb1 i hi) (by omega) (by omega) hB
      (blocks_fit hK1p (by omega)) oK1 hri.oA hri.oB (by rw [e1]; exact sAB) ?_ (by rw [e1]; exact hidle)) ?_
    · rw [e1]
      refine sK1.congr fun q u v => hcell q (fun j hj => ?_) (by simp only []; omega) (by simp only []; omega)
      have := hb1 j hj; omega
    · rintro _ s3 ⟨r1, r2, r3⟩
      exact ⟨r1, r2, (WFr.of_cell e1 e2).trans r3⟩

/-- What the search can find. -/
inductive Found (lt : α → α → Bool) (first len m : Nat) (pos mid : Nat → Nat) (X Y : Nat → List α) (st : WSearch) : Prop
  | flat (hX : ∀ i, i < m → ∀ x ∈ X i, ∀ y ∈ X i, lt x y = false) (hY : ∀ i, i < m → ∀ x ∈ Y i, ∀ y ∈ Y i, lt x y = false) (h0 : st.p0.src = st.p0.dst)
      (h1 : st.p1.count = 0) (hb1 : st.b1 = ⟨first, first + 1⟩) (hb2 : st.b2 = ⟨first, first⟩)
  | one {right : Bool} {i : Nat} {K1 K2 rest : List α} (hi : i < m) (h0 : PullOf lt pos mid X Y right i st.p0 (K1 ++ K2) rest) (hK : 2 ≤ (K1 ++ K2).length) (hK1 : K1 ≠ [])
      (hhi : st.p0.hi = pos (i + 1)) (h1 : st.p1.count = 0)
      (hb1 : st.b1 = ⟨pullPos pos right i (K1 ++ K2), pullPos pos right i (K1 ++ K2) + K1.length⟩)
      (hb2 : (K2 = [] ∧ st.b2 = ⟨first, first⟩) ∨ (K1.length = wbuf len ∧ K2.length = wbuf len ∧
        st.b2 = ⟨pullPos pos right i (K1 ++ K2) + K1.length, pullPos pos right i (K1 ++ K2) + K1.length + K2.length⟩))
  | two {r0 r1 : Bool} {i0 i1 : Nat} {K0 K1 rest0 rest1 : List α} (hi0 : i0 < m) (hi1 : i1 < m) (h01 : i0 < i1 ∨ (i0 = i1 ∧ r0 = false ∧ r1 = true))
      (h0 : PullOf lt pos mid X Y r0 i0 st.p0 K0 rest0) (h1 : PullOf lt pos mid X Y r1 i1 st.p1 K1 rest1) (hK0 : wbuf len ≤ K0.length)
      (hK1 : K1.length = wbuf len) (hhi0 : st.p0.hi = if i0 = i1 then pos (i0 + 1) - K1.length else pos (i0 + 1)) (hhi1 : st.p1.hi = pos (i1 + 1))
      (hb1 : st.b1 = ⟨pullPos pos r0 i0 K0, pullPos pos r0 i0 K0 + K0.length⟩) (hb2 : st.b2 = ⟨pullPos pos r1 i1 K1, pullPos pos r1 i1 K1 + K1.length⟩)

/-- wiki_sort.h 661-905. -/
def wikiRest (lt : α → α → Bool) (c : Cfg) (cache cs first : Nat) (it : WIter) (st : WSearch) : M α Unit := do
  let p0 ← wikiPull (tick lt) c st.p0
  let p1 ← wikiPull (tick lt) c st.p1
  let q ← divC it.decStep (st.b1.stop - st.b1.start)
  wikiPairs (wikiBody (tick lt) c ⟨cache, cs, q + 1, st.b2⟩ p0 p1 first st.b1.start) first it.begin
  insertionSort (tick lt) st.b2.start st.b2.stop
  wikiSpread (tick lt) c p0
  wikiSpread (tick lt) c p1

/-- The effect of `trim` on the pair `i`. -/
theorem trim_of (g : Geo lt first len m pos mid X Y) {right : Bool} {i0 : Nat} {p : WPull} (hi0 : i0 < m) (hlo : p.lo = pos i0) (hd : PullDir right p)
    {i : Nat} (hi : i < m) {a b e : Nat} : p.trim (pos i) (a, b, e) =
      if i = i0 then (if right then (if e - p.count = b then none else some (a, b, e - p.count)) else (if a + p.count = b then none else some (a + p.count, b, e)))
      else some (a, b, e) := by
  unfold WPull.trim
  rw [hlo]
  by_cases h : i = i0
  · subst h
    cases right with
    | false =>
      have hd : p.dst < p.src := hd
      simp only [if_true, if_pos hd, Bool.false_eq_true, if_false]
    | true =>
      have hd : p.src < p.dst := hd
      simp only [if_true, if_pos hd]
      rw [if_neg (by omega)]
  · rw [if_neg (fun e => h (g.inj hi hi0 e)), if_neg h]

theorem trim_zero {p : WPull} (h : p.count = 0) {start a b e : Nat} (h1 : a ≠ b) (h2 : e ≠ b) : p.trim start (a, b, e) = some (a, b, e) := by
  unfold WPull.trim
  rw [h]
  simp only [Nat.add_zero, Nat.sub_zero, if_neg h1, if_neg h2]
  split
  · split
    · rfl
    · split <;> rfl
  · rfl

/-- Pairs with nothing pulled out. -/
def rows0 (X Y : Nat → List α) (i : Nat) : WRow α := ⟨[], X i, Y i, []⟩

theorem rows0_ok (g : Geo lt first len m pos mid X Y) (i : Nat) (hi : i < m) : RowOk lt (X i) (Y i) (rows0 X Y i) :=
  ⟨mergeL_nil_left _, mergeL_nil_right _, g.oX i hi, g.oY i hi, List.Pairwise.nil, List.Pairwise.nil⟩

/-- Where the values that have been pulled out are. -/
theorem pullPos_of (g : Geo lt first len m pos mid X Y) {right : Bool} {i : Nat} {K : List α} {ρ : Nat → WRow α} {cell : Nat → Cell α} (hi : i < m)
    (hr : ∀ j, j < m → RowOk lt (X j) (Y j) (ρ j)) (hK : (if right then (ρ i).kr else (ρ i).kl) = K) (hrows : RowsAt m pos (fun j => (ρ j).tri) cell) :
    (∀ j, j < m → pullPos pos right i K + K.length ≤ pos j + (ρ j).kl.length ∨ pos (j + 1) - (ρ j).kr.length ≤ pullPos pos right i K) ∧
    Seg cell (pullPos pos right i K) K ∧ pos i ≤ pullPos pos right i K ∧ pullPos pos right i K + K.length ≤ pos (i + 1) := by
  have hl := fun j (hj : j < m) => (hr j hj).size g hj
  simp only [WRow.tri, List.length_append] at hl
  have hli := hl i hi
  have h0 := hrows i hi
  simp only [WRow.tri] at h0
  rw [seg_append, seg_append, List.length_append] at h0
  cases right with
  | false =>
    simp only [Bool.false_eq_true, if_false] at hK
    subst hK
    simp only [pullPos, Bool.false_eq_true, if_false]
    refine ⟨fun j hj => ?_, h0.1, Nat.le_refl _, by omega⟩
    have hlj := hl j hj
    rcases Nat.lt_trichotomy j i with e | e | e
    · have := g.mono (show j + 1 ≤ i from e) (by omega); omega
    · subst e; omega
    · have := g.mono (show i + 1 ≤ j from e) (by omega); omega
  | true =>
    simp only [if_true] at hK
    subst hK
    simp only [pullPos, if_true]
    refine ⟨fun j hj => ?_, ?_, by omega, by omega⟩
    · have hlj := hl j hj
      rcases Nat.lt_trichotomy j i with e | e | e
      · have := g.mono (show j + 1 ≤ i from e) (by omega); omega
      · subst e; omega
      · have := g.mono (show i + 1 ≤ j from e) (by omega); omega
    · rw [show pos (i + 1) - (ρ i).kr.length = pos i + (ρ i).kl.length + ((ρ i).A.length + (ρ i).B.length) by omega]
      exact h0.2.2

/-- How many values a pull takes on each side of the pair `j`. -/
def pullL (right : Bool) (i n j : Nat) : Nat := if j = i ∧ right = false then n else 0
def pullR (right : Bool) (i n j : Nat) : Nat := if j = i ∧ right = true then n else 0

theorem trim_uni (g : Geo lt first len m pos mid X Y) {right : Bool} {i0 : Nat} {p : WPull} (hi0 : i0 < m) (hlo : p.lo = pos i0) (hd : PullDir right p)
    {i : Nat} (hi : i < m) {a b e : Nat} (h1 : a ≠ b) (h2 : e ≠ b) : p.trim (pos i) (a, b, e) =
      if a + pullL right i0 p.count i = b ∨ e - pullR right i0 p.count i = b then none
      else some (a + pullL right i0 p.count i, b, e - pullR right i0 p.count i) := by
  rw [trim_of g hi0 hlo hd hi]
  by_cases h : i = i0
  · subst h
    cases right with
    | false => simp [pullL, pullR, h2]
    | true => simp [pullL, pullR, h1]
  · simp [pullL, pullR, h, h1, h2]

theorem trim_both {p0 p1 : WPull} {start a b e l0 r0 l1 r1 : Nat} (h1 : a + l0 + l1 ≤ b) (h2 : b ≤ e - r0 - r1)
    (t0 : p0.trim start (a, b, e) = if a + l0 = b ∨ e - r0 = b then none else some (a + l0, b, e - r0))
    (t1 : ∀ a' e', a' ≠ b → e' ≠ b → p1.trim start (a', b, e') = if a' + l1 = b ∨ e' - r1 = b then none else some (a' + l1, b, e' - r1)) :
    (p0.trim start (a, b, e)).bind (p1.trim start) = if a + (l0 + l1) = b ∨ e - (r0 + r1) = b then none else some (a + (l0 + l1), b, e - (r0 + r1)) := by
  rw [t0, ← Nat.add_assoc, Nat.sub_add_eq]
  by_cases h : a + l0 = b ∨ e - r0 = b
  · rw [if_pos h, if_pos (by omega)]; rfl
  · rw [if_neg h]
    show p1.trim start (a + l0, b, e - r0) = _
    rw [t1 _ _ (by omega) (by omega)]

theorem wikiRest_one (hlt : StrictWeak lt) (c : Cfg) (g : Geo lt first len m pos mid X Y) {N t : Nat} (hN : 0 < N) (ht : 0 < t) (hm : 0 < m)
    (hp : ∀ i, i ≤ m → pos i = first + wcut N (2 * m) (2 * i)) (hq : ∀ i, i < m → mid i = first + wcut N (2 * m) (2 * i + 1)) {cache cs : Nat}
    (hcache : cache + cs ≤ first ∨ pos m ≤ cache) {it : WIter} (hit : it.begin = iterAt N t (2 * m) 0) (hdec : it.decStep = len) {st : WSearch} {s : St α}
    (hs : ∀ i, i < m → Seg s.cell (pos i) (X i ++ Y i)) (hlive : ∀ i, cache ≤ i → i < cache + cs → Live s.cell i)
    {right : Bool} {i : Nat} {K1 K2 rest : List α} (hi : i < m) (h0 : PullOf lt pos mid X Y right i st.p0 (K1 ++ K2) rest) (hK : 2 ≤ (K1 ++ K2).length) (hK1 : K1 ≠ [])
      (hhi : st.p0.hi = pos (i + 1)) (h1 : st.p1.count = 0)
      (hb1 : st.b1 = ⟨pullPos pos right i (K1 ++ K2), pullPos pos right i (K1 ++ K2) + K1.length⟩)
      (hb2 : (K2 = [] ∧ st.b2 = ⟨first, first⟩) ∨ (K1.length = wbuf len ∧ K2.length = wbuf len ∧
        st.b2 = ⟨pullPos pos right i (K1 ++ K2) + K1.length, pullPos pos right i (K1 ++ K2) + K1.length + K2.length⟩)) :
    wp (wikiRest lt c cache cs first it st) (fun _ s' => (∀ i, i < m → Seg s'.cell (pos i) (mergeL lt (X i) (Y i))) ∧ GFrame first (pos m) cache cs s s') s := by
  have hz := g.zero
  have hfi := g.mono (Nat.zero_le i) (show i ≤ m by omega)
  have hfi' := g.mono (show i + 1 ≤ m from hi) (Nat.le_refl m)
  have hlen := g.hlen
  unfold wikiRest
  apply wp_bind
  refine wp_mono (wikiPull_rows hlt c g (ρ := rows0 X Y) h0 hi (rows0_ok g) hK (by cases right <;> rfl) (fun j hj => by simpa [rows0, WRow.tri] using hs j hj)) ?_
  rintro p0 s1 ⟨⟨src, hp0⟩, hdir, hrows, hfr⟩
  generalize hρ : (fun j => if j = i then (rows0 X Y i).pull right (K1 ++ K2) rest else rows0 X Y j) = ρ at *
  have hρ' : ∀ j, (if j = i then (rows0 X Y i).pull right (K1 ++ K2) rest else rows0 X Y j) = ρ j := fun j => congrFun hρ j
  simp only [hρ'] at hrows
  have hr : ∀ j, j < m → RowOk lt (X j) (Y j) (ρ j) := by
    intro j hj
    rw [← hρ']
    by_cases e : j = i
    · subst e; rw [if_pos rfl]; exact h0.ok hlt g hj (rows0_ok g j hj)
    · rw [if_neg e]; exact rows0_ok g j hj
  have hρi : ρ i = (rows0 X Y i).pull right (K1 ++ K2) rest := by rw [← hρ', if_pos rfl]
  have hkl : ∀ j, (ρ j).kl.length = pullL right i st.p0.count j ∧ (ρ j).kr.length = pullR right i st.p0.count j := by
    intro j
    rw [← hρ', h0.count.1]
    by_cases e : j = i
    · cases right <;> simp [e, WRow.pull, rows0, pullL, pullR]
    · simp [e, rows0, pullL, pullR]
  have hcnt : p0.count = st.p0.count := by rw [hp0]
  have hlo : p0.lo = pos i := by rw [hp0]; exact h0.count.2
  have hhi' : p0.hi = pos (i + 1) := by rw [hp0]; exact hhi
  apply wp_bind
  refine wp_mono (wikiPull_zero c h1) ?_
  rintro p1 s1 ⟨rfl, rfl⟩
  apply wp_bind
  have hb1l : st.b1.stop - st.b1.start = K1.length := by rw [hb1]; simp only []; omega
  have hK1p := List.length_pos_iff.2 hK1
  rw [hb1l, hdec, hit]
  refine wp_divC (by omega) ?_
  have hKi : (if right then (ρ i).kr else (ρ i).kl) = K1 ++ K2 := by rw [hρi]; cases right <;> rfl
  obtain ⟨u1, u2, u3, u4⟩ := pullPos_of g hi hr hKi hrows
  have hb1s : st.b1.start = pullPos pos right i (K1 ++ K2) := by rw [hb1]
  rw [hb1s]
  generalize pullPos pos right i (K1 ++ K2) = f at *
  rw [seg_append] at u2
  rw [List.length_append] at u4
  simp only [List.length_append] at u1
  have hso := List.pairwise_append.1 h0.strict
  have hst : st.b2.stop = st.b2.start + K2.length := by
    rcases hb2 with ⟨rfl, h⟩ | ⟨-, -, h⟩ <;> rw [h] <;> simp
  rw [← bind_assoc]
  apply wp_bind
  refine wp_mono (wikiMid_spec hlt c g hN ht hm hp hq hr (cache := cache) (cs := cs) (b2 := st.b2) (K1 := K1) (K2 := K2) (b1 := f) (p0 := p0) (p1 := st.p1) (s := s1)
    hK1 hst ?_ hso.1 hso.2.1 hcache ?_ ?_ ?_ ?_ ?_ ?_ hrows u2.1 ?_ ?_) ?_
  · rcases hb2 with ⟨h, -⟩ | ⟨h2, h3, -⟩
    · exact .inl h
    · right; rw [h3]; exact wbuf_big (by omega) (by omega)
  · intro j hj; have := u1 j hj; omega
  · intro j hj
    rcases hb2 with ⟨h, h2⟩ | ⟨-, -, h⟩
    · subst h; rw [h2]
      have := g.mono (Nat.zero_le j) (show j ≤ m by omega)
      simp only [List.length_nil]; omega
    · rw [h]; have := u1 j hj; simp only []; omega
  · omega
  · rcases hb2 with ⟨h, h2⟩ | ⟨-, -, h⟩
    · subst h; rw [h2]; simp only [List.length_nil]; omega
    · rw [h]; simp only []; omega
  · rcases hb2 with ⟨h, h2⟩ | ⟨-, -, h⟩
    · subst h; rw [h2]; simp only [List.length_nil]; omega
    · rw [h]; simp only []; omega
  · intro j hj
    have hrj := hr j hj
    have e1 := hrj.lenX
    have e2 := hrj.lenY
    have e3 := g.hmid j hj
    have e4 := g.hpos j hj
    have e5 := g.lenX j hj
    have e6 := g.lenY j hj
    obtain ⟨e7, e8⟩ := hkl j
    rw [← hcnt] at e7 e8
    have := trim_both (p0 := p0) (p1 := st.p1) (start := pos j) (a := pos j) (b := mid j) (e := pos (j + 1)) (l1 := 0) (r1 := 0) (l0 := pullL right i p0.count j)
      (r0 := pullR right i p0.count j) (by omega) (by omega) (trim_uni g hi hlo hdir hj (by omega) (by omega))
      (fun a' e' n1 n2 => by rw [trim_zero h1 n1 n2, Nat.add_zero, Nat.sub_zero, if_neg (by omega)])
    rw [this, Nat.add_zero, Nat.add_zero, ← e7, ← e8]
    have e9 : ((ρ j).A = [] ∨ (ρ j).B = []) ↔ (pos j + (ρ j).kl.length = mid j ∨ pos (j + 1) - (ρ j).kr.length = mid j) := by
      rw [← List.length_eq_zero_iff, ← List.length_eq_zero_iff]; omega
    rw [if_congr e9 rfl rfl]
    rfl
  · rcases hb2 with ⟨h, h2⟩ | ⟨-, -, h⟩
    · subst h; exact Seg.nil
    · rw [h]; exact u2.2
  · intro q v w
    exact (hlive q v w).same (hfr.cell q (by omega))
  · rintro _ s2 ⟨v1, v2⟩
    apply wp_bind
    have hri := hr i hi
    refine wp_mono (wikiSpread_rows hlt c g (right := right) (i := i) hi (fun j hj => ?_) hdir hlo ?_ ?_ ?_ (mergeL_ssorted hlt _ _ hri.oA hri.oB).2.1 ?_ v1) ?_
    · have := (hr j hj).size g hj
      simp only [WRow.done, WRow.tri, (mergeL_perm (ρ j).A (ρ j).B).length_eq] at *
      exact this
    · rw [hcnt, h0.count.1, ← hKi]; rfl
    · rw [hhi']
      cases right with
      | false => simp [WRow.done, hρi, WRow.pull, rows0]
      | true => rfl
    · intro e; subst e; simp [WRow.done, hρi, WRow.pull, rows0]
    · show SortedList lt (if right then (ρ i).kr else (ρ i).kl)
      rw [hKi]; exact h0.strict.sorted hlt
    · rintro _ s3 ⟨w1, w2⟩
      refine wp_mono (wikiSpread_zero c h1) ?_
      rintro _ s3 rfl
      refine ⟨fun j hj => ?_, ?_⟩
      · have h2 := w1 j hj
        rw [← (hr j hj).merge hlt]
        by_cases e : j = i
        · subst e
          simp only [if_true] at h2
          rw [hρi] at h2 ⊢
          cases right <;> simpa [WTri.spread, WRow.done, WRow.pull, rows0] using h2
        · simp only [if_neg e] at h2
          rw [← hρ', if_neg e] at h2 ⊢
          simpa [WTri.spread, WRow.done, rows0] using h2
      · have hl1 : ∀ q, cache ≤ q → q < cache + cs → Live s1.cell q := fun q v w => (hlive q v w).same (hfr.cell q (by omega))
        exact ((hfr.mono (f := first) (l := pos m) (by omega) (by omega)).g (by omega) hlive).trans (v2.trans
          ((w2.mono (f := first) (l := pos m) (by omega) (by omega)).g (by omega) v2.live))

theorem wikiRest_two (hlt : StrictWeak lt) (c : Cfg) (g : Geo lt first len m pos mid X Y) {N t : Nat} (hN : 0 < N) (ht : 0 < t) (hm : 0 < m)
    (hp : ∀ i, i ≤ m → pos i = first + wcut N (2 * m) (2 * i)) (hq : ∀ i, i < m → mid i = first + wcut N (2 * m) (2 * i + 1)) {cache cs : Nat}
    (hcache : cache + cs ≤ first ∨ pos m ≤ cache) {it : WIter} (hit : it.begin = iterAt N t (2 * m) 0) (hdec : it.decStep = len) {st : WSearch} {s : St α}
    (hs : ∀ i, i < m → Seg s.cell (pos i) (X i ++ Y i)) (hlive : ∀ i, cache ≤ i → i < cache + cs → Live s.cell i)
    {r0 r1 : Bool} {i0 i1 : Nat} {K0 K1 rest0 rest1 : List α} (hi0 : i0 < m) (hi1 : i1 < m) (h01 : i0 < i1 ∨ (i0 = i1 ∧ r0 = false ∧ r1 = true))
      (h0 : PullOf lt pos mid X Y r0 i0 st.p0 K0 rest0) (h1 : PullOf lt pos mid X Y r1 i1 st.p1 K1 rest1) (hK0 : wbuf len ≤ K0.length)
      (hK1 : K1.length = wbuf len) (hhi0 : st.p0.hi = if i0 = i1 then pos (i0 + 1) - K1.length else pos (i0 + 1)) (hhi1 : st.p1.hi = pos (i1 + 1))
      (hb1 : st.b1 = ⟨pullPos pos r0 i0 K0, pullPos pos r0 i0 K0 + K0.length⟩) (hb2 : st.b2 = ⟨pullPos pos r1 i1 K1, pullPos pos r1 i1 K1 + K1.length⟩) :
    wp (wikiRest lt c cache cs first it st) (fun _ s' => (∀ i, i < m → Seg s'.cell (pos i) (mergeL lt (X i) (Y i))) ∧ GFrame first (pos m) cache cs s s') s := by
  have hz := g.zero
  have hfi := g.mono (Nat.zero_le i0) (show i0 ≤ m by omega)
  have hfi' := g.mono (show i0 + 1 ≤ m from hi0) (Nat.le_refl m)
  have hgi := g.mono (Nat.zero_le i1) (show i1 ≤ m by omega)
  have hgi' := g.mono (show i1 + 1 ≤ m from hi1) (Nat.le_refl m)
  have hlen := g.hlen
  have hbuf := wbuf_two (len := len) (by omega)
  unfold wikiRest
  apply wp_bind
  refine wp_mono (wikiPull_rows hlt c g (ρ := rows0 X Y) h0 hi0 (rows0_ok g) (by omega) (by cases r0 <;> rfl) (fun j hj => by simpa [rows0, WRow.tri] using hs j hj)) ?_
  rintro p0 s1 ⟨⟨src, hp0⟩, hdir0, hrows, hfr⟩
  generalize hρ : (fun j => if j = i0 then (rows0 X Y i0).pull r0 K0 rest0 else rows0 X Y j) = ρ1 at *
  have hρ1 : ∀ j, (if j = i0 then (rows0 X Y i0).pull r0 K0 rest0 else rows0 X Y j) = ρ1 j := fun j => congrFun hρ j
  simp only [hρ1] at hrows
  have hr1 : ∀ j, j < m → RowOk lt (X j) (Y j) (ρ1 j) := by
    intro j hj
    rw [← hρ1]
    by_cases e : j = i0
    · subst e; rw [if_pos rfl]; exact h0.ok hlt g hj (rows0_ok g j hj)
    · rw [if_neg e]; exact rows0_ok g j hj
  have hcnt0 : p0.count = K0.length := by rw [hp0]; exact h0.count.1
  have hlo0 : p0.lo = pos i0 := by rw [hp0]; exact h0.count.2
  have hhi0' : p0.hi = if i0 = i1 then pos (i0 + 1) - K1.length else pos (i0 + 1) := by rw [hp0]; exact hhi0
  apply wp_bind
  refine wp_mono (wikiPull_rows hlt c g (ρ := ρ1) h1 hi1 hr1 (by omega) ?_ hrows) ?_
  · rw [← hρ1]
    by_cases e : i1 = i0
    · obtain ⟨-, rfl, rfl⟩ := h01.resolve_left (by omega)
      simp [e, WRow.pull, rows0]
    · cases r1 <;> simp [e, rows0]
  rintro p1 s2 ⟨⟨src1, hp1⟩, hdir1, hrows2, hfr2⟩
  have hcnt1 : p1.count = K1.length := by rw [hp1]; exact h1.count.1
  have hlo1 : p1.lo = pos i1 := by rw [hp1]; exact h1.count.2
  have hhi1' : p1.hi = pos (i1 + 1) := by rw [hp1]; exact hhi1
  generalize hρb : (fun j => if j = i1 then (ρ1 i1).pull r1 K1 rest1 else ρ1 j) = ρ at *
  have hρ2 : ∀ j, (if j = i1 then (ρ1 i1).pull r1 K1 rest1 else ρ1 j) = ρ j := fun j => congrFun hρb j
  simp only [hρ2] at hrows2
  have hr : ∀ j, j < m → RowOk lt (X j) (Y j) (ρ j) := by
    intro j hj
    rw [← hρ2]
    by_cases e : j = i1
    · subst e; rw [if_pos rfl]; exact h1.ok hlt g hj (hr1 j hj)
    · rw [if_neg e]; exact hr1 j hj
  have hkl : ∀ j, (ρ j).kl = (if j = i0 ∧ r0 = false then K0 else if j = i1 ∧ r1 = false then K1 else []) ∧
      (ρ j).kr = (if j = i0 ∧ r0 = true then K0 else if j = i1 ∧ r1 = true then K1 else []) := by
    intro j
    rw [← hρ2, ← hρ1, ← hρ1]
    rcases h01 with h | ⟨rfl, rfl, rfl⟩
    · by_cases e : j = i0
      · subst e
        rw [if_neg (show j ≠ i1 by omega), if_pos rfl]
        cases r0 <;> simp [WRow.pull, rows0] <;> intro e1 <;> omega
      · by_cases e1 : j = i1
        · subst e1
          rw [if_pos rfl, if_neg e]
          cases r1 <;> simp [WRow.pull, rows0, e]
        · simp [e, e1, rows0]
    · by_cases e : j = i0
      · simp [e, WRow.pull, rows0]
      · simp [e, rows0]
  have hK0i : (if r0 then (ρ i0).kr else (ρ i0).kl) = K0 := by
    rw [(hkl i0).1, (hkl i0).2]; cases r0 <;> simp
  have hK1i : (if r1 then (ρ i1).kr else (ρ i1).kl) = K1 := by
    rw [(hkl i1).1, (hkl i1).2]
    rcases h01 with h | ⟨rfl, rfl, rfl⟩
    · have : i1 ≠ i0 := by omega
      cases r1 <;> simp [this]
    · simp
  have hkll : ∀ j, (ρ j).kl.length = pullL r0 i0 K0.length j + pullL r1 i1 K1.length j ∧ (ρ j).kr.length = pullR r0 i0 K0.length j + pullR r1 i1 K1.length j := by
    intro j
    rw [(hkl j).1, (hkl j).2]
    unfold pullL pullR
    have hx : ¬ (j = i0 ∧ j = i1 ∧ r0 = r1) := by
      rintro ⟨rfl, rfl, rfl⟩
      rcases h01 with h | ⟨-, rfl, h⟩
      · omega
      · cases h
    refine ⟨?_, ?_⟩
    · split
      · rename_i h2
        rw [if_neg (show ¬ (j = i1 ∧ r1 = false) from fun h3 => hx ⟨h2.1, h3.1, by rw [h2.2, h3.2]⟩)]; rfl
      · split <;> simp
    · split
      · rename_i h2
        rw [if_neg (show ¬ (j = i1 ∧ r1 = true) from fun h3 => hx ⟨h2.1, h3.1, by rw [h2.2, h3.2]⟩)]; rfl
      · split <;> simp
  obtain ⟨u1, u2, u3, u4⟩ := pullPos_of g hi0 hr hK0i hrows2
  obtain ⟨v1, v2, v3, v4⟩ := pullPos_of g hi1 hr hK1i hrows2
  have hb1s : st.b1.start = pullPos pos r0 i0 K0 := by rw [hb1]
  have hb2s : st.b2.start = pullPos pos r1 i1 K1 := by rw [hb2]
  have hb1l : st.b1.stop - st.b1.start = K0.length := by rw [hb1]; simp only []; omega
  have hb2l : st.b2.stop = st.b2.start + K1.length := by rw [hb2]
  have hb12 : pullPos pos r0 i0 K0 + K0.length ≤ pullPos pos r1 i1 K1 := by
    rcases h01 with h | ⟨rfl, rfl, rfl⟩
    · have := g.mono (show i0 + 1 ≤ i1 from h) (by omega); omega
    · have hs3 := (hr i0 hi0).size g hi0
      simp only [WRow.tri, List.length_append] at hs3
      have := u1 i0 hi0
      have e1 := hkl i0
      simp at e1
      rw [e1.1, e1.2] at hs3
      simp only [pullPos, Bool.false_eq_true, if_false, if_true]; omega
  have hlive2 : ∀ q, cache ≤ q → q < cache + cs → Live s2.cell q := fun q v w =>
    ((hlive q v w).same (hfr.cell q (by omega))).same (hfr2.cell q (by omega))
  apply wp_bind
  rw [hb1l, hdec, hit, hb1s]
  refine wp_divC (by omega) ?_
  rw [← bind_assoc]
  apply wp_bind
  refine wp_mono (wikiMid_spec hlt c g hN ht hm hp hq hr (cache := cache) (cs := cs) (b2 := st.b2) (K1 := K0) (K2 := K1) (p0 := p0) (p1 := p1) (s := s2)
    (List.ne_nil_of_length_pos (by omega)) hb2l (.inr (by rw [hK1]; exact wbuf_big (by omega) hK0)) h0.strict h1.strict hcache u1 (by rw [hb2s]; exact v1) (by omega)
    (by rw [hb2s]; omega) (.inl (by rw [hb2s]; exact hb12)) ?_ hrows2 u2 (by rw [hb2s]; exact v2) hlive2) ?_
  · intro j hj
    have hrj := hr j hj
    have e1 := hrj.lenX
    have e2 := hrj.lenY
    have e3 := g.hmid j hj
    have e4 := g.hpos j hj
    have e5 := g.lenX j hj
    have e6 := g.lenY j hj
    obtain ⟨e7, e8⟩ := hkll j
    have := trim_both (p0 := p0) (p1 := p1) (start := pos j) (a := pos j) (b := mid j) (e := pos (j + 1)) (l1 := pullL r1 i1 p1.count j)
      (r1 := pullR r1 i1 p1.count j) (l0 := pullL r0 i0 p0.count j) (r0 := pullR r0 i0 p0.count j)
      (by rw [hcnt0, hcnt1]; omega) (by rw [hcnt0, hcnt1]; omega) (trim_uni g hi0 hlo0 hdir0 hj (by omega) (by omega))
      (fun a' e' n1 n2 => trim_uni g hi1 hlo1 hdir1 hj n1 n2)
    rw [this, hcnt0, hcnt1, ← e7, ← e8]
    have e9 : ((ρ j).A = [] ∨ (ρ j).B = []) ↔ (pos j + (ρ j).kl.length = mid j ∨ pos (j + 1) - (ρ j).kr.length = mid j) := by
      rw [← List.length_eq_zero_iff, ← List.length_eq_zero_iff]; omega
    rw [if_congr e9 rfl rfl]
  · rintro _ s3 ⟨w1, w2⟩
    have hr0 := hr i0 hi0
    have hri1 := hr i1 hi1
    have hsz : ∀ j, j < m → pos j + (((ρ j).done lt).kl.length + (((ρ j).done lt).W.length + ((ρ j).done lt).kr.length)) = pos (j + 1) := by
      intro j hj
      have := (hr j hj).size g hj
      simp only [WRow.done, WRow.tri, (mergeL_perm (ρ j).A (ρ j).B).length_eq] at *
      exact this
    apply wp_bind
    refine wp_mono (wikiSpread_rows hlt c g (right := r0) (i := i0) hi0 hsz hdir0 hlo0 ?_ ?_ ?_ (mergeL_ssorted hlt _ _ hr0.oA hr0.oB).2.1 ?_ w1) ?_
    · rw [hcnt0]
      show _ = (if r0 then (ρ i0).kr else (ρ i0).kl).length
      rw [hK0i]
    · rw [hhi0']
      show _ = if r0 = true then pos (i0 + 1) else pos (i0 + 1) - (ρ i0).kr.length
      rw [(hkl i0).2]
      rcases h01 with h | ⟨rfl, rfl, rfl⟩
      · have : i0 ≠ i1 := by omega
        cases r0 <;> simp [this]
      · simp
    · intro e; subst e
      show (ρ i0).kl = []
      rw [(hkl i0).1]
      have h : i0 < i1 := h01.resolve_right (by simp)
      simp; intro; omega
    · show SortedList lt (if r0 then (ρ i0).kr else (ρ i0).kl)
      rw [hK0i]; exact h0.strict.sorted hlt
    rintro _ s4 ⟨x1, x2⟩
    have hσ1 : ∀ j, (if j = i0 then ((ρ i0).done lt).spread lt r0 else (ρ j).done lt) =
        if j = i0 then (if r0 then ⟨[], mergeL lt (mergeL lt (ρ i0).A (ρ i0).B) (ρ i0).kr, []⟩
          else ⟨[], mergeL lt (ρ i0).kl (mergeL lt (ρ i0).A (ρ i0).B), (ρ i0).kr⟩) else (ρ j).done lt := fun _ => rfl
    -- the second spread
    have hW1 : ∀ j, j < m → SortedList lt (if j = i0 then ((ρ i0).done lt).spread lt r0 else (ρ j).done lt).W := by
      intro j hj
      by_cases e : j = i0
      · subst e
        rw [if_pos rfl]
        unfold WTri.spread
        have hd := (mergeL_ssorted hlt _ _ hr0.oA hr0.oB).2.1
        cases r0
        · exact (mergeL_ssorted hlt _ _ (hr0.okl.sorted hlt) hd).2.1
        · exact (mergeL_ssorted hlt _ _ hd (hr0.okr.sorted hlt)).2.1
      · rw [if_neg e]
        exact (mergeL_ssorted hlt _ _ (hr j hj).oA (hr j hj).oB).2.1
    have hkl1 : (if i1 = i0 then ((ρ i0).done lt).spread lt r0 else (ρ i1).done lt).kl = if i1 = i0 then [] else (ρ i1).kl := by
      by_cases e : i1 = i0
      · rw [if_pos e, if_pos e]; unfold WTri.spread; cases r0 <;> rfl
      · rw [if_neg e, if_neg e]; rfl
    have hkr1 : (if i1 = i0 then ((ρ i0).done lt).spread lt r0 else (ρ i1).done lt).kr = (ρ i1).kr := by
      rcases h01 with h | ⟨rfl, rfl, rfl⟩
      · rw [if_neg (by omega)]; rfl
      · rw [if_pos rfl]; rfl
    have hsz1 : ∀ j, j < m → pos j + ((if j = i0 then ((ρ i0).done lt).spread lt r0 else (ρ j).done lt).kl.length +
        ((if j = i0 then ((ρ i0).done lt).spread lt r0 else (ρ j).done lt).W.length +
        (if j = i0 then ((ρ i0).done lt).spread lt r0 else (ρ j).done lt).kr.length)) = pos (j + 1) := by
      intro j hj
      by_cases e : j = i0
      · subst e
        have := hsz j hj
        rw [if_pos rfl]
        have h3 : r0 = true → (ρ j).kl = [] := by
          intro e; subst e
          rw [(hkl j).1]
          have h : j < i1 := h01.resolve_right (by simp)
          simp; intro; omega
        unfold WTri.spread
        cases r0
        · simp only [WRow.done, Bool.false_eq_true, if_false, List.length_nil, (mergeL_perm (ρ j).kl (mergeL lt (ρ j).A (ρ j).B)).length_eq, List.length_append] at *
          omega
        · simp only [WRow.done, if_true, List.length_nil, (mergeL_perm (mergeL lt (ρ j).A (ρ j).B) (ρ j).kr).length_eq, List.length_append, h3 rfl] at *
          omega
      · rw [if_neg e]; exact hsz j hj
    have hsel : (if r1 = true then (if i1 = i0 then ((ρ i0).done lt).spread lt r0 else (ρ i1).done lt).kr
        else (if i1 = i0 then ((ρ i0).done lt).spread lt r0 else (ρ i1).done lt).kl) = K1 := by
      rw [hkl1, hkr1]
      rw [← hK1i]
      rcases h01 with h | ⟨rfl, rfl, rfl⟩
      · rw [if_neg (show i1 ≠ i0 by omega)]
      · rfl
    refine wp_mono (wikiSpread_rows hlt c g (right := r1) (i := i1) hi1 hsz1 hdir1 hlo1 ?_ ?_ ?_ (hW1 i1 hi1) ?_ x1) ?_
    · rw [hcnt1, hsel]
    · rw [hhi1', hkr1]
      cases r1 with
      | true => rfl
      | false =>
        have h : i0 < i1 := h01.resolve_right (by simp)
        have : i1 ≠ i0 := by omega
        rw [(hkl i1).2]
        simp [this]
    · intro e; subst e
      rw [hkl1]
      split
      · rfl
      · rename_i e; rw [(hkl i1).1]; simp [e]
    · rw [hsel]; exact h1.strict.sorted hlt
    rintro _ s5 ⟨y1, y2⟩
    refine ⟨fun j hj => ?_, ?_⟩
    · have h2 := y1 j hj
      rw [← (hr j hj).merge hlt]
      have hk := hkl j
      by_cases e1 : j = i1
      · subst e1
        simp only [if_true] at h2
        rcases h01 with h | ⟨rfl, rfl, rfl⟩
        · rw [if_neg (show j ≠ i0 by omega)] at h2
          have hne : j ≠ i0 := by omega
          cases r1
          · simp [hne] at hk
            simpa [WTri.spread, WRow.done, hk] using h2
          · simp [hne] at hk
            simpa [WTri.spread, WRow.done, hk] using h2
        · simpa [WTri.spread, WRow.done] using h2
      · simp only [if_neg e1] at h2
        by_cases e0 : j = i0
        · subst e0
          rw [if_pos rfl] at h2
          cases r0
          · simp [e1] at hk
            simpa [WTri.spread, WRow.done, hk] using h2
          · simp [e1] at hk
            simpa [WTri.spread, WRow.done, hk] using h2
        · rw [if_neg e0] at h2
          simp [e0, e1] at hk
          simpa [WRow.done, hk] using h2
    · have hl1 : ∀ q, cache ≤ q → q < cache + cs → Live s1.cell q := fun q v w => (hlive q v w).same (hfr.cell q (by omega))
      have f1 := (hfr.mono (f := first) (l := pos m) (by omega) (by omega)).g (by omega) hlive
      have f2 := (hfr2.mono (f := first) (l := pos m) (by omega) (by omega)).g (by omega) hl1
      have f4 := (x2.mono (f := first) (l := pos m) (by omega) (by omega)).g (by omega) w2.live
      have f5 := (y2.mono (f := first) (l := pos m) (by omega) (by omega)).g (by omega) f4.live
      exact f1.trans (f2.trans (w2.trans (f4.trans f5)))

theorem wikiRest_flat (hlt : StrictWeak lt) (c : Cfg) (g : Geo lt first len m pos mid X Y) {N t : Nat} (hN : 0 < N) (ht : 0 < t) (hm : 0 < m)
    (hp : ∀ i, i ≤ m → pos i = first + wcut N (2 * m) (2 * i)) (hq : ∀ i, i < m → mid i = first + wcut N (2 * m) (2 * i + 1)) {cache cs : Nat}
    (hcache : cache + cs ≤ first ∨ pos m ≤ cache) {it : WIter} (hit : it.begin = iterAt N t (2 * m) 0) (hdec : it.decStep = len) {st : WSearch} {s : St α}
    (hs : ∀ i, i < m → Seg s.cell (pos i) (X i ++ Y i)) (hlive : ∀ i, cache ≤ i → i < cache + cs → Live s.cell i)
    (hX : ∀ i, i < m → ∀ x ∈ X i, ∀ y ∈ X i, lt x y = false) (hY : ∀ i, i < m → ∀ x ∈ Y i, ∀ y ∈ Y i, lt x y = false) (h0 : st.p0.src = st.p0.dst)
      (h1 : st.p1.count = 0) (hb1 : st.b1 = ⟨first, first + 1⟩) (hb2 : st.b2 = ⟨first, first⟩) :
    wp (wikiRest lt c cache cs first it st) (fun _ s' => (∀ i, i < m → Seg s'.cell (pos i) (mergeL lt (X i) (Y i))) ∧ GFrame first (pos m) cache cs s s') s := by
  have hz := g.zero
  have hz' := g.mono (Nat.zero_le m) (Nat.le_refl m)
  have hlen := g.hlen
  unfold wikiRest
  apply wp_bind
  have e0 : wikiPull (tick lt) c st.p0 = pure st.p0 := by unfold wikiPull; rw [if_neg (by omega), if_neg (by omega)]
  rw [e0]
  refine wp_pure ?_
  apply wp_bind
  refine wp_mono (wikiPull_zero c h1) ?_
  rintro p1 s1 ⟨rfl, rfl⟩
  apply wp_bind
  have hb1l : st.b1.stop - st.b1.start = 1 := by rw [hb1]; simp only []; omega
  rw [hb1l, hdec, hit]
  refine wp_divC (by omega) ?_
  rw [← bind_assoc]
  apply wp_bind
  refine wp_mono (wikiLoop_spec hlt c g hN ht hm hp hq (ρ := rows0 X Y) (rows0_ok g) (w := ⟨cache, cs, len / 1 + 1, st.b2⟩) (K2 := []) (b1 := st.b1.start) (p0 := st.p0)
    (p1 := st.p1) (s := s1) ⟨by rw [hb2]; rfl, by rw [hb2]; simp only [List.length_nil]; omega, Nat.succ_pos _, .inl rfl⟩ List.Pairwise.nil hcache ?_ ?_ ?_ ?_ Seg.nil hlive ?_) ?_
  · intro j hj
    have := g.mono (Nat.zero_le j) (show j ≤ m by omega)
    rw [hb2]; simp only [List.length_nil]; omega
  · rw [hb2]; simp only [List.length_nil]; omega
  · intro j hj
    have e3 := g.hmid j hj
    have e4 := g.hpos j hj
    have e5 := g.lenX j hj
    have e6 := g.lenY j hj
    have : st.p0.trim (pos j) (pos j, mid j, pos (j + 1)) = some (pos j, mid j, pos (j + 1)) := by
      unfold WPull.trim
      rw [h0]; simp
    rw [this]
    show st.p1.trim (pos j) (pos j, mid j, pos (j + 1)) = _
    rw [trim_zero h1 (by omega) (by omega), if_neg]
    · rfl
    · rw [← List.length_eq_zero_iff, ← List.length_eq_zero_iff]
      simp only [rows0]; omega
  · intro j hj; simpa [rows0, WRow.tri] using hs j hj
  · intro j hj hA hB s2 _ hap sAB hidle
    have e3 := g.hmid j hj
    have e4 := g.hpos j hj
    refine wikiMerge_of hlt c hap (by simp [rows0]; omega) (by simp [rows0]; omega) hA hB (g.oX j hj) (g.oY j hj) sAB hidle ?_
    intro n1 n2
    exfalso
    have m1 := hX j hj _ (List.getLast_mem hA) _ (List.head_mem hA)
    have m1' := hX j hj _ (List.head_mem hA) _ (List.getLast_mem hA)
    have m2 := hY j hj _ (List.getLast_mem hB) _ (List.head_mem hB)
    have m2' := hY j hj _ (List.head_mem hB) _ (List.getLast_mem hB)
    have m3 := hlt.lt_of_lt_of_le (hlt.lt_of_le_of_lt m2' n2) m1'
    rw [n1] at m3; cases m3
  · rintro _ s2 ⟨v1, v2⟩
    apply wp_bind
    have e1 : wikiSpread (tick lt) c st.p0 = pure () := by unfold wikiSpread; rw [if_neg (by omega), if_neg (by omega)]
    rw [e1]
    refine wp_pure ?_
    refine wp_mono (wikiSpread_zero c h1) ?_
    rintro _ s2 rfl
    refine ⟨fun j hj => ?_, v2⟩
    have h2 := v1 j hj
    rw [← (rows0_ok g j hj).merge hlt]
    simpa [WRow.done, rows0] using h2

theorem wikiRest_spec (hlt : StrictWeak lt) (c : Cfg) (g : Geo lt first len m pos mid X Y) {N t : Nat} (hN : 0 < N) (ht : 0 < t) (hm : 0 < m)
    (hp : ∀ i, i ≤ m → pos i = first + wcut N (2 * m) (2 * i)) (hq : ∀ i, i < m → mid i = first + wcut N (2 * m) (2 * i + 1)) {cache cs : Nat}
    (hcache : cache + cs ≤ first ∨ pos m ≤ cache) {it : WIter} (hit : it.begin = iterAt N t (2 * m) 0) (hdec : it.decStep = len) {st : WSearch} {s : St α}
    (hs : ∀ i, i < m → Seg s.cell (pos i) (X i ++ Y i)) (hlive : ∀ i, cache ≤ i → i < cache + cs → Live s.cell i)
    (hf : Found lt first len m pos mid X Y st) :
    wp (wikiRest lt c cache cs first it st) (fun _ s' => (∀ i, i < m → Seg s'.cell (pos i) (mergeL lt (X i) (Y i))) ∧ GFrame first (pos m) cache cs s s') s := by
  cases hf with
  | flat a1 a2 a3 a4 a5 a6 => exact wikiRest_flat hlt c g hN ht hm hp hq hcache hit hdec hs hlive a1 a2 a3 a4 a5 a6
  | one a1 a2 a3 a4 a5 a6 a7 a8 => exact wikiRest_one hlt c g hN ht hm hp hq hcache hit hdec hs hlive a1 a2 a3 a4 a5 a6 a7 a8
  | two a1 a2 a3 a4 a5 a6 a7 a8 a9 a10 a11 => exact wikiRest_two hlt c g hN ht hm hp hq hcache hit hdec hs hlive a1 a2 a3 a4 a5 a6 a7 a8 a9 a10 a11

end
end CppSort
