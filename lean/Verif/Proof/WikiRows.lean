import Verif.Proof.WikiPull
import Verif.Proof.WikiPair
import Verif.Proof.WikiIter
import Verif.Proof.GrailMain
/-
wiki_sort.h 661-905: a level of merges in place, once the buffers are found.
-/
set_option autoImplicit false

namespace CppSort
variable {α : Type} {lt : α → α → Bool}

/-- The pairs of ranges of a level. -/
structure Geo (lt : α → α → Bool) (first len m : Nat) (pos mid : Nat → Nat) (X Y : Nat → List α) : Prop where
  zero : pos 0 = first
  hmid : ∀ i, i < m → mid i = pos i + (X i).length
  hpos : ∀ i, i < m → pos (i + 1) = mid i + (Y i).length
  lenX : ∀ i, i < m → len ≤ (X i).length ∧ (X i).length ≤ len + 1
  lenY : ∀ i, i < m → len ≤ (Y i).length ∧ (Y i).length ≤ len + 1
  oX : ∀ i, i < m → SortedList lt (X i)
  oY : ∀ i, i < m → SortedList lt (Y i)
  hlen : 4 ≤ len

theorem Geo.mono {first len m : Nat} {pos mid : Nat → Nat} {X Y : Nat → List α} (g : Geo lt first len m pos mid X Y) {i j : Nat} (h : i ≤ j) (hj : j ≤ m) :
    pos i ≤ pos j := by
  induction j with
  | zero => rw [show i = 0 by omega]
  | succ j ih =>
    by_cases e : i = j + 1
    · rw [e]
    · have := ih (by omega) (by omega)
      have h1 := g.hmid j (by omega)
      have h2 := g.hpos j (by omega)
      omega

theorem Geo.strict {first len m : Nat} {pos mid : Nat → Nat} {X Y : Nat → List α} (g : Geo lt first len m pos mid X Y) {i j : Nat} (h : i < j) (hj : j ≤ m) :
    pos i < pos j := by
  have := g.mono (show i + 1 ≤ j from h) hj
  have h1 := g.hmid i (by omega)
  have h2 := g.hpos i (by omega)
  have h3 := g.lenX i (by omega)
  have h4 := g.hlen
  omega

theorem Geo.inj {first len m : Nat} {pos mid : Nat → Nat} {X Y : Nat → List α} (g : Geo lt first len m pos mid X Y) {i j : Nat} (hi : i < m) (hj : j < m)
    (h : pos i = pos j) : i = j := by
  rcases Nat.lt_trichotomy i j with h1 | h1 | h1
  · have := g.strict h1 (by omega); omega
  · exact h1
  · have := g.strict h1 (by omega); omega

/-- A pair of ranges: the values pulled out to the left, the others, the values pulled out to the right. -/
structure WRow (α : Type) where
  kl : List α
  A : List α
  B : List α
  kr : List α

structure RowOk (lt : α → α → Bool) (X Y : List α) (r : WRow α) : Prop where
  left : mergeL lt r.kl r.A = X
  right : mergeL lt r.B r.kr = Y
  oA : SortedList lt r.A
  oB : SortedList lt r.B
  okl : StrictList lt r.kl
  okr : StrictList lt r.kr

theorem RowOk.lenX {X Y : List α} {r : WRow α} (h : RowOk lt X Y r) : X.length = r.kl.length + r.A.length := by
  rw [← h.left, (mergeL_perm _ _).length_eq, List.length_append]

theorem RowOk.lenY {X Y : List α} {r : WRow α} (h : RowOk lt X Y r) : Y.length = r.B.length + r.kr.length := by
  rw [← h.right, (mergeL_perm _ _).length_eq, List.length_append]

/-- Merging the values back gives the merged ranges. -/
theorem RowOk.merge (hlt : StrictWeak lt) {X Y : List α} {r : WRow α} (h : RowOk lt X Y r) :
    mergeL lt (mergeL lt r.kl (mergeL lt r.A r.B)) r.kr = mergeL lt X Y := by
  rw [← h.left, ← h.right]
  have h1 := ssort_of_sorted hlt (h.okl.sorted hlt)
  have h2 := ssort_of_sorted hlt (h.okr.sorted hlt)
  have h3 := ssort_of_sorted hlt h.oA
  have h4 := ssort_of_sorted hlt h.oB
  generalize r.kl = a at *
  generalize r.kr = d at *
  generalize r.A = b at *
  generalize r.B = c at *
  rw [← h1, ← h2, ← h3, ← h4]
  simp only [ssort_merge hlt, List.append_assoc]

/-- The values in place: the left ones, the middle, the right ones. -/
structure WTri (α : Type) where
  kl : List α
  W : List α
  kr : List α

def WRow.tri (r : WRow α) : WTri α := ⟨r.kl, r.A ++ r.B, r.kr⟩

def WRow.done (lt : α → α → Bool) (r : WRow α) : WTri α := ⟨r.kl, mergeL lt r.A r.B, r.kr⟩

def RowsAt (m : Nat) (pos : Nat → Nat) (σ : Nat → WTri α) (c : Nat → Cell α) : Prop := ∀ i, i < m → Seg c (pos i) ((σ i).kl ++ ((σ i).W ++ (σ i).kr))

def WRow.pull (r : WRow α) (right : Bool) (K rest : List α) : WRow α := if right then ⟨r.kl, r.A, rest, K⟩ else ⟨K, rest, r.B, r.kr⟩

/-- Values to be pulled out of the pair `i`. -/
inductive PullOf (lt : α → α → Bool) (pos mid : Nat → Nat) (X Y : Nat → List α) : Bool → Nat → WPull → List α → List α → Prop
  | left {i hi : Nat} {P K R T : List α} {x : α} (hX : X i = P ++ x :: T) (hH : Heads lt P K R) (hP : ∀ z ∈ P, lt z x = true) :
      PullOf lt pos mid X Y false i ⟨pos i + P.length, pos i, K.length + 1, pos i, hi⟩ (K ++ [x]) (R ++ T)
  | right {i hi : Nat} {Q K R T : List α} {x : α} (hY : Y i = T ++ x :: Q) (hH : Tails lt Q K R) (hQ : ∀ z ∈ Q, lt x z = true) :
      PullOf lt pos mid X Y true i ⟨mid i + T.length, pos (i + 1), K.length + 1, pos i, hi⟩ (x :: K) (T ++ R)

/-- Where the values will be. -/
def pullPos (pos : Nat → Nat) (right : Bool) (i : Nat) (K : List α) : Nat := if right then pos (i + 1) - K.length else pos i

/-- The direction of a pull. -/
def PullDir (right : Bool) (p : WPull) : Prop := if right then p.src < p.dst else p.dst < p.src

section
variable {first len m : Nat} {pos mid : Nat → Nat} {X Y : Nat → List α}

theorem PullOf.count {right : Bool} {i : Nat} {p : WPull} {K rest : List α} (h : PullOf lt pos mid X Y right i p K rest) : p.count = K.length ∧ p.lo = pos i := by
  cases h with
  | left => simp
  | right => simp

theorem PullOf.strict {right : Bool} {i : Nat} {p : WPull} {K rest : List α} (h : PullOf lt pos mid X Y right i p K rest) : StrictList lt K := by
  cases h with
  | left hX hH hP => exact (Heads.snoc (E := []) hH hP (by simp)).strict
  | right hX hH hP => exact (Tails.cons (E := []) hH hP (by simp)).strict

theorem PullOf.ok (hlt : StrictWeak lt) (g : Geo lt first len m pos mid X Y) {right : Bool} {i : Nat} {p : WPull} {K rest : List α}
    (h : PullOf lt pos mid X Y right i p K rest) (hi : i < m) {r : WRow α} (hr : RowOk lt (X i) (Y i) r) : RowOk lt (X i) (Y i) (r.pull right K rest) := by
  have hs := h.strict
  cases h with
  | @left _ _ P K R T x hX hH hP =>
    obtain ⟨oP, oxT, oPT⟩ := sortedList_append.1 (by have := g.oX i hi; rw [hX] at this; exact this)
    obtain ⟨hxT, oT⟩ := sortedList_cons.1 oxT
    refine ⟨?_, hr.right, ?_, hr.oB, hs, hr.okr⟩
    · show mergeL lt (K ++ [x]) (R ++ T) = X i
      rw [mergeL_split, hH.merge hlt, mergeL_before, hX]
      · rfl
      · intro a ha b hb; rw [List.mem_singleton] at ha; subst ha; exact hxT b hb
      · intro a ha b hb; rw [List.mem_singleton] at hb; subst hb; exact hP a (hH.sublist.2.subset ha)
      · intro a ha b hb; exact oPT a (hH.sublist.1.subset ha) b (by simp [hb])
    · exact sortedList_append.2 ⟨oP.sublist hH.sublist.2, oT, fun a ha b hb => oPT a (hH.sublist.2.subset ha) b (by simp [hb])⟩
  | @right _ _ Q K R T x hY hH hQ =>
    obtain ⟨oT, oxQ, oTQ⟩ := sortedList_append.1 (by have := g.oY i hi; rw [hY] at this; exact this)
    obtain ⟨hxQ, oQ⟩ := sortedList_cons.1 oxQ
    refine ⟨hr.left, ?_, hr.oA, ?_, hr.okl, hs⟩
    · show mergeL lt (T ++ R) (x :: K) = Y i
      rw [show x :: K = [x] ++ K from rfl, mergeL_split, hH.merge hlt, mergeL_before, hY]
      · simp
      · intro a ha b hb; rw [List.mem_singleton] at hb; subst hb; exact oTQ a ha _ (by simp)
      · intro a ha b hb; rw [List.mem_singleton] at ha; subst ha; exact hQ b (hH.sublist.2.subset hb)
      · intro a ha b hb; exact oTQ a ha b (by simp [hH.sublist.1.subset hb])
    · exact sortedList_append.2 ⟨oT, oQ.sublist hH.sublist.2, fun a ha b hb => oTQ a ha b (by simp [hH.sublist.2.subset hb])⟩

/-- One pair changes. -/
theorem RowsAt.set (g : Geo lt first len m pos mid X Y) {σ : Nat → WTri α} {i : Nat} {τ : WTri α} {s s' : St α} (hi : i < m)
    (hl : ∀ j, j < m → pos j + ((σ j).kl.length + ((σ j).W.length + (σ j).kr.length)) = pos (j + 1))
    (h : RowsAt m pos σ s.cell) (hf : Frame (pos i) (pos (i + 1)) s s') (hs : Seg s'.cell (pos i) (τ.kl ++ (τ.W ++ τ.kr))) :
    RowsAt m pos (fun j => if j = i then τ else σ j) s'.cell := by
  intro j hj
  by_cases e : j = i
  · subst e
    simp only [if_true]
    exact hs
  · simp only [if_neg e]
    refine (h j hj).congr fun q u v => hf.cell q ?_
    have h1 := hl j hj
    simp only [List.length_append] at v
    rcases Nat.lt_or_gt_of_ne e with e | e
    · have := g.mono (show j + 1 ≤ i from e) (by omega); omega
    · have := g.mono (show i + 1 ≤ j from e) (by omega); omega

theorem RowOk.size (g : Geo lt first len m pos mid X Y) {i : Nat} (hi : i < m) {r : WRow α} (hr : RowOk lt (X i) (Y i) r) :
    pos i + (r.tri.kl.length + (r.tri.W.length + r.tri.kr.length)) = pos (i + 1) := by
  have h1 := hr.lenX
  have h2 := hr.lenY
  have h3 := g.hmid i hi
  have h4 := g.hpos i hi
  simp only [WRow.tri, List.length_append]; omega

theorem wikiPull_rows (hlt : StrictWeak lt) (c : Cfg) (g : Geo lt first len m pos mid X Y) {right : Bool} {i : Nat} {p : WPull} {K rest : List α} {ρ : Nat → WRow α}
    {s : St α} (h : PullOf lt pos mid X Y right i p K rest) (hi : i < m) (hr : ∀ j, j < m → RowOk lt (X j) (Y j) (ρ j)) (hK : 2 ≤ K.length)
    (hfree : if right then (ρ i).kr = [] else (ρ i).kl = []) (hs : RowsAt m pos (fun j => (ρ j).tri) s.cell) :
    wp (wikiPull (tick lt) c p) (fun p' s' => (∃ src, p' = { p with src := src }) ∧ PullDir right p' ∧
      RowsAt m pos (fun j => (if j = i then (ρ i).pull right K rest else ρ j).tri) s'.cell ∧ Frame (pos i) (pos (i + 1)) s s') s := by
  have hs0 := hs i hi
  have hri := hr i hi
  have hm := g.hmid i hi
  have hp := g.hpos i hi
  have hlX := hri.lenX
  have hlY := hri.lenY
  have hl := fun j (hj : j < m) => (hr j hj).size g hj
  have hset : ∀ s' : St α, Frame (pos i) (pos (i + 1)) s s' → Seg s'.cell (pos i) (((ρ i).pull right K rest).tri.kl ++ (((ρ i).pull right K rest).tri.W ++
      ((ρ i).pull right K rest).tri.kr)) → RowsAt m pos (fun j => (if j = i then (ρ i).pull right K rest else ρ j).tri) s'.cell := by
    intro s' h1 h2
    have := hs.set g hi hl h1 h2
    intro j hj
    have h3 := this j hj
    by_cases e : j = i
    · simpa [e] using h3
    · simpa [e] using h3
  cases h with
  | @left _ hi' P K R T x hX hH hP =>
    have hkl : (ρ i).kl = [] := hfree
    have hA : (ρ i).A = X i := by have := hri.left; rwa [hkl, mergeL_nil_left] at this
    have hPl := hH.length
    simp only [List.length_append, List.length_singleton] at hK
    have hX' := congrArg List.length hX
    simp only [List.length_append, List.length_cons] at hX'
    simp only [WRow.tri, hkl, hA, hX] at hs0
    rw [show ([] : List α) ++ (P ++ x :: T ++ (ρ i).B ++ (ρ i).kr) = (P ++ [x]) ++ (T ++ ((ρ i).B ++ (ρ i).kr)) by simp, seg_append, List.length_append,
      List.length_singleton] at hs0
    unfold wikiPull
    rw [if_pos (by simp only []; omega)]
    apply wp_bind
    refine wp_mono (wikiPullLeft_spec hlt c hH (length := K.length + 1) [x] (pos i + P.length) (pos i + P.length) s (by simp)
      (sortedList_append.1 (by have := g.oX i hi; rw [hX] at this; exact this)).1 rfl rfl rfl hs0.1) ?_
    rintro r s1 ⟨r1, r2, r3⟩
    have r3c := r3.cell
    simp only [List.length_singleton] at r3c
    have r4 := r3.mono (f := pos i) (l := pos (i + 1)) (Nat.le_refl _) (by simp; omega)
    refine wp_pure ⟨⟨r, rfl⟩, ?_, hset s1 r4 ?_, r4⟩
    · show pos i < r
      change r + 1 = pos i + (K.length + 1) at r1
      omega
    · simp only [WRow.pull, WRow.tri, Bool.false_eq_true, if_false]
      rw [show K ++ [x] ++ (R ++ T ++ (ρ i).B ++ (ρ i).kr) = (K ++ [x] ++ R) ++ (T ++ ((ρ i).B ++ (ρ i).kr)) by simp, seg_append]
      refine ⟨r2, ?_⟩
      simp only [List.length_append, List.length_singleton]
      rw [show pos i + (K.length + 1 + R.length) = pos i + (P.length + 1) by omega]
      exact hs0.2.congr fun q u v => r3c q (by omega)
  | @right _ hi' Q K R T x hY hH hQ =>
    have hkr : (ρ i).kr = [] := hfree
    have hB : (ρ i).B = Y i := by have := hri.right; rwa [hkr, mergeL_nil_right] at this
    have hQl := hH.length
    simp only [List.length_cons] at hK
    have hY' := congrArg List.length hY
    simp only [List.length_append, List.length_cons] at hY'
    simp only [WRow.tri, hkr, hB, hY] at hs0
    rw [show (ρ i).kl ++ ((ρ i).A ++ (T ++ x :: Q) ++ ([] : List α)) = ((ρ i).kl ++ ((ρ i).A ++ T)) ++ ([x] ++ Q) by simp, seg_append, List.length_append,
      List.length_append, show pos i + ((ρ i).kl.length + ((ρ i).A.length + T.length)) = mid i + T.length by omega] at hs0
    unfold wikiPull
    rw [if_neg (by simp only []; omega), if_pos (by simp only []; omega)]
    apply wp_bind
    refine wp_mono (wikiPullRight_spec hlt c hH (length := K.length + 1) (e := pos (i + 1)) [x] (mid i + T.length) (mid i + T.length + 1) s
      (sortedList_cons.1 (sortedList_append.1 (by have := g.oY i hi; rw [hY] at this; exact this)).2.1).2 rfl rfl (by omega) hs0.2) ?_
    rintro r s1 ⟨r1, r2, r3⟩
    have r3c := r3.cell
    have r4 := r3.mono (f := pos i) (l := pos (i + 1)) (by omega) (Nat.le_refl _)
    refine wp_pure ⟨⟨r, rfl⟩, ?_, hset s1 r4 ?_, r4⟩
    · show r < pos (i + 1)
      omega
    · simp only [WRow.pull, WRow.tri, if_true]
      rw [show (ρ i).kl ++ ((ρ i).A ++ (T ++ R) ++ x :: K) = ((ρ i).kl ++ ((ρ i).A ++ T)) ++ (R ++ ([x] ++ K)) by simp, seg_append, List.length_append,
        List.length_append, show pos i + ((ρ i).kl.length + ((ρ i).A.length + T.length)) = mid i + T.length by omega]
      refine ⟨hs0.1.congr fun q u v => r3c q ?_, r2⟩
      simp only [List.length_append] at v
      omega

/-- A pull of no values does nothing. -/
theorem wikiPull_zero (c : Cfg) {p : WPull} {s : St α} (h : p.count = 0) : wp (wikiPull (tick lt) c p) (fun p' s' => p' = p ∧ s' = s) s := by
  unfold wikiPull
  rw [h]
  split
  · apply wp_bind
    rw [wikiPullLeft, if_neg (by omega)]
    exact wp_pure (wp_pure ⟨by cases p; simp only [] at h; subst h; rfl, rfl⟩)
  · split
    · apply wp_bind
      rw [wikiPullRight, if_neg (by omega)]
      exact wp_pure (wp_pure ⟨by cases p; simp only [] at h; subst h; rfl, rfl⟩)
    · exact wp_pure ⟨rfl, rfl⟩

theorem wikiSpread_zero (c : Cfg) {p : WPull} {s : St α} (h : p.count = 0) : wp (wikiSpread (tick lt) c p) (fun _ s' => s' = s) s := by
  unfold wikiSpread
  rw [h]
  split
  · rw [wikiSpreadRight, if_neg (by omega)]
    exact wp_pure rfl
  · split
    · rw [wikiSpreadLeft, if_neg (by omega)]
      exact wp_pure rfl
    · exact wp_pure rfl

def WTri.spread (lt : α → α → Bool) (τ : WTri α) (right : Bool) : WTri α := if right then ⟨[], mergeL lt τ.W τ.kr, []⟩ else ⟨[], mergeL lt τ.kl τ.W, τ.kr⟩

theorem wikiSpread_rows (hlt : StrictWeak lt) (c : Cfg) (g : Geo lt first len m pos mid X Y) {right : Bool} {i : Nat} {p : WPull} {σ : Nat → WTri α}
    {s : St α} (hi : i < m) (hl : ∀ j, j < m → pos j + ((σ j).kl.length + ((σ j).W.length + (σ j).kr.length)) = pos (j + 1)) (hd : PullDir right p)
    (hlo : p.lo = pos i) (hc : p.count = (if right then (σ i).kr else (σ i).kl).length) (hhi : p.hi = if right then pos (i + 1) else pos (i + 1) - (σ i).kr.length)
    (hkl : right = true → (σ i).kl = []) (oW : SortedList lt (σ i).W) (oK : SortedList lt (if right then (σ i).kr else (σ i).kl))
    (hs : RowsAt m pos σ s.cell) :
    wp (wikiSpread (tick lt) c p) (fun _ s' => RowsAt m pos (fun j => if j = i then (σ i).spread lt right else σ j) s'.cell ∧ Frame (pos i) (pos (i + 1)) s s') s := by
  have hs0 := hs i hi
  have hl0 := hl i hi
  cases right with
  | false =>
    simp only [PullDir, Bool.false_eq_true, if_false] at hd hc hhi oK
    unfold wikiSpread
    rw [if_pos hd, hlo, hc, hhi]
    rw [← List.append_assoc, seg_append, List.length_append] at hs0
    refine wp_mono (wikiSpreadRight_spec hlt c (σ i).kl (σ i).W (pos i) (pos i + (σ i).kl.length) _ s oK oW rfl (by omega) rfl hs0.1) ?_
    rintro _ s1 ⟨r1, r2⟩
    have r2c := r2.cell
    have r3 := r2.mono (f := pos i) (l := pos (i + 1)) (Nat.le_refl _) (by omega)
    refine ⟨hs.set g hi hl r3 ?_, r3⟩
    simp only [WTri.spread, Bool.false_eq_true, if_false, List.nil_append]
    rw [seg_append, (mergeL_perm (σ i).kl (σ i).W).length_eq, List.length_append]
    exact ⟨r1, hs0.2.congr fun q u v => r2c q (by omega)⟩
  | true =>
    simp only [PullDir, if_true] at hd hc hhi oK
    have hkl := hkl rfl
    unfold wikiSpread
    rw [if_neg (by omega), if_pos hd, hlo, hc, hhi]
    rw [hkl, List.nil_append] at hs0
    rw [hkl, List.length_nil, Nat.zero_add] at hl0
    refine wp_mono (wikiSpreadLeft_spec hlt c _ (σ i).kr (σ i).W (pos (i + 1) - (σ i).kr.length) (pos (i + 1)) _ s rfl oK oW (by omega) (by omega) rfl hs0) ?_
    rintro _ s1 ⟨r1, r2⟩
    refine ⟨hs.set g hi hl r2 ?_, r2⟩
    simp only [WTri.spread, if_true, List.nil_append, List.append_nil]
    exact r1

/-- The loop over the pairs and the sort of the second buffer. -/
theorem wikiLoop_spec (hlt : StrictWeak lt) (c : Cfg) (g : Geo lt first len m pos mid X Y) {N t : Nat} (hN : 0 < N) (ht : 0 < t) (hm : 0 < m)
    (hp : ∀ i, i ≤ m → pos i = first + wcut N (2 * m) (2 * i)) (hq : ∀ i, i < m → mid i = first + wcut N (2 * m) (2 * i + 1)) {ρ : Nat → WRow α}
    (hr : ∀ j, j < m → RowOk lt (X j) (Y j) (ρ j)) {w : WMerge} {K2 : List α} {b1 : Nat} {p0 p1 : WPull} {s : St α} (hw : WOk w K2) (oK2 : StrictList lt K2)
    (hcache : w.cache + w.cs ≤ first ∨ pos m ≤ w.cache) (hb2 : ∀ i, i < m → w.b2.start + K2.length ≤ pos i + (ρ i).kl.length ∨ pos (i + 1) - (ρ i).kr.length ≤ w.b2.start)
    (hb2' : first ≤ w.b2.start ∧ w.b2.start + K2.length ≤ pos m)
    (htrim : ∀ i, i < m → (p0.trim (pos i) (pos i, mid i, pos (i + 1))).bind (p1.trim (pos i)) =
      if (ρ i).A = [] ∨ (ρ i).B = [] then none else some (pos i + (ρ i).kl.length, mid i, pos (i + 1) - (ρ i).kr.length))
    (hrows : RowsAt m pos (fun j => (ρ j).tri) s.cell) (sK2 : Seg s.cell w.b2.start K2) (hlive : ∀ i, w.cache ≤ i → i < w.cache + w.cs → Live s.cell i)
    (hmerge : ∀ i, i < m → (ρ i).A ≠ [] → (ρ i).B ≠ [] → ∀ s1 : St α,
      (∀ q, (∀ j, j < m → q < pos j + (ρ j).kl.length ∨ pos (j + 1) - (ρ j).kr.length ≤ q) → (q < w.cache ∨ w.cache + w.cs ≤ q) →
        (q < w.b2.start ∨ w.b2.start + K2.length ≤ q) → s1.cell q = s.cell q) →
      WApart w K2 (pos i + (ρ i).kl.length) (pos (i + 1) - (ρ i).kr.length) → Seg s1.cell (pos i + (ρ i).kl.length) ((ρ i).A ++ (ρ i).B) → Idle w K2 s1.cell →
      wp (wikiMerge (tick lt) c w first b1 (pos i + (ρ i).kl.length) (mid i) (pos (i + 1) - (ρ i).kr.length)) (fun _ s' =>
        Seg s'.cell (pos i + (ρ i).kl.length) (mergeL lt (ρ i).A (ρ i).B) ∧ Idle w K2 s'.cell ∧
        WFr w K2 (pos i + (ρ i).kl.length) (pos (i + 1) - (ρ i).kr.length) s1 s') s1) :
    wp (do
      wikiPairs (wikiBody (tick lt) c w p0 p1 first b1) first (iterAt N t (2 * m) 0)
      insertionSort (tick lt) w.b2.start w.b2.stop : M α Unit) (fun _ s' => RowsAt m pos (fun j => (ρ j).done lt) s'.cell ∧
        GFrame first (pos m) w.cache w.cs s s') s := by
  haveI : Inhabited α := ⟨(X 0).head (by
    have h1 := g.lenX 0 hm
    have h2 := g.hlen
    exact List.ne_nil_of_length_pos (by omega))⟩
  have hl := fun j (hj : j < m) => (hr j hj).size g hj
  have hmidl := fun j (hj : j < m) => g.hmid j hj
  have hlX := fun j (hj : j < m) => (hr j hj).lenX
  have hlY := fun j (hj : j < m) => (hr j hj).lenY
  simp only [WRow.tri, List.length_append] at hl
  have hap : ∀ i, i < m → WApart w K2 (pos i + (ρ i).kl.length) (pos (i + 1) - (ρ i).kr.length) := by
    intro i hi
    refine ⟨?_, hb2 i hi⟩
    have h1 := g.mono (Nat.zero_le i) (show i ≤ m by omega)
    have h2 := g.mono (show i + 1 ≤ m from hi) (Nat.le_refl m)
    have h3 := g.zero
    omega
  have hsplit : ∀ i j, i < m → j < m → i ≠ j → ∀ q, pos i + (ρ i).kl.length ≤ q → q < pos (i + 1) - (ρ i).kr.length →
      q < pos j + (ρ j).kl.length ∨ pos (j + 1) - (ρ j).kr.length ≤ q := by
    intro i j hi hj hij q u v
    rcases Nat.lt_or_gt_of_ne hij with e | e
    · have := g.mono (show i + 1 ≤ j from e) (by omega); omega
    · have := g.mono (show j + 1 ≤ i from e) (by omega); omega
  apply wp_bind
  refine wp_mono (wikiPairs_spec (t := t) hN ht hm (fun i s' => (∀ j, j < i → Seg s'.cell (pos j + (ρ j).kl.length) (mergeL lt (ρ j).A (ρ j).B)) ∧
      (∀ j, i ≤ j → j < m → Seg s'.cell (pos j + (ρ j).kl.length) ((ρ j).A ++ (ρ j).B)) ∧ Idle w K2 s'.cell ∧
      (∀ q, (∀ j, j < m → q < pos j + (ρ j).kl.length ∨ pos (j + 1) - (ρ j).kr.length ≤ q) → (q < w.cache ∨ w.cache + w.cs ≤ q) →
        (q < w.b2.start ∨ w.b2.start + K2.length ≤ q) → s'.cell q = s.cell q) ∧ EnvLe s s') ?_ m 0 (by omega) s ⟨fun j hj => by omega, ?_, ⟨hlive, K2, .refl _, sK2⟩,
      fun _ _ _ _ => rfl, .refl _⟩) ?_
  · rintro i hi s1 ⟨i1, i2, i3, i4, i5⟩
    rw [← hp i (by omega), ← hq i hi, show 2 * i + 2 = 2 * (i + 1) by omega, ← hp (i + 1) (by omega)]
    unfold wikiBody
    rw [htrim i hi]
    by_cases hAB : (ρ i).A = [] ∨ (ρ i).B = []
    · rw [if_pos hAB]
      refine wp_pure ⟨fun j hj => ?_, fun j hj hj' => i2 j (by omega) hj', i3, i4, i5⟩
      by_cases e : j = i
      · subst e
        have := i2 j (Nat.le_refl _) hi
        rcases hAB with h | h
        · rw [h, mergeL_nil_left]; rwa [h, List.nil_append] at this
        · rw [h, mergeL_nil_right]; rwa [h, List.append_nil] at this
      · exact i1 j (by omega)
    · rw [if_neg hAB]
      have hA : (ρ i).A ≠ [] := fun h => hAB (.inl h)
      have hB : (ρ i).B ≠ [] := fun h => hAB (.inr h)
      refine wp_mono (hmerge i hi hA hB s1 i4 (hap i hi) (i2 i (Nat.le_refl _) hi) i3) ?_
      rintro _ s2 ⟨q1, q2, q3⟩
      have hkeep : ∀ j, j < m → j ≠ i → ∀ Z : List α, Z.length = (ρ j).A.length + (ρ j).B.length → Seg s1.cell (pos j + (ρ j).kl.length) Z →
          Seg s2.cell (pos j + (ρ j).kl.length) Z := by
        intro j hj hji Z hZ hs
        have h1 := hl j hj
        have h2 := hap j hj
        have h3 := h2.cache
        have h4 := h2.buf
        exact hs.congr fun q u v => q3.cell q (hsplit j i hj hi hji q u (by omega)) (by omega) (by omega)
      refine ⟨fun j hj => ?_, fun j hj hj' => hkeep j hj' (by omega) _ (by simp) (i2 j (by omega) hj'), q2, fun q u v z => ?_, i5.trans q3.brk⟩
      · by_cases e : j = i
        · subst e; exact q1
        · exact hkeep j (by omega) e _ (by rw [(mergeL_perm _ _).length_eq, List.length_append]) (i1 j (by omega))
      · rw [q3.cell q (u i hi) v z]; exact i4 q u v z
  · intro j _ hj
    have := hrows j hj
    simp only [WRow.tri] at this
    rw [seg_append, seg_append] at this
    exact this.2.1
  · rintro _ s1 ⟨i1, -, ⟨i3, K, hK, hsK⟩, i4, i5⟩
    rw [hw.stop]
    have hKl := hK.length_eq
    refine wp_mono (insertionSort_ssort hlt (by rw [hKl]) hsK) ?_
    rintro _ s2 ⟨q1, q2⟩
    have q2c := q2.cell
    have hdis := hw.dis
    rw [ssort_distinct hlt oK2.distinct hK, ssort_of_sorted hlt (oK2.sorted hlt)] at q1
    have hcell : ∀ q, (∀ j, j < m → q < pos j + (ρ j).kl.length ∨ pos (j + 1) - (ρ j).kr.length ≤ q) → (q < w.cache ∨ w.cache + w.cs ≤ q) →
        s2.cell q = s.cell q := by
      intro q u v
      by_cases hq2 : q < w.b2.start ∨ w.b2.start + K2.length ≤ q
      · rw [q2c q (by omega)]; exact i4 q u v hq2
      · obtain ⟨d, rfl⟩ : ∃ d, q = w.b2.start + d := ⟨q - w.b2.start, by omega⟩
        rw [q1 d (by omega), sK2 d (by omega)]
    have hin : ∀ q, (q < first ∨ pos m ≤ q) → ∀ j, j < m → q < pos j + (ρ j).kl.length ∨ pos (j + 1) - (ρ j).kr.length ≤ q := by
      intro q hq j hj
      have h1 := g.mono (Nat.zero_le j) (show j ≤ m by omega)
      have h2 := g.mono (show j + 1 ≤ m from hj) (Nat.le_refl m)
      have h3 := g.zero
      omega
    refine ⟨fun j hj => ?_, fun q u v => hcell q (hin q u) v, fun q u v => ?_, i5.trans q2.brk⟩
    · have h0 := hrows j hj
      have h1 := hl j hj
      have h2 := g.mono (Nat.zero_le j) (show j ≤ m by omega)
      have h3 := g.mono (show j + 1 ≤ m from hj) (Nat.le_refl m)
      have h4 := g.zero
      have h5 := hap j hj
      have h6 := h5.buf
      simp only [WRow.tri] at h0
      rw [seg_append, seg_append, List.length_append] at h0
      simp only [WRow.done]
      have hout : ∀ q, pos j ≤ q → q < pos (j + 1) → (q < pos j + (ρ j).kl.length ∨ pos (j + 1) - (ρ j).kr.length ≤ q) →
          ∀ j', j' < m → q < pos j' + (ρ j').kl.length ∨ pos (j' + 1) - (ρ j').kr.length ≤ q := by
        intro q u v z j' hj'
        rcases Nat.lt_trichotomy j j' with e | e | e
        · have := g.mono (show j + 1 ≤ j' from e) (by omega); omega
        · subst e; exact z
        · have := g.mono (show j' + 1 ≤ j from e) (by omega); omega
      rw [seg_append, seg_append, (mergeL_perm (ρ j).A (ρ j).B).length_eq, List.length_append]
      refine ⟨h0.1.congr fun q u v => hcell q (hout q u (by omega) (by omega)) (by omega), (i1 j hj).congr fun q u v => q2c q ?_,
        h0.2.2.congr fun q u v => hcell q (hout q (by omega) (by omega) (by omega)) (by omega)⟩
      rw [(mergeL_perm (ρ j).A (ρ j).B).length_eq, List.length_append] at v
      omega
    · exact (i3 q u v).same (q2c q (by omega))

end
end CppSort
