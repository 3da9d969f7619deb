import Verif.Model.Insertion
import Verif.Model.Tim
import Verif.Model.Drop
import Verif.Model.Verge
import Verif.Base.Order
import Verif.Base.Merge
import Verif.Proof.MelCost
import Verif.Proof.DropCost
import Verif.Proof.Slab
/-
What the adaptive algorithms do on a range that is already sorted: they look at it, element after element, and
change nothing.
-/
set_option autoImplicit false

namespace CppSort
variable {α β γ : Type} {lt : α → α → Bool}

/-- From any state with memory `c`, `m` returns `r` after `k` comparisons, with the same memory. -/
def Looks (c : Nat → Cell α) (m : M α β) (k : Nat) (r : β) : Prop :=
  ∀ s, s.cell = c → ∃ s', m s = some (.ok r, s') ∧ s'.cell = c ∧ s'.cmps = s.cmps + k

theorem Looks.pure {c : Nat → Cell α} (r : β) : Looks c (Pure.pure r) 0 r :=
  fun s h => ⟨s, rfl, h, rfl⟩

theorem Looks.bind {c : Nat → Cell α} {m : M α β} {g : β → M α γ} {k k' : Nat} {r : β} {r' : γ}
    (h : Looks c m k r) (h' : Looks c (g r) k' r') : Looks c (m >>= g) (k + k') r' := by
  intro s hs
  obtain ⟨s1, e1, c1, n1⟩ := h s hs
  obtain ⟨s2, e2, c2, n2⟩ := h' s1 c1
  exact ⟨s2, (bind_ok e1).trans e2, c2, by omega⟩

theorem Looks.bind0 {c : Nat → Cell α} {m : M α β} {g : β → M α γ} {k : Nat} {r : β} {r' : γ}
    (h : Looks c m k r) (h' : Looks c (g r) 0 r') : Looks c (m >>= g) k r' := Looks.bind h h'

theorem Looks.cast {c : Nat → Cell α} {m : M α β} {k k' : Nat} {r r' : β} (h : Looks c m k r) (hk : k = k')
    (hr : r = r') : Looks c m k' r' := by subst hk hr; exact h

theorem looks_read {c : Nat → Cell α} {i : Nat} {a : α} (h : c i = .val a) : Looks c (read i) 0 a := by
  intro s hs
  exact ⟨s, by simp only [read, hs, h], hs, rfl⟩

theorem looks_tick {c : Nat → Cell α} (x y : α) : Looks c (tick lt x y) 1 (lt x y) :=
  fun s hs => ⟨_, rfl, hs, rfl⟩

/-- One comparison of two elements of the range. -/
theorem looks_cmp {c : Nat → Cell α} {i j : Nat} {a b : α} {g : Bool → M α γ} {k : Nat} {r : γ}
    (hi : c i = .val a) (hj : c j = .val b) (hg : Looks c (g (lt a b)) k r) :
    Looks c (do let x ← read i; let y ← read j; let t ← tick lt x y; g t) (k + 1) r :=
  (Looks.bind (looks_read hi) (Looks.bind (looks_read hj) (Looks.bind (looks_tick a b) hg))).cast (by omega) rfl

/-- Neighbours are in order. -/
def Neigh (lt : α → α → Bool) (f l : Nat) (v : Nat → α) : Prop :=
  ∀ i, f ≤ i → i + 1 < l → lt (v (i + 1)) (v i) = false

/-! ### insertion_sort.h -/

theorem insertionLoop_looks {f l : Nat} {v : Nat → α} {c : Nat → Cell α} (hh : Holds c f l v) (hn : Neigh lt f l v) :
    ∀ n cur, f < cur → cur ≤ l → l - cur = n → Looks c (insertionLoop (tick lt) f l cur) n () := by
  intro n
  induction n with
  | zero =>
    intro cur h1 h2 h3
    rw [insertionLoop, if_neg (by omega)]
    exact Looks.pure _
  | succ n ih =>
    intro cur h1 h2 h3
    rw [insertionLoop, if_pos (by omega)]
    refine (Looks.bind (k := 1) (r := ()) ?_ (ih (cur + 1) (by omega) (by omega) (by omega))).cast (by omega) rfl
    refine looks_cmp (hh cur (by omega) (by omega)) (hh (cur - 1) (by omega) (by omega)) ?_
    have := hn (cur - 1) (by omega) (by omega)
    rw [show cur - 1 + 1 = cur by omega] at this
    rw [this, if_neg (by simp)]
    exact Looks.pure _

theorem insertionSort_looks {f l : Nat} {v : Nat → α} {c : Nat → Cell α} (hfl : f ≤ l) (hh : Holds c f l v)
    (hn : Neigh lt f l v) : Looks c (insertionSort (tick lt) f l) (l - f - 1) () := by
  unfold insertionSort
  split
  · exact (Looks.pure _).cast (by omega) rfl
  · exact insertionLoop_looks hh hn _ _ (by omega) (by omega) (by omega)

/-! ### timsort.h -/

theorem runLoop_looks {f l : Nat} {v : Nat → α} {c : Nat → Cell α} (hh : Holds c f l v) (hn : Neigh lt f l v) :
    ∀ n i, f < i + 1 → i + 1 ≤ l → l - (i + 1) = n → Looks c (runLoop (notC (tick lt)) l i) n l := by
  intro n
  induction n with
  | zero =>
    intro i h1 h2 h3
    rw [runLoop]
    rw [if_neg (by omega)]
    exact (Looks.pure _).cast rfl (by omega)
  | succ n ih =>
    intro i h1 h2 h3
    rw [runLoop]
    rw [if_pos (by omega)]
    have := hn i (by omega) (by omega)
    refine (Looks.bind (looks_read (hh (i + 1) (by omega) (by omega)))
      (Looks.bind (looks_read (hh (i + 1 - 1) (by omega) (by omega)))
      (Looks.bind (k := 1) (r := true) ?_ (k' := n) (r' := l) ?_))).cast (by omega) rfl
    · unfold notC
      rw [Nat.add_sub_cancel]
      refine Looks.bind0 (looks_tick _ _) ?_
      rw [this]
      exact Looks.pure _
    · rw [if_pos rfl]
      exact ih (i + 1) (by omega) (by omega) (by omega)

theorem countRun_looks {f l : Nat} {v : Nat → α} {c : Nat → Cell α} (hfl : f < l) (hh : Holds c f l v)
    (hn : Neigh lt f l v) : Looks c (countRun (tick lt) f l) (l - f - 1) (l - f) := by
  unfold countRun
  dsimp only
  split
  · exact (Looks.pure _).cast (by omega) (by omega)
  · refine (looks_cmp (k := l - f - 2) (hh (f + 1) (by omega) (by omega)) (hh f (by omega) (by omega)) ?_).cast
      (by omega) rfl
    rw [hn f (by omega) (by omega), if_neg (by simp)]
    exact Looks.bind0 (runLoop_looks hh hn (l - f - 2) (f + 1) (by omega) (by omega) (by omega)) (Looks.pure _)

theorem binarySort_looks {cmp : α → α → M α Bool} {lo hi : Nat} (c : Nat → Cell α) :
    Looks c (binarySort cmp lo hi hi) 0 () := by
  unfold binarySort
  rw [binaryLoop, if_neg (by split <;> omega)]
  exact Looks.pure _

theorem free_looks (c : Nat → Cell α) (p : Nat) : Looks c (free p 0) 0 () := by
  intro s hs
  refine ⟨s, ?_, hs, rfl⟩
  unfold free
  rw [if_pos (by simp)]
  congr 3
  rcases s with ⟨cell, b, g, n, m⟩
  simp only [St.mk.injEq, and_true]
  funext k
  rw [if_neg (by omega)]

theorem timBase_looks {f l : Nat} {v : Nat → α} {c : Nat → Cell α} (hfl : f ≤ l) (hh : Holds c f l v)
    (hn : Neigh lt f l v) {collapse : TimBuf → List (Nat × Nat) → M α (List (Nat × Nat) × TimBuf)}
    (hc : ∀ b r, collapse b [r] = pure ([r], b)) :
    Looks c (timBase (tick lt) collapse f l) (l - f - 1) () := by
  unfold timBase
  dsimp only
  split
  · exact (Looks.pure _).cast (by omega) rfl
  split
  · refine Looks.bind0 (countRun_looks (by omega) hh hn) ?_
    rw [show f + (l - f) = l by omega]
    exact binarySort_looks c
  · have ht : ∀ b, Looks c (timLoop (tick lt) collapse l (minRunLength (l - f)) b [] f (l - f)) (l - f - 1)
        ([(f, l - f)], b) := by
      intro b
      rw [timLoop]
      refine Looks.bind0 (countRun_looks (by omega) hh hn) ?_
      have hk : ∀ n, n = l - f → Looks c (do
          let x ← collapse b ([] ++ [(f, n)])
          match x with
          | (p, b) =>
            if l - f - n ≠ 0 then timLoop (tick lt) collapse l (minRunLength (l - f)) b p (f + n) (l - f - n)
            else pure (p, b)) 0 ([(f, l - f)], b) := by
        intro n e
        subst e
        rw [List.nil_append, hc]
        refine Looks.bind0 (Looks.pure _) ?_
        dsimp only
        rw [if_neg (by omega)]
        exact Looks.pure _
      dsimp only
      split
      · refine Looks.bind0 (r := ()) ?_ (Looks.bind0 (Looks.pure _) (hk _ (Nat.min_eq_left (by omega))))
        rw [Nat.min_eq_left (by omega), show f + (l - f) = l by omega]
        exact binarySort_looks c
      · exact Looks.bind0 (Looks.pure _) (hk _ rfl)
    refine Looks.bind0 (ht _) ?_
    dsimp only
    rw [forceCollapse, if_neg (by simp)]
    exact Looks.bind (Looks.pure _) (free_looks c _)

theorem timsort_looks {f l : Nat} {v : Nat → α} {c : Nat → Cell α} (hfl : f ≤ l) (hh : Holds c f l v)
    (hn : Neigh lt f l v) : Looks c (timsort (tick lt) f l) (l - f - 1) () :=
  timBase_looks hfl hh hn fun b r => by rw [timCollapse, if_neg (by simp)]

theorem adaptiveShiversSort_looks {f l : Nat} {v : Nat → α} {c : Nat → Cell α} (hfl : f ≤ l) (hh : Holds c f l v)
    (hn : Neigh lt f l v) : Looks c (adaptiveShiversSort (tick lt) f l) (l - f - 1) () :=
  timBase_looks hfl hh hn fun b r => by rw [shiversCollapse, if_neg (by simp)]

/-! ### drop_merge_sort.h -/

theorem dropKeep_looks {c : Nat → Cell α} {i : Nat} {a : α} (triv : Bool) (h : c i = .val a) :
    Looks c (dropKeep triv i i 0) 0 (i + 1, i + 1, 0, 0) := by
  unfold dropKeep
  cases triv
  · simp only [Bool.false_eq_true, if_false, ne_eq, not_true, if_neg]
    exact Looks.pure _
  · simp only [if_true]
    refine Looks.bind (k := 0) (k' := 0) (r := ()) ?_ (Looks.pure _)
    unfold dropMove
    rw [if_pos rfl]
    refine Looks.bind (looks_read h) (k' := 0) ?_
    intro s hs
    refine ⟨{ s with cell := setCell s.cell i (.val a), movs := s.movs + 1 }, ?_, ?_, rfl⟩
    · simp only [assign, hs, h]
    · subst hs
      funext k
      simp only [setCell]
      split
      · rename_i e; rw [e, h]
      · rfl

theorem dropStep_looks {f l base : Nat} {v : Nat → α} {c : Nat → Cell α} (triv : Bool) (hh : Holds c f l v)
    (hn : Neigh lt f l v) {i : Nat} (h1 : f ≤ i) (h2 : i < l) :
    Looks c (dropStep (tick lt) triv f base i i 0 0) (if f = i then 0 else 1) (i + 1, i + 1, 0, 0) := by
  unfold dropStep
  by_cases h : f = i
  · rw [if_neg (by omega), if_pos h]
    exact dropKeep_looks triv (hh i h1 h2)
  · rw [if_pos h, if_neg h]
    refine looks_cmp (hh i h1 h2) (hh (i - 1) (by omega) (by omega)) ?_
    have := hn (i - 1) (by omega) (by omega)
    rw [show i - 1 + 1 = i by omega] at this
    rw [this, if_neg (by simp)]
    exact dropKeep_looks triv (hh i h1 h2)

theorem dropLoop_looks {f l base : Nat} {v : Nat → α} {c : Nat → Cell α} (triv : Bool) (hh : Holds c f l v)
    (hn : Neigh lt f l v) : ∀ n i, f ≤ i → i < l → l - i = n →
    Looks c (dropLoop (tick lt) triv f l base i i 0 0) (l - (if f = i then i + 1 else i)) (l, 0) := by
  intro n
  induction n with
  | zero => intro i h1 h2 h3; omega
  | succ n ih =>
    intro i h1 h2 h3
    rw [dropLoop]
    refine (Looks.bind (dropStep_looks triv hh hn h1 h2) (k' := l - (i + 1)) ?_).cast (by split <;> omega) rfl
    dsimp only
    split
    · refine (ih (i + 1) (by omega) (by omega) (by omega)).cast ?_ rfl
      rw [if_neg (by omega)]
    · exact (Looks.pure _).cast (by omega) (by simp; omega)

/-- `m` looks at the memory and leaves it. -/
theorem Looks.wp {m : M α β} {s : St α} {k : Nat} {r : β} (h : Looks s.cell m k r) :
    wp m (fun r' s' => r' = r ∧ s'.cell = s.cell ∧ s'.cmps = s.cmps + k) s := by
  obtain ⟨s', h1, h2, h3⟩ := h s rfl
  exact ⟨r, s', h1, rfl, h2, h3⟩

theorem dropMergeSort_sorted {f l : Nat} {v : Nat → α} {s : St α} (triv : Bool) {sorter : Nat → Nat → M α Unit}
    (hfl : f ≤ l) (hh : Holds s.cell f l v) (hn : Neigh lt f l v) (hw : s.WF) :
    CppSort.wp (dropMergeSort (tick lt) triv sorter f l)
      (fun _ s' => Holds s'.cell f l v ∧ s'.cmps = s.cmps + (l - f - 1)) s := by
  unfold dropMergeSort
  split
  · exact wp_pure ⟨hh, by omega⟩
  · have hb : l ≤ s.brk := by
      by_contra hc
      have := hh (l - 1) (by omega) (by omega)
      rw [hw (l - 1) (by omega)] at this
      cases this
    refine wp_bind (wp_alloc fun s1 h1 h2 _ _ h5 _ => ?_)
    have hh1 : Holds s1.cell f l v := fun i a b => by rw [h2 i (by omega)]; exact hh i a b
    obtain ⟨s2, e2, c2, n2⟩ := dropLoop_looks (base := s.brk) triv hh1 hn _ f (Nat.le_refl _) (by omega) rfl s1 rfl
    have hf : CppSort.wp (free s.brk (l - f)) (fun _ s' => Holds s'.cell f l v ∧ s'.cmps = s2.cmps) s2 := by
      refine wp_free (fun i a b => by rw [c2]; exact h1 i a b) fun s3 _ h _ hc _ => ⟨fun i a b => ?_, hc⟩
      rw [h i (by omega), c2]
      exact hh1 i a b
    obtain ⟨_, s3, e3, q3, n3⟩ := hf
    refine ⟨(), s3, ?_, q3, ?_⟩
    · unfold finallyDo
      rw [bind_ok e2]
      dsimp only
      rw [if_pos rfl]
      have hp : (Pure.pure () : M α Unit) s2 = some (.ok (), s2) := rfl
      rw [hp]
      dsimp only
      rw [e3]
    · rw [if_pos rfl] at n2
      omega

/-! ### vergesort.h -/

theorem vergeStop_looks {c : Nat → Cell α} {stable : Bool} {i j : Nat} {a b : α} {g : Bool → M α γ} {k : Nat} {r : γ}
    (hi : c i = .val a) (hj : c j = .val b) (h : lt b a = false) (hg : Looks c (g false) k r) :
    Looks c (do let x ← read i; let y ← read j; let t ← vergeStop (tick lt) stable false x y; g t) (k + 1) r := by
  unfold vergeStop
  refine (Looks.bind (looks_read hi) (Looks.bind (looks_read hj)
    (Looks.bind (k := 1) (r := false) ?_ hg))).cast (by omega) rfl
  rw [if_neg (by simp), ← h]
  exact looks_tick b a

theorem vergeLeftLoop_looks {f l : Nat} {v : Nat → α} {c : Nat → Cell α} (stable : Bool) (hh : Holds c f l v)
    (hn : Neigh lt f l v) : ∀ n i, f < i → i < l → i - f = n →
    Looks c (vergeLeftLoop (tick lt) stable false f i) n f := by
  intro n
  induction n with
  | zero => intro i h1 h2 h3; omega
  | succ n ih =>
    intro i h1 h2 h3
    rw [vergeLeftLoop]
    refine vergeStop_looks (hh (i - 1) (by omega) (by omega)) (hh (i - 1 + 1) (by omega) (by omega))
      (hn (i - 1) (by omega) (by omega)) ?_
    rw [if_neg (by simp)]
    split
    · exact ih (i - 1) (by omega) (by omega) (by omega)
    · exact (Looks.pure _).cast (by omega) (by omega)

theorem vergeLeft_looks {f l : Nat} {v : Nat → α} {c : Nat → Cell α} (stable : Bool) (hh : Holds c f l v)
    (hn : Neigh lt f l v) {i : Nat} (h1 : f < i) (h2 : i < l) :
    Looks c (vergeLeft (tick lt) stable false f i) (i - f + 1) f := by
  unfold vergeLeft
  refine Looks.bind (vergeLeftLoop_looks stable hh hn _ i h1 h2 rfl) ?_
  refine vergeStop_looks (k := 0) (hh f (by omega) (by omega)) (hh (f + 1) (by omega) (by omega))
    (hn f (by omega) (by omega)) ?_
  rw [if_neg (by simp)]
  exact Looks.pure _

theorem vergeRight_looks {f l : Nat} {v : Nat → α} {c : Nat → Cell α} (stable : Bool) (hh : Holds c f l v)
    (hn : Neigh lt f l v) : ∀ n i, f < i → i ≤ l → l - i = n →
    Looks c (vergeRight (tick lt) stable false l i) n l := by
  intro n
  induction n with
  | zero =>
    intro i h1 h2 h3
    rw [vergeRight, if_neg (by omega)]
    exact (Looks.pure _).cast rfl (by omega)
  | succ n ih =>
    intro i h1 h2 h3
    rw [vergeRight, if_pos (by omega)]
    have := hn (i - 1) (by omega) (by omega)
    rw [show i - 1 + 1 = i by omega] at this
    refine vergeStop_looks (hh (i - 1) (by omega) (by omega)) (hh i (by omega) (by omega)) this ?_
    rw [if_neg (by simp)]
    exact ih (i + 1) (by omega) (by omega) (by omega)

theorem div_log2_le {n : Nat} (h : 128 ≤ n) : 7 * (n / n.log2) ≤ n ∧ 1 ≤ n / n.log2 := by
  have h7 : 7 ≤ n.log2 := (Nat.le_log2 (by omega)).2 (by omega)
  have h1 := Nat.div_mul_le_self n n.log2
  have h2 : n / n.log2 * 7 ≤ n / n.log2 * n.log2 := Nat.mul_le_mul_left _ h7
  have h3 : n.log2 ≤ n := Nat.le_of_lt (log2_lt_self (by omega))
  have h4 : 0 < n / n.log2 := Nat.div_pos h3 (by omega)
  omega

theorem vergeMergeRuns_one {cmp : α → α → M α Bool} (cfg : Cfg) (f : Nat) (r : VRun) :
    vergeMergeRuns cmp cfg f [r] = pure () := by
  unfold vergeMergeRuns
  rw [if_pos (by simp)]

theorem vergesortRandom_looks {f l : Nat} {v : Nat → α} {c : Nat → Cell α} (cfg : Cfg) {fb : Nat → Nat → M α Unit}
    (stable : Bool) (hfl : f + 128 ≤ l) (hh : Holds c f l v) (hn : Neigh lt f l v) :
    Looks c (vergesortRandom (tick lt) cfg fb stable f l) (l - f) () := by
  obtain ⟨hm, hm'⟩ := div_log2_le (n := l - f) (by omega)
  unfold vergesortRandom
  dsimp only
  rw [if_neg (by omega)]
  have hloop : Looks c (vergeLoop (tick lt) fb stable l ((l - f) / (l - f).log2) f l []) (l - f)
      (l, [⟨l, l - f⟩]) := by
    generalize (l - f) / (l - f).log2 = mr at *
    rw [vergeLoop]
    dsimp only
    rw [if_neg (by omega)]
    refine (looks_cmp (k := l - f - 1) (hh (f + 1 + mr) (by omega) (by omega)) (hh (f + mr) (by omega) (by omega)) ?_).cast
      (by omega) rfl
    have := hn (f + mr) (by omega) (by omega)
    rw [show f + mr + 1 = f + 1 + mr by omega] at this
    rw [this]
    refine (Looks.bind (vergeLeft_looks stable hh hn (by omega) (by omega))
      (Looks.bind0 (vergeRight_looks stable hh hn _ _ (by omega) (by omega) rfl) ?_)).cast (by omega) rfl
    rw [if_pos (by omega)]
    refine Looks.bind0 (r := (l, [⟨l, l - f⟩])) ?_ ?_
    · unfold vergeFound vergeReverse
      refine Looks.bind0 (Looks.pure ()) ?_
      dsimp only
      rw [if_neg (c := _ ∧ _) (by omega), if_neg (by omega)]
      exact Looks.pure _
    · dsimp only
      rw [if_pos rfl]
      exact Looks.pure _
  refine Looks.bind0 hloop ?_
  dsimp only
  rw [if_neg (by omega), vergeMergeRuns_one]
  exact Looks.pure _

theorem vergeScan_looks {f l : Nat} {v : Nat → α} {c : Nat → Cell α} (stable : Bool) (hh : Holds c f l v)
    (hn : Neigh lt f l v) : ∀ n i k, f < i → i ≤ l → l - i = n →
    Looks c (vergeScan (tick lt) stable false l i k) n (l, k + n) := by
  intro n
  induction n with
  | zero =>
    intro i k h1 h2 h3
    rw [vergeScan, if_neg (by omega)]
    exact (Looks.pure _).cast rfl (by rw [show i = l by omega]; rfl)
  | succ n ih =>
    intro i k h1 h2 h3
    rw [vergeScan, if_pos (by omega)]
    have := hn (i - 1) (by omega) (by omega)
    rw [show i - 1 + 1 = i by omega] at this
    refine vergeStop_looks (hh (i - 1) (by omega) (by omega)) (hh i (by omega) (by omega)) this ?_
    rw [if_neg (by simp)]
    exact (ih (i + 1) (k + 1) (by omega) (by omega) (by omega)).cast rfl (by rw [show k + 1 + n = k + (n + 1) by omega])

theorem vergesortBi_looks {f l : Nat} {v : Nat → α} {c : Nat → Cell α} (cfg : Cfg) {fb : Nat → Nat → Nat → M α Unit}
    (stable : Bool) (hfl : f + 128 ≤ l) (hh : Holds c f l v) (hn : Neigh lt f l v) :
    Looks c (vergesortBi (tick lt) cfg fb stable f l (l - f)) (l - f - 1) () := by
  obtain ⟨hm, hm'⟩ := div_log2_le (n := l - f) (by omega)
  unfold vergesortBi
  rw [if_neg (by omega)]
  refine (looks_cmp (k := l - f - 2) (hh (f + 1) (by omega) (by omega)) (hh f (by omega) (by omega)) ?_).cast
    (by omega) rfl
  rw [hn f (by omega) (by omega)]
  have hloop : Looks c (vergeLoopBi (tick lt) fb stable l ((l - f) / (l - f).log2) false f l 0 []) (l - f - 2)
      (l, 0, [⟨l, l - f⟩]) := by
    generalize (l - f) / (l - f).log2 = mr at *
    rw [vergeLoopBi]
    dsimp only
    refine Looks.bind0 (vergeScan_looks stable hh hn (l - f - 2) (f + 2) 2 (by omega) (by omega) (by omega)) ?_
    dsimp only
    rw [if_pos (by omega)]
    refine Looks.bind0 (r := [⟨l, l - f⟩]) ?_ ?_
    · unfold vergeFoundBi vergeReverse
      rw [if_neg (by omega)]
      refine Looks.bind0 (Looks.pure ()) ?_
      rw [show 2 + (l - f - 2) = l - f by omega]
      exact Looks.pure _
    · rw [if_pos rfl]
      exact Looks.pure _
  refine Looks.bind0 hloop ?_
  dsimp only
  rw [if_neg (by omega), vergeMergeRuns_one]
  exact Looks.pure _

/-! ### melsort.h -/

theorem nth_looks {c : Nat → Cell α} {xs : List β} {i : Nat} {x : β} (h : xs[i]? = some x) :
    Looks c (nth xs i : M α β) 0 x := by
  unfold nth
  rw [h]
  exact Looks.pure _

theorem encroachPlace_looks {c : Nat → Cell α} {get : β → M α α} {l : List β} {x : β} {a value : α}
    (hx : l[l.length - 1]? = some x) (hg : Looks c (get x) 0 a) (h : lt value a = false) :
    Looks c (encroachPlace (tick lt) get [l] value) 1 (.back 0) := by
  unfold encroachPlace
  refine (Looks.bind (nth_looks (x := l) rfl) (Looks.bind (nth_looks hx) (Looks.bind hg
    (Looks.bind0 (looks_tick value a) ?_)))).cast (by omega) rfl
  rw [h]
  simp only [Bool.not_false, if_true, List.length_singleton]
  refine Looks.bind0 (r := 0) ?_ (Looks.pure _)
  rw [lowerBoundBy, if_neg (by omega)]
  exact Looks.pure _

theorem lst_last {v : Nat → α} {f i : Nat} (h : f < i) : (lst v f i)[(lst v f i).length - 1]? = some (v (i - 1)) := by
  rw [lst_length]
  simp only [lst, List.getElem?_map]
  rw [List.getElem?_range' (by omega)]
  simp
  congr 1
  omega

theorem melEncroach_sorted {f l : Nat} {v : Nat → α} (hn : Neigh lt f l v) : ∀ n i (s : St α), f < i → i ≤ l →
    l - i = n → Holds s.cell i l v → (∀ j, f ≤ j → j < i → s.cell j = .moved) →
    wp (melEncroach (tick lt) [lst v f i] i l) (fun r s' => r = [lst v f l] ∧
      (∀ j, f ≤ j → j < l → s'.cell j = .moved) ∧ s'.cmps = s.cmps + n) s := by
  intro n
  induction n with
  | zero =>
    intro i s h1 h2 h3 hh hm
    rw [melEncroach, if_neg (by omega)]
    have : i = l := by omega
    subst this
    exact wp_pure ⟨rfl, hm, rfl⟩
  | succ n ih =>
    intro i s h1 h2 h3 hh hm
    rw [melEncroach, if_pos (by omega)]
    have hlt' := hn (i - 1) (by omega) (by omega)
    rw [show i - 1 + 1 = i by omega] at hlt'
    have hr : Looks s.cell (do let value ← read i; encroachPlace (tick lt) pure [lst v f i] value) 1 (.back 0) :=
      (Looks.bind (looks_read (hh i (by omega) (by omega)))
        (encroachPlace_looks (lst_last h1) (Looks.pure _) hlt')).cast (by omega) rfl
    refine wp_bind ?_
    obtain ⟨r1, s1, e1, rfl, c1, n1⟩ := (looks_read (hh i (Nat.le_refl _) (by omega))).wp
    refine ⟨_, s1, e1, ?_⟩
    refine wp_bind ?_
    obtain ⟨r2, s2, e2, rfl, c2, n2⟩ :=
      (encroachPlace_looks (c := s1.cell) (get := pure) (lst_last h1) (Looks.pure _) hlt').wp
    refine ⟨_, s2, e2, wp_bind (wp_moveOut' (by rw [c2, c1]; exact hh i (by omega) (by omega)) fun s3 h3' _ h5 _ => ?_)⟩
    refine wp_bind ?_
    show wp (do let l ← nth [lst v f i] 0; return [lst v f i].set 0 (l ++ [v i])) _ s3
    refine wp_bind (wp_pure (wp_pure ?_))
    rw [show [lst v f i].set 0 (lst v f i ++ [v i]) = [lst v f (i + 1)] by rw [lst_snoc (by omega)]; rfl]
    refine wp_mono (ih (i + 1) s3 (by omega) (by omega) (by omega) ?_ ?_) fun r s' h => ⟨h.1, h.2.1, by omega⟩
    · intro j a b
      rw [h3', setCell, if_neg (by omega), c2, c1]
      exact hh j (by omega) b
    · intro j a b
      rw [h3', setCell, c2, c1]
      split
      · rfl
      · exact hm j a (by omega)

theorem mergeEncroaching_one {f : Nat} {ys : List α} {s : St α} (h : ∀ i, f ≤ i → i < f + ys.length → s.cell i = .moved) :
    wp (mergeEncroachingLists (tick lt) [ys] f false) (fun _ s' => Seg s'.cell f ys ∧ s'.cmps = s.cmps) s := by
  unfold mergeEncroachingLists
  rw [if_neg (by simp), melMergeLists, if_neg (by simp)]
  refine wp_bind (wp_pure ?_)
  show wp (moveList f ys) _ s
  obtain ⟨r, s', e, hs, -⟩ := moveList_spec ys f s (fun i a b => .inl (h i a b))
  exact ⟨r, s', e, hs, (moveList_silent ys f).run e⟩

theorem melsort_sorted {f l : Nat} {v : Nat → α} {s : St α} {bad : Nat → Nat → Bool} (hb : bad 1 (l - f) = false)
    (hfl : f ≤ l) (hh : Holds s.cell f l v) (hn : Neigh lt f l v) :
    wp (melsort (tick lt) bad f l) (fun _ s' => Seg s'.cell f (lst v f l) ∧ s'.cmps = s.cmps + (l - f - 1)) s := by
  unfold melsort
  split
  · exact wp_pure ⟨hh.seg, by omega⟩
  · refine wp_bind (wp_moveOut' (hh f (by omega) (by omega)) fun s1 h1 _ h3 _ => wp_bind ?_)
    rw [← lst_one]
    refine wp_mono (melEncroach_sorted hn _ (f + 1) s1 (by omega) (by omega) rfl ?_ ?_) ?_
    · intro j a b
      rw [h1, setCell, if_neg (by omega)]
      exact hh j (by omega) b
    · intro j a b
      rw [h1, setCell, if_pos (by omega)]
    · rintro r s2 ⟨rfl, hm, hc⟩
      rw [List.length_singleton, hb]
      refine wp_mono (mergeEncroaching_one ?_) fun _ s' h => ⟨h.1, by omega⟩
      intro i a b
      rw [lst_length] at b
      exact hm i a (by omega)

/-! ### slabsort.h -/

theorem range'_last {f i : Nat} (h : f < i) :
    (List.range' f (i - f))[(List.range' f (i - f)).length - 1]? = some (i - 1) := by
  rw [List.length_range', List.getElem?_range' (by omega)]
  simp
  omega

theorem slabEncroach_looks {f l p : Nat} {v : Nat → α} {c : Nat → Cell α} (hp : 1 < p) (hh : Holds c f l v)
    (hn : Neigh lt f l v) : ∀ n i, f < i → i ≤ l → l - i = n →
    Looks c (slabEncroach lt p [List.range' f (i - f)] i l) n (some [List.range' f (l - f)]) := by
  intro n
  induction n with
  | zero =>
    intro i h1 h2 h3
    rw [slabEncroach, if_neg (by omega), show i = l by omega]
    exact Looks.pure _
  | succ n ih =>
    intro i h1 h2 h3
    rw [slabEncroach, if_pos (by omega)]
    have hlt' := hn (i - 1) (by omega) (by omega)
    rw [show i - 1 + 1 = i by omega] at hlt'
    refine (Looks.bind (looks_read (hh i (by omega) (by omega))) (Looks.bind
      (encroachPlace_looks (range'_last h1) (looks_read (hh (i - 1) (by omega) (by omega))) hlt')
      (Looks.bind (k := 0) (r := [List.range' f (i + 1 - f)]) ?_ (k' := n) ?_))).cast (by omega) rfl
    · show Looks c (do let l ← nth [List.range' f (i - f)] 0; return [List.range' f (i - f)].set 0 (l ++ [i])) _ _
      refine Looks.bind0 (nth_looks rfl) ((Looks.pure _).cast rfl ?_)
      rw [show i + 1 - f = i - f + 1 by omega, List.range'_concat]
      simp
      omega
    · rw [if_neg (by simp; omega)]
      exact ih (i + 1) (by omega) (by omega) (by omega)

theorem slabReifyList_silent : ∀ (is : List Nat), Silent (slabReifyList is : M α (List α)) := by
  intro is
  induction is with
  | nil => exact Silent.pure
  | cons i is ih =>
    rw [slabReifyList]
    exact (silent_moveOut _).bind fun _ => ih.bind fun _ => Silent.pure

theorem slabsort_sorted {f l : Nat} {v : Nat → α} {s : St α} (cfg : Cfg) (hfl : f ≤ l) (hh : Holds s.cell f l v)
    (hn : Neigh lt f l v) :
    wp (slabsort lt cfg f l) (fun _ s' => Seg s'.cell f (lst v f l) ∧ s'.cmps = s.cmps + (l - f - 1)) s := by
  unfold slabsort
  dsimp only
  split
  · exact wp_pure ⟨hh.seg, by omega⟩
  refine wp_bind (wp_mono (Q := fun r s' => r = true ∧ Seg s'.cell f (lst v f l) ∧ s'.cmps = s.cmps + (l - f - 1)) ?_ ?_)
  · unfold tryMelsort
    split
    · refine wp_bind (wp_mono (insertionSort_looks hfl hh hn).wp ?_)
      rintro _ s' ⟨-, h2, h3⟩
      exact wp_pure ⟨rfl, by rw [h2]; exact hh.seg, h3⟩
    · have hp : 1 < 2 * (l - f).log2 := by
        have : 1 ≤ (l - f).log2 := (Nat.le_log2 (by omega)).2 (by omega)
        omega
      have := slabEncroach_looks hp hh hn (l - f - 1) (f + 1) (by omega) (by omega) (by omega)
      rw [show f + 1 - f = 1 by omega] at this
      refine wp_bind (wp_mono this.wp ?_)
      rintro _ s1 ⟨rfl, c1, n1⟩
      dsimp only
      refine wp_bind (wp_mono (Q := fun r s' => r = [lst v f l] ∧ (∀ i, f ≤ i → i < f + (lst v f l).length →
        s'.cell i = .moved) ∧ s'.cmps = s1.cmps) ?_ ?_)
      · unfold slabReify
        obtain ⟨r, s2, e2, rfl, -, hm, -⟩ := slabReifyList_spec (v := v) (List.range' f (l - f)) s1 List.nodup_range'
          (fun i hi => by rw [List.mem_range'_1] at hi; rw [c1]; exact hh i (by omega) (by omega))
        refine wp_bind ⟨_, s2, e2, wp_bind (wp_pure (wp_pure ⟨rfl, ?_, (slabReifyList_silent _).run e2⟩))⟩
        intro i a b
        rw [lst_length] at b
        exact hm i (by rw [List.mem_range'_1]; omega)
      · rintro r s2 ⟨rfl, hm, n2⟩
        refine wp_bind (wp_mono (mergeEncroaching_one hm) fun _ s3 h => wp_pure ⟨rfl, h.1, by omega⟩)
  · rintro r s' ⟨rfl, h⟩
    rw [if_pos rfl]
    exact wp_pure h

/-! ### container_aware/mel_sort.h -/

theorem listEncroach_sorted {c : Nat → Cell α} : ∀ (ys xs : List α) (x : α), SortedList lt (xs ++ x :: ys) →
    Looks c (listEncroach (tick lt) [xs ++ [x]] ys) ys.length [xs ++ x :: ys] := by
  intro ys
  induction ys with
  | nil => intro xs x _; exact Looks.pure _
  | cons y ys ih =>
    intro xs x hs
    rw [listEncroach]
    have hl : (xs ++ [x])[(xs ++ [x]).length - 1]? = some x := by simp
    have hlt' : lt y x = false := by
      have := (List.pairwise_append.1 hs).2.1
      exact List.rel_of_pairwise_cons this (by simp)
    refine (Looks.bind (nth_looks (x := xs ++ [x]) rfl) (Looks.bind (nth_looks hl) (Looks.bind (looks_tick y x)
      (k' := ys.length) ?_))).cast (by simp; omega) rfl
    rw [hlt']
    simp only [Bool.not_false, if_true, List.length_singleton]
    refine (Looks.bind (k := 0) (r := 0) ?_ (k' := ys.length) ?_).cast (by omega) rfl
    · rw [lowerBoundBy, if_neg (by omega)]
      exact Looks.pure _
    · refine (Looks.bind (nth_looks (x := xs ++ [x]) rfl) (k' := ys.length) ?_).cast (by omega) rfl
      have := ih (xs ++ [x]) y (by simpa using hs)
      simpa using this

theorem flistEncroach_sorted {c : Nat → Cell α} : ∀ (ys xs : List α) (x : α), SortedList lt (xs ++ x :: ys) →
    Looks c (flistEncroach (tick lt) [(xs ++ [x], xs.length)] ys) ys.length
      [(xs ++ x :: ys, xs.length + ys.length)] := by
  intro ys
  induction ys with
  | nil => intro xs x _; exact Looks.pure _
  | cons y ys ih =>
    intro xs x hs
    rw [flistEncroach]
    have hl : (xs ++ [x])[xs.length]? = some x := by simp
    have hlt' : lt y x = false := by
      have := (List.pairwise_append.1 hs).2.1
      exact List.rel_of_pairwise_cons this (by simp)
    refine (Looks.bind (nth_looks (x := (xs ++ [x], xs.length)) rfl) (Looks.bind (nth_looks hl)
      (Looks.bind (looks_tick y x) (k' := ys.length) ?_))).cast (by simp; omega) rfl
    rw [hlt']
    simp only [Bool.not_false, if_true, List.length_singleton]
    refine (Looks.bind (k := 0) (r := 0) ?_ (k' := ys.length) ?_).cast (by omega) rfl
    · rw [lowerBoundBy, if_neg (by omega)]
      exact Looks.pure _
    · refine (Looks.bind (nth_looks (x := (xs ++ [x], xs.length)) rfl) (k' := ys.length) ?_).cast (by omega) rfl
      have := ih (xs ++ [x]) y (by simpa using hs)
      have e : (xs ++ [x]).insertIdx (xs.length + 1) y = xs ++ [x] ++ [y] := by
        have := List.insertIdx_length_self (l := xs ++ [x]) (x := y)
        simpa using this
      dsimp only
      rw [e]
      simpa [Nat.add_assoc, Nat.add_comm 1] using this

theorem listMelSort_looks {c : Nat → Cell α} {xs : List α} (hs : SortedList lt xs) :
    Looks c (listMelSort (tick lt) xs) (xs.length - 1) xs ∧ Looks c (flistMelSort (tick lt) xs) (xs.length - 1) xs := by
  unfold listMelSort flistMelSort
  split
  · exact ⟨(Looks.pure _).cast (by omega) rfl, (Looks.pure _).cast (by omega) rfl⟩
  · obtain _ | ⟨x, ys⟩ := xs
    · simp at *
    · simp only [List.length_cons, List.drop_one, List.tail_cons, Nat.add_sub_cancel]
      constructor
      · refine (Looks.bind (nth_looks (x := x) rfl) (Looks.bind0 (listEncroach_sorted ys [] x hs) ?_)).cast (by omega) rfl
        rw [mergeLists, if_neg (by simp)]
        exact Looks.bind0 (Looks.pure _) (nth_looks rfl)
      · refine (Looks.bind (nth_looks (x := x) rfl) (Looks.bind0 (flistEncroach_sorted ys [] x hs) ?_)).cast
          (by omega) rfl
        rw [mergeLists, if_neg (by simp)]
        exact Looks.bind0 (Looks.pure _) (nth_looks rfl)

end CppSort
