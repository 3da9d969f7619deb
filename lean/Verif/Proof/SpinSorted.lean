import Verif.Proof.SpinCost
import Verif.Proof.SmoothSorted
import Verif.Proof.TimCost
import Verif.Proof.PdqCost
/-
spin_sorter on sorted ranges.
-/
set_option autoImplicit false

namespace CppSort
variable {α : Type} {lt : α → α → Bool}

theorem isSortedUntilLoop_looks {f l : Nat} {v : Nat → α} {c : Nat → Cell α} (hh : Holds c f l v) (hn : Neigh lt f l v) :
    ∀ n i, f ≤ i → i < l → l - i - 1 = n → Looks c (isSortedUntilLoop (tick lt) i l) n l := by
  intro n
  induction n with
  | zero =>
    intro i h1 h2 h3
    rw [isSortedUntilLoop]
    rw [if_neg (by omega)]
    exact Looks.pure _
  | succ n ih =>
    intro i h1 h2 h3
    rw [isSortedUntilLoop]
    rw [if_pos (by omega)]
    refine looks_cmp (hh (i + 1) (by omega) (by omega)) (hh i (by omega) (by omega)) ?_
    rw [hn i h1 (by omega), if_neg (by simp)]
    exact ih (i + 1) (by omega) (by omega) (by omega)

theorem checkStableSort_looks {f l aux al : Nat} {v : Nat → α} {c : Nat → Cell α} (hh : Holds c f l v)
    (hn : Neigh lt f l v) (h : 32 ≤ l - f) : Looks c (checkStableSort (tick lt) f l aux al) (l - f - 1) true := by
  rw [checkStableSort]
  dsimp only
  rw [if_neg (by omega), isSortedUntil, if_pos (by omega)]
  have := isSortedUntilLoop_looks hh hn (l - f - 1) f (Nat.le_refl _) (by omega) rfl
  refine (this.bind (k' := 0) (r' := true) ?_).cast (by omega) rfl
  rw [if_pos rfl]
  exact Looks.pure _

/-- `m` returns, and what is known of its runs holds. -/
theorem wp.with {β : Type} {m : M α β} {Q P : β → St α → Prop} {s : St α} (h : CppSort.wp m Q s)
    (hp : ∀ r s', m s = some (.ok r, s') → P r s') : CppSort.wp m (fun r s' => Q r s' ∧ P r s') s := by
  obtain ⟨r, s', h1, h2⟩ := h
  exact ⟨r, s', h1, h2, hp r s' h1⟩

/-- range_sort on a sorted range of more than 1024 elements, which is in the first range if `level` is odd. -/
theorem rangeSort_sorted [Inhabited α] {level f1 f2 n : Nat} {xs : List α} {s : St α} (hx : xs.length = n)
    (hn : 1024 < n) (hso : SortedList lt xs) (h1 : level % 2 = 1 → Seg s.cell f1 xs)
    (h2 : level % 2 = 0 → Seg s.cell f2 xs) : ∀ r s',
    rangeSort (tick lt) f1 (f1 + n) f2 (f2 + n) level s = some (.ok r, s') → s'.cmps = s.cmps + (n - 1) := by
  subst hx
  have key : ∀ f aux al, Seg s.cell f xs → Looks s.cell (checkStableSort (tick lt) f (f + xs.length) aux al)
      (xs.length - 1) true := by
    intro f aux al hs
    obtain ⟨v, hh, he⟩ := hs.holds
    have ho : SortedOn lt f (f + xs.length) v := sortedOn_iff.2 (by rw [he]; exact hso)
    exact (checkStableSort_looks hh (fun i h1 h2 => ho i (i + 1) h1 (Nat.lt_succ_self _) h2) (by omega)).cast
      (by omega) rfl
  intro r s' hr
  rw [rangeSort] at hr
  dsimp only at hr
  rw [if_pos (by omega)] at hr
  obtain ⟨d, sd, hd, hr⟩ := bind_inv hr
  have hc : d = true ∧ sd.cmps = s.cmps + (xs.length - 1) := by
    split at hd
    · rename_i hp
      obtain ⟨s1, e1, -, e3⟩ := key f2 _ _ (h2 hp) s rfl
      rw [e1] at hd
      cases hd
      exact ⟨rfl, e3⟩
    · obtain ⟨b, s1, hb, hd⟩ := bind_inv hd
      obtain ⟨s2, e1, -, e3⟩ := key f1 _ _ (h1 (by omega)) s rfl
      rw [e1] at hb
      cases hb
      rw [if_pos rfl] at hd
      obtain ⟨q, s2, hq, hd⟩ := bind_inv hd
      have := ((moveRange_silent' _ _ _ _ _) _ _ _ hq).1
      cases hd
      exact ⟨rfl, by omega⟩
  obtain ⟨rfl, hc⟩ := hc
  rw [if_pos rfl] at hr
  cases hr
  exact hc

/-- What follows the allocation, up to the last merge, on a sorted range. -/
theorem spin_mid_sorted [Inhabited α] (hlt : StrictWeak lt) {f : Nat} {xs : List α} {s : St α} (hw : s.WF) (hs : Seg s.cell f xs)
    (hbig : 2050 ≤ xs.length) (hso : SortedList lt xs) :
    ∃ n1 n2, n1 = (xs.length + 1) / 2 ∧ n2 = xs.length - n1 ∧
    (spinLevels xs.length % 2 = 1 → wp (do
        let buffer ← alloc n1
        let _ ← uninitMove (f + n2) (f + xs.length) buffer
        rangeSort (tick lt) buffer (buffer + n1) (f + n2) (f + xs.length) (spinLevels xs.length)
        rangeSort (tick lt) f (f + n2) buffer (buffer + n2) (spinLevels xs.length)
        pure buffer) (fun buf s' => buf = s.brk ∧ ∃ zs1 zs2, SpinMid lt f buf n1 (xs.take n2) (xs.drop n2) zs1 zs2 s s' ∧ s'.cmps = s.cmps + (xs.length - 2)) s) ∧
    (spinLevels xs.length % 2 = 0 → wp (do
        let buffer ← alloc n1
        let _ ← uninitMove f (f + n1) buffer
        rangeSort (tick lt) f (f + n1) buffer (buffer + n1) (spinLevels xs.length)
        rangeSort (tick lt) f (f + n2) (f + n1) (f + xs.length) (spinLevels xs.length)
        pure buffer) (fun buf s' => buf = s.brk ∧ ∃ zs1 zs2, SpinMid lt f buf n1 (xs.take n1) (xs.drop n1) zs1 zs2 s s' ∧ s'.cmps = s.cmps + (xs.length - 2)) s) := by
  generalize hn1 : (xs.length + 1) / 2 = n1
  generalize hn2 : xs.length - n1 = n2
  refine ⟨n1, n2, rfl, hn2.symm, ?_, ?_⟩
  all_goals
    have hbrk := hs.below hw (by omega)
    have hlv : 1 ≤ spinLevels xs.length := by
      unfold spinLevels
      have h2 : 2 ^ 1 ≤ (xs.length + 35) / 36 - 1 := by omega
      exact (Nat.le_log2 (by omega)).2 h2
    generalize spinLevels xs.length = lv at hlv
    intro hpar
  · obtain ⟨xs1, xs2, hx, hx1, hx2⟩ : ∃ xs1 xs2, xs = xs1 ++ xs2 ∧ xs1.length = n2 ∧ xs2.length = n1 :=
      ⟨xs.take n2, xs.drop n2, (List.take_append_drop _ _).symm, by simp; omega, by simp; omega⟩
    rw [show xs.take n2 = xs1 by rw [hx, ← hx1]; simp, show xs.drop n2 = xs2 by rw [hx, ← hx1]; simp]
    obtain ⟨q1, q2⟩ := seg_append.1 (hx ▸ hs)
    rw [hx1] at q2
    obtain ⟨o1, o2, -⟩ := sortedList_append.1 (hx ▸ hso)
    apply wp_bind
    refine wp_alloc fun s1 b1 b2 b3 b4 b5 _ => ?_
    apply wp_bind
    refine wp_mono (wp.silent (uninitMove_seg (s0 := s1) xs2 (f + n2) (f + xs.length) s.brk s1 (by omega)
      (q2.congr fun i a b => b2 i (by omega)) (fun i a b => b1 i a (by omega)) rfl) (uninitMove_silent _ _ _)) ?_
    rintro _ s2 ⟨⟨_, k2, k3, k4, k5⟩, k6⟩
    have hw1 : s1.WF := fun i hi => by rw [b3] at hi; rw [b2 i (by omega)]; exact hw i (by omega)
    have hw2 : s2.WF := by
      intro i hi
      rw [St.env_brk k5, b3] at hi
      rw [k4 i (by omega) (by omega)]
      exact hw1 i (by omega)
    apply wp_bind
    have r1 := (rangeSort_spec hlt n1 lv s.brk (f + n2) xs2 s2 hlv hx2 (by omega) hw2
      (fun _ => ⟨k2, fun i a b => .inl (k3 i a (by omega))⟩) (fun e => by omega)).with
      (rangeSort_sorted hx2 (by omega) o2 (fun _ => k2) (fun e => by omega))
    rw [show f + n2 + n1 = f + xs.length by omega] at r1
    refine wp_mono r1 ?_
    rintro _ s3 ⟨⟨zs2, g1, g2, g3⟩, g4⟩
    have q1' : Seg s3.cell f xs1 := q1.congr fun i a b => by
      rw [g3.rest i (by omega) (by omega), k4 i (by omega) (by omega), b2 i (by omega)]
    have hb3 : ∀ i, s.brk ≤ i → i < s.brk + n1 → Live s3.cell i := fun i a b => g3.live i (k2.live a (by omega))
    apply wp_bind
    refine wp_mono ((rangeSort_spec hlt n2 lv f s.brk xs1 s3 hlv hx1 (by omega) g3.wf
      (fun _ => ⟨q1', fun i a b => hb3 i a (by omega)⟩) (fun e => by omega)).with
      (rangeSort_sorted hx1 (by omega) o1 (fun _ => q1') (fun e => by omega))) ?_
    rintro _ s4 ⟨⟨zs1, j1, j2, j3⟩, j4⟩
    have lz2 := g1.len
    refine wp_pure ⟨rfl, zs1, zs2, ⟨j1, g1, j2, ?_, ?_, ?_, ?_, j3.wf⟩, by omega⟩
    · rw [hx1]
      exact g2.congr fun i a b => j3.rest i (by omega) (by omega)
    · intro i a b
      exact j3.live i (q1'.live a (by omega))
    · intro i a b
      exact j3.live i (hb3 i a b)
    · intro i a b
      rw [j3.rest i (by omega) (by omega), g3.rest i (by omega) (by omega), k4 i (by omega) (by omega), b2 i (by omega)]
  · obtain ⟨xs1, xs2, hx, hx1, hx2⟩ : ∃ xs1 xs2, xs = xs1 ++ xs2 ∧ xs1.length = n1 ∧ xs2.length = n2 :=
      ⟨xs.take n1, xs.drop n1, (List.take_append_drop _ _).symm, by simp; omega, by simp; omega⟩
    rw [show xs.take n1 = xs1 by rw [hx, ← hx1]; simp, show xs.drop n1 = xs2 by rw [hx, ← hx1]; simp]
    obtain ⟨q1, q2⟩ := seg_append.1 (hx ▸ hs)
    rw [hx1] at q2
    obtain ⟨o1, o2, -⟩ := sortedList_append.1 (hx ▸ hso)
    apply wp_bind
    refine wp_alloc fun s1 b1 b2 b3 b4 b5 _ => ?_
    apply wp_bind
    refine wp_mono (wp.silent (uninitMove_seg (s0 := s1) xs1 f (f + n1) s.brk s1 (by omega)
      (q1.congr fun i a b => b2 i (by omega)) (fun i a b => b1 i a (by omega)) rfl) (uninitMove_silent _ _ _)) ?_
    rintro _ s2 ⟨⟨_, k2, k3, k4, k5⟩, k6⟩
    have hw1 : s1.WF := fun i hi => by rw [b3] at hi; rw [b2 i (by omega)]; exact hw i (by omega)
    have hw2 : s2.WF := by
      intro i hi
      rw [St.env_brk k5, b3] at hi
      rw [k4 i (by omega) (by omega)]
      exact hw1 i (by omega)
    apply wp_bind
    refine wp_mono ((rangeSort_spec hlt n1 lv f s.brk xs1 s2 hlv hx1 (by omega) hw2
      (fun e => by omega) (fun _ => ⟨k2, fun i a b => .inl (k3 i a (by omega))⟩)).with
      (rangeSort_sorted hx1 (by omega) o1 (fun e => by omega) (fun _ => k2))) ?_
    rintro _ s3 ⟨⟨zs1, g1, g2, g3⟩, g4⟩
    have q2' : Seg s3.cell (f + n1) xs2 := q2.congr fun i a b => by
      rw [g3.rest i (by omega) (by omega), k4 i (by omega) (by omega), b2 i (by omega)]
    have hf3 : ∀ i, f ≤ i → i < f + n1 → Live s3.cell i := fun i a b => g3.live i (.inl (k3 i a (by omega)))
    apply wp_bind
    have r2 := (rangeSort_spec hlt n2 lv f (f + n1) xs2 s3 hlv hx2 (by omega) g3.wf
      (fun e => by omega) (fun _ => ⟨q2', fun i a b => hf3 i a (by omega)⟩)).with
      (rangeSort_sorted hx2 (by omega) o2 (fun e => by omega) (fun _ => q2'))
    rw [show f + n1 + n2 = f + xs.length by omega] at r2
    refine wp_mono r2 ?_
    rintro _ s4 ⟨⟨zs2, j1, j2, j3⟩, j4⟩
    have lz1 := g1.len
    refine wp_pure ⟨rfl, zs1, zs2, ⟨g1, j1, ?_, ?_, ?_, ?_, ?_, j3.wf⟩, by omega⟩
    · exact g2.congr fun i a b => j3.rest i (by omega) (by omega)
    · rw [hx1]; exact j2
    · intro i a b
      exact j3.live i (hf3 i a (by omega))
    · intro i a b
      exact j3.live i (g2.live a (by omega))
    · intro i a b
      rw [j3.rest i (by omega) (by omega), g3.rest i (by omega) (by omega), k4 i (by omega) (by omega), b2 i (by omega)]

/-- The last merge of two halves in order. -/
theorem spin_end_sorted (hlt : StrictWeak lt) {f n1 : Nat} {xs xs1 xs2 zs1 zs2 : List α} {s0 s : St α} (hw : s0.WF)
    (hx : xs = xs1 ++ xs2) (hb : f + xs.length ≤ s0.brk) (hn1 : xs1.length ≤ n1)
    (h : SpinMid lt f s0.brk n1 xs1 xs2 zs1 zs2 s0 s) (hf : HalfFits lt xs1 xs2) (hso : SortedList lt xs)
    (h1 : 0 < xs1.length) (h2 : 0 < xs2.length) (h3 : 1024 ≤ xs.length) :
    wp (do
        spinMergeHalf (tick lt) s0.brk (s0.brk + xs1.length) (f + xs1.length) (f + xs.length) f
        destroyN s0.brk n1
        free s0.brk n1) (fun _ s' => s'.cmps = s.cmps + 1) s := by
  obtain ⟨r, s', hr, -⟩ := spin_end hlt hw hx hb hn1 h hf
  refine ⟨r, s', hr, ?_⟩
  obtain ⟨q, s1, e1, e2⟩ := bind_inv hr
  have l1 := h.s1.len
  have l2 := h.s2.len
  have lx : xs.length = xs1.length + xs2.length := by rw [hx, List.length_append]
  have sil := ((destroyN_silent n1 s0.brk).bind fun _ => silent_free s0.brk n1) s1 r s' e2
  obtain ⟨-, -, o3⟩ := sortedList_append.1 (hx ▸ hso)
  have a1 := h.seg1 (zs1.length - 1) (by omega)
  have a2 := h.seg2 0 (by omega)
  have ho : lt zs2[0] zs1[zs1.length - 1] = false :=
    o3 _ (h.s1.1.mem_iff.1 (List.getElem_mem _)) _ (h.s2.1.mem_iff.1 (List.getElem_mem _))
  rw [spinMergeHalf_eq] at e1
  obtain ⟨d, sd, hd, e1⟩ := bind_inv e1
  have hc : d = true ∧ sd.cmps = s.cmps + 1 := by
    unfold spinTests at hd
    rw [if_pos (by omega), if_neg (by omega), if_neg (by omega)] at hd
    have r2 : s.cell (f + xs1.length) = .val zs2[0] := by rw [← a2]; rfl
    have r1 : s.cell (s0.brk + xs1.length - 1) = .val zs1[zs1.length - 1] := by rw [← a1]; congr 1; omega
    obtain ⟨x, t1, hx1, hd⟩ := bind_inv hd
    obtain ⟨y, t2, hy1, hd⟩ := bind_inv hd
    obtain ⟨z, t3, hz1, hd⟩ := bind_inv hd
    obtain ⟨u1, e1, e2, e3⟩ := looks_read r2 s rfl
    rw [e1] at hx1
    cases hx1
    obtain ⟨u2, f1, f2, f3⟩ := looks_read r1 t1 e2
    rw [f1] at hy1
    cases hy1
    obtain ⟨u3, g1, g2, g3⟩ := looks_tick (lt := lt) zs2[0] zs1[zs1.length - 1] t2 rfl
    rw [g1] at hz1
    cases hz1
    rw [ho, if_pos (by rfl)] at hd
    obtain ⟨w, t4, hw1, hd⟩ := bind_inv hd
    have := ((moveRange_silent' _ _ _ _ _) _ _ _ hw1).1
    cases hd
    exact ⟨rfl, by omega⟩
  obtain ⟨rfl, hc⟩ := hc
  rw [if_pos rfl] at e1
  cases e1
  omega

theorem spinsort_sorted [Inhabited α] (hlt : StrictWeak lt) {s : St α} {f : Nat} {xs : List α} (hw : s.WF)
    (hs : Seg s.cell f xs) (hso : SortedList lt xs) (hbig : 2050 ≤ xs.length) :
    wp (spinsort (tick lt) f (f + xs.length)) (fun _ s' => s'.cmps = s.cmps + (xs.length - 1)) s := by
  unfold spinsort
  dsimp only
  rw [show f + xs.length - f = xs.length by omega, if_neg (by omega)]
  obtain ⟨n1, n2, hn1, hn2, ho, he⟩ := spin_mid_sorted hlt hw hs hbig hso
  have hbrk := hs.below hw (by omega)
  rw [← hn1, ← hn2]
  by_cases hp : spinLevels xs.length % 2 = 1
  · simp only [if_pos hp]
    have hx1 : (xs.take n2).length = n2 := by simp; omega
    have hx2 : (xs.drop n2).length = n1 := by simp; omega
    refine wp_assoc5 (wp_mono (ho hp) ?_)
    rintro _ s' ⟨rfl, zs1, zs2, hm, hc⟩
    have := spin_end_sorted hlt hw (List.take_append_drop n2 xs).symm hbrk (by omega) hm
      (.inl (by omega)) hso (by omega) (by omega) (by omega)
    rw [hx1] at this
    exact wp_mono this fun _ s'' h => by omega
  · simp only [if_neg hp]
    have hx1 : (xs.take n1).length = n1 := by simp; omega
    have hx2 : (xs.drop n1).length = n2 := by simp; omega
    refine wp_assoc5 (wp_mono (he (by omega)) ?_)
    rintro _ s' ⟨rfl, zs1, zs2, hm, hc⟩
    have := spin_end_sorted hlt hw (List.take_append_drop n1 xs).symm hbrk (by omega) hm ?_ hso (by omega) (by omega)
      (by omega)
    · rw [hx1] at this
      exact wp_mono this fun _ s'' h => by omega
    · unfold HalfFits
      rw [hx1, hx2]
      by_cases c : xs.length % 2 = 0
      · left; omega
      · right; exact ⟨by omega, .inl (by omega)⟩

end CppSort
