import Verif.Proof.SegFind
import Verif.Proof.Insertion
import Verif.Proof.HalfMerge
/-
spinsort sorts stably.
-/
set_option autoImplicit false

namespace CppSort
variable {α : Type} {lt : α → α → Bool}

/-- Only the ranges `[f, f+n)` and `[g, g+m)` changed; what was alive still is. -/
structure Work (f n g m : Nat) (s s' : St α) : Prop where
  live : ∀ i, Live s.cell i → Live s'.cell i
  rest : ∀ i, (i < f ∨ f + n ≤ i) → (i < g ∨ g + m ≤ i) → s'.cell i = s.cell i
  wf : s'.WF

theorem Work.trans {f n g m : Nat} {s s' s'' : St α} (h : Work f n g m s s') (h' : Work f n g m s' s'') :
    Work f n g m s s'' :=
  ⟨fun i hi => h'.live i (h.live i hi), fun i h1 h2 => (h'.rest i h1 h2).trans (h.rest i h1 h2), h'.wf⟩

theorem Work.mono {f n g m f' n' g' m' : Nat} {s s' : St α} (h : Work f n g m s s')
    (h1 : ∀ i, (i < f' ∨ f' + n' ≤ i) → (i < g' ∨ g' + m' ≤ i) → (i < f ∨ f + n ≤ i) ∧ (i < g ∨ g + m ≤ i)) :
    Work f' n' g' m' s s' :=
  ⟨h.live, fun i a b => h.rest i (h1 i a b).1 (h1 i a b).2, h.wf⟩

theorem Work.refl {f n g m : Nat} {s : St α} (hw : s.WF) : Work f n g m s s :=
  ⟨fun _ h => h, fun _ _ _ => rfl, hw⟩

theorem Work.cmps {f n g m k : Nat} {s s' : St α} (h : Work f n g m { s with cmps := k } s') : Work f n g m s s' :=
  ⟨h.live, h.rest, h.wf⟩

/-- From the effect on single cells. -/
theorem Work.of {f n g m : Nat} {s s' : St α} (hw : s.WF) (he : s'.env = s.env)
    (h1 : ∀ i, f ≤ i → i < f + n → Live s.cell i ∧ Live s'.cell i)
    (h2 : ∀ i, g ≤ i → i < g + m → Live s.cell i ∧ Live s'.cell i)
    (h3 : ∀ i, (i < f ∨ f + n ≤ i) → (i < g ∨ g + m ≤ i) → s'.cell i = s.cell i) : Work f n g m s s' := by
  refine ⟨fun i hi => ?_, h3, hw.of_live (St.env_brk he) fun i => ?_⟩
  · by_cases c1 : f ≤ i ∧ i < f + n
    · exact (h1 i c1.1 c1.2).2
    · by_cases c2 : g ≤ i ∧ i < g + m
      · exact (h2 i c2.1 c2.2).2
      · unfold Live; rw [h3 i (by omega) (by omega)]; exact hi
  · by_cases c1 : f ≤ i ∧ i < f + n
    · exact .inr (h1 i c1.1 c1.2).1
    · by_cases c2 : g ≤ i ∧ i < g + m
      · exact .inr (h2 i c2.1 c2.2).1
      · exact .inl (h3 i (by omega) (by omega))

theorem SSorted.len {xs ys : List α} (h : SSorted lt xs ys) : ys.length = xs.length := h.1.length_eq

theorem insertionSort_stably [Inhabited α] (hlt : StrictWeak lt) : SortsStably lt (insertionSort (tick lt)) :=
  sortsStably_of_w fun _ _ _ _ hfl _ hh => wp_mono (insertionSort_spec hlt hfl hh) fun _ _ ⟨v', h1, h2, _⟩ => ⟨v', h1, h2⟩

/-- `insertion_sort` as work on one range. -/
theorem insertionSort_work [Inhabited α] (hlt : StrictWeak lt) {xs : List α} {f l : Nat} {s : St α} (hw : s.WF)
    (hl : l = f + xs.length) (hs : Seg s.cell f xs) (g m : Nat) :
    wp (insertionSort (tick lt) f l) (fun _ s' => ∃ ys, SSorted lt xs ys ∧ Seg s'.cell f ys ∧
      Work f xs.length g m s s') s := by
  refine wp_mono ((insertionSort_stably hlt).run hw hs hl) ?_
  rintro _ s' ⟨ys, h1, h2, h3, h4, h5, h6⟩
  refine ⟨ys, ⟨h1, h2, h3⟩, h4, ⟨fun i hi => ?_, fun i a _ => h5 i (by omega), h6⟩⟩
  by_cases c : f ≤ i ∧ i < f + ys.length
  · exact h4.live c.1 c.2
  · unfold Live; rw [h5 i (by rw [h1.length_eq] at c; omega)]; exact hi

/-- `detail::move` as work. -/
theorem moveRange_work {xs : List α} {a l b : Nat} {s : St α} (hw : s.WF) (hl : l = a + xs.length)
    (hd : b + xs.length ≤ a ∨ a + xs.length ≤ b) (hs : Seg s.cell a xs)
    (hb : ∀ i, b ≤ i → i < b + xs.length → Live s.cell i) :
    wp (moveRange id id a l b) (fun r s' => r = b + xs.length ∧ Seg s'.cell b xs ∧
      Work a xs.length b xs.length s s') s := by
  by_cases hx : xs = []
  · subst hx
    rw [moveRange, if_neg (by simp at hl; omega)]
    exact wp_pure ⟨rfl, Seg.nil, Work.refl hw⟩
  have := List.length_pos_iff.2 hx
  refine wp_mono (moveRange_seg (s0 := s) xs a l b s hl (by omega) hs hb rfl) ?_
  rintro r s' ⟨k1, k2, k3, k4, k5, _⟩
  exact ⟨k1, k2, Work.of hw k5 (fun i h1 h2 => ⟨hs.live h1 h2, .inl (k3 i h1 h2 (by omega))⟩)
    (fun i h1 h2 => ⟨hb i h1 h2, k2.live h1 h2⟩) k4⟩

/-- The two tests of `merge`: the ends of two sorted lists decide about all their elements. -/
theorem ends_before (hlt : StrictWeak lt) {xs ys : List α} {x y : α} (hx : SortedList lt (xs ++ [x]))
    (hy : SortedList lt (y :: ys)) (h : lt y x = false) : ∀ u ∈ xs ++ [x], ∀ w ∈ y :: ys, lt w u = false := by
  intro u hu w hw
  have h1 : lt x u = false := by
    rcases List.mem_append.1 hu with hu | hu
    · exact (sortedList_append.1 hx).2.2 u hu x (by simp)
    · rw [List.mem_singleton.1 hu]; exact hlt.irrefl x
  have h2 : lt w y = false := by
    rcases List.mem_cons.1 hw with hw | hw
    · rw [hw]; exact hlt.irrefl y
    · exact (sortedList_cons.1 hy).1 w hw
  exact hlt.le_trans (hlt.le_trans h1 h) h2

theorem ends_after (hlt : StrictWeak lt) {xs ys : List α} {x y : α} (hx : SortedList lt (x :: xs))
    (hy : SortedList lt (ys ++ [y])) (h : lt y x = true) : ∀ u ∈ x :: xs, ∀ w ∈ ys ++ [y], lt w u = true := by
  intro u hu w hw
  have h1 : lt u x = false := by
    rcases List.mem_cons.1 hu with hu | hu
    · rw [hu]; exact hlt.irrefl x
    · exact (sortedList_cons.1 hx).1 u hu
  have h2 : lt y w = false := by
    rcases List.mem_append.1 hw with hw | hw
    · exact (sortedList_append.1 hy).2.2 w hw y (by simp)
    · rw [List.mem_singleton.1 hw]; exact hlt.irrefl y
  exact hlt.lt_of_le_of_lt h2 (hlt.lt_of_lt_of_le h h1)

theorem exists_snoc {xs : List α} (h : xs ≠ []) : ∃ ys y, xs = ys ++ [y] :=
  ⟨_, _, (List.dropLast_append_getLast h).symm⟩

/-- boost_common/util/merge.h `merge`. -/
theorem spinMerge_seg (hlt : StrictWeak lt) {xs ys : List α} {a e1 e2 r : Nat} {s : St α} (hw : s.WF)
    (he1 : e1 = a + xs.length) (he2 : e2 = e1 + ys.length)
    (hd : r + (xs.length + ys.length) ≤ a ∨ e2 ≤ r) (hx : Seg s.cell a xs) (hy : Seg s.cell e1 ys)
    (ox : SortedList lt xs) (oy : SortedList lt ys)
    (hr : ∀ i, r ≤ i → i < r + (xs.length + ys.length) → Live s.cell i) :
    wp (spinMerge (tick lt) a e1 e1 e2 r) (fun _ s' => Seg s'.cell r (mergeL lt xs ys) ∧
      Work a (xs.length + ys.length) r (xs.length + ys.length) s s') s := by
  -- two moves, the second range after the first or before it
  have hmove12 : ∀ s : St α, s.WF → Seg s.cell a xs → Seg s.cell e1 ys →
      (∀ i, r ≤ i → i < r + (xs.length + ys.length) → Live s.cell i) →
      wp (do let mid ← moveRange id id a e1 r; let _ ← moveRange id id e1 e2 mid; pure true : M α Bool)
        (fun b s' => b = true ∧ Seg s'.cell r (xs ++ ys) ∧
          Work a (xs.length + ys.length) r (xs.length + ys.length) s s') s := by
    intro s hw hx hy hr
    apply wp_bind
    refine wp_mono (moveRange_work hw he1 (by omega) hx (fun i h1 h2 => hr i h1 (by omega))) ?_
    rintro _ s1 ⟨rfl, k2, k3⟩
    apply wp_bind
    refine wp_mono (moveRange_work k3.wf he2 (by omega)
      (hy.congr fun i h1 h2 => k3.rest i (by omega) (by omega))
      (fun i h1 h2 => k3.live i (hr i (by omega) (by omega)))) ?_
    rintro _ s2 ⟨_, l2, l3⟩
    refine wp_pure ⟨rfl, seg_append.2 ⟨k2.congr fun i h1 h2 => l3.rest i (by omega) (by omega), l2⟩, ?_⟩
    exact (k3.mono fun i h1 h2 => by omega).trans (l3.mono fun i h1 h2 => by omega)
  have hmove21 : ∀ s : St α, s.WF → Seg s.cell a xs → Seg s.cell e1 ys →
      (∀ i, r ≤ i → i < r + (xs.length + ys.length) → Live s.cell i) →
      wp (do let mid ← moveRange id id e1 e2 r; let _ ← moveRange id id a e1 mid; pure true : M α Bool)
        (fun b s' => b = true ∧ Seg s'.cell r (ys ++ xs) ∧
          Work a (xs.length + ys.length) r (xs.length + ys.length) s s') s := by
    intro s hw hx hy hr
    apply wp_bind
    refine wp_mono (moveRange_work hw he2 (by omega) hy (fun i h1 h2 => hr i h1 (by omega))) ?_
    rintro _ s1 ⟨rfl, k2, k3⟩
    apply wp_bind
    refine wp_mono (moveRange_work k3.wf he1 (by omega)
      (hx.congr fun i h1 h2 => k3.rest i (by omega) (by omega))
      (fun i h1 h2 => k3.live i (hr i (by omega) (by omega)))) ?_
    rintro _ s2 ⟨_, l2, l3⟩
    refine wp_pure ⟨rfl, seg_append.2 ⟨k2.congr fun i h1 h2 => l3.rest i (by omega) (by omega), l2⟩, ?_⟩
    exact (k3.mono fun i h1 h2 => by omega).trans (l3.mono fun i h1 h2 => by omega)
  unfold spinMerge
  apply wp_bind
  refine wp_mono (Q := fun b s' => if b then Seg s'.cell r (mergeL lt xs ys) ∧
      Work a (xs.length + ys.length) r (xs.length + ys.length) s s' else ∃ k, s' = { s with cmps := k }) ?_ ?_
  · split
    · split
      · have : xs = [] := List.length_eq_zero_iff.1 (by omega)
        subst this
        simp only [List.length_nil, Nat.zero_add] at *
        apply wp_bind
        refine wp_mono (moveRange_work hw he2 (by omega) hy (fun i h1 h2 => hr i h1 (by omega))) ?_
        rintro _ s1 ⟨rfl, k2, k3⟩
        refine wp_pure ?_
        rw [if_pos rfl, mergeL_nil_left]
        exact ⟨k2, k3.mono fun i h1 h2 => by omega⟩
      · split
        · have : ys = [] := List.length_eq_zero_iff.1 (by omega)
          subst this
          simp only [List.length_nil, Nat.add_zero] at *
          apply wp_bind
          refine wp_mono (moveRange_work hw he1 (by omega) hx (fun i h1 h2 => hr i h1 (by omega))) ?_
          rintro _ s1 ⟨rfl, k2, k3⟩
          refine wp_pure ?_
          rw [if_pos rfl, mergeL_nil_right]
          exact ⟨k2, k3⟩
        · rename_i c1 c2
          have nx : xs ≠ [] := by intro e; subst e; simp at he1; omega
          have ny : ys ≠ [] := by intro e; subst e; simp at he2; omega
          obtain ⟨y, ys', ey⟩ := List.exists_cons_of_ne_nil ny
          obtain ⟨xs', x, ex⟩ := exists_snoc nx
          apply wp_bind
          refine wp_read' (x := y) (by rw [ey] at hy; exact (seg_cons.1 hy).1) ?_
          apply wp_bind
          refine wp_read' (x := x) (by
            rw [ex] at hx he1
            rw [List.length_append, List.length_singleton] at he1
            rw [show e1 - 1 = a + xs'.length by omega]; exact (seg_snoc.1 hx).2) ?_
          apply wp_bind
          refine wp_tick ?_
          split
          · rename_i hc
            refine wp_mono (hmove12 { s with cmps := s.cmps + 1 } hw hx hy hr) ?_
            rintro b s' ⟨rfl, k2, k3⟩
            rw [if_pos rfl, mergeL_before]
            · exact ⟨k2, k3.cmps⟩
            · rw [ex, ey]
              rw [ex] at ox
              rw [ey] at oy
              exact ends_before hlt ox oy (by simpa using hc)
          · obtain ⟨x0, xs0, ex0⟩ := List.exists_cons_of_ne_nil nx
            obtain ⟨ys0, y0, ey0⟩ := exists_snoc ny
            apply wp_bind
            refine wp_read' (x := y0) (by
              rw [ey0] at hy he2
              rw [List.length_append, List.length_singleton] at he2
              show s.cell _ = _
              rw [show e2 - 1 = e1 + ys0.length by omega]; exact (seg_snoc.1 hy).2) ?_
            apply wp_bind
            refine wp_read' (x := x0) (by rw [ex0] at hx; exact (seg_cons.1 hx).1) ?_
            apply wp_bind
            refine wp_tick ?_
            split
            · rename_i hc
              refine wp_mono (hmove21 { s with cmps := s.cmps + 1 + 1 } hw hx hy hr) ?_
              rintro b s' ⟨rfl, k2, k3⟩
              rw [if_pos rfl, mergeL_after]
              · exact ⟨k2, k3.cmps⟩
              · rw [ex0, ey0]
                rw [ex0] at ox
                rw [ey0] at oy
                exact ends_after hlt ox oy hc
            · refine wp_pure ?_
              rw [if_neg (by simp)]
              exact ⟨_, rfl⟩
    · refine wp_pure ?_
      rw [if_neg (by simp)]
      exact ⟨s.cmps, rfl⟩
  · intro b s' hb
    cases b with
    | true => exact wp_pure hb
    | false =>
      obtain ⟨k, rfl⟩ := hb
      apply wp_bind
      refine wp_mono (mergeMove_seg (s := { s with cmps := k }) he1 he2 (by omega) (fun i h1 h2 => by omega) hx hy hr) ?_
      rintro _ s' ⟨_, k2, k3, k4, k5⟩
      refine wp_pure ⟨k2, Work.of hw k5 ?_ ?_ ?_⟩
      · intro i h1 h2
        refine ⟨?_, .inl (k3 i (by omega))⟩
        by_cases c : i < e1
        · exact hx.live h1 (by omega)
        · exact hy.live (by omega) (by omega)
      · intro i h1 h2
        have := k2.live (i := i) h1
        rw [(mergeL_perm xs ys).length_eq, List.length_append] at this
        exact ⟨hr i h1 h2, this h2⟩
      · intro i h1 h2
        exact k4 i (by omega) (by omega) h2

/-- `range_sort` on ranges of `n` elements. -/
def RangeSpec (lt : α → α → Bool) (n : Nat) : Prop := ∀ (level f1 f2 : Nat) (xs : List α) (s : St α),
  1 ≤ level → xs.length = n → (f1 + n ≤ f2 ∨ f2 + n ≤ f1) → s.WF →
  (level % 2 = 1 → Seg s.cell f1 xs ∧ ∀ i, f2 ≤ i → i < f2 + n → Live s.cell i) →
  (level % 2 = 0 → Seg s.cell f2 xs ∧ ∀ i, f1 ≤ i → i < f1 + n → Live s.cell i) →
  wp (rangeSort (tick lt) f1 (f1 + n) f2 (f2 + n) level) (fun _ s' => ∃ ys, SSorted lt xs ys ∧
    Seg s'.cell f2 ys ∧ Work f1 n f2 n s s') s

theorem sortRangeSort_of [Inhabited α] (hlt : StrictWeak lt) {n : Nat} (h : RangeSpec lt n) {f l aux al : Nat} {xs : List α}
    {s : St α} (hn : xs.length = n) (hl : l = f + n) (hd : aux + n ≤ f ∨ f + n ≤ aux) (hw : s.WF) (hs : Seg s.cell f xs)
    (ha : ∀ i, aux ≤ i → i < aux + n → Live s.cell i) :
    wp (sortRangeSort (tick lt) f l aux al) (fun _ s' => ∃ ys, SSorted lt xs ys ∧ Seg s'.cell f ys ∧
      Work f n aux n s s') s := by
  subst hl
  have hsz : f + n - f = n := by omega
  rw [sortRangeSort]
  dsimp only
  rw [hsz]
  split
  · refine wp_mono (insertionSort_work hlt hw (by omega) hs aux n) ?_
    rintro _ s' ⟨ys, h1, h2, h3⟩
    exact ⟨ys, h1, h2, hn ▸ h3⟩
  · split
    · rename_i hev
      refine wp_mono (h _ aux f xs s (by omega) hn hd hw (fun e => by omega) (fun _ => ⟨hs, ha⟩)) ?_
      rintro _ s' ⟨ys, h1, h2, h3⟩
      exact ⟨ys, h1, h2, h3.mono fun i a b => ⟨b, a⟩⟩
    · rename_i hev
      apply wp_bind
      refine wp_mono (h _ f aux xs s (by omega) hn (by omega) hw (fun _ => ⟨hs, ha⟩) (fun e => by omega)) ?_
      rintro _ s1 ⟨ys, h1, h2, h3⟩
      have hlen := h1.len
      apply wp_bind
      refine wp_mono (moveRange_work h3.wf (by omega) (by omega) h2 (b := f)
        (fun i a b => h3.live i (hs.live a (by omega)))) ?_
      rintro _ s2 ⟨_, k2, k3⟩
      exact wp_pure ⟨ys, h1, k2, h3.trans (k3.mono fun i a b => by omega)⟩

/-- The last elements are sorted apart and inserted into the others. -/
theorem sortInsert_of [Inhabited α] (hlt : StrictWeak lt) {A B us vs : List α} {f it last aux al : Nat} {s : St α}
    (h : RangeSpec lt vs.length) (hi : it = f + us.length) (hl : last = it + vs.length)
    (hd : aux + (us.length + vs.length) ≤ f ∨ last ≤ aux) (hw : s.WF) (hA : Seg s.cell f us) (ho : SortedList lt us)
    (hB : Seg s.cell it vs) (ha : ∀ i, aux ≤ i → i < aux + (us.length + vs.length) → Live s.cell i)
    (e1 : SSorted lt A us) (e2 : B = A ++ vs) :
    wp (do sortRangeSort (tick lt) it last aux al; insertPartialSort (tick lt) f it last aux; pure true : M α Bool)
      (fun b s' => b = true ∧ ∃ ys, SSorted lt B ys ∧ Seg s'.cell f ys ∧
        Work f (us.length + vs.length) aux (us.length + vs.length) s s') s := by
  apply wp_bind
  refine wp_mono (sortRangeSort_of hlt h rfl hl (by omega) hw hB (fun i a b => ha i a (by omega))) ?_
  rintro _ s1 ⟨ys, h1, h2, h3⟩
  have hlen := h1.len
  have hA1 : Seg s1.cell f us := hA.congr fun i a b => h3.rest i (by omega) (by omega)
  apply wp_bind
  refine wp_mono (insertPartialSort_seg hlt hi (by omega) (by omega) hA1 ho h2
    (fun i a b => h3.live i (ha i a (by omega)))) ?_
  rintro _ s2 ⟨k1, k2, k3, k4⟩
  refine wp_pure ⟨rfl, mergeL lt us ys, ?_, k1, ?_⟩
  · rw [e2]; exact e1.merge hlt h1
  · refine (h3.mono fun i a b => by omega).trans ?_
    have hml : (mergeL lt us ys).length = us.length + ys.length := by
      rw [(mergeL_perm us ys).length_eq, List.length_append]
    refine (Work.of (f := f) (n := us.length + vs.length) (g := aux) (m := vs.length) h3.wf k4 ?_ ?_ ?_).mono
      fun i a b => by omega
    · intro i a b
      refine ⟨?_, k1.live a (by omega)⟩
      by_cases c : i < it
      · exact hA1.live a (by omega)
      · exact h2.live (by omega) (by omega)
    · intro i a b
      exact ⟨h3.live i (ha i a (by omega)), k2 i a (by omega)⟩
    · intro i a b
      exact k3 i (by omega) (by omega)

theorem checkStableSort_of [Inhabited α] (hlt : StrictWeak lt) {n : Nat} (h : ∀ m, m < n → RangeSpec lt m) {f l aux al : Nat}
    {xs : List α} {s : St α} (hn : xs.length = n) (hl : l = f + n) (hd : aux + n ≤ f ∨ f + n ≤ aux) (hw : s.WF)
    (hs : Seg s.cell f xs) (ha : ∀ i, aux ≤ i → i < aux + n → Live s.cell i) :
    wp (checkStableSort (tick lt) f l aux al) (fun b s' => if b then ∃ ys, SSorted lt xs ys ∧ Seg s'.cell f ys ∧
      Work f n aux n s s' else ∃ k, s' = { s with cmps := k }) s := by
  subst hl
  have hsz : f + n - f = n := by omega
  rw [checkStableSort]
  dsimp only
  rw [hsz]
  generalize (if n / 8 < 33 then 32 else n / 8) = mi
  split
  · apply wp_bind
    refine wp_mono (insertionSort_work hlt hw (by omega) hs aux n) ?_
    rintro _ s' ⟨ys, h1, h2, h3⟩
    refine wp_pure ?_
    rw [if_pos rfl]
    exact ⟨ys, h1, h2, hn ▸ h3⟩
  · rename_i hbig
    have hne : xs ≠ [] := by intro e; subst e; simp at hn; omega
    apply wp_bind
    refine wp_mono (isSortedUntil_seg (by omega) hne hs) ?_
    rintro it s1 ⟨us, vs, k, e1, e2, e3, e4, e5, rfl⟩
    have hlen : us.length + vs.length = n := by rw [← hn, e1, List.length_append]
    have hup := List.length_pos_iff.2 e2
    have hsu := sorted_of_chain hlt e4
    split
    · have : vs = [] := List.length_eq_zero_iff.1 (by omega)
      subst this
      rw [List.append_nil] at e1
      subst e1
      refine wp_pure ?_
      rw [if_pos rfl]
      exact ⟨xs, SSorted.refl hsu, hs, ⟨fun _ h => h, fun _ _ _ => rfl, hw⟩⟩
    · split
      · have hs' := hs
        rw [e1] at hs'
        obtain ⟨q1, q2⟩ := seg_append.1 hs'
        refine wp_mono (sortInsert_of (s := { s with cmps := k }) hlt (h vs.length (by omega)) e3 (by omega) (by omega) hw q1 hsu
          (by rw [e3]; exact q2) (by rw [hlen]; exact ha) (SSorted.refl hsu) e1) ?_
        rintro b s' ⟨rfl, ys, k1, k2, k3⟩
        rw [if_pos rfl]
        rw [hlen] at k3
        exact ⟨ys, k1, k2, k3.cmps⟩
      · split
        · refine wp_pure ?_
          rw [if_neg (by simp)]
          exact ⟨_, rfl⟩
        · clear e1 e2 e3 e4 e5 hlen hup hsu
          clear us vs
          apply wp_bind
          rw [notC_tick]
          refine wp_mono (isSortedUntil_seg (by omega) hne (show Seg { s with cmps := k }.cell f xs from hs)) ?_
          rintro it s1 ⟨us, vs, k', e1, e2, e3, e4, e5, rfl⟩
          have hlen : us.length + vs.length = n := by rw [← hn, e1, List.length_append]
          have hup := List.length_pos_iff.2 e2
          have hsu := ssorted_reverse hlt (strict_of_chain hlt e4)
          have hs' := hs
          rw [e1] at hs'
          obtain ⟨q1, q2⟩ := seg_append.1 hs'
          split
          · refine wp_pure ?_
            rw [if_neg (by simp)]
            exact ⟨_, rfl⟩
          · apply wp_bind
            refine wp_mono (swapRangesRev_seg (s0 := s) us.length us f _ it { s with cmps := k' } rfl
              (by rw [e3]; congr 2; omega) (by omega) q1 rfl) ?_
            rintro _ s2 ⟨w1, w2, w3⟩
            have hw2 : Work f n aux n s s2 := Work.of (f := f) (n := us.length) (g := aux) (m := 0) hw w3
              (fun i a b => ⟨q1.live a b, w1.live a (by simpa using b)⟩) (fun i a b => by omega)
              (fun i a b => w2 i a) |>.mono fun i a b => by omega
            split
            · refine wp_mono (sortInsert_of hlt (h vs.length (by omega)) (us := us.reverse) (by simpa using e3) (by omega)
                (by simp; omega) hw2.wf w1 hsu.2.1
                ?_ (by rw [List.length_reverse, hlen]; exact fun i a b => hw2.live i (ha i a b)) hsu e1) ?_
              · rw [e3]
                exact q2.congr fun i a b => w2 i (by omega)
              · rintro b s' ⟨rfl, ys, k1, k2, k3⟩
                rw [if_pos rfl]
                rw [List.length_reverse, hlen] at k3
                exact ⟨ys, k1, k2, hw2.trans k3⟩
            · have : vs = [] := List.length_eq_zero_iff.1 (by omega)
              subst this
              rw [List.append_nil] at e1
              subst e1
              refine wp_pure ?_
              rw [if_pos rfl]
              exact ⟨_, hsu, w1, hw2⟩

theorem rangeSort_spec [Inhabited α] (hlt : StrictWeak lt) (n : Nat) : RangeSpec lt n := by
  induction n using Nat.strongRecOn with
  | _ n ihn =>
    intro level
    induction level with
    | zero => intros; omega
    | succ level ihl =>
      intro f1 f2 xs s _ hn hd hw ho he
      have hf1 : ∀ i, f1 ≤ i → i < f1 + n → Live s.cell i := by
        rcases Nat.mod_two_eq_zero_or_one (level + 1) with e | e
        · exact (he e).2
        · exact fun i a b => (ho e).1.live a (by omega)
      have hf2 : ∀ i, f2 ≤ i → i < f2 + n → Live s.cell i := by
        rcases Nat.mod_two_eq_zero_or_one (level + 1) with e | e
        · exact fun i a b => (he e).1.live a (by omega)
        · exact (ho e).2
      have hsz : f1 + n - f1 = n := by omega
      rw [rangeSort]
      dsimp only
      rw [hsz]
      apply wp_bind
      refine wp_mono (Q := fun b s' => if b then ∃ ys, SSorted lt xs ys ∧ Seg s'.cell f2 ys ∧
        Work f1 n f2 n s s' else ∃ k, s' = { s with cmps := k }) ?_ ?_
      · split
        · split
          · rename_i hev
            refine wp_mono (checkStableSort_of hlt ihn hn rfl hd hw (he hev).1 (he hev).2) ?_
            intro b s' hb
            cases b with
            | true =>
              obtain ⟨ys, h1, h2, h3⟩ := hb
              exact ⟨ys, h1, h2, h3.mono fun i a b => ⟨b, a⟩⟩
            | false => exact hb
          · rename_i hev
            have hod : (level + 1) % 2 = 1 := by omega
            apply wp_bind
            refine wp_mono (checkStableSort_of hlt ihn hn rfl (by omega) hw (ho hod).1 (ho hod).2) ?_
            intro b s' hb
            cases b with
            | true =>
              obtain ⟨ys, h1, h2, h3⟩ := hb
              have := h1.len
              rw [if_pos rfl]
              apply wp_bind
              refine wp_mono (moveRange_work h3.wf (by omega) (by omega) h2
                (fun i a b => h3.live i (hf2 i a (by omega)))) ?_
              rintro _ s2 ⟨_, k2, k3⟩
              refine wp_pure ?_
              rw [if_pos rfl]
              exact ⟨ys, h1, k2, h3.trans (k3.mono fun i a b => by omega)⟩
            | false => exact wp_pure hb
        · refine wp_pure ?_
          rw [if_neg (by simp)]
          exact ⟨s.cmps, rfl⟩
      · intro b s' hb
        cases b with
        | true => exact wp_pure hb
        | false =>
          obtain ⟨k, rfl⟩ := hb
          rw [if_neg (by simp)]
          generalize hn1 : (n + 1) / 2 = n1
          obtain ⟨xs1, xs2, hx, hx1, hx2⟩ : ∃ xs1 xs2, xs = xs1 ++ xs2 ∧ xs1.length = n1 ∧ xs2.length = n - n1 :=
            ⟨xs.take n1, xs.drop n1, (List.take_append_drop _ _).symm, by simp; omega, by simp; omega⟩
          have hfin : ∀ (s' : St α) (ys1 ys2 : List α), SSorted lt xs1 ys1 → SSorted lt xs2 ys2 →
              Seg s'.cell f1 ys1 → Seg s'.cell (f1 + n1) ys2 → Work f1 n f2 n s s' →
              wp (spinMerge (tick lt) f1 (f1 + n1) (f1 + n1) (f1 + n) f2) (fun _ s' => ∃ ys, SSorted lt xs ys ∧
                Seg s'.cell f2 ys ∧ Work f1 n f2 n s s') s' := by
            intro s' ys1 ys2 h1 h2 h3 h4 h5
            have l1 := h1.len
            have l2 := h2.len
            refine wp_mono (spinMerge_seg hlt h5.wf (by omega) (by omega) (by omega) h3 h4 h1.2.1 h2.2.1
              (fun i a b => h5.live i (hf2 i a (by omega)))) ?_
            rintro _ s2 ⟨k1, k2⟩
            rw [show ys1.length + ys2.length = n by omega] at k2
            exact ⟨_, by rw [hx]; exact h1.merge hlt h2, k1, h5.trans k2⟩
          split
          · have hod : (level + 1) % 2 = 1 := by omega
            have hs := (ho hod).1
            rw [hx] at hs
            obtain ⟨q1, q2⟩ := seg_append.1 hs
            rw [hx1] at q2
            apply wp_bind
            refine wp_mono (insertionSort_work (s := { s with cmps := k }) hlt hw (by omega) q1 f1 0) ?_
            rintro _ s1 ⟨ys1, h1, h2, h3⟩
            have hl1 := h1.len
            apply wp_bind
            refine wp_mono (insertionSort_work hlt h3.wf (by omega)
              (q2.congr fun i a b => h3.rest i (by omega) (by omega)) (f1 + n1) 0) ?_
            rintro _ s2 ⟨ys2, k1, k2, k3⟩
            exact hfin s2 ys1 ys2 h1 k1 (h2.congr fun i a b => k3.rest i (by omega) (by omega)) k2
              (((h3.mono fun i a b => by omega).trans (k3.mono fun i a b => by omega)).cmps)
          · have hsub : ∀ (m g1 g2 : Nat) (zs : List α) (s : St α), m ≤ n → zs.length = m → (g1 + m ≤ g2 ∨ g2 + m ≤ g1) →
                s.WF → (level % 2 = 1 → Seg s.cell g1 zs ∧ ∀ i, g2 ≤ i → i < g2 + m → Live s.cell i) →
                (level % 2 = 0 → Seg s.cell g2 zs ∧ ∀ i, g1 ≤ i → i < g1 + m → Live s.cell i) →
                wp (rangeSort (tick lt) g1 (g1 + m) g2 (g2 + m) level) (fun _ s' => ∃ ys, SSorted lt zs ys ∧
                  Seg s'.cell g2 ys ∧ Work g1 m g2 m s s') s := by
              intro m g1 g2 zs s hm a1 a2 a3 a4 a5
              by_cases e : m = n
              · subst e
                exact ihl g1 g2 zs s (by omega) a1 a2 a3 a4 a5
              · exact ihn m (by omega) level g1 g2 zs s (by omega) a1 a2 a3 a4 a5
            rw [Nat.add_sub_cancel, show f2 + n = f2 + n1 + (n - n1) by omega, show f1 + n = f1 + n1 + (n - n1) by omega] at *
            apply wp_bind
            refine wp_mono (hsub n1 f2 f1 xs1 { s with cmps := k } (by omega) hx1 (by omega) hw ?_ ?_) ?_
            · intro e
              have hs := (he (by omega)).1
              rw [hx] at hs
              exact ⟨(seg_append.1 hs).1, fun i a b => hf1 i a (by omega)⟩
            · intro e
              have hs := (ho (by omega)).1
              rw [hx] at hs
              exact ⟨(seg_append.1 hs).1, fun i a b => hf2 i a (by omega)⟩
            rintro _ s1 ⟨ys1, h1, h2, h3⟩
            have hl1 := h1.len
            apply wp_bind
            refine wp_mono (hsub (n - n1) (f2 + n1) (f1 + n1) xs2 s1 (by omega) hx2 (by omega) h3.wf ?_ ?_) ?_
            · intro e
              have hs := (he (by omega)).1
              rw [hx] at hs
              have := (seg_append.1 hs).2
              rw [hx1] at this
              exact ⟨this.congr fun i a b => h3.rest i (by omega) (by omega), fun i a b => h3.live i (hf1 i (by omega) (by omega))⟩
            · intro e
              have hs := (ho (by omega)).1
              rw [hx] at hs
              have := (seg_append.1 hs).2
              rw [hx1] at this
              exact ⟨this.congr fun i a b => h3.rest i (by omega) (by omega), fun i a b => h3.live i (hf2 i (by omega) (by omega))⟩
            rintro _ s2 ⟨ys2, k1, k2, k3⟩
            exact hfin s2 ys1 ys2 h1 k1 (h2.congr fun i a b => k3.rest i (by omega) (by omega)) k2
              (((h3.mono fun i a b => by omega).trans (k3.mono fun i a b => by omega)).cmps)

end CppSort
