import Verif.Proof.WikiNet
/-
wiki_sort.h 333-930: the levels, and the whole sort.
-/
set_option autoImplicit false

namespace CppSort
variable {α : Type} {lt : α → α → Bool}

/-- The range `i` of `m`, sorted. -/
def wpiece (lt : α → α → Bool) (xs : List α) (m i : Nat) : List α := ssort lt (wsl xs (wcut xs.length m i) (wcut xs.length m (i + 1)))

theorem wpiece_length {xs : List α} {m i : Nat} (h : i < m) : (wpiece lt xs m i).length = wcut xs.length m (i + 1) - wcut xs.length m i := by
  unfold wpiece
  rw [ssort_length, wsl_length (wcut_le (by omega) (by omega))]

theorem wpiece_size {xs : List α} {m i : Nat} (h : i < m) : xs.length / m ≤ (wpiece lt xs m i).length ∧ (wpiece lt xs m i).length ≤ xs.length / m + 1 := by
  rw [wpiece_length h]
  have := wcut_step (N := xs.length) (m := m) (i := i) (by omega)
  generalize xs.length / m = q at *
  omega

theorem wpiece_merge (hlt : StrictWeak lt) {xs : List α} {m i : Nat} :
    mergeL lt (wpiece lt xs (2 * m) (2 * i)) (wpiece lt xs (2 * m) (2 * i + 1)) = wpiece lt xs m i := by
  unfold wpiece
  rw [ssort_merge hlt, wsl_append (wcut_mono (by omega)) (wcut_mono (by omega)), show 2 * i + 1 + 1 = 2 * (i + 1) by omega, wcut_double, wcut_double]

theorem wpiece_sorted (hlt : StrictWeak lt) {xs : List α} {m i : Nat} : SortedList lt (wpiece lt xs m i) := ssort_sorted hlt _

/-- The rows before `i` are done. -/
structure RowsDone (first m cache cs : Nat) (pos : Nat → Nat) (P Q : Nat → List α) (s0 : St α) (i : Nat) (s : St α) : Prop where
  fin : ∀ j, j < i → Seg s.cell (pos j) (Q j)
  todo : ∀ j, i ≤ j → j < m → Seg s.cell (pos j) (P j)
  frame : GFrame first (pos m) cache cs s0 s

theorem RowsDone.step {first m cache cs : Nat} {pos : Nat → Nat} {P Q : Nat → List α} {s0 s s' : St α} {i : Nat}
    (hmono : ∀ j k, j ≤ k → k ≤ m → pos j ≤ pos k) (h0 : first ≤ pos 0)
    (hP : ∀ j, j < m → pos j + (P j).length = pos (j + 1)) (hQ : ∀ j, j < m → pos j + (Q j).length = pos (j + 1))
    (hd : cache + cs ≤ first ∨ pos m ≤ cache) (hi : i < m) (h : RowsDone first m cache cs pos P Q s0 i s)
    (hs : Seg s'.cell (pos i) (Q i)) (hf : GFrame (pos i) (pos (i + 1)) cache cs s s') : RowsDone first m cache cs pos P Q s0 (i + 1) s' := by
  have e0 : ∀ j, j ≤ m → first ≤ pos j ∧ pos j ≤ pos m := fun j hj => ⟨Nat.le_trans h0 (hmono 0 j (by omega) hj), hmono j m hj (Nat.le_refl _)⟩
  refine ⟨fun j hj => ?_, fun j h1 h2 => ?_, h.frame.trans (hf.mono (e0 i (by omega)).1 (e0 (i + 1) (by omega)).2)⟩
  · by_cases e : j = i
    · rw [e]; exact hs
    · refine (h.fin j (by omega)).congr fun q h1 h2 => ?_
      have := hQ j (by omega)
      have := hmono (j + 1) i (by omega) (by omega)
      have := e0 j (by omega)
      have := e0 (j + 1) (by omega)
      exact hf.cell q (.inl (by omega)) (by omega)
  · refine (h.todo j (by omega) h2).congr fun q h3 h4 => ?_
    have := hP j (by omega)
    have := hmono (i + 1) j (by omega) (by omega)
    have := e0 j (by omega)
    have := e0 (j + 1) (by omega)
    exact hf.cell q (.inr (by omega)) (by omega)

/-- The ranges of a level are sorted. -/
def LevelAt (lt : α → α → Bool) (xs : List α) (first m : Nat) (s : St α) : Prop :=
  ∀ i, i < m → Seg s.cell (first + wcut xs.length m i) (wpiece lt xs m i)

theorem LevelAt.pair {xs : List α} {first m : Nat} {s : St α} (h : LevelAt lt xs first (2 * m) s) {i : Nat} (hi : i < m) :
    Seg s.cell (first + wcut xs.length m i) (wpiece lt xs (2 * m) (2 * i) ++ wpiece lt xs (2 * m) (2 * i + 1)) := by
  have h1 := h (2 * i) (by omega)
  have h2 := h (2 * i + 1) (by omega)
  rw [← wcut_double]
  refine seg_append.2 ⟨h1, ?_⟩
  rw [wpiece_length (by omega), Nat.add_assoc, Nat.add_sub_cancel' (wcut_mono (by omega))]
  exact h2

/-! ### The levels through the cache -/

section
variable {first cache cs : Nat} {xs : List α}

theorem wikiGroups_level (hlt : StrictWeak lt) {t m : Nat} (hm : 0 < m) (h4 : 4 * m ≤ xs.length) (h8 : xs.length < 8 * m) (ht : 0 < t)
    (hd : cache + cs ≤ first ∨ first + xs.length ≤ cache) {s : St α} (hs : Seg s.cell first xs) (hl : ∀ i, cache ≤ i → i < cache + cs → Live s.cell i) :
    wp (wikiGroups (tick lt) first (iterAt xs.length t m 0)) (fun _ s' => LevelAt lt xs first m s' ∧ GFrame first (first + xs.length) cache cs s s') s := by
  have hq4 : 4 ≤ xs.length / m := (Nat.le_div_iff_mul_le hm).2 h4
  have hq8 : xs.length / m < 8 := (Nat.div_lt_iff_lt_mul hm).2 h8
  have hsz : ∀ i, i < m → 4 ≤ (wsl xs (wcut xs.length m i) (wcut xs.length m (i + 1))).length ∧ (wsl xs (wcut xs.length m i) (wcut xs.length m (i + 1))).length ≤ 8 := by
    intro i hi
    rw [wsl_length (wcut_le (by omega) (by omega))]
    have := wcut_step (N := xs.length) (m := m) (i := i) (by omega)
    omega
  have hlen : ∀ i, i < m → first + wcut xs.length m i + (wsl xs (wcut xs.length m i) (wcut xs.length m (i + 1))).length = first + wcut xs.length m (i + 1) := by
    intro i hi
    rw [wsl_length (wcut_le (by omega) (by omega)), Nat.add_assoc, Nat.add_sub_cancel' (wcut_mono (by omega))]
  have htop : wcut xs.length m m = xs.length := wcut_top hm
  refine wp_mono (wikiGroups_spec (N := xs.length) (by omega) ht hm (RowsDone first m cache cs (fun i => first + wcut xs.length m i)
    (fun i => wsl xs (wcut xs.length m i) (wcut xs.length m (i + 1))) (fun i => wpiece lt xs m i) s) ?_ m 0 (by omega) s
      ⟨fun j hj => by omega, fun j _ hj => ?_, GFrame.refl hl⟩) ?_
  · intro i hi s1 h1
    have e1 := hsz i hi
    have e2 := hlen i hi
    have := wikiGroup_spec hlt e1.1 e1.2 (h1.todo i (Nat.le_refl _) hi)
    rw [wsl_length (wcut_le (by omega) (by omega))] at this
    refine wp_mono this ?_
    rintro _ s2 ⟨q1, q2⟩
    have hle := wcut_le (N := xs.length) hm (show i + 1 ≤ m by omega)
    refine h1.step (fun j k h1 h2 => Nat.add_le_add_left (wcut_mono h1) _) (by omega) hlen (fun j hj => ?_) (by omega) hi q1 ?_
    · have := hlen j hj
      unfold wpiece
      rw [ssort_length]; exact this
    · rw [wsl_length (wcut_le (by omega) (by omega))] at e2
      rw [e2] at q2
      exact q2.g (by omega) h1.frame.live
  · have e1 := wcut_le (N := xs.length) hm (show j + 1 ≤ m by omega)
    have e2 := wcut_mono (N := xs.length) (m := m) (show j ≤ j + 1 by omega)
    have hx : xs = wsl xs 0 (wcut xs.length m j) ++ (wsl xs (wcut xs.length m j) (wcut xs.length m (j + 1)) ++ wsl xs (wcut xs.length m (j + 1)) xs.length) := by
      rw [wsl_append e2 e1, wsl_append (Nat.zero_le _) (by omega), wsl_all]
    rw [hx] at hs
    have := (seg_append.1 (seg_append.1 hs).2).1
    rw [wsl_length (by omega), Nat.sub_zero] at this
    exact this
  · rintro _ s1 ⟨q1, -, q3⟩
    rw [htop] at q3
    exact ⟨fun i hi => q1 i hi, q3⟩

theorem wikiPairs_level (hlt : StrictWeak lt) (c : Cfg) {tt : TypeTraits} (htt : tt.trivDtor = true) {t m : Nat} (hm : 0 < m) (ht : 0 < t)
    (hq : 0 < xs.length / (2 * m)) (hcs : xs.length / (2 * m) < cs)
    (hd : cache + cs ≤ first ∨ first + xs.length ≤ cache) {s : St α} (hs : LevelAt lt xs first (2 * m) s) (hl : ∀ i, cache ≤ i → i < cache + cs → Live s.cell i) :
    wp (wikiPairs (wikiTwo (tick lt) c tt cache) first (iterAt xs.length t (2 * m) 0))
      (fun _ s' => LevelAt lt xs first m s' ∧ GFrame first (first + xs.length) cache cs s s') s := by
  have hN : 0 < xs.length := by
    rcases Nat.eq_zero_or_pos xs.length with h | h
    · rw [h, Nat.zero_div] at hq; omega
    · exact h
  have htop : wcut xs.length m m = xs.length := wcut_top hm
  have hsz := fun j (hj : j < 2 * m) => wpiece_size (lt := lt) (xs := xs) hj
  have hll := fun j (hj : j < 2 * m) => wpiece_length (lt := lt) (xs := xs) hj
  have hpc : ∀ j, j < m → first + wcut xs.length m j + (wpiece lt xs (2 * m) (2 * j) ++ wpiece lt xs (2 * m) (2 * j + 1)).length = first + wcut xs.length m (j + 1) := by
    intro j hj
    rw [List.length_append, hll _ (by omega), hll _ (by omega), show 2 * j + 1 + 1 = 2 * (j + 1) by omega, wcut_double, wcut_double]
    have h1 := wcut_mono (N := xs.length) (m := 2 * m) (show 2 * j ≤ 2 * j + 1 by omega)
    have h2 := wcut_mono (N := xs.length) (m := 2 * m) (show 2 * j + 1 ≤ 2 * (j + 1) by omega)
    rw [wcut_double] at h1 h2
    omega
  have hw := wikiPairs_spec (N := xs.length) (first := first) (body := wikiTwo (tick lt) c tt cache) hN ht hm (RowsDone first m cache cs (fun i => first + wcut xs.length m i)
    (fun i => wpiece lt xs (2 * m) (2 * i) ++ wpiece lt xs (2 * m) (2 * i + 1)) (fun i => wpiece lt xs m i) s) ?_ m 0 (by omega) s
      ⟨fun j hj => by omega, fun j _ hj => hs.pair hj, GFrame.refl hl⟩
  · refine wp_mono hw ?_
    rintro _ s1 ⟨q1, -, q3⟩
    rw [htop] at q3
    exact ⟨fun i hi => q1 i hi, q3⟩
  · intro i hi s1 h1
    have e1 := hsz (2 * i) (by omega)
    have e2 := hsz (2 * i + 1) (by omega)
    have e3 := hll (2 * i) (by omega)
    have e4 := hll (2 * i + 1) (by omega)
    rw [show 2 * i + 1 + 1 = 2 * i + 2 by omega] at e4
    have e5 := wcut_mono (N := xs.length) (m := 2 * m) (show 2 * i ≤ 2 * i + 1 by omega)
    have e6 := wcut_mono (N := xs.length) (m := 2 * m) (show 2 * i + 1 ≤ 2 * i + 2 by omega)
    have e7 := wcut_le (N := xs.length) (m := 2 * m) (i := 2 * i + 2) (by omega) (by omega)
    have e8 := h1.todo i (Nat.le_refl _) hi
    rw [← wcut_double] at e8
    refine wp_mono (wikiTwo_spec hlt c htt (cs := cs) (List.ne_nil_of_length_pos (by omega)) (List.ne_nil_of_length_pos (by omega)) (by omega) (by omega)
      (.inl (by omega)) (by omega) (wpiece_sorted hlt) (wpiece_sorted hlt) e8 h1.frame.live) ?_
    rintro _ s2 ⟨q1, q2⟩
    rw [wpiece_merge hlt, wcut_double] at q1
    rw [wcut_double, show 2 * i + 2 = 2 * (i + 1) by omega, wcut_double] at q2
    refine h1.step (fun j k h1 h2 => Nat.add_le_add_left (wcut_mono h1) _) (by omega) hpc (fun j hj => ?_) (by omega) hi q1 q2
    rw [wpiece_length hj, Nat.add_assoc, Nat.add_sub_cancel' (wcut_mono (by omega))]

theorem wikiFours_level (hlt : StrictWeak lt) {t m : Nat} (hm : 0 < m) (ht : 0 < t)
    (hq : 0 < xs.length / (4 * m)) (hcs : (xs.length / (4 * m) + 1) * 4 ≤ cs)
    (hd : cache + cs ≤ first ∨ first + xs.length ≤ cache) {s : St α} (hs : LevelAt lt xs first (4 * m) s) (hl : ∀ i, cache ≤ i → i < cache + cs → Live s.cell i) :
    wp (wikiFours (tick lt) first cache (iterAt xs.length t (4 * m) 0))
      (fun _ s' => LevelAt lt xs first m s' ∧ GFrame first (first + xs.length) cache cs s s') s := by
  have hN : 0 < xs.length := by
    rcases Nat.eq_zero_or_pos xs.length with h | h
    · rw [h, Nat.zero_div] at hq; omega
    · exact h
  have htop : wcut xs.length m m = xs.length := wcut_top hm
  have hsz := fun j (hj : j < 4 * m) => wpiece_size (lt := lt) (xs := xs) hj
  have hll := fun j (hj : j < 4 * m) => wpiece_length (lt := lt) (xs := xs) hj
  have hquad : ∀ i, wcut xs.length (4 * m) (4 * i) = wcut xs.length m i := by
    intro i
    rw [show 4 * m = 2 * (2 * m) by omega, show 4 * i = 2 * (2 * i) by omega, wcut_double, wcut_double]
  have hmerge : ∀ i, mergeL lt (mergeL lt (wpiece lt xs (4 * m) (4 * i)) (wpiece lt xs (4 * m) (4 * i + 1)))
      (mergeL lt (wpiece lt xs (4 * m) (4 * i + 2)) (wpiece lt xs (4 * m) (4 * i + 3))) = wpiece lt xs m i := by
    intro i
    rw [show 4 * m = 2 * (2 * m) by omega, show 4 * i + 3 = 2 * (2 * i + 1) + 1 by omega, show 4 * i + 2 = 2 * (2 * i + 1) by omega,
      show 4 * i = 2 * (2 * i) by omega, wpiece_merge hlt, wpiece_merge hlt, wpiece_merge hlt]
  have hpc : ∀ j, j < m → first + wcut xs.length m j + ((wpiece lt xs (4 * m) (4 * j) ++ wpiece lt xs (4 * m) (4 * j + 1)) ++
      (wpiece lt xs (4 * m) (4 * j + 2) ++ wpiece lt xs (4 * m) (4 * j + 3))).length = first + wcut xs.length m (j + 1) := by
    intro j hj
    rw [← hquad j, ← hquad (j + 1), List.length_append, List.length_append, List.length_append, hll _ (by omega), hll _ (by omega), hll _ (by omega), hll _ (by omega),
      show 4 * (j + 1) = 4 * j + 3 + 1 by omega]
    rw [show 4 * j + 1 + 1 = 4 * j + 2 by omega, show 4 * j + 2 + 1 = 4 * j + 3 by omega]
    have h1 := wcut_mono (N := xs.length) (m := 4 * m) (show 4 * j ≤ 4 * j + 1 by omega)
    have h2 := wcut_mono (N := xs.length) (m := 4 * m) (show 4 * j + 1 ≤ 4 * j + 2 by omega)
    have h3 := wcut_mono (N := xs.length) (m := 4 * m) (show 4 * j + 2 ≤ 4 * j + 3 by omega)
    have h4 := wcut_mono (N := xs.length) (m := 4 * m) (show 4 * j + 3 ≤ 4 * j + 3 + 1 by omega)
    omega
  have hstart : ∀ j, j < m → Seg s.cell (first + wcut xs.length m j) ((wpiece lt xs (4 * m) (4 * j) ++ wpiece lt xs (4 * m) (4 * j + 1)) ++
      (wpiece lt xs (4 * m) (4 * j + 2) ++ wpiece lt xs (4 * m) (4 * j + 3))) := by
    intro j hj
    rw [show 4 * m = 2 * (2 * m) by omega] at hs ⊢
    have h1 := hs.pair (i := 2 * j) (by omega)
    have h2 := hs.pair (i := 2 * j + 1) (by omega)
    rw [show 2 * (2 * j + 1) + 1 = 4 * j + 3 by omega, show 2 * (2 * j + 1) = 4 * j + 2 by omega] at h2
    rw [show 2 * (2 * j) = 4 * j by omega, wcut_double] at h1
    refine seg_append.2 ⟨h1, ?_⟩
    have h3 : first + wcut xs.length m j + (wpiece lt xs (2 * (2 * m)) (4 * j) ++ wpiece lt xs (2 * (2 * m)) (4 * j + 1)).length = first + wcut xs.length (2 * m) (2 * j + 1) := by
      rw [List.length_append, show 2 * (2 * m) = 4 * m by omega, hll _ (by omega), hll _ (by omega), ← hquad j, ← wcut_double (i := 2 * j + 1), show 2 * (2 * m) = 4 * m by omega,
        show 2 * (2 * j + 1) = 4 * j + 1 + 1 by omega]
      have h1 := wcut_mono (N := xs.length) (m := 4 * m) (show 4 * j ≤ 4 * j + 1 by omega)
      have h2 := wcut_mono (N := xs.length) (m := 4 * m) (show 4 * j + 1 ≤ 4 * j + 1 + 1 by omega)
      omega
    rw [h3]; exact h2
  have hw := wikiFours_spec (N := xs.length) (first := first) (cache := cache) (cmp := tick lt) hN ht hm (RowsDone first m cache cs (fun i => first + wcut xs.length m i)
    (fun j => (wpiece lt xs (4 * m) (4 * j) ++ wpiece lt xs (4 * m) (4 * j + 1)) ++
      (wpiece lt xs (4 * m) (4 * j + 2) ++ wpiece lt xs (4 * m) (4 * j + 3))) (fun i => wpiece lt xs m i) s) ?_ m 0 (by omega) s
      ⟨fun j hj => by omega, fun j _ hj => hstart j hj, GFrame.refl hl⟩
  · refine wp_mono hw ?_
    rintro _ s1 ⟨q1, -, q3⟩
    rw [htop] at q3
    exact ⟨fun i hi => q1 i hi, q3⟩
  · intro i hi s1 h1
    have e1 := hsz (4 * i) (by omega)
    have e2 := hsz (4 * i + 1) (by omega)
    have e3 := hsz (4 * i + 2) (by omega)
    have e4 := hsz (4 * i + 3) (by omega)
    have f1 := hll (4 * i) (by omega)
    have f2 := hll (4 * i + 1) (by omega)
    have f3 := hll (4 * i + 2) (by omega)
    have f4 := hll (4 * i + 3) (by omega)
    rw [show 4 * i + 1 + 1 = 4 * i + 2 by omega] at f2
    rw [show 4 * i + 2 + 1 = 4 * i + 3 by omega] at f3
    rw [show 4 * i + 3 + 1 = 4 * i + 4 by omega] at f4
    have e7 := wcut_le (N := xs.length) (m := 4 * m) (i := 4 * i + 4) (by omega) (by omega)
    have e8 := h1.todo i (Nat.le_refl _) hi
    rw [← hquad] at e8
    have h1' := wcut_mono (N := xs.length) (m := 4 * m) (show 4 * i ≤ 4 * i + 1 by omega)
    have h2' := wcut_mono (N := xs.length) (m := 4 * m) (show 4 * i + 1 ≤ 4 * i + 2 by omega)
    have h3' := wcut_mono (N := xs.length) (m := 4 * m) (show 4 * i + 2 ≤ 4 * i + 3 by omega)
    have h4' := wcut_mono (N := xs.length) (m := 4 * m) (show 4 * i + 3 ≤ 4 * i + 4 by omega)
    refine wp_mono (wikiFour_spec hlt (cs := cs) (List.ne_nil_of_length_pos (by omega)) (List.ne_nil_of_length_pos (by omega)) (List.ne_nil_of_length_pos (by omega))
      (List.ne_nil_of_length_pos (by omega)) (by omega) (by omega) (by omega) (by omega)
      (by omega) (by omega) (wpiece_sorted hlt) (wpiece_sorted hlt) (wpiece_sorted hlt) (wpiece_sorted hlt) e8 h1.frame.live) ?_
    rintro _ s2 ⟨q1, q2⟩
    rw [hmerge, hquad] at q1
    rw [hquad, show 4 * i + 4 = 4 * (i + 1) by omega, hquad] at q2
    refine h1.step (fun j k h1 h2 => Nat.add_le_add_left (wcut_mono h1) _) (by omega) hpc (fun j hj => ?_) (by omega) hi q1 q2
    rw [wpiece_length hj, Nat.add_assoc, Nat.add_sub_cancel' (wcut_mono (by omega))]

/-! ### The levels -/

theorem WIter.nextLevel_begin (it : WIter) : it.nextLevel.begin = it.begin.nextLevel.begin := by
  unfold WIter.nextLevel WIter.begin
  dsimp only
  split <;> rfl

theorem wikiInPlace_level (hlt : StrictWeak lt) (c : Cfg) (junk : Nat → Nat) {t m : Nat} {it : WIter} (hm : 0 < m) (ht : 0 < t)
    (hq : 4 ≤ xs.length / (2 * m)) (hit : it.begin = iterAt xs.length t (2 * m) 0)
    (hd : cache + cs ≤ first ∨ first + xs.length ≤ cache) {s : St α} (hs : LevelAt lt xs first (2 * m) s) (hl : ∀ i, cache ≤ i → i < cache + cs → Live s.cell i) :
    wp (wikiInPlace (tick lt) c junk cache cs first it) (fun _ s' => LevelAt lt xs first m s' ∧ GFrame first (first + xs.length) cache cs s s') s := by
  have hN : 0 < xs.length := by
    rcases Nat.eq_zero_or_pos xs.length with h | h
    · rw [h, Nat.zero_div] at hq; omega
    · exact h
  have htop : wcut xs.length m m = xs.length := wcut_top hm
  have hll := fun j (hj : j < 2 * m) => wpiece_length (lt := lt) (xs := xs) hj
  have g : Geo lt first (xs.length / (2 * m)) m (fun i => first + wcut xs.length m i) (fun i => first + wcut xs.length (2 * m) (2 * i + 1))
      (fun i => wpiece lt xs (2 * m) (2 * i)) (fun i => wpiece lt xs (2 * m) (2 * i + 1)) := by
    refine ⟨by rw [wcut_zero]; rfl, fun i hi => ?_, fun i hi => ?_, fun i hi => wpiece_size (by omega), fun i hi => wpiece_size (by omega),
      fun i hi => wpiece_sorted hlt, fun i hi => wpiece_sorted hlt, hq⟩
    · rw [hll _ (by omega), ← wcut_double (m := m) (i := i), Nat.add_assoc, Nat.add_sub_cancel' (wcut_mono (by omega))]
    · rw [hll _ (by omega), ← wcut_double (m := m) (i := i + 1), Nat.add_assoc, show 2 * (i + 1) = 2 * i + 1 + 1 by omega, Nat.add_sub_cancel' (wcut_mono (by omega))]
  refine wp_mono (wikiInPlace_spec hlt c g hN ht hm (fun i _ => by rw [wcut_double]) (fun i _ => rfl) (by rw [htop]; exact hd) hit
    (congrArg WIter.decStep hit) (fun i hi => hs.pair hi) hl) ?_
  rintro _ s1 ⟨q1, q2⟩
  rw [htop] at q2
  refine ⟨fun i hi => ?_, q2⟩
  have := q1 i hi
  rwa [wpiece_merge hlt] at this

theorem wikiLevels_spec (hlt : StrictWeak lt) (c : Cfg) {tt : TypeTraits} (htt : tt.trivDtor = true ∨ cs ≤ 4) (junk : Nat → Nat → Nat)
    (hd : cache + cs ≤ first ∨ first + xs.length ≤ cache) : ∀ (e : Nat) (t : Nat) (it : WIter) (s : St α), 0 < t → 4 ≤ xs.length / 2 ^ (e + 1) →
    it.begin = iterAt xs.length t (2 ^ (e + 1)) 0 → LevelAt lt xs first (2 ^ (e + 1)) s → (∀ i, cache ≤ i → i < cache + cs → Live s.cell i) →
    wp (wikiLevels (tick lt) c tt junk cache cs first it) (fun _ s' => Seg s'.cell first (ssort lt xs) ∧ GFrame first (first + xs.length) cache cs s s') s := by
  intro e
  induction e using Nat.strongRecOn with
  | ind e ih =>
    intro t it s ht hq hit hs hl
    have hN : 0 < xs.length := by
      rcases Nat.eq_zero_or_pos xs.length with h | h
      · rw [h, Nat.zero_div] at hq; omega
      · exact h
    have hpow : 2 ^ (e + 1) = 2 * 2 ^ e := by rw [Nat.pow_succ]; omega
    have hpos : 0 < 2 ^ e := Nat.pos_of_ne_zero (by simp)
    -- the rest, once the ranges of the level with `2 ^ d` ranges are sorted
    have hrest : ∀ d, d ≤ e → ∀ (t' : Nat) (it' : WIter) (s1 : St α), 0 < t' → it'.size = xs.length → it'.nextLevel.begin = iterAt xs.length t' (2 ^ d) 0 → LevelAt lt xs first (2 ^ d) s1 →
        GFrame first (first + xs.length) cache cs s s1 →
        wp (if it'.nextLevel.decStep < it'.size then wikiLevels (tick lt) c tt junk cache cs first it'.nextLevel else pure ())
          (fun _ s' => Seg s'.cell first (ssort lt xs) ∧ GFrame first (first + xs.length) cache cs s s') s1 := by
      intro d hde t' it' s1 ht' hsize hit' hs1 hf
      have e1 : it'.nextLevel.decStep = xs.length / 2 ^ d := congrArg WIter.decStep hit'
      rw [e1, hsize]
      cases d with
      | zero =>
        rw [if_neg (by simp)]
        refine wp_pure ⟨?_, hf⟩
        have := hs1 0 (by simp)
        unfold wpiece at this
        rw [wcut_zero, show 0 + 1 = 2 ^ 0 by simp, wcut_top (by simp), wsl_all] at this
        exact this
      | succ d =>
        have h2 : 2 ≤ 2 ^ (d + 1) := by rw [Nat.pow_succ]; have := Nat.pos_of_ne_zero (show 2 ^ d ≠ 0 by simp); omega
        rw [if_pos (Nat.div_lt_self hN h2)]
        have h4 : 4 ≤ xs.length / 2 ^ (d + 1) := Nat.le_trans hq (Nat.div_le_div_left (Nat.pow_le_pow_right (by omega) (by omega)) (by omega))
        refine wp_mono (ih d (by omega) t' _ s1 ht' h4 hit' hs1 hf.live) ?_
        rintro _ s2 ⟨r1, r2⟩
        exact ⟨r1, hf.trans r2⟩
    have hdec : it.decStep = xs.length / 2 ^ (e + 1) := congrArg WIter.decStep hit
    have hsize : it.size = xs.length := congrArg WIter.size hit
    have hnl : it.nextLevel.begin = iterAt xs.length (2 * t) (2 ^ e) 0 := by
      rw [WIter.nextLevel_begin, hit, hpow]; exact iterAt_nextLevel ht hpos
    rw [wikiLevels]
    unfold wikiLevel
    apply wp_bind
    rw [hdec, hsize]
    split
    · rename_i h1
      have htt : tt.trivDtor = true := htt.resolve_right (by omega)
      split
      · rename_i h2
        apply wp_bind
        cases e with
        | zero =>
          exfalso
          have := h2.2
          simp at this
          simp at hq
          omega
        | succ e =>
          have hp4 : 2 ^ (e + 1 + 1) = 4 * 2 ^ e := by rw [Nat.pow_succ, Nat.pow_succ]; omega
          rw [hit, hp4]
          rw [hp4] at h1 h2 hq hs
          refine wp_mono (wikiFours_level hlt (Nat.pos_of_ne_zero (by simp)) ht (by omega) h2.1 hd hs hl) ?_
          rintro _ s1 ⟨r1, r2⟩
          refine wp_pure ?_
          have hsz2 : it.nextLevel.size = xs.length := congrArg WIter.size hnl
          refine hrest e (by omega) (2 * (2 * t)) it.nextLevel s1 (by omega) hsz2 ?_ r1 r2
          have hp2 : 2 ^ (e + 1) = 2 * 2 ^ e := by rw [Nat.pow_succ]; omega
          rw [WIter.nextLevel_begin, hnl, hp2]
          exact iterAt_nextLevel (by omega) (Nat.pos_of_ne_zero (by simp))
      · apply wp_bind
        rw [hit]
        rw [hpow] at hs hq h1 ⊢
        refine wp_mono (wikiPairs_level hlt c htt hpos ht (by omega) h1 hd hs hl) ?_
        rintro _ s1 ⟨r1, r2⟩
        exact wp_pure (hrest e (Nat.le_refl _) (2 * t) it s1 (by omega) hsize hnl r1 r2)
    · apply wp_bind
      rw [hpow] at hs hq hit
      refine wp_mono (wikiInPlace_level hlt c _ hpos ht hq hit hd hs hl) ?_
      rintro _ s1 ⟨r1, r2⟩
      exact wp_pure (hrest e (Nat.le_refl _) (2 * t) it s1 (by omega) hsize hnl r1 r2)

theorem wikiSortWith_spec [Inhabited α] (hlt : StrictWeak lt) (c : Cfg) {tt : TypeTraits} (htt : tt.trivDtor = true ∨ (15 ≤ xs.length → cs ≤ 4)) (junk : Nat → Nat → Nat)
    (hd : cache + cs ≤ first ∨ first + xs.length ≤ cache) {s : St α} (hs : Seg s.cell first xs) (hl : ∀ i, cache ≤ i → i < cache + cs → Live s.cell i) :
    wp (wikiSortWith (tick lt) c tt junk cache cs first (first + xs.length)) (fun _ s' => Seg s'.cell first (ssort lt xs) ∧
      GFrame first (first + xs.length) cache cs s s') s := by
  unfold wikiSortWith
  rw [show first + xs.length - first = xs.length by omega]
  split
  · refine wp_mono (insertionSort_ssort hlt rfl hs) ?_
    rintro _ s1 ⟨q1, q2⟩
    exact ⟨q1, q2.g (by omega) hl⟩
  · rename_i h15
    have h15 : 15 ≤ xs.length := by omega
    have hne : xs.length ≠ 0 := by omega
    have hlog1 := Nat.log2_self_le hne
    have hlog2 : xs.length < 2 ^ (Nat.log2 xs.length + 1) := Nat.lt_log2_self
    obtain ⟨e, he⟩ : ∃ e, Nat.log2 xs.length = e + 1 + 2 := by
      refine ⟨Nat.log2 xs.length - 3, ?_⟩
      have : 3 ≤ Nat.log2 xs.length := (Nat.le_log2 hne).2 (by omega)
      omega
    have hden : 2 ^ Nat.log2 xs.length / 4 = 2 ^ (e + 1) := by
      rw [he, Nat.pow_add]; exact Nat.mul_div_cancel _ (by omega)
    have hnew : WIter.new xs.length = iterAt xs.length 1 (2 ^ (e + 1)) 0 := by
      unfold WIter.new iterAt
      rw [hden]
      simp [wcut]
    have hpos : 0 < 2 ^ (e + 1) := Nat.pos_of_ne_zero (by simp)
    rw [he] at hlog1 hlog2
    have h4 : 4 * 2 ^ (e + 1) ≤ xs.length := by rw [Nat.pow_add] at hlog1; omega
    have h8 : xs.length < 8 * 2 ^ (e + 1) := by rw [Nat.pow_succ, Nat.pow_add] at hlog2; omega
    rw [hnew]
    apply wp_bind
    refine wp_mono (wikiGroups_level hlt hpos h4 h8 (by omega) hd hs hl) ?_
    rintro _ s1 ⟨q1, q2⟩
    refine wp_mono (wikiLevels_spec hlt c (htt.imp_right fun h => h h15) junk hd e 1 _ s1 (by omega) ((Nat.le_div_iff_mul_le hpos).2 h4) iterAt_begin q1 q2.live) ?_
    rintro _ s2 ⟨r1, r2⟩
    exact ⟨r1, q2.trans r2⟩

end

theorem wikiSort_stable (hlt : StrictWeak lt) (c : Cfg) {tt : TypeTraits} {size : Nat → Nat} (h : tt.trivDtor = true ∨ ∀ n, 15 ≤ n → size n ≤ 4) (junk : Nat → Nat → Nat) :
    SortsStably lt (wikiSort (tick lt) c tt junk size) := by
  intro s first xs hw hs
  have key : wp (wikiSort (tick lt) c tt junk size first (first + xs.length)) (fun _ s' => Seg s'.cell first (ssort lt xs) ∧
      (∀ i, i < first ∨ first + xs.length ≤ i → s'.cell i = s.cell i) ∧ s'.WF) s := by
    unfold wikiSort
    rw [show first + xs.length - first = xs.length by omega]
    generalize hn : size xs.length = n
    have hbl : 0 < xs.length → first + xs.length ≤ s.brk := fun h => Seg.below hw hs h
    dsimp only
    apply wp_bind
    refine wp_newObjects fun s1 a1 a2 a3 a4 => ?_
    have hc : wp (wikiSortWith (tick lt) c tt junk s.brk n first (first + xs.length)) (fun _ s' => Seg s'.cell first (ssort lt xs) ∧
        GFrame first (first + xs.length) s.brk n s1 s') s1 := by
      have hl1 : ∀ i, s.brk ≤ i → i < s.brk + n → Live s1.cell i := fun i h1 h2 => by unfold Live; rw [a1 i h1 h2]; simp
      cases xs with
      | nil =>
        unfold wikiSortWith
        rw [if_pos (by simp)]
        unfold insertionSort
        simp only [List.length_nil, Nat.add_zero, if_true]
        exact wp_pure ⟨fun k hk => by simp [ssort] at hk, GFrame.refl hl1⟩
      | cons x xs =>
        haveI : Inhabited α := ⟨x⟩
        have := hbl (by simp)
        exact wikiSortWith_spec hlt c (h.imp_right fun h h15 => by rw [← hn]; exact h _ h15) junk (by omega)
          (hs.congr fun i h1 h2 => a2 i (by omega)) hl1
    apply wp_bind
    refine wp_mono hc ?_
    rintro _ s2 ⟨b1, b2⟩
    apply wp_bind
    refine wp_mono (destroyN_spec n s.brk s2 b2.live) ?_
    rintro _ s3 ⟨c1, c2, c3, -, -⟩
    refine wp_free c1 fun s4 d1 d2 d3 _ _ => ?_
    have hbrk : s.brk ≤ s4.brk := by
      rw [St.env_brk d3, St.env_brk c3]
      have := b2.brk.1
      omega
    have hout : ∀ i, i < first ∨ first + xs.length ≤ i → s4.cell i = s.cell i := by
      intro i hi
      rcases Nat.lt_or_ge i s.brk with h | h
      · rw [d2 i (.inl h), c2 i (.inl h), b2.cell i hi (.inl h), a2 i (.inl h)]
      · rcases Nat.lt_or_ge i (s.brk + n) with h' | h'
        · rw [d1 i h h', hw i h]
        · rw [d2 i (.inr h'), c2 i (.inr h'), b2.cell i hi (.inr h'), a2 i (.inr h')]
    refine ⟨?_, hout, fun i hi => ?_⟩
    · refine b1.congr fun i h1 h2 => ?_
      rw [ssort_length] at h2
      have := hbl (by omega)
      rw [d2 i (.inl (by omega)), c2 i (.inl (by omega))]
    · rcases Nat.lt_or_ge i (first + xs.length) with h | h
      · rcases Nat.lt_or_ge i first with h' | h'
        · rw [hout i (.inl h')]; exact hw i (by omega)
        · have := hbl (by omega)
          omega
      · rw [hout i (.inr h)]; exact hw i (by omega)
  obtain ⟨_, s', h1, h2, h3, h4⟩ := key
  have hss := ssort_ssorted hlt xs
  exact ⟨s', ssort lt xs, h1, ssort_length xs, h2, hss, h3, h4⟩

end CppSort
