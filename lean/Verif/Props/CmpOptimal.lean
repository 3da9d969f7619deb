import Verif.Proof.CmpOptimal
import Verif.Props.CmpWeight
import Verif.Props.FixedSize
/-
C107: `low_comparisons_sorter` is said to be optimal from 0 through 8 with regard to the comparison
weight (docs/Fixed-size-sorters.md, line 40). The programs considered are the bodies made of comparisons,
moves and exchanges of positions of the range (`DP`, the language in which the library's own bodies are
modelled).
-/
set_option autoImplicit false

namespace CppSort
variable {α : Type} {lt : α → α → Bool}

/-- No body that sorts `N` elements, for any `N`, has a smaller total than a binary tree with `N!` leaves
can have. -/
theorem C107_lower_bound (hlt : StrictWeak lt) (zs : List α)
    (hz : zs.Pairwise fun x y => lt x y = true) (p : DP) (hp : p.inb zs.length 0 = true)
    (hs : SortsSized lt zs.length (p.sort (tick lt))) (w : Nat)
    (hw : TotalComparisons (p.sort (tick lt)) zs w) (k : Nat) :
    zs.length.factorial * (k + 2) ≤ w + 2 ^ (k + 1) := by
  have h3 : k + 2 ≤ 2 ^ (k + 1) := Nat.lt_two_pow_self
  cases zs with
  | nil => simp only [List.length_nil, Nat.factorial_zero]; omega
  | cons a zs =>
    haveI : Inhabited α := ⟨a⟩
    have ht := totalComparisons_body hlt (a :: zs) hz p (fun h => by simp at h) hp _ rfl
    rw [hw.unique ht, ← sum_rank hp hz hlt rfl]
    refine ev_lower hp rfl (Inc.nodup hlt hz) (a :: zs) (fun xs hx => ?_) k
    have hl : xs.length = (a :: zs).length := hx.length_eq
    obtain ⟨s', ys, e, h1, h2, ⟨h4, h5⟩, -⟩ := hs (Demo.mem 0 xs) 0 xs hl (Demo.mem_wf _ _)
      (Demo.mem_seg _ _)
    obtain ⟨v, hh, hv⟩ := (Demo.mem_seg 0 xs).holds
    obtain ⟨r, s2, e2, v', hu, hv', -, -⟩ := DP.exec_ev (lt := lt) p 0 (hl ▸ hp) hh
    have e3 : p.sort (tick lt) 0 (0 + (a :: zs).length) (Demo.mem 0 xs) = some (.ok (), s2) := bind_ok e2
    obtain rfl : s' = s2 := by
      rw [e] at e3
      injection e3 with e3
      exact (Prod.mk.inj e3).2
    -- the result of the evaluation is `ys`
    have hev : ∀ i, i < (a :: zs).length → (p.ev lt 0 (valAt xs)).2.1 i = v' (0 + i) := by
      intro i hi
      have := ((DP.ev_shift (lt := lt) (lt' := lt) (g := id) (d := 0) (D := fun _ => True)
        (fun _ _ _ _ => rfl) p 0 (v := fun k => v (0 + k)) (w := valAt xs) hp fun k hk => ?_).2.2.1 i hi).1
      · rw [hv' i]
        simpa using this.symm
      · refine ⟨?_, trivial⟩
        have e4 : xs = lst v 0 xs.length := by
          rw [Nat.zero_add] at hv
          exact hv.symm
        rw [e4]
        simp only [Nat.zero_add, id]
        exact (valAt_lst (by omega)).symm
    have hys : lst (p.ev lt 0 (valAt xs)).2.1 0 (a :: zs).length = ys := by
      refine List.ext_getElem (by rw [lst_length]; omega) fun i hi hi' => ?_
      rw [lst_length] at hi
      have c1 := hu.holds i (by omega) (by omega)
      have c2 := h2 i (by omega)
      rw [Nat.zero_add] at c2
      rw [c2] at c1
      have c3 := Cell.val.inj c1
      have c4 := hev i (by omega)
      rw [Nat.zero_add] at c4
      simp only [lst, List.getElem_map, List.getElem_range', Nat.zero_add, Nat.one_mul]
      rw [c4, c3]
    rw [hys]
    -- a sorted permutation of `zs` is `zs`
    have tot : ∀ x ∈ a :: zs, ∀ y ∈ a :: zs, x ≠ y → lt x y = true ∨ lt y x = true := by
      have : (a :: zs).Pairwise fun x y => lt x y = true ∨ lt y x = true := hz.imp Or.inl
      intro x hx y hy hxy
      haveI : Std.Symm fun x y => lt x y = true ∨ lt y x = true := ⟨fun _ _ h => h.symm⟩
      exact List.Pairwise.forall ‹_› hx hy hxy
    have hyz := h4.trans hx
    refine List.Perm.eq_of_pairwise (le := fun x y => lt y x = false) (fun x y hx hy h6 h7 => ?_) h5
      (hz.imp fun {x y} h => ?_) hyz
    · by_contra hne
      rcases tot x (hyz.mem_iff.1 hx) y hy hne with h | h
      · rw [h] at h7; cases h7
      · rw [h] at h6; cases h6
    · by_contra h8
      have := hlt.trans _ _ _ h (by simpa using h8)
      rw [hlt.irrefl] at this
      cases this

example : ∀ w, TotalComparisons (sortN12.sort (tick Demo.natLt)) (List.range 12) w →
    12 * 11 * 10 * 9 * 8 * 7 * 6 * 5 * 4 * 3 * 2 * 30 ≤ w + 2 ^ 29 := by
  intro w hw
  have h := C107_lower_bound Demo.natLt_sw (List.range 12) (by decide) sortN12 (by decide +kernel)
    (sortsSized_of_w fun _ _ _ _ hh => wp_bind (wp_mono (DP.check_spec Demo.natLt_sw check12 hh)
      fun _ _ ⟨v', h1, h2, _⟩ => wp_pure ⟨v', h1, h2⟩)) w hw 28
  simpa [Nat.factorial] using h

/-- Optimal from 0 through 5: nothing that sorts takes fewer comparisons altogether. -/
theorem C107_optimal_partial (hlt : StrictWeak lt) (zs : List α)
    (hz : zs.Pairwise fun x y => lt x y = true) (hn : zs.length ≤ 5) (p : DP)
    (hp : p.inb zs.length 0 = true) (hs : SortsSized lt zs.length (p.sort (tick lt))) (w w' : Nat)
    (hw : TotalComparisons (lowComparisonsSort (tick lt) zs.length) zs w)
    (hw' : TotalComparisons (p.sort (tick lt)) zs w') : w ≤ w' := by
  have lo := C107_lower_bound hlt zs hz p hp hs w' hw'
  have key : ∀ d, documentedCmpWeights[zs.length]? = some d → w = d := fun d hd =>
    hw.unique (C106_documented_weights hlt zs hz d hd)
  generalize zs.length = n at hn lo key
  obtain rfl | rfl | rfl | rfl | rfl | rfl : n = 0 ∨ n = 1 ∨ n = 2 ∨ n = 3 ∨ n = 4 ∨ n = 5 := by omega
  · rw [key 0 rfl]; omega
  · rw [key 0 rfl]; omega
  · have := lo 1
    rw [key 2 rfl]
    simp only [Nat.factorial] at this
    omega
  · have := lo 2
    rw [key 16 rfl]
    simp only [Nat.factorial] at this
    omega
  · have := lo 4
    rw [key 112 rfl]
    simp only [Nat.factorial] at this
    omega
  · have := lo 6
    rw [key 832 rfl]
    simp only [Nat.factorial] at this
    omega

/-- What the checker accepts sorts. -/
theorem DP.sort_sorts [Inhabited α] (hlt : StrictWeak lt) {p : DP} {n c : Nat} (hc : p.check n c = true) :
    SortsSized lt n (p.sort (tick lt)) :=
  sortsSized_of_w fun _ _ _ _ hh => wp_bind (wp_mono (DP.check_spec hlt hc hh)
    fun _ _ ⟨v', h1, h2, _⟩ => wp_pure ⟨v', h1, h2⟩)

/-- The hypotheses are met, among others by the library's own body. -/
example : ∀ w w', TotalComparisons (lowComparisonsSort (tick Demo.natLt) 5) [1, 2, 3, 5, 8] w →
    TotalComparisons (sortN5.sort (tick Demo.natLt)) [1, 2, 3, 5, 8] w' → w ≤ w' :=
  fun w w' => C107_optimal_partial Demo.natLt_sw [1, 2, 3, 5, 8] (by decide) (by decide) sortN5
    (by decide +kernel) (DP.sort_sorts Demo.natLt_sw check5) w w'

/-- The bounds on single runs of `C25_low_comparisons_count` cannot be improved, from 0 through 9: a body
that sorts and never takes more than `c` comparisons has `c` at least as large. -/
theorem C107_worst_case_optimal (hlt : StrictWeak lt) (zs : List α)
    (hz : zs.Pairwise fun x y => lt x y = true) (hn : zs.length ≤ 9) (p : DP)
    (hp : p.inb zs.length 0 = true) (hs : SortsSized lt zs.length (p.sort (tick lt))) (c : Nat)
    (hc : ∀ (s s' : St α) (first : Nat) (xs : List α), xs.Perm zs → Seg s.cell first xs →
      p.sort (tick lt) first (first + xs.length) s = some (.ok (), s') → s'.cmps ≤ s.cmps + c) (b : Nat)
    (hb : [0, 0, 1, 3, 5, 7, 10, 13, 16, 19][zs.length]? = some b) : b ≤ c := by
  by_cases h0 : zs = []
  · subst h0
    obtain rfl : 0 = b := by simpa using hb
    omega
  · obtain ⟨d, h1, h2⟩ := totalComparisons_body hlt zs hz p (fun h => absurd h h0) hp _ rfl
    have hd : ∀ xs, xs.Perm zs → d xs ≤ c := by
      intro xs hx
      obtain ⟨s', e, hd⟩ := h1 (Demo.mem 0 xs) 0 xs hx (Demo.mem_seg _ _)
      have := hc _ s' 0 xs hx (Demo.mem_seg _ _) e
      omega
    have hsum : (zs.permutations.map d).sum ≤ zs.length.factorial * c := by
      have : ∀ l : List (List α), (∀ xs ∈ l, d xs ≤ c) → (l.map d).sum ≤ l.length * c := by
        intro l
        induction l with
        | nil => intro _; simp
        | cons x l ih =>
          intro h
          have a := h x (by simp)
          have b := ih fun y hy => h y (by simp [hy])
          simp only [List.map_cons, List.sum_cons, List.length_cons, Nat.add_mul, Nat.one_mul]
          omega
      rw [← List.length_permutations]
      exact this _ fun xs hx => hd xs (List.mem_permutations.1 hx)
    have lo := C107_lower_bound hlt zs hz p hp hs _ ⟨d, h1, rfl⟩ c
    have key : zs.length.factorial ≤ 2 ^ c := by
      rw [pow_succ, Nat.mul_add] at lo
      omega
    by_contra hlt'
    have key2 : zs.length.factorial ≤ 2 ^ (b - 1) :=
      key.trans (Nat.pow_le_pow_right (by omega) (by omega))
    have hb0 : 0 < b := by omega
    clear lo hsum h1 h2 hc hs hp hd key hlt'
    generalize zs.length = n at *
    obtain rfl | rfl | rfl | rfl | rfl | rfl | rfl | rfl | rfl | rfl : n = 0 ∨ n = 1 ∨ n = 2 ∨ n = 3 ∨
      n = 4 ∨ n = 5 ∨ n = 6 ∨ n = 7 ∨ n = 8 ∨ n = 9 := by omega
    all_goals
      simp only [List.getElem?_cons_succ, List.getElem?_cons_zero, Option.some.injEq] at hb
      subst hb
      revert key2 hb0
      decide

example : ∀ c, (∀ (s s' : St Nat) (first : Nat) (xs : List Nat), xs.Perm (List.range 9) →
    Seg s.cell first xs → sortN9.sort (tick Demo.natLt) first (first + xs.length) s = some (.ok (), s') →
    s'.cmps ≤ s.cmps + c) → 19 ≤ c :=
  fun c hc => C107_worst_case_optimal Demo.natLt_sw (List.range 9) (by decide) (by decide) sortN9
    (by decide +kernel) (DP.sort_sorts Demo.natLt_sw check9) c hc 19 (by decide)

/-- Six elements: at most 16 of the 6912 comparisons can be saved, over the 720 orders (exactly 16 can,
see `C107_optimal_six_seven_eight_false`). -/
theorem C107_six_partial (hlt : StrictWeak lt) (zs : List α)
    (hz : zs.Pairwise fun x y => lt x y = true) (hn : zs.length = 6) (p : DP)
    (hp : p.inb zs.length 0 = true) (hs : SortsSized lt zs.length (p.sort (tick lt))) (w w' : Nat)
    (hw : TotalComparisons (lowComparisonsSort (tick lt) zs.length) zs w)
    (hw' : TotalComparisons (p.sort (tick lt)) zs w') : w ≤ w' + 16 := by
  have lo := C107_lower_bound hlt zs hz p hp hs w' hw' 9
  have h := hw.unique (C106_documented_weights hlt zs hz 6912 (by rw [hn]; rfl))
  rw [hn] at lo
  simp only [Nat.factorial] at lo
  omega

example : ∀ w w', TotalComparisons (lowComparisonsSort (tick Demo.natLt) 6) [1, 2, 3, 5, 8, 13] w →
    TotalComparisons (sortN6.sort (tick Demo.natLt)) [1, 2, 3, 5, 8, 13] w' → w ≤ w' + 16 :=
  fun w w' => C107_six_partial Demo.natLt_sw [1, 2, 3, 5, 8, 13] (by decide) rfl sortN6
    (by decide +kernel) (DP.sort_sorts Demo.natLt_sw check6) w w'

/-- Not optimal for six, seven and eight elements, whatever the elements and their order: another body sorts
with fewer comparisons, altogether and without more in the worst case. -/
theorem C107_optimal_six_seven_eight_false (hlt : StrictWeak lt) (zs : List α)
    (hz : zs.Pairwise fun x y => lt x y = true) (hn : zs.length = 6 ∨ zs.length = 7 ∨ zs.length = 8) :
    ∃ (p : DP) (w w' : Nat), p.inb zs.length 0 = true ∧
      SortsSized lt zs.length (p.sort (tick lt)) ∧
      TotalComparisons (lowComparisonsSort (tick lt) zs.length) zs w ∧
      TotalComparisons (p.sort (tick lt)) zs w' ∧ w' < w := by
  have h0 : zs ≠ [] := by rintro rfl; simp at hn
  haveI : Inhabited α := ⟨zs.head h0⟩
  rcases hn with hn | hn | hn
  · refine ⟨better6, 6912, 6896, by rw [hn]; exact better6_inb,
      by rw [hn]; exact DP.sort_sorts hlt better6_check,
      C106_documented_weights hlt zs hz _ (by rw [hn]; rfl),
      totalComparisons_body hlt zs hz better6 (fun h => absurd h h0) (by rw [hn]; exact better6_inb) _
        (by rw [hn]; exact cmpSum_better6), by decide⟩
  · refine ⟨better7, 62784, 62544, by rw [hn]; exact better7_inb,
      by rw [hn]; exact DP.sort_sorts hlt better7_check,
      C106_documented_weights hlt zs hz _ (by rw [hn]; rfl),
      totalComparisons_body hlt zs hz better7 (fun h => absurd h h0) (by rw [hn]; exact better7_inb) _
        (by rw [hn]; exact cmpSum_better7), by decide⟩
  · refine ⟨better8, 623232, 621312, by rw [hn]; exact better8_inb,
      by rw [hn]; exact DP.sort_sorts hlt better8_check,
      C106_documented_weights hlt zs hz _ (by rw [hn]; rfl),
      totalComparisons_body hlt zs hz better8 (fun h => absurd h h0) (by rw [hn]; exact better8_inb) _
        (by rw [hn]; exact cmpSum_better8), by decide⟩

example : ∃ (p : DP) (w w' : Nat), p.inb 7 0 = true ∧ SortsSized Demo.natLt 7 (p.sort (tick Demo.natLt)) ∧
    TotalComparisons (lowComparisonsSort (tick Demo.natLt) 7) [1, 2, 3, 5, 8, 13, 21] w ∧
    TotalComparisons (p.sort (tick Demo.natLt)) [1, 2, 3, 5, 8, 13, 21] w' ∧ w' < w :=
  C107_optimal_six_seven_eight_false Demo.natLt_sw [1, 2, 3, 5, 8, 13, 21] (by decide)
    (Or.inr (Or.inl rfl))

example : ∃ (p : DP) (w w' : Nat), p.inb 6 0 = true ∧ SortsSized Demo.natLt 6 (p.sort (tick Demo.natLt)) ∧
    TotalComparisons (lowComparisonsSort (tick Demo.natLt) 6) [1, 2, 3, 5, 8, 13] w ∧
    TotalComparisons (p.sort (tick Demo.natLt)) [1, 2, 3, 5, 8, 13] w' ∧ w' < w :=
  C107_optimal_six_seven_eight_false Demo.natLt_sw [1, 2, 3, 5, 8, 13] (by decide) (Or.inl rfl)

end CppSort
