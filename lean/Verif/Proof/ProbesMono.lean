import Verif.Model.Probes
import Verif.Proof.ListsMel
set_option autoImplicit false

namespace CppSort
variable {α β γ : Type} {lt : α → α → Bool}

/-! ### runs -/

/-- Number of adjacent pairs in descending order. -/
def stepDowns (lt : α → α → Bool) (xs : List α) : Nat :=
  (xs.zip xs.tail).countP (fun p => lt p.2 p.1)

theorem stepDowns_drop {xs : List α} {c : Nat} (h : c + 1 < xs.length) :
    stepDowns lt (xs.drop c) = stepDowns lt (xs.drop (c + 1)) +
      (if lt xs[c + 1] xs[c] = true then 1 else 0) := by
  unfold stepDowns
  rw [List.drop_eq_getElem_cons (show c < xs.length by omega), List.tail_cons,
    List.drop_eq_getElem_cons h, List.zip_cons_cons, List.countP_cons, List.tail_cons]

theorem stepDowns_last {xs : List α} {c : Nat} (h : c + 1 = xs.length) :
    stepDowns lt (xs.drop c) = 0 := by
  unfold stepDowns
  rw [List.drop_eq_getElem_cons (show c < xs.length by omega), List.tail_cons, h]
  simp

theorem runsSkip_runs {xs : List α} : ∀ (n c : Nat), c + 1 + n = xs.length →
    Runs (runsSkip (tick lt) xs c (c + 1)) (fun r => r.2 = r.1 + 1 ∧ c ≤ r.1 ∧
      r.2 ≤ xs.length ∧ (∀ h : r.2 < xs.length, lt xs[r.2] (xs[r.1]?.getD xs[r.2]) = true) ∧
      stepDowns lt (xs.drop r.1) = stepDowns lt (xs.drop c)) := by
  intro n
  induction n with
  | zero =>
    intro c h
    rw [runsSkip, if_neg (by omega)]
    exact Runs.pure ⟨rfl, le_refl _, by show c + 1 ≤ _; omega,
      fun h' => absurd h' (by show ¬ c + 1 < _; omega), rfl⟩
  | succ n ih =>
    intro c h
    rw [runsSkip, if_pos (by omega)]
    refine Runs.nthBind (List.getElem?_eq_getElem (show c + 1 < xs.length by omega)) ?_
    refine Runs.nthBind (List.getElem?_eq_getElem (show c < xs.length by omega)) ?_
    refine Runs.tickBind ?_
    refine Runs.ite (fun hc => Runs.pure ⟨rfl, le_refl _, by show c + 1 ≤ _; omega, fun h' => ?_, rfl⟩)
      fun hc => (ih (c + 1) (by omega)).mono ?_
    · show lt xs[c + 1] (xs[c]?.getD _) = true
      rw [List.getElem?_eq_getElem (show c < xs.length by omega)]
      exact hc
    · rintro r ⟨h1, h2, h3, h4, h5⟩
      refine ⟨h1, by omega, h3, h4, h5.trans ?_⟩
      rw [stepDowns_drop (c := c) (by omega), if_neg hc]
      omega

theorem runsLoop_runs {xs : List α} : ∀ (n c count : Nat), c + 1 + n = xs.length →
    Runs (runsLoop (tick lt) xs c (c + 1) count)
      (fun r => r = count + stepDowns lt (xs.drop c)) := by
  intro n
  induction n using Nat.strong_induction_on with
  | _ n ih =>
    intro c count h
    rw [runsLoop]
    refine (runsSkip_runs n c h).bind ?_
    rintro ⟨a, b⟩ ⟨h1, h2, h3, h4, h5⟩
    dsimp only at *
    subst h1
    refine Runs.ite (fun e => Runs.pure ?_) fun e => ?_
    · rw [← h5, stepDowns_last e]; rfl
    · have hb : a + 1 < xs.length := by omega
      refine (ih (xs.length - (a + 2)) (by omega) (a + 1) (count + 1) (by omega)).mono fun r hr => ?_
      have := h4 hb
      rw [List.getElem?_eq_getElem (show a < xs.length by omega), Option.getD_some] at this
      rw [hr, ← h5, stepDowns_drop hb, if_pos this]
      omega

theorem probeRuns_runs (xs : List α) :
    Runs (probeRuns (tick lt) xs) (fun r => r = stepDowns lt xs) := by
  unfold probeRuns
  refine Runs.ite (fun h => Runs.pure ?_) fun h => ?_
  · match xs, h with
    | [], _ => rfl
    | [_], _ => rfl
    | _ :: _ :: _, h => simp at h
  · have := runsLoop_runs (lt := lt) (xs := xs) (xs.length - 1) 0 0 (by omega)
    simpa using this

theorem stepDowns_cons (x y : α) (xs : List α) : stepDowns lt (x :: y :: xs) =
    stepDowns lt (y :: xs) + (if lt y x = true then 1 else 0) := by
  simp [stepDowns, List.countP_cons]

theorem stepDowns_eq_zero (hlt : StrictWeak lt) : ∀ xs : List α,
    stepDowns lt xs = 0 ↔ SortedList lt xs
  | [] => by simp [stepDowns, SortedList]
  | [x] => by simp [stepDowns, SortedList]
  | x :: y :: xs => by
    have ih := stepDowns_eq_zero hlt (y :: xs)
    rw [stepDowns_cons]
    constructor
    · intro h
      have h1 := ih.1 (by omega)
      have h2 : lt y x = false := by
        cases e : lt y x with
        | false => rfl
        | true => rw [if_pos e] at h; omega
      exact sorted_cons hlt h1 (by simp) h2
    · intro h
      have h1 := List.pairwise_cons.1 h
      rw [ih.2 h1.2, h1.1 y (by simp)]
      rfl

theorem stepDowns_le (xs : List α) : stepDowns lt xs ≤ xs.length - 1 := by
  refine List.countP_le_length.trans ?_
  simp

/-! ### mono -/

/-- A block in ascending or in descending order (in the wide sense). -/
def Monotonic (lt : α → α → Bool) (b : List α) : Prop :=
  SortedList lt b ∨ b.Pairwise (fun x y => lt x y = false)

/-- `k` cuts into consecutive monotonic blocks are enough, and no fewer are. -/
def MinCuts (lt : α → α → Bool) (xs : List α) (k : Nat) : Prop :=
  (∃ bs : List (List α), bs.flatten = xs ∧ (∀ b ∈ bs, Monotonic lt b) ∧ bs.length = k + 1) ∧
  ∀ bs : List (List α), bs.flatten = xs → (∀ b ∈ bs, Monotonic lt b) → bs ≠ [] → k + 1 ≤ bs.length

theorem Monotonic.sublist {b c : List α} (h : Monotonic lt c) (s : b.Sublist c) : Monotonic lt b :=
  h.imp (fun h => h.sublist s) (fun h => h.sublist s)

theorem Monotonic.nil : Monotonic lt ([] : List α) := .inl List.Pairwise.nil

theorem MinCuts.whole {xs : List α} (h : Monotonic lt xs) : MinCuts lt xs 0 :=
  ⟨⟨[xs], by simp, by simpa using h, rfl⟩, fun _ _ _ hb => List.length_pos_iff.2 hb⟩

/-- Dropping a prefix of the list does not need more blocks. -/
theorem blocks_drop : ∀ (bs : List (List α)) (a q : List α), bs.flatten = a ++ q →
    (∀ b ∈ bs, Monotonic lt b) →
    ∃ bs' : List (List α), bs'.flatten = q ∧ (∀ b ∈ bs', Monotonic lt b) ∧ bs'.length = bs.length := by
  intro bs
  induction bs with
  | nil =>
    intro a q h hm
    refine ⟨[], ?_, by simp, rfl⟩
    have := congrArg List.length h
    simp at this
    simp [List.eq_nil_of_length_eq_zero (by omega : q.length = 0)]
  | cons b bs ih =>
    intro a q h hm
    rw [List.flatten_cons] at h
    have hb := hm b (by simp)
    have hm' : ∀ c ∈ bs, Monotonic lt c := fun c hc => hm c (by simp [hc])
    rcases List.append_eq_append_iff.1 h with ⟨a', h1, h2⟩ | ⟨c', h1, h2⟩
    · obtain ⟨bs', e1, e2, e3⟩ := ih a' q h2 hm'
      refine ⟨[] :: bs', by simpa using e1, ?_, by simp [e3]⟩
      intro c hc
      rcases List.mem_cons.1 hc with rfl | hc
      · exact Monotonic.nil
      · exact e2 c hc
    · refine ⟨c' :: bs, by simp [h2], ?_, rfl⟩
      intro c hc
      rcases List.mem_cons.1 hc with rfl | hc
      · exact hb.sublist (h1 ▸ List.sublist_append_right a _)
      · exact hm' c hc

/-- The greedy choice: the first block is as long as possible. -/
theorem MinCuts.greedy {p q : List α} {x : α} {k : Nat} (hp : Monotonic lt p)
    (hx : ¬ Monotonic lt (p ++ [x])) (h : MinCuts lt (x :: q) k) :
    MinCuts lt (p ++ x :: q) (k + 1) := by
  obtain ⟨⟨bs, b1, b2, b3⟩, hmin⟩ := h
  refine ⟨⟨p :: bs, by simp [b1], ?_, by simp [b3]⟩, ?_⟩
  · intro c hc
    rcases List.mem_cons.1 hc with rfl | hc
    · exact hp
    · exact b2 c hc
  · intro cs c1 c2
    induction cs with
    | nil => simp at c1
    | cons c cs _ =>
      intro _
      rw [List.flatten_cons] at c1
      have hc := c2 c (by simp)
      have key : ∃ a, cs.flatten = a ++ (x :: q) := by
        rcases List.append_eq_append_iff.1 c1 with ⟨a', h1, h2⟩ | ⟨c', h1, h2⟩
        · exact ⟨a', h2⟩
        · cases c' with
          | nil => exact ⟨[], by simpa using h2.symm⟩
          | cons y c' =>
            rw [List.cons_append] at h2
            injection h2 with e1 e2
            subst e1
            refine absurd (hc.sublist ?_) hx
            rw [h1]
            exact List.Sublist.append (List.Sublist.refl _) (by simp)
      obtain ⟨a, ha⟩ := key
      obtain ⟨bs', e1, e2, e3⟩ := blocks_drop cs a (x :: q) ha fun d hd => c2 d (by simp [hd])
      have : bs' ≠ [] := by rintro rfl; simp at e1
      have := hmin bs' e1 e2 this
      simp only [List.length_cons]
      omega

theorem mono_pairs (hlt : StrictWeak lt) : ∀ (n : Nat) (xs : List α), xs.length = n →
    ∃ bs : List (List α), bs.flatten = xs ∧ (∀ b ∈ bs, Monotonic lt b) ∧
      bs.length = (xs.length + 1) / 2 := by
  intro n
  induction n using Nat.strong_induction_on with
  | _ n ih =>
    intro xs hn
    match xs, hn with
    | [], _ => exact ⟨[], rfl, by simp, by simp⟩
    | [x], _ => exact ⟨[[x]], rfl, by simp [Monotonic, SortedList], by simp⟩
    | x :: y :: xs, hn =>
      obtain ⟨bs, h1, h2, h3⟩ := ih xs.length (by simp at hn; omega) xs rfl
      refine ⟨[x, y] :: bs, by simp [h1], ?_, by simp [h3]; omega⟩
      intro c hc
      rcases List.mem_cons.1 hc with rfl | hc
      · cases e : lt y x with
        | false => exact .inl (by simp [SortedList, e])
        | true => exact .inr (by simp [hlt.asymm e])
      · exact h2 c hc

theorem MinCuts.le (hlt : StrictWeak lt) {xs : List α} {k : Nat} (h : MinCuts lt xs k) :
    k ≤ (xs.length + 1) / 2 - 1 := by
  obtain ⟨bs, h1, h2, h3⟩ := mono_pairs hlt _ xs rfl
  by_cases e : bs = []
  · subst e
    have := h.2 [[]] (by simpa using h1) (by simp [Monotonic.nil]) (by simp)
    simp at this
    omega
  · have := h.2 bs h1 h2 e
    omega

theorem MinCuts.unique {xs : List α} {k k' : Nat} (h : MinCuts lt xs k) (h' : MinCuts lt xs k') :
    k = k' := by
  obtain ⟨⟨bs, h1, h2, h3⟩, hm⟩ := h
  obtain ⟨⟨bs', h1', h2', h3'⟩, hm'⟩ := h'
  have a := hm bs' h1' h2' (by rintro rfl; simp at h3')
  have b := hm' bs h1 h2 (by rintro rfl; simp at h3)
  omega

theorem MinCuts.zero {xs : List α} : MinCuts lt xs 0 ↔ Monotonic lt xs := by
  refine ⟨fun h => ?_, MinCuts.whole⟩
  obtain ⟨⟨bs, h1, h2, h3⟩, -⟩ := h
  match bs, h3 with
  | [b], _ =>
    have : b = xs := by simpa using h1
    exact this ▸ h2 b (by simp)

/-- The elements of the positions from `b` up to `e`. -/
def slice (xs : List α) (b e : Nat) : List α := (xs.drop b).take (e - b)

theorem slice_snoc {xs : List α} {b e : Nat} (h : b ≤ e) (he : e < xs.length) :
    slice xs b (e + 1) = slice xs b e ++ [xs[e]] := by
  unfold slice
  rw [show e + 1 - b = (e - b) + 1 by omega, List.take_add_one, List.getElem?_drop,
    show b + (e - b) = e by omega, List.getElem?_eq_getElem he]
  rfl

theorem slice_self (xs : List α) (b : Nat) : slice xs b b = [] := by simp [slice]

theorem slice_full (xs : List α) (b : Nat) : slice xs b xs.length = xs.drop b := by
  rw [slice, ← List.length_drop, List.take_length]

theorem slice_drop {xs : List α} {b e : Nat} (h : b ≤ e) : xs.drop b = slice xs b e ++ xs.drop e := by
  unfold slice
  conv_lhs => rw [← List.take_append_drop (e - b) (xs.drop b)]
  rw [List.drop_drop, show b + (e - b) = e by omega]

theorem slice_sorted_snoc (hlt : StrictWeak lt) {xs : List α} {b e : Nat} (h : b ≤ e)
    (he : e + 1 < xs.length) (hs : SortedList lt (slice xs b (e + 1)))
    (hc : lt xs[e + 1] xs[e] = false) : SortedList lt (slice xs b (e + 1 + 1)) := by
  rw [slice_snoc (by omega) he]
  rw [slice_snoc h (by omega)] at hs ⊢
  exact sorted_push hlt hs (by simp) (by simpa using hc)

/-- The comparator, flipped for descending runs. -/
def dirLt (up : Bool) (lt : α → α → Bool) (x y : α) : Bool := if up then lt x y else lt y x

theorem dirLt_sw (hlt : StrictWeak lt) (up : Bool) : StrictWeak (dirLt up lt) := by
  cases up
  · exact hlt.flip
  · exact hlt

theorem monotonic_of_dir {up : Bool} {b : List α} (h : SortedList (dirLt up lt) b) :
    Monotonic lt b := by
  cases up
  · exact .inr h
  · exact .inl h

/-- Result of `monoRun`. -/
def RunEnd (up : Bool) (lt : α → α → Bool) (xs : List α) (b m : Nat) : Option (Nat × Nat) → Prop
  | none => SortedList (dirLt up lt) (xs.drop b)
  | some (_, e) => m < e ∧ SortedList (dirLt up lt) (slice xs b e) ∧
      ∃ (h : e < xs.length) (h' : e - 1 < xs.length), dirLt up lt xs[e] xs[e - 1] = true

theorem monoRun_runs (hlt : StrictWeak lt) {up : Bool} {xs : List α} {b m : Nat} : ∀ (n e : Nat),
    e + 1 + n = xs.length → b ≤ e → m ≤ e → SortedList (dirLt up lt) (slice xs b (e + 1)) →
    Runs (monoRun (tick lt) up xs e) (RunEnd up lt xs b m) := by
  intro n
  induction n with
  | zero =>
    intro e h hb hm hs
    rw [monoRun, if_pos (by omega)]
    refine Runs.pure ?_
    rwa [show e + 1 = xs.length by omega, slice_full] at hs
  | succ n ih =>
    intro e h hb hm hs
    have h1 : e + 1 < xs.length := by omega
    have h0 : e < xs.length := by omega
    rw [monoRun, if_neg (by omega)]
    have key : Runs (if up = true then do
          let a ← nth xs (e + 1)
          let c ← nth xs e
          tick lt a c
        else do
          let a ← nth xs e
          let c ← nth xs (e + 1)
          tick lt a c) (fun r => r = dirLt up lt xs[e + 1] xs[e]) := by
      cases up
      · exact Runs.nthBind (List.getElem?_eq_getElem h0) (Runs.nthBind (List.getElem?_eq_getElem h1)
          Runs.tick)
      · exact Runs.nthBind (List.getElem?_eq_getElem h1) (Runs.nthBind (List.getElem?_eq_getElem h0)
          Runs.tick)
    refine key.bind fun r hr => ?_
    refine Runs.ite (fun hc => Runs.pure ?_) fun hc => ih (e + 1) (by omega) (by omega) (by omega) ?_
    · exact ⟨by omega, hs, h1, by omega, by simpa [hc] using hr.symm⟩
    · refine slice_sorted_snoc (dirLt_sw hlt up) hb h1 hs ?_
      cases e : r
      · exact (hr.symm.trans e)
      · exact absurd e hc

theorem RunEnd.cut (hlt : StrictWeak lt) {up : Bool} {xs : List α} {b m e : Nat} {c : Nat} (hb : b ≤ m)
    (h : RunEnd up lt xs b (m + 1) (some (c, e))) (hm : m + 1 < xs.length)
    (hc : dirLt up lt xs[m] xs[m + 1] = true)
    {k : Nat} (hk : MinCuts lt (xs.drop e) k) : MinCuts lt (xs.drop b) (k + 1) := by
  obtain ⟨h1, h2, h3, h4, h5⟩ := h
  rw [slice_drop (show b ≤ e by omega)]
  rw [List.drop_eq_getElem_cons h3] at hk ⊢
  refine MinCuts.greedy (monotonic_of_dir h2) ?_ hk
  rw [← slice_snoc (by omega) h3]
  have g : ∀ i (hi : i < xs.length), b ≤ i → i ≤ e →
      ∃ h : i - b < (slice xs b (e + 1)).length, (slice xs b (e + 1))[i - b] = xs[i] := by
    intro i hi a b'
    have hl : i - b < (slice xs b (e + 1)).length := by simp [slice]; omega
    refine ⟨hl, ?_⟩
    simp only [slice, List.getElem_take, List.getElem_drop]
    congr 1
    omega
  obtain ⟨g1, g1'⟩ := g m (by omega) hb (by omega)
  obtain ⟨g2, g2'⟩ := g (m + 1) hm (by omega) (by omega)
  obtain ⟨g3, g3'⟩ := g (e - 1) h4 (by omega) (by omega)
  obtain ⟨g4, g4'⟩ := g e h3 (by omega) (by omega)
  have up1 : ∀ {q : α → α → Prop}, (slice xs b (e + 1)).Pairwise q → q xs[m] xs[m + 1] ∧
      q xs[e - 1] xs[e] := by
    intro q hq
    rw [List.pairwise_iff_getElem] at hq
    have a1 := hq _ _ g1 g2 (by omega)
    have a2 := hq _ _ g3 g4 (by omega)
    rw [g1', g2'] at a1
    rw [g3', g4'] at a2
    exact ⟨a1, a2⟩
  rintro (hs | hs)
  · obtain ⟨a1, a2⟩ := up1 hs
    cases up
    · simp [dirLt] at hc h5; rw [hc] at a1; exact absurd a1 (by simp)
    · simp [dirLt] at hc h5; rw [h5] at a2; exact absurd a2 (by simp)
  · obtain ⟨a1, a2⟩ := up1 hs
    cases up
    · simp [dirLt] at hc h5; rw [h5] at a2; exact absurd a2 (by simp)
    · simp [dirLt] at hc h5; rw [hc] at a1; exact absurd a1 (by simp)

theorem monoLoop_runs (hlt : StrictWeak lt) {xs : List α} : ∀ (n b c count : Nat),
    c + 1 + n = xs.length → b ≤ c →
    (∀ up, SortedList (dirLt up lt) (slice xs b (c + 1))) →
    Runs (monoLoop (tick lt) xs c (c + 1) count)
      (fun r => ∃ k, r = count + k ∧ MinCuts lt (xs.drop b) k) := by
  intro n
  induction n using Nat.strong_induction_on with
  | _ n ih =>
    intro b c count h hb hs
    have h0 : c < xs.length := by omega
    rw [monoLoop]
    refine Runs.ite (fun hn => ?_) fun hn => Runs.pure ⟨0, rfl, ?_⟩
    swap
    · refine MinCuts.whole (monotonic_of_dir (up := true) ?_)
      have := hs true
      rwa [show c + 1 = xs.length by omega, slice_full] at this
    have h1 : c + 1 < xs.length := by omega
    have step : ∀ up, dirLt up lt xs[c] xs[c + 1] = true →
        Runs (do
          match ← monoRun (tick lt) up xs (c + 1) with
          | none => pure count
          | some (_, next) => monoLoop (tick lt) xs next (next + 1) (count + 1))
        (fun r => ∃ k, r = count + k ∧ MinCuts lt (xs.drop b) k) := by
      intro up hc
      refine (monoRun_runs hlt (up := up) (b := b) (m := c + 1) (n - 1) (c + 1) (by omega) (by omega)
        (le_refl _) (slice_sorted_snoc (dirLt_sw hlt up) hb h1 (hs up)
          ((dirLt_sw hlt up).asymm hc))).bind fun r hr => ?_
      cases r with
      | none => exact Runs.pure ⟨0, rfl, MinCuts.whole (monotonic_of_dir hr)⟩
      | some ce =>
        obtain ⟨c', e⟩ := ce
        have he := hr.1
        obtain ⟨-, -, h3, -⟩ := id hr
        refine (ih (xs.length - (e + 1)) (by omega) e e (count + 1) (by omega) (le_refl _) ?_).mono ?_
        · intro up
          rw [slice_snoc (le_refl _) h3, slice_self]
          exact List.pairwise_singleton _ _
        · rintro r ⟨k, rfl, hk⟩
          exact ⟨k + 1, by omega, hr.cut hlt hb h1 hc hk⟩
    refine Runs.nthBind (List.getElem?_eq_getElem h0) ?_
    refine Runs.nthBind (List.getElem?_eq_getElem h1) ?_
    refine Runs.tickBind ?_
    refine Runs.ite (fun hc => step true hc) fun hc => ?_
    refine Runs.nthBind (List.getElem?_eq_getElem h1) ?_
    refine Runs.nthBind (List.getElem?_eq_getElem h0) ?_
    refine Runs.tickBind ?_
    refine Runs.ite (fun hd => step false hd) fun hd => ?_
    refine ih (n - 1) (by omega) b (c + 1) count (by omega) (by omega) ?_
    intro up
    refine slice_sorted_snoc (dirLt_sw hlt up) hb h1 (hs up) ?_
    cases up
    · simpa [dirLt] using hc
    · simpa [dirLt] using hd

theorem probeMono_runs (hlt : StrictWeak lt) (xs : List α) :
    Runs (probeMono (tick lt) xs) (MinCuts lt xs) := by
  unfold probeMono
  refine Runs.ite (fun h => Runs.pure (MinCuts.whole (.inl (sortedList_short (by omega))))) fun h => ?_
  have h0 : 0 < xs.length := by omega
  refine (monoLoop_runs hlt (xs := xs) (xs.length - 1) 0 0 0 (by omega) (le_refl _) ?_).mono ?_
  · intro up
    rw [slice_snoc (le_refl _) h0, slice_self]
    exact List.pairwise_singleton _ _
  · rintro r ⟨k, rfl, hk⟩
    simpa using hk

end CppSort
