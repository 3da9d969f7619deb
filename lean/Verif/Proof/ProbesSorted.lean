import Verif.Model.ProbesSorted
import Verif.Proof.ProbesDis
import Verif.Proof.Pdq
import Verif.Props.Pdq
set_option autoImplicit false

namespace CppSort
variable {α β γ : Type} {lt : α → α → Bool}

theorem indirectLt_sw (hlt : StrictWeak lt) : StrictWeak (indirectLt lt) :=
  ⟨fun x => hlt.irrefl x.1, fun x y z => hlt.trans x.1 y.1 z.1,
   fun x y z => hlt.equiv_trans x.1 y.1 z.1⟩

/-- `its` is a sorting permutation of the iterators of `xs`. -/
structure SortedIts (lt : α → α → Bool) (xs : List α) (its : List (α × Nat)) : Prop where
  perm : its.Perm xs.zipIdx
  sorted : SortedList lt (its.map (·.1))

theorem SortedIts.length {xs : List α} {its : List (α × Nat)} (h : SortedIts lt xs its) :
    its.length = xs.length := by simpa using h.perm.length_eq

theorem SortedIts.vals {xs : List α} {its : List (α × Nat)} (h : SortedIts lt xs its) :
    (its.map (·.1)).Perm xs := by
  have := h.perm.map (·.1)
  rwa [show xs.zipIdx.map (·.1) = xs from List.zipIdx_map_fst 0 xs] at this

theorem SortedIts.at {xs : List α} {its : List (α × Nat)} (h : SortedIts lt xs its) {i : Nat} {p : α × Nat}
    (hi : its[i]? = some p) : xs[p.2]? = some p.1 := by
  have := h.perm.mem_iff.1 (List.mem_of_getElem? hi)
  exact List.mem_zipIdx_iff_getElem?.1 this

theorem sortedIterators_keeps [Inhabited α] (hlt : StrictWeak lt) (bl : Bool) (xs : List α) :
    Keeps (sortedIterators lt bl xs) (SortedIts lt xs) := by
  unfold sortedIterators
  refine (embed_sorts (C10_pdq_sorter (indirectLt_sw hlt) bl) xs.zipIdx).bind fun r hr =>
    Keeps.pure ⟨hr.1, ?_⟩
  rw [SortedList, List.pairwise_map]
  exact hr.2

/-! ### ranks in a sorted list -/

theorem countP_cut {p : α → Bool} {ys : List α} {k : Nat} (hk : k ≤ ys.length)
    (h1 : ∀ i (h : i < ys.length), i < k → p ys[i] = true)
    (h2 : ∀ i (h : i < ys.length), k ≤ i → p ys[i] = false) : ys.countP p = k := by
  rw [← List.take_append_drop k ys, List.countP_append]
  have a : (ys.take k).countP p = (ys.take k).length := by
    rw [List.countP_eq_length]
    intro x hx
    obtain ⟨i, hi, rfl⟩ := List.getElem_of_mem hx
    simp only [List.length_take] at hi
    rw [List.getElem_take]
    exact h1 i (by omega) (by omega)
  have b : (ys.drop k).countP p = 0 := by
    rw [List.countP_eq_zero]
    intro x hx
    obtain ⟨i, hi, rfl⟩ := List.getElem_of_mem hx
    simp only [List.length_drop] at hi
    rw [List.getElem_drop]
    simp [h2 (k + i) (by omega) (by omega)]
  rw [a, b]
  simp [hk]

theorem sorted_get (hlt : StrictWeak lt) {ys : List α} (h : SortedList lt ys) {i j : Nat} (hij : i ≤ j) (hj : j < ys.length) :
    lt ys[j] (ys[i]'(by omega)) = false := by
  by_cases e : i = j
  · subst e; exact hlt.irrefl _
  · exact (List.pairwise_iff_getElem.1 h) i j (by omega) hj (by omega)

/-- Number of elements less than `v`: the first position `v` may occupy in a sorted permutation. -/
def rankLo (lt : α → α → Bool) (xs : List α) (v : α) : Nat := xs.countP (fun x => lt x v)

/-- Number of elements not greater than `v`: the end of the positions `v` may occupy. -/
def rankHi (lt : α → α → Bool) (xs : List α) (v : α) : Nat := xs.countP (fun x => !lt v x)

theorem rankLo_perm {xs ys : List α} (h : xs.Perm ys) (v : α) : rankLo lt xs v = rankLo lt ys v :=
  h.countP_eq _

theorem rankHi_perm {xs ys : List α} (h : xs.Perm ys) (v : α) : rankHi lt xs v = rankHi lt ys v :=
  h.countP_eq _

theorem rankHi_le (xs : List α) (v : α) : rankHi lt xs v ≤ xs.length := List.countP_le_length

theorem rankLo_le_hi (hlt : StrictWeak lt) (xs : List α) (v : α) :
    rankLo lt xs v ≤ rankHi lt xs v :=
  List.countP_mono_left fun x _ h => by simp [hlt.asymm h]

/-- Where an element is in a sorted list. -/
theorem sorted_rank (hlt : StrictWeak lt) {ys : List α} (h : SortedList lt ys) (v : α) {i : Nat} (hi : i < ys.length) :
    (lt ys[i] v = true ↔ i < rankLo lt ys v) ∧ (lt v ys[i] = false ↔ i < rankHi lt ys v) := by
  have cut : ∀ (p : α → Bool), (∀ a b, p b = true → lt b a = false → p a = true) →
      (p ys[i] = true ↔ i < ys.countP p) := by
    intro p hp
    constructor
    · intro hc
      by_contra hlt'
      have : (ys.take (i + 1)).countP p = (ys.take (i + 1)).length := by
        rw [List.countP_eq_length]
        intro x hx
        obtain ⟨j, hj, rfl⟩ := List.getElem_of_mem hx
        simp only [List.length_take] at hj
        rw [List.getElem_take]
        exact hp _ _ hc (sorted_get hlt h (by omega) hi)
      have h2 : (ys.take (i + 1)).countP p ≤ ys.countP p := (List.take_sublist _ _).countP_le
      simp only [List.length_take] at this
      omega
    · intro hc
      by_contra hn
      have : (ys.drop i).countP p = 0 := by
        rw [List.countP_eq_zero]
        intro x hx hpx
        obtain ⟨j, hj, rfl⟩ := List.getElem_of_mem hx
        simp only [List.length_drop] at hj
        rw [List.getElem_drop] at hpx
        exact hn (hp _ _ hpx (sorted_get hlt h (by omega) (by omega)))
      have h2 : ys.countP p = (ys.take i).countP p + (ys.drop i).countP p := by
        rw [← List.countP_append, List.take_append_drop]
      have h3 : (ys.take i).countP p ≤ (ys.take i).length := List.countP_le_length
      simp only [List.length_take] at h3
      omega
  refine ⟨cut (fun x => lt x v) fun a b h1 h2 => hlt.lt_of_le_of_lt h2 h1, ?_⟩
  have := cut (fun x => !lt v x) fun a b h1 h2 => by
    simp only [Bool.not_eq_true'] at *
    exact hlt.le_trans h2 h1
  rw [Bool.not_eq_true'] at this
  exact this

/-- Two sorted permutations agree up to equivalence. -/
theorem sorted_perm_eqv (hlt : StrictWeak lt) {ys zs : List α} (h : ys.Perm zs) (hy : SortedList lt ys)
    (hz : SortedList lt zs) {i : Nat} (hi : i < ys.length) (hi' : i < zs.length) : eqv lt ys[i] zs[i] = true := by
  have a := (sorted_rank hlt hy zs[i] hi).1
  have b := (sorted_rank hlt hz zs[i] hi').1
  have c := (sorted_rank hlt hy zs[i] hi).2
  have d := (sorted_rank hlt hz zs[i] hi').2
  rw [rankLo_perm h] at a
  rw [rankHi_perm h] at c
  have e1 : lt ys[i] zs[i] = false := by
    rw [← Bool.not_eq_true, a, ← b, hlt.irrefl]; simp
  have e2 : lt zs[i] ys[i] = false := by
    rw [c, ← d, hlt.irrefl]
  simp [eqv, e1, e2]

/-! ### ham -/

theorem hamLoop_runs {xs : List α} : ∀ (its : List (α × Nat)) (first count : Nat),
    first + its.length = xs.length → Runs (hamLoop lt xs first count its) (fun r =>
      r = count + ((xs.drop first).zip (its.map (·.1))).countP (fun p => !eqv lt p.1 p.2)) := by
  intro its
  induction its with
  | nil =>
    intro first count h
    exact Runs.pure (by simp)
  | cons it its ih =>
    intro first count h
    simp only [List.length_cons] at h
    have hf : first < xs.length := by omega
    rw [hamLoop]
    refine Runs.nthBind (List.getElem?_eq_getElem hf) ?_
    rw [List.drop_eq_getElem_cons hf, List.map_cons, List.zip_cons_cons]
    simp only [List.countP_cons]
    refine Runs.tickBind ?_
    refine Runs.ite (fun hc => ?_) fun hc => Runs.tickBind (Runs.ite (fun hd => ?_) fun hd => ?_)
    · refine (ih (first + 1) _ (by omega)).mono fun r hr => ?_
      rw [hr, if_pos (by simp [eqv, hc])]
      omega
    · refine (ih (first + 1) _ (by omega)).mono fun r hr => ?_
      rw [hr, if_pos (by simp [eqv, hd])]
      omega
    · refine (ih (first + 1) _ (by omega)).mono fun r hr => ?_
      rw [hr, if_neg (by simpa [eqv, hc] using hd)]
      omega

theorem zip_eqv (hlt : StrictWeak lt) (xs ys zs : List α) (hy : ys.length = xs.length)
    (hz : zs.length = xs.length)
    (h : ∀ i (hi : i < ys.length) (hi' : i < zs.length), eqv lt ys[i] zs[i] = true) :
    (xs.zip ys).countP (fun p => !eqv lt p.1 p.2) = (xs.zip zs).countP (fun p => !eqv lt p.1 p.2) := by
  induction xs generalizing ys zs with
  | nil => simp
  | cons x xs ih =>
    match ys, zs, hy, hz, h with
    | y :: ys, z :: zs, hy, hz, h =>
      simp only [List.zip_cons_cons, List.countP_cons]
      rw [ih ys zs (by simpa using hy) (by simpa using hz) fun i hi hi' =>
        h (i + 1) (by simpa using hi) (by simpa using hi')]
      have h0 : eqv lt y z = true := h 0 (by simp) (by simp)
      have : eqv lt x y = eqv lt x z := by
        simp only [eqv, Bool.and_eq_true, Bool.not_eq_true'] at h0
        rw [Bool.eq_iff_iff]
        simp only [eqv, Bool.and_eq_true, Bool.not_eq_true']
        constructor
        · rintro ⟨a, b⟩; exact hlt.equiv_trans _ _ _ a b h0.1 h0.2
        · rintro ⟨a, b⟩; exact hlt.equiv_trans _ _ _ a b h0.2 h0.1
      rw [this]

theorem probeHam_keeps [Inhabited α] (hlt : StrictWeak lt) (bl : Bool) (xs : List α) :
    Keeps (probeHam lt bl xs) (fun r => ∀ ys, ys.Perm xs → SortedList lt ys →
      r = (xs.zip ys).countP (fun p => !eqv lt p.1 p.2)) := by
  unfold probeHam
  refine Keeps.ite (fun h => Keeps.pure fun ys hp _ => ?_) fun h => ?_
  · match xs, h with
    | [], _ => simp
    | [x], _ => rw [List.perm_singleton.1 hp]; simp [eqv, hlt.irrefl]
    | _ :: _ :: _, h => simp at h; omega
  · refine (sortedIterators_keeps hlt bl xs).bind fun its hi => ?_
    refine (hamLoop_runs its 0 0 (by rw [hi.length]; omega)).keeps.mono fun r hr ys hp hs => ?_
    rw [hr, Nat.zero_add, List.drop_zero]
    refine zip_eqv hlt _ _ _ (by simp [hi.length]) hp.length_eq fun i h1 h2 => ?_
    exact sorted_perm_eqv hlt (hi.vals.trans hp.symm) hi.sorted hs h1 h2

/-! ### equal_range -/

theorem equalRange_runs (hlt : StrictWeak lt) {its : List (α × Nat)} (v : α)
    (hs : SortedList lt (its.map (·.1))) : ∀ (n first last len : Nat), len = n → first + len = last →
    last ≤ its.length →
    (∀ i (h : i < its.length), i < first → lt its[i].1 v = true) →
    (∀ i (h : i < its.length), last ≤ i → lt v its[i].1 = true) →
    Runs (equalRange lt its v first last len) (fun r =>
      r.1 = rankLo lt (its.map (·.1)) v ∧ r.2 = rankHi lt (its.map (·.1)) v) := by
  have fin : ∀ lo hi, lo ≤ hi → hi ≤ its.length →
      (∀ i (h : i < its.length), i < lo → lt its[i].1 v = true) →
      (∀ i (h : i < its.length), lo ≤ i → lt its[i].1 v = false) →
      (∀ i (h : i < its.length), i < hi → lt v its[i].1 = false) →
      (∀ i (h : i < its.length), hi ≤ i → lt v its[i].1 = true) →
      lo = rankLo lt (its.map (·.1)) v ∧ hi = rankHi lt (its.map (·.1)) v := by
    intro lo hi h1 h2 h3 h4 h5 h6
    constructor
    · refine (countP_cut (by simp; omega) (fun i h hi => ?_) (fun i h hi => ?_)).symm
      · simpa using h3 i (by simpa using h) hi
      · simpa using h4 i (by simpa using h) hi
    · refine (countP_cut (by simp; omega) (fun i h hi => ?_) (fun i h hi => ?_)).symm
      · simpa using h5 i (by simpa using h) hi
      · simpa using h6 i (by simpa using h) hi
  have sg : ∀ i j (hij : i ≤ j) (hj : j < its.length), lt its[j].1 (its[i]'(by omega)).1 = false := by
    intro i j hij hj
    have := sorted_get hlt hs hij (by simpa using hj)
    simpa using this
  intro n
  induction n using Nat.strong_induction_on with
  | _ n ih =>
    intro first last len hn hl hle h1 h2
    rw [equalRange]
    refine Runs.ite (fun h0 => ?_) fun h0 => Runs.pure ?_
    swap
    · refine fin first first (le_refl _) (by omega) h1 (fun i h hi => ?_) (fun i h hi => ?_)
        (fun i h hi => h2 i h (by omega))
      · exact hlt.asymm (h2 i h (by omega))
      · exact hlt.asymm (h1 i h hi)
    have hm : first + len / 2 < its.length := by omega
    refine Runs.nthBind (List.getElem?_eq_getElem hm) (Runs.tickBind ?_)
    refine Runs.ite (fun hc => ?_) fun hc => ?_
    · refine ih _ (by omega) (first + len / 2 + 1) last _ rfl (by omega) hle (fun i h hi => ?_) h2
      exact hlt.lt_of_le_of_lt (sg i _ (by omega) hm) hc
    refine Runs.nthBind (List.getElem?_eq_getElem hm) (Runs.tickBind ?_)
    refine Runs.ite (fun hd => ?_) fun hd => ?_
    · refine ih _ (by omega) first (first + len / 2) _ rfl rfl (by omega) h1 (fun i h hi => ?_)
      exact hlt.lt_of_lt_of_le hd (sg _ i hi h)
    have hc : lt its[first + len / 2].1 v = false := by simpa using hc
    have hd : lt v its[first + len / 2].1 = false := by simpa using hd
    refine (lowerBoundBy_runs (P := fun i => match its[i]? with
        | some p => lt p.1 v
        | none => false) (first + len / 2 - first) first _ rfl fun i _ hi => ?_).bind fun lo hlo => ?_
    · have hi' : i < its.length := by omega
      refine Runs.nthBind (List.getElem?_eq_getElem hi') (Runs.tick.mono fun r hr => ?_)
      rw [hr, List.getElem?_eq_getElem hi']
    refine (lowerBoundBy_runs (P := fun i => match its[i]? with
        | some p => !lt v p.1
        | none => false) (last - (first + len / 2 + 1)) (first + len / 2 + 1) _ rfl
          fun i _ hi => ?_).bind fun hi hhi => Runs.pure ?_
    · have hi' : i < its.length := by omega
      refine Runs.nthBind (List.getElem?_eq_getElem hi') (Runs.tick.bind fun r hr => Runs.pure ?_)
      rw [hr, List.getElem?_eq_getElem hi']
    obtain ⟨a1, a2, a3, a4⟩ := hlo
    obtain ⟨b1, b2, b3, b4⟩ := hhi
    refine fin lo hi (by omega) (by omega) (fun i h hi => ?_) (fun i h hi => ?_) (fun i h hi' => ?_)
      (fun i h hi' => ?_)
    · by_cases e : i < first
      · exact h1 i h e
      · have := a4 (by omega)
        rw [List.getElem?_eq_getElem (show lo - 1 < its.length by omega)] at this
        exact hlt.lt_of_le_of_lt (sg i (lo - 1) (by omega) (by omega)) this
    · by_cases e : lo < first + (first + len / 2 - first)
      · have := a3 e
        rw [List.getElem?_eq_getElem (show lo < its.length by omega)] at this
        exact hlt.le_trans this (sg lo i hi h)
      · exact hlt.le_trans hc (sg _ i (by omega) h)
    · by_cases e : first + len / 2 + 1 < hi
      · have := b4 e
        rw [List.getElem?_eq_getElem (show hi - 1 < its.length by omega)] at this
        simp only [Bool.not_eq_true'] at this
        exact hlt.le_trans (sg i (hi - 1) (by omega) (by omega)) this
      · exact hlt.le_trans (sg i _ (by omega) hm) hd
    · by_cases e : last ≤ i
      · exact h2 i h e
      · have := b3 (by omega)
        rw [List.getElem?_eq_getElem (show hi < its.length by omega)] at this
        simp only [Bool.not_eq_false'] at this
        exact hlt.lt_of_lt_of_le this (sg hi i hi' h)

theorem SortedIts.equalRange (hlt : StrictWeak lt) {xs : List α} {its : List (α × Nat)}
    (h : SortedIts lt xs its) (v : α) : Runs (equalRange lt its v 0 its.length its.length)
      (fun r => r.1 = rankLo lt xs v ∧ r.2 = rankHi lt xs v) := by
  refine (equalRange_runs hlt v h.sorted its.length 0 its.length its.length rfl (by omega) (le_refl _)
    (fun i _ hi => by omega) (fun i hi hi' => by omega)).mono ?_
  rintro r ⟨a, b⟩
  rw [a, b, rankLo_perm h.vals, rankHi_perm h.vals]
  exact ⟨rfl, rfl⟩

/-! ### max -/

/-- How far position `i` is from the positions `lo`, ..., `hi - 1`. -/
def away (lo hi i : Nat) : Nat := if i < lo then lo - i else if hi ≤ i then i - hi + 1 else 0

theorem maxLoop_runs (hlt : StrictWeak lt) {xs : List α} {its : List (α × Nat)}
    (hi : SortedIts lt xs its) {x : Nat → α} (hx : Reads xs x) : ∀ (n i d : Nat), i + n = xs.length →
    Runs (maxLoop lt xs its i d) (fun r => d ≤ r ∧
      (∀ k, i ≤ k → k < xs.length → away (rankLo lt xs (x k)) (rankHi lt xs (x k)) k ≤ r) ∧
      (r = d ∨ ∃ k, k < xs.length ∧ r = away (rankLo lt xs (x k)) (rankHi lt xs (x k)) k)) := by
  intro n
  induction n with
  | zero =>
    intro i d h
    rw [maxLoop, if_neg (by omega)]
    exact Runs.pure ⟨le_refl _, fun k h1 h2 => by omega, .inl rfl⟩
  | succ n ih =>
    intro i d h
    rw [maxLoop, if_pos (by omega)]
    refine Runs.nthBind (hx i (by omega)) ?_
    refine (hi.equalRange hlt (x i)).bind ?_
    rintro ⟨lo, hi'⟩ ⟨e1, e2⟩
    dsimp only at e1 e2 ⊢
    have key : ∀ d', d' = max (away lo hi' i) d → Runs (maxLoop lt xs its (i + 1) d')
        (fun r => d ≤ r ∧
        (∀ k, i ≤ k → k < xs.length → away (rankLo lt xs (x k)) (rankHi lt xs (x k)) k ≤ r) ∧
        (r = d ∨ ∃ k, k < xs.length ∧ r = away (rankLo lt xs (x k)) (rankHi lt xs (x k)) k)) := by
      intro d' hd
      refine (ih (i + 1) d' (by omega)).mono ?_
      rintro r ⟨r1, r2, r3⟩
      have hle : away lo hi' i ≤ r := (Nat.le_max_left _ _).trans (hd ▸ r1)
      have hled : d ≤ r := (Nat.le_max_right _ _).trans (hd ▸ r1)
      refine ⟨hled, fun k h1 h2 => ?_, ?_⟩
      · by_cases e : k = i
        · subst e; rw [← e1, ← e2]; exact hle
        · exact r2 k (by omega) h2
      · rcases r3 with r3 | r3
        · by_cases e : away lo hi' i ≤ d
          · left; rw [r3, hd, max_eq_right e]
          · right
            refine ⟨i, by omega, ?_⟩
            rw [← e1, ← e2, r3, hd, max_eq_left (by omega)]
        · exact .inr r3
    refine Runs.ite (fun hc => key _ ?_) fun hc => Runs.ite (fun hd => key _ ?_) fun hd => key _ ?_
    · rw [away, if_pos hc]
    · rw [away, if_neg hc, if_pos hd]
    · rw [away, if_neg hc, if_neg hd, Nat.zero_max]

/-- `|i - j|`. -/
def dist (i j : Nat) : Nat := (i - j) + (j - i)

/-- `r` is the largest over the elements of the distance from their position to the nearest position
of an equivalent element in the sorted permutation `ys`. -/
def MaxTravel (lt : α → α → Bool) (xs ys : List α) (r : Nat) : Prop :=
  (∀ (i : Nat) (hi : i < xs.length), ∃ (p : Nat) (hp : p < ys.length),
    eqv lt xs[i] ys[p] = true ∧ dist i p ≤ r) ∧
  (r = 0 ∨ ∃ (i : Nat) (hi : i < xs.length), ∀ (p : Nat) (hp : p < ys.length),
    eqv lt xs[i] ys[p] = true → r ≤ dist i p)

theorem probeMax_keeps [Inhabited α] (hlt : StrictWeak lt) (bl : Bool) (xs : List α) :
    Keeps (probeMax lt bl xs) (fun r => ∀ ys, ys.Perm xs → SortedList lt ys →
      MaxTravel lt xs ys r) := by
  unfold probeMax
  refine Keeps.ite (fun h => Keeps.pure fun ys hp _ => ?_) fun h => ?_
  · match xs, h with
    | [], _ => exact ⟨fun i hi => absurd hi (by simp), .inl rfl⟩
    | [x], _ =>
      rw [List.perm_singleton.1 hp]
      refine ⟨fun i hi => ⟨i, hi, ?_, by simp [dist]⟩, .inl rfl⟩
      simp [eqv, hlt.irrefl]
    | _ :: _ :: _, h => simp at h; omega
  · refine (sortedIterators_keeps hlt bl xs).bind fun its hi => ?_
    obtain ⟨x, hx⟩ := exists_reads (xs := xs) (by omega)
    refine (maxLoop_runs hlt hi hx xs.length 0 0 (by omega)).keeps.mono ?_
    rintro r ⟨-, r2, r3⟩ ys hp hs
    have hl := hp.length_eq
    have rk : ∀ v p (hp' : p < ys.length), eqv lt v ys[p] = true ↔
        rankLo lt xs v ≤ p ∧ p < rankHi lt xs v := by
      intro v p hp'
      obtain ⟨a, b⟩ := sorted_rank hlt hs v hp'
      rw [rankLo_perm hp] at a
      rw [rankHi_perm hp] at b
      rw [eqv, Bool.and_eq_true, Bool.not_eq_true', Bool.not_eq_true', b, ← Bool.not_eq_true, a]
      omega
    have occ : ∀ i, i < xs.length → rankLo lt xs (x i) < rankHi lt xs (x i) := by
      intro i hi
      have hm : x i ∈ ys := hp.mem_iff.2 (by rw [← hx.get hi]; exact List.getElem_mem hi)
      obtain ⟨p, hp', e⟩ := List.getElem_of_mem hm
      have := (rk (x i) p hp').1 (by rw [e]; simp [eqv, hlt.irrefl])
      omega
    refine ⟨fun i hi => ?_, ?_⟩
    · have h1 := r2 i (by omega) hi
      have h2 := occ i hi
      have h3 := rankHi_le (lt := lt) xs (x i)
      rw [hx.get hi]
      unfold away at h1
      split at h1
      · exact ⟨rankLo lt xs (x i), by omega, (rk _ _ _).2 ⟨le_refl _, h2⟩, by unfold dist; omega⟩
      · split at h1
        · exact ⟨rankHi lt xs (x i) - 1, by omega, (rk _ _ _).2 ⟨by omega, by omega⟩, by unfold dist; omega⟩
        · exact ⟨i, by omega, (rk _ _ _).2 ⟨by omega, by omega⟩, by unfold dist; omega⟩
    · refine r3.imp id ?_
      rintro ⟨k, hk, e⟩
      refine ⟨k, hk, fun p hp' he => ?_⟩
      rw [hx.get hk] at he
      have := (rk _ _ hp').1 he
      rw [e]
      unfold away dist
      split
      · omega
      · split <;> omega

theorem MaxTravel.le {xs ys : List α} {r : Nat} (hlt : StrictWeak lt) (hp : ys.Perm xs) (h : MaxTravel lt xs ys r) :
    r ≤ xs.length - 1 := by
  rcases h.2 with h | ⟨i, hi, h⟩
  · omega
  · have hl := hp.length_eq
    have hm : xs[i] ∈ ys := hp.mem_iff.2 (List.getElem_mem hi)
    obtain ⟨p, hp', e⟩ := List.getElem_of_mem hm
    have := h p hp' (by rw [e]; simp [eqv, hlt.irrefl])
    unfold dist at this
    omega

end CppSort
