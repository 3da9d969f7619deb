import Verif.Proof.ProbesEnc
set_option autoImplicit false

namespace CppSort
variable {α β γ : Type} {lt : α → α → Bool}

/-- `x` reads the list. -/
def Reads (xs : List α) (x : Nat → α) : Prop := ∀ i, i < xs.length → xs[i]? = some (x i)

theorem exists_reads {xs : List α} (h : 0 < xs.length) : ∃ x, Reads xs x :=
  ⟨fun i => xs.getD i xs[0], fun i hi => by
    simp only [List.getD_eq_getElem?_getD, List.getElem?_eq_getElem hi, Option.getD_some]⟩

theorem Reads.get {xs : List α} {x : Nat → α} (h : Reads xs x) {i : Nat} (hi : i < xs.length) :
    xs[i] = x i := by
  have := h i hi
  rw [List.getElem?_eq_getElem hi] at this
  exact Option.some.inj this

/-- Two elements out of order at distance `d`. -/
def InvDist (lt : α → α → Bool) (xs : List α) (d : Nat) : Prop :=
  ∃ (i j : Nat) (hi : i < j) (hj : j < xs.length), j = i + d ∧ lt xs[j] xs[i] = true

/-- `r` is the largest distance between two elements out of order, `0` when there are none. -/
def MaxInvDist (lt : α → α → Bool) (xs : List α) (r : Nat) : Prop :=
  (r = 0 ∨ InvDist lt xs r) ∧ ∀ d, InvDist lt xs d → d ≤ r

/-- No inversion at a distance greater than `p`. -/
def PSorted (lt : α → α → Bool) (n : Nat) (x : Nat → α) (p : Nat) : Prop :=
  ∀ i j, i + p < j → j < n → lt (x j) (x i) = false

theorem isPSortedLoop_runs (hlt : StrictWeak lt) {xs : List α} {x : Nat → α} (hx : Reads xs x)
    {p : Nat} : ∀ (n a it1 mx : Nat), it1 + n = xs.length → it1 = a + p + 1 → mx ≤ a →
    (∀ i, i < a → lt (x mx) (x i) = false) →
    (∀ i j, i + p < j → j < it1 → lt (x j) (x i) = false) →
    Runs (isPSortedLoop (tick lt) xs a it1 mx)
      (fun r => r = true ↔ PSorted lt xs.length x p) := by
  intro n
  induction n with
  | zero =>
    intro a it1 mx hn hi hm h1 h2
    rw [isPSortedLoop, if_neg (by omega)]
    exact Runs.pure ⟨fun _ i j h h' => h2 i j h (by omega), fun _ => rfl⟩
  | succ n ih =>
    intro a it1 mx hn hi hm h1 h2
    rw [isPSortedLoop, if_pos (by omega)]
    have key : Runs (do
          let m ← nth xs mx
          let y ← nth xs a
          if ← tick lt m y then pure a else pure mx : M α Nat)
        (fun r => r ≤ a ∧ ∀ i, i < a + 1 → lt (x r) (x i) = false) := by
      refine Runs.nthBind (hx mx (by omega)) (Runs.nthBind (hx a (by omega)) (Runs.tickBind ?_))
      refine Runs.ite (fun hc => Runs.pure ⟨le_refl _, fun i hi => ?_⟩)
        fun hc => Runs.pure ⟨hm, fun i hi => ?_⟩
      · by_cases e : i = a
        · subst e; exact hlt.irrefl _
        · exact hlt.asymm (hlt.lt_of_le_of_lt (h1 i (by omega)) hc)
      · by_cases e : i = a
        · subst e; simpa using hc
        · exact h1 i (by omega)
    refine key.bind fun m hm' => ?_
    refine Runs.nthBind (hx it1 (by omega)) (Runs.nthBind (hx m (by omega)) (Runs.tickBind ?_))
    refine Runs.ite (fun hc => Runs.pure ⟨fun h => absurd h (by simp), fun h => ?_⟩) fun hc => ?_
    · have := h m it1 (by omega) (by omega)
      rw [hc] at this
      exact absurd this (by simp)
    · refine ih (a + 1) (it1 + 1) m (by omega) (by omega) (by omega) hm'.2 fun i j hij hj => ?_
      by_cases e : j = it1
      · subst e
        exact hlt.le_trans (hm'.2 i (by omega)) (by simpa using hc)
      · exact h2 i j hij (by omega)

theorem isPSorted_runs (hlt : StrictWeak lt) {xs : List α} {x : Nat → α} (hx : Reads xs x)
    {p : Nat} (hp : p < xs.length) :
    Runs (isPSorted (tick lt) xs p) (fun r => r = true ↔ PSorted lt xs.length x p) :=
  isPSortedLoop_runs hlt hx (xs.length - (p + 1)) 0 (p + 1) 0 (by omega) (by omega) (le_refl _)
    (by intro i h; omega) (by intro i j h h'; omega)

theorem disInplaceLoop_runs (hlt : StrictWeak lt) {xs : List α} {x : Nat → α} (hx : Reads xs x) :
    ∀ (n res size : Nat), size = n → res + size ≤ xs.length →
    (∀ p, p < res → ¬ PSorted lt xs.length x p) → PSorted lt xs.length x (res + size) →
    Runs (disInplaceLoop (tick lt) xs res size) (fun r => r ≤ res + size ∧
      (∀ p, p < r → ¬ PSorted lt xs.length x p) ∧ PSorted lt xs.length x r) := by
  intro n
  induction n using Nat.strong_induction_on with
  | _ n ih =>
    intro res size hn hle h1 h2
    rw [disInplaceLoop]
    refine Runs.ite (fun hs => ?_) fun hs => Runs.pure ⟨by omega, h1, ?_⟩
    · refine (isPSorted_runs hlt hx (p := res + size / 2) (by omega)).bind fun r hr => ?_
      refine Runs.ite (fun hc => ?_) fun hc => ?_
      · refine (ih (size / 2) (by omega) res _ rfl (by omega) h1 (hr.1 hc)).mono ?_
        rintro r ⟨a, b⟩
        exact ⟨by omega, b⟩
      · refine (ih (size - (size / 2 + 1)) (by omega) (res + size / 2 + 1) _ rfl (by omega) ?_ ?_).mono ?_
        · intro p hp hps
          exact hc (hr.2 fun i j hij hj => hps i j (by omega) hj)
        · rwa [show res + size / 2 + 1 + (size - (size / 2 + 1)) = res + size by omega]
        · rintro r ⟨a, b⟩
          exact ⟨by omega, b⟩
    · rwa [show size = 0 by omega, Nat.add_zero] at h2

theorem invDist_iff {xs : List α} {x : Nat → α} (hx : Reads xs x) (d : Nat) :
    InvDist lt xs d ↔ ∃ i j, i < j ∧ j < xs.length ∧ j = i + d ∧ lt (x j) (x i) = true := by
  constructor
  · rintro ⟨i, j, hi, hj, e, h⟩
    rw [hx.get hj, hx.get (by omega)] at h
    exact ⟨i, j, hi, hj, e, h⟩
  · rintro ⟨i, j, hi, hj, e, h⟩
    refine ⟨i, j, hi, hj, e, ?_⟩
    rw [hx.get hj, hx.get (by omega)]
    exact h

theorem maxInvDist_nil : MaxInvDist lt ([] : List α) 0 :=
  ⟨.inl rfl, by rintro d ⟨i, j, hi, hj, -⟩; simp at hj⟩

theorem disInplace_runs (hlt : StrictWeak lt) (xs : List α) :
    Runs (disInplace (tick lt) xs) (MaxInvDist lt xs) := by
  unfold disInplace
  by_cases h0 : xs.length = 0
  · rw [List.eq_nil_of_length_eq_zero h0, disInplaceLoop, if_neg (by simp)]
    exact Runs.pure maxInvDist_nil
  · obtain ⟨x, hx⟩ := exists_reads (xs := xs) (by omega)
    refine (disInplaceLoop_runs hlt hx xs.length 0 xs.length rfl (by omega) (by intro p h; omega)
      (by intro i j h h'; omega)).mono ?_
    rintro r ⟨-, h2, h3⟩
    have hup : ∀ d, InvDist lt xs d → d ≤ r := by
      intro d hd
      obtain ⟨i, j, h1, h4, h5, h6⟩ := (invDist_iff hx d).1 hd
      by_contra hlt'
      rw [h3 i j (by omega) h4] at h6
      exact absurd h6 (by simp)
    refine ⟨?_, hup⟩
    by_cases e : r = 0
    · exact .inl e
    · right
      have := h2 (r - 1) (by omega)
      unfold PSorted at this
      push Not at this
      obtain ⟨i, j, h4, h5, h6⟩ := this
      have hd : InvDist lt xs (j - i) :=
        (invDist_iff hx _).2 ⟨i, j, by omega, h5, by omega, by simpa using h6⟩
      have := hup _ hd
      rwa [show j - i = r by omega] at hd

/-- `m` is the position of a maximum of the first `j` elements. -/
def MaxAt (lt : α → α → Bool) (x : Nat → α) (j m : Nat) : Prop :=
  m < j ∧ ∀ i, i < j → lt (x m) (x i) = false

theorem lrCummaxLoop_runs (hlt : StrictWeak lt) {xs : List α} {x : Nat → α} (hx : Reads xs x) :
    ∀ (n it : Nat) (lr : List Nat), it + n = xs.length → 0 < it → lr.length = it →
    (∀ k m, lr[k]? = some m → MaxAt lt x (k + 1) m) →
    Runs (lrCummaxLoop (tick lt) xs it lr) (fun lr => lr.length = xs.length ∧
      ∀ k m, lr[k]? = some m → MaxAt lt x (k + 1) m) := by
  intro n
  induction n with
  | zero =>
    intro it lr hn h0 hl hm
    rw [lrCummaxLoop, if_neg (by omega)]
    exact Runs.pure ⟨by omega, hm⟩
  | succ n ih =>
    intro it lr hn h0 hl hm
    have hb : lr.length - 1 < lr.length := by omega
    have hbm := hm _ _ (List.getElem?_eq_getElem hb)
    have hb' : lr[lr.length - 1] < it := by have := hbm.1; omega
    rw [lrCummaxLoop, if_pos (by omega)]
    refine Runs.nthBind (List.getElem?_eq_getElem hb) ?_
    refine Runs.nthBind (hx _ (by omega)) ?_
    refine Runs.nthBind (hx it (by omega)) (Runs.tickBind ?_)
    have step : ∀ b, MaxAt lt x (it + 1) b → ∀ k m, (lr ++ [b])[k]? = some m → MaxAt lt x (k + 1) m := by
      intro b hb k m h
      rw [List.getElem?_append] at h
      split at h
      · exact hm k m h
      · rename_i hk
        have hk' : k = it := by
          have := (List.getElem?_eq_some_iff.1 h).1
          simp at this; omega
        subst hk'
        rw [hl] at h
        simp at h
        rwa [← h]
    refine Runs.ite (fun hc => ih (it + 1) _ (by omega) (by omega) (by simp [hl]) (step _ ?_))
      fun hc => ih (it + 1) _ (by omega) (by omega) (by simp [hl]) (step _ ?_)
    · refine ⟨by omega, fun i hi => ?_⟩
      by_cases e : i = it
      · subst e; exact hlt.irrefl _
      · exact hlt.asymm (hlt.lt_of_le_of_lt (hbm.2 i (by omega)) hc)
    · refine ⟨by omega, fun i hi => ?_⟩
      by_cases e : i = it
      · subst e; simpa using hc
      · exact hbm.2 i (by omega)

/-- `r` does not exceed the distance of some inversion. -/
def Attained (lt : α → α → Bool) (n : Nat) (x : Nat → α) (r : Nat) : Prop :=
  r = 0 ∨ ∃ a b, a < b ∧ b < n ∧ r ≤ b - a ∧ lt (x b) (x a) = true

/-- The state of the double loop: `i`, `j` count positions from one, `mn` is the position of a minimum
of the elements from position `i - 1` on. -/
structure DisInv (lt : α → α → Bool) (n : Nat) (x : Nat → α) (j i rl mn res : Nat) : Prop where
  ipos : 0 < i
  ile : i ≤ n
  rlEq : rl = i - 1
  mnLe : i - 1 ≤ mn
  mnLt : mn < n
  mnMin : ∀ k, i - 1 ≤ k → k < n → lt (x k) (x mn) = false
  above : ∀ b, i ≤ b → b < n → ∀ a, a < b → lt (x b) (x a) = true → b - a ≤ res
  attained : Attained lt n x res
  left : ∀ k, j < k → k ≤ i → ∃ a, a < k - 1 ∧ lt (x mn) (x a) = true

theorem disWhile_runs (hlt : StrictWeak lt) {xs : List α} {x : Nat → α} (hx : Reads xs x)
    {lr : List Nat} (hlr : lr.length = xs.length)
    (hmax : ∀ k m, lr[k]? = some m → MaxAt lt x (k + 1) m) : ∀ (n j i rl mn res : Nat), i = n →
    0 < j → j ≤ xs.length → DisInv lt xs.length x j i rl mn res →
    Runs (disWhile (tick lt) xs lr j i rl mn res) (fun r => match r with
      | .inl r => Attained lt xs.length x r ∧
          ∀ a b, a < b → b < xs.length → lt (x b) (x a) = true → b - a ≤ r
      | .inr (i, rl, mn, res) => DisInv lt xs.length x (j - 1) i rl mn res ∧ 1 < j) := by
  intro n
  induction n with
  | zero =>
    intro j i rl mn res hi hj hjn h
    have := h.ipos
    omega
  | succ n ih =>
    intro j i rl mn res hi hj hjn h
    obtain ⟨h1, h2, rfl, h4, h5, h6, h7, h8, h9⟩ := id h
    rw [disWhile]
    refine Runs.ite (fun hji => ?_) fun hji => Runs.pure ?_
    swap
    · refine ⟨⟨h1, h2, rfl, h4, h5, h6, h7, h8, fun k hk hk' => ?_⟩, by omega⟩
      exact absurd hk (by omega)
    have hl1 : j - 1 < lr.length := by omega
    obtain ⟨m, hm⟩ : ∃ m, lr[j - 1]? = some m := ⟨_, List.getElem?_eq_getElem hl1⟩
    have hmx := hmax _ _ hm
    rw [Nat.sub_add_cancel hj] at hmx
    have hmj := hmx.1
    refine Runs.nthBind hm (Runs.nthBind (hx m (by omega)) (Runs.nthBind (hx mn h5)
      (Runs.tickBind ?_)))
    -- the cumulative maximum is not less than the cumulative minimum
    have hge : lt (x m) (x mn) = false := by
      by_cases e : j = i
      · exact hlt.le_trans (h6 (i - 1) (le_refl _) (by omega)) (hmx.2 (i - 1) (by omega))
      · obtain ⟨a, a1, a2⟩ := h9 (j + 1) (by omega) (by omega)
        exact hlt.le_trans (hlt.asymm a2) (hmx.2 a (by omega))
    rw [if_neg (by simp [hge])]
    have key : Runs (if j = 1 then pure false else do
          let a ← nth xs mn
          let k ← nth lr (j - 2)
          let b ← nth xs k
          tick lt a b : M α Bool)
        (fun r => (r = true → 1 < j ∧ ∃ a, a < j - 1 ∧ lt (x mn) (x a) = true) ∧
          (r = false → ∀ a, a < j - 1 → lt (x mn) (x a) = false)) := by
      refine Runs.ite (fun e => Runs.pure ⟨by simp, fun _ a ha => by omega⟩) fun e => ?_
      have hl2 : j - 2 < lr.length := by omega
      obtain ⟨m', hm'⟩ : ∃ m, lr[j - 2]? = some m := ⟨_, List.getElem?_eq_getElem hl2⟩
      have hmx' := hmax _ _ hm'
      rw [show j - 2 + 1 = j - 1 by omega] at hmx'
      have := hmx'.1
      refine Runs.nthBind (hx mn h5) (Runs.nthBind hm' (Runs.nthBind (hx m' (by omega)) ?_))
      refine Runs.tick.mono fun r hr => ?_
      subst hr
      refine ⟨fun hc => ⟨by omega, m', this, hc⟩, fun hc a ha => ?_⟩
      exact hlt.le_trans (hmx'.2 a ha) hc
    refine key.bind fun r hr => ?_
    refine Runs.ite (fun hc => Runs.pure ?_) fun hc => ?_
    · obtain ⟨hj1, a, a1, a2⟩ := hr.1 hc
      refine ⟨⟨h1, h2, rfl, h4, h5, h6, h7, h8, fun k hk hk' => ?_⟩, hj1⟩
      by_cases e : k = j
      · subst e; exact ⟨a, a1, a2⟩
      · exact h9 k (by omega) hk'
    have hlow := hr.2 (by simpa using hc)
    have above' : ∀ b, i - 1 ≤ b → b < xs.length → ∀ a, a < b → lt (x b) (x a) = true →
        b - a ≤ max res (i - j) := by
      intro b hb hbn a ha hab
      by_cases e : b = i - 1
      · have h10 : lt (x mn) (x a) = true := hlt.lt_of_le_of_lt (h6 b hb hbn) hab
        have : ¬ a < j - 1 := fun h => by rw [hlow a h] at h10; exact absurd h10 (by simp)
        omega
      · have := h7 b (by omega) hbn a ha hab
        omega
    have attained' : Attained lt xs.length x (max res (i - j)) := by
      by_cases e : i - j ≤ res
      · rw [max_eq_left e]; exact h8
      · right
        obtain ⟨a, a1, a2⟩ := h9 (j + 1) (by omega) (by omega)
        have ha : ¬ a < j - 1 := fun h => by rw [hlow a h] at a2; exact absurd a2 (by simp)
        exact ⟨a, mn, by omega, h5, by omega, a2⟩
    refine Runs.ite (fun hd => Runs.pure ⟨attained', fun a b hab hbn h => ?_⟩) fun hd => ?_
    · by_cases e : i - 1 ≤ b
      · exact above' b e hbn a hab h
      · omega
    refine Runs.nthBind (hx _ (by omega)) (Runs.nthBind (hx mn h5) (Runs.tickBind ?_))
    have inv : ∀ mn', i - 1 - 1 ≤ mn' → mn' < xs.length → lt (x mn) (x mn') = false →
        lt (x (i - 1 - 1)) (x mn') = false →
        DisInv lt xs.length x j (i - 1) (i - 1 - 1) mn' (max res (i - j)) := by
      intro mn' c1 c2 c3 c4
      refine ⟨by omega, by omega, rfl, c1, c2, fun k hk hkn => ?_, above', attained', fun k hk hk' => ?_⟩
      · by_cases e : k = i - 1 - 1
        · subst e; exact c4
        · exact hlt.le_trans c3 (h6 k (by omega) hkn)
      · obtain ⟨a, a1, a2⟩ := h9 k hk (by omega)
        exact ⟨a, a1, hlt.lt_of_le_of_lt c3 a2⟩
    refine Runs.ite (fun hf => ?_) fun hf => ?_
    · exact ih j (i - 1) _ _ _ (by omega) hj hjn
        (inv _ (le_refl _) (by omega) (hlt.asymm hf) (hlt.irrefl _))
    · exact ih j (i - 1) _ _ _ (by omega) hj hjn (inv _ (by omega) h5 (hlt.irrefl _) (by simpa using hf))

theorem disFor_runs (hlt : StrictWeak lt) {xs : List α} {x : Nat → α} (hx : Reads xs x)
    {lr : List Nat} (hlr : lr.length = xs.length)
    (hmax : ∀ k m, lr[k]? = some m → MaxAt lt x (k + 1) m) : ∀ (j i rl mn res : Nat),
    0 < j → j ≤ xs.length → DisInv lt xs.length x j i rl mn res →
    Runs (disFor (tick lt) xs lr j i rl mn res) (fun r =>
      Attained lt xs.length x r ∧
          ∀ a b, a < b → b < xs.length → lt (x b) (x a) = true → b - a ≤ r) := by
  intro j
  induction j with
  | zero => intro i rl mn res h; omega
  | succ j ih =>
    intro i rl mn res hj hjn h
    rw [disFor, if_pos hj]
    refine (disWhile_runs hlt hx hlr hmax i (j + 1) i rl mn res rfl hj hjn h).bind fun r hr => ?_
    rcases r with r | ⟨i', rl', mn', res'⟩
    · exact Runs.pure hr
    · exact ih i' rl' mn' res' (by have := hr.2; omega) (by omega) hr.1

theorem disAllocating_runs (hlt : StrictWeak lt) (xs : List α) :
    Runs (disAllocating (tick lt) xs) (MaxInvDist lt xs) := by
  unfold disAllocating
  refine Runs.ite (fun h => Runs.pure ⟨.inl rfl, ?_⟩) fun h => ?_
  · rintro d ⟨i, j, hi, hj, -⟩
    omega
  · obtain ⟨x, hx⟩ := exists_reads (xs := xs) (by omega)
    refine (lrCummaxLoop_runs hlt hx (xs.length - 1) 1 [0] (by omega) (by omega) rfl ?_).bind ?_
    · intro k m hk
      have : k = 0 := by
        have := (List.getElem?_eq_some_iff.1 hk).1
        simpa using this
      subst this
      simp at hk
      subst hk
      exact ⟨by omega, fun i hi => by rw [show i = 0 by omega]; exact hlt.irrefl _⟩
    · rintro lr ⟨hl, hm⟩
      refine (disFor_runs hlt hx hl hm xs.length xs.length _ _ _ (by omega) (le_refl _)
        ⟨by omega, le_refl _, rfl, le_refl _, by omega, fun k hk hk' => ?_, fun b hb hb' => by omega,
          .inl rfl, fun k hk hk' => by omega⟩).mono ?_
      · rw [show k = xs.length - 1 by omega]; exact hlt.irrefl _
      · rintro r ⟨h1, h2⟩
        have hup : ∀ d, InvDist lt xs d → d ≤ r := by
          intro d hd
          obtain ⟨i, j, h3, h4, h5, h6⟩ := (invDist_iff hx d).1 hd
          have := h2 i j h3 h4 h6
          omega
        refine ⟨h1.imp id ?_, hup⟩
        rintro ⟨a, b, h3, h4, h5, h6⟩
        have hd := (invDist_iff (lt := lt) hx (b - a)).2 ⟨a, b, h3, h4, by omega, h6⟩
        have := hup _ hd
        rwa [show b - a = r by omega] at hd

theorem probeDis_runs (hlt : StrictWeak lt) (bidir mem : Bool) (xs : List α) :
    Runs (probeDis (tick lt) bidir mem xs) (MaxInvDist lt xs) := by
  unfold probeDis
  exact Runs.ite (fun _ => disAllocating_runs hlt xs) fun _ => disInplace_runs hlt xs

theorem MaxInvDist.le {xs : List α} {r : Nat} (h : MaxInvDist lt xs r) : r ≤ xs.length - 1 := by
  rcases h.1 with rfl | ⟨i, j, hi, hj, e, -⟩ <;> omega

end CppSort
