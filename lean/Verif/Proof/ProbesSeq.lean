import Verif.Proof.ProbesMono
import Mathlib.Data.List.NodupEquivFin
import Mathlib.Data.Fintype.Pigeonhole
set_option autoImplicit false

namespace CppSort
variable {α β γ : Type} {lt : α → α → Bool}

/-- Every element may be followed by each later one. -/
def Chain' (le : α → α → Bool) (ys : List α) : Prop := ys.Pairwise (fun x y => le x y = true)

/-- The invariant of patience sorting: `T` are the tops of the stacks after the elements `pre`. -/
structure Patience (le : α → α → Bool) (pre T : List α) : Prop where
  sorted : Chain' le T
  reach : ∀ k t, T[k]? = some t → ∃ ys, (ys ++ [t]).Sublist pre ∧ Chain' le (ys ++ [t]) ∧ ys.length = k
  dom : ∀ ys e, (ys ++ [e]).Sublist pre → Chain' le (ys ++ [e]) →
    ∃ t, T[ys.length]? = some t ∧ ∀ v, le e v = true → le t v = true
  color : ∃ col : Nat → Nat, (∀ i a, pre[i]? = some a → ∃ t, T[col i]? = some t ∧
      ∀ v, le a v = true → le t v = true) ∧
    ∀ i j a b, i < j → pre[i]? = some a → pre[j]? = some b → col i = col j → le a b = false

theorem Patience.nil (le : α → α → Bool) : Patience le [] [] where
  sorted := List.Pairwise.nil
  reach := by simp
  dom := by
    intro ys e h
    simp at h
  color := ⟨fun _ => 0, by simp, by simp⟩

theorem Chain'.push {le : α → α → Bool} (htr : ∀ a b c, le a b = true → le b c = true → le a c = true)
    {ys : List α} {e x : α} (h : Chain' le (ys ++ [e])) (hx : le e x = true) :
    Chain' le (ys ++ [e] ++ [x]) := by
  refine List.pairwise_append.2 ⟨h, List.pairwise_singleton _ _, ?_⟩
  intro a ha b hb
  rw [List.mem_singleton.1 hb]
  rcases List.mem_append.1 ha with h1 | h1
  · exact htr _ _ _ ((List.pairwise_append.1 h).2.2 a h1 e (by simp)) hx
  · rw [List.mem_singleton.1 h1]; exact hx

/-- Putting `x` on stack `p`: `T'` is the new list of tops. -/
theorem Patience.step {le : α → α → Bool} (htr : ∀ a b c, le a b = true → le b c = true → le a c = true)
    (hco : ∀ a b c, le a c = true → le a b = true ∨ le b c = true)
    {pre T T' : List α} {x : α} {p : Nat} (h : Patience le pre T) (hp : p ≤ T.length)
    (hlen : T'.length = if p = T.length then T.length + 1 else T.length)
    (hget : ∀ k, T'[k]? = if k = p then some x else T[k]?)
    (hlo : ∀ k t, k < p → T[k]? = some t → le t x = true)
    (hhi : ∀ t, T[p]? = some t → le t x = false) : Patience le (pre ++ [x]) T' := by
  have hafter : ∀ k t, p ≤ k → T[k]? = some t → le x t = true ∨ k = p := by
    intro k t hk ht
    by_cases e : k = p
    · exact .inr e
    · refine .inl ?_
      obtain ⟨hk', rfl⟩ := List.getElem?_eq_some_iff.1 ht
      have hp' : p < T.length := by omega
      have h1 := (List.pairwise_iff_getElem.1 h.sorted) p k hp' hk' (by omega)
      have h2 := hhi _ (List.getElem?_eq_getElem hp')
      rcases hco _ x _ h1 with h3 | h3
      · rw [h2] at h3; exact absurd h3 (by simp)
      · exact h3
  -- what follows the old top of stack `p` may follow `x`
  have hdomp : ∀ t v, T[p]? = some t → le t v = true → le x v = true := by
    intro t v ht hv
    rcases hco _ x _ hv with h3 | h3
    · rw [hhi t ht] at h3; exact absurd h3 (by simp)
    · exact h3
  have hlast : ∀ ys e, (ys ++ [e]).Sublist (pre ++ [x]) →
      (ys ++ [e]).Sublist pre ∨ (ys.Sublist pre ∧ e = x) := by
    intro ys e hs
    obtain ⟨l1, l2, e1, s1, s2⟩ := List.sublist_append_iff.1 hs
    rcases List.sublist_singleton.1 s2 with rfl | rfl
    · left; rw [e1]; simpa using s1
    · right
      obtain ⟨a, b⟩ := List.append_inj' e1 rfl
      exact ⟨a ▸ s1, by simpa using b⟩
  refine ⟨?_, ?_, ?_, ?_⟩
  · refine List.pairwise_iff_getElem.2 fun i j hi hj hij => ?_
    have gi := hget i
    have gj := hget j
    rw [List.getElem?_eq_getElem hi] at gi
    rw [List.getElem?_eq_getElem hj] at gj
    by_cases e1 : i = p
    · rw [if_pos e1] at gi
      rw [if_neg (by omega)] at gj
      rw [Option.some.inj gi]
      rcases hafter j _ (by omega) gj.symm with h1 | h1
      · exact h1
      · omega
    · rw [if_neg e1] at gi
      by_cases e2 : j = p
      · rw [if_pos e2] at gj
        rw [Option.some.inj gj]
        exact hlo i _ (by omega) gi.symm
      · rw [if_neg e2] at gj
        obtain ⟨hi', gi'⟩ := List.getElem?_eq_some_iff.1 gi.symm
        obtain ⟨hj', gj'⟩ := List.getElem?_eq_some_iff.1 gj.symm
        rw [← gi', ← gj']
        exact (List.pairwise_iff_getElem.1 h.sorted) i j hi' hj' hij
  · intro k t ht
    rw [hget] at ht
    by_cases e : k = p
    · rw [if_pos e] at ht
      obtain rfl := Option.some.inj ht
      by_cases e0 : k = 0
      · exact ⟨[], List.sublist_append_right pre _, List.pairwise_singleton _ _, by simp [e0]⟩
      · have hk : k - 1 < T.length := by omega
        obtain ⟨ys, s1, s2, s3⟩ := h.reach (k - 1) _ (List.getElem?_eq_getElem hk)
        refine ⟨ys ++ [T[k - 1]], s1.append (List.Sublist.refl _),
          s2.push htr (hlo (k - 1) _ (by omega) (List.getElem?_eq_getElem hk)), ?_⟩
        simp; omega
    · rw [if_neg e] at ht
      obtain ⟨ys, s1, s2, s3⟩ := h.reach k t ht
      exact ⟨ys, s1.trans (List.sublist_append_left _ _), s2, s3⟩
  · intro ys e hs hc
    rcases hlast ys e hs with h1 | ⟨h1, rfl⟩
    · obtain ⟨t, t1, t2⟩ := h.dom ys e h1 hc
      rw [hget]
      by_cases e2 : ys.length = p
      · rw [if_pos e2]
        exact ⟨x, rfl, fun v hv => hdomp t v (e2 ▸ t1) (t2 v hv)⟩
      · rw [if_neg e2]
        exact ⟨t, t1, t2⟩
    · have hk : ys.length ≤ p := by
        rcases List.eq_nil_or_concat ys with rfl | ⟨zs, z, rfl⟩
        · simp
        · rw [List.concat_eq_append] at *
          obtain ⟨t, t1, t2⟩ := h.dom zs z h1 (List.Pairwise.sublist (List.sublist_append_left _ _) hc)
          have := t2 e ((List.pairwise_append.1 hc).2.2 z (by simp) e (by simp))
          by_contra hlt
          simp only [List.length_append, List.length_singleton] at hlt
          have hl : zs.length < T.length := (List.getElem?_eq_some_iff.1 t1).1
          rcases hafter _ _ (by omega) t1 with h3 | h3
          · have hp' : p < T.length := by omega
            have h4 := hhi _ (List.getElem?_eq_getElem hp')
            have h5 : le T[p] e = true := by
              by_cases e5 : p = zs.length
              · rw [← e5] at t1
                rw [List.getElem?_eq_getElem hp'] at t1
                rw [Option.some.inj t1]; exact this
              · obtain ⟨_, rfl⟩ := List.getElem?_eq_some_iff.1 t1
                exact htr _ _ _ ((List.pairwise_iff_getElem.1 h.sorted) p _ hp' hl (by omega)) this
            rw [h4] at h5
            exact absurd h5 (by simp)
          · rw [h3] at t1
            rw [hhi t t1] at this
            exact absurd this (by simp)
      rw [hget]
      by_cases e2 : ys.length = p
      · rw [if_pos e2]
        exact ⟨e, rfl, fun v hv => hv⟩
      · rw [if_neg e2]
        have hl : ys.length < T.length := by omega
        refine ⟨T[ys.length], List.getElem?_eq_getElem hl, fun v hv => ?_⟩
        exact htr _ _ _ (hlo ys.length _ (by omega) (List.getElem?_eq_getElem hl)) hv
  · obtain ⟨col, c1, c2⟩ := h.color
    refine ⟨fun i => if i = pre.length then p else col i, ?_, ?_⟩
    · intro i a ha
      dsimp only
      by_cases e : i = pre.length
      · rw [if_pos e, hget, if_pos rfl]
        rw [e] at ha
        simp at ha
        subst ha
        exact ⟨_, rfl, fun v hv => hv⟩
      · have hi : i < pre.length := by
          have := (List.getElem?_eq_some_iff.1 ha).1
          simp at this; omega
        rw [List.getElem?_append_left hi] at ha
        obtain ⟨t, t1, t2⟩ := c1 i a ha
        rw [if_neg e, hget]
        by_cases e2 : col i = p
        · rw [if_pos e2]
          exact ⟨x, rfl, fun v hv => hdomp t v (e2 ▸ t1) (t2 v hv)⟩
        · rw [if_neg e2]
          exact ⟨t, t1, t2⟩
    · intro i j a b hij ha hb hcol
      have hj : j < pre.length + 1 := by
        have := (List.getElem?_eq_some_iff.1 hb).1
        simpa using this
      have hi : i < pre.length := by omega
      rw [List.getElem?_append_left hi] at ha
      dsimp only at hcol
      rw [if_neg (by omega)] at hcol
      by_cases e : j = pre.length
      · rw [if_pos e] at hcol
        rw [e] at hb
        simp at hb
        subst hb
        obtain ⟨t, t1, t2⟩ := c1 i a ha
        cases hv : le a x with
        | false => rfl
        | true =>
          have := t2 x hv
          rw [hcol] at t1
          rw [hhi t t1] at this
          exact absurd this (by simp)
      · rw [if_neg e] at hcol
        rw [List.getElem?_append_left (by omega)] at hb
        exact c2 i j a b hij ha hb hcol

theorem lndsLoop_runs {cmp : α → α → M α Bool} {c : α → α → Bool}
    (hcmp : ∀ x y, Runs (cmp x y) (fun r => r = c x y))
    (htr : ∀ x y z, c y x = false → c z y = false → c z x = false)
    (hco : ∀ x y z, c z x = false → c y x = false ∨ c z y = false) {xs : List α} :
    ∀ (n first : Nat) (tops : List Nat) (T : List α), first + n = xs.length →
    tops.map (fun i => xs[i]?) = T.map some → Patience (fun x y => !c y x) (xs.take first) T →
    Runs (lndsLoop cmp xs first tops) (fun r => ∃ T, r.length = T.length ∧
      Patience (fun x y => !c y x) xs T) := by
  intro n
  induction n with
  | zero =>
    intro first tops T hn ht hp
    rw [lndsLoop, if_neg (by omega)]
    refine Runs.pure ⟨T, by simpa using congrArg List.length ht, ?_⟩
    rwa [List.take_of_length_le (by omega)] at hp
  | succ n ih =>
    intro first tops T hn ht hp
    have hl : tops.length = T.length := by simpa using congrArg List.length ht
    have hget : ∀ i (h : i < T.length), ∃ j, tops[i]? = some j ∧ xs[j]? = some T[i] := by
      intro i h
      have := congrArg (fun l => l[i]?) ht
      simp only [List.getElem?_map, List.getElem?_eq_getElem h, Option.map_some] at this
      rw [List.getElem?_eq_getElem (show i < tops.length by omega), Option.map_some] at this
      exact ⟨_, List.getElem?_eq_getElem _, Option.some.inj this⟩
    have hf : first < xs.length := by omega
    rw [lndsLoop, if_pos (by omega)]
    refine Runs.nthBind (List.getElem?_eq_getElem hf) ?_
    refine (lowerBoundBy_runs (P := fun i => match T[i]? with
        | some t => !c xs[first] t
        | none => false) tops.length 0 tops.length rfl fun i _ hi => ?_).bind fun p hpp => ?_
    · have hi' : i < T.length := by omega
      obtain ⟨j, j1, j2⟩ := hget i hi'
      refine Runs.nthBind j1 (Runs.nthBind j2 ?_)
      refine (hcmp _ _).bind fun r hr => Runs.pure ?_
      rw [List.getElem?_eq_getElem hi', hr]
    · obtain ⟨-, p2, p3, p4⟩ := hpp
      simp only [Nat.zero_add] at p2 p3 p4
      have hlo : ∀ k t, k < p → T[k]? = some t → (!c xs[first] t) = true := by
        intro k t hk hkt
        have h4 := p4 (by omega)
        have hp1 : p - 1 < T.length := by omega
        rw [List.getElem?_eq_getElem hp1] at h4
        dsimp only at h4
        obtain ⟨hk', rfl⟩ := List.getElem?_eq_some_iff.1 hkt
        by_cases e : k = p - 1
        · subst e; exact h4
        · have h5 := (List.pairwise_iff_getElem.1 hp.sorted) k (p - 1) hk' hp1 (by omega)
          simp only [Bool.not_eq_true'] at h4 h5 ⊢
          exact htr _ _ _ h5 h4
      have hhi : ∀ t, T[p]? = some t → (!c xs[first] t) = false := by
        intro t hkt
        have := p3 (by rw [hl]; exact (List.getElem?_eq_some_iff.1 hkt).1)
        rw [hkt] at this
        exact this
      have step : ∀ T' : List α, T'.length = (if p = T.length then T.length + 1 else T.length) →
          (∀ k, T'[k]? = if k = p then some xs[first] else T[k]?) →
          Patience (fun x y => !c y x) (xs.take (first + 1)) T' := by
        intro T' h1 h2
        rw [List.take_succ_eq_append_getElem hf]
        refine hp.step ?_ ?_ (by omega) h1 h2 hlo hhi
        · intro a b d h1 h2
          simp only [Bool.not_eq_true'] at *
          exact htr _ _ _ h1 h2
        · intro a b d h1
          simp only [Bool.not_eq_true'] at *
          exact hco _ _ _ h1
      refine Runs.ite (fun e => ?_) fun e => ?_
      · refine ih (first + 1) _ (T ++ [xs[first]]) (by omega) ?_ (step _ ?_ ?_)
        · simp [ht, List.getElem?_eq_getElem hf]
        · rw [if_pos (by omega)]; simp
        · intro k
          rw [List.getElem?_append]
          by_cases e1 : k = p
          · rw [if_pos e1, if_neg (by omega), show k - T.length = 0 by omega]; rfl
          · rw [if_neg e1]
            by_cases e2 : k < T.length
            · rw [if_pos e2]
            · rw [if_neg e2, List.getElem?_eq_none (by simp; omega), List.getElem?_eq_none (by omega)]
      · refine ih (first + 1) _ (T.set p xs[first]) (by omega) ?_ (step _ ?_ ?_)
        · rw [List.map_set, ht, List.map_set, List.getElem?_eq_getElem hf]
        · rw [if_neg (by omega)]; simp
        · intro k
          rw [List.getElem?_set]
          by_cases e1 : k = p
          · rw [if_pos e1, if_pos e1.symm, if_pos (by omega)]
          · rw [if_neg e1, if_neg (fun h => e1 h.symm)]

theorem lnds_runs {cmp : α → α → M α Bool} {c : α → α → Bool}
    (hcmp : ∀ x y, Runs (cmp x y) (fun r => r = c x y))
    (htr : ∀ x y z, c y x = false → c z y = false → c z x = false)
    (hco : ∀ x y z, c z x = false → c y x = false ∨ c z y = false) (xs : List α) :
    Runs (lnds cmp xs) (fun r => r.2 = xs.length ∧ ∃ T, r.1 = T.length ∧
      Patience (fun x y => !c y x) xs T) := by
  unfold lnds
  refine Runs.ite (fun e => Runs.pure ?_) fun e => Runs.ite (fun e1 => Runs.pure ?_) fun e1 => ?_
  · rw [List.eq_nil_of_length_eq_zero e]
    exact ⟨rfl, [], rfl, Patience.nil _⟩
  · match xs, e1 with
    | [x], _ =>
      refine ⟨rfl, [x], rfl, ?_⟩
      have := (Patience.nil (fun x y : α => !c y x)).step (T' := [x]) (x := x) (p := 0)
        (fun a b d h1 h2 => by simp only [Bool.not_eq_true'] at *; exact htr _ _ _ h1 h2)
        (fun a b d h1 => by simp only [Bool.not_eq_true'] at *; exact hco _ _ _ h1)
        (le_refl _) (by simp) (by intro k; cases k <;> simp) (by simp) (by simp)
      simpa using this
  · refine (lndsLoop_runs hcmp htr hco xs.length 0 [] [] (by simp) rfl ?_).bind ?_
    · simpa using Patience.nil _
    · rintro r ⟨T, h1, h2⟩
      exact Runs.pure ⟨rfl, T, h1, h2⟩

theorem Patience.longest {le : α → α → Bool} {xs T : List α} (h : Patience le xs T) :
    (∃ ys, ys.Sublist xs ∧ Chain' le ys ∧ ys.length = T.length) ∧
    ∀ ys, ys.Sublist xs → Chain' le ys → ys.length ≤ T.length := by
  refine ⟨?_, ?_⟩
  · by_cases e : T = []
    · exact ⟨[], List.nil_sublist _, List.Pairwise.nil, by simp [e]⟩
    · have : T.length - 1 < T.length := by have := List.length_pos_iff.2 e; omega
      obtain ⟨ys, h1, h2, h3⟩ := h.reach _ _ (List.getElem?_eq_getElem this)
      exact ⟨_, h1, h2, by simp [h3]; omega⟩
  · intro ys h1 h2
    rcases List.eq_nil_or_concat ys with rfl | ⟨zs, z, rfl⟩
    · simp
    · rw [List.concat_eq_append] at *
      obtain ⟨t, t1, -⟩ := h.dom zs z h1 h2
      have := (List.getElem?_eq_some_iff.1 t1).1
      simp; omega

theorem probeRem_runs (hlt : StrictWeak lt) (xs : List α) :
    Runs (probeRem (tick lt) xs) (fun r =>
      (∃ ys, ys.Sublist xs ∧ SortedList lt ys ∧ ys.length + r = xs.length) ∧
      ∀ ys, ys.Sublist xs → SortedList lt ys → ys.length + r ≤ xs.length) := by
  unfold probeRem
  refine (lnds_runs (c := lt) (fun _ _ => Runs.tick) (fun x y z h1 h2 => hlt.le_trans h1 h2)
    (fun x y z h => ?_) xs).bind ?_
  · cases e : lt y x with
    | false => exact .inl rfl
    | true => exact .inr (hlt.asymm (hlt.lt_of_lt_of_le e h))
  · rintro ⟨a, b⟩ ⟨h1, T, h2, hp⟩
    dsimp only at *
    subst h1 h2
    obtain ⟨⟨ys, y1, y2, y3⟩, hm⟩ := hp.longest
    have e : ∀ ys : List α, Chain' (fun x y => !lt y x) ys ↔ SortedList lt ys := by
      intro ys
      simp [Chain', SortedList]
    have hle : T.length ≤ xs.length := y3 ▸ y1.length_le
    rw [if_pos hle]
    refine Runs.pure ⟨⟨ys, y1, (e _).1 y2, by omega⟩, fun zs z1 z2 => ?_⟩
    have h5 : zs.length ≤ T.length := hm zs z1 ((e _).2 z2)
    omega

/-- The list can be partitioned into `k` subsequences in non-descending order: a colour among `k` is
given to each position, and positions of the same colour are in order. -/
def PartitionsInto (lt : α → α → Bool) (xs : List α) (k : Nat) : Prop :=
  ∃ col : Nat → Nat, (∀ i, i < xs.length → col i < k) ∧
    ∀ (i j : Nat) (hi : i < j) (hj : j < xs.length), col i = col j → lt xs[j] xs[i] = false

/-- A strictly descending subsequence needs as many subsequences as it has elements. -/
theorem PartitionsInto.ge {xs ys : List α} {k : Nat} (h : PartitionsInto lt xs k) (hs : ys.Sublist xs)
    (hd : ys.Pairwise (fun x y => lt y x = true)) : ys.length ≤ k := by
  obtain ⟨col, c1, c2⟩ := h
  obtain ⟨f, hf⟩ := List.sublist_iff_exists_fin_orderEmbedding_get_eq.1 hs
  by_contra hk
  have hcard : Fintype.card (Fin k) < Fintype.card (Fin ys.length) := by simpa using hk
  obtain ⟨i, j, hij, he⟩ := Fintype.exists_ne_map_eq_of_card_lt
    (fun i : Fin ys.length => (⟨col (f i), c1 _ (f i).2⟩ : Fin k)) hcard
  have he : col (f i) = col (f j) := by simpa using he
  have main : ∀ i j : Fin ys.length, i < j → col (f i) = col (f j) → False := by
    intro i j h he
    have h1 := c2 (f i) (f j) (f.strictMono h) (f j).2 he
    have h2 := (List.pairwise_iff_getElem.1 hd) i j i.2 j.2 h
    have e1 := hf i
    have e2 := hf j
    simp only [List.get_eq_getElem] at e1 e2
    rw [e1, e2] at h2
    rw [h1] at h2
    exact absurd h2 (by simp)
  rcases lt_or_gt_of_ne hij with h | h
  · exact main i j h he
  · exact main j i h he.symm

theorem probeSus_runs (hlt : StrictWeak lt) (xs : List α) :
    Runs (probeSus (tick lt) xs) (fun r => r = 0 ∧ xs = [] ∨
      PartitionsInto lt xs (r + 1) ∧ ∀ k, PartitionsInto lt xs k → r + 1 ≤ k) := by
  unfold probeSus
  refine (lnds_runs (c := fun x y => !lt x y) (fun x y => ?_) (fun x y z h1 h2 => ?_)
    (fun x y z h => ?_) xs).bind ?_
  · exact Runs.tick.bind fun r hr => Runs.pure (by rw [hr])
  · simp only [Bool.not_eq_false'] at *
    exact hlt.trans _ _ _ h2 h1
  · simp only [Bool.not_eq_false'] at *
    cases e : lt y x with
    | true => exact .inl rfl
    | false => exact .inr (hlt.lt_of_lt_of_le h e)
  · rintro ⟨a, b⟩ ⟨h1, T, h2, hp⟩
    dsimp only at *
    subst h1 h2
    refine Runs.pure ?_
    by_cases e : T = []
    · left
      subst e
      refine ⟨by simp, ?_⟩
      cases xs with
      | nil => rfl
      | cons x xs =>
        obtain ⟨t, t1, -⟩ := hp.dom [] x (by simp) (List.pairwise_singleton _ _)
        simp at t1
    · right
      have hT := List.length_pos_iff.2 e
      rw [if_pos hT, Nat.sub_add_cancel hT]
      obtain ⟨⟨ys, y1, y2, y3⟩, -⟩ := hp.longest
      refine ⟨?_, fun k hk => ?_⟩
      · obtain ⟨col, c1, c2⟩ := hp.color
        refine ⟨col, fun i hi => ?_, fun i j hij hj hc => ?_⟩
        · obtain ⟨t, t1, -⟩ := c1 i _ (List.getElem?_eq_getElem hi)
          exact (List.getElem?_eq_some_iff.1 t1).1
        · have := c2 i j _ _ hij (List.getElem?_eq_getElem (by omega)) (List.getElem?_eq_getElem hj) hc
          simpa using this
      · rw [← y3]
        refine hk.ge y1 ?_
        simpa [Chain'] using y2

end CppSort
