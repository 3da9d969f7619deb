import Verif.Proof.Indirect
set_option autoImplicit false

namespace CppSort
variable {α β γ : Type} {lt : α → α → Bool}

/-- From `lo` on the indices of the positions of `D` have been made the identity. -/
def IdxAt (idx : List Nat) (n lo : Nat) (σ : Nat → Nat) (D : Finset Nat) : Prop :=
  idx.length = n ∧ ∀ j, lo ≤ j → j < n → idx[j]? = some (if j ∈ D then j else σ j)

theorem IdxAt.set {idx : List Nat} {n lo : Nat} {σ : Nat → Nat} {D D' : Finset Nat} (h : IdxAt idx n lo σ D)
    {i : Nat} (hD : ∀ j, j ∈ D' ↔ j ∈ D ∨ j = i) : IdxAt (idx.set i i) n lo σ D' := by
  refine ⟨by rw [List.length_set, h.1], fun j h1 hj => ?_⟩
  rw [List.getElem?_set]
  by_cases e : i = j
  · subst e
    rw [if_pos rfl, if_pos (by rw [h.1]; exact hj)]
    simp [(hD i).2 (.inr rfl)]
  · rw [if_neg e, h.2 j h1 hj]
    congr 1
    have : j ∈ D' ↔ j ∈ D := by
      rw [hD]
      exact ⟨fun o => o.resolve_right fun e' => e e'.symm, .inl⟩
    by_cases hj : j ∈ D
    · rw [if_pos hj, if_pos (this.2 hj)]
    · rw [if_neg hj, if_neg (fun h => hj (this.1 h))]

theorem IdxAt.mono {idx : List Nat} {n lo lo' : Nat} {σ : Nat → Nat} {D D' : Finset Nat}
    (h : IdxAt idx n lo σ D) (hl : lo ≤ lo') (hD : ∀ j, lo' ≤ j → j < n → (j ∈ D' ↔ j ∈ D)) :
    IdxAt idx n lo' σ D' := by
  refine ⟨h.1, fun j h1 h2 => ?_⟩
  rw [h.2 j (by omega) h2]
  simp only [hD j h1 h2]

/-! ### apply_permutation -/

theorem applyWhile_spec {f n : Nat} {σ : Nat → Nat} {D : Finset Nat} (hw : Whole n σ D) {i L : Nat}
    (hc : CycleLen n σ i L) (hd : i ∉ D) {v : Nat → α} :
    ∀ (m t : Nat) (idx : List Nat) (w : Nat → α) (s : St α), t + 2 + m = L →
    IdxAt idx n 0 σ (D ∪ orbit σ i t) → TurnedX f n σ D i t v w →
    HoldsX s.cell f (f + n) (f + σ^[t] i) w →
    wp (applyWhile f i (σ^[t] i) idx) (fun r s' =>
      r.1 = σ^[L - 1] i ∧ IdxAt r.2 n 0 σ (D ∪ orbit σ i (L - 1)) ∧ ∃ w', TurnedX f n σ D i (L - 1) v w' ∧
        HoldsX s'.cell f (f + n) (f + σ^[L - 1] i) w' ∧ PermOn f (f + n) w w' ∧ Frame f (f + n) s s' ∧
        s'.cmps = s.cmps ∧ s'.movs = s.movs + m + 1) s := by
  intro m
  induction m with
  | zero =>
    intro t idx w s ht hf hx hh
    have l1 := hc.perm.iter_lt hc.lt t
    have l2 := hc.perm.iter_lt hc.lt (t + 1)
    have es : σ (σ^[t] i) = σ^[t + 1] i := (Function.iterate_succ_apply' σ t i).symm
    have hne : σ^[t + 1] i ≠ σ^[t] i := fun e => by
      have := hc.inj (t + 1) t (by omega) (by omega) e
      omega
    rw [applyWhile]
    apply wp_bind
    have h0 := hf.2 _ (Nat.zero_le _) l1
    rw [if_neg (not_mem_step hw hc hd (by omega) (le_refl t)), es] at h0
    refine nth_wp h0 ?_
    apply wp_bind
    refine wp_moveTo hh (by omega) (by omega) (by omega) fun s1 h1 h2 h3 h4 => ?_
    apply wp_bind
    have hf' : IdxAt (idx.set (σ^[t] i) (σ^[t] i)) n 0 σ (D ∪ orbit σ i (t + 1)) :=
      hf.set fun j => by rw [orbit_succ]
    have h5 := hf'.2 _ (Nat.zero_le _) l2
    rw [if_neg (not_mem_step hw hc hd (by omega) (le_refl _))] at h5
    refine nth_wp h5 ?_
    have hn := (hc.next (t := t + 1) (by omega)).not.2 (by omega)
    rw [not_not] at hn
    rw [if_neg (by rw [hn]; simp)]
    apply wp_pure
    have st := hx.step hw hc hd (t := t) (by omega)
    rw [es] at st
    have : L - 1 = t + 1 := by omega
    rw [this]
    refine ⟨rfl, hf', _, st, h1, PermOn.swp ⟨by omega, by omega⟩ ⟨by omega, by omega⟩, h2, h3, by omega⟩
  | succ m ih =>
    intro t idx w s ht hf hx hh
    have l1 := hc.perm.iter_lt hc.lt t
    have l2 := hc.perm.iter_lt hc.lt (t + 1)
    have es : σ (σ^[t] i) = σ^[t + 1] i := (Function.iterate_succ_apply' σ t i).symm
    have hne : σ^[t + 1] i ≠ σ^[t] i := fun e => by
      have := hc.inj (t + 1) t (by omega) (by omega) e
      omega
    rw [applyWhile]
    apply wp_bind
    have h0 := hf.2 _ (Nat.zero_le _) l1
    rw [if_neg (not_mem_step hw hc hd (by omega) (le_refl t)), es] at h0
    refine nth_wp h0 ?_
    apply wp_bind
    refine wp_moveTo hh (by omega) (by omega) (by omega) fun s1 h1 h2 h3 h4 => ?_
    apply wp_bind
    have hf' : IdxAt (idx.set (σ^[t] i) (σ^[t] i)) n 0 σ (D ∪ orbit σ i (t + 1)) :=
      hf.set fun j => by rw [orbit_succ]
    have h5 := hf'.2 _ (Nat.zero_le _) l2
    rw [if_neg (not_mem_step hw hc hd (by omega) (le_refl _))] at h5
    refine nth_wp h5 ?_
    have hn := (hc.next (t := t + 1) (by omega)).2 (by omega)
    rw [if_pos (fun e => hn e.symm)]
    have st := hx.step hw hc hd (t := t) (by omega)
    rw [es] at st
    refine wp_mono (ih (t + 1) _ _ s1 (by omega) hf' st h1) ?_
    rintro r s' ⟨a1, a2, w', a3, a4, a5, a6, a7, a8⟩
    exact ⟨a1, a2, w', a3, a4, PermOn.trans (PermOn.swp ⟨by omega, by omega⟩ ⟨by omega, by omega⟩) a5,
      h2.trans a6, by omega, by omega⟩

theorem applyLoop_spec {f n : Nat} {σ : Nat → Nat} (hp : PermBelow n σ) {v : Nat → α} :
    ∀ (m j : Nat) (D : Finset Nat) (idx : List Nat) (w : Nat → α) (s : St α), j + m = n →
    Whole n σ D → (∀ k, k < j → k ∈ D) → IdxAt idx n 0 σ D → Turned f n σ D v w →
    Holds s.cell f (f + n) w →
    wp (applyLoop f j idx) (fun r s' => r = List.range n ∧
      ∃ w', (∀ k, k < n → w' (f + k) = v (f + σ k)) ∧ Upd f (f + n) s s' w w' ∧
        s'.cmps = s.cmps ∧ 2 * s'.movs + 3 * D.card ≤ 2 * s.movs + 3 * n) s := by
  intro m
  induction m with
  | zero =>
    intro j D idx w s hj hW hlo hf ht hh
    rw [applyLoop, if_neg (by rw [hf.1]; omega)]
    apply wp_pure
    refine ⟨?_, w, ht.done fun k hk => hlo k (by omega), Upd.refl hh, rfl, by have := hW.card_le; omega⟩
    apply List.ext_getElem?
    intro k
    by_cases hk : k < n
    · rw [hf.2 k (Nat.zero_le _) hk, if_pos (hlo k (by omega)), List.getElem?_range hk]
    · rw [List.getElem?_eq_none (by rw [hf.1]; omega), List.getElem?_eq_none (by simp; omega)]
  | succ m ih =>
    intro j D idx w s hj hW hlo hf ht hh
    have hjn : j < n := by omega
    rw [applyLoop, if_pos (by rw [hf.1]; omega)]
    apply wp_bind
    refine nth_wp (hf.2 j (Nat.zero_le _) hjn) ?_
    by_cases hd : j ∈ D
    · rw [if_pos hd, if_neg (by simp)]
      refine ih (j + 1) D idx w s (by omega) hW (fun k hk => ?_) hf ht hh
      by_cases e : k = j
      · rw [e]; exact hd
      · exact hlo k (by omega)
    · rw [if_neg hd]
      obtain ⟨L, hc⟩ := hp.cycleLen hjn
      have hp0 : j ∈ D ∪ orbit σ j L := by
        rw [Finset.mem_union, mem_orbit]; exact .inr ⟨0, hc.pos, rfl⟩
      have hlo' : ∀ k, k < j + 1 → k ∈ D ∪ orbit σ j L := fun k hk => by
        by_cases e : k = j
        · rw [e]; exact hp0
        · exact Finset.mem_union_left _ (hlo k (by omega))
      have hcard := hW.card_add hc hd
      have hnx := hc.next (t := 0) hc.pos
      rw [Function.iterate_zero, id] at hnx
      by_cases hne : σ j = j
      · have hL : L = 1 := by
          have := hnx.not.1 (by rw [not_not]; exact hne)
          have := hc.pos
          omega
        subst hL
        rw [if_neg (by omega)]
        refine wp_mono (ih (j + 1) _ idx w s (by omega) (hW.add hc) hlo' ⟨hf.1, fun k h0 hk => ?_⟩
          (ht.fixed hne) hh) ?_
        · rw [hf.2 k h0 hk]
          congr 1
          by_cases e : k = j
          · subst e; rw [if_neg hd, if_pos hp0, hne]
          · simp [orbit, e]
        · rintro r s' ⟨a, w', b, c, d, e⟩
          exact ⟨a, w', b, c, d, by omega⟩
      · have hL : 1 < L := by have := hnx.1 hne; omega
        rw [if_pos (by omega)]
        apply wp_bind
        refine wp_moveOut hh (by omega) (by omega) fun s1 a1 a2 a3 a4 => ?_
        apply wp_bind
        have := applyWhile_spec hW hc hd (v := v) (L - 2) 0 idx w s1 (by omega)
          (hf.mono (le_refl _) fun k _ _ => by simp [orbit]) (TurnedX.start ht j) (by simpa using a1)
        rw [Function.iterate_zero, id] at this
        refine wp_mono this ?_
        rintro ⟨cur, idx'⟩ s2 ⟨b1, b2, w2, b3, b4, b5, b6, b7, b8⟩
        dsimp only at b1 b2 ⊢
        subst b1
        apply wp_bind
        have hv : w (f + j) = v (f + j) := by rw [ht j hjn, if_neg hd]
        refine wp_assign b4 (by rw [b3.hole hW hc hd (by omega), hv]) fun s3 c1 c2 c3 c4 => ?_
        have hu : Upd f (f + n) s s3 w w2 := ⟨c1, b5, a2.trans (b6.trans c2)⟩
        have hi' : IdxAt (idx'.set (σ^[L - 1] j) (σ^[L - 1] j)) n 0 σ (D ∪ orbit σ j L) :=
          b2.set fun k => by
            rw [← orbit_succ, show L - 1 + 1 = L by omega]
        refine wp_mono (ih (j + 1) _ _ w2 s3 (by omega) (hW.add hc) hlo' hi'
          (b3.finish hW hc hd (by omega)) c1) ?_
        rintro r s' ⟨d0, w', d1, d2, d3, d4⟩
        exact ⟨d0, w', d1, hu.trans d2, by omega, by omega⟩

/-! ### indiesort -/

theorem CycleLen.shift {n : Nat} {σ : Nat → Nat} {i L : Nat} (h : CycleLen n σ i L) :
    CycleLen n σ (σ i) L := by
  have e : ∀ t, σ^[t] (σ i) = σ (σ^[t] i) := fun t => by
    rw [← Function.iterate_succ_apply, Function.iterate_succ_apply']
  refine ⟨h.perm, h.perm.lt _ h.lt, h.pos, by rw [e, h.back], fun t t' a b c => ?_⟩
  rw [e, e] at c
  exact h.inj t t' a b (h.perm.inj _ _ (h.perm.iter_lt h.lt _) (h.perm.iter_lt h.lt _) c)

theorem indieWhile_spec {its : List (α × Nat)} {f n : Nat} {σ : Nat → Nat} (hits : ItsAt its 0 n σ)
    {D : Finset Nat} (hw : Whole n σ D) {i L : Nat} (hc : CycleLen n σ i L) (hd : i ∉ D)
    (hlo : ∀ k, k < i → k ∈ D) {v : Nat → α} :
    ∀ (m t : Nat) (idx : List Nat) (w : Nat → α) (s : St α), t + 2 + m = L →
    IdxAt idx n i σ (D ∪ orbit σ (σ i) t) → TurnedX f n σ D (σ i) t v w →
    HoldsX s.cell f (f + n) (f + σ^[t] (σ i)) w →
    wp (indieWhile its f i (σ^[t] i) (σ^[t + 1] i) idx) (fun r s' =>
      r.1 = σ^[L - 1] i ∧ IdxAt r.2 n i σ (D ∪ orbit σ (σ i) (L - 1)) ∧
        ∃ w', TurnedX f n σ D (σ i) (L - 1) v w' ∧
        HoldsX s'.cell f (f + n) (f + i) w' ∧ PermOn f (f + n) w w' ∧ Frame f (f + n) s s' ∧
        s'.cmps = s.cmps ∧ s'.movs = s.movs + m + 1) s := by
  intro m
  have hc' := hc.shift
  have hd' : σ i ∉ D := hw.outside hc.perm hc.lt hd 1
  have e1 : ∀ t, σ^[t] (σ i) = σ^[t + 1] i := fun t => (Function.iterate_succ_apply σ t i).symm
  have e2 : ∀ t, σ (σ^[t] i) = σ^[t + 1] i := fun t => (Function.iterate_succ_apply' σ t i).symm
  have hge : ∀ t, i ≤ σ^[t] i := fun t => by
    by_contra hcc
    exact hw.outside hc.perm hc.lt hd t (hlo _ (by omega))
  induction m with
  | zero =>
    intro t idx w s ht hf hx hh
    have l0 := hc.perm.iter_lt hc.lt t
    have l1 := hc.perm.iter_lt hc.lt (t + 1)
    have l2 := hc.perm.iter_lt hc.lt (t + 1 + 1)
    have hne := hc'.inj (t + 1) t (by omega) (by omega)
    rw [e1, e1] at hne
    have hne' : σ^[t + 1 + 1] i ≠ σ^[t + 1] i := fun e => by have := hne e; omega
    rw [indieWhile]
    obtain ⟨x0, hx0⟩ := hits.2 _ l0
    obtain ⟨x1, hx1⟩ := hits.2 _ l1
    rw [e2, Nat.zero_add] at hx0 hx1
    apply wp_bind
    refine nth_wp hx0 ?_
    apply wp_bind
    refine nth_wp hx1 ?_
    dsimp only
    apply wp_bind
    rw [e1] at hh
    refine wp_moveTo hh (by omega) (by omega) (by omega) fun s1 h1 h2 h3 h4 => ?_
    apply wp_bind
    have h5 := hf.2 _ (hge (t + 1)) l1
    have nm := not_mem_step hw hc' hd' (t := t) (t' := t) (by omega) (le_refl t)
    rw [e1] at nm
    rw [if_neg nm, e2] at h5
    refine nth_wp h5 ?_
    have hb : σ^[t + 1 + 1] i = i := by rw [show t + 1 + 1 = L by omega]; exact hc.back
    rw [if_neg (by simp [hb])]
    apply wp_pure
    have st := hx.step hw hc' hd' (t := t) (by omega)
    rw [e1, e2] at st
    have hf' : IdxAt (idx.set (σ^[t + 1] i) (σ^[t + 1] i)) n i σ (D ∪ orbit σ (σ i) (t + 1)) :=
      hf.set fun j => by rw [orbit_succ, e1]
    rw [show L - 1 = t + 1 by omega]
    rw [hb] at h1 st
    exact ⟨rfl, hf', _, st, h1, PermOn.swp ⟨by omega, by omega⟩ ⟨by omega, by have := hc.lt; omega⟩,
      h2, h3, by omega⟩
  | succ m ih =>
    intro t idx w s ht hf hx hh
    have l0 := hc.perm.iter_lt hc.lt t
    have l1 := hc.perm.iter_lt hc.lt (t + 1)
    have l2 := hc.perm.iter_lt hc.lt (t + 1 + 1)
    have hne := hc'.inj (t + 1) t (by omega) (by omega)
    rw [e1, e1] at hne
    have hne' : σ^[t + 1 + 1] i ≠ σ^[t + 1] i := fun e => by have := hne e; omega
    rw [indieWhile]
    obtain ⟨x0, hx0⟩ := hits.2 _ l0
    obtain ⟨x1, hx1⟩ := hits.2 _ l1
    rw [e2, Nat.zero_add] at hx0 hx1
    apply wp_bind
    refine nth_wp hx0 ?_
    apply wp_bind
    refine nth_wp hx1 ?_
    dsimp only
    apply wp_bind
    rw [e1] at hh
    refine wp_moveTo hh (by omega) (by omega) (by omega) fun s1 h1 h2 h3 h4 => ?_
    apply wp_bind
    have h5 := hf.2 _ (hge (t + 1)) l1
    have nm := not_mem_step hw hc' hd' (t := t) (t' := t) (by omega) (le_refl t)
    rw [e1] at nm
    rw [if_neg nm, e2] at h5
    refine nth_wp h5 ?_
    rw [if_pos (hc.ne_start (by omega) (by omega))]
    have st := hx.step hw hc' hd' (t := t) (by omega)
    rw [e1, e2] at st
    have hf' : IdxAt (idx.set (σ^[t + 1] i) (σ^[t + 1] i)) n i σ (D ∪ orbit σ (σ i) (t + 1)) :=
      hf.set fun j => by rw [orbit_succ, e1]
    refine wp_mono (ih (t + 1) _ _ s1 (by omega) hf' st (by rw [e1]; exact h1)) ?_
    rintro r s' ⟨a1, a2, w', a3, a4, a5, a6, a7, a8⟩
    exact ⟨a1, a2, w', a3, a4, PermOn.trans (PermOn.swp ⟨by omega, by omega⟩ ⟨by omega, by omega⟩) a5,
      h2.trans a6, by omega, by omega⟩

theorem indieLoop_spec {its : List (α × Nat)} {f n : Nat} {σ : Nat → Nat} (hits : ItsAt its 0 n σ)
    (hp : PermBelow n σ) {v : Nat → α} :
    ∀ (m j : Nat) (D : Finset Nat) (idx : List Nat) (w : Nat → α) (s : St α), j + m = n →
    Whole n σ D → (∀ k, k < j → k ∈ D) → IdxAt idx n j σ D → Turned f n σ D v w →
    Holds s.cell f (f + n) w →
    wp (indieLoop its f j idx) (fun _ s' =>
      ∃ w', (∀ k, k < n → w' (f + k) = v (f + σ k)) ∧ Upd f (f + n) s s' w w' ∧
        s'.cmps = s.cmps ∧ 2 * s'.movs + 3 * D.card ≤ 2 * s.movs + 3 * n) s := by
  intro m
  induction m with
  | zero =>
    intro j D idx w s hj hW hlo hf ht hh
    rw [indieLoop, if_neg (by rw [hits.1]; omega)]
    apply wp_pure
    exact ⟨w, ht.done fun k hk => hlo k (by omega), Upd.refl hh, rfl, by have := hW.card_le; omega⟩
  | succ m ih =>
    intro j D idx w s hj hW hlo hf ht hh
    have hjn : j < n := by omega
    rw [indieLoop, if_pos (by rw [hits.1]; omega)]
    apply wp_bind
    refine nth_wp (hf.2 j (le_refl _) hjn) ?_
    by_cases hd : j ∈ D
    · rw [if_pos hd, if_neg (by simp)]
      refine ih (j + 1) D idx w s (by omega) hW (fun k hk => ?_) (hf.mono (by omega) fun _ _ _ => Iff.rfl) ht hh
      by_cases e : k = j
      · rw [e]; exact hd
      · exact hlo k (by omega)
    · rw [if_neg hd]
      obtain ⟨L, hc⟩ := hp.cycleLen hjn
      have hc' := hc.shift
      have hd' : σ j ∉ D := hW.outside hc.perm hc.lt hd 1
      have hp0 : j ∈ D ∪ orbit σ (σ j) L := by
        rw [Finset.mem_union, mem_orbit]
        refine .inr ⟨L - 1, by have := hc.pos; omega, ?_⟩
        rw [← Function.iterate_succ_apply, show (L - 1).succ = L by have := hc.pos; omega]
        exact hc.back
      have hlo' : ∀ k, k < j + 1 → k ∈ D ∪ orbit σ (σ j) L := fun k hk => by
        by_cases e : k = j
        · rw [e]; exact hp0
        · exact Finset.mem_union_left _ (hlo k (by omega))
      have hcard := hW.card_add hc' hd'
      have hnx := hc.next (t := 0) hc.pos
      rw [Function.iterate_zero, id] at hnx
      by_cases hne : σ j = j
      · have hL : L = 1 := by
          have := hnx.not.1 (by rw [not_not]; exact hne)
          have := hc.pos
          omega
        subst hL
        rw [if_neg (by omega)]
        rw [hne] at hlo' hcard
        refine wp_mono (ih (j + 1) _ idx w s (by omega) (hW.add hc) hlo' (hf.mono (by omega) fun k h1 _ => ?_)
          (ht.fixed hne) hh) ?_
        · have : k ≠ j := by omega
          simp [orbit, this]
        · rintro _ s' ⟨w', b, c, d, e⟩
          exact ⟨w', b, c, d, by omega⟩
      · have hL : 1 < L := by have := hnx.1 hne; omega
        rw [if_pos (by omega)]
        obtain ⟨x, hx⟩ := hits.2 j hjn
        rw [Nat.zero_add] at hx
        apply wp_bind
        refine nth_wp hx ?_
        dsimp only
        apply wp_bind
        have := hc'.lt
        refine wp_moveOut hh (by omega) (by omega) fun s1 a1 a2 a3 a4 => ?_
        apply wp_bind
        have := indieWhile_spec hits hW hc hd hlo (v := v) (L - 2) 0 idx w s1 (by omega)
          (hf.mono (le_refl _) fun k _ _ => by simp [orbit]) (TurnedX.start ht (σ j)) (by simpa using a1)
        rw [Function.iterate_zero, id, Function.iterate_one] at this
        refine wp_mono this ?_
        rintro ⟨cur, idx'⟩ s2 ⟨b1, b2, w2, b3, b4, b5, b6, b7, b8⟩
        dsimp only at b1 b2 ⊢
        subst b1
        obtain ⟨y, hy⟩ := hits.2 _ (hc.perm.iter_lt hc.lt (L - 1))
        rw [← Function.iterate_succ_apply' σ, show (L - 1).succ = L by omega, hc.back, Nat.zero_add] at hy
        apply wp_bind
        refine nth_wp hy ?_
        dsimp only
        apply wp_bind
        have hv : w (f + σ j) = v (f + σ j) := by rw [ht _ hc'.lt, if_neg hd']
        have hho := b3.hole hW hc' hd' (by omega)
        rw [← Function.iterate_succ_apply, show (L - 1).succ = L by omega, hc.back] at hho
        refine wp_assign b4 (by rw [hho, hv]) fun s3 c1 c2 c3 c4 => ?_
        have hu : Upd f (f + n) s s3 w w2 := ⟨c1, b5, a2.trans (b6.trans c2)⟩
        refine wp_mono (ih (j + 1) _ idx' w2 s3 (by omega) (hW.add hc') hlo' (b2.mono (by omega) fun k h1 _ => ?_)
          (b3.finish hW hc' hd' (by omega)) c1) ?_
        · have h2 := orbit_succ (σ := σ) (D := D) (i := σ j) (t := L - 1) (j := k)
          rw [← Function.iterate_succ_apply, show (L - 1).succ = L by omega, hc.back,
            show L - 1 + 1 = L by omega] at h2
          rw [h2]
          exact ⟨fun o => o.resolve_right (by omega), .inl⟩
        · rintro _ s' ⟨w', d1, d2, d3, d4⟩
          exact ⟨w', d1, hu.trans d2, by omega, by omega⟩

end CppSort
