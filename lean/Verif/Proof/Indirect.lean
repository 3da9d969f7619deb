import Verif.Proof.Turn
import Verif.Proof.ProbesExc
import Verif.Model.Adapters
set_option autoImplicit false

namespace CppSort
variable {α β γ : Type} {lt : α → α → Bool}

/-- Position `j` of the list of iterators designates position `σ j` of the range. -/
def ItsAt (its : List (α × Nat)) (f n : Nat) (σ : Nat → Nat) : Prop :=
  its.length = n ∧ ∀ j, j < n → ∃ x, its[j]? = some (x, f + σ j)

theorem nth_wp {xs : List β} {i : Nat} {x : β} (h : xs[i]? = some x) {Q : β → St α → Prop} {s : St α}
    (hQ : Q x s) : wp (nth xs i) Q s := by
  refine ⟨x, s, ?_, hQ⟩
  unfold nth
  rw [h]
  rfl

/-- The flags of the positions of `D` are set. -/
def Flags (sorted : List Bool) (n : Nat) (D : Finset Nat) : Prop :=
  sorted.length = n ∧ ∀ j, j < n → sorted[j]? = some (decide (j ∈ D))

theorem Flags.set {sorted : List Bool} {n : Nat} {D D' : Finset Nat} (h : Flags sorted n D) {i : Nat}
    (hD : ∀ j, j ∈ D' ↔ j ∈ D ∨ j = i) : Flags (sorted.set i true) n D' := by
  refine ⟨by rw [List.length_set, h.1], fun j hj => ?_⟩
  rw [List.getElem?_set]
  by_cases e : i = j
  · subst e
    rw [if_pos rfl, if_pos (by rw [h.1]; exact hj)]
    simp [(hD i).2 (.inr rfl)]
  · rw [if_neg e, h.2 j hj]
    congr 1
    rw [decide_eq_decide, hD]
    exact ⟨.inl, fun o => o.resolve_right fun e' => e e'.symm⟩

theorem orbit_succ {σ : Nat → Nat} {D : Finset Nat} {i t j : Nat} :
    j ∈ D ∪ orbit σ i (t + 1) ↔ j ∈ D ∪ orbit σ i t ∨ j = σ^[t] i := by
  rw [Finset.mem_union, Finset.mem_union, mem_orbit, mem_orbit]
  constructor
  · rintro (h | ⟨k, hk, rfl⟩)
    · exact .inl (.inl h)
    · by_cases e : k = t
      · right; rw [e]
      · exact .inl (.inr ⟨k, by omega, rfl⟩)
  · rintro ((h | ⟨k, hk, rfl⟩) | rfl)
    · exact .inl h
    · exact .inr ⟨k, by omega, rfl⟩
    · exact .inr ⟨t, by omega, rfl⟩

theorem indirectWhile_spec {its : List (α × Nat)} {f n : Nat} {σ : Nat → Nat} (hits : ItsAt its f n σ)
    {D : Finset Nat} (hw : Whole n σ D) {i L : Nat} (hc : CycleLen n σ i L) (hd : i ∉ D) {v : Nat → α} :
    ∀ (m t : Nat) (sorted : List Bool) (w : Nat → α) (s : St α), t + 1 + m = L →
    Flags sorted n (D ∪ orbit σ i (t + 1)) → TurnedX f n σ D i t v w →
    HoldsX s.cell f (f + n) (f + σ^[t] i) w →
    wp (indirectWhile its f (f + i) (f + σ^[t] i) (f + σ (σ^[t] i)) sorted) (fun r s' =>
      r.1 = f + σ^[L - 1] i ∧ Flags r.2 n (D ∪ orbit σ i L) ∧ ∃ w', TurnedX f n σ D i (L - 1) v w' ∧
        HoldsX s'.cell f (f + n) (f + σ^[L - 1] i) w' ∧ PermOn f (f + n) w w' ∧ Frame f (f + n) s s' ∧
        s'.cmps = s.cmps ∧ s'.movs = s.movs + m) s := by
  intro m
  induction m with
  | zero =>
    intro t sorted w s ht hf hx hh
    rw [indirectWhile, if_neg]
    · apply wp_pure
      have : L - 1 = t := by omega
      rw [this]
      exact ⟨rfl, by rw [show L = t + 1 by omega]; exact hf, w, hx, hh, PermOn.refl _ _ _, Frame.refl _ _ _,
        rfl, rfl⟩
    · have := (hc.next (t := t) (by omega)).not.2 (by omega)
      rw [not_not] at this ⊢
      rw [this]
  | succ m ih =>
    intro t sorted w s ht hf hx hh
    have hn := (hc.next (t := t) (by omega)).2 (by omega)
    have l1 := hc.perm.iter_lt hc.lt t
    have l2 := hc.perm.lt _ l1
    have hne : σ (σ^[t] i) ≠ σ^[t] i := fun e => by
      rw [← Function.iterate_succ_apply' σ] at e
      have := hc.inj (t + 1) t (by omega) (by omega) e
      omega
    rw [indirectWhile, if_pos (by omega)]
    apply wp_bind
    refine wp_moveTo hh (by omega) (by omega) (by omega) fun s1 h1 h2 h3 h4 => ?_
    apply wp_bind
    obtain ⟨x, hx'⟩ := hits.2 _ l2
    rw [Nat.add_sub_cancel_left]
    refine nth_wp hx' ?_
    dsimp only
    have es : σ (σ^[t] i) = σ^[t + 1] i := (Function.iterate_succ_apply' σ t i).symm
    have st := hx.step hw hc hd (t := t) (by omega)
    have hf' : Flags (sorted.set (σ (σ^[t] i)) true) n (D ∪ orbit σ i (t + 1 + 1)) :=
      hf.set fun j => by rw [orbit_succ, es]
    rw [es] at h1 st hf' ⊢
    refine wp_mono (ih (t + 1) _ _ s1 (by omega) hf' st h1) ?_
    rintro r s' ⟨a1, a2, w', a3, a4, a5, a6, a7, a8⟩
    refine ⟨a1, a2, w', a3, a4, ?_, h2.trans a6, by rw [a7, h3], by omega⟩
    refine PermOn.trans (PermOn.swp ⟨by omega, by omega⟩ ⟨by omega, ?_⟩) a5
    have := hc.perm.iter_lt hc.lt (t + 1)
    omega

theorem indirectFind_spec {sorted : List Bool} {n f : Nat} {D : Finset Nat} (hf : Flags sorted n D)
    {s : St α} : ∀ (m j : Nat), j + m = n → j < n → (∀ k, k ≤ j → k ∈ D) →
    wp (indirectFind sorted f (f + n) (f + j)) (fun r s' => s' = s ∧ ∃ j', r = f + j' ∧ j < j' ∧ j' ≤ n ∧
      (∀ k, k < j' → k ∈ D) ∧ (j' < n → j' ∉ D)) s := by
  intro m
  induction m with
  | zero => intro j h1 h2; omega
  | succ m ih =>
    intro j h1 h2 h3
    rw [indirectFind]
    by_cases e : f + j + 1 = f + n
    · rw [if_pos e]
      apply wp_pure
      exact ⟨rfl, j + 1, by omega, by omega, by omega, fun k hk => h3 k (by omega), fun h => by omega⟩
    · rw [if_neg e]
      apply wp_bind
      refine nth_wp (hf.2 (j + 1) (by omega) |> fun h => by rwa [show f + j + 1 - f = j + 1 by omega]) ?_
      by_cases hd : j + 1 ∈ D
      · simp only [hd, decide_true, if_true]
        refine wp_mono (ih (j + 1) (by omega) (by omega) fun k hk => ?_) ?_
        · by_cases e : k = j + 1
          · rw [e]; exact hd
          · exact h3 k (by omega)
        · rintro r s' ⟨rfl, j', a, b, c⟩
          exact ⟨rfl, j', a, by omega, c⟩
      · simp only [hd, decide_false, Bool.false_eq_true, if_false]
        apply wp_pure
        exact ⟨rfl, j + 1, by omega, by omega, by omega, fun k hk => h3 k (by omega), fun _ => hd⟩

theorem indirectLoop_spec {its : List (α × Nat)} {f n : Nat} {σ : Nat → Nat} (hits : ItsAt its f n σ)
    (hp : PermBelow n σ) {v : Nat → α} :
    ∀ (m j : Nat) (D : Finset Nat) (sorted : List Bool) (w : Nat → α) (s : St α), j + m = n →
    Whole n σ D → (∀ k, k < j → k ∈ D) → (j < n → j ∉ D) →
    Flags sorted n D → Turned f n σ D v w → Holds s.cell f (f + n) w →
    wp (indirectLoop its f (f + n) (f + j) sorted) (fun _ s' =>
      ∃ w', (∀ k, k < n → w' (f + k) = v (f + σ k)) ∧ Upd f (f + n) s s' w w' ∧
        s'.cmps = s.cmps ∧ 2 * s'.movs + 3 * D.card ≤ 2 * s.movs + 3 * n) s := by
  intro m
  induction m using Nat.strongRecOn with
  | ind m ih =>
  intro j D sorted w s hj hW hlo hjd hf ht hh
  rw [indirectLoop]
  by_cases e : j = n
  · rw [if_neg (by omega)]
    apply wp_pure
    exact ⟨w, ht.done fun k hk => hlo k (by omega), Upd.refl hh, rfl, by have := hW.card_le; omega⟩
  · rw [if_pos (by omega)]
    have hjn : j < n := by omega
    have hd := hjd hjn
    obtain ⟨L, hc⟩ := hp.cycleLen hjn
    obtain ⟨x, hx⟩ := hits.2 j hjn
    apply wp_bind
    rw [Nat.add_sub_cancel_left]
    refine nth_wp hx ?_
    dsimp only
    have hf1 : Flags (sorted.set j true) n (D ∪ orbit σ j (0 + 1)) := hf.set fun k => by
      rw [orbit_succ]
      simp [orbit]
    have hp0 : j ∈ D ∪ orbit σ j L := by
      rw [Finset.mem_union, mem_orbit]; exact .inr ⟨0, hc.pos, rfl⟩
    have hlo' : ∀ k, k ≤ j → k ∈ D ∪ orbit σ j L := fun k hk => by
      by_cases e : k = j
      · rw [e]; exact hp0
      · exact Finset.mem_union_left _ (hlo k (by omega))
    have hcard := hW.card_add hc hd
    have hnx := hc.next (t := 0) hc.pos
    rw [Function.iterate_zero, id] at hnx
    by_cases hne : σ j = j
    · have hL : L = 1 := by
        have := hnx.not.1 (by rw [not_not]; exact hne)
        have := hc.pos
        omega
      subst hL
      rw [if_neg (by omega)]
      apply wp_bind
      refine wp_mono (indirectFind_spec hf1 (n - j) j (by omega) hjn hlo') ?_
      rintro r _ ⟨rfl, j', rfl, h1, h2, h3, h4⟩
      refine wp_mono (ih (n - j') (by omega) j' _ _ w _ (by omega) (hW.add hc) h3 h4 hf1 (ht.fixed hne) hh) ?_
      rintro _ s' ⟨w', a, b, c, d⟩
      exact ⟨w', a, b, c, by omega⟩
    · have hL : 1 < L := by have := hnx.1 hne; omega
      rw [if_pos (by omega)]
      apply wp_bind
      refine wp_moveOut hh (by omega) (by omega) fun s1 a1 a2 a3 a4 => ?_
      apply wp_bind
      have := indirectWhile_spec hits hW hc hd (v := v) (L - 1) 0 _ w s1 (by omega) hf1 (TurnedX.start ht j)
        (by simpa using a1)
      rw [Function.iterate_zero, id] at this
      refine wp_mono this ?_
      rintro ⟨cur, sorted'⟩ s2 ⟨b1, b2, w2, b3, b4, b5, b6, b7, b8⟩
      dsimp only at b1 b2 ⊢
      subst b1
      apply wp_bind
      have hv : w (f + j) = v (f + j) := by rw [ht j hjn, if_neg hd]
      refine wp_assign b4 (by rw [b3.hole hW hc hd (by omega), hv]) fun s3 c1 c2 c3 c4 => ?_
      have hu : Upd f (f + n) s s3 w w2 := ⟨c1, b5, a2.trans (b6.trans c2)⟩
      apply wp_bind
      refine wp_mono (indirectFind_spec b2 (n - j) j (by omega) hjn hlo') ?_
      rintro r _ ⟨rfl, j', rfl, h1, h2, h3, h4⟩
      refine wp_mono (ih (n - j') (by omega) j' _ _ w2 _ (by omega) (hW.add hc) h3 h4 b2
        (b3.finish hW hc hd (by omega)) c1) ?_
      rintro _ s' ⟨w', d1, d2, d3, d4⟩
      exact ⟨w', d1, hu.trans d2, by omega, by omega⟩

end CppSort
