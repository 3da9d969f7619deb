import Verif.Base.Cycles
import Verif.Proof.ProbesSorted
import Mathlib.Data.Finset.Card
import Mathlib.Data.Finset.Image
set_option autoImplicit false

namespace CppSort
variable {α β γ : Type} {lt : α → α → Bool}

/-- Exchanging the elements at two positions (nothing happens if one is out of range). -/
def exch (l : List α) (p : Nat × Nat) : List α :=
  match l[p.1]?, l[p.2]? with
  | some a, some b => (l.set p.1 b).set p.2 a
  | _, _ => l

theorem exch_length (l : List α) (p : Nat × Nat) : (exch l p).length = l.length := by
  unfold exch; split <;> simp

theorem exch_get {l : List α} {i j : Nat} (hi : i < l.length) (hj : j < l.length) {k : Nat}
    (hk : k < l.length) : (exch l (i, j))[k]? = l[if k = j then i else if k = i then j else k]? := by
  unfold exch
  simp only [List.getElem?_eq_getElem hi, List.getElem?_eq_getElem hj]
  rw [List.getElem?_set, List.getElem?_set]
  by_cases h1 : k = j
  · subst h1; simp [hk, hi]
  · rw [if_neg (fun h => h1 h.symm), if_neg h1]
    by_cases h2 : k = i
    · subst h2; simp [hk, hj]
    · rw [if_neg (fun h => h2 h.symm), if_neg h2]

theorem exch_out {l : List α} {i j : Nat} (h : ¬ (i < l.length ∧ j < l.length)) : exch l (i, j) = l := by
  unfold exch
  split
  · rename_i a b ha hb
    exact absurd ⟨(List.getElem?_eq_some_iff.1 ha).1, (List.getElem?_eq_some_iff.1 hb).1⟩ h
  · rfl

theorem exchs_length (ps : List (Nat × Nat)) : ∀ l : List α, (ps.foldl exch l).length = l.length := by
  induction ps with
  | nil => intro l; rfl
  | cons p ps ih => intro l; rw [List.foldl_cons, ih, exch_length]

theorem exch_perm (l : List α) (p : Nat × Nat) : (exch l p).Perm l := by
  obtain ⟨i, j⟩ := p
  by_cases h : i < l.length ∧ j < l.length
  · unfold exch
    simp only [List.getElem?_eq_getElem h.1, List.getElem?_eq_getElem h.2]
    exact List.set_set_perm h.1 h.2
  · rw [exch_out h]

theorem exchs_perm (ps : List (Nat × Nat)) : ∀ l : List α, (ps.foldl exch l).Perm l := by
  induction ps with
  | nil => intro l; exact .refl _
  | cons p ps ih => intro l; exact (ih _).trans (exch_perm l p)

/-- `A` is what `k` exchanges make of `xs`. -/
def XR (xs : List α) (k : Nat) (A : Nat → α) : Prop :=
  ∃ ps : List (Nat × Nat), ps.length = k ∧ Reads (ps.foldl exch xs) A

theorem XR.swap {xs : List α} {k : Nat} {A : Nat → α} (h : XR xs k A) {i j : Nat} (hi : i < xs.length)
    (hj : j < xs.length) : XR xs (k + 1) (swp A i j) := by
  obtain ⟨ps, h1, h2⟩ := h
  have hl := exchs_length ps xs
  refine ⟨ps ++ [(i, j)], by simp [h1], fun q hq => ?_⟩
  rw [List.foldl_append, List.foldl_cons, List.foldl_nil] at hq ⊢
  rw [exch_length] at hq
  rw [exch_get (by omega) (by omega) hq]
  unfold Reads at h2
  by_cases e1 : q = j
  · rw [if_pos e1, swp_r e1]; exact h2 i (by omega)
  · rw [if_neg e1]
    by_cases e2 : q = i
    · rw [if_pos e2, swp_l e2]; exact h2 j (by omega)
    · rw [if_neg e2, swp_o e2 e1]; exact h2 q hq

/-! ### Lower bound: `k` exchanges leave at least `n - k` classes of positions that do not mix -/

theorem exchs_labels (xs : List α) (ps : List (Nat × Nat)) : ∃ (π lab : Nat → Nat),
    (∀ i, i < xs.length → π i < xs.length) ∧
    (∀ i, i < xs.length → (ps.foldl exch xs)[i]? = xs[π i]?) ∧
    (∀ i, i < xs.length → lab (π i) = lab i) ∧
    xs.length ≤ ((Finset.range xs.length).image lab).card + ps.length := by
  induction ps using List.reverseRecOn with
  | nil =>
    refine ⟨id, id, fun i h => h, fun i _ => rfl, fun i _ => rfl, ?_⟩
    simp
  | append_singleton ps p ih =>
    obtain ⟨π, lab, h1, h2, h3, h4⟩ := ih
    obtain ⟨i, j⟩ := p
    have hl := exchs_length ps xs
    rw [List.foldl_append, List.foldl_cons, List.foldl_nil, List.length_append, List.length_singleton]
    by_cases hb : i < xs.length ∧ j < xs.length
    · obtain ⟨hi, hj⟩ := hb
      have hsw : ∀ q, q < xs.length → (if q = j then i else if q = i then j else q) < xs.length := by
        intro q hq; split
        · exact hi
        · split
          · exact hj
          · exact hq
      refine ⟨fun q => π (if q = j then i else if q = i then j else q),
        fun q => if lab q = lab i then lab j else lab q, fun q hq => h1 _ (hsw q hq), fun q hq => ?_,
        fun q hq => ?_, ?_⟩
      · rw [exch_get (by omega) (by omega) (by omega)]
        exact h2 _ (hsw q hq)
      · dsimp only
        rw [h3 _ (hsw q hq)]
        by_cases e1 : q = j
        · rw [if_pos e1, if_pos rfl, e1]
          by_cases e : lab j = lab i
          · rw [if_pos e]
          · rw [if_neg e]
        · rw [if_neg e1]
          by_cases e2 : q = i
          · rw [if_pos e2, e2, if_pos rfl]
            by_cases e : lab j = lab i
            · rw [if_pos e]
            · rw [if_neg e]
          · rw [if_neg e2]
      · have sub : ((Finset.range xs.length).image lab).erase (lab i) ⊆
            (Finset.range xs.length).image (fun q => if lab q = lab i then lab j else lab q) := by
          intro c hc
          obtain ⟨hne, hc⟩ := Finset.mem_erase.1 hc
          obtain ⟨q, hq, rfl⟩ := Finset.mem_image.1 hc
          exact Finset.mem_image.2 ⟨q, hq, if_neg hne⟩
        have h5 := Finset.card_le_card sub
        have h6 := Finset.pred_card_le_card_erase (s := (Finset.range xs.length).image lab) (a := lab i)
        omega
    · have : exch (ps.foldl exch xs) (i, j) = ps.foldl exch xs := exch_out (by rwa [hl])
      rw [this]
      exact ⟨π, lab, h1, h2, h3, by omega⟩

/-! ### The algorithm -/

/-- Position `i` is flagged. -/
def Flag (sorted : List Bool) (i : Nat) : Prop := sorted[i]? = some true

theorem flag_set {sorted : List Bool} {i j : Nat} (hi : i < sorted.length) :
    Flag (sorted.set i true) j ↔ j = i ∨ Flag sorted j := by
  unfold Flag
  rw [List.getElem?_set]
  by_cases h : i = j
  · subst h; simp [hi]
  · rw [if_neg h]
    exact ⟨.inr, fun h' => h'.resolve_left fun e => h e.symm⟩

theorem count_set {sorted : List Bool} {i : Nat} (hi : i < sorted.length) (hf : ¬ Flag sorted i) :
    (sorted.set i true).count true = sorted.count true + 1 := by
  have e : sorted[i] = false := by
    unfold Flag at hf
    rw [List.getElem?_eq_getElem hi] at hf
    simpa using hf
  rw [List.count_set hi, e]
  simp

/-- What the sorted iterators give. -/
structure ItsPerm (lt : α → α → Bool) (xs : List α) (its : List (α × Nat)) (x : Nat → α) (σ : Nat → Nat) :
    Prop where
  reads : Reads xs x
  get : ∀ i, i < xs.length → its[i]? = some (x (σ i), σ i)
  perm : PermBelow xs.length σ
  sorted : ∀ i j, i < j → j < xs.length → lt (x (σ j)) (x (σ i)) = false

theorem SortedIts.itsPerm {xs : List α} {its : List (α × Nat)} (h : SortedIts lt xs its)
    (h0 : 0 < xs.length) : ∃ x σ, ItsPerm lt xs its x σ := by
  obtain ⟨x, hx⟩ := exists_reads h0
  have hl := h.length
  generalize hs : (fun i => (its.getD i (xs[0], 0)).2) = σ
  have get : ∀ i, i < xs.length → its[i]? = some (x (σ i), σ i) := by
    intro i hi
    have hi' : i < its.length := by omega
    have e : its[i]? = some its[i] := List.getElem?_eq_getElem hi'
    have e2 : σ i = its[i].2 := by
      rw [← hs]; simp only [List.getD_eq_getElem?_getD, e, Option.getD_some]
    have e3 := h.at e
    obtain ⟨h4, -⟩ := List.getElem?_eq_some_iff.1 e3
    have e5 := hx _ h4
    rw [e3] at e5
    rw [e, e2, ← Option.some_inj.1 e5]
  have hlt' : ∀ i, i < xs.length → σ i < xs.length := by
    intro i hi
    have := h.at (get i hi)
    exact (List.getElem?_eq_some_iff.1 this).1
  refine ⟨x, σ, hx, get, ⟨hlt', fun i j hi hj e => ?_⟩, fun i j hij hj => ?_⟩
  · have nd : its.Nodup := by
      have : (xs.zipIdx).Nodup := by
        refine List.Nodup.of_map Prod.snd ?_
        rw [List.zipIdx_map_snd]
        exact List.nodup_range'
      exact h.perm.nodup_iff.2 this
    have e1 := get i hi
    rw [e, ← get j hj] at e1
    exact (List.getElem?_inj (by omega) nd).1 e1
  · have hp := List.pairwise_iff_getElem.1 h.sorted i j (by simp; omega) (by simp; omega) hij
    have a := get i (by omega)
    have b := get j hj
    rw [List.getElem?_eq_getElem (by omega)] at a b
    simp only [List.getElem_map, Option.some_inj.1 a, Option.some_inj.1 b] at hp
    exact hp

/-- State of the exchange of a cycle, after its points up to `j` are flagged. Either nothing was needed
yet, or the point `a` still has to receive an element equivalent to the one of the point `j`. -/
def ExcState (lt : α → α → Bool) (x : Nat → α) (c : Nat → Nat) (A : Nat → α) (j steps : Nat) : Prop :=
  (steps = j ∧ (∀ t, t ≤ j → A (c t) = x (c t)) ∧ ∀ t, t < j → eqv lt (x (c t)) (x (c (t + 1))) = true) ∨
  (steps + 1 = j ∧ ∃ a, a < j ∧ eqv lt (A (c a)) (x (c 0)) = true ∧
    eqv lt (x (c j)) (x (c (a + 1))) = true ∧ A (c j) = x (c j) ∧
    ∀ t, t < j → t ≠ a → eqv lt (A (c t)) (x (c (t + 1))) = true)

theorem same_runs {xs : List α} {x : Nat → α} (hx : Reads xs x) {p q : Nat} (hp : p < xs.length)
    (hq : q < xs.length) : Runs (do
        if ← tick lt (← nth xs q) (← nth xs p) then pure false
        else return !(← tick lt (← nth xs p) (← nth xs q)))
      (fun r => r = eqv lt (x p) (x q)) := by
  refine Runs.nthBind (hx q hq) (Runs.nthBind (hx p hp) (Runs.tickBind (Runs.ite
    (fun h => Runs.pure ?_) fun h => Runs.nthBind (hx p hp) (Runs.nthBind (hx q hq)
      (Runs.tickBind (Runs.pure ?_))))))
  · simp [eqv, h]
  · simp [eqv, h]

/-- The result of a cycle of length `L`. -/
structure CycleDone (lt : α → α → Bool) (xs : List α) (x : Nat → α) (c : Nat → Nat) (L : Nat)
    (sorted sorted' : List Bool) (k0 cyc0 cyc : Nat) (A0 : Nat → α) : Prop where
  len : sorted'.length = xs.length
  flag : ∀ i, Flag sorted' i ↔ Flag sorted i ∨ ∃ t, t < L ∧ i = c t
  count : sorted'.count true = sorted.count true + L
  mono : cyc0 ≤ cyc
  ex : ∃ A k, XR xs k A ∧ k + cyc + 1 = k0 + cyc0 + L ∧
    (∀ i, (∀ t, t < L → i ≠ c t) → A i = A0 i) ∧
    ∀ t, t < L → eqv lt (A (c t)) (x (c (t + 1))) = true

theorem excWhile_runs (hlt : StrictWeak lt) {xs : List α} {its : List (α × Nat)} {x : Nat → α}
    {σ : Nat → Nat} (hi : ItsPerm lt xs its x σ) {c : Nat → Nat} {L k0 cyc0 : Nat} {A0 : Nat → α}
    {sorted0 : List Bool}
    (hc : ∀ t, c (t + 1) = σ (c t)) (hcl : ∀ t, c t < xs.length) (hL : c L = c 0)
    (inj : ∀ t t', t < L → t' < L → c t = c t' → t = t') (hun : ∀ t, t < L → ¬ Flag sorted0 (c t)) :
    ∀ (n j cyc k : Nat) (A : Nat → α) (sorted : List Bool), j + 1 + n = L →
    sorted.length = xs.length → (∀ i, Flag sorted i ↔ Flag sorted0 i ∨ ∃ t, t ≤ j ∧ i = c t) →
    sorted.count true = sorted0.count true + (j + 1) → XR xs k A → cyc0 ≤ cyc → k0 ≤ k →
    (∀ i, (∀ t, t < L → i ≠ c t) → A i = A0 i) → (∀ t, j < t → t < L → A (c t) = x (c t)) →
    ExcState lt x c A j ((k - k0) + (cyc - cyc0)) →
    Runs (excWhile lt xs its (c 0) (c j) (c (j + 1)) sorted cyc) (fun r =>
      CycleDone lt xs x c L sorted0 r.1 k0 cyc0 r.2 A0) := by
  intro n
  induction n with
  | zero =>
    intro j cyc k A sorted hn hlen hflag hcount hx h0 h1 hout hrest hst
    have hj : j + 1 = L := by omega
    rw [excWhile, if_neg (by rw [hj, hL]; simp)]
    refine Runs.pure ⟨hlen, fun i => ?_, by rw [hcount, hj], h0, ?_⟩
    · rw [hflag]
      constructor
      · rintro (h | ⟨t, h, e⟩)
        · exact .inl h
        · exact .inr ⟨t, by omega, e⟩
      · rintro (h | ⟨t, h, e⟩)
        · exact .inl h
        · exact .inr ⟨t, by omega, e⟩
    · rcases hst with ⟨e1, e2, e3⟩ | ⟨e1, a, ha, e2, e3, e4, e5⟩
      · refine ⟨A, k, hx, by omega, hout, fun t ht => ?_⟩
        rw [e2 t (by omega)]
        by_cases htj : t < j
        · exact e3 t htj
        · have : t = j := by omega
          rw [this, hj, hL]
          have key : ∀ d, d ≤ j → eqv lt (x (c d)) (x (c 0)) = true := by
            intro d
            induction d with
            | zero => intro _; exact hlt.eqv_refl _
            | succ d ih => intro hd; exact hlt.eqv_trans (StrictWeak.eqv_symm (e3 d (by omega))) (ih (by omega))
          exact key j (le_refl _)
      · refine ⟨swp A (c a) (c j), k + 1, hx.swap (hcl a) (hcl j), by omega, ?_, fun t ht => ?_⟩
        · intro i hi'
          rw [swp_o (hi' a (by omega)) (hi' j (by omega))]
          exact hout i hi'
        · by_cases h1 : t = a
          · rw [h1, swp_l rfl, e4]; exact e3
          · by_cases h2 : t = j
            · rw [h2, swp_r rfl, hj, hL]; exact e2
            · rw [swp_o (fun e => h1 (inj t a ht (by omega) e)) (fun e => h2 (inj t j ht (by omega) e))]
              exact e5 t (by omega) h1
  | succ n ih =>
    intro j cyc k A sorted hn hlen hflag hcount hx h0 h1 hout hrest hst
    have hne : c (j + 1) ≠ c 0 := fun e => by
      have := inj (j + 1) 0 (by omega) (by omega) e
      omega
    rw [excWhile, if_pos hne]
    refine (same_runs hi.reads (hcl j) (hcl (j + 1))).bind fun r hr => ?_
    refine Runs.nthBind (hi.get _ (hcl (j + 1))) ?_
    rw [show (x (σ (c (j + 1))), σ (c (j + 1))).2 = c (j + 1 + 1) from (hc (j + 1)).symm]
    have hnf : ¬ Flag sorted (c (j + 1)) := by
      rw [hflag]
      rintro (h | ⟨t, h, e⟩)
      · exact hun (j + 1) (by omega) h
      · have := inj (j + 1) t (by omega) (by omega) e
        omega
    have hb : c (j + 1) < sorted.length := by rw [hlen]; exact hcl _
    have nxt : ∀ (A' : Nat → α) (k' cyc' : Nat), XR xs k' A' → cyc0 ≤ cyc' → k0 ≤ k' →
        (∀ i, (∀ t, t < L → i ≠ c t) → A' i = A0 i) → (∀ t, j + 1 < t → t < L → A' (c t) = x (c t)) →
        ExcState lt x c A' (j + 1) ((k' - k0) + (cyc' - cyc0)) →
        Runs (excWhile lt xs its (c 0) (c (j + 1)) (c (j + 1 + 1)) (sorted.set (c (j + 1)) true) cyc') (fun r =>
          CycleDone lt xs x c L sorted0 r.1 k0 cyc0 r.2 A0) := by
      intro A' k' cyc' a1 a2 a3 a4 a5 a6
      refine ih (j + 1) cyc' k' A' _ (by omega) (by simp [hlen]) (fun i => ?_) ?_ a1 a2 a3 a4 a5 a6
      · rw [flag_set hb, hflag]
        constructor
        · rintro (e | h | ⟨t, h, e⟩)
          · exact .inr ⟨j + 1, le_refl _, e⟩
          · exact .inl h
          · exact .inr ⟨t, by omega, e⟩
        · rintro (h | ⟨t, h, e⟩)
          · exact .inr (.inl h)
          · by_cases ht : t = j + 1
            · exact .inl (ht ▸ e)
            · exact .inr (.inr ⟨t, by omega, e⟩)
      · rw [count_set hb hnf, hcount]; omega
    cases r with
    | true =>
      rw [if_pos rfl]
      refine nxt A k (cyc + 1) hx (by omega) h1 hout (fun t a b => hrest t (by omega) b) ?_
      rcases hst with ⟨e1, e2, e3⟩ | ⟨e1, a, ha, e2, e3, e4, e5⟩
      · refine .inl ⟨by omega, fun t ht => ?_, fun t ht => ?_⟩
        · by_cases htj : t ≤ j
          · exact e2 t htj
          · exact hrest t (by omega) (by omega)
        · by_cases htj : t < j
          · exact e3 t htj
          · rw [show t = j by omega]; exact hr.symm
      · refine .inr ⟨by omega, a, by omega, e2, hlt.eqv_trans (StrictWeak.eqv_symm hr.symm) e3,
          hrest _ (by omega) (by omega), fun t ht hta => ?_⟩
        by_cases htj : t < j
        · exact e5 t htj hta
        · rw [show t = j by omega, e4]; exact hr.symm
    | false =>
      rw [if_neg (by simp)]
      rcases hst with ⟨e1, e2, e3⟩ | ⟨e1, a, ha, e2, e3, e4, e5⟩
      · refine nxt A k cyc hx h0 h1 hout (fun t a b => hrest t (by omega) b) (.inr ⟨by omega, j, by omega, ?_,
          hlt.eqv_refl _, hrest _ (by omega) (by omega), fun t ht hta => ?_⟩)
        · rw [e2 j (le_refl _)]
          have key : ∀ d, d ≤ j → eqv lt (x (c d)) (x (c 0)) = true := by
            intro d
            induction d with
            | zero => intro _; exact hlt.eqv_refl _
            | succ d ih => intro hd; exact hlt.eqv_trans (StrictWeak.eqv_symm (e3 d (by omega))) (ih (by omega))
          exact key j (le_refl _)
        · rw [e2 t (by omega)]; exact e3 t (by omega)
      · have o : ∀ t, t < L → t ≠ a → t ≠ j → swp A (c a) (c j) (c t) = A (c t) := fun t ht h1 h2 =>
          swp_o (fun e => h1 (inj t a ht (by omega) e)) (fun e => h2 (inj t j ht (by omega) e))
        refine nxt (swp A (c a) (c j)) (k + 1) cyc (hx.swap (hcl a) (hcl j)) h0 (by omega) ?_ ?_
          (.inr ⟨by omega, j, by omega, ?_, hlt.eqv_refl _, ?_, fun t ht hta => ?_⟩)
        · intro i hi'
          rw [swp_o (hi' a (by omega)) (hi' j (by omega))]
          exact hout i hi'
        · intro t h1 h2
          rw [o t h2 (by omega) (by omega)]
          exact hrest t (by omega) h2
        · rw [swp_r rfl]; exact e2
        · rw [o (j + 1) (by omega) (by omega) (by omega)]
          exact hrest _ (by omega) (by omega)
        · by_cases h1 : t = a
          · rw [h1, swp_l rfl, e4]; exact e3
          · rw [o t (by omega) h1 hta]
            exact e5 t (by omega) h1

theorem excFind_runs {xs : List α} {sorted : List Bool} (hl : sorted.length = xs.length) :
    ∀ (n start : Nat), start + 1 + n = xs.length →
    Runs (excFind xs sorted start) (fun r => start < r ∧ r ≤ xs.length ∧
      (∀ i, start < i → i < r → Flag sorted i) ∧ (r < xs.length → ¬ Flag sorted r)) := by
  intro n
  induction n with
  | zero =>
    intro start h
    rw [excFind]
    rw [if_pos (by omega)]
    exact Runs.pure ⟨by omega, by omega, fun i _ _ => by omega, fun h => by omega⟩
  | succ n ih =>
    intro start h
    rw [excFind]
    rw [if_neg (by omega)]
    have hb : start + 1 < sorted.length := by omega
    refine Runs.nthBind (List.getElem?_eq_getElem hb) (Runs.ite (fun e => ?_) fun e => Runs.pure ?_)
    · refine (ih (start + 1) (by omega)).mono fun r hr => ⟨by omega, hr.2.1, fun i a b => ?_, hr.2.2.2⟩
      by_cases hi : i = start + 1
      · rw [hi]; unfold Flag; rw [List.getElem?_eq_getElem hb, e]
      · exact hr.2.2.1 i (by omega) b
    · refine ⟨by omega, by omega, fun i _ _ => by omega, fun _ hf => ?_⟩
      unfold Flag at hf
      rw [List.getElem?_eq_getElem hb] at hf
      exact e (by simpa using hf)

/-- The invariant of the loop over the cycles. -/
structure ExcInv (lt : α → α → Bool) (xs : List α) (x : Nat → α) (σ : Nat → Nat) (start : Nat)
    (sorted : List Bool) (cycles : Nat) : Prop where
  len : sorted.length = xs.length
  low : ∀ i, i < start → Flag sorted i
  cur : start < xs.length → ¬ Flag sorted start
  closed : ∀ i, i < xs.length → Flag sorted i → Flag sorted (σ i)
  ex : ∃ A k, XR xs k A ∧ k + cycles = sorted.count true ∧
    (∀ i, i < xs.length → Flag sorted i → eqv lt (A i) (x (σ i)) = true) ∧
    (∀ i, i < xs.length → ¬ Flag sorted i → A i = x i)
  cover : ∃ S : List Nat, S.length ≤ cycles ∧ ∀ i, i < xs.length → Flag sorted i → ∃ s ∈ S,
    ∀ lab : Nat → Nat, (∀ i, i < xs.length → lab (σ i) = lab i) → lab i = lab s

theorem excLoop_runs (hlt : StrictWeak lt) {xs : List α} {its : List (α × Nat)} {x : Nat → α}
    {σ : Nat → Nat} (hi : ItsPerm lt xs its x σ) : ∀ (n start : Nat) (sorted : List Bool) (cycles : Nat),
    start + n = xs.length → ExcInv lt xs x σ start sorted cycles →
    Runs (excLoop lt xs its start sorted cycles) (fun r => cycles ≤ r ∧ (start < xs.length → cycles < r) ∧
      ∃ sorted', ExcInv lt xs x σ xs.length sorted' r) := by
  intro n
  induction n using Nat.strong_induction_on with
  | _ n ih =>
    intro start sorted cycles hn inv
    rw [excLoop]
    by_cases hs : start = xs.length
    · rw [if_neg (by simpa using hs)]
      exact Runs.pure ⟨le_refl _, fun h => by omega, sorted, hs ▸ inv⟩
    · rw [if_pos hs]
      have hsl : start < xs.length := by omega
      refine Runs.nthBind (hi.get start hsl) ?_
      obtain ⟨L, hL0, hL, inj⟩ := hi.perm.cycle hsl
      generalize hcd : (fun t => σ^[t] start) = c
      have c0 : c 0 = start := by rw [← hcd]; rfl
      have hc : ∀ t, c (t + 1) = σ (c t) := fun t => by
        rw [← hcd]; exact Function.iterate_succ_apply' σ t start
      have hcl : ∀ t, c t < xs.length := fun t => by rw [← hcd]; exact hi.perm.iter_lt hsl t
      have hcL : c L = c 0 := by rw [c0, ← hcd]; exact hL
      have hinj : ∀ t t', t < L → t' < L → c t = c t' → t = t' := by rw [← hcd]; exact inj
      have hun : ∀ t, t < L → ¬ Flag sorted (c t) := by
        intro t ht hf
        have key : ∀ d, Flag sorted (c (t + d)) := by
          intro d
          induction d with
          | zero => exact hf
          | succ d ih => rw [show t + (d + 1) = (t + d) + 1 by omega, hc]; exact inv.closed _ (hcl _) ih
        have := key (L - t)
        rw [show t + (L - t) = L by omega, hcL, c0] at this
        exact inv.cur hsl this
      obtain ⟨A, k, a1, a2, a3, a4⟩ := inv.ex
      have hb : start < sorted.length := by rw [inv.len]; exact hsl
      have w := excWhile_runs hlt hi (c := c) (L := L) (k0 := k) (cyc0 := cycles) (A0 := A) (sorted0 := sorted)
        hc hcl hcL hinj hun (L - 1) 0 cycles k A (sorted.set start true) (by omega) (by simp [inv.len])
        (fun i => by
          rw [flag_set hb]
          constructor
          · rintro (e | h)
            · exact .inr ⟨0, le_refl _, by rw [c0]; exact e⟩
            · exact .inl h
          · rintro (h | ⟨t, ht, e⟩)
            · exact .inr h
            · rw [show t = 0 by omega, c0] at e; exact .inl e)
        (by rw [count_set hb (inv.cur hsl)]) a1 (le_refl _) (le_refl _) (fun _ _ => rfl)
        (fun t _ ht => a4 _ (hcl t) (hun t ht))
        (.inl ⟨by omega, fun t ht => a4 _ (hcl t) (hun t (by omega)), fun t ht => by omega⟩)
      rw [hc 0, c0] at w
      refine w.bind ?_
      rintro ⟨sorted', cyc⟩ done
      obtain ⟨d1, d2, d3, d4, B, k', b1, b2, b3, b4⟩ := done
      dsimp only at *
      refine (excFind_runs d1 (xs.length - start - 1) start (by omega)).bind fun r hr => ?_
      obtain ⟨r1, r2, r3, r4⟩ := hr
      refine (ih (xs.length - r) (by omega) r sorted' (cyc + 1) (by omega) ⟨d1, ?_, r4, ?_, ?_, ?_⟩).mono
        fun q hq => ⟨by omega, fun _ => by omega, hq.2.2⟩
      · intro i hil
        rcases Nat.lt_trichotomy i start with h | h | h
        · exact (d2 i).2 (.inl (inv.low i h))
        · exact (d2 i).2 (.inr ⟨0, hL0, by rw [c0]; exact h⟩)
        · exact r3 i h hil
      · intro i hil hf
        rcases (d2 i).1 hf with h | ⟨t, ht, e⟩
        · exact (d2 _).2 (.inl (inv.closed i hil h))
        · refine (d2 _).2 (.inr ?_)
          rw [e, ← hc]
          by_cases h : t + 1 < L
          · exact ⟨t + 1, h, rfl⟩
          · exact ⟨0, hL0, by rw [show t + 1 = L by omega, hcL]⟩
      · refine ⟨B, k', b1, by omega, fun i hil hf => ?_, fun i hil hf => ?_⟩
        · by_cases h : ∃ t, t < L ∧ i = c t
          · obtain ⟨t, ht, e⟩ := h
            rw [e, ← hc]; exact b4 t ht
          · rw [b3 i fun t ht e => h ⟨t, ht, e⟩]
            rcases (d2 i).1 hf with h' | h'
            · exact a3 i hil h'
            · exact absurd h' h
        · rw [b3 i fun t ht e => hf ((d2 i).2 (.inr ⟨t, ht, e⟩))]
          exact a4 i hil fun h => hf ((d2 i).2 (.inl h))
      · obtain ⟨S, s1, s2⟩ := inv.cover
        refine ⟨start :: S, by simp; omega, fun i hil hf => ?_⟩
        rcases (d2 i).1 hf with h | ⟨t, ht, e⟩
        · obtain ⟨s, h1, h2⟩ := s2 i hil h
          exact ⟨s, List.mem_cons_of_mem _ h1, h2⟩
        · refine ⟨start, by simp, fun lab hlab => ?_⟩
          rw [e]
          clear e ht
          induction t with
          | zero => rw [c0]
          | succ t ih => rw [hc, hlab _ (hcl t), ih]

/-- The elements are pairwise inequivalent. -/
def Distinct (lt : α → α → Bool) (xs : List α) : Prop := xs.Pairwise (fun x y => eqv lt x y = false)

theorem Distinct.eq {xs : List α} {x : Nat → α} (h : Distinct lt xs) (hx : Reads xs x) {i j : Nat}
    (hi : i < xs.length) (hj : j < xs.length) (e : eqv lt (x i) (x j) = true) : i = j := by
  have hp := List.pairwise_iff_getElem.1 h
  rcases Nat.lt_trichotomy i j with hl | hl | hl
  · have := hp i j hi hj hl
    rw [hx.get hi, hx.get hj, e] at this
    exact absurd this (by simp)
  · exact hl
  · have := hp j i hj hi hl
    rw [hx.get hi, hx.get hj, StrictWeak.eqv_symm e] at this
    exact absurd this (by simp)

theorem probeExc_keeps [Inhabited α] (hlt : StrictWeak lt) (bl : Bool) (xs : List α) :
    Keeps (probeExc lt bl xs) (fun r =>
      (∃ ps : List (Nat × Nat), ps.length = r ∧ SortedList lt (ps.foldl exch xs)) ∧ r ≤ xs.length - 1 ∧
      (Distinct lt xs → ∀ ps : List (Nat × Nat), SortedList lt (ps.foldl exch xs) → r ≤ ps.length)) := by
  unfold probeExc
  refine Keeps.ite (fun h => Keeps.pure ⟨⟨[], rfl, sortedList_short (by simpa using h)⟩, by omega,
    fun _ _ _ => by omega⟩) fun h => ?_
  refine (sortedIterators_keeps hlt bl xs).bind fun its hi => Runs.keeps ?_
  obtain ⟨x, σ, ip⟩ := hi.itsPerm (by omega)
  refine (excLoop_runs hlt ip xs.length 0 (List.replicate xs.length false) 0 (by omega) ?_).bind ?_
  · have nf : ∀ i, ¬ Flag (List.replicate xs.length false) i := by
      intro i hf
      unfold Flag at hf
      rw [List.getElem?_replicate] at hf
      split at hf <;> simp at hf
    exact ⟨by simp, fun i h => by omega, fun _ => nf 0, fun i _ h => absurd h (nf i),
      ⟨x, 0, ⟨[], rfl, ip.reads⟩, by rw [List.count_replicate]; simp, fun i _ h => absurd h (nf i), fun i _ _ => rfl⟩,
      ⟨[], by simp, fun i _ h => absurd h (nf i)⟩⟩
  · rintro r ⟨-, r1, sorted, inv⟩
    refine Runs.pure ?_
    obtain ⟨A, k, ⟨ps, p1, p2⟩, a2, a3, -⟩ := inv.ex
    have full : sorted.count true = xs.length := by
      rw [← inv.len]
      refine List.count_eq_length.2 fun b hb => ?_
      obtain ⟨i, hi', rfl⟩ := List.getElem_of_mem hb
      have := inv.low i (by rw [← inv.len]; exact hi')
      unfold Flag at this
      rw [List.getElem?_eq_getElem hi'] at this
      exact (Option.some_inj.1 this).symm
    have hk : k = xs.length - r := by omega
    refine ⟨⟨ps, by omega, ?_⟩, by have := r1 (by omega); omega, fun hd qs hq => ?_⟩
    · refine List.pairwise_iff_getElem.2 fun i j hi' hj hij => ?_
      rw [p2.get hi', p2.get hj]
      rw [exchs_length] at hi' hj
      have e1 := a3 i hi' (inv.low i hi')
      have e2 := a3 j hj (inv.low j hj)
      have e3 := ip.sorted i j hij hj
      simp only [eqv, Bool.and_eq_true, Bool.not_eq_true'] at e1 e2
      exact hlt.le_trans e1.2 (hlt.le_trans e3 e2.1)
    · obtain ⟨π, lab, l1, l2, l3, l4⟩ := exchs_labels xs qs
      have hπ : ∀ i, i < xs.length → π i = σ i := by
        have hl := exchs_length qs xs
        have hperm := exchs_perm qs xs
        intro i hil
        have e := sorted_perm_eqv hlt (hi.vals.trans hperm.symm) hi.sorted hq (i := i)
          (by rw [List.length_map, hi.length]; exact hil) (by omega)
        have g1 := ip.get i hil
        rw [List.getElem?_eq_getElem (by rw [hi.length]; exact hil)] at g1
        have g2 := l2 i hil
        rw [List.getElem?_eq_getElem (by omega), ip.reads _ (l1 i hil)] at g2
        rw [List.getElem_map, Option.some_inj.1 g1, Option.some_inj.1 g2] at e
        exact (hd.eq ip.reads (ip.perm.lt i hil) (l1 i hil) e).symm
      have hlab : ∀ i, i < xs.length → lab (σ i) = lab i := fun i hil => by rw [← hπ i hil]; exact l3 i hil
      obtain ⟨S, s1, s2⟩ := inv.cover
      have sub : (Finset.range xs.length).image lab ⊆ (S.map lab).toFinset := by
        intro q hq
        obtain ⟨i, hi', rfl⟩ := Finset.mem_image.1 hq
        have hil := Finset.mem_range.1 hi'
        obtain ⟨s, h1, h2⟩ := s2 i hil (inv.low i hil)
        rw [List.mem_toFinset, h2 lab hlab]
        exact List.mem_map_of_mem h1
      have h5 := Finset.card_le_card sub
      have h6 := List.toFinset_card_le (S.map lab)
      rw [List.length_map] at h6
      omega

end CppSort
