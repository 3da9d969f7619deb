import Verif.Proof.GrailWithout
/-
grail_sort.h 44-66: the search for keys.
-/
set_option autoImplicit false

namespace CppSort
variable {α : Type} {lt : α → α → Bool}

/-- Strictly increasing. -/
def StrictList (lt : α → α → Bool) (ks : List α) : Prop := ks.Pairwise (fun x y => lt x y = true)

theorem StrictList.sorted (hlt : StrictWeak lt) {ks : List α} (h : StrictList lt ks) : SortedList lt ks :=
  h.imp fun h => hlt.asymm h

theorem SameOrder.rfl' {xs : List α} : SameOrder lt xs xs := fun _ => rfl

theorem SameOrder.trans' {xs ys zs : List α} (h : SameOrder lt xs ys) (h' : SameOrder lt ys zs) : SameOrder lt xs zs :=
  fun x => (h' x).trans (h x)

theorem sameOrder_move (hlt : StrictWeak lt) {A M B : List α} {x : α} (h : ∀ z ∈ M, eqv lt x z = false) :
    SameOrder lt (A ++ (M ++ x :: B)) (A ++ (x :: M ++ B)) := by
  intro y
  simp only [List.filter_append, List.filter_cons, List.cons_append]
  congr 1
  by_cases hx : eqv lt y x = true
  · have : M.filter (eqv lt y) = [] := by
      rw [List.filter_eq_nil_iff]
      intro z hz he
      have := hlt.eqv_trans (StrictWeak.eqv_symm hx) he
      rw [h z hz] at this
      cases this
    rw [if_pos hx, if_pos hx, this]
    rfl
  · rw [if_neg hx, if_neg hx]

theorem grailFresh_spec (hlt : StrictWeak lt) {h0 dist u r : Nat} {x : α} {us vs : List α} {s : St α} (hs : Seg s.cell h0 (us ++ vs))
    (hr : r = h0 + us.length) (hd : dist = us.length + vs.length) (hu : s.cell u = .val x) (h1 : ∀ w ∈ us, lt w x = true)
    (h2 : ∀ w ∈ vs, lt w x = false) (hS : StrictList lt (us ++ vs)) :
    wp (grailFresh (tick lt) h0 dist u r) (fun b s' => ∃ k, s' = { s with cmps := k } ∧
      (b = true → StrictList lt (us ++ x :: vs)) ∧ (b = false → ∃ w ∈ us ++ vs, eqv lt x w = true)) s := by
  have key : (∀ w ∈ vs, lt x w = true) → StrictList lt (us ++ x :: vs) := by
    intro h
    obtain ⟨a1, a2, a3⟩ := List.pairwise_append.1 hS
    refine List.pairwise_append.2 ⟨a1, List.pairwise_cons.2 ⟨h, a2⟩, fun a ha b hb => ?_⟩
    rcases List.mem_cons.1 hb with e | e
    · rw [e]; exact h1 a ha
    · exact a3 a ha b e
  unfold grailFresh
  split
  · have : vs = [] := by rw [← List.length_eq_zero_iff]; omega
    subst this
    exact wp_pure ⟨_, rfl, fun _ => key (by simp), by simp⟩
  · cases vs with
    | nil => simp at hd; omega
    | cons w vs =>
      apply wp_bind
      refine grailCmp3At_spec hu (by rw [hr]; exact (seg_cons.1 (seg_append.1 hs).2).1) fun k => wp_pure ⟨k, rfl, ?_, ?_⟩
      · rw [cmp3_ne hlt, h2 w (by simp), Bool.or_false]
        intro h
        refine key fun z hz => ?_
        rcases List.mem_cons.1 hz with e | e
        · rw [e]; exact h
        · exact hlt.trans _ _ _ h ((List.pairwise_cons.1 (List.pairwise_append.1 hS).2.1).1 z e)
      · rw [cmp3_ne hlt, h2 w (by simp), Bool.or_false]
        exact fun h => ⟨w, by simp, by simp [eqv, h, h2 w (by simp)]⟩

variable [Inhabited α]

theorem findKeysLoop_spec (hlt : StrictWeak lt) (c : Cfg) {first last keyCount : Nat} : ∀ (R P ks Q : List α) (h0 dist u : Nat) (s : St α),
    h0 = first + P.length → dist = ks.length → u = h0 + dist + Q.length → last = u + R.length → dist ≤ keyCount →
    StrictList lt ks → (∀ z ∈ P ++ Q, ∃ w ∈ ks, eqv lt z w = true) → Seg s.cell first (P ++ (ks ++ (Q ++ R))) →
    wp (findKeysLoop (tick lt) c last keyCount h0 dist u) (fun r s' => ∃ P' ks' Z, r.1 = first + P'.length ∧ r.2 = ks'.length ∧
      r.2 ≤ keyCount ∧ dist ≤ r.2 ∧ StrictList lt ks' ∧ Seg s'.cell first (P' ++ (ks' ++ Z)) ∧
      (ks' ++ (P' ++ Z)).Perm (ks ++ (P ++ (Q ++ R))) ∧
      SameOrder lt (ks ++ (P ++ (Q ++ R))) (ks' ++ (P' ++ Z)) ∧ Frame first last s s') s := by
  intro R
  induction R with
  | nil =>
    intro P ks Q h0 dist u s e0 ed eu el hle hS hcl hs
    rw [findKeysLoop, if_neg (by simp at el; omega)]
    exact wp_pure ⟨P, ks, Q, e0, ed, hle, Nat.le_refl _, hS, by simpa using hs, by simp, by simpa using SameOrder.rfl', Frame.refl _ _ _⟩
  | cons x R ih =>
    intro P ks Q h0 dist u s e0 ed eu el hle hS hcl hs
    simp only [List.length_cons] at el
    rw [findKeysLoop, if_pos (by omega)]
    split
    · exact wp_pure ⟨P, ks, Q ++ x :: R, e0, ed, hle, Nat.le_refl _, hS, hs, .refl _, SameOrder.rfl', Frame.refl _ _ _⟩
    · have sk := (seg_append.1 (seg_append.1 hs).2).1
      have sq := (seg_append.1 (seg_append.1 hs).2).2
      have sx := (seg_cons.1 (seg_append.1 sq).2).1
      rw [show first + P.length + ks.length + Q.length = u by omega] at sx
      rw [← e0] at sk sq
      refine wp_bind (wp_read' sx (wp_bind ?_))
      have hlb := lowerBound_seg hlt (l := h0 + dist) x (by omega) sk (hS.sorted hlt)
      unfold lowerBound at hlb
      rw [show h0 + dist - h0 = dist by omega] at hlb
      refine wp_mono hlb ?_
      rintro r s1 ⟨us, vs, k, rfl, er, b1, b2, rfl⟩
      simp only [List.length_append] at ed sq
      apply wp_bind
      refine wp_mono (grailFresh_spec (s := { s with cmps := k }) hlt sk er ed sx b1 b2 hS) ?_
      rintro b _ ⟨k2, rfl, hf1, hf2⟩
      cases b with
      | true =>
        have hS' := hf1 rfl
        simp only [if_true]
        -- the keys move next to the element
        have hseg : Seg s.cell h0 ((us ++ vs) ++ Q) := by
          refine seg_append.2 ⟨sk, ?_⟩
          rw [List.length_append]; exact (seg_append.1 sq).1
        apply wp_bind
        refine wp_mono (rotate_seg (s := { s with cmps := k2 }) c (m := h0 + dist) (l := u) hseg (by simp; omega) (by omega)) ?_
        rintro h1 s2 ⟨q1, q2, q3⟩
        have q3 := q3.tick
        have hseg2 : Seg s2.cell (h1 + us.length) (vs ++ [x]) := by
          have := (seg_append.1 (seg_append.1 q2).2).2
          rw [← q1] at this
          refine seg_snoc.2 ⟨this, ?_⟩
          rw [show h1 + us.length + vs.length = u by omega, q3.cell _ (by omega)]; exact sx
        apply wp_bind
        rw [show r - h0 = us.length by omega]
        refine wp_mono (rotate_seg c (m := u) (l := u + 1) hseg2 (by omega) (by simp)) ?_
        rintro _ s3 ⟨-, t2, t3⟩
        refine wp_mono (ih (P ++ Q) (us ++ x :: vs) [] h1 (dist + 1) (u + 1) s3 (by simp; omega) (by simp; omega) (by simp; omega)
          (by omega) (by omega) hS' ?_ ?_) ?_
        · intro z hz
          rw [List.append_nil] at hz
          obtain ⟨w, hw, he⟩ := hcl z hz
          refine ⟨w, ?_, he⟩
          rcases List.mem_append.1 hw with hw | hw <;> simp [hw]
        · rw [List.append_assoc, seg_append, seg_append, List.append_assoc, seg_append]
          have := (seg_append.1 hs).1
          refine ⟨this.congr fun i _ _ => ?_, ?_, ?_, ?_⟩
          · rw [t3.cell i (by omega), q3.cell i (by omega)]
          · rw [← e0]
            exact (seg_append.1 q2).1.congr fun i _ _ => t3.cell i (by omega)
          · rw [← e0, ← q1]
            have := (seg_append.1 (seg_append.1 q2).2).1
            rw [← q1] at this
            exact this.congr fun i _ _ => t3.cell i (by omega)
          · rw [← e0, ← q1, List.cons_append, List.nil_append, seg_cons, seg_append]
            rw [List.singleton_append, seg_cons] at t2
            refine ⟨t2.1, t2.2, ?_⟩
            have := (seg_cons.1 (seg_append.1 sq).2).2
            rw [show h1 + us.length + 1 + vs.length = h0 + (us.length + vs.length) + Q.length + 1 by omega]
            refine this.congr fun i _ _ => ?_
            rw [t3.cell i (by omega), q3.cell i (by omega)]
        · rintro r' s4 ⟨P', ks', Z, p1, p2, p3, p4, p5, p6, p7, p8, p9⟩
          refine ⟨P', ks', Z, p1, p2, p3, by omega, p5, p6, p7.trans ?_, SameOrder.trans' ?_ p8, ?_⟩
          · permc [p7]
          · have := sameOrder_move hlt (A := us) (M := vs ++ (P ++ Q)) (x := x) (B := R) ?_
            · simpa using this
            · have hv : ∀ w ∈ us ++ vs, eqv lt x w = false := by
                intro w hw
                obtain ⟨a1, a2, a3⟩ := List.pairwise_append.1 hS'
                rcases List.mem_append.1 hw with e | e
                · simp [eqv, b1 w e]
                · simp [eqv, (List.pairwise_cons.1 a2).1 w e]
              intro z hz
              rcases List.mem_append.1 hz with e | e
              · exact hv z (by simp [e])
              · obtain ⟨w, hw, he⟩ := hcl z e
                cases hxz : eqv lt x z with
                | false => rfl
                | true =>
                  have := hlt.eqv_trans hxz he
                  rw [hv w hw] at this
                  exact this.symm
          · refine (q3.mono (by omega) (by omega)).trans ((t3.mono (by omega) (by omega)).trans p9)
      | false =>
        obtain ⟨w, hw, he⟩ := hf2 rfl
        simp only [Bool.false_eq_true, if_false]
        refine wp_mono (ih P (us ++ vs) (Q ++ [x]) h0 dist (u + 1) { s with cmps := k2 } e0 (by simp; omega) (by simp; omega) (by omega) hle hS ?_ ?_) ?_
        · intro z hz
          rw [← List.append_assoc, List.mem_append, List.mem_singleton] at hz
          rcases hz with hz | hz
          · exact hcl z hz
          · exact ⟨w, hw, by rw [hz]; exact he⟩
        · simpa using hs
        · rintro r' s4 ⟨P', ks', Z, p1, p2, p3, p4, p5, p6, p7, p8, p9⟩
          exact ⟨P', ks', Z, p1, p2, p3, p4, p5, p6, by simpa using p7, by simpa using p8, p9.tick⟩

/-- `find_keys`: the first elements of some classes go first, the order of equivalent elements is kept. -/
theorem findKeys_spec (hlt : StrictWeak lt) (c : Cfg) {xs : List α} {first last keyCount : Nat} {s : St α} (hx : xs ≠ [])
    (hl : last = first + xs.length) (hk : 0 < keyCount) (hs : Seg s.cell first xs) :
    wp (findKeys (tick lt) c first last keyCount) (fun r s' => ∃ ks ys, r = ks.length ∧ r ≤ keyCount ∧ 0 < r ∧ StrictList lt ks ∧
      Seg s'.cell first (ks ++ ys) ∧ (ks ++ ys).Perm xs ∧ SameOrder lt xs (ks ++ ys) ∧ Frame first last s s') s := by
  cases xs with
  | nil => exact absurd rfl hx
  | cons x xs =>
    simp only [List.length_cons] at hl
    unfold findKeys
    apply wp_bind
    refine wp_mono (findKeysLoop_spec hlt c (first := first) (last := last) (keyCount := keyCount) xs [] [x] [] first 1 (first + 1) s rfl rfl rfl
      (by omega) (by omega) (List.pairwise_singleton _ _) (by simp) hs) ?_
    rintro ⟨h0, dist⟩ s1 ⟨P, ks, Z, p1, p2, p3, p4, p5, p6, p7, p8, p9⟩
    simp only at p1 p2 p3 p4 ⊢
    have hlen := p7.length_eq
    simp at hlen
    rw [← List.append_assoc, seg_append] at p6
    apply wp_bind
    refine wp_mono (rotate_seg c (m := h0) (l := h0 + dist) p6.1 p1 (by omega)) ?_
    rintro _ s2 ⟨-, q2, q3⟩
    refine wp_pure ⟨ks, P ++ Z, p2, p3, by omega, p5, ?_, p7, p8, p9.trans (q3.mono (Nat.le_refl _) (by omega))⟩
    rw [← List.append_assoc, seg_append]
    refine ⟨q2, ?_⟩
    have := p6.2
    rw [show (ks ++ P).length = (P ++ ks).length by simp [Nat.add_comm]]
    exact this.congr fun i h1 h2 => q3.cell i (by simp at h1; omega)

end CppSort
