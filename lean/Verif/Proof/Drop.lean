import Verif.Model.Drop
import Verif.Proof.Adapters
import Verif.Base.Segs
set_option autoImplicit false

namespace CppSort
variable {α : Type} {lt : α → α → Bool}

/-- The state of the first loop: `W` kept, `D` dropped for good, `T` dropped in the current row, `R` unread. -/
structure DropInv (triv : Bool) (f b n : Nat) (s0 s : St α) (W D T R : List α) : Prop where
  segW : Seg s.cell f W
  segD : Seg s.cell b (D ++ T)
  segR : Seg s.cell (f + W.length + D.length + T.length) R
  gap : ∀ i, f + W.length ≤ i → i < f + W.length + D.length + T.length → Live s.cell i
  stale : triv = true → Seg s.cell (f + W.length + D.length) T
  raw : ∀ i, b + D.length + T.length ≤ i → i < b + n → s.cell i = .raw
  len : W.length + D.length + T.length + R.length = n
  fb : f + n ≤ b
  out : ∀ i, (i < f ∨ f + n ≤ i) → (i < b ∨ b + n ≤ i) → s.cell i = s0.cell i
  env : s.env = s0.env

theorem DropInv.congr {triv : Bool} {f b n : Nat} {s0 s s' : St α} {W D T R : List α}
    (h : DropInv triv f b n s0 s W D T R) (e : s'.cell = s.cell) (e' : s'.env = s.env) :
    DropInv triv f b n s0 s' W D T R := by
  obtain ⟨a1, a2, a3, a4, a5, a6, a7, a8, a9, a10⟩ := h
  constructor <;> first | assumption | (rw [e]; assumption) | exact e'.trans a10

/-- Pushing the element at `src` leaves `src` live, and unchanged if the type is trivial. -/
theorem dropPush_wp {triv : Bool} {dst src : Nat} {x : α} {s : St α} {Q : Unit → St α → Prop}
    (h1 : s.cell src = .val x) (h2 : s.cell dst = .raw)
    (hQ : ∀ s' : St α, s'.cell dst = .val x → Live s'.cell src → (triv = true → s'.cell src = .val x) →
      (∀ i, i ≠ dst → i ≠ src → s'.cell i = s.cell i) → s'.env = s.env → Q () s') :
    wp (dropPush triv dst src) Q s := by
  have hne : dst ≠ src := by rintro rfl; rw [h1] at h2; cases h2
  unfold dropPush
  cases triv with
  | true =>
    simp only [if_true]
    apply wp_bind
    refine wp_read' h1 ?_
    refine wp_construct h2 fun s' e1 e2 _ _ => hQ s' ?_ ?_ ?_ ?_ e2
    · rw [e1]; exact sc_eq rfl
    · rw [e1]; exact (Live.of_val h1).out (Ne.symm hne)
    · intro _; rw [e1, sc_ne (Ne.symm hne)]; exact h1
    · intro i h3 h4; rw [e1, sc_ne h3]
  | false =>
    simp only [Bool.false_eq_true, if_false]
    refine wp_constructFrom h1 h2 fun s' e1 e2 _ _ => hQ s' ?_ ?_ (by simp) ?_ e2
    · rw [e1]; exact sc_eq rfl
    · rw [e1]; exact (Live.moved rfl).out (Ne.symm hne)
    · intro i h3 h4; rw [e1, sc_ne h3, sc_ne h4]

theorem dropMove_wp {triv : Bool} {dst src : Nat} {x : α} {s : St α} {Q : Unit → St α → Prop}
    (h1 : s.cell src = .val x) (h2 : Live s.cell dst) (hne : triv = false → dst ≠ src)
    (hQ : ∀ s' : St α, s'.cell dst = .val x → Live s'.cell src →
      (∀ i, i ≠ dst → i ≠ src → s'.cell i = s.cell i) → s'.env = s.env → Q () s') :
    wp (dropMove triv dst src) Q s := by
  unfold dropMove
  cases triv with
  | true =>
    simp only [if_true]
    apply wp_bind
    refine wp_read' h1 ?_
    refine wp_assign' h2 fun s' e1 e2 _ _ => hQ s' ?_ ?_ ?_ e2
    · rw [e1]; exact sc_eq rfl
    · rw [e1]; exact (Live.of_val h1).keep (.inr ⟨_, rfl⟩)
    · intro i h3 h4; rw [e1, sc_ne h3]
  | false =>
    simp only [Bool.false_eq_true, if_false]
    have hne := hne rfl
    refine wp_moveTo' hne h1 h2 fun s' e1 e2 _ _ => hQ s' ?_ ?_ ?_ e2
    · rw [e1]; exact sc_eq rfl
    · rw [e1]; exact (Live.moved rfl).out (Ne.symm hne)
    · intro i h3 h4; rw [e1, sc_ne h3, sc_ne h4]

theorem dropBack_spec {triv : Bool} {f b n : Nat} {s0 : St α} {W D : List α} : ∀ (T R : List α) (s : St α),
    DropInv triv f b n s0 s W D T R →
    wp (dropBack triv b T.length (f + W.length + D.length + T.length) (D.length + T.length))
      (fun _ s' => DropInv triv f b n s0 s' W D [] (T ++ R)) s := by
  intro T
  induction T using List.reverseRecOn with
  | nil => intro R s h; exact wp_pure h
  | append_singleton T x ih =>
    intro R s h
    obtain ⟨a1, a2, a3, a4, a5, a6, a7, a8, a9, a10⟩ := h
    rw [← List.append_assoc, seg_snoc] at a2
    simp only [List.length_append, List.length_singleton] at *
    rw [dropBack]
    have hne : f + W.length + D.length + T.length ≠ b + (D.length + T.length) := by omega
    have key : ∀ s1 : St α, Live s1.cell (b + (D.length + T.length)) →
        s1.cell (f + W.length + D.length + T.length) = .val x →
        (∀ i, i ≠ b + (D.length + T.length) → i ≠ f + W.length + D.length + T.length → s1.cell i = s.cell i) →
        s1.env = s.env →
        wp (do
          destroy (b + (D.length + T.length))
          dropBack triv b T.length (f + W.length + D.length + T.length) (D.length + T.length))
        (fun _ s' => DropInv triv f b n s0 s' W D [] (T ++ [x] ++ R)) s1 := by
      intro s1 h1 h2 h3 h4
      apply wp_bind
      refine wp_destroy h1 fun s2 e1 e2 _ _ => ?_
      have hc : ∀ i, i ≠ b + (D.length + T.length) → i ≠ f + W.length + D.length + T.length →
          s2.cell i = s.cell i := fun i h5 h6 => by rw [e1, sc_ne h5, h3 i h5 h6]
      rw [List.append_assoc]
      refine ih ([x] ++ R) s2 ⟨?_, ?_, ?_, ?_, ?_, ?_, ?_, a8, ?_, (e2.trans h4).trans a10⟩
      · exact a1.congr fun i h5 h6 => hc i (by omega) (by omega)
      · exact a2.1.congr fun i h5 h6 => by
          rw [List.length_append] at h6; exact hc i (by omega) (by omega)
      · rw [List.singleton_append, seg_cons, e1, sc_ne hne]
        refine ⟨h2, ?_⟩
        rw [← e1]
        exact a3.congr fun i h5 h6 => hc i (by omega) (by omega)
      · intro i h5 h6
        unfold Live
        rw [hc i (by omega) (by omega)]
        exact a4 i (by omega) (by omega)
      · intro ht
        exact (seg_snoc.1 (a5 ht)).1.congr fun i h5 h6 => hc i (by omega) (by omega)
      · intro i h5 h6
        by_cases e : i = b + (D.length + T.length)
        · rw [e1, sc_eq e]
        · rw [hc i e (by omega)]; exact a6 i (by omega) h6
      · simp only [List.length_append, List.length_singleton]; omega
      · intro i h5 h6
        rw [hc i (by omega) (by omega)]; exact a9 i h5 h6
    rw [show f + W.length + D.length + (T.length + 1) - 1 = f + W.length + D.length + T.length by omega,
      show D.length + (T.length + 1) - 1 = D.length + T.length by omega]
    have hd := a2.2
    cases triv with
    | true =>
      simp only [if_true]
      exact key s (.of_val hd) (seg_snoc.1 (a5 rfl)).2 (fun _ _ _ => rfl) rfl
    | false =>
      simp only [Bool.false_eq_true, if_false]
      apply wp_bind
      refine wp_moveTo' hne hd (a4 _ (by omega) (by omega)) fun s1 e1 e2 _ _ => ?_
      refine key s1 ?_ ?_ ?_ e2
      · rw [e1]; exact (Live.moved rfl).out (Ne.symm hne)
      · rw [e1]; exact sc_eq rfl
      · intro i h5 h6; rw [e1, sc_ne h6, sc_ne h5]

theorem dropKeep_spec {triv : Bool} {f b n : Nat} {s0 s : St α} {W D T R : List α} {x : α}
    (h : DropInv triv f b n s0 s W D T (x :: R)) {Q : Nat × Nat × Nat × Nat → St α → Prop}
    (hQ : ∀ s', DropInv triv f b n s0 s' (W ++ [x]) (D ++ T) [] R →
      Q (f + W.length + 1, f + W.length + D.length + T.length + 1, D.length + T.length, 0) s') :
    wp (dropKeep triv (f + W.length) (f + W.length + D.length + T.length) (D.length + T.length)) Q s := by
  obtain ⟨a1, a2, a3, a4, a5, a6, a7, a8, a9, a10⟩ := h
  rw [seg_cons] at a3
  simp only [List.length_cons] at *
  have key : ∀ s1 : St α, s1.cell (f + W.length) = .val x →
      (f + W.length ≠ f + W.length + D.length + T.length → Live s1.cell (f + W.length + D.length + T.length)) →
      (∀ i, i ≠ f + W.length → i ≠ f + W.length + D.length + T.length → s1.cell i = s.cell i) →
      s1.env = s.env → DropInv triv f b n s0 s1 (W ++ [x]) (D ++ T) [] R := by
    intro s1 h1 h2 h3 h4
    constructor
    · rw [seg_snoc]
      exact ⟨a1.congr fun i h5 h6 => h3 i (by omega) (by omega), h1⟩
    · rw [List.append_nil]
      exact a2.congr fun i h5 h6 => h3 i (by omega) (by omega)
    · simp only [List.length_append, List.length_singleton, List.length_nil]
      rw [show f + (W.length + 1) + (D.length + T.length) + 0 = f + W.length + D.length + T.length + 1 by omega]
      exact a3.2.congr fun i h5 h6 => h3 i (by omega) (by omega)
    · simp only [List.length_append, List.length_singleton, List.length_nil]
      intro i h5 h6
      by_cases e : i = f + W.length + D.length + T.length
      · rw [e]; exact h2 (by omega)
      · unfold Live; rw [h3 i (by omega) e]; exact a4 i (by omega) (by omega)
    · intro _; exact Seg.nil
    · simp only [List.length_append, List.length_nil]
      intro i h5 h6; rw [h3 i (by omega) (by omega)]; exact a6 i (by omega) h6
    · simp only [List.length_append, List.length_singleton, List.length_nil]; omega
    · exact a8
    · intro i h5 h6; rw [h3 i (by omega) (by omega)]; exact a9 i h5 h6
    · exact h4.trans a10
  have mv : (triv = false → f + W.length ≠ f + W.length + D.length + T.length) →
      wp (dropMove triv (f + W.length) (f + W.length + D.length + T.length)) (fun _ s1 =>
        DropInv triv f b n s0 s1 (W ++ [x]) (D ++ T) [] R) s := by
    intro hne
    refine dropMove_wp a3.1 ?_ hne fun s1 h1 h2 h3 h4 => key s1 h1 (fun _ => h2) h3 h4
    by_cases e : f + W.length = f + W.length + D.length + T.length
    · rw [e]; exact .of_val a3.1
    · exact a4 _ (by omega) (by omega)
  unfold dropKeep
  cases triv with
  | true =>
    simp only [if_true]
    apply wp_bind
    refine wp_mono (mv (by simp)) fun _ s1 h1 => ?_
    exact wp_pure (hQ s1 h1)
  | false =>
    simp only [Bool.false_eq_true, if_false]
    by_cases e : f + W.length + D.length + T.length = f + W.length
    · rw [if_neg (by omega)]
      apply wp_pure
      apply hQ
      refine key s ?_ (fun h => absurd e.symm h) (fun _ _ _ => rfl) rfl
      rw [← e]; exact a3.1
    · rw [if_pos e]
      apply wp_bind
      refine wp_mono (mv fun _ => Ne.symm e) fun _ s1 h1 => ?_
      exact wp_pure (hQ s1 h1)

theorem dropDrop_spec {triv : Bool} {f b n : Nat} {s0 s : St α} {W D T R : List α} {x w : α}
    (h : DropInv triv f b n s0 s (W ++ [w]) D T (x :: R)) (h8 : T.length ≤ 8)
    {Q : Nat × Nat × Nat × Nat → St α → Prop}
    (hQ1 : ∀ s', T.length < 8 → DropInv triv f b n s0 s' (W ++ [w]) D (T ++ [x]) R →
      Q (f + (W.length + 1), f + (W.length + 1) + D.length + T.length + 1, D.length + T.length + 1,
        T.length + 1) s')
    (hQ2 : ∀ s', DropInv triv f b n s0 s' W (D ++ [w]) [] (T ++ x :: R) →
      Q (f + W.length, f + (W.length + 1) + D.length, D.length + 1, 0) s') :
    wp (dropDrop triv b (f + (W.length + 1)) (f + (W.length + 1) + D.length + T.length) (D.length + T.length)
      T.length) Q s := by
  unfold dropDrop
  split
  · rename_i hlt8
    obtain ⟨a1, a2, a3, a4, a5, a6, a7, a8, a9, a10⟩ := h
    rw [seg_cons] at a3
    simp only [List.length_cons, List.length_append, List.length_nil, Nat.zero_add] at *
    apply wp_bind
    refine dropPush_wp a3.1 (a6 _ (by omega) (by omega)) fun s1 h1 h2 h2' h3 h4 => ?_
    apply wp_pure
    apply hQ1 _ hlt8
    constructor
    · refine a1.congr fun i h5 h6 => h3 i ?_ ?_ <;> simp at h6 <;> omega
    · rw [← List.append_assoc, seg_snoc]
      refine ⟨a2.congr fun i h5 h6 => h3 i ?_ ?_, ?_⟩
      · simp at h6; omega
      · simp at h6; omega
      · rw [List.length_append]; exact h1
    · simp only [List.length_append, List.length_singleton]
      exact a3.2.congr fun i h5 h6 => h3 i (by omega) (by omega)
    · simp only [List.length_append, List.length_singleton]
      intro i h5 h6
      by_cases e : i = f + (W.length + 1) + D.length + T.length
      · rw [e]; exact h2
      · unfold Live; rw [h3 i (by omega) e]; exact a4 i (by omega) (by omega)
    · simp only [List.length_append, List.length_singleton]
      intro ht
      rw [seg_snoc]
      exact ⟨(a5 ht).congr fun i h5 h6 => h3 i (by omega) (by omega), h2' ht⟩
    · simp only [List.length_append, List.length_singleton]
      intro i h5 h6; rw [h3 i (by omega) (by omega)]; exact a6 i (by omega) h6
    · simp only [List.length_append, List.length_singleton]; omega
    · exact a8
    · intro i h5 h6; rw [h3 i (by omega) (by omega)]; exact a9 i h5 h6
    · exact h4.trans a10
  · apply wp_bind
    have g := dropBack_spec T (x :: R) s h
    rw [List.length_append, List.length_singleton] at g
    refine wp_mono g fun _ s1 h1 => ?_
    obtain ⟨a1, a2, a3, a4, a5, a6, a7, a8, a9, a10⟩ := h1
    rw [seg_snoc] at a1
    rw [List.append_nil] at a2
    simp only [List.length_cons, List.length_append, List.length_nil, Nat.zero_add, Nat.add_zero] at *
    show wp _ _ _
    rw [Nat.add_sub_cancel, Nat.add_sub_cancel, show f + (W.length + 1) - 1 = f + W.length by omega]
    apply wp_bind
    refine dropPush_wp a1.2 (a6 _ (by omega) (by omega)) fun s1 h1 h2 h2' h3 h4 => ?_
    apply wp_pure
    apply hQ2
    constructor
    · exact a1.1.congr fun i h5 h6 => h3 i (by omega) (by omega)
    · rw [List.append_nil, seg_snoc]
      exact ⟨a2.congr fun i h5 h6 => h3 i (by omega) (by omega), h1⟩
    · simp only [List.length_append, List.length_singleton, List.length_nil]
      rw [show f + W.length + (D.length + 1) + 0 = f + (W.length + 1) + D.length by omega]
      refine a3.congr fun i h5 h6 => h3 i ?_ (by omega)
      simp at h6; omega
    · simp only [List.length_append, List.length_singleton, List.length_nil]
      intro i h5 h6
      by_cases e : i = f + W.length
      · rw [e]; exact h2
      · unfold Live; rw [h3 i (by omega) e]; exact a4 i (by omega) (by omega)
    · intro _; exact Seg.nil
    · simp only [List.length_append, List.length_singleton, List.length_nil]
      intro i h5 h6; rw [h3 i (by omega) (by omega)]; exact a6 i (by omega) h6
    · simp only [List.length_append, List.length_singleton, List.length_nil, List.length_cons]; omega
    · exact a8
    · intro i h5 h6; rw [h3 i (by omega) (by omega)]; exact a9 i h5 h6
    · exact h4.trans a10

theorem dropReplace_spec {triv : Bool} {f b n : Nat} {s0 s : St α} {W D R : List α} {x w : α}
    (h : DropInv triv f b n s0 s (W ++ [w]) D [] (x :: R)) {Q : Nat × Nat × Nat × Nat → St α → Prop}
    (hQ : ∀ s', DropInv triv f b n s0 s' (W ++ [x]) (D ++ [w]) [] R →
      Q (f + (W.length + 1), f + (W.length + 1) + D.length + 1, D.length + 1, 0) s') :
    wp (do
      dropPush triv (b + D.length) (f + W.length)
      dropMove triv (f + W.length) (f + (W.length + 1) + D.length)
      pure (f + (W.length + 1), f + (W.length + 1) + D.length + 1, D.length + 1, 0)) Q s := by
  obtain ⟨a1, a2, a3, a4, a5, a6, a7, a8, a9, a10⟩ := h
  rw [seg_snoc] at a1
  rw [List.append_nil] at a2
  rw [seg_cons] at a3
  simp only [List.length_cons, List.length_append, List.length_nil, Nat.zero_add, Nat.add_zero] at *
  apply wp_bind
  refine dropPush_wp a1.2 (a6 _ (by omega) (by omega)) fun s1 h1 h2 _ h3 h4 => ?_
  apply wp_bind
  refine dropMove_wp (x := x) ?_ h2 (fun _ => by omega) fun s2 k1 k2 k3 k4 => ?_
  · rw [h3 _ (by omega) (by omega)]; exact a3.1
  apply wp_pure
  apply hQ
  have hc : ∀ i, i ≠ b + D.length → i ≠ f + W.length → i ≠ f + (W.length + 1) + D.length →
      s2.cell i = s.cell i := fun i e1 e2 e3 => by rw [k3 i e2 e3, h3 i e1 e2]
  constructor
  · rw [seg_snoc]
    exact ⟨a1.1.congr fun i h5 h6 => hc i (by omega) (by omega) (by omega), k1⟩
  · rw [List.append_nil, seg_snoc]
    refine ⟨a2.congr fun i h5 h6 => hc i (by omega) (by omega) (by omega), ?_⟩
    rw [k3 _ (by omega) (by omega)]; exact h1
  · simp only [List.length_append, List.length_singleton, List.length_nil]
    rw [show f + (W.length + 1) + (D.length + 1) + 0 = f + (W.length + 1) + D.length + 1 by omega]
    exact a3.2.congr fun i h5 h6 => hc i (by omega) (by omega) (by omega)
  · simp only [List.length_append, List.length_singleton, List.length_nil]
    intro i h5 h6
    by_cases e : i = f + (W.length + 1) + D.length
    · rw [e]; exact k2
    · unfold Live; rw [hc i (by omega) (by omega) e]; exact a4 i (by omega) (by omega)
  · intro _; exact Seg.nil
  · simp only [List.length_append, List.length_singleton, List.length_nil]
    intro i h5 h6; rw [hc i (by omega) (by omega) (by omega)]; exact a6 i (by omega) h6
  · simp only [List.length_append, List.length_singleton, List.length_nil]; omega
  · exact a8
  · intro i h5 h6; rw [hc i (by omega) (by omega) (by omega)]; exact a9 i h5 h6
  · exact (k4.trans h4).trans a10

theorem DropInv.drop {triv : Bool} {f b n : Nat} {s0 s : St α} {W D T R : List α}
    (h : DropInv triv f b n s0 s W D T R) : DropInv triv f b n s0 s W (D ++ T) [] R := by
  obtain ⟨a1, a2, a3, a4, a5, a6, a7, a8, a9, a10⟩ := h
  constructor
  · exact a1
  · rw [List.append_nil]; exact a2
  · simp only [List.length_append, List.length_nil]
    rwa [show f + W.length + (D.length + T.length) + 0 = f + W.length + D.length + T.length by omega]
  · simp only [List.length_append, List.length_nil]
    intro i h1 h2; exact a4 i h1 (by omega)
  · intro _; exact Seg.nil
  · simp only [List.length_append, List.length_nil]
    intro i h1 h2; exact a6 i (by omega) h2
  · simp only [List.length_append, List.length_nil]; omega
  · exact a8
  · exact a9
  · exact a10

theorem quad {a b c d a' b' c' d' : Nat} (h1 : a = a') (h2 : b = b') (h3 : c = c') (h4 : d = d') :
    (a, b, c, d) = (a', b', c', d') := by subst h1 h2 h3 h4; rfl

/-- What one step of the loop does to the four lists. -/
inductive DropStep (lt : α → α → Bool) :
    List α → List α → List α → List α → List α → List α → List α → List α → Prop
  | keep {W D T R : List α} {x : α} : (∀ W' w, W = W' ++ [w] → lt x w = false) →
      DropStep lt W D T (x :: R) (W ++ [x]) (D ++ T) [] R
  | replace {W D R : List α} {x w : α} : (∀ W' w, W = W' ++ [w] → lt x w = false) →
      DropStep lt (W ++ [w]) D [] (x :: R) (W ++ [x]) (D ++ [w]) [] R
  | drop {W D T R : List α} {x : α} : T.length < 8 → DropStep lt W D T (x :: R) W D (T ++ [x]) R
  | rollback {W D T R : List α} {w : α} : R ≠ [] → DropStep lt (W ++ [w]) D T R W (D ++ [w]) [] (T ++ R)

theorem dropStep_spec {triv : Bool} {f b n : Nat} {s0 s : St α} {W D T R : List α} {x : α}
    (h : DropInv triv f b n s0 s W D T (x :: R)) (h8 : T.length ≤ 8) :
    wp (dropStep (tick lt) triv f b (f + W.length) (f + W.length + D.length + T.length)
      (D.length + T.length) T.length) (fun r s' => ∃ W' D' T' R', DropStep lt W D T (x :: R) W' D' T' R' ∧
        DropInv triv f b n s0 s' W' D' T' R' ∧ T'.length ≤ 8 ∧
        r = (f + W'.length, f + W'.length + D'.length + T'.length, D'.length + T'.length, T'.length)) s := by
  unfold dropStep
  have keep : ∀ s1 : St α, s1.cell = s.cell → s1.env = s.env → (∀ W' w, W = W' ++ [w] → lt x w = false) →
      wp (dropKeep triv (f + W.length) (f + W.length + D.length + T.length) (D.length + T.length))
      (fun r s' => ∃ W' D' T' R', DropStep lt W D T (x :: R) W' D' T' R' ∧
        DropInv triv f b n s0 s' W' D' T' R' ∧ T'.length ≤ 8 ∧
        r = (f + W'.length, f + W'.length + D'.length + T'.length, D'.length + T'.length, T'.length)) s1 := by
    intro s1 e1 e2 hk
    refine dropKeep_spec (h.congr e1 e2) fun s' h' => ⟨_, _, _, _, .keep hk, h', by simp, ?_⟩
    refine quad ?_ ?_ ?_ ?_ <;> simp only [List.length_append, List.length_singleton, List.length_nil] <;> omega
  split
  · rename_i hne
    induction W using List.reverseRecOn with
    | nil => simp at hne
    | append_singleton W w =>
      clear * - h h8 keep
      have a1 := h.segW
      have a3 := h.segR
      rw [seg_snoc] at a1
      rw [seg_cons] at a3
      apply wp_bind
      refine wp_read' a3.1 ?_
      simp only [List.length_append, List.length_singleton] at *
      rw [show f + (W.length + 1) - 1 = f + W.length by omega]
      apply wp_bind
      refine wp_read' a1.2 ?_
      wtick
      have drop : ∀ s1 : St α, s1.cell = s.cell → s1.env = s.env →
          wp (dropDrop triv b (f + (W.length + 1)) (f + (W.length + 1) + D.length + T.length)
            (D.length + T.length) T.length)
          (fun r s' => ∃ W' D' T' R', DropStep lt (W ++ [w]) D T (x :: R) W' D' T' R' ∧
            DropInv triv f b n s0 s' W' D' T' R' ∧ T'.length ≤ 8 ∧
            r = (f + W'.length, f + W'.length + D'.length + T'.length, D'.length + T'.length, T'.length)) s1 := by
        intro s1 e1 e2
        refine dropDrop_spec (h.congr e1 e2) h8 (fun s' hl h' => ⟨_, _, _, _, .drop hl, h', ?_, ?_⟩)
          fun s' h' => ⟨_, _, _, _, .rollback (by simp), h', by simp, ?_⟩
        · simp only [List.length_append, List.length_singleton]; omega
        · refine quad ?_ ?_ ?_ ?_ <;> simp only [List.length_append, List.length_singleton] <;> omega
        · refine quad ?_ ?_ ?_ ?_ <;> simp only [List.length_append, List.length_singleton, List.length_nil] <;> omega
      split
      · split
        · rename_i hc
          obtain rfl : T = [] := List.eq_nil_of_length_eq_zero hc.1
          apply wp_bind
          refine wp_read' a3.1 ?_
          induction W using List.reverseRecOn with
          | nil => simp at hc
          | append_singleton W u =>
            have a1' := (seg_snoc.1 a1.1).2
            rw [show f + ((W ++ [u]).length + 1) - 2 = f + W.length by simp; omega]
            apply wp_bind
            refine wp_read' a1' ?_
            wtick
            dsimp only
            split
            · rename_i hn
              have hn : lt x u = false := by simpa using hn
              simp only [List.length_nil, Nat.add_zero]
              refine dropReplace_spec (h.congr (s' := { s with cmps := s.cmps + 1 + 1 }) rfl rfl) fun s' h' => ⟨_, _, _, _, .replace ?_, h', by simp, ?_⟩
              · intro W' w' e
                rw [← List.singleton_inj.1 (List.append_inj' e rfl).2]
                exact hn
              · refine quad ?_ ?_ ?_ ?_ <;> simp only [List.length_append, List.length_singleton, List.length_nil] <;> omega
            · exact drop _ rfl rfl
        · exact drop _ rfl rfl
      · rename_i hn
        have hn : lt x w = false := by simpa using hn
        refine keep _ rfl rfl fun W' w' e => ?_
        rw [← List.singleton_inj.1 (List.append_inj' e rfl).2]
        exact hn
  · rename_i hne
    have hw : W = [] := List.eq_nil_of_length_eq_zero (by omega)
    exact keep s rfl rfl fun W' w' e => by rw [hw] at e; simp at e

theorem DropStep.perm {W D T R W' D' T' R' : List α} (h : DropStep lt W D T R W' D' T' R') :
    (W' ++ D' ++ T' ++ R').Perm (W ++ D ++ T ++ R) := by
  cases h with
  | @keep W D T _ x h =>
    have := (List.perm_middle (a := x) (l₁ := D ++ T) (l₂ := R')).symm.append_left W
    simpa using this
  | @replace W D _ x w h =>
    have h1 := (List.perm_middle (a := w) (l₁ := D) (l₂ := R')).cons x
    have h2 := (List.perm_middle (a := x) (l₁ := D) (l₂ := R')).symm.cons w
    have := ((h1.trans (List.Perm.swap _ _ _)).trans h2).append_left W
    simpa using this
  | drop h => simp
  | rollback h =>
    simp only [List.append_assoc, List.append_nil, List.nil_append, List.singleton_append]
    exact List.Perm.append_left _ List.perm_middle

theorem DropStep.sorted (hlt : StrictWeak lt) {W D T R W' D' T' R' : List α}
    (h : DropStep lt W D T R W' D' T' R') (hs : SortedList lt W) : SortedList lt W' := by
  have key : ∀ (W : List α) (x : α), SortedList lt W → (∀ W' w, W = W' ++ [w] → lt x w = false) →
      SortedList lt (W ++ [x]) := by
    intro W x hs hx
    induction W using List.reverseRecOn with
    | nil => exact List.pairwise_singleton _ _
    | append_singleton W w => exact sortedList_snoc hlt hs (hx W w rfl)
  cases h with
  | keep h => exact key _ _ hs h
  | replace h => exact key _ _ (sortedList_append.1 hs).1 h
  | drop h => exact hs
  | rollback h => exact (sortedList_append.1 hs).1

/-- The measure of the first loop. -/
def dropMeasure (n d w t : Nat) : Nat := (n - d) * (10 * (n + 1)) + ((n - w) * 10 + (9 - t))

theorem dropMeasure_lt {n d w t d' w' t' : Nat} (hd : d' ≤ n) (ht : t ≤ 8)
    (h : d < d' ∨ (d = d' ∧ w < w' ∧ w' ≤ n) ∨ (d = d' ∧ w = w' ∧ t < t')) :
    dropMeasure n d' w' t' < dropMeasure n d w t := by
  unfold dropMeasure
  rcases h with h | ⟨rfl, h, h'⟩ | ⟨rfl, rfl, h⟩
  · obtain ⟨k, hk⟩ : ∃ k, n - d = n - d' + 1 + k := ⟨n - d - (n - d') - 1, by omega⟩
    rw [hk, Nat.add_mul, Nat.add_mul]
    generalize (n - d') * (10 * (n + 1)) = A
    generalize k * (10 * (n + 1)) = B
    omega
  · generalize (n - d) * (10 * (n + 1)) = A
    omega
  · generalize (n - d) * (10 * (n + 1)) = A
    omega

theorem dropLoop_spec (hlt : StrictWeak lt) {triv : Bool} {f b n : Nat} {s0 : St α} :
    ∀ (m : Nat) (W D T R : List α) (s : St α), dropMeasure n D.length W.length T.length < m → R ≠ [] →
    DropInv triv f b n s0 s W D T R → T.length ≤ 8 → SortedList lt W →
    wp (dropLoop (tick lt) triv f (f + n) b (f + W.length) (f + W.length + D.length + T.length)
      (D.length + T.length) T.length) (fun r s' => ∃ W' D', DropInv triv f b n s0 s' W' D' [] [] ∧
        (W' ++ D').Perm (W ++ D ++ T ++ R) ∧ SortedList lt W' ∧ r = (f + W'.length, D'.length)) s := by
  intro m
  induction m with
  | zero => intro W D T R s h; omega
  | succ m ih =>
    intro W D T R s hm hR h h8 hs
    obtain ⟨x, R, rfl⟩ := List.exists_cons_of_ne_nil hR
    rw [dropLoop]
    apply wp_bind
    refine wp_mono (dropStep_spec (lt := lt) h h8) ?_
    rintro _ s1 ⟨W', D', T', R', st, h', h8', rfl⟩
    dsimp only
    have hl := h.len
    have hl' := h'.len
    have hp := st.perm
    have hso := st.sorted hlt hs
    split
    · rename_i hne
      have hR' : R' ≠ [] := by rintro rfl; simp at hl'; omega
      refine wp_mono (ih W' D' T' R' s1 ?_ hR' h' h8' hso) ?_
      · refine Nat.lt_of_lt_of_le (dropMeasure_lt (by omega) h8 ?_) (Nat.le_of_lt_succ hm)
        clear ih hm h h' hp hso hs hlt
        cases st with
        | keep _ =>
          simp only [List.length_append, List.length_singleton, List.length_nil] at *
          by_cases e : T.length = 0
          · exact .inr (.inl ⟨by omega, by omega, by omega⟩)
          · exact .inl (by omega)
        | replace _ => simp only [List.length_append, List.length_singleton]; exact .inl (by omega)
        | drop _ => simp only [List.length_append, List.length_singleton]; exact .inr (.inr ⟨trivial, trivial, by omega⟩)
        | rollback _ => simp only [List.length_append, List.length_singleton]; exact .inl (by omega)
      · rintro r s2 ⟨W2, D2, g1, g2, g3⟩
        exact ⟨W2, D2, g1, g2.trans hp, g3⟩
    · rename_i hne
      have hR' : R' = [] := List.eq_nil_of_length_eq_zero (by omega)
      subst hR'
      apply wp_pure
      refine ⟨W', D' ++ T', h'.drop, ?_, hso, by simp⟩
      simpa using hp

/-- The state of the merge: `W` kept, `S` dropped and sorted, `O` output. -/
structure DropMInv (f b n : Nat) (s0 s : St α) (W S O : List α) : Prop where
  segW : Seg s.cell f W
  segS : Seg s.cell b S
  segO : Seg s.cell (f + W.length + S.length) O
  gap : ∀ i, f + W.length ≤ i → i < f + W.length + S.length → Live s.cell i
  raw : ∀ i, b + S.length ≤ i → i < b + n → s.cell i = .raw
  len : W.length + S.length + O.length = n
  fb : f + n ≤ b
  out : ∀ i, (i < f ∨ f + n ≤ i) → (i < b ∨ b + n ≤ i) → s.cell i = s0.cell i
  env : s.env = s0.env

theorem dropShift_spec {triv : Bool} {f b n : Nat} {s0 : St α} {S : List α} {d : α} :
    ∀ (W O : List α) (s : St α), DropMInv f b n s0 s W (S ++ [d]) O →
    wp (dropShift (tick lt) triv f (b + S.length) (f + W.length + (S.length + 1)) (f + W.length))
      (fun r s' => ∃ W1 W2, W = W1 ++ W2 ∧ DropMInv f b n s0 s' W1 (S ++ [d]) (W2 ++ O) ∧
        (∀ w ∈ W2, lt d w = true) ∧ (∀ W' w, W1 = W' ++ [w] → lt d w = false) ∧
        r = (f + W1.length + (S.length + 1), f + W1.length)) s := by
  intro W
  induction W using List.reverseRecOn with
  | nil =>
    intro O s h
    rw [dropShift, if_neg (by simp)]
    exact wp_pure ⟨[], [], rfl, h, by simp, by simp, rfl⟩
  | append_singleton W w ih =>
    intro O s h
    have h0 := h
    obtain ⟨a1, a2, a3, a4, a5, a6, a7, a8, a9⟩ := h
    rw [seg_snoc] at a1
    have a2' := (seg_snoc.1 a2).2
    rw [dropShift, if_pos (by simp)]
    simp only [List.length_append, List.length_singleton] at *
    apply wp_bind
    refine wp_read' a2' ?_
    rw [show f + (W.length + 1) - 1 = f + W.length by omega]
    apply wp_bind
    refine wp_read' a1.2 ?_
    wtick
    split
    · rename_i hd
      apply wp_bind
      rw [show f + (W.length + 1) + (S.length + 1) - 1 = f + W.length + (S.length + 1) by omega]
      refine dropMove_wp a1.2 (a4 _ (by omega) (by omega)) (fun _ => by omega) fun s1 k1 k2 k3 k4 => ?_
      refine wp_mono (ih (w :: O) s1 ?_) ?_
      · constructor
        · exact a1.1.congr fun i h5 h6 => k3 i (by omega) (by omega)
        · refine a2.congr fun i h5 h6 => k3 i ?_ ?_ <;> simp at h6 <;> omega
        · simp only [List.length_append, List.length_singleton]
          rw [seg_cons]
          refine ⟨k1, ?_⟩
          rw [show f + W.length + (S.length + 1) + 1 = f + (W.length + 1) + (S.length + 1) by omega]
          exact a3.congr fun i h5 h6 => k3 i (by omega) (by omega)
        · simp only [List.length_append, List.length_singleton]
          intro i h5 h6
          by_cases e : i = f + W.length
          · rw [e]; exact k2
          · unfold Live; rw [k3 i (by omega) e]; exact a4 i (by omega) (by omega)
        · simp only [List.length_append, List.length_singleton]
          intro i h5 h6; rw [k3 i (by omega) (by omega)]; exact a5 i (by omega) h6
        · simp only [List.length_append, List.length_cons, List.length_nil]; omega
        · exact a7
        · intro i h5 h6; rw [k3 i (by omega) (by omega)]; exact a8 i h5 h6
        · exact k4.trans a9
      · rintro r s2 ⟨W1, W2, e, g1, g2, g3, g4⟩
        refine ⟨W1, W2 ++ [w], by rw [e, List.append_assoc], ?_, ?_, g3, g4⟩
        · rw [List.append_assoc]; exact g1
        · intro z hz
          rcases List.mem_append.1 hz with hz | hz
          · exact g2 z hz
          · rw [List.mem_singleton.1 hz]; exact hd
    · rename_i hd
      have hd : lt d w = false := by simpa using hd
      refine wp_pure ⟨W ++ [w], [], by simp, ?_, by simp, ?_, by simp⟩
      · exact ⟨h0.segW, h0.segS, h0.segO, h0.gap, h0.raw, h0.len, h0.fb, h0.out, h0.env⟩
      · intro W' w' e
        rw [← List.singleton_inj.1 (List.append_inj' e rfl).2]; exact hd

theorem dropMerge_spec (hlt : StrictWeak lt) {triv : Bool} {f b n : Nat} {s0 : St α} :
    ∀ (S W O : List α) (s : St α), S ≠ [] → DropMInv f b n s0 s W S O → SortedList lt W → SortedList lt S →
    SortedList lt O → (∀ o ∈ O, ∀ y ∈ W ++ S, lt o y = false) →
    wp (dropMerge (tick lt) triv f b S.length (f + W.length + S.length) (f + W.length))
      (fun _ s' => ∃ W' O', DropMInv f b n s0 s' W' [] O' ∧ SortedList lt (W' ++ O') ∧
        (W' ++ O').Perm (W ++ S ++ O)) s := by
  intro S
  induction S using List.reverseRecOn with
  | nil => intro W O s h; exact absurd rfl h
  | append_singleton S d ih =>
    intro W O s _ h hW hS hO hWO
    rw [dropMerge]
    apply wp_bind
    simp only [List.length_append, List.length_singleton, Nat.add_sub_cancel]
    refine wp_mono (dropShift_spec (lt := lt) W O s h) ?_
    rintro _ s1 ⟨W1, W2, rfl, h1, g1, g2, rfl⟩
    dsimp only
    obtain ⟨a1, a2, a3, a4, a5, a6, a7, a8, a9⟩ := h1
    rw [seg_snoc] at a2
    simp only [List.length_append, List.length_singleton] at *
    rw [show f + W1.length + (S.length + 1) - 1 = f + W1.length + S.length by omega]
    apply wp_bind
    refine dropMove_wp a2.2 (a4 _ (by omega) (by omega)) (fun _ => by omega) fun s2 k1 k2 k3 k4 => ?_
    apply wp_bind
    refine wp_destroy k2 fun s3 e1 e2 _ _ => ?_
    have hc : ∀ i, i ≠ b + S.length → i ≠ f + W1.length + S.length → s3.cell i = s1.cell i :=
      fun i h5 h6 => by rw [e1, sc_ne h5, k3 i h6 h5]
    have hinv : DropMInv f b n s0 s3 W1 S (d :: (W2 ++ O)) := by
      constructor
      · exact a1.congr fun i h5 h6 => hc i (by omega) (by omega)
      · exact a2.1.congr fun i h5 h6 => hc i (by omega) (by omega)
      · rw [seg_cons, e1, sc_ne (by omega)]
        refine ⟨k1, ?_⟩
        rw [← e1, show f + W1.length + S.length + 1 = f + W1.length + (S.length + 1) by omega]
        refine a3.congr fun i h5 h6 => hc i ?_ (by omega)
        simp at h6; omega
      · intro i h5 h6
        unfold Live; rw [hc i (by omega) (by omega)]; exact a4 i (by omega) (by omega)
      · intro i h5 h6
        by_cases e : i = b + S.length
        · rw [e1, sc_eq e]
        · rw [hc i e (by omega)]; exact a5 i (by omega) h6
      · simp only [List.length_append, List.length_cons]; omega
      · exact a7
      · intro i h5 h6; rw [hc i (by omega) (by omega)]; exact a8 i h5 h6
      · exact (e2.trans k4).trans a9
    obtain ⟨w1, w2, w3⟩ := sortedList_append.1 hW
    obtain ⟨t1, t2, t3⟩ := sortedList_append.1 hS
    -- everything left is at most `d`
    have hd1 : ∀ w ∈ W1, lt d w = false := by
      intro w hw
      induction W1 using List.reverseRecOn with
      | nil => simp at hw
      | append_singleton W1 u =>
        have hu := g2 W1 u rfl
        rcases List.mem_append.1 hw with hw | hw
        · exact hlt.le_trans ((sortedList_append.1 w1).2.2 w hw u (by simp)) hu
        · rw [List.mem_singleton.1 hw]; exact hu
    have hO' : SortedList lt (d :: (W2 ++ O)) := by
      refine sortedList_cons.2 ⟨fun y hy => ?_, sortedList_append.2 ⟨w2, hO, fun x hx y hy => ?_⟩⟩
      · rcases List.mem_append.1 hy with hy | hy
        · exact hlt.asymm (g1 y hy)
        · exact hWO y hy d (by simp)
      · exact hWO y hy x (by simp [hx])
    have hWO' : ∀ o ∈ d :: (W2 ++ O), ∀ y ∈ W1 ++ S, lt o y = false := by
      intro o ho y hy
      rcases List.mem_cons.1 ho with rfl | ho
      · rcases List.mem_append.1 hy with hy | hy
        · exact hd1 y hy
        · exact t3 y hy _ (by simp)
      · rcases List.mem_append.1 ho with ho | ho
        · rcases List.mem_append.1 hy with hy | hy
          · exact w3 y hy o ho
          · exact hlt.le_trans (t3 y hy d (by simp)) (hlt.asymm (g1 o ho))
        · refine hWO o ho y ?_
          rcases List.mem_append.1 hy with hy | hy <;> simp [hy]
    have hperm : (W1 ++ S ++ d :: (W2 ++ O)).Perm (W1 ++ W2 ++ (S ++ [d]) ++ O) := by
      simp only [List.append_assoc, List.singleton_append]
      refine List.Perm.append_left _ ?_
      have e : (W2 ++ (S ++ d :: O)).Perm (S ++ (W2 ++ d :: O)) := by
        rw [← List.append_assoc, ← List.append_assoc]
        exact List.Perm.append_right _ List.perm_append_comm
      refine List.Perm.trans ?_ e.symm
      exact List.Perm.append_left _ List.perm_middle.symm
    split
    · rename_i hne
      have hSne : S ≠ [] := by rintro rfl; simp at hne
      refine wp_mono (ih W1 (d :: (W2 ++ O)) s3 hSne hinv w1 t1 hO' hWO') ?_
      rintro _ s4 ⟨W', O', h1, h2, h3⟩
      exact ⟨W', O', h1, h2, h3.trans hperm⟩
    · rename_i hne
      have hSne : S = [] := List.eq_nil_of_length_eq_zero (by omega)
      subst hSne
      refine wp_pure ⟨W1, d :: (W2 ++ O), hinv, ?_, ?_⟩
      · exact sortedList_append.2 ⟨w1, hO', fun x hx y hy => hWO' y hy x (by simp [hx])⟩
      · simpa using hperm

theorem splitLoop_spec (hlt : StrictWeak lt) {f l : Nat} : ∀ (m middle reader : Nat) (s : St α) (v : Nat → α),
    reader + m = l → f ≤ middle → middle < reader → Holds s.cell f l v → SortedOn lt f (middle + 1) v →
    wp (splitLoop (tick lt) f l middle reader) (fun r s' => ∃ v', Upd f l s s' v v' ∧ f ≤ r ∧ r < l ∧
      SortedOn lt f (r + 1) v') s := by
  intro m
  induction m with
  | zero =>
    intro middle reader s v h1 h2 h3 hh hs
    rw [splitLoop, if_neg (by omega)]
    exact wp_pure ⟨v, Upd.refl hh, h2, by omega, hs⟩
  | succ m ih =>
    intro middle reader s v h1 h2 h3 hh hs
    rw [splitLoop, if_pos (by omega)]
    wread hh
    wread hh
    wtick
    split
    · refine wp_mono (ih _ _ _ v (by omega) (by split <;> omega) (by split <;> omega) hh
        (hs.sub (Nat.le_refl _) (by split <;> omega))) ?_
      rintro r s' ⟨v', hu, hr⟩
      exact ⟨v', hu.tick, hr⟩
    · rename_i hc
      have hc : lt (v reader) (v middle) = false := by simpa using hc
      apply wp_bind
      refine wp_swap hh (by omega) (by omega) fun s1 hu1 => ?_
      refine wp_mono (ih _ _ s1 _ (by omega) (by omega) (by omega) hu1.holds ?_) ?_
      · have hs1 : SortedOn lt f (middle + 1) (swp v (middle + 1) reader) :=
          hs.congr fun i a b => by sw
        refine SortedOn.snoc hlt hs1 fun _ => ?_
        rw [Nat.add_sub_cancel]
        sw
        exact hc
      · rintro r s' ⟨v', hu, hr⟩
        exact ⟨v', (hu1.trans hu).tick, hr⟩

theorem splitSort_sorts [Inhabited α] (hlt : StrictWeak lt) (c : Cfg) (hcat : c.cat ≠ .forward)
    {sorter : Nat → Nat → M α Unit} (hsort : Sorts lt sorter) : Sorts lt (splitSort (tick lt) c sorter) := by
  intro s f xs hw hs
  unfold splitSort
  by_cases hlen : xs.length < 2
  · refine ⟨s, xs, ?_, rfl, hs, ⟨List.Perm.refl _, ?_⟩, fun _ _ => rfl, hw⟩
    · rw [if_pos (by omega)]; rfl
    · match xs, hlen with
      | [], _ => exact List.Pairwise.nil
      | [x], _ => exact List.pairwise_singleton _ _
  obtain ⟨v, hh, he⟩ := hs.holds
  have main : wp (do
      let middle ← splitLoop (tick lt) f (f + xs.length) f (f + 1)
      sorter middle (f + xs.length)
      inplaceMerge (tick lt) c f middle (f + xs.length)) (fun _ s' => ∃ v', WUpd f (f + xs.length) s s' v v' ∧
        SortedOn lt f (f + xs.length) v') s := by
    apply wp_bind
    refine wp_mono (splitLoop_spec hlt (xs.length - 1) f (f + 1) s v (by omega) (Nat.le_refl _) (by omega) hh
      (SortedOn.trivial (Nat.le_refl _))) ?_
    rintro m s1 ⟨v1, hu1, h1, h2, h3⟩
    have w1 := hu1.wupd hw hh
    apply wp_bind
    refine wp_mono (hsort.use (by omega) w1.wf (hu1.holds.sub h1 (Nat.le_refl _))) ?_
    rintro _ s2 ⟨v2, hu2, h4⟩
    have w2 := hu2.widen hu1.holds h1 (Nat.le_refl _)
    refine wp_mono (inplaceMerge_spec hlt c hcat h1 (by omega) (fun _ => h2) w2.wf w2.holds ?_ h4) ?_
    · exact (h3.sub (Nat.le_refl _) (by omega)).congr fun i a b => (hu2.perm.out (by omega)).symm
    · rintro _ s3 ⟨v3, hu3, h5⟩
      exact ⟨v3, (w1.trans w2).trans (hu3.upd.wupd w2.wf w2.holds), h5⟩
  obtain ⟨_, s', h1, v', h2, h3⟩ := main
  refine h2.transforms (u := ()) ?_ ⟨?_, sortedOn_iff.1 h3⟩
  · rw [if_neg (by omega)]; exact h1
  · have := h2.perm.2; rwa [he] at this

theorem dropMergeSort_sorts (hlt : StrictWeak lt) (triv : Bool) {sorter : Nat → Nat → M α Unit}
    (hsort : Sorts lt sorter) : Sorts lt (dropMergeSort (tick lt) triv sorter) := by
  intro s f xs hw hs
  unfold dropMergeSort
  by_cases hlen : xs.length < 2
  · refine ⟨s, xs, ?_, rfl, hs, ⟨List.Perm.refl _, ?_⟩, fun _ _ => rfl, hw⟩
    · rw [if_pos (by omega)]; rfl
    · match xs, hlen with
      | [], _ => exact List.Pairwise.nil
      | [x], _ => exact List.pairwise_singleton _ _
  have hbrk := hs.below hw (by omega)
  have main : wp (do
      let base ← alloc (f + xs.length - f)
      finallyDo (do
        let (write, size) ← dropLoop (tick lt) triv f (f + xs.length) base f f 0 0
        if size = 0 then pure ()
        else
          sorter base (base + size)
          dropMerge (tick lt) triv f base size (f + xs.length) write) (free base (f + xs.length - f)))
      (fun _ s' => ∃ ys, ys.length = xs.length ∧ Seg s'.cell f ys ∧ (ys.Perm xs ∧ SortedList lt ys) ∧
        (∀ i, i < f ∨ f + xs.length ≤ i → s'.cell i = s.cell i) ∧ s'.WF) s := by
    rw [Nat.add_sub_cancel_left]
    apply wp_bind
    refine wp_alloc fun s1 b1 b2 b3 _ _ _ => ?_
    apply finallyDo_wp
    apply wp_bind
    have hinv : DropInv triv f s.brk xs.length s1 s1 [] [] [] xs := by
      constructor
      · exact Seg.nil
      · exact Seg.nil
      · simp only [List.length_nil, Nat.add_zero]
        exact hs.congr fun i h1 h2 => b2 i (by omega)
      · intro i h1 h2; simp at h1 h2; omega
      · intro _; exact Seg.nil
      · intro i h1 h2; simp at h1; exact b1 i (by omega) h2
      · simp
      · exact hbrk
      · intro _ _ _; rfl
      · rfl
    have hx : xs ≠ [] := by rintro rfl; simp at hlen
    refine wp_mono (dropLoop_spec hlt _ [] [] [] xs s1 (Nat.lt_succ_self _) hx hinv (by simp)
      List.Pairwise.nil) ?_
    rintro _ s2 ⟨W, D, g1, g2, g3, rfl⟩
    dsimp only
    simp only [List.nil_append] at g2
    have hl := g1.len
    have hlW := g2.length_eq
    simp only [List.length_append, List.length_nil, Nat.add_zero] at hl hlW
    -- the end of the block, from a state in which everything is in place
    have fin : ∀ (s4 : St α) (ys : List α), s4.WF → ys.length = xs.length → Seg s4.cell f ys →
        (∀ i, s.brk ≤ i → i < s.brk + xs.length → s4.cell i = .raw) →
        (∀ i, (i < f ∨ f + xs.length ≤ i) → (i < s.brk ∨ s.brk + xs.length ≤ i) → s4.cell i = s1.cell i) →
        ys.Perm xs → SortedList lt ys →
        wp (free s.brk xs.length) (fun _ s' => ∃ ys, ys.length = xs.length ∧ Seg s'.cell f ys ∧
          (ys.Perm xs ∧ SortedList lt ys) ∧
          (∀ i, i < f ∨ f + xs.length ≤ i → s'.cell i = s.cell i) ∧ s'.WF) s4 := by
      intro s4 ys k1 k2 k3 k4 k5 k6 k7
      refine wp_free k4 fun s5 c1 c2 c3 _ _ => ?_
      refine ⟨ys, k2, k3.congr fun i h1 h2 => c2 i (by omega), ⟨k6, k7⟩, fun i hi => ?_, fun i hi => ?_⟩
      · by_cases hb : s.brk ≤ i ∧ i < s.brk + xs.length
        · rw [c1 i hb.1 hb.2, hw i hb.1]
        · rw [c2 i (by omega), k5 i hi (by omega), b2 i (by omega)]
      · by_cases hb : s.brk ≤ i ∧ i < s.brk + xs.length
        · exact c1 i hb.1 hb.2
        · rw [c2 i (by omega)]
          exact k1 i (by rw [← St.env_brk c3]; exact hi)
    have hw2 : s2.WF := by
      intro i hi
      rw [St.env_brk g1.env, b3] at hi
      rw [g1.out i (by omega) (by omega), b2 i (by omega)]
      exact hw i (by omega)
    split
    · rename_i hD
      have hD : D = [] := List.eq_nil_of_length_eq_zero hD
      subst hD
      apply wp_pure
      refine fin s2 W hw2 (by omega) g1.segW ?_ ?_ ?_ g3
      · intro i h1 h2; exact g1.raw i (by simpa using h1) h2
      · intro i h1 h2; exact g1.out i h1 h2
      · simpa using g2
    · rename_i hD
      apply wp_bind
      have hsD := g1.segD
      rw [List.append_nil] at hsD
      refine wp_mono (hsort.run hw2 hsD rfl) ?_
      rintro _ s3 ⟨S, p1, p2, p3, p4, p5⟩
      have hlS := p1.length_eq
      have hm : DropMInv f s.brk xs.length s3 s3 W S [] := by
        constructor
        · exact g1.segW.congr fun i h1 h2 => p4 i (by omega)
        · exact p3
        · exact Seg.nil
        · intro i h1 h2
          unfold Live; rw [p4 i (by omega)]
          exact g1.gap i h1 (by simp only [List.length_nil]; omega)
        · intro i h1 h2
          rw [p4 i (by omega)]
          exact g1.raw i (by simp only [List.length_nil]; omega) h2
        · simp only [List.length_nil]; omega
        · exact hbrk
        · intro _ _ _; rfl
        · rfl
      have hS : S ≠ [] := by
        rintro rfl
        rw [List.length_nil] at hlS
        omega
      have g := dropMerge_spec hlt (triv := triv) S W [] s3 hS hm g3 p2 List.Pairwise.nil (by simp)
      rw [show f + W.length + S.length = f + xs.length by omega, hlS] at g
      refine wp_mono g ?_
      rintro _ s4 ⟨W', O', q1, q2, q3⟩
      have q4 := q1.len
      refine fin s4 (W' ++ O') ?_ ?_ ?_ ?_ ?_ ?_ q2
      · intro i hi
        rw [St.env_brk q1.env] at hi
        have hu := p5 i hi
        rw [← hu]
        refine q1.out i ?_ ?_
        · by_contra hc
          have : Live s3.cell i := by
            by_cases h1 : i < f + W.length
            · exact hm.segW.live (by omega) h1
            · exact hm.gap i (by omega) (by omega)
          rcases this with h | ⟨a, h⟩ <;> rw [hu] at h <;> cases h
        · by_contra hc
          by_cases h1 : i < s.brk + S.length
          · rcases hm.segS.live (i := i) (by omega) h1 with h | ⟨a, h⟩ <;> rw [hu] at h <;> cases h
          · have := hm.raw i (by omega) (by omega)
            rw [hu] at this; cases this
      · simp only [List.length_append, List.length_nil] at q4 ⊢; omega
      · rw [seg_append]
        exact ⟨q1.segW, by have := q1.segO; simpa using this⟩
      · intro i h1 h2; exact q1.raw i (by simpa using h1) h2
      · intro i h1 h2
        rw [q1.out i h1 h2, p4 i (by omega), g1.out i h1 h2]
      · simp only [List.append_nil] at q3
        exact q3.trans ((List.Perm.append_left _ p1).trans g2)
  obtain ⟨_, s', h1, ys, h2, h3, h4, h5, h6⟩ := main
  refine ⟨s', ys, ?_, h2, h3, h4, h5, h6⟩
  rw [if_neg (by omega)]
  exact h1

end CppSort
