import Verif.Proof.SpreadStr
/-
Spreadsort on strings: the loops and the recursion.
-/
set_option autoImplicit false

namespace CppSort
variable {α : Type}

/-! ### The offset -/

theorem take_of_take {x y : List Nat} {m n : Nat} (h : m ≤ n) (e : x.take n = y.take n) : x.take m = y.take m := by
  have := congrArg (List.take m) e
  rwa [List.take_take, List.take_take, Nat.min_eq_left h] at this

theorem updateOffsetLoop_spec {proj : α → List Nat} {first finish offset : Nat} {s : St α} {v : Nat → α}
    (hh : Holds s.cell first finish v) (hne : offset < (proj (v first)).length) :
    ∀ (A B C next step curr : Nat), (proj (v first)).length - next ≤ A → step ≤ B → finish - curr ≤ C → first ≤ curr → curr < finish →
    1 ≤ step → offset ≤ next →
    (∀ p, first ≤ p → p < finish → offset < (proj (v p)).length → next < (proj (v p)).length ∧
      (proj (v p)).take next = (proj (v first)).take next) →
    (∀ p, first ≤ p → p < curr → offset < (proj (v p)).length → next + step < (proj (v p)).length ∧
      (proj (v p)).take (next + step) = (proj (v first)).take (next + step)) →
    wp (updateOffsetLoop proj first finish offset next step curr) (fun r s' => s' = s ∧ offset ≤ r ∧
      ∀ p, first ≤ p → p < finish → offset < (proj (v p)).length → r < (proj (v p)).length ∧
        (proj (v p)).take r = (proj (v first)).take r) s := by
  intro A
  induction A with
  | zero =>
    intro B C next step curr h1 h2 h3 h4 h5 h6 h7 hall hcur
    have := (hall first (Nat.le_refl _) (by omega) hne).1
    omega
  | succ A ihA =>
    intro B
    induction B with
    | zero => intro C next step curr h1 h2 h3 h4 h5 h6 h7 hall hcur; omega
    | succ B ihB =>
      intro C
      induction C with
      | zero => intro next step curr h1 h2 h3 h4 h5 h6 h7 hall hcur; omega
      | succ C ihC =>
        intro next step curr h1 h2 h3 h4 h5 h6 h7 hall hcur
        have hf := (hall first (Nat.le_refl _) (by omega) hne).1
        rw [updateOffsetLoop]
        apply wp_bind
        refine wp_read hh h4 h5 ?_
        by_cases hx : offset < (proj (v curr)).length
        · rw [if_pos hx]
          obtain ⟨hl, ht⟩ := hall curr h4 h5 hx
          simp only []
          generalize hst : (if (proj (v curr)).length ≤ next + step then (proj (v curr)).length - next - 1 else step) = st
          have hst' : st ≤ step ∧ next + st < (proj (v curr)).length := by
            rw [← hst]; split <;> omega
          by_cases hret : (proj (v curr)).length ≤ next + step ∧ st < 1
          · rw [if_pos hret]
            exact wp_pure ⟨rfl, h7, hall⟩
          · rw [if_neg hret]
            have hst1 : 1 ≤ st := by
              by_cases hc : (proj (v curr)).length ≤ next + step
              · omega
              · rw [if_neg hc] at hst; omega
            apply wp_bind
            refine wp_read hh (Nat.le_refl _) (by omega) ?_
            have hfl : next + st < (proj (v first)).length := by
              by_cases hc : curr = first
              · rw [← hc]; exact hst'.2
              · have := (hcur first (Nat.le_refl _) (by omega) hne).1; omega
            rw [if_pos ⟨by omega, by omega⟩]
            have hcur' : ∀ st', st' ≤ step → ∀ p, first ≤ p → p < curr → offset < (proj (v p)).length →
                next + st' < (proj (v p)).length ∧ (proj (v p)).take (next + st') = (proj (v first)).take (next + st') := by
              intro st' hs p p1 p2 p3
              have := hcur p p1 p2 p3
              exact ⟨by omega, take_of_take (by omega) this.2⟩
            by_cases hd : ((proj (v curr)).drop next).take st ≠ ((proj (v first)).drop next).take st
            · rw [if_pos hd]
              by_cases h1s : st = 1
              · rw [if_pos h1s]
                exact wp_pure ⟨rfl, h7, hall⟩
              · rw [if_neg h1s]
                have hs4 : (if 4 < st then 4 else 1) < st ∧ 1 ≤ (if 4 < st then 4 else 1) := by split <;> omega
                generalize (if 4 < st then 4 else 1) = st' at *
                exact ihB _ next st' curr h1 (by omega) (Nat.le_refl _) h4 h5 hs4.2 h7 hall (hcur' st' (by omega))
            · rw [if_neg hd]
              have hcurr : (proj (v curr)).take (next + st) = (proj (v first)).take (next + st) := by
                rw [List.take_add, List.take_add, ht, not_not.1 hd]
              have hnew : ∀ p, first ≤ p → p < curr + 1 → offset < (proj (v p)).length →
                  next + st < (proj (v p)).length ∧ (proj (v p)).take (next + st) = (proj (v first)).take (next + st) := by
                intro p p1 p2 p3
                by_cases hc : p = curr
                · rw [hc]; exact ⟨hst'.2, hcurr⟩
                · exact hcur' st hst'.1 p p1 (by omega) p3
              by_cases hfin : curr + 1 = finish
              · rw [if_pos hfin]
                exact ihA _ _ (next + st) st first (by omega) (Nat.le_refl _) (Nat.le_refl _) (Nat.le_refl _) (by omega) hst1 (by omega)
                  (fun p p1 p2 => hnew p p1 (by omega)) (fun p p1 p2 => absurd p1 (by omega))
              · rw [if_neg hfin]
                exact ihC next st (curr + 1) h1 (by omega) (by omega) (by omega) (by omega) hst1 h7 hall hnew
        · rw [if_neg hx]
          have hnew : ∀ p, first ≤ p → p < curr + 1 → offset < (proj (v p)).length →
              next + step < (proj (v p)).length ∧ (proj (v p)).take (next + step) = (proj (v first)).take (next + step) := by
            intro p p1 p2 p3
            refine hcur p p1 ?_ p3
            by_contra hc
            rw [show p = curr by omega] at p3
            exact hx p3
          by_cases hfin : curr + 1 = finish
          · rw [if_pos hfin]
            exact ihA _ _ (next + step) step first (by omega) (Nat.le_refl _) (Nat.le_refl _) (Nat.le_refl _) (by omega) h6 (by omega)
              (fun p p1 p2 => hnew p p1 (by omega)) (fun p p1 p2 => absurd p1 (by omega))
          · rw [if_neg hfin]
            exact ihC next step (curr + 1) h1 h2 (by omega) (by omega) (by omega) h6 h7 hall hnew

theorem updateOffset_spec {w : Nat} (hw : 1 ≤ 64 / w) {proj : α → List Nat} {first finish offset : Nat} {s : St α} {v : Nat → α}
    (hh : Holds s.cell first finish v) (hff : first < finish) (hne : offset < (proj (v first)).length)
    (hall : ∀ p, first ≤ p → p < finish → (proj (v p)).take offset = (proj (v first)).take offset) :
    wp (updateOffset w proj first finish offset) (fun r s' => s' = s ∧ offset ≤ r ∧
      ∀ p, first ≤ p → p < finish → offset < (proj (v p)).length → r < (proj (v p)).length ∧
        (proj (v p)).take r = (proj (v first)).take r) s :=
  updateOffsetLoop_spec hh hne _ _ _ offset (64 / w) first (Nat.le_refl _) (Nat.le_refl _) (Nat.le_refl _) (Nat.le_refl _) hff hw (Nat.le_refl _)
    (fun p p1 p2 p3 => ⟨p3, hall p p1 p2⟩) (fun p p1 p2 => absurd p1 (by omega))

theorem skipEmpty_spec {proj : α → List Nat} {f l offset : Nat} {s : St α} {v : Nat → α} (hh : Holds s.cell f l v) :
    ∀ (m c : Nat), l - c = m → f ≤ c → c < l →
    wp (skipEmpty proj l offset c) (fun r s' => s' = s ∧ match r with
      | none => ∀ p, c ≤ p → p < l → (proj (v p)).length ≤ offset
      | some c' => c ≤ c' ∧ c' < l ∧ offset < (proj (v c')).length ∧ ∀ p, c ≤ p → p < c' → (proj (v p)).length ≤ offset) s := by
  intro m
  induction m with
  | zero => intro c h1 h2 h3; omega
  | succ m ih =>
    intro c h1 h2 h3
    rw [skipEmpty]
    apply wp_bind
    refine wp_read hh h2 h3 ?_
    by_cases he : (proj (v c)).length ≤ offset
    · rw [if_pos he]
      by_cases hl : c + 1 = l
      · rw [if_pos hl]
        refine wp_pure ⟨rfl, fun p p1 p2 => ?_⟩
        rw [show p = c by omega]; exact he
      · rw [if_neg hl]
        refine wp_mono (ih (c + 1) (by omega) (by omega) (by omega)) ?_
        rintro r s' ⟨rfl, hr⟩
        have one : ∀ p, c ≤ p → ¬ c + 1 ≤ p → (proj (v p)).length ≤ offset := fun p p1 p2 => by
          rw [show p = c by omega]; exact he
        match r, hr with
        | none, hr => exact ⟨rfl, fun p p1 p2 => if hc : c + 1 ≤ p then hr p hc p2 else one p p1 hc⟩
        | some c', hr =>
          exact ⟨rfl, by omega, hr.2.1, hr.2.2.1, fun p p1 p2 => if hc : c + 1 ≤ p then hr.2.2.2 p hc p2 else one p p1 hc⟩
    · rw [if_neg he]
      exact wp_pure ⟨rfl, Nat.le_refl _, h3, by omega, fun p p1 p2 => absurd p1 (by omega)⟩

theorem skipEmptyBack_spec {proj : α → List Nat} {f l offset c : Nat} {s : St α} {v : Nat → α} (hh : Holds s.cell f l v)
    (hfc : f ≤ c) (hc : offset < (proj (v c)).length) : ∀ (m e : Nat), e - c = m → c < e → e ≤ l →
    wp (skipEmptyBack proj offset e) (fun r s' => s' = s ∧ c < r ∧ r ≤ e ∧ ∀ p, r ≤ p → p < e → (proj (v p)).length ≤ offset) s := by
  intro m
  induction m with
  | zero => intro e h1 h2 h3; omega
  | succ m ih =>
    intro e h1 h2 h3
    rw [skipEmptyBack, if_neg (by omega)]
    apply wp_bind
    refine wp_read hh (show f ≤ e - 1 by omega) (by omega) ?_
    by_cases he : (proj (v (e - 1))).length ≤ offset
    · rw [if_pos he]
      have hne : e - 1 ≠ c := fun h => by rw [h] at he; omega
      refine wp_mono (ih (e - 1) (by omega) (by omega) (by omega)) ?_
      rintro r s' ⟨rfl, r1, r2, r3⟩
      refine ⟨rfl, r1, by omega, fun p p1 p2 => ?_⟩
      by_cases hp : p < e - 1
      · exact r3 p p1 hp
      · rw [show p = e - 1 by omega]; exact he
    · rw [if_neg he]
      exact wp_pure ⟨rfl, h2, Nat.le_refl _, fun p p1 p2 => absurd p1 (by omega)⟩

/-! ### The bins -/

theorem strBin_fn (rv : Bool) {n : Nat} (proj : α → List Nat) (o f l : Nat) :
    BinFn (fun x => strCode rv n o (proj x)) (fun x => ∀ c ∈ proj x, c < n) (fun _ => False) f l (strBin rv n proj o) := by
  intro s v p hh h1 h2 hP _
  unfold strBin
  apply wp_bind
  refine wp_read hh h1 h2 ?_
  cases e : (proj (v p))[o]? with
  | none => exact wp_pure ⟨by simp only [strCode, e], rfl⟩
  | some c =>
    simp only []
    rw [if_pos (hP c (List.mem_of_getElem? e))]
    exact wp_pure ⟨by simp only [strCode, e], rfl⟩

theorem strCharBin_fn (rv : Bool) {n : Nat} (proj : α → List Nat) (o f l : Nat) :
    BinFn (fun x => strCode rv n o (proj x)) (fun x => ∀ c ∈ proj x, c < n) (fun b => b = emptyBin rv n) f l (strCharBin rv n proj o) := by
  intro s v p hh h1 h2 hP hK
  unfold strCharBin
  apply wp_bind
  refine wp_read hh h1 h2 ?_
  cases e : (proj (v p))[o]? with
  | none => exact absurd (by simp only [strCode, e]) hK
  | some c =>
    simp only []
    rw [if_pos (hP c (List.mem_of_getElem? e))]
    exact wp_pure ⟨by simp only [strCode, e], rfl⟩

theorem spreadSwap2_spec {B : α → Nat} {P : α → Prop} {K : Nat → Prop} {n f l : Nat} {lo hi : Nat → Nat}
    (hr : BinRgn n f l lo hi) {bin : Nat → M α Nat} (hbin : BinFn B P K f l bin) :
    SwapsFn B P K n f l lo hi (spreadSwap2 bin) := by
  have main : ∀ (m : Nat) (s : St α) (v : Nat → α) (bins : Nat → Nat) (u p : Nat), binsLeft n hi (upd bins u p) ≤ m →
    Holds s.cell f l v → (∀ i, f ≤ i → i < l → P (v i)) → u < n → ¬ K u →
    p < hi u → (∀ b, b < n → K b → bins b = hi b) → BinZones B n f l lo hi v (upd bins u p) →
    wp (spreadSwap2 bin u p bins) (fun bins' s' => ∃ (v' : Nat → α), Upd f l s s' v v' ∧ BinZones B n f l lo hi v' (upd bins' u p) ∧
      bins' u = bins u ∧ (∀ b, b < n → bins b ≤ bins' b) ∧ B (v' p) = u) s := by
    intro m
    induction m with
    | zero =>
      intro s v bins u p hm hh hP hu huK hlt hK hz
      have := binsLeft_upd (n := n) (hi := hi) (cur := upd bins u p) hu (by rw [upd_eq rfl]; exact hlt)
      omega
    | succ m ih =>
      intro s v bins u p hm hh hP hu huK hlt hK hz
      have hsu := hr.sub u hu
      have hlu := hz.ge u hu
      rw [upd_eq rfl] at hlu
      have hnk := notK hz hr (upd_full huK hK) hu huK hlu hlt
      rw [spreadSwap2]
      apply wp_bind
      refine wp_mono (hbin s v p hh (by omega) (by omega) (hP p (by omega) (by omega)) hnk) ?_
      rintro t s1 ⟨rfl, rfl⟩
      by_cases he : B (v p) = u
      · rw [if_pos he]
        exact wp_pure ⟨v, Upd.refl hh, hz, rfl, fun _ _ => Nat.le_refl _, he⟩
      · rw [if_neg he]
        obtain ⟨g1, g2, g3, g4⟩ := hz.step hr hu (upd_eq rfl) hlt he
        have hd := binsLeft_upd (n := n) (hi := hi) g1 g3
        generalize ht : B (v p) = t at *
        rw [upd_ne he] at g2 g3 g4 hd
        rw [upd_comm _ _ _ (fun h => he h.symm)] at g4 hd
        have hst := hr.sub t g1
        have hmono1 : ∀ b, bins b ≤ upd bins t (bins t + 1) b := by
          intro b
          by_cases eb : b = t
          · rw [upd_eq eb, eb]; omega
          · rw [upd_ne eb]
        apply wp_bind
        refine wp_swap hh ⟨by omega, by omega⟩ ⟨by omega, by omega⟩ fun s2 hu2 => ?_
        refine wp_mono (ih s2 _ _ u p (by omega) hu2.holds (hu2.perm.forall hP) hu huK hlt (upd_full hnk hK) g4) ?_
        rintro bins' s' ⟨v', q1, q2, q3, q4, q5⟩
        refine ⟨v', hu2.trans q1, q2, ?_, fun b hb => Nat.le_trans (hmono1 b) (q4 b hb), q5⟩
        rw [q3, upd_ne (Ne.symm he)]
  intro s v bins u p
  exact main _ s v bins u p (Nat.le_refl _)

theorem lastBin_spec (sizes : Nat → Nat) (k : Nat) : ∀ m, lastBin sizes k m ≤ m ∧ ∀ i, lastBin sizes k m < i → i ≤ m → sizes (i + k) = 0 := by
  intro m
  induction m with
  | zero => exact ⟨Nat.le_refl _, fun i h1 h2 => by rw [lastBin] at h1; omega⟩
  | succ m ih =>
    rw [lastBin]
    split
    · rename_i h
      refine ⟨by omega, fun i h1 h2 => ?_⟩
      by_cases hi : i = m + 1
      · rw [hi]; exact h
      · exact ih.2 i h1 (by omega)
    · exact ⟨Nat.le_refl _, fun i h1 h2 => by omega⟩

/-! ### Sorting the bins -/

theorem strParts_spec {lt : α → α → Bool} {rv : Bool} {w : Nat} {proj : α → List Nat} {bl : Bool} {o : Nat} {bins rank E : Nat → Nat}
    {T : Nat → α → Prop} {f l n : Nat}
    (hE : ∀ i j, i ≤ j → E i ≤ E j) (hf : E 0 = f) (hl : E n = l)
    (hT : ∀ i i' x y, i < i' → i' < n → T i x → T i' y → lt y x = false) :
    ∀ (k j : Nat) (s : St α) (v : Nat → α), j + k ≤ n → Holds s.cell f l v →
    (∀ i, j ≤ i → i < j + k → bins (rank i) = E (i + 1)) →
    (∀ i, j ≤ i → i < j + k → ∀ (s : St α) (v : Nat → α), Holds s.cell (E i) (E (i + 1)) v →
      (∀ p, E i ≤ p → p < E (i + 1) → T i (v p)) → 2 ≤ E (i + 1) - E i →
      wp (if E (i + 1) - E i < 256 ^ w then
          pdqsort (tick fun x y => offsetLess rv (o + 1) (proj x) (proj y)) bl (E i) (E (i + 1))
        else strSortRec rv w proj bl (E i) (E (i + 1)) (o + 1))
        (fun _ s' => ∃ v', Upd (E i) (E (i + 1)) s s' v v' ∧ SortedOn lt (E i) (E (i + 1)) v') s) →
    (∀ i, i < n → ∀ p, E i ≤ p → p < E (i + 1) → T i (v p)) → SortedOn lt f (E j) v →
    wp (strParts rv w proj bl o bins ((List.range' j k).map rank) (E j)) (fun _ s' => ∃ (v' : Nat → α),
      Upd f l s s' v v' ∧ SortedOn lt f (E (j + k)) v') s := by
  intro k
  induction k with
  | zero =>
    intro j s v hjn hh hb hrec hTv hso
    rw [List.range'_zero, List.map_nil, strParts]
    exact wp_pure ⟨v, Upd.refl hh, hso⟩
  | succ k ih =>
    intro j s v hjn hh hb hrec hTv hso
    rw [List.range'_succ, List.map_cons, strParts]
    simp only [hb j (Nat.le_refl _) (by omega)]
    have e1 := hE j (j + 1) (by omega)
    have e0 := hE 0 j (by omega)
    have e2 := hE (j + 1) n (by omega)
    have key : ∀ (s' : St α) (v' : Nat → α), Upd (E j) (E (j + 1)) s s' v v' → SortedOn lt (E j) (E (j + 1)) v' →
        Holds s'.cell f l v' ∧ (∀ i, i < n → ∀ p, E i ≤ p → p < E (i + 1) → T i (v' p)) ∧ SortedOn lt f (E (j + 1)) v' := by
      intro s' v' hu hs
      have hT' : ∀ i, i < n → ∀ p, E i ≤ p → p < E (i + 1) → T i (v' p) := by
        intro i hi p p1 p2
        by_cases hij : i = j
        · subst hij
          exact hu.perm.forall (P := T i) (hTv i hi) p p1 p2
        · have : p < E j ∨ E (j + 1) ≤ p := by
            rcases Nat.lt_or_gt_of_ne hij with h | h
            · have := hE (i + 1) j (by omega); omega
            · have := hE (j + 1) i (by omega); omega
          rw [hu.perm.1 p this]
          exact hTv i hi p p1 p2
      refine ⟨(hu.widen hh (by omega) (by omega)).holds, hT', ?_⟩
      refine SortedOn.join (m := E j) (hso.congr fun i a b => (hu.perm.1 i (Or.inl b)).symm) hs fun i j' a b c d => ?_
      have hf' : ∀ m, m ≤ j → f ≤ i → i < E m → ∃ q, q < m ∧ E q ≤ i ∧ i < E (q + 1) := by
        intro m
        induction m with
        | zero => intro _ h1 h2; omega
        | succ m ihm =>
          intro hm h1 h2
          by_cases h : i < E m
          · obtain ⟨q, q1, q2⟩ := ihm (by omega) h1 h
            exact ⟨q, by omega, q2⟩
          · exact ⟨m, by omega, by omega, h2⟩
      obtain ⟨q, q1, q2, q3⟩ := hf' j (Nat.le_refl _) a b
      exact hT q j _ _ q1 (by omega) (hT' q (by omega) i q2 q3) (hT' j (by omega) j' c d)
    have rest : ∀ (s' : St α) (v' : Nat → α), Upd (E j) (E (j + 1)) s s' v v' → SortedOn lt (E j) (E (j + 1)) v' →
        wp (strParts rv w proj bl o bins ((List.range' (j + 1) k).map rank) (E (j + 1))) (fun _ s' => ∃ (v' : Nat → α),
          Upd f l s s' v v' ∧ SortedOn lt f (E (j + (k + 1))) v') s' := by
      intro s' v' hu hs
      obtain ⟨g1, g2, g3⟩ := key s' v' hu hs
      refine wp_mono (ih (j + 1) s' v' (by omega) g1 (fun i a b => hb i (by omega) (by omega))
        (fun i a b => hrec i (by omega) (by omega)) g2 g3) ?_
      rintro r s'' ⟨v'', r2, r3⟩
      rw [show j + 1 + k = j + (k + 1) by omega] at r3
      exact ⟨v'', (hu.widen hh (by omega) (by omega)).trans r2, r3⟩
    by_cases hc : E (j + 1) - E j < 2
    · rw [if_pos hc]
      exact rest s v (Upd.refl (hh.sub (by omega) (by omega))) (SortedOn.trivial (by omega))
    · rw [if_neg hc]
      have hone := hrec j (Nat.le_refl _) (by omega) s v (hh.sub (by omega) (by omega)) (hTv j (by omega)) (by omega)
      by_cases hm : E (j + 1) - E j < 256 ^ w
      · rw [if_pos hm] at hone ⊢
        apply wp_bind
        refine wp_mono hone ?_
        rintro _ s' ⟨v', hu, hs⟩
        exact rest s' v' hu hs
      · rw [if_neg hm] at hone ⊢
        apply wp_bind
        refine wp_mono hone ?_
        rintro _ s' ⟨v', hu, hs⟩
        exact rest s' v' hu hs

/-- What the elements of a range satisfy when their bins are computed: `t0` is the common beginning up to `o`, and the strings that have a
character at `o` have the common beginning `t1` up to `r`, and a character there. -/
def StrTied (proj : α → List Nat) (n o r m : Nat) (t0 t1 : List Nat) (x : α) : Prop :=
  (∀ c ∈ proj x, c < n) ∧ o ≤ (proj x).length ∧ (proj x).length ≤ m ∧ (proj x).take o = t0 ∧
    (o < (proj x).length → r < (proj x).length ∧ (proj x).take r = t1)

/-- Strings that end at the common beginning are not greater than the others. -/
theorem lexN_short {o : Nat} {x e : List Nat} (h : x.take o = e.take o) (he : e.length ≤ o) : lexN x e = false := by
  rw [lexN_drop h, List.drop_eq_nil_of_le he, lexN_nil_right]

theorem strPass_spec {rv : Bool} {w : Nat} {proj : α → List Nat} {bl : Bool} {n o r m : Nat} {t0 t1 : List Nat} (hn : n = 256 ^ w) (hor : o ≤ r)
    {F L : Nat} (hFL : F ≤ L) {s : St α} {v : Nat → α} (hh : Holds s.cell F L v)
    (hP : ∀ p, F ≤ p → p < L → StrTied proj n o r m t0 t1 (v p))
    (hrec : ∀ (s : St α) (f l : Nat) (v : Nat → α), f < l → Holds s.cell f l v →
      (∀ p, f ≤ p → p < l → (∀ c ∈ proj (v p), c < n) ∧ r + 1 ≤ (proj (v p)).length ∧ (proj (v p)).length ≤ m) →
      (∀ p q, f ≤ p → p < l → f ≤ q → q < l → (proj (v p)).take (r + 1) = (proj (v q)).take (r + 1)) →
      wp (strSortRec rv w proj bl f l (r + 1)) (fun _ s' => ∃ v', Upd f l s s' v v' ∧ SortedOn (strLt rv proj) f l v') s) :
    wp (do
        let sizes ← countBins (strBin rv n proj r) L F (fun _ => 0)
        let bins := binStart id sizes F
        let lastFull := if rv then bins n else L
        let e := emptyBin rv n
        let next := if rv then L else F + sizes 0
        let bins ← spreadBin (spreadSwap2 (strBin rv n proj r)) e next (bins e) bins
        let k := if rv then 0 else 1
        let b := lastBin sizes k (n - 1)
        let bins ← spreadBins (spreadSwap2 (strCharBin rv n proj r)) sizes (List.range' k b) (if rv then F else next) bins
        let bins := upd bins (b + k) lastFull
        strParts rv w proj bl r bins (List.range' k (b + 1)) (if rv then F else bins 0))
      (fun _ s' => ∃ v', Upd F L s s' v v' ∧ ∃ a b, F ≤ a ∧ a ≤ b ∧ b ≤ L ∧ SortedOn (strLt rv proj) a b v' ∧
        (if rv then a = F else b = L) ∧
        (∀ p, F ≤ p → p < a → (proj (v' p)).length ≤ o) ∧ (∀ p, b ≤ p → p < L → (proj (v' p)).length ≤ o)) s := by
  have hn0 : 0 < n := by rw [hn]; exact Nat.pow_pos (by omega)
  apply wp_bind
  refine wp_mono (countBins_spec (strBin_fn rv proj r F L) hh (fun p p1 p2 => (hP p p1 p2).1) _ F _ rfl (Nat.le_refl _) hFL) ?_
  rintro sizes s1 ⟨rfl, hc⟩
  simp only [Nat.zero_add] at hc
  have hrk : RankOK (n + 1) id := fun b hb => ⟨hb, rfl⟩
  have hcode : ∀ p, F ≤ p → p < L → strCode rv n r (proj (v p)) < n + 1 := fun p p1 p2 => strCode_lt (hP p p1 p2).1
  have hlast := binEdge_last (B := fun x => strCode rv n r (proj x)) hrk (fun b _ => hc b) hcode hFL
  obtain ⟨hrg, hz⟩ := binLayout (B := fun x => strCode rv n r (proj x)) hrk (fun b _ => hc b) hcode hFL
  generalize hE : binEdge id sizes F = E at *
  have hlo : ∀ b, binStart id sizes F b = E b := fun b => by rw [← hE]; rfl
  have hhi : ∀ b, E b + sizes b = E (b + 1) := fun b => by
    rw [← hE]; unfold binEdge; rw [byteOffset]; simp only [id]; omega
  have hE0 : E 0 = F := by rw [← hE]; rfl
  have hEm : ∀ i j, i ≤ j → E i ≤ E j := fun i j h => by rw [← hE]; exact binEdge_mono h
  have hbs : binStart id sizes F = E := funext hlo
  rw [hbs] at hrg hz ⊢
  have hbe : (fun b => E b + sizes b) = fun b => E (b + 1) := funext hhi
  rw [hbe] at hrg hz
  -- the empty strings
  have hen : emptyBin rv n < n + 1 := by unfold emptyBin; split <;> omega
  have hnext : (if rv = true then L else F + sizes 0) = E (emptyBin rv n + 1) := by
    unfold emptyBin
    cases rv
    · simp only [Bool.false_eq_true, if_false]; rw [← hhi 0, hE0]
    · simp only [if_true]; exact hlast.symm
  apply wp_bind
  refine wp_mono (spreadBin_full hrg (spreadSwap2_spec hrg (strBin_fn rv proj r F L)) hnext hh (fun p p1 p2 => (hP p p1 p2).1) hen
    (fun h => h) (fun _ _ h => h.elim) hz) ?_
  rintro bins1 s2 ⟨v1, hu1, hz1, hf1, hfull1⟩
  have hP1 := hu1.perm.forall hP
  simp only []
  -- the characters
  generalize hk : (if rv = true then 0 else 1) = k
  have hkn : k ≤ 1 := by rw [← hk]; split <;> omega
  obtain ⟨hb1, hb2⟩ := lastBin_spec sizes k (n - 1)
  generalize lastBin sizes k (n - 1) = b at *
  have hke : ∀ i, i < n → k + i < n + 1 ∧ k + i ≠ emptyBin rv n := by
    intro i hi
    unfold emptyBin
    rw [← hk]
    split <;> omega
  have hstart : (if rv = true then F else if rv = true then L else F + sizes 0) = E k := by
    rw [← hk]
    cases rv
    · simp only [Bool.false_eq_true, if_false]; rw [← hhi 0, hE0]
    · simp only [if_true]; exact hE0.symm
  rw [hstart]
  have hmap : ∀ m, List.range' k m = (List.range' 0 m).map (fun i => k + i) := by
    intro m
    exact (List.map_add_range' (a := k) 0 m 1).symm
  have hacc : AccEnds sizes (fun b => E (b + 1)) (List.range' k b) (E k) := by
    rw [hmap]
    exact accEnds_range (rank := fun i => k + i) (n := b) (E := fun i => E (k + i)) (fun j hj => ⟨rfl, hhi (k + j)⟩) b 0 (by omega)
  rw [spreadBins_eq _ _ _ hacc]
  apply wp_bind
  refine wp_mono (spreadEnds_spec hrg (spreadSwap2_spec hrg (strCharBin_fn rv proj r F L)) _ s2 v1 bins1 hu1.holds
    (fun p p1 p2 => (hP1 p p1 p2).1) ?_ ?_ hz1) ?_
  · intro u hu
    rw [List.mem_range'_1] at hu
    have := hke (u - k) (by omega)
    rw [show k + (u - k) = u by omega] at this
    exact ⟨this.1, this.2, rfl⟩
  · rintro b' hb' rfl
    exact hf1
  rintro bins2 s3 ⟨v2, hu2, hz2, hfull2⟩
  have hP2 := hu2.perm.forall hP1
  have hzero : ∀ i, b < i → i < n → sizes (i + k) = 0 := fun i h1 h2 => hb2 i h1 (by omega)
  have hcases : ∀ b', b' < n + 1 → b' = emptyBin rv n ∨ ∃ i, i < n ∧ b' = k + i := by
    intro b' hb'
    unfold emptyBin
    rw [← hk]
    cases rv
    · simp only [Bool.false_eq_true, if_false]
      by_cases h : b' = 0
      · exact .inl h
      · exact .inr ⟨b' - 1, by omega, by omega⟩
    · simp only [if_true]
      by_cases h : b' = n
      · exact .inl h
      · exact .inr ⟨b', by omega, by omega⟩
  have hblocks := hz2.blocks hrg (k + b) fun b' hb' hne => by
    rcases hcases b' hb' with h | ⟨i, hi, rfl⟩
    · exact hfull2 b' hb' (.inl (by rw [h]; exact hf1))
    · by_cases hib : i < b
      · exact hfull2 _ hb' (.inr (by rw [List.mem_range'_1]; omega))
      · refine hfull2 _ hb' (.inl (hfull1 _ hb' ?_))
        have := hzero i (by omega) hi
        have h2 := hhi (k + i)
        rw [Nat.add_comm i k] at this
        omega
  -- the end of the last block
  have hEnd : ∀ i, b ≤ i → i < n → E (k + i + 1) = E (k + b + 1) := by
    intro i
    induction i with
    | zero => intro h1 _; rw [show b = 0 by omega]
    | succ i ih =>
      intro h1 h2
      by_cases h : b = i + 1
      · rw [h]
      · have := hzero (i + 1) (by omega) h2
        rw [← ih (by omega) (by omega), show k + (i + 1) + 1 = k + i + 1 + 1 by omega, ← hhi, show k + i + 1 = i + 1 + k by omega, this]
        omega
  have hEn := hEnd (n - 1) hb1 (by omega)
  rw [show k + (n - 1) + 1 = k + n by omega] at hEn
  have hlf : (if rv = true then E n else L) = E (k + b + 1) := by
    rw [← hEn, ← hk]
    cases rv
    · simp only [Bool.false_eq_true, if_false]; rw [Nat.add_comm, hlast]
    · simp only [if_true, Nat.zero_add]
  rw [hlf]
  have hfullk : ∀ i, i ≤ b → upd bins2 (b + k) (E (k + b + 1)) (k + i) = E (k + i + 1) := by
    intro i hi
    by_cases h : i = b
    · rw [upd_eq (by omega), h]
    · rw [upd_ne (by omega)]
      exact hfull2 _ (hke i (by omega)).1 (.inr (by rw [List.mem_range'_1]; omega))
  have hpos : (if rv = true then F else upd bins2 (b + k) (E (k + b + 1)) 0) = E k := by
    rw [← hk]
    cases rv
    · simp only [Bool.false_eq_true, if_false]
      rw [upd_ne (by omega), hfull2 0 (by omega) (.inl hf1)]
    · simp only [if_true]; exact hE0.symm
  rw [hpos, hmap]
  have hEb : E (k + b + 1) ≤ L := by rw [← hlast]; exact hEm _ _ (by omega)
  have hEk : F ≤ E k := by rw [← hE0]; exact hEm _ _ (by omega)
  have hkb := hEm k (k + b + 1) (by omega)
  -- what the elements of the blocks of characters satisfy
  have hT2 : ∀ i, i < b + 1 → ∀ p, E (k + i) ≤ p → p < E (k + i + 1) →
      StrTied proj n o r m t0 t1 (v2 p) ∧ strCode rv n r (proj (v2 p)) = k + i := by
    intro i hi p p1 p2
    have h1 := hEm k (k + i) (by omega)
    have h2 := hEm (k + i + 1) (k + b + 1) (by omega)
    exact ⟨hP2 p (by omega) (by omega), hblocks _ (hke i (by omega)).1 p p1 p2⟩
  have hlong : ∀ i x, i < b + 1 → StrTied proj n o r m t0 t1 x ∧ strCode rv n r (proj x) = k + i →
      r < (proj x).length ∧ (proj x).take r = t1 := by
    rintro i x hi ⟨h1, h2⟩
    refine h1.2.2.2.2 ?_
    by_contra hc
    have := (strCode_empty (rv := rv) (o := r) h1.1).2 (by omega)
    exact (hke i (by omega)).2 (by rw [← h2, this])
  refine wp_mono (strParts_spec (lt := strLt rv proj) (f := E k) (l := E (k + b + 1)) (E := fun i => E (k + i)) (n := b + 1)
    (T := fun i x => StrTied proj n o r m t0 t1 x ∧ strCode rv n r (proj x) = k + i)
    (fun i j h => hEm _ _ (by omega)) rfl rfl ?_ (b + 1) 0 s3 v2 (by omega) (hu2.holds.sub (by omega) (by omega)) (fun i _ h => hfullk i (by omega)) ?_
    hT2 (SortedOn.trivial (by show E (k + 0) ≤ E k + 1; rw [Nat.add_zero]; omega))) ?_
  · intro i i' x y h1 h2 hx hy
    refine strCode_cross (o := r) hx.1.1 hy.1.1 ?_ (by rw [hx.2, hy.2]; omega)
    rw [(hlong i x (by omega) hx).2, (hlong i' y (by omega) hy).2]
  · intro i _ hi s' v' hh' hT' hc'
    have hsame : ∀ p q, E (k + i) ≤ p → p < E (k + i + 1) → E (k + i) ≤ q → q < E (k + i + 1) →
        (proj (v' p)).take (r + 1) = (proj (v' q)).take (r + 1) := by
      intro p q p1 p2 q1 q2
      have hp := hT' p p1 p2
      have hq := hT' q q1 q2
      exact (strCode_same (rv := rv) hp.1.1 hq.1.1 (by rw [(hlong i _ (by omega) hp).2, (hlong i _ (by omega) hq).2]) (by rw [hp.2, hq.2])
        (hlong i _ (by omega) hp).1).2
    show wp (if E (k + i + 1) - E (k + i) < _ then _ else _) _ _
    have hc'' : 2 ≤ E (k + i + 1) - E (k + i) := hc'
    by_cases hm : E (k + i + 1) - E (k + i) < 256 ^ w
    · rw [if_pos hm]
      refine wp_mono (pdqsort_spec (offsetLess_sw rv proj (r + 1)) bl (by show E (k + i) ≤ E (k + i + 1); omega) hh') ?_
      rintro _ s'' ⟨v'', hu, hso⟩
      refine ⟨v'', hu, fun p q p1 p2 p3 => ?_⟩
      have hT'' := hu.perm.forall (P := fun x => (StrTied proj n o r m t0 t1 x ∧ strCode rv n r (proj x) = k + i)) hT'
      have hp := hT'' p p1 (by omega)
      have hq := hT'' q (by omega) p3
      have hs := strCode_same (rv := rv) hp.1.1 hq.1.1 (by rw [(hlong i _ (by omega) hp).2, (hlong i _ (by omega) hq).2]) (by rw [hp.2, hq.2])
        (hlong i _ (by omega) hp).1
      have : offsetLess rv (r + 1) (proj (v'' q)) (proj (v'' p)) = false := hso p q p1 p2 p3
      rw [offsetLess_same rv (by omega) (by have := (hlong i _ (by omega) hp).1; omega) hs.2.symm] at this
      exact this
    · rw [if_neg hm]
      refine hrec s' _ _ v' (by show E (k + i) < E (k + i + 1); omega) hh' (fun p p1 p2 => ?_) hsame
      have hp := hT' p p1 p2
      exact ⟨hp.1.1, (hlong i _ (by omega) hp).1, hp.1.2.2.1⟩
  · rintro _ s4 ⟨v3, hu3, hso3⟩
    have hu3' := hu3.widen hu2.holds (show F ≤ E k by omega) hEb
    refine ⟨v3, (hu1.trans hu2).trans hu3', E k, E (k + b + 1), hEk, hkb, hEb, by rwa [Nat.zero_add] at hso3, ?_, ?_, ?_⟩
    · cases rv
      · rw [if_neg (by simp), ← hlf, if_neg (by simp)]
      · rw [if_pos rfl, ← hk, if_pos rfl, hE0]
    · intro p p1 p2
      rw [hu3.perm.1 p (.inl p2)]
      have hT := hP2 p p1 (by omega)
      have he : strCode rv n r (proj (v2 p)) = emptyBin rv n := by
        cases rv
        · rw [if_neg (by simp)] at hk
          rw [← hk] at p2
          exact hblocks 0 (by omega) p (by rw [hE0]; exact p1) p2
        · rw [if_pos rfl] at hk
          rw [← hk, hE0] at p2
          omega
      have := (strCode_empty hT.1).1 he
      by_contra hc
      have := (hT.2.2.2.2 (by omega)).1
      omega
    · intro p p1 p2
      rw [hu3.perm.1 p (.inr p1)]
      have hT := hP2 p (by omega) p2
      have he : strCode rv n r (proj (v2 p)) = emptyBin rv n := by
        cases rv
        · rw [if_neg (by simp)] at hlf
          omega
        · rw [if_pos rfl] at hlf
          exact hblocks n (by omega) p (by omega) (by rw [hlast]; exact p2)
      have := (strCode_empty hT.1).1 he
      by_contra hc
      have := (hT.2.2.2.2 (by omega)).1
      omega

theorem strSortRec_spec {rv : Bool} {w : Nat} (hw : 1 ≤ 64 / w) {proj : α → List Nat} {bl : Bool} :
    ∀ (D : Nat) (s : St α) (f l o : Nat) (v : Nat → α), f < l → Holds s.cell f l v →
      (∀ p, f ≤ p → p < l → (∀ c ∈ proj (v p), c < 256 ^ w) ∧ o ≤ (proj (v p)).length ∧ (proj (v p)).length ≤ o + D) →
      (∀ p q, f ≤ p → p < l → f ≤ q → q < l → (proj (v p)).take o = (proj (v q)).take o) →
      wp (strSortRec rv w proj bl f l o) (fun _ s' => ∃ v', Upd f l s s' v v' ∧ SortedOn (strLt rv proj) f l v') s := by
  intro D
  induction D with
  | zero =>
    intro s f l o v hfl hh hP ht
    rw [strSortRec]
    apply wp_bind
    refine wp_mono (skipEmpty_spec hh _ f rfl (Nat.le_refl _) hfl) ?_
    rintro r s1 ⟨rfl, hr⟩
    match r, hr with
    | none, hr =>
      refine wp_pure ⟨v, Upd.refl hh, fun i j h1 h2 h3 => ?_⟩
      have e := ht i j h1 (by omega) (by omega) h3
      unfold strLt strLess
      split
      · exact lexN_short e (hr j (by omega) h3)
      · exact lexN_short e.symm (hr i h1 (by omega))
    | some c, hr =>
      have := (hP c hr.1 hr.2.1).2.2
      omega
  | succ D ih =>
    intro s f l o v hfl hh hP ht
    rw [strSortRec]
    apply wp_bind
    refine wp_mono (skipEmpty_spec hh _ f rfl (Nat.le_refl _) hfl) ?_
    rintro r s1 ⟨rfl, hr⟩
    match r, hr with
    | none, hr =>
      refine wp_pure ⟨v, Upd.refl hh, fun i j h1 h2 h3 => ?_⟩
      have e := ht i j h1 (by omega) (by omega) h3
      unfold strLt strLess
      split
      · exact lexN_short e (hr j (by omega) h3)
      · exact lexN_short e.symm (hr i h1 (by omega))
    | some c, hr =>
      obtain ⟨c1, c2, c3, c4⟩ := hr
      simp only []
      apply wp_bind
      refine wp_mono (skipEmptyBack_spec hh c1 c3 _ l rfl c2 (Nat.le_refl _)) ?_
      rintro fin s2 ⟨rfl, d1, d2, d3⟩
      apply wp_bind
      refine wp_mono (updateOffset_spec hw (hh.sub c1 d2) d1 c3 fun p p1 p2 => ht p c (by omega) (by omega) c1 c2) ?_
      rintro r s3 ⟨rfl, e1, e2⟩
      have hFL : f ≤ (if rv = true then f else c) ∧ (if rv = true then f else c) ≤ (if rv = true then fin else l) ∧
          (if rv = true then fin else l) ≤ l ∧ (if rv = true then f else c) ≤ c ∧ fin ≤ (if rv = true then fin else l) ∧
          (rv = true ∧ (if rv = true then f else c) = f ∨ rv = false ∧ (if rv = true then fin else l) = l) := by
        cases rv
        · rw [if_neg (by simp), if_neg (by simp)]
          exact ⟨c1, by omega, Nat.le_refl _, Nat.le_refl _, d2, .inr ⟨rfl, rfl⟩⟩
        · rw [if_pos rfl, if_pos rfl]
          exact ⟨Nat.le_refl _, by omega, d2, c1, Nat.le_refl _, .inl ⟨rfl, rfl⟩⟩
      have hF4 : ∀ p, f ≤ p → p < (if rv = true then f else c) → (proj (v p)).length ≤ o := fun p p1 p2 => c4 p p1 (by replace g6 := hFL.2.2.2.1; clear hFL; omega)
      have hL4 : ∀ p, (if rv = true then fin else l) ≤ p → p < l → (proj (v p)).length ≤ o := fun p p1 p2 => d3 p (by replace g6 := hFL.2.2.2.2.1; clear hFL; omega) p2
      generalize (if rv = true then f else c) = F at *
      generalize (if rv = true then fin else l) = L at *
      obtain ⟨g1, g2, g3, g4, g5, g6⟩ := hFL
      refine wp_mono (strPass_spec (n := 256 ^ w) (o := o) (r := r) (m := o + (D + 1)) (t0 := (proj (v c)).take o) (t1 := (proj (v c)).take r)
        rfl e1 g2 (hh.sub g1 g3) (fun p p1 p2 => ?_) (fun s f l v hfl hh hP ht => ?_)) ?_
      · obtain ⟨h1, h2, h3⟩ := hP p (by omega) (by omega)
        refine ⟨h1, h2, h3, ht p c (by omega) (by omega) c1 c2, fun h4 => ?_⟩
        have hp1 : c ≤ p := by
          by_contra hc
          have := c4 p (by omega) (by omega)
          omega
        have hp2 : p < fin := by
          by_contra hc
          have := d3 p (by omega) (by omega)
          omega
        exact e2 p hp1 hp2 h4
      · exact ih s f l (r + 1) v hfl hh (fun p p1 p2 => by
          obtain ⟨h1, h2, h3⟩ := hP p p1 p2
          exact ⟨h1, h2, by omega⟩) ht
      · rintro _ s' ⟨v', hu, a, b, k1, k2, k3, k4, k5, k6, k7⟩
        have hu' := hu.widen hh g1 g3
        have hbt : ∀ p, f ≤ p → p < l → (proj (v' p)).take o = (proj (v c)).take o :=
          hu'.perm.forall (P := fun x => (proj x).take o = (proj (v c)).take o) fun p p1 p2 => ht p c p1 p2 c1 c2
        have hA : ∀ p, f ≤ p → p < a → (proj (v' p)).length ≤ o := by
          intro p p1 p2
          by_cases h : p < F
          · rw [hu.perm.1 p (.inl h)]; exact hF4 p p1 h
          · exact k6 p (by omega) p2
        have hB : ∀ p, b ≤ p → p < l → (proj (v' p)).length ≤ o := by
          intro p p1 p2
          by_cases h : p < L
          · exact k7 p p1 h
          · rw [hu.perm.1 p (.inr (by omega))]; exact hL4 p (by omega) p2
        refine ⟨v', hu', ?_⟩
        cases rv
        · rw [if_neg (by simp)] at k5
          have hlL : L = l := by
            rcases g6 with h | h
            · exact absurd h.1 (by simp)
            · exact h.2
          subst hlL
          subst k5
          refine SortedOn.join (m := a) (fun i j h1 h2 h3 => ?_) k4 (fun i j h1 h2 h3 h4 => ?_)
          · exact lexN_short (by rw [hbt _ (by omega) (by omega), hbt _ (by omega) (by omega)]) (hA i h1 (by omega))
          · exact lexN_short (by rw [hbt _ (by omega) (by omega), hbt _ (by omega) (by omega)]) (hA i h1 h2)
        · rw [if_pos rfl] at k5
          have hfF : F = f := by
            rcases g6 with h | h
            · exact h.2
            · exact absurd h.1 (by simp)
          subst hfF
          subst k5
          refine SortedOn.join (m := b) k4 (fun i j h1 h2 h3 => ?_) (fun i j h1 h2 h3 h4 => ?_)
          · exact lexN_short (by rw [hbt _ (by omega) (by omega), hbt _ (by omega) (by omega)]) (hB j (by omega) h3)
          · exact lexN_short (by rw [hbt _ (by omega) (by omega), hbt _ (by omega) (by omega)]) (hB j h3 h4)

theorem stringSpreadSort_spec {rv : Bool} {w : Nat} (hw : 1 ≤ 64 / w) {proj : α → List Nat} {bl : Bool} {s : St α} {f l : Nat} {v : Nat → α}
    (hfl : f ≤ l) (hh : Holds s.cell f l v) (hP : ∀ p, f ≤ p → p < l → ∀ c ∈ proj (v p), c < 256 ^ w) :
    wp (stringSpreadSort rv w proj bl f l) (fun _ s' => ∃ v', Upd f l s s' v v' ∧ SortedOn (strLt rv proj) f l v') s := by
  unfold stringSpreadSort
  by_cases h : l - f < 1000
  · rw [if_pos h]
    exact pdqsort_spec (strLt_sw rv proj) bl hfl hh
  · rw [if_neg h]
    obtain ⟨D, hD⟩ : ∃ D, ∀ p, f ≤ p → p < l → (proj (v p)).length ≤ D := by
      have : ∀ m, ∃ D, ∀ p, f ≤ p → p < f + m → (proj (v p)).length ≤ D := by
        intro m
        induction m with
        | zero => exact ⟨0, fun p p1 p2 => by omega⟩
        | succ m ih =>
          obtain ⟨D, hD⟩ := ih
          refine ⟨max D (proj (v (f + m))).length, fun p p1 p2 => ?_⟩
          by_cases hp : p < f + m
          · have := hD p p1 hp; omega
          · rw [show p = f + m by omega]; omega
      obtain ⟨D, hD⟩ := this (l - f)
      exact ⟨D, fun p p1 p2 => hD p p1 (by omega)⟩
    refine strSortRec_spec hw D s f l 0 v (by omega) hh (fun p p1 p2 => ⟨hP p p1 p2, Nat.zero_le _, ?_⟩) (fun p q _ _ _ _ => rfl)
    have := hD p p1 p2
    omega

end CppSort
