import Verif.Proof.MannilaMop
set_option autoImplicit false

namespace CppSort
variable {α β : Type} {lt : α → α → Bool}

/-! ### mono -/

theorem blocks_sub : ∀ (bs : List (List α)) (xs : List α), xs.Sublist bs.flatten → (∀ b ∈ bs, Monotonic lt b) →
    ∃ bs' : List (List α), bs'.flatten = xs ∧ (∀ b ∈ bs', Monotonic lt b) ∧ bs'.length = bs.length := by
  intro bs
  induction bs with
  | nil => intro xs h _; exact ⟨[], (List.eq_nil_of_sublist_nil h).symm, by simp, rfl⟩
  | cons b bs ih =>
    intro xs h hm
    rw [List.flatten_cons] at h
    obtain ⟨l1, l2, rfl, h1, h2⟩ := List.sublist_append_iff.1 h
    obtain ⟨bs', e1, e2, e3⟩ := ih l2 h2 fun c hc => hm c (by simp [hc])
    refine ⟨l1 :: bs', by simp [e1], ?_, by simp [e3]⟩
    intro c hc
    rcases List.mem_cons.1 hc with rfl | hc
    · exact (hm b (by simp)).sublist h1
    · exact e2 c hc

theorem monotonic_push {g : β → α} {l : List β} :
    Monotonic lt (l.map g) ↔ Monotonic (fun x y => lt (g x) (g y)) l := by
  unfold Monotonic
  rw [sorted_map_push, List.pairwise_map]

theorem flatten_map_inv (g : β → α) : ∀ (bs : List (List α)) (l : List β), bs.flatten = l.map g →
    ∃ cs : List (List β), cs.flatten = l ∧ bs = cs.map (List.map g) := by
  intro bs
  induction bs with
  | nil => intro l h; exact ⟨[], by simpa using h.symm, rfl⟩
  | cons b bs ih =>
    intro l h
    rw [List.flatten_cons] at h
    obtain ⟨l1, l2, rfl, rfl, h2⟩ := List.map_eq_append_iff.1 h.symm
    obtain ⟨cs, rfl, rfl⟩ := ih l2 h2.symm
    exact ⟨l1 :: cs, rfl, rfl⟩

structure MonoPart (V : Meas) : Prop where
  valued : Mannila.Valued V
  zero : Mannila.Zero V
  iso : Mannila.Iso V
  sub : Mannila.Sub V
  cons : Mannila.Cons V

theorem mono_part {V : Meas} (h : Spec V fun _ lt xs r => MinCuts lt xs r) : MonoPart V where
  valued := h.valued
  zero := h.zero fun α _ lt hlt xs _ hs => MinCuts.whole (.inl hs)
  iso := h.iso fun α β lt g hlt l r hr => by
    obtain ⟨⟨bs, h1, h2, h3⟩, hm⟩ := hr
    refine ⟨⟨bs.map (List.map g), by rw [← h1, List.map_flatten], ?_, by simpa using h3⟩, ?_⟩
    · intro b hb
      obtain ⟨c, hc, rfl⟩ := List.mem_map.1 hb
      exact monotonic_push.2 (h2 c hc)
    · intro cs c1 c2 c3
      obtain ⟨ds, d1, rfl⟩ := flatten_map_inv g cs l c1
      have := hm ds d1 (fun b hb => monotonic_push.1 (c2 _ (List.mem_map_of_mem hb))) (by rintro rfl; exact c3 rfl)
      simpa using this
  sub := h.sub fun α lt hlt xs ys a b hd hs ha hb => by
    obtain ⟨⟨bs, h1, h2, h3⟩, -⟩ := hb
    obtain ⟨bs', e1, e2, e3⟩ := blocks_sub bs xs (h1 ▸ hs) h2
    have := ha.2 bs' e1 e2 (by rintro rfl; simp at e3; omega)
    omega
  cons := h.cons fun α lt hlt x xs a b hd ha hb => by
    have := hb.le hlt
    simp at this
    omega

/-! ### enc -/

/-- The lists of `L'` are at least as many as those of `L`, and each spans more than the list of the same age. -/
def EncSpans (lt : α → α → Bool) : List (α × α) → List (α × α) → Prop
  | [], _ => True
  | _ :: _, [] => False
  | a :: L, b :: L' => lt a.1 b.1 = false ∧ lt b.2 a.2 = false ∧ EncSpans lt L L'

theorem EncSpans.refl (hlt : StrictWeak lt) : ∀ L : List (α × α), EncSpans lt L L
  | [] => trivial
  | _ :: L => ⟨hlt.irrefl _, hlt.irrefl _, EncSpans.refl hlt L⟩

theorem EncSpans.length : ∀ {L L' : List (α × α)}, EncSpans lt L L' → L.length ≤ L'.length
  | [], _, _ => by simp
  | _ :: _, [], h => h.elim
  | _ :: L, _ :: L', h => by have := EncSpans.length h.2.2; simpa using this

theorem EncSpans.right (hlt : StrictWeak lt) (y : α) : ∀ {L L' : List (α × α)}, EncSpans lt L L' →
    EncSpans lt L (encroach lt y L')
  | [], _, _ => trivial
  | _ :: _, [], h => h.elim
  | a :: L, (h', t') :: L', ⟨h1, h2, h3⟩ => by
    rw [encroach]
    split
    · exact ⟨h1, hlt.le_trans h2 (by assumption), h3⟩
    · split
      · exact ⟨hlt.le_trans (by assumption) h1, h2, h3⟩
      · exact ⟨h1, h2, EncSpans.right hlt y h3⟩

theorem EncSpans.both (hlt : StrictWeak lt) (x : α) : ∀ {L L' : List (α × α)}, (∀ a ∈ L, lt a.2 a.1 = false) →
    (∀ a ∈ L', lt a.2 a.1 = false) → EncSpans lt L L' → EncSpans lt (encroach lt x L) (encroach lt x L')
  | [], [], _, _, _ => ⟨hlt.irrefl _, hlt.irrefl _, trivial⟩
  | [], (h', t') :: L', _, hv, _ => by
    have h0 : lt t' h' = false := hv (h', t') (by simp)
    rw [encroach, encroach]
    split
    · exact ⟨hlt.le_trans h0 (by assumption), hlt.irrefl _, trivial⟩
    · split
      · rename_i h1 h2
        exact ⟨hlt.irrefl _, hlt.asymm (by simpa using h1), trivial⟩
      · rename_i h1 h2
        exact ⟨hlt.asymm (by simpa using h2), hlt.asymm (by simpa using h1), trivial⟩
  | _ :: _, [], _, _, h => h.elim
  | (h, t) :: L, (h', t') :: L', hu, hv, ⟨h1, h2, h3⟩ => by
    have u0 : lt t h = false := hu (h, t) (by simp)
    have v0 : lt t' h' = false := hv (h', t') (by simp)
    have ih := EncSpans.both hlt x (fun a ha => hu a (by simp [ha])) (fun a ha => hv a (by simp [ha])) h3
    have ir := EncSpans.right hlt x h3
    dsimp only at h1 h2
    rw [encroach, encroach]
    by_cases e1 : lt x t' = false
    · have e2 : lt x t = false := hlt.le_trans h2 e1
      rw [if_pos e2, if_pos e1]
      exact ⟨h1, hlt.irrefl _, h3⟩
    · rw [if_neg e1]
      rw [Bool.not_eq_false] at e1
      by_cases e3 : lt h' x = false
      · rw [if_pos e3]
        have e4 : lt h x = false := hlt.le_trans e3 h1
        rw [if_pos e4]
        split
        · exact ⟨e4, hlt.asymm e1, h3⟩
        · exact ⟨hlt.irrefl _, h2, h3⟩
      · rw [if_neg e3]
        rw [Bool.not_eq_false] at e3
        split
        · exact ⟨h1, hlt.asymm e1, ir⟩
        · split
          · exact ⟨hlt.asymm e3, h2, ir⟩
          · exact ⟨h1, h2, ih⟩

theorem encSpans_sub (hlt : StrictWeak lt) {xs ys : List α} (h : xs.Sublist ys) : ∀ {L L' : List (α × α)},
    (∀ a ∈ L, lt a.2 a.1 = false) → (∀ a ∈ L', lt a.2 a.1 = false) → EncSpans lt L L' →
    EncSpans lt (xs.foldl (fun L x => encroach lt x L) L) (ys.foldl (fun L x => encroach lt x L) L') := by
  induction h with
  | slnil => exact fun _ _ h => h
  | cons a h ih => exact fun h1 h2 h3 => ih h1 (encroach_room hlt a _ h2).1 (h3.right hlt a)
  | cons_cons a h ih =>
    exact fun h1 h2 h3 => ih (encroach_room hlt a _ h1).1 (encroach_room hlt a _ h2).1 (h3.both hlt a h1 h2)

theorem encroach_push (g : β → α) (x : β) : ∀ L : List (β × β),
    encroach lt (g x) (L.map (Prod.map g g)) = (encroach (fun x y => lt (g x) (g y)) x L).map (Prod.map g g)
  | [] => rfl
  | (h, t) :: L => by
    rw [List.map_cons, Prod.map_apply, encroach, encroach]
    split
    · simp
    · split
      · simp
      · simp [encroach_push g x L]

theorem encroaching_push (g : β → α) (l : List β) :
    encroaching lt (l.map g) = (encroaching (fun x y => lt (g x) (g y)) l).map (Prod.map g g) := by
  unfold encroaching
  rw [List.foldl_map]
  generalize hL : ([] : List (β × β)) = L
  rw [show ([] : List (α × α)) = L.map (Prod.map g g) by rw [← hL]; rfl]
  clear hL
  induction l generalizing L with
  | nil => rfl
  | cons x l ih => rw [List.foldl_cons, List.foldl_cons, encroach_push, ih]

theorem encroaching_sorted (hlt : StrictWeak lt) {xs : List α} (h : SortedList lt xs) :
    (encroaching lt xs).length ≤ 1 := by
  cases xs with
  | nil => simp [encroaching]
  | cons x xs =>
    have key : ∀ (xs : List α) (h t : α), SortedList lt (t :: xs) →
        (xs.foldl (fun L x => encroach lt x L) [(h, t)]).length = 1 := by
      intro xs
      induction xs with
      | nil => intro h t _; rfl
      | cons y xs ih =>
        intro h t hs
        obtain ⟨h1, h2⟩ := List.pairwise_cons.1 hs
        rw [List.foldl_cons, encroach, if_pos (h1 y (by simp))]
        exact ih h y h2
    exact (key xs x x h).le

theorem enc_part {V : Meas} (h : Spec V fun _ lt xs r => r = (encroaching lt xs).length - 1) : MonoPart V where
  valued := h.valued
  zero := h.zero fun α _ lt hlt xs _ hs => by have := encroaching_sorted hlt hs; omega
  iso := h.iso fun α β lt g hlt l r hr => by rw [hr, encroaching_push, List.length_map]
  sub := h.sub fun α lt hlt xs ys a b hd hs ha hb => by
    have := (encSpans_sub hlt hs (L := []) (L' := []) (by simp) (by simp) trivial).length
    unfold encroaching at ha hb
    omega
  cons := h.cons fun α lt hlt x xs a b hd ha hb => by
    have := encroaching_le hlt (x :: xs)
    simp at this
    omega

/-! ### osc -/

theorem crossings_insert {P Q : List α} {x y : α} (hlt : StrictWeak lt) (h : eqv lt x y = false) :
    crossings lt (P ++ Q) x ≤ crossings lt (P ++ y :: Q) x := by
  unfold crossings
  rcases pairs_insert P y Q with ⟨p, h1, -⟩ | ⟨rfl, rfl⟩ | ⟨a, b, L, -, -, h1, h2⟩
  · rw [h1.countP_eq, List.countP_cons]; omega
  · simp
  · rw [h1.countP_eq, h2.countP_eq, List.countP_cons, List.countP_cons, List.countP_cons]
    have : between lt x (a, b) = true → between lt x (a, y) = true ∨ between lt x (y, b) = true := by
      unfold between
      simp only [Bool.or_eq_true, Bool.and_eq_true]
      intro hb
      rcases lt_or_of_ne h with e | e
      · rcases hb with ⟨h1, h2⟩ | ⟨h1, h2⟩
        · exact .inl (.inl ⟨h1, e⟩)
        · exact .inr (.inr ⟨h1, e⟩)
      · rcases hb with ⟨h1, h2⟩ | ⟨h1, h2⟩
        · exact .inr (.inl ⟨e, h2⟩)
        · exact .inl (.inr ⟨e, h2⟩)
    split
    · rename_i e
      rcases this e with e | e
      · rw [if_pos e]; omega
      · rw [if_pos e]; omega
    · omega

theorem sum_map_le' {f g : α → Nat} : ∀ {l : List α}, (∀ x ∈ l, f x ≤ g x) → (l.map f).sum ≤ (l.map g).sum
  | [], _ => by simp
  | x :: l, h => by
    have h1 := h x (by simp)
    have h2 := sum_map_le' (l := l) fun y hy => h y (by simp [hy])
    simp only [List.map_cons, List.sum_cons]
    omega

theorem oscOf_insert (hlt : StrictWeak lt) {P Q : List α} {y : α} (hd : Distinct lt (P ++ y :: Q)) :
    oscOf lt (P ++ Q) ≤ oscOf lt (P ++ y :: Q) := by
  unfold oscOf
  have h1 : ((P ++ Q).map (crossings lt (P ++ Q))).sum ≤ ((P ++ Q).map (crossings lt (P ++ y :: Q))).sum :=
    sum_map_le' fun x hx => crossings_insert hlt (hd.ne hx)
  have h2 : ((P ++ y :: Q).map (crossings lt (P ++ y :: Q))).sum =
      ((y :: (P ++ Q)).map (crossings lt (P ++ y :: Q))).sum := (List.perm_middle.map _).sum_eq
  rw [h2, List.map_cons, List.sum_cons]
  omega

theorem oscOf_push (g : β → α) (l : List β) : oscOf lt (l.map g) = oscOf (fun x y => lt (g x) (g y)) l := by
  unfold oscOf
  rw [List.map_map]
  congr 1
  refine List.map_congr_left fun x _ => ?_
  simp only [Function.comp, crossings]
  rw [← List.map_tail, List.zip_map, List.countP_map]
  rfl

theorem oscOf_sorted (hlt : StrictWeak lt) {xs : List α} (h : SortedList lt xs) : oscOf lt xs = 0 := by
  unfold oscOf
  have hp := List.pairwise_iff_getElem.1 h
  have : ∀ x ∈ xs, crossings lt xs x = 0 := by
    intro x hx
    obtain ⟨i, hi, rfl⟩ := List.getElem_of_mem hx
    unfold crossings
    rw [List.countP_eq_zero]
    intro p hp'
    obtain ⟨j, hj, rfl⟩ := List.getElem_of_mem hp'
    simp only [List.length_zip, List.length_tail] at hj
    simp only [List.getElem_zip, List.getElem_tail, between]
    have le : ∀ a b (ha : a < xs.length) (hb : b < xs.length), a ≤ b → lt xs[b] xs[a] = false := by
      intro a b ha hb hab
      rcases Nat.lt_or_eq_of_le hab with h | h
      · exact hp a b ha hb h
      · subst h; exact hlt.irrefl _
    have h0 := le j (j + 1) (by omega) (by omega) (by omega)
    by_cases hij : i ≤ j
    · have e1 := le i j hi (by omega) hij
      have e2 := le i (j + 1) hi (by omega) (by omega)
      simp [e1, e2]
    · have e1 := le (j + 1) i (by omega) hi (by omega)
      have e2 := le j i (by omega) hi (by omega)
      simp [e1, e2]
  rw [List.map_congr_left (g := fun _ => 0) this]
  simp

structure OscPart (V : Meas) : Prop where
  valued : Mannila.Valued V
  zero : Mannila.Zero V
  iso : Mannila.Iso V
  sub : Mannila.Sub V

theorem osc_part {V : Meas} (h : Spec V fun _ lt xs r => r = oscOf lt xs) : OscPart V where
  valued := h.valued
  zero := h.zero fun α _ lt hlt xs _ hs => (oscOf_sorted hlt hs).symm
  iso := h.iso fun α β lt g hlt l r hr => by rw [hr, oscOf_push]
  sub := h.sub fun α lt hlt xs ys a b hd hs ha hb => by
    rw [ha, hb]
    exact sublist_insert (F := fun l => oscOf lt xs ≤ oscOf lt l)
      (fun P y Q hd h => h.trans (oscOf_insert hlt hd)) hs hd (le_refl _)

/-! ### exc -/

theorem exch_push (g : β → α) (l : List β) (p : Nat × Nat) : exch (l.map g) p = (exch l p).map g := by
  unfold exch
  rw [List.getElem?_map, List.getElem?_map]
  cases l[p.1]? <;> cases l[p.2]? <;> simp [List.map_set]

theorem exchs_push (g : β → α) (ps : List (Nat × Nat)) : ∀ l : List β,
    ps.foldl exch (l.map g) = (ps.foldl exch l).map g := by
  induction ps with
  | nil => intro l; rfl
  | cons p ps ih => intro l; rw [List.foldl_cons, List.foldl_cons, exch_push, ih]

theorem exch_left (p : Nat × Nat) (xs ys : List α) : ∃ ps : List (Nat × Nat), ps.length ≤ 1 ∧
    ps.foldl exch (xs ++ ys) = exch xs p ++ ys := by
  obtain ⟨i, j⟩ := p
  by_cases h : i < xs.length ∧ j < xs.length
  · refine ⟨[(i, j)], by simp, ?_⟩
    simp only [List.foldl_cons, List.foldl_nil, exch]
    rw [List.getElem?_append_left h.1, List.getElem?_append_left h.2, List.getElem?_eq_getElem h.1,
      List.getElem?_eq_getElem h.2]
    simp only
    rw [List.set_append_left _ _ h.1, List.set_append_left _ _ (by simpa using h.2)]
  · exact ⟨[], by simp, by rw [exch_out h]; rfl⟩

theorem exch_right (p : Nat × Nat) (xs ys : List α) : ∃ ps : List (Nat × Nat), ps.length ≤ 1 ∧
    ps.foldl exch (xs ++ ys) = xs ++ exch ys p := by
  obtain ⟨i, j⟩ := p
  refine ⟨[(i + xs.length, j + xs.length)], by simp, ?_⟩
  simp only [List.foldl_cons, List.foldl_nil, exch]
  rw [List.getElem?_append_right (by omega), List.getElem?_append_right (by omega), Nat.add_sub_cancel,
    Nat.add_sub_cancel]
  cases ys[i]? <;> cases ys[j]? <;> simp only
  rw [List.set_append_right _ _ (by omega), List.set_append_right _ _ (by omega), Nat.add_sub_cancel,
    Nat.add_sub_cancel]

theorem exchs_left (ps : List (Nat × Nat)) : ∀ xs ys : List α, ∃ qs : List (Nat × Nat), qs.length ≤ ps.length ∧
    qs.foldl exch (xs ++ ys) = ps.foldl exch xs ++ ys := by
  induction ps with
  | nil => exact fun xs ys => ⟨[], by simp, rfl⟩
  | cons p ps ih =>
    intro xs ys
    obtain ⟨q1, h1, h2⟩ := exch_left p xs ys
    obtain ⟨q2, h3, h4⟩ := ih (exch xs p) ys
    exact ⟨q1 ++ q2, by simp; omega, by rw [List.foldl_append, h2, h4]; rfl⟩

theorem exchs_right (ps : List (Nat × Nat)) : ∀ xs ys : List α, ∃ qs : List (Nat × Nat), qs.length ≤ ps.length ∧
    qs.foldl exch (xs ++ ys) = xs ++ ps.foldl exch ys := by
  induction ps with
  | nil => exact fun xs ys => ⟨[], by simp, rfl⟩
  | cons p ps ih =>
    intro xs ys
    obtain ⟨q1, h1, h2⟩ := exch_right p xs ys
    obtain ⟨q2, h3, h4⟩ := ih xs (exch ys p)
    exact ⟨q1 ++ q2, by simp; omega, by rw [List.foldl_append, h2, h4]; rfl⟩

/-- `r` is the least number of exchanges that sort the sequence. -/
def ExcIs (lt : α → α → Bool) (xs : List α) (r : Nat) : Prop :=
  (∃ ps : List (Nat × Nat), ps.length = r ∧ SortedList lt (ps.foldl exch xs)) ∧ r ≤ xs.length - 1 ∧
  ∀ ps : List (Nat × Nat), SortedList lt (ps.foldl exch xs) → r ≤ ps.length

theorem ExcIs.unique {xs : List α} {r r' : Nat} (h : ExcIs lt xs r) (h' : ExcIs lt xs r') : r = r' := by
  obtain ⟨⟨ps, a, b⟩, -, c⟩ := h
  obtain ⟨⟨ps', a', b'⟩, -, c'⟩ := h'
  have := c _ b'
  have := c' _ b
  omega

structure ExcPart (V : Meas) : Prop where
  valued : Mannila.Valued V
  zero : Mannila.Zero V
  iso : Mannila.Iso V
  cat : Mannila.Cat V
  cons : Mannila.Cons V

theorem exc_part {V : Meas} (h : Spec V fun _ lt xs r => ExcIs lt xs r) : ExcPart V where
  valued := h.valued
  zero := h.zero fun α _ lt hlt xs _ hs => ⟨⟨[], rfl, hs⟩, by omega, fun _ _ => by omega⟩
  iso := h.iso fun α β lt g hlt l r hr => by
    obtain ⟨⟨ps, h1, h2⟩, h3, h4⟩ := hr
    refine ⟨⟨ps, h1, ?_⟩, by simpa using h3, fun qs hq => h4 qs ?_⟩
    · rw [exchs_push]; exact sorted_map_push.2 h2
    · rw [exchs_push] at hq; exact sorted_map_push.1 hq
  cat := h.cat fun α lt hlt xs ys a b c hd hs ha hb hc => by
    obtain ⟨⟨ps, p1, p2⟩, -, -⟩ := ha
    obtain ⟨⟨qs, q1, q2⟩, -, -⟩ := hb
    obtain ⟨rs, r1, r2⟩ := exchs_left ps xs ys
    obtain ⟨ts, t1, t2⟩ := exchs_right qs (ps.foldl exch xs) ys
    have := hc.2.2 (rs ++ ts) (by
      rw [List.foldl_append, r2, t2]
      exact List.pairwise_append.2 ⟨p2, q2, fun p hp q hq => hlt.asymm
        (hs p ((exchs_perm ps xs).mem_iff.1 hp) q ((exchs_perm qs ys).mem_iff.1 hq))⟩)
    simp at this
    omega
  cons := h.cons fun α lt hlt x xs a b hd ha hb => by
    have := hb.2.1
    simp at this
    omega

end CppSort
