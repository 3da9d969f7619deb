import Verif.Proof.ProbesSeq
set_option autoImplicit false

namespace CppSort
variable {α β γ : Type} {lt : α → α → Bool}

/-! ### enc -/

/-- One element of the construction of the encroaching lists (given by their two ends, the oldest list
first): the element goes to the oldest list it can extend at one of its ends, and opens a new list if
there is none. -/
def encroach (lt : α → α → Bool) (x : α) : List (α × α) → List (α × α)
  | [] => [(x, x)]
  | (h, t) :: L =>
    if lt x t = false then (h, x) :: L
    else if lt h x = false then (x, t) :: L
    else (h, t) :: encroach lt x L

/-- The encroaching lists of a sequence. -/
def encroaching (lt : α → α → Bool) (xs : List α) : List (α × α) :=
  xs.foldl (fun L x => encroach lt x L) []

/-- The ends are nested strictly. -/
structure Nested (lt : α → α → Bool) (L : List (α × α)) : Prop where
  nested : L.Pairwise (fun a b => lt a.1 b.1 = true ∧ lt b.2 a.2 = true)
  ends : ∀ a ∈ L, lt a.2 a.1 = false

theorem encroach_set : ∀ {L : List (α × α)} {p : Nat} {x : α} {q : α × α},
    (hp : p < L.length) → (∀ i (hi : i < p), lt x (L[i]'(by omega)).2 = true ∧ lt (L[i]'(by omega)).1 x = true) →
    (lt x L[p].2 = false ∧ q = (L[p].1, x) ∨ lt x L[p].2 = true ∧ lt L[p].1 x = false ∧ q = (x, L[p].2)) →
    encroach lt x L = L.set p q := by
  intro L
  induction L with
  | nil => intro p x q hp; simp at hp
  | cons a L ih =>
    intro p x q hp hlo hq
    obtain ⟨h, t⟩ := a
    rw [encroach]
    cases p with
    | zero =>
      simp only [List.getElem_cons_zero] at hq
      rcases hq with ⟨h1, rfl⟩ | ⟨h1, h2, rfl⟩
      · rw [if_pos h1]; rfl
      · rw [if_neg (by simp [h1]), if_pos h2]; rfl
    | succ p =>
      have h0 := hlo 0 (by omega)
      simp only [List.getElem_cons_zero] at h0
      rw [if_neg (by simp [h0.1]), if_neg (by simp [h0.2]), List.set_cons_succ]
      rw [ih (p := p) (q := q) (by simpa using hp) (fun i hi => by simpa using hlo (i + 1) (by omega)) (by simpa using hq)]

theorem encroach_new : ∀ {L : List (α × α)} {x : α},
    (∀ a ∈ L, lt x a.2 = true ∧ lt a.1 x = true) → encroach lt x L = L ++ [(x, x)] := by
  intro L
  induction L with
  | nil => intro x _; rfl
  | cons a L ih =>
    intro x h
    obtain ⟨h', t⟩ := a
    have h0 := h (h', t) (by simp)
    rw [encroach, if_neg (by simp [h0.1]), if_neg (by simp [h0.2]), ih fun a ha => h a (by simp [ha])]
    rfl

/-- An index map of the lists of iterators to the lists of values. -/
def EncRel (xs : List α) (L : List (Nat × Nat)) (V : List (α × α)) : Prop :=
  L.length = V.length ∧ ∀ i (h : i < L.length) (h' : i < V.length),
    xs[L[i].1]? = some V[i].1 ∧ xs[L[i].2]? = some V[i].2

theorem EncRel.set {xs : List α} {L : List (Nat × Nat)} {V : List (α × α)} (h : EncRel xs L V) {p : Nat}
    {a : Nat × Nat} {b : α × α} (h1 : xs[a.1]? = some b.1) (h2 : xs[a.2]? = some b.2) :
    EncRel xs (L.set p a) (V.set p b) := by
  refine ⟨by simp [h.1], fun i hi hi' => ?_⟩
  rw [List.getElem_set, List.getElem_set]
  by_cases e : p = i
  · rw [if_pos e, if_pos e]; exact ⟨h1, h2⟩
  · rw [if_neg e, if_neg e]; exact h.2 i (by simpa using hi) (by simpa using hi')

theorem EncRel.push {xs : List α} {L : List (Nat × Nat)} {V : List (α × α)} (h : EncRel xs L V)
    {a : Nat × Nat} {b : α × α} (h1 : xs[a.1]? = some b.1) (h2 : xs[a.2]? = some b.2) :
    EncRel xs (L ++ [a]) (V ++ [b]) := by
  refine ⟨by simp [h.1], fun i hi hi' => ?_⟩
  have := h.1
  rw [List.getElem_append, List.getElem_append]
  by_cases e : i < L.length
  · rw [dif_pos e, dif_pos (by omega)]; exact h.2 i e (by omega)
  · rw [dif_neg e, dif_neg (by omega)]
    simp only [List.getElem_singleton]
    exact ⟨h1, h2⟩

theorem Nested.set (hlt : StrictWeak lt) {V : List (α × α)} (h : Nested lt V) {p : Nat} (hp : p < V.length) {q : α × α}
    (h1 : lt V[p].1 q.1 = false) (h2 : lt q.2 V[p].2 = false)
    (hlo : ∀ i (hi : i < p), lt (V[i]'(by omega)).1 q.1 = true ∧ lt q.2 (V[i]'(by omega)).2 = true)
    (hq : lt q.2 q.1 = false) : Nested lt (V.set p q) := by
  refine ⟨?_, ?_⟩
  · refine List.pairwise_iff_getElem.2 fun i j hi hj hij => ?_
    simp only [List.length_set] at hi hj
    have hn := (List.pairwise_iff_getElem.1 h.nested) i j hi hj hij
    rw [List.getElem_set, List.getElem_set]
    by_cases e1 : p = i
    · subst e1
      rw [if_pos rfl, if_neg (by omega)]
      exact ⟨hlt.lt_of_le_of_lt h1 hn.1, hlt.lt_of_lt_of_le hn.2 h2⟩
    · rw [if_neg e1]
      by_cases e2 : p = j
      · subst e2
        rw [if_pos rfl]
        exact hlo i hij
      · rw [if_neg e2]; exact hn
  · intro a ha
    rcases List.mem_or_eq_of_mem_set ha with h' | rfl
    · exact h.ends a h'
    · exact hq

theorem encLoop_runs (hlt : StrictWeak lt) {xs : List α} : ∀ (n first : Nat) (L : List (Nat × Nat))
    (V : List (α × α)), first + n = xs.length → EncRel xs L V → Nested lt V → 0 < V.length →
    Runs (encLoop (tick lt) xs first L) (fun L' =>
      L'.length = ((xs.drop first).foldl (fun L x => encroach lt x L) V).length) := by
  intro n
  induction n with
  | zero =>
    intro first L V hn hr hv h0
    rw [encLoop, if_neg (by omega)]
    refine Runs.pure ?_
    rw [List.drop_of_length_le (by omega)]
    exact hr.1
  | succ n ih =>
    intro first L V hn hr hv h0
    have hf : first < xs.length := by omega
    have hl := hr.1
    have hg := hr.2
    rw [encLoop, if_pos (by omega), List.drop_eq_getElem_cons hf, List.foldl_cons]
    refine Runs.nthBind (List.getElem?_eq_getElem hf) ?_
    have hL : L.length - 1 < L.length := by omega
    have hV : L.length - 1 < V.length := by omega
    refine Runs.nthBind (List.getElem?_eq_getElem hL) ?_
    refine Runs.nthBind (hg _ hL hV).2 ?_
    refine Runs.tickBind ?_
    generalize hx : xs[first] = x
    have hxf : xs[first]? = some x := by rw [List.getElem?_eq_getElem hf, hx]
    -- the last list is the innermost one
    have hin : ∀ i (hi : i < V.length), i = L.length - 1 ∨
        (lt V[i].1 (V[L.length - 1]).1 = true ∧ lt (V[L.length - 1]).2 V[i].2 = true) := by
      intro i hi
      by_cases e : i = L.length - 1
      · exact .inl e
      · exact .inr ((List.pairwise_iff_getElem.1 hv.nested) i _ hi hV (by omega))
    refine Runs.ite (fun hc => ?_) fun hc => ?_
    · refine Runs.nthBind (hg _ hL hV).1 ?_
      refine Runs.tickBind ?_
      refine Runs.ite (fun hd => ?_) fun hd => ?_
      · have hall : ∀ a ∈ V, lt x a.2 = true ∧ lt a.1 x = true := by
          intro a ha
          obtain ⟨i, hi, rfl⟩ := List.getElem_of_mem ha
          rcases hin i hi with e | ⟨e1, e2⟩
          · subst e; exact ⟨hc, hd⟩
          · exact ⟨hlt.trans _ _ _ hc e2, hlt.trans _ _ _ e1 hd⟩
        rw [encroach_new hall]
        refine ih (first + 1) _ _ (by omega) (hr.push hxf hxf) ?_ (by simp)
        refine ⟨?_, ?_⟩
        · refine List.pairwise_append.2 ⟨hv.nested, List.pairwise_singleton _ _, fun a ha b hb => ?_⟩
          rw [List.mem_singleton.1 hb]
          exact (hall a ha).symm
        · intro a ha
          rcases List.mem_append.1 ha with h1 | h1
          · exact hv.ends a h1
          · rw [List.mem_singleton.1 h1]; exact hlt.irrefl _
      · have hd : lt (V[L.length - 1]).1 x = false := by simpa using hd
        refine (lowerBoundBy_runs (P := fun i => if hi : i < V.length then lt V[i].1 x else false)
          (L.length - 1) 0 (L.length - 1) rfl fun i _ hi => ?_).bind fun p hp => ?_
        · have hi1 : i < L.length := by omega
          have hi2 : i < V.length := by omega
          refine Runs.nthBind (List.getElem?_eq_getElem hi1) ?_
          refine Runs.nthBind (hg i hi1 hi2).1 ?_
          refine Runs.tick.mono fun r hr => ?_
          rw [hr, dif_pos hi2]
        · obtain ⟨-, p2, p3, p4⟩ := hp
          simp only [Nat.zero_add] at p2 p3 p4
          have hp1 : p < L.length := by omega
          have hp2 : p < V.length := by omega
          have hat : lt V[p].1 x = false := by
            by_cases e : p = L.length - 1
            · subst e; exact hd
            · have := p3 (by omega)
              rwa [dif_pos hp2] at this
          have hlo : ∀ i (hi : i < p), lt (V[i]'(by omega)).1 x = true := by
            intro i hi
            have := p4 (by omega)
            rw [dif_pos (show p - 1 < V.length by omega)] at this
            by_cases e : i = p - 1
            · subst e; exact this
            · exact hlt.trans _ _ _ ((List.pairwise_iff_getElem.1 hv.nested) i (p - 1) (by omega)
                (by omega) (by omega)).1 this
          have hxt : ∀ i (hi : i < V.length), lt x V[i].2 = true := by
            intro i hi
            rcases hin i hi with e | ⟨_, e2⟩
            · subst e; exact hc
            · exact hlt.trans _ _ _ hc e2
          refine Runs.nthBind (List.getElem?_eq_getElem hp1) ?_
          rw [encroach_set hp2 (q := (x, V[p].2)) (fun i hi => ⟨hxt i (by omega), hlo i hi⟩)
            (.inr ⟨hxt p hp2, hat, rfl⟩)]
          refine ih (first + 1) _ _ (by omega) (hr.set hxf (hg p hp1 hp2).2) ?_ (by simpa using h0)
          refine hv.set hlt hp2 hat (hlt.irrefl _) (fun i hi => ⟨hlo i hi, ?_⟩) (hlt.asymm (hxt p hp2))
          exact ((List.pairwise_iff_getElem.1 hv.nested) i p (by omega) hp2 hi).2
    · have hc : lt x (V[L.length - 1]).2 = false := by simpa using hc
      refine (lowerBoundBy_runs (P := fun i => if hi : i < V.length then lt x V[i].2 else false)
        (L.length - 1) 0 (L.length - 1) rfl fun i _ hi => ?_).bind fun p hp => ?_
      · have hi1 : i < L.length := by omega
        have hi2 : i < V.length := by omega
        refine Runs.nthBind (List.getElem?_eq_getElem hi1) ?_
        refine Runs.nthBind (hg i hi1 hi2).2 ?_
        refine Runs.tick.mono fun r hr => ?_
        rw [hr, dif_pos hi2]
      · obtain ⟨-, p2, p3, p4⟩ := hp
        simp only [Nat.zero_add] at p2 p3 p4
        have hp1 : p < L.length := by omega
        have hp2 : p < V.length := by omega
        have hat : lt x V[p].2 = false := by
          by_cases e : p = L.length - 1
          · subst e; exact hc
          · have := p3 (by omega)
            rwa [dif_pos hp2] at this
        have hlo : ∀ i (hi : i < p), lt x (V[i]'(by omega)).2 = true := by
          intro i hi
          have := p4 (by omega)
          rw [dif_pos (show p - 1 < V.length by omega)] at this
          by_cases e : i = p - 1
          · subst e; exact this
          · exact hlt.trans _ _ _ this ((List.pairwise_iff_getElem.1 hv.nested) i (p - 1) (by omega)
              (by omega) (by omega)).2
        -- the element is not below the end of the innermost list, hence above the other ends
        have hxh : ∀ i (hi : i < V.length), i ≠ L.length - 1 → lt V[i].1 x = true := by
          intro i hi hne
          rcases hin i hi with e | ⟨e1, _⟩
          · exact absurd e hne
          · exact hlt.lt_of_lt_of_le e1 (hlt.le_trans (hv.ends _ (List.getElem_mem hV)) hc)
        refine Runs.nthBind (List.getElem?_eq_getElem hp1) ?_
        rw [encroach_set hp2 (q := (V[p].1, x)) (fun i hi => ⟨hlo i hi, hxh i (by omega) (by omega)⟩)
          (.inl ⟨hat, rfl⟩)]
        refine ih (first + 1) _ _ (by omega) (hr.set (hg p hp1 hp2).1 hxf) ?_ (by simpa using h0)
        refine hv.set hlt hp2 (hlt.irrefl _) hat (fun i hi => ⟨?_, hlo i hi⟩) ?_
        · exact ((List.pairwise_iff_getElem.1 hv.nested) i p (by omega) hp2 hi).1
        · exact hlt.le_trans (hv.ends V[p] (List.getElem_mem hp2)) hat

theorem probeEnc_runs (hlt : StrictWeak lt) (xs : List α) :
    Runs (probeEnc (tick lt) xs) (fun r => r = (encroaching lt xs).length - 1) := by
  unfold probeEnc
  refine Runs.ite (fun h => Runs.pure ?_) fun h => ?_
  · match xs, h with
    | [], _ => rfl
    | [_], _ => rfl
    | _ :: _ :: _, h => simp at h
  · match xs, h with
    | [], h => simp at h
    | x :: xs, h =>
      refine (encLoop_runs hlt xs.length 1 [(0, 0)] [(x, x)] (by simp; omega) ?_ ?_ (by simp)).bind
        fun L hL => Runs.pure ?_
      · refine ⟨rfl, fun i hi _ => ?_⟩
        have : i = 0 := by simpa using hi
        subst this
        simp
      · exact ⟨List.pairwise_singleton _ _, by simp [hlt.irrefl]⟩
      · rw [hL]; rfl

/-- Room taken by the lists: every list but the last one has two elements. -/
def encRoom (lt : α → α → Bool) : List (α × α) → Nat
  | [] => 0
  | (h, t) :: L => (if lt h t = true then 2 else 1) + encRoom lt L

theorem encroach_room (hlt : StrictWeak lt) (x : α) : ∀ (L : List (α × α)),
    (∀ a ∈ L, lt a.2 a.1 = false) →
    (∀ a ∈ encroach lt x L, lt a.2 a.1 = false) ∧
    encRoom lt (encroach lt x L) ≤ encRoom lt L + 1 ∧
    (2 * L.length ≤ encRoom lt L + 1 → 2 * (encroach lt x L).length ≤ encRoom lt (encroach lt x L) + 1) := by
  intro L
  induction L with
  | nil => intro _; simp [encroach, encRoom, hlt.irrefl]
  | cons a L ih =>
    obtain ⟨h, t⟩ := a
    intro hv
    have h0 : lt t h = false := hv (h, t) (by simp)
    have hv' : ∀ a ∈ L, lt a.2 a.1 = false := fun a ha => hv a (by simp [ha])
    obtain ⟨i1, i2, i3⟩ := ih hv'
    rw [encroach]
    have mono : ∀ h' t', lt h h' = false → lt t' t = false → lt h t = true → lt h' t' = true :=
      fun h' t' a b c => hlt.lt_of_lt_of_le (hlt.lt_of_le_of_lt a c) b
    split
    · rename_i hc
      have m := mono h x (hlt.irrefl _) hc
      refine ⟨?_, ?_, ?_⟩
      · intro a ha
        rcases List.mem_cons.1 ha with rfl | ha
        · exact hlt.le_trans h0 hc
        · exact hv' a ha
      · simp only [encRoom]; split <;> split <;> omega
      · simp only [encRoom, List.length_cons]
        split
        · rename_i e; rw [if_pos (m e)]; exact id
        · split <;> omega
    · split
      · rename_i hd
        have m := mono x t hd (hlt.irrefl _)
        refine ⟨?_, ?_, ?_⟩
        · intro a ha
          rcases List.mem_cons.1 ha with rfl | ha
          · exact hlt.le_trans hd h0
          · exact hv' a ha
        · simp only [encRoom]; split <;> split <;> omega
        · simp only [encRoom, List.length_cons]
          split
          · rename_i e; rw [if_pos (m e)]; exact id
          · split <;> omega
      · rename_i hc hd
        have e : lt h t = true :=
          hlt.trans _ _ _ (by simpa using hd) (by simpa using hc)
        refine ⟨?_, ?_, ?_⟩
        · intro a ha
          rcases List.mem_cons.1 ha with rfl | ha
          · exact h0
          · exact i1 a ha
        · simp only [encRoom]; omega
        · simp only [encRoom, List.length_cons, if_pos e]
          intro h
          have := i3 (by omega)
          omega

theorem encroaching_le (hlt : StrictWeak lt) (xs : List α) :
    (encroaching lt xs).length ≤ (xs.length + 1) / 2 := by
  have key : ∀ (xs : List α) (L : List (α × α)), (∀ a ∈ L, lt a.2 a.1 = false) →
      2 * L.length ≤ encRoom lt L + 1 →
      2 * (xs.foldl (fun L x => encroach lt x L) L).length ≤ encRoom lt L + xs.length + 1 := by
    intro xs
    induction xs with
    | nil => intro L _ h; simpa using h
    | cons x xs ih =>
      intro L h1 h2
      obtain ⟨a, b, c⟩ := encroach_room hlt x L h1
      have := ih _ a (c h2)
      simp only [List.foldl_cons, List.length_cons]
      omega
  have := key xs [] (by simp) (by simp)
  simp only [encRoom] at this
  unfold encroaching
  omega

end CppSort
