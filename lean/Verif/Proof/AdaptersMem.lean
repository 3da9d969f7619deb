import Verif.Proof.Adapters
set_option autoImplicit false

namespace CppSort
variable {α β γ δ : Type} {lt : α → α → Bool}

/-! ### out_of_place_adapter -/

theorem outOfPlace_transforms [Inhabited α] {sorter : Nat → Nat → M α Unit} {s : St α} {f : Nat} {xs : List α}
    {R : List α → Prop} (hw : s.WF) (hseg : Seg s.cell f xs)
    (hs : ∀ (t : St α) p, t.WF → Seg t.cell p xs → Transforms (sorter p (p + xs.length)) t p xs R) :
    Transforms (outOfPlace sorter f (f + xs.length)) s f xs R := by
  obtain ⟨v, hh, hxs⟩ := hseg.holds
  generalize hn : xs.length = n at *
  have hb : ∀ i, f ≤ i → i < f + n → i < s.brk := fun i h1 h2 => holds_brk hw hh h1 h2
  suffices hwp : wp (outOfPlace sorter f (f + n)) (fun _ s' => ∃ ys, ys.length = xs.length ∧ Seg s'.cell f ys ∧
      R ys ∧ (∀ i, i < f ∨ f + n ≤ i → s'.cell i = s.cell i) ∧ s'.WF) s by
    obtain ⟨_, s', h1, ys, h2⟩ := hwp
    rw [← hn] at h2
    exact ⟨s', ys, h1, h2⟩
  unfold outOfPlace
  rw [show f + n - f = n by omega]
  apply wp_bind
  refine wp_alloc fun s1 a1 a2 a3 a4 a5 a6 => ?_
  apply wp_bind
  refine wp_mono (uninitMove_spec (x := v) n f (f + n) s.brk s1 rfl
    (fun k h1 h2 => by rw [a2 k (.inl (hb k h1 h2))]; exact hh k h1 h2) a1) ?_
  rintro r s2 ⟨rfl, b1, b2, b3, b4, b5, b6⟩
  have hbrk2 : s2.brk = s.brk + n := (congrArg Prod.fst b4).trans a3
  have hout : ∀ i, s.brk ≤ i → i < f ∨ f + n ≤ i := fun i hi => by
    by_contra hc
    have := hb i (by omega) (by omega)
    omega
  have hw2 : s2.WF := by
    intro i hi
    rw [b3 i (hout i (by omega)) (by omega), a2 i (by omega)]
    exact hw i (by omega)
  have hseg2 : Seg s2.cell s.brk xs := by
    intro i hi
    rw [b2 (s.brk + i) (by omega) (by omega), show f + (s.brk + i - s.brk) = f + i by omega]
    have h1 := hseg i hi
    rw [hh (f + i) (by omega) (by omega)] at h1
    exact h1
  apply finallyDo_wp
  apply wp_bind
  obtain ⟨s3, ys, c1, c2, c3, c4, c5, c6⟩ := hs s2 s.brk hw2 hseg2
  refine ⟨(), s3, c1, ?_⟩
  rw [hn] at c5 c2
  obtain ⟨y, d1, d2⟩ := c3.holds
  rw [c2] at d1
  have hm : ∀ k, f ≤ k → k < f + n → s3.cell k = .moved := fun k h1 h2 => by
    rw [c5 k (.inl (hb k h1 h2))]; exact b1 k h1 h2
  apply wp_bind
  refine wp_mono (moveRange_spec (d1 := id) (d2 := id) (D := fun k => f + (k - s.brk)) (x := y) n s.brk
    (s.brk + n) f s3 rfl (fun k _ _ => rfl) (fun k h1 h2 => d1 k h1 h2)
    (fun k h1 h2 => .inl (hm _ (by omega) (by omega))) (fun j k h1 h2 h3 => by simp; omega)
    (fun j k h1 h2 h3 => by omega) (fun j k h1 h2 h3 => ?_)) ?_
  · have := hb (f + (j - s.brk)) (by omega) (by omega)
    simp; omega
  rintro r4 s4 ⟨-, e1, e2, e3, e4, -⟩
  apply wp_pure
  have hbuf : ∀ k, s.brk ≤ k → k < s.brk + n → s4.cell k = .moved := fun k h1 h2 => by
    refine e2 k h1 h2 fun j h3 h4 => ?_
    have := hb (f + (j - s.brk)) (by omega) (by omega)
    simp; omega
  apply wp_bind
  rw [show s.brk + n - s.brk = n by omega]
  refine wp_mono (destroyN_spec n s.brk s4 fun k h1 h2 => .inl (hbuf k h1 h2)) ?_
  rintro _ s5 ⟨g1, g2, g3, -, -⟩
  refine wp_free g1 fun s6 i1 i2 i3 i4 i5 => ?_
  have hval : ∀ i, i < n → s6.cell (f + i) = .val (y (s.brk + i)) := by
    intro i hi
    have h1 := hb (f + i) (by omega) (by omega)
    rw [i2 _ (.inl h1), g2 _ (.inl h1)]
    have := e1 (s.brk + i) (by omega) (by omega)
    rwa [show s.brk + i - s.brk = i by omega] at this
  refine ⟨ys, by omega, fun i hi => ?_, c4, fun i hi => ?_, fun i hi => ?_⟩
  · rw [hval i (by omega)]
    have := c3 i hi
    rw [d1 (s.brk + i) (by omega) (by omega)] at this
    exact this
  · by_cases hbi : s.brk ≤ i ∧ i < s.brk + n
    · rw [i1 i hbi.1 hbi.2, hw i hbi.1]
    · rw [i2 i (by omega), g2 i (by omega), e3 i (fun j h1 h2 => by omega) (fun j h1 h2 => by simp; omega),
        c5 i (by omega), b3 i hi (by omega), a2 i (by omega)]
  · have hbr : s6.brk = s3.brk :=
      (congrArg Prod.fst i3).trans ((congrArg Prod.fst g3).trans (congrArg Prod.fst e4))
    have h3 := c6 i (by omega)
    have hr : i < f ∨ f + n ≤ i := by
      by_contra hc
      rw [hm i (by omega) (by omega)] at h3
      exact absurd h3 (by simp)
    have hbi : i < s.brk ∨ s.brk + n ≤ i := by
      by_contra hc
      rw [d1 i (by omega) (by omega)] at h3
      exact absurd h3 (by simp)
    rw [i2 i hbi, g2 i hbi, e3 i (fun j h1 h2 => by omega) (fun j h1 h2 => by simp; omega)]
    exact h3

/-! ### associate_iterator -/

theorem associated_wp {f : Nat} {data : Nat → δ} {m : M (α × δ) Unit} {s : St α} {xs : List α}
    {ps : List (α × δ)} {R : List (α × δ) → Prop} (hseg : Seg s.cell f xs) (hl : ps.length = xs.length)
    (hps : ∀ i (h : i < xs.length), ps[i]? = some (xs[i], data (f + i)))
    (h : ∀ t : St (α × δ), t.WF → Seg t.cell f ps → Transforms m t f ps R) :
    wp (associated f xs.length data m) (fun _ s' => ∃ qs, qs.length = xs.length ∧ Seg s'.cell f (qs.map (·.1)) ∧
      R qs ∧ (∀ i, i < f ∨ f + xs.length ≤ i → s'.cell i = s.cell i) ∧ s'.brk = s.brk) s := by
  have hw : (assocMem f xs.length data s).WF := by
    intro i hi
    have hi : max s.brk (f + xs.length) ≤ i := hi
    show (if _ then _ else _) = _
    rw [if_neg (by omega)]
  have hsg : Seg (assocMem f xs.length data s).cell f ps := by
    intro i hi
    show (if _ then _ else _) = _
    rw [if_pos (by omega), hseg i (by omega)]
    have := hps i (by omega)
    rw [List.getElem?_eq_getElem hi] at this
    injection this with this
    rw [this]
  obtain ⟨t, qs, h1, h2, h3, h4, -, -⟩ := h _ hw hsg
  refine ⟨(), assocBack f xs.length s t, ?_, qs, by omega, fun i hi => ?_, h4, fun i hi => ?_, rfl⟩
  · unfold associated
    rw [h1]
  · rw [List.length_map] at hi
    show (if _ then _ else _) = _
    rw [if_pos (by omega), h3 i hi]
    simp
  · show (if _ then _ else _) = _
    rw [if_neg (by omega)]

theorem seg_brk {s : St α} {f : Nat} {xs : List α} (hw : s.WF) (hseg : Seg s.cell f xs) {i : Nat} (h1 : f ≤ i)
    (h2 : i < f + xs.length) : i < s.brk := by
  by_contra hc
  have h := hw i (by omega)
  have h3 := hseg (i - f) (by omega)
  rw [show f + (i - f) = i by omega, h] at h3
  exact absurd h3 (by simp)

/-- An `associated` program in a block with a vector. -/
theorem storage_associated {f : Nat} {data : Nat → δ} {m : M (α × δ) Unit} {s : St α} {xs : List α}
    {ps : List (α × δ)} {R : List (α × δ) → Prop} (hw : s.WF) (hseg : Seg s.cell f xs)
    (hl : ps.length = xs.length) (hps : ∀ i (h : i < xs.length), ps[i]? = some (xs[i], data (f + i)))
    {pre : M α β} {k : β → M α Unit} {b : β}
    (hpre : ∀ s1 : St α, Seg s1.cell f xs → ∃ c, pre s1 = some (.ok b, { s1 with cmps := s1.cmps + c }))
    (hk : k b = associated f xs.length data m)
    (h : ∀ t : St (α × δ), t.WF → Seg t.cell f ps → Transforms m t f ps R) :
    Transforms (withStorage xs.length (pre >>= k)) s f xs (fun ys => ∃ qs, qs.map (·.1) = ys ∧ R qs) := by
  have hb : ∀ i, f ≤ i → i < f + xs.length → i < s.brk := fun i h1 h2 => seg_brk hw hseg h1 h2
  have hout : ∀ i, s.brk ≤ i → i < f ∨ f + xs.length ≤ i := fun i hi => by
    by_contra hc
    have := hb i (by omega) (by omega)
    omega
  suffices hwp : wp (withStorage xs.length (pre >>= k)) (fun _ s' =>
      ∃ qs, qs.length = xs.length ∧ Seg s'.cell f (qs.map (·.1)) ∧ R qs ∧
      (∀ i, i < f ∨ f + xs.length ≤ i → s'.cell i = s.cell i) ∧ s'.WF) s by
    obtain ⟨_, s', h1, qs, h2, h3, h4, h5⟩ := hwp
    exact ⟨s', qs.map (·.1), h1, by simpa using h2, h3, ⟨qs, rfl, h4⟩, h5⟩
  refine withStorage_wp fun s1 a1 a2 a3 a4 a5 a6 => ?_
  have hseg1 : Seg s1.cell f xs := fun i hi => by
    rw [a2 _ (.inl (hb _ (by omega) (by omega)))]; exact hseg i hi
  apply wp_bind
  obtain ⟨c, hc⟩ := hpre s1 hseg1
  refine ⟨b, _, hc, ?_⟩
  show wp (k b) _ _
  rw [hk]
  refine wp_mono (associated_wp (s := { s1 with cmps := s1.cmps + c }) hseg1 hl hps h) ?_
  rintro _ s2 ⟨qs, b1, b2, b3, b4, b5⟩
  have hfr : ∀ i, i < f ∨ f + xs.length ≤ i → s2.cell i = s1.cell i := b4
  have hbr : s2.brk = s1.brk := b5
  refine ⟨fun i h1 h2 => ?_, fun s3 c1 c2 c3 c4 c5 => ⟨qs, b1, fun i hi => ?_, b3, ?_, ?_⟩⟩
  · rw [hfr i (hout i h1)]; exact a1 i h1 h2
  · have hi' := hi
    rw [List.length_map] at hi'
    rw [c2 _ (.inl (hb _ (by omega) (by omega)))]
    exact b2 i hi
  · intro i hi
    by_cases hbi : s.brk ≤ i ∧ i < s.brk + xs.length
    · rw [c1 i hbi.1 hbi.2, hw i hbi.1]
    · rw [c2 i (by omega), hfr i hi, a2 i (by omega)]
  · intro i hi
    have : s3.brk = s2.brk := congrArg Prod.fst c3
    rw [c2 i (by omega), hfr i (hout i (by omega)), a2 i (by omega)]
    exact hw i (by omega)

/-! ### stable_adapter -/

theorem stableLt_sw (hlt : StrictWeak lt) : StrictWeak (stableLt lt) := by
  have key : ∀ x y : α × Nat, stableLt lt x y = true ↔
      lt x.1 y.1 = true ∨ (lt x.1 y.1 = false ∧ lt y.1 x.1 = false ∧ x.2 < y.2) := by
    intro x y
    unfold stableLt
    by_cases h1 : lt x.1 y.1 = true <;> by_cases h2 : lt y.1 x.1 = true <;> simp [h1, h2]
  have keyf : ∀ x y : α × Nat, stableLt lt x y = false ↔
      lt x.1 y.1 = false ∧ (lt y.1 x.1 = false → y.2 ≤ x.2) := by
    intro x y
    rw [← Bool.not_eq_true, key]
    by_cases h1 : lt x.1 y.1 = true <;> by_cases h2 : lt y.1 x.1 = true <;> simp [h1, h2]
  refine ⟨fun x => (keyf x x).2 ⟨hlt.irrefl _, fun _ => le_refl _⟩, fun x y z h1 h2 => ?_,
    fun x y z h1 h2 h3 h4 => ?_⟩
  · rw [key] at h1 h2 ⊢
    rcases h1 with h1 | ⟨a1, a2, a3⟩
    · rcases h2 with h2 | ⟨b1, b2, b3⟩
      · exact .inl (hlt.trans _ _ _ h1 h2)
      · exact .inl (hlt.lt_of_lt_of_le h1 b2)
    · rcases h2 with h2 | ⟨b1, b2, b3⟩
      · exact .inl (hlt.lt_of_le_of_lt a2 h2)
      · obtain ⟨c1, c2⟩ := hlt.equiv_trans _ _ _ a1 a2 b1 b2
        exact .inr ⟨c1, c2, by omega⟩
  · rw [keyf] at h1 h2 h3 h4
    obtain ⟨c1, c2⟩ := hlt.equiv_trans _ _ _ h1.1 h2.1 h3.1 h4.1
    have := h1.2 h2.1
    have := h2.2 h1.1
    have := h3.2 h4.1
    have := h4.2 h3.1
    exact ⟨(keyf _ _).2 ⟨c1, fun _ => by omega⟩, (keyf _ _).2 ⟨c2, fun _ => by omega⟩⟩

theorem stable_of_indexed (hlt : StrictWeak lt) {xs : List α} {qs : List (α × Nat)} (hp : qs.Perm xs.zipIdx)
    (hs : SortedList (stableLt lt) qs) : (qs.map (·.1)).Perm xs ∧ SortedList lt (qs.map (·.1)) ∧
      SameOrder lt xs (qs.map (·.1)) := by
  have keyf : ∀ x y : α × Nat, stableLt lt x y = false →
      lt x.1 y.1 = false ∧ (lt y.1 x.1 = false → y.2 ≤ x.2) := by
    intro x y h
    unfold stableLt at h
    by_cases h1 : lt x.1 y.1 = true <;> by_cases h2 : lt y.1 x.1 = true <;> simp_all
  refine ⟨?_, ?_, fun x => ?_⟩
  · have := hp.map (·.1)
    rwa [List.zipIdx_map_fst] at this
  · unfold SortedList at hs ⊢
    rw [List.pairwise_map]
    exact hs.imp fun h => (keyf _ _ h).1
  · rw [filter_map_fst, ← List.zipIdx_map_fst 0 xs, filter_map_fst]
    congr 1
    refine List.Perm.eq_of_pairwise (le := fun a b => a.2 ≤ b.2) ?_ ?_ ?_ (hp.filter _)
    · intro a b ha hb h1 h2
      have ha' := List.mem_zipIdx_iff_getElem?.1 (hp.mem_iff.1 (List.mem_of_mem_filter ha))
      have hb' := List.mem_zipIdx_iff_getElem?.1 (List.mem_of_mem_filter hb)
      have e : a.2 = b.2 := by omega
      rw [e, hb'] at ha'
      injection ha' with e'
      exact Prod.ext e'.symm e
    · rw [List.pairwise_filter]
      refine hs.imp fun {a b} h ha hb => ?_
      refine (keyf _ _ h).2 ?_
      have h1 := StrictWeak.eqv_symm ha
      have h2 := (indirectLt_sw hlt).eqv_trans h1 hb
      simp only [eqv, Bool.and_eq_true, Bool.not_eq_true'] at h2
      exact h2.1
    · rw [List.pairwise_filter]
      have : xs.zipIdx.Pairwise (fun a b => a.2 ≤ b.2) := by
        have h := List.pairwise_lt_range' (s := 0) (n := xs.length)
        rw [← List.zipIdx_map_snd 0 xs, List.pairwise_map] at h
        exact h.imp fun h => by omega
      exact this.imp fun h _ _ => h

theorem makeStable_sorts (hlt : StrictWeak lt) {sorter : Nat → Nat → M (α × Nat) Unit}
    (h : Sorts (stableLt lt) sorter) : SortsStably lt (makeStable sorter) := by
  intro s f xs hw hseg
  unfold makeStable
  rw [show f + xs.length - f = xs.length by omega]
  have := storage_associated (data := fun k => k - f) (m := sorter f (f + xs.length)) (ps := xs.zipIdx)
    (R := fun qs => qs.Perm xs.zipIdx ∧ SortedList (stableLt lt) qs) hw hseg (by simp)
    (fun i hi => by simp [List.getElem?_eq_getElem hi]) (pre := pure ()) (b := ())
    (k := fun _ => associated f xs.length (fun k => k - f) (sorter f (f + xs.length)))
    (fun s1 _ => ⟨0, rfl⟩) rfl (fun t ht hs => by
      have := h t f xs.zipIdx ht hs
      rwa [List.length_zipIdx] at this)
  obtain ⟨s', ys, h1, h2, h3, ⟨qs, e, h4, h5⟩, h6⟩ := this
  subst e
  exact ⟨s', _, h1, h2, h3, stable_of_indexed hlt h4 h5, h6⟩

/-! ### schwartz_adapter -/

/-- A projection that counts its calls (with the counter of comparisons). -/
def countedProj (g : α → δ) (x : α) : M α δ := fun s => some (.ok (g x), { s with cmps := s.cmps + 1 })

theorem projectRange_eq {g : α → δ} : ∀ (xs : List α) (f : Nat) (s : St α), Seg s.cell f xs →
    projectRange (countedProj g) f xs.length s =
      some (.ok (xs.map g), { s with cmps := s.cmps + xs.length }) := by
  intro xs
  induction xs with
  | nil => intro f s _; rfl
  | cons x xs ih =>
    intro f s hs
    have h0 := hs 0 (by simp)
    have h1 : Seg s.cell (f + 1) xs := fun i hi => by
      have := hs (i + 1) (by simpa using hi)
      rwa [show f + (i + 1) = f + 1 + i by omega, List.getElem_cons_succ] at this
    rw [List.length_cons, projectRange]
    have hr : read f s = some (.ok x, s) := by
      unfold read
      rw [show f = f + 0 by omega, h0]
      rfl
    have := ih (f + 1) { s with cmps := s.cmps + 1 } h1
    rw [bind_ok hr]
    rw [bind_ok (show countedProj g x s = some (.ok (g x), { s with cmps := s.cmps + 1 }) from rfl)]
    rw [bind_ok this]
    show some _ = some _
    simp only [List.map_cons, Option.some.injEq]
    congr 2
    omega

theorem schwartz_list {g : α → δ} {lt' : δ → δ → Bool} {xs : List α} {qs : List (α × δ)}
    (hp : qs.Perm (xs.map fun x => (x, g x))) (hs : SortedList (fun p q => lt' p.2 q.2) qs) :
    (qs.map (·.1)).Perm xs ∧ SortedList (fun a b => lt' (g a) (g b)) (qs.map (·.1)) ∧
      (SameOrder (fun p q => lt' p.2 q.2) (xs.map fun x => (x, g x)) qs →
        SameOrder (fun a b => lt' (g a) (g b)) xs (qs.map (·.1))) := by
  have hm : ∀ p, p ∈ qs → p.2 = g p.1 := by
    intro p h
    obtain ⟨x, -, rfl⟩ := List.mem_map.1 (hp.mem_iff.1 h)
    rfl
  have hmap : (xs.map fun x => (x, g x)).map (·.1) = xs := by simp [Function.comp_def]
  refine ⟨?_, ?_, fun ho x => ?_⟩
  · have := hp.map (·.1)
    rwa [hmap] at this
  · unfold SortedList at hs ⊢
    rw [List.pairwise_map]
    refine hs.imp_of_mem fun {a b} ha hb h => ?_
    show lt' (g b.1) (g a.1) = false
    rw [← hm a ha, ← hm b hb]
    exact h
  · have key : ∀ ps : List (α × δ), (∀ p, p ∈ ps → p.2 = g p.1) →
        (ps.map (·.1)).filter (eqv (fun a b => lt' (g a) (g b)) x) =
          (ps.filter (eqv (fun p q => lt' p.2 q.2) (x, g x))).map (·.1) := by
      intro ps h
      rw [List.filter_map]
      congr 1
      refine List.filter_congr fun p hp => ?_
      simp only [eqv, Function.comp_apply, h p hp]
    rw [key qs hm, ho, ← key _ (fun p hp => ?_), hmap]
    obtain ⟨x, -, rfl⟩ := List.mem_map.1 hp
    rfl

theorem schwartz_transforms [Inhabited δ] {g : α → δ} {sorter : Nat → Nat → M (α × δ) Unit} {s : St α} {f : Nat}
    {xs : List α} {R : List (α × δ) → Prop} (hw : s.WF) (hseg : Seg s.cell f xs)
    (h : ∀ t : St (α × δ), t.WF → Seg t.cell f (xs.map fun x => (x, g x)) →
      Transforms (sorter f (f + xs.length)) t f (xs.map fun x => (x, g x)) R) :
    Transforms (sortWithSchwartz (countedProj g) sorter f (f + xs.length)) s f xs
      (fun ys => ∃ qs, qs.map (·.1) = ys ∧ R qs) := by
  unfold sortWithSchwartz
  rw [show f + xs.length - f = xs.length by omega]
  refine storage_associated (b := xs.map g) (m := sorter f (f + xs.length)) hw hseg (by simp) (fun i hi => ?_)
    (fun s1 h1 => ⟨xs.length, projectRange_eq xs f s1 h1⟩) rfl h
  rw [show f + i - f = i by omega]
  simp [List.getElem?_eq_getElem hi]

end CppSort
