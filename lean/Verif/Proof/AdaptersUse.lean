import Verif.Proof.AdaptersMem
set_option autoImplicit false

namespace CppSort
variable {α β γ δ : Type} {lt : α → α → Bool}

/-! ### indirect_adapter -/

theorem indirectAdapter_transforms [Inhabited α] (ra unc : Bool) {sorter : Nat → Nat → M (α × Nat) Unit}
    {s : St α} {f : Nat} {xs : List α} {R : List α → Prop} (hw : s.WF) (hseg : Seg s.cell f xs)
    (hs : ∀ k (t : St (α × Nat)), t.WF → Seg t.cell 0 (xs.zipIdx k) →
      Transforms (sorter 0 xs.length) t 0 (xs.zipIdx k)
        (fun its => its.Perm (xs.zipIdx k) ∧ R (its.map (·.1)))) :
    (∃ s', indirectAdapter ra unc sorter f (f + xs.length) s = some (.ok (), s') ∧
      2 * s'.movs ≤ 2 * s.movs + 3 * xs.length) ∧
    Transforms (indirectAdapter ra unc sorter f (f + xs.length)) s f xs (fun ys => ys.Perm xs ∧ R ys) := by
  obtain ⟨v, hh, he⟩ := hseg.holds
  obtain ⟨u, s', h1, w, h2, h3, h4, h5⟩ := indirectAdapter_spec (n := xs.length) (R := R) ra unc hw hh
    (by rw [he]; exact hs)
  rw [he] at h2
  exact ⟨⟨s', h1, h5⟩, h4.transforms hw hh h1 ⟨h2, h3⟩⟩

theorem indirect_stable (hlt : StrictWeak lt) {sorter : Nat → Nat → M (α × Nat) Unit}
    (h : SortsStably (indirectLt lt) sorter) (xs : List α) (k : Nat) (t : St (α × Nat)) (hw : t.WF)
    (hs : Seg t.cell 0 (xs.zipIdx k)) :
    Transforms (sorter 0 xs.length) t 0 (xs.zipIdx k)
      (fun its => its.Perm (xs.zipIdx k) ∧ (SortedList lt (its.map (·.1)) ∧ SameOrder lt xs (its.map (·.1)))) := by
  have := h t 0 (xs.zipIdx k) hw hs
  rw [Nat.zero_add, List.length_zipIdx] at this
  obtain ⟨s', ys, h1, h2, h3, ⟨h4, h5, h6⟩, h7⟩ := this
  exact ⟨s', ys, h1, h2, h3, ⟨h4, sorted_map_fst h5, sameOrder_map_fst h6⟩, h7⟩

theorem indirect_sorts {sorter : Nat → Nat → M (α × Nat) Unit}
    (h : Sorts (indirectLt lt) sorter) (xs : List α) (k : Nat) (t : St (α × Nat)) (hw : t.WF)
    (hs : Seg t.cell 0 (xs.zipIdx k)) :
    Transforms (sorter 0 xs.length) t 0 (xs.zipIdx k)
      (fun its => its.Perm (xs.zipIdx k) ∧ SortedList lt (its.map (·.1))) := by
  have := h t 0 (xs.zipIdx k) hw hs
  rw [Nat.zero_add, List.length_zipIdx] at this
  obtain ⟨s', ys, h1, h2, h3, ⟨h4, h5⟩, h7⟩ := this
  exact ⟨s', ys, h1, h2, h3, ⟨h4, sorted_map_fst h5⟩, h7⟩

theorem readRange_eq : ∀ (xs : List α) (f : Nat) (s : St α), Seg s.cell f xs →
    readRange f xs.length s = some (.ok xs, s) := by
  intro xs
  induction xs with
  | nil => intro f s _; rfl
  | cons x xs ih =>
    intro f s hs
    have h0 := hs 0 (by simp)
    have h1 : Seg s.cell (f + 1) xs := fun i hi => by
      have := hs (i + 1) (by simpa using hi)
      rwa [show f + (i + 1) = f + 1 + i by omega, List.getElem_cons_succ] at this
    rw [List.length_cons, readRange]
    have hr : read f s = some (.ok x, s) := by
      unfold read
      rw [show f = f + 0 by omega, h0]
      rfl
    rw [bind_ok hr, bind_ok (ih (f + 1) s h1)]
    rfl

/-- A vector whose block ends with an exception that leaves the memory as it was. -/
theorem withStorage_error {n : Nat} {body : M α γ} {s : St α} {e : Err} (hw : s.WF)
    (h : ∀ s1 : St α, (∀ k, k < s.brk → s1.cell k = s.cell k) → s1.cmps = s.cmps → s1.grant = s.grant →
      ∃ s2, body s1 = some (.error e, s2) ∧ s2.cell = s1.cell ∧ s2.movs = s1.movs) :
    ∃ s', withStorage n body s = some (.error e, s') ∧ s'.cell = s.cell ∧ s'.movs = s.movs := by
  have ha : wp (alloc n) (fun p s1 => p = s.brk ∧ (∀ k, s.brk ≤ k → k < s.brk + n → s1.cell k = .raw) ∧
      (∀ k, k < s.brk ∨ s.brk + n ≤ k → s1.cell k = s.cell k) ∧ s1.movs = s.movs ∧
      s1.cmps = s.cmps ∧ s1.grant = s.grant) s :=
    wp_alloc fun s1 a1 a2 a3 a4 a5 a6 => ⟨rfl, a1, a2, a6, a5, a4⟩
  obtain ⟨_, s1, h1, rfl, a1, a2, a3, a4, a5⟩ := ha
  obtain ⟨s2, h2, b1, b2⟩ := h s1 (fun k hk => a2 k (.inl hk)) a4 a5
  have hf : wp (free s.brk n) (fun _ s3 => (∀ k, s.brk ≤ k → k < s.brk + n → s3.cell k = .unalloc) ∧
      (∀ k, k < s.brk ∨ s.brk + n ≤ k → s3.cell k = s2.cell k) ∧ s3.movs = s2.movs) s2 :=
    wp_free (fun k h1 h2 => by rw [b1]; exact a1 k h1 h2) fun s3 c1 c2 c3 c4 c5 => ⟨c1, c2, c5⟩
  obtain ⟨_, s3, h3, c1, c2, c3⟩ := hf
  refine ⟨s3, ?_, ?_, by rw [c3, b2, a3]⟩
  · unfold withStorage
    rw [bind_ok h1]
    unfold finallyDo
    rw [h2]
    dsimp only
    rw [h3]
  · funext k
    by_cases hk : s.brk ≤ k ∧ k < s.brk + n
    · rw [c1 k hk.1 hk.2, hw k hk.1]
    · rw [c2 k (by omega), b1, a2 k (by omega)]

theorem bind_error {m : M α β} {k : β → M α γ} {s s' : St α} {e : Err} (h : m s = some (.error e, s')) :
    (m >>= k) s = some (.error e, s') := by
  show (Option.bind (m s) _ : Option _) = _
  rw [h]
  rfl

theorem indirect_exception (ra unc : Bool) {sorter : Nat → Nat → M (α × Nat) Unit}
    {s : St α} {f : Nat} {xs : List α} {e : Err} (hw : s.WF) (hseg : Seg s.cell f xs)
    (hs : ∃ t', sorter 0 xs.length (localMem (xs.zipIdx (if ra then f else 0)) s) = some (.error e, t')) :
    ∃ s', indirectAdapter ra unc sorter f (f + xs.length) s = some (.error e, s') ∧
      s'.cell = s.cell ∧ s'.movs = s.movs := by
  have key : ∀ (k : Nat) (cont : Unit × List (α × Nat) → M α Unit), k = (if ra then f else 0) →
      ∃ s', withStorage xs.length (do
        let zs ← readRange f xs.length
        let r ← embed (zs.zipIdx k) (sorter 0 xs.length)
        cont r) s = some (.error e, s') ∧ s'.cell = s.cell ∧ s'.movs = s.movs := by
    intro k cont hk
    refine withStorage_error hw fun s1 h1 g1 g2 => ?_
    have hseg1 : Seg s1.cell f xs := fun i hi => by
      rw [h1 _ (seg_brk hw hseg (by omega) (by omega))]; exact hseg i hi
    obtain ⟨t', ht⟩ := hs
    rw [← hk, show localMem (xs.zipIdx k) s = localMem (xs.zipIdx k) s1 by unfold localMem; rw [g1, g2]] at ht
    refine ⟨{ s1 with cmps := t'.cmps, grant := t'.grant }, ?_, rfl, rfl⟩
    rw [bind_ok (readRange_eq xs f s1 hseg1)]
    have : embed (xs.zipIdx k) (sorter 0 xs.length) s1 =
        some (.error e, { s1 with cmps := t'.cmps, grant := t'.grant }) := by
      unfold embed
      rw [ht]
    show ((embed (xs.zipIdx k) (sorter 0 xs.length)) >>= cont) s1 = _
    exact bind_error this
  unfold indirectAdapter sortIndirectly indiesort
  rw [show f + xs.length - f = xs.length by omega]
  cases ra with
  | true => exact key f _ rfl
  | false => exact key 0 _ rfl

/-! ### schwartz_adapter -/

theorem schwartz_counts [Inhabited δ] {g : α → δ} {sorter : Nat → Nat → M (α × δ) Unit} {s : St α} {f : Nat}
    {xs : List α} {R : List (α × δ) → Prop} (hw : s.WF) (hseg : Seg s.cell f xs)
    (h : ∀ t : St (α × δ), t.WF → Seg t.cell f (xs.map fun x => (x, g x)) →
      Transforms (sorter f (f + xs.length)) t f (xs.map fun x => (x, g x)) R) :
    ∃ (t t' : St (α × δ)) (s' : St α), t.WF ∧ Seg t.cell f (xs.map fun x => (x, g x)) ∧
      t.cmps = s.cmps + xs.length ∧ t.movs = s.movs ∧ sorter f (f + xs.length) t = some (.ok (), t') ∧
      sortWithSchwartz (countedProj g) sorter f (f + xs.length) s = some (.ok (), s') ∧
      s'.cmps = t'.cmps ∧ s'.movs = t'.movs := by
  suffices hwp : wp (sortWithSchwartz (countedProj g) sorter f (f + xs.length)) (fun _ s' =>
      ∃ (t t' : St (α × δ)), t.WF ∧ Seg t.cell f (xs.map fun x => (x, g x)) ∧
      t.cmps = s.cmps + xs.length ∧ t.movs = s.movs ∧ sorter f (f + xs.length) t = some (.ok (), t') ∧
      s'.cmps = t'.cmps ∧ s'.movs = t'.movs) s by
    obtain ⟨_, s', h1, t, t', h2, h3, h4, h5, h6, h7⟩ := hwp
    exact ⟨t, t', s', h2, h3, h4, h5, h6, h1, h7⟩
  have hb : ∀ i, f ≤ i → i < f + xs.length → i < s.brk := fun i h1 h2 => seg_brk hw hseg h1 h2
  have hout : ∀ i, s.brk ≤ i → i < f ∨ f + xs.length ≤ i := fun i hi => by
    by_contra hc
    have := hb i (by omega) (by omega)
    omega
  unfold sortWithSchwartz
  rw [show f + xs.length - f = xs.length by omega]
  refine withStorage_wp fun s1 a1 a2 a3 a4 a5 a6 => ?_
  have hseg1 : Seg s1.cell f xs := fun i hi => by
    rw [a2 _ (.inl (hb _ (by omega) (by omega)))]; exact hseg i hi
  apply wp_bind
  refine ⟨_, _, projectRange_eq xs f s1 hseg1, ?_⟩
  generalize hs2 : ({ s1 with cmps := s1.cmps + xs.length } : St α) = s2
  have e1 : s2.cell = s1.cell := by rw [← hs2]
  have e2 : s2.cmps = s1.cmps + xs.length := by rw [← hs2]
  have e3 : s2.movs = s1.movs := by rw [← hs2]
  generalize hdt : (fun k => (xs.map g).getD (k - f) default) = data
  have hd : ∀ i (hi : i < xs.length), data (f + i) = g xs[i] := fun i hi => by
    rw [← hdt]
    dsimp only
    rw [show f + i - f = i by omega]
    simp [List.getElem?_eq_getElem hi]
  have hwt : (assocMem f xs.length data s2).WF := by
    intro i hi
    have hi : max s2.brk (f + xs.length) ≤ i := hi
    show (if _ then _ else _) = _
    rw [if_neg (by omega)]
  have hsg : Seg (assocMem f xs.length data s2).cell f (xs.map fun x => (x, g x)) := by
    intro i hi
    rw [List.length_map] at hi
    show (if _ then _ else _) = _
    rw [if_pos (by omega), e1, hseg1 i (by omega)]
    dsimp only
    rw [hd i hi]
    simp
  obtain ⟨t', qs, h1, h2, h3, h4, -, -⟩ := h _ hwt hsg
  show wp (associated f xs.length data (sorter f (f + xs.length))) _ s2
  refine ⟨(), assocBack f xs.length s2 t', ?_, fun k h1 h2 => ?_, fun s3 c1 c2 c3 c4 c5 => ?_⟩
  · unfold associated
    rw [h1]
  · show (if _ then _ else _) = _
    rw [if_neg (by have := hout k h1; omega), e1]
    exact a1 k h1 h2
  · exact ⟨_, t', hwt, hsg, e2.trans (by rw [a5]), e3.trans a6, h1, c4, c5⟩

/-! ### apply_permutation -/

theorem applyPermutation_spec [Inhabited α] {f : Nat} {ps : List Nat} {xs : List α} {s : St α} (hw : s.WF)
    (hseg : Seg s.cell f xs) (hp : ps.Perm (List.range xs.length)) :
    ∃ s' ys, applyPermutation f ps s = some (.ok (List.range xs.length), s') ∧ Seg s'.cell f ys ∧
      ys.map some = ps.map (xs[·]?) ∧ (∀ i, i < f ∨ f + xs.length ≤ i → s'.cell i = s.cell i) ∧ s'.WF ∧
      s'.cmps = s.cmps ∧ 2 * s'.movs ≤ 2 * s.movs + 3 * xs.length := by
  obtain ⟨v, hh, he⟩ := hseg.holds
  have hl : ps.length = xs.length := by simpa using hp.length_eq
  have hnd : ps.Nodup := hp.nodup_iff.2 List.nodup_range
  have hlt : ∀ i (h : i < ps.length), ps[i] < xs.length := fun i h => by
    have := hp.mem_iff.1 (List.getElem_mem h)
    simpa using this
  have hσ : PermBelow xs.length (fun i => ps.getD i 0) := by
    refine ⟨fun i hi => ?_, fun i j hi hj e => ?_⟩
    · have := hlt i (by omega)
      simpa [List.getD_eq_getElem?_getD, List.getElem?_eq_getElem (show i < ps.length by omega)] using this
    · simp only [List.getD_eq_getElem?_getD, List.getElem?_eq_getElem (show i < ps.length by omega),
        List.getElem?_eq_getElem (show j < ps.length by omega), Option.getD_some] at e
      exact (List.Nodup.getElem_inj_iff hnd).1 e
  have g := applyLoop_spec (f := f) (n := xs.length) hσ (v := v) xs.length 0 ∅ ps v s (by omega) (Whole.empty _ _)
    (by omega) ⟨hl, fun j _ hj => by
      simp [List.getElem?_eq_getElem (show j < ps.length by omega)]⟩ (Turned.start f _ _ v) hh
  obtain ⟨r, s', h1, rfl, w, h2, h3, h4, h5⟩ := g
  refine ⟨s', lst w f (f + xs.length), h1, h3.holds.seg, ?_, h3.frame.cell, h3.wf hh hw, h4, by simpa using h5⟩
  apply List.ext_getElem
  · simp [hl]
  · intro i hi hj
    simp only [List.length_map, lst_length] at hi hj
    have hi' : i < xs.length := by omega
    simp only [List.getElem_map, lst_getElem]
    rw [h2 i hi']
    have hv : ∀ j, j < xs.length → xs[j]? = some (v (f + j)) := fun j hj => by
      conv_lhs => rw [← he]
      rw [List.getElem?_eq_getElem (by simpa using hj), lst_getElem]
    simp only [List.getD_eq_getElem?_getD, List.getElem?_eq_getElem hj, Option.getD_some]
    rw [hv _ (hlt i hj)]

/-! ### sorted_indices, sorted_iterators -/

theorem its_elems {xs : List α} {its : List (α × Nat)} {k : Nat} (h : its.Perm (xs.zipIdx k)) :
    (its.map (·.1)).map some = (its.map (·.2)).map (fun p => xs[p - k]?) ∧
      (its.map (·.2)).Perm (List.range' k xs.length) := by
  constructor
  · rw [List.map_map, List.map_map]
    refine List.map_congr_left fun p hp => ?_
    obtain ⟨x, i⟩ := p
    have := (List.mem_zipIdx_iff_le_and_getElem?_sub.1 (h.mem_iff.1 hp)).2
    exact this.symm
  · have := h.map (·.2)
    rwa [List.zipIdx_map_snd] at this

theorem sortedIts_spec {sorter : Nat → Nat → M (α × Nat) Unit} {s : St α} {f k : Nat} {xs : List α}
    {R : List α → Prop} (hseg : Seg s.cell f xs)
    (hs : ∀ t : St (α × Nat), t.WF → Seg t.cell 0 (xs.zipIdx k) →
      Transforms (sorter 0 xs.length) t 0 (xs.zipIdx k)
        (fun its => its.Perm (xs.zipIdx k) ∧ R (its.map (·.1)))) :
    ∃ ps ys c g, (do
      let zs ← readRange f xs.length
      let (_, its) ← embed (zs.zipIdx k) (sorter 0 xs.length)
      pure (its.map (·.2)) : M α (List Nat)) s = some (.ok ps, { s with cmps := c, grant := g }) ∧
      ps.Perm (List.range' k xs.length) ∧ ys.map some = ps.map (fun p => xs[p - k]?) ∧ ys.Perm xs ∧ R ys := by
  obtain ⟨⟨u, its⟩, c, g, h1, h2, h3, h4⟩ := embed_transforms (α := α) hs s
  obtain ⟨e1, e2⟩ := its_elems h3
  refine ⟨its.map (·.2), its.map (·.1), c, g, ?_, e2, e1, ?_, h4⟩
  · rw [bind_ok (readRange_eq xs f s hseg), bind_ok h1]
    rfl
  · have := h3.map (·.1)
    rwa [List.zipIdx_map_fst] at this

theorem cells_of_its {f : Nat} {xs ys : List α} {ps : List Nat} {s : St α} (hs : Seg s.cell f xs)
    (h2 : ps.Perm (List.range' f xs.length)) (h3 : ys.map some = ps.map (fun p => xs[p - f]?)) :
    ps.map s.cell = ys.map .val := by
  have e : ys.map .val = (ys.map some).map (fun o : Option α => match o with | some x => Cell.val x | none => .unalloc) := by
    simp [Function.comp_def]
  rw [e, h3, List.map_map]
  refine List.map_congr_left fun p hp => ?_
  have := h2.mem_iff.1 hp
  rw [List.mem_range'_1] at this
  have := hs (p - f) (by omega)
  rw [show f + (p - f) = p by omega] at this
  rw [this]
  simp [List.getElem?_eq_getElem (show p - f < xs.length by omega)]

theorem perm_of_indices {xs ys : List α} {ps : List Nat} (h2 : ps.Perm (List.range xs.length))
    (h3 : ys.map some = ps.map (xs[·]?)) : ys.Perm xs := by
  have h4 : (List.range xs.length).map (xs[·]?) = xs.map some := by
    apply List.ext_getElem
    · simp
    · intro i hi hj
      simp at hi
      simp [List.getElem?_eq_getElem hi]
  have h5 := h2.map (xs[·]?)
  rw [← h3, h4] at h5
  exact (List.map_perm_map_iff (Option.some_injective _)).1 h5

end CppSort
