import Verif.Proof.StablePartition
import Verif.Proof.Mel
import Verif.Proof.Select
import Verif.Proof.ProbesSorted
import Verif.Proof.AdaptersUse
import Verif.Props.Simple
/-
slabsort.h.
-/
set_option autoImplicit false

namespace CppSort
variable {α : Type} {lt : α → α → Bool}

/-- Nothing outside `[f, l)` changed, and the memory is well formed. -/
structure Out (f l : Nat) (s s' : St α) : Prop where
  cell : ∀ i, i < f ∨ l ≤ i → s'.cell i = s.cell i
  wf : s'.WF

theorem Out.trans {f l : Nat} {s s' s'' : St α} (h : Out f l s s') (h' : Out f l s' s'') : Out f l s s'' :=
  ⟨fun i hi => (h'.cell i hi).trans (h.cell i hi), h'.wf⟩

theorem Out.sub {f l f' l' : Nat} {s s' : St α} (h : Out f' l' s s') (h1 : f ≤ f') (h2 : l' ≤ l) :
    Out f l s s' := ⟨fun i hi => h.cell i (by omega), h.wf⟩

theorem Restores.out {s s' : St α} {f : Nat} {xs : List α} (h : Restores s s' f lt xs) (hw : s.WF)
    (hb : 0 < xs.length → f + xs.length ≤ s.brk) :
    ∃ ys, ys.Perm xs ∧ SortedList lt ys ∧ Seg s'.cell f ys ∧ Out f (f + xs.length) s s' := by
  obtain ⟨ys, h1, h2, h3, h4, h5⟩ := h
  refine ⟨ys, h1, h2, h3, h5, ?_⟩
  exact (Frame.of_env h4 h5).wf hw fun hlt => hb (by omega)

/-! ### the pivot -/

theorem slabGetMedian_spec [Inhabited α] (hlt : StrictWeak lt) {f : Nat} {xs : List α} {s : St α}
    (h0 : 0 < xs.length) (hs : Seg s.cell f xs) :
    wp (slabGetMedian lt f xs.length) (fun r s' => f ≤ r ∧ r < f + xs.length ∧ s'.cell = s.cell ∧
      s'.brk = s.brk) s := by
  have hlen : (xs.zipIdx f).length = xs.length := List.length_zipIdx
  have key : Keeps (α := α) (embed (xs.zipIdx f)
      (nthElement (tick (indirectLt lt)) .random 0 xs.length (xs.length / 2) xs.length))
      (fun r => r.1 = xs.length / 2 ∧ r.2.Perm (xs.zipIdx f)) := by
    intro s
    obtain ⟨v, hv1, hv2⟩ := (localMem_seg (xs.zipIdx f) s).holds
    rw [hlen, Nat.zero_add] at hv1 hv2
    have g := nthElement_spec (lt := indirectLt lt) (indirectLt_sw hlt) .random (nth := xs.length / 2) (by omega) hv1
    rw [Nat.sub_zero] at g
    obtain ⟨r, s', g1, g2, v', g3, -⟩ := g
    have hp := g3.perm.2
    rw [hv2] at hp
    have hseg := g3.holds.seg
    have hrb := readBack_seg hseg
    rw [hp.length_eq] at hrb
    refine ⟨(r, lst v' 0 xs.length), s'.cmps, s'.grant, ?_, by dsimp only; omega, hp⟩
    unfold embed
    rw [g1]
    dsimp only
    rw [hrb]
  unfold slabGetMedian
  apply wp_bind
  refine ⟨_, _, readRange_eq xs f s hs, ?_⟩
  apply wp_bind
  refine wp_mono (key.wp _) ?_
  rintro ⟨i, its⟩ _ ⟨⟨k, g, rfl⟩, h1, h2⟩
  dsimp only at h1 h2 ⊢
  have hi : i < its.length := by rw [h2.length_eq, hlen]; omega
  apply wp_bind
  refine wp_mono ((Runs.nth (List.getElem?_eq_getElem hi)).wp _) ?_
  rintro p _ ⟨⟨k', rfl⟩, rfl⟩
  obtain ⟨a, j, he⟩ : ∃ a, ∃ j, its[i] = (a, j) := ⟨_, _, rfl⟩
  have hm := h2.mem_iff.1 (List.getElem_mem hi)
  rw [he] at hm
  have := List.mem_zipIdx hm
  refine wp_pure ?_
  rw [he]
  exact ⟨this.1, by dsimp only; omega, rfl, rfl⟩

theorem slabPartition_spec [Inhabited α] (hlt : StrictWeak lt) (c : Cfg) {f : Nat} {xs : List α} {s : St α}
    (h0 : 0 < xs.length) (hw : s.WF) (hs : Seg s.cell f xs) :
    wp (slabPartition lt c f (f + xs.length) xs.length) (fun r s' => ∃ A B : List α,
      r = f + A.length ∧ (A ++ B).Perm xs ∧ Seg s'.cell f (A ++ B) ∧ (∀ b ∈ B, ∀ a ∈ A, lt b a = false) ∧
      Out f (f + xs.length) s s') s := by
  unfold slabPartition
  apply wp_bind
  refine wp_mono (slabGetMedian_spec hlt h0 hs) ?_
  rintro m s1 ⟨h1, h2, h3, h4⟩
  dsimp only
  have hbe := hs.below hw h0
  obtain ⟨v, hv, hvl⟩ := hs.holds
  apply wp_bind
  refine wp_swap' (a := v m) (b := v (f + xs.length - 1)) (by rw [h3]; exact hv m h1 h2)
    (by rw [h3]; exact hv _ (by omega) (by omega)) fun s2 c1 c2 _ _ => ?_
  rw [h3] at c1
  -- the memory after the exchange
  have hv2 : Holds s2.cell f (f + xs.length) (swp v m (f + xs.length - 1)) := by
    intro i y1 y2
    rw [c1]
    unfold swp setCell
    by_cases e1 : i = f + xs.length - 1
    · by_cases e2 : i = m
      · rw [if_pos e1, if_pos e2, ← e1, e2]
      · rw [if_pos e1, if_neg e2, if_pos e1]
    · by_cases e2 : i = m
      · rw [if_neg e1, if_pos e2, if_pos e2]
      · rw [if_neg e1, if_neg e2, if_neg e2, if_neg e1]; exact hv i y1 y2
  have hp2 : PermOn f (f + xs.length) v (swp v m (f + xs.length - 1)) :=
    PermOn.swp ⟨h1, h2⟩ ⟨by omega, by omega⟩
  have hw2 : s2.WF := by
    intro i hi
    rw [St.env_brk c2, h4] at hi
    rw [c1, sc_ne (by omega), sc_ne (by omega)]
    exact hw i hi
  generalize swp v m (f + xs.length - 1) = w at hv2 hp2
  have hperm := hp2.2
  rw [hvl, show f + xs.length = f + xs.length - 1 + 1 by omega, lst_snoc (by omega)] at hperm
  have hseg := (hv2.sub (Nat.le_refl f) (l' := f + xs.length - 1) (by omega)).seg
  have hpv := hv2 (f + xs.length - 1) (by omega) (by omega)
  have hl : (lst w f (f + xs.length - 1)).length = xs.length - 1 := by rw [lst_length]; omega
  generalize lst w f (f + xs.length - 1) = zs at hperm hseg hl
  generalize w (f + xs.length - 1) = p at hperm hpv
  have hP : PredOk (fun i => do tick lt (← read i) (← read (f + xs.length - 1))) (fun x => lt x p)
      true (f + xs.length - 1) p := by
    intro s i x y1 y2
    replace y1 := y1 rfl
    exact (RunsAt.read y2).bind fun r hr => (RunsAt.read y1).bind fun r' hr' => by
      subst hr hr'
      exact Runs.tick.at s
  apply wp_bind
  have g := stablePartition_spec c hP hw2 hseg (fun _ => hpv) (by omega)
  rw [hl, show f + (xs.length - 1) = f + xs.length - 1 by omega] at g
  refine wp_mono g ?_
  rintro r s3 ⟨q1, q2, q3, q4⟩
  have hpt := List.filter_append_perm (fun x => lt x p) zs
  have hT : ∀ a ∈ zs.filter (fun x => lt x p), lt a p = true := fun a ha => (List.mem_filter.1 ha).2
  have hF : ∀ b ∈ zs.filter (fun x => !lt x p), lt b p = false := fun b hb => by
    simpa using (List.mem_filter.1 hb).2
  generalize zs.filter (fun x => lt x p) = T at q1 q2 hpt hT
  generalize zs.filter (fun x => !lt x p) = F at q2 hpt hF
  have hlen := hpt.length_eq
  rw [List.length_append, hl] at hlen
  have hpv3 : s3.cell (f + xs.length - 1) = .val p := by rw [q3.cell _ (by omega)]; exact hpv
  have hout : ∀ i, i < f ∨ f + xs.length ≤ i → s3.cell i = s.cell i := fun i hi => by
    rw [q3.cell i (by omega), c1, sc_ne (by omega), sc_ne (by omega)]
  have hcmp : ∀ b, lt b p = false → ∀ a ∈ T, lt b a = false := fun b hb a ha => by
    by_contra hc
    rw [hlt.trans b a p (by simpa using hc) (hT a ha)] at hb
    cases hb
  have hbrk3 : f + xs.length ≤ s3.brk := by
    have := q3.brk.1
    rw [St.env_brk c2, h4] at this
    omega
  apply wp_bind
  subst q1
  cases F with
  | nil =>
    simp only [List.length_nil] at hlen
    rw [show f + T.length = f + xs.length - 1 by omega]
    refine wp_swap' hpv3 hpv3 fun s4 d1 d2 _ _ => ?_
    refine wp_pure ⟨T, [p], by omega, ?_, ?_, ?_, fun i hi => ?_, fun i hi => ?_⟩
    · rw [List.append_nil] at hpt
      exact (hpt.append_right [p]).trans hperm
    · rw [List.append_nil] at q2
      refine seg_snoc.2 ⟨?_, ?_⟩
      · rw [d1]; exact (q2.out (by omega)).out (by omega)
      · rw [d1]; exact sc_eq (by omega)
    · intro b hb
      rw [List.mem_singleton.1 hb]
      exact hcmp p (hlt.irrefl p)
    · rw [d1, sc_ne (by omega), sc_ne (by omega)]; exact hout i hi
    · rw [St.env_brk d2] at hi
      rw [d1, sc_ne (by omega), sc_ne (by omega)]; exact q4 i hi
  | cons y F =>
    simp only [List.length_cons] at hlen
    obtain ⟨q5, q6⟩ := seg_append.1 q2
    obtain ⟨q6, q7⟩ := seg_cons.1 q6
    refine wp_swap' q6 hpv3 fun s4 d1 d2 _ _ => ?_
    refine wp_pure ⟨T, p :: (F ++ [y]), rfl, ?_, ?_, ?_, fun i hi => ?_, fun i hi => ?_⟩
    · refine List.Perm.trans ?_ ((hpt.append_right [p]).trans hperm)
      rw [List.append_assoc]
      refine List.Perm.append_left T ?_
      exact (List.Perm.cons p (List.perm_append_singleton y F)).trans
        ((List.Perm.swap y p F).trans (List.Perm.cons y (List.perm_append_singleton p F).symm))
    · refine seg_append.2 ⟨?_, seg_cons.2 ⟨?_, seg_snoc.2 ⟨?_, ?_⟩⟩⟩
      · rw [d1]; exact (q5.out (by omega)).out (by omega)
      · rw [d1, sc_ne (by omega), sc_eq rfl]
      · rw [d1]; exact (q7.out (by omega)).out (by omega)
      · rw [d1, sc_eq (by omega)]
    · intro b hb
      refine hcmp b ?_
      rcases List.mem_cons.1 hb with e | e
      · rw [e]; exact hlt.irrefl p
      · refine hF b ?_
        rcases List.mem_append.1 e with e | e
        · exact List.mem_cons_of_mem _ e
        · rw [List.mem_singleton.1 e]; exact List.mem_cons_self
    · rw [d1, sc_ne (by omega), sc_ne (by omega)]; exact hout i hi
    · rw [St.env_brk d2] at hi
      rw [d1, sc_ne (by omega), sc_ne (by omega)]; exact q4 i hi

/-! ### try_melsort -/

theorem length_le_flatten {β : Type} : ∀ {L : List (List β)}, (∀ l ∈ L, l ≠ []) → L.length ≤ L.flatten.length := by
  intro L
  induction L with
  | nil => intro _; simp
  | cons l L ih =>
    intro h
    have h1 := ih fun m hm => h m (List.mem_cons_of_mem _ hm)
    have h2 := List.length_pos_iff.2 (h l List.mem_cons_self)
    rw [List.flatten_cons, List.length_append, List.length_cons]
    omega

theorem slabEncroach_at (hlt : StrictWeak lt) {f l p : Nat} {v : Nat → α} {s : St α} (hv : Holds s.cell f l v) :
    ∀ (n it : Nat) (L : List (List Nat)), l - it = n → f ≤ it → it ≤ l →
    Enc (fun i j => lt (v i) (v j)) L → L.flatten.Perm (List.range' f (it - f)) →
    RunsAt s (slabEncroach lt p L it l) (fun r => match r with
      | none => p ≤ l - f
      | some L' => Enc (fun i j => lt (v i) (v j)) L' ∧ L'.flatten.Perm (List.range' f (l - f))) := by
  intro n
  induction n with
  | zero =>
    intro it L hn h1 h2 he hp
    obtain rfl : it = l := by omega
    rw [slabEncroach, if_neg (by simp)]
    exact RunsAt.pure ⟨he, hp⟩
  | succ n ih =>
    intro it L hn h1 h2 he hp
    rw [slabEncroach, if_pos (by omega)]
    refine (RunsAt.read (hv it h1 (by omega))).bind fun _ e => ?_
    subst e
    refine (encroachPlace_at hlt (val := v) he (fun b hb => ?_) (v it)).bind fun pl hpl => ?_
    · have := List.mem_range'_1.1 (hp.mem_iff.1 hb)
      exact RunsAt.read (hv b this.1 (by omega))
    refine ((encroachPut_runs hlt (val := v) he (b := it) hpl).at s).bind fun L1 ⟨g1, g2, _⟩ => ?_
    have hp1 : L1.flatten.Perm (List.range' f (it + 1 - f)) := by
      refine g2.trans ((hp.append_right [it]).trans ?_)
      rw [show it + 1 - f = it - f + 1 by omega, List.range'_concat, Nat.one_mul, show f + (it - f) = it by omega]
    split
    · have := length_le_flatten fun m hm => (g1.all m hm).1
      rw [hp1.length_eq, List.length_range'] at this
      exact RunsAt.pure (by omega)
    · exact ih (it + 1) L1 (by omega) (by omega) (by omega) g1 hp1

theorem slabReifyList_spec {v : Nat → α} : ∀ (is : List Nat) (s : St α), is.Nodup →
    (∀ i ∈ is, s.cell i = .val (v i)) →
    wp (slabReifyList is) (fun r s' => r = is.map v ∧ s'.env = s.env ∧ (∀ i ∈ is, s'.cell i = .moved) ∧
      (∀ i, i ∉ is → s'.cell i = s.cell i)) s := by
  intro is
  induction is with
  | nil => intro s _ _; exact wp_pure ⟨rfl, rfl, by simp, fun _ _ => rfl⟩
  | cons i is ih =>
    intro s hn hv
    obtain ⟨hn1, hn2⟩ := List.nodup_cons.1 hn
    rw [slabReifyList]
    apply wp_bind
    refine wp_moveOut' (hv i List.mem_cons_self) fun s1 e1 e2 _ _ => ?_
    apply wp_bind
    refine wp_mono (ih s1 hn2 fun j hj => ?_) ?_
    · rw [e1, sc_ne (by rintro rfl; exact hn1 hj)]; exact hv j (List.mem_cons_of_mem _ hj)
    · rintro _ s2 ⟨rfl, q2, q3, q4⟩
      refine wp_pure ⟨rfl, q2.trans e2, fun j hj => ?_, fun j hj => ?_⟩
      · rcases List.mem_cons.1 hj with e | e
        · rw [e, q4 i hn1, e1]; exact sc_eq rfl
        · exact q3 j e
      · rw [List.mem_cons, not_or] at hj
        rw [q4 j hj.2, e1, sc_ne hj.1]

theorem slabReify_spec {v : Nat → α} : ∀ (L : List (List Nat)) (s : St α), L.flatten.Nodup →
    (∀ i ∈ L.flatten, s.cell i = .val (v i)) →
    wp (slabReify L) (fun r s' => r = L.map (·.map v) ∧ s'.env = s.env ∧
      (∀ i ∈ L.flatten, s'.cell i = .moved) ∧ (∀ i, i ∉ L.flatten → s'.cell i = s.cell i)) s := by
  intro L
  induction L with
  | nil => intro s _ _; exact wp_pure ⟨rfl, rfl, by simp, fun _ _ => rfl⟩
  | cons l L ih =>
    intro s hn hv
    rw [List.flatten_cons] at hn hv
    obtain ⟨hn1, hn2, hd⟩ := List.nodup_append.1 hn
    rw [slabReify]
    apply wp_bind
    refine wp_mono (slabReifyList_spec l s hn1 fun i hi => hv i (List.mem_append_left _ hi)) ?_
    rintro _ s1 ⟨rfl, p2, p3, p4⟩
    have hdis : ∀ i, i ∈ L.flatten → i ∉ l := fun i hi hl => hd i hl i hi rfl
    apply wp_bind
    refine wp_mono (ih s1 hn2 fun i hi => ?_) ?_
    · rw [p4 i (hdis i hi)]; exact hv i (List.mem_append_right _ hi)
    · rintro _ s2 ⟨rfl, q2, q3, q4⟩
      refine wp_pure ⟨rfl, q2.trans p2, fun i hi => ?_, fun i hi => ?_⟩
      · rw [List.flatten_cons] at hi
        by_cases e : i ∈ L.flatten
        · exact q3 i e
        · rw [q4 i e]
          rcases List.mem_append.1 hi with e' | e'
          · exact p3 i e'
          · exact absurd e' e
      · rw [List.flatten_cons, List.mem_append, not_or] at hi
        rw [q4 i hi.2, p4 i hi.1]

theorem Enc.map {v : Nat → α} {L : List (List Nat)} (h : Enc (fun i j => lt (v i) (v j)) L) :
    Enc lt (L.map (·.map v)) := by
  refine ⟨by simpa using h.ne, fun l hl => ?_, ?_⟩
  · obtain ⟨m, hm, rfl⟩ := List.mem_map.1 hl
    refine ⟨by simpa using (h.all m hm).1, ?_⟩
    have := (h.all m hm).2
    unfold SortedList at this ⊢
    exact List.pairwise_map.2 this
  · refine List.pairwise_map.2 (h.nested.imp ?_)
    rintro a b ⟨h1, h2, h3⟩
    refine ⟨by simpa using h1, fun x y hx hy => ?_, fun x y hx hy => ?_⟩
    · rw [List.head?_map, Option.map_eq_some_iff] at hx hy
      obtain ⟨i, hi, rfl⟩ := hx
      obtain ⟨j, hj, rfl⟩ := hy
      exact h2 i j hi hj
    · rw [List.getLast?_map, Option.map_eq_some_iff] at hx hy
      obtain ⟨i, hi, rfl⟩ := hx
      obtain ⟨j, hj, rfl⟩ := hy
      exact h3 i j hi hj

theorem tryMelsort_spec [Inhabited α] (hlt : StrictWeak lt) {f l n p : Nat} {xs : List α} {s : St α}
    (hw : s.WF) (hs : Seg s.cell f xs) (hl : l = f + xs.length) (hn : n = xs.length) :
    wp (tryMelsort lt f l n p) (fun r s' => ∃ ys, ys.Perm xs ∧ Seg s'.cell f ys ∧ Out f l s s' ∧
      (r = true → SortedList lt ys) ∧ (r = false → p ≤ xs.length)) s := by
  subst hl hn
  unfold tryMelsort
  split
  · apply wp_bind
    refine wp_mono ((C01_insertion_sorter hlt).sorts.run hw hs rfl) ?_
    rintro _ s' ⟨ys, h1, h2, h3, h4, h5⟩
    exact wp_pure ⟨ys, h1, h3, ⟨h4, h5⟩, fun _ => h2, fun h => by cases h⟩
  · rename_i h32
    obtain ⟨v, hv, hvl⟩ := hs.holds
    apply wp_bind
    have g := slabEncroach_at hlt (p := p) hv (f + xs.length - (f + 1)) (f + 1) [[f]] rfl (by omega) (by omega)
      Enc.one (by rw [show f + 1 - f = 1 by omega]; simp)
    refine wp_mono g.wp ?_
    rintro r _ ⟨⟨k, rfl⟩, hr⟩
    match r, hr with
    | none, hr =>
      have : p ≤ f + xs.length - f := hr
      exact wp_pure ⟨xs, List.Perm.refl _, hs, ⟨fun _ _ => rfl, hw⟩, fun h => (by cases h), fun _ => (by omega)⟩
    | some L, ⟨he, hp⟩ =>
      rw [show f + xs.length - f = xs.length by omega] at hp
      have hmem : ∀ i, i ∈ L.flatten ↔ f ≤ i ∧ i < f + xs.length := fun i => by
        rw [hp.mem_iff, List.mem_range'_1]
      dsimp only
      apply wp_bind
      refine wp_mono (slabReify_spec (v := v) L { s with cmps := k } (hp.nodup_iff.2 List.nodup_range') fun i hi => ?_) ?_
      · have := (hmem i).1 hi
        exact hv i this.1 this.2
      · rintro _ s1 ⟨rfl, q2, q3, q4⟩
        have hfl : (L.map (·.map v)).flatten.Perm xs := by
          rw [← List.map_flatten]
          refine (hp.map v).trans ?_
          rw [lst, show f + xs.length - f = xs.length by omega] at hvl
          rw [hvl]
        have hout : ∀ i, i < f ∨ f + xs.length ≤ i → s1.cell i = s.cell i := fun i hi => by
          rw [q4 i (by rw [hmem]; omega)]
        have hbe := hs.below hw (by omega)
        have hb1 : s1.brk = s.brk := St.env_brk q2
        have hw1 : s1.WF := fun i hi => by
          rw [hout i (by omega)]; exact hw i (by omega)
        apply wp_bind
        refine wp_mono (mergeEncroachingLists_spec hlt false he.map fun i y1 y2 => ?_) ?_
        · rw [hfl.length_eq] at y2
          exact .inl (q3 i ((hmem i).2 ⟨y1, y2⟩))
        · rintro _ s2 hres
          obtain ⟨ys, r1, r2, r3, r4⟩ := hres.out hw1 (by rw [hfl.length_eq]; omega)
          rw [hfl.length_eq] at r4
          exact wp_pure ⟨ys, r1.trans hfl, r3, ⟨fun i hi => (r4.cell i hi).trans (hout i hi), r4.wf⟩,
            fun _ => r2, fun h => by cases h⟩

/-! ### slabsort -/

/-- What a call that sorts `xs` at `f` does. -/
def Done (lt : α → α → Bool) (s s' : St α) (f : Nat) (xs : List α) : Prop :=
  ∃ ys, ys.Perm xs ∧ SortedList lt ys ∧ Seg s'.cell f ys ∧ Out f (f + xs.length) s s'

theorem slabsortImpl_spec [Inhabited α] (hlt : StrictWeak lt) (c : Cfg) (N : Nat) :
    ∀ (d p : Nat), N + 1 - p = d → 2 ≤ p → ∀ (q f l n : Nat) (xs : List α) (s : St α), xs.length ≤ N →
    l = f + xs.length → n = xs.length → s.WF → Seg s.cell f xs →
    wp (slabsortImpl lt c f l n p q) (fun _ s' => Done lt s s' f xs) s := by
  intro d
  induction d using Nat.strongRecOn with
  | _ d ihd =>
    intro p hd hp q
    induction q using Nat.strongRecOn with
    | _ q ihq =>
      intro f l n xs s hN hl hn hw hs
      subst hl hn
      rw [slabsortImpl]
      split
      · exact wp_pure ⟨xs, List.Perm.refl _, sortedList_short (by omega), hs, fun _ _ => rfl, hw⟩
      · rename_i h2
        apply wp_bind
        refine wp_mono (slabPartition_spec hlt c (by omega) hw hs) ?_
        rintro m s1 ⟨A, B, rfl, a2, a3, a4, a5⟩
        dsimp only
        have hlen := a2.length_eq
        rw [List.length_append] at hlen
        obtain ⟨sA, sB⟩ := seg_append.1 a3
        rw [show f + A.length - f = A.length by omega, show xs.length - A.length = B.length by omega]
        -- sorting the two parts sorts the range
        have fin : ∀ s2 s3, Done lt s1 s2 f A → Done lt s2 s3 (f + A.length) B → Done lt s s3 f xs := by
          rintro s2 s3 ⟨A', b1, b2, b3, b4⟩ ⟨B', c1, c2, c3, c4⟩
          refine ⟨A' ++ B', (b1.append c1).trans a2, sortedList_append.2 ⟨b2, c2, fun x hx y hy => ?_⟩,
            seg_append.2 ⟨b3.congr fun i y1 y2 => c4.cell i ?_, ?_⟩, a5.trans ((b4.sub (Nat.le_refl _) (by omega)).trans
              (c4.sub (by omega) (by omega)))⟩
          · exact a4 y (c1.mem_iff.1 hy) x (b1.mem_iff.1 hx)
          · rw [b1.length_eq] at y2; omega
          · rw [b1.length_eq]; exact c3
        have sB' : ∀ s2, Done lt s1 s2 f A → s2.WF ∧ Seg s2.cell (f + A.length) B := by
          rintro s2 ⟨A', b1, b2, b3, b4⟩
          exact ⟨b4.wf, sB.congr fun i y1 y2 => b4.cell i (by omega)⟩
        split
        · apply wp_bind
          refine wp_mono (ihq (q / 2) (by omega) f _ _ A s1 (by omega) rfl rfl a5.wf sA) ?_
          intro _ s2 hA
          refine wp_mono (ihq (q / 2) (by omega) _ _ _ B s2 (by omega) (by omega) rfl (sB' s2 hA).1 (sB' s2 hA).2) ?_
          exact fun _ s3 hB => fin s2 s3 hA hB
        · have hpp : p < p * p := by
            have := Nat.mul_le_mul_right p hp
            omega
          -- one part
          have part : ∀ (g : Nat) (Z : List α) (s : St α), Z.length ≤ N → s.WF → Seg s.cell g Z →
              wp (do
                let done ← tryMelsort lt g (g + Z.length) Z.length p
                if !done then
                  slabsortImpl lt c g (g + Z.length) Z.length (p * p) (p * p)
                else pure ()) (fun _ s' => Done lt s s' g Z) s := by
            intro g Z s hN hw hs
            apply wp_bind
            refine wp_mono (tryMelsort_spec hlt hw hs rfl rfl) ?_
            rintro r s1 ⟨ys, b1, b2, b3, b4, b5⟩
            cases r with
            | true => exact wp_pure ⟨ys, b1, b4 rfl, b2, b3⟩
            | false =>
              have := b5 rfl
              refine wp_mono (ihd (N + 1 - p * p) (by omega) (p * p) rfl (by omega) (p * p) g _ _ ys s1
                (by rw [b1.length_eq]; omega) (by rw [b1.length_eq]) b1.length_eq.symm b3.wf b2) ?_
              rintro _ s2 ⟨zs, c1, c2, c3, c4⟩
              rw [b1.length_eq] at c4
              exact ⟨zs, c1.trans b1, c2, c3, b3.trans c4⟩
          apply wp_bind
          refine wp_mono (part f A s1 (by omega) a5.wf sA) ?_
          intro _ s2 hA
          have hB := part (f + A.length) B s2 (by omega) (sB' s2 hA).1 (sB' s2 hA).2
          rw [show f + A.length + B.length = f + xs.length by omega] at hB
          refine wp_mono hB ?_
          exact fun _ s3 hB => fin s2 s3 hA hB

theorem slabsort_sorts [Inhabited α] (hlt : StrictWeak lt) (c : Cfg) : Sorts lt (slabsort lt c) := by
  intro s f xs hw hs
  have key : wp (slabsort lt c f (f + xs.length)) (fun _ s' => Done lt s s' f xs) s := by
    unfold slabsort
    dsimp only
    rw [show f + xs.length - f = xs.length by omega]
    split
    · exact wp_pure ⟨xs, List.Perm.refl _, sortedList_short (by omega), hs, fun _ _ => rfl, hw⟩
    · apply wp_bind
      refine wp_mono (tryMelsort_spec hlt hw hs rfl rfl) ?_
      rintro r s1 ⟨ys, b1, b2, b3, b4, b5⟩
      split
      · rename_i hr
        exact wp_pure ⟨ys, b1, b4 hr, b2, b3⟩
      · refine wp_mono (slabsortImpl_spec hlt c xs.length _ 2 rfl (Nat.le_refl _) 2 f _ _ ys s1
          (Nat.le_of_eq b1.length_eq) (by rw [b1.length_eq]) b1.length_eq.symm b3.wf b2) ?_
        rintro _ s2 ⟨zs, c1, c2, c3, c4⟩
        rw [b1.length_eq] at c4
        exact ⟨zs, c1.trans b1, c2, c3, b3.trans c4⟩
  obtain ⟨_, s', h1, ys, h2, h3, h4, h5⟩ := key
  exact ⟨s', ys, h1, h2.length_eq, h4, ⟨h2, h3⟩, h5.cell, h5.wf⟩

end CppSort
