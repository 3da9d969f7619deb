import Verif.Proof.Indie
import Verif.Proof.MergeSort
set_option autoImplicit false

namespace CppSort
variable {α β γ δ : Type} {lt : α → α → Bool}

theorem readRange_wp {v : Nat → α} {s : St α} : ∀ (n f : Nat), Holds s.cell f (f + n) v →
    ∀ {Q : List α → St α → Prop}, Q (lst v f (f + n)) s → wp (readRange f n) Q s := by
  intro n
  induction n with
  | zero =>
    intro f _ Q hQ
    rw [lst_nil (by omega)] at hQ
    exact wp_pure hQ
  | succ n ih =>
    intro f hh Q hQ
    rw [readRange]
    wread hh
    apply wp_bind
    refine ih (f + 1) (by rw [show f + 1 + n = f + (n + 1) by omega]; exact hh.sub (by omega) (by omega)) ?_
    apply wp_pure
    rw [lst_cons (by omega), show f + (n + 1) = f + 1 + n by omega] at hQ
    exact hQ

theorem finallyDo_wp {m : M α γ} {fin : M α Unit} {Q : γ → St α → Prop} {s : St α}
    (h : wp m (fun r s1 => wp fin (fun _ s2 => Q r s2) s1) s) : wp (finallyDo m fin) Q s := by
  obtain ⟨r, s1, e1, _, s2, e2, hq⟩ := h
  refine ⟨r, s2, ?_, hq⟩
  unfold finallyDo
  rw [e1]
  dsimp only
  rw [e2]

/-- What a program that uses an arbitrary sorter did to the range: like `Upd`, without the answers of the
allocator. -/
structure UpdW (f l : Nat) (s s' : St α) (v' : Nat → α) : Prop where
  holds : Holds s'.cell f l v'
  cell : ∀ i, i < f ∨ l ≤ i → s'.cell i = s.cell i
  brk : s.brk ≤ s'.brk

theorem holds_brk {s : St α} {f l : Nat} {v : Nat → α} (hw : s.WF) (hh : Holds s.cell f l v) {i : Nat}
    (h1 : f ≤ i) (h2 : i < l) : i < s.brk := by
  by_contra hc
  have := hw i (by omega)
  rw [hh i h1 h2] at this
  exact absurd this (by simp)

theorem UpdW.wf {f l : Nat} {s s' : St α} {v v' : Nat → α} (h : UpdW f l s s' v') (hw : s.WF)
    (hh : Holds s.cell f l v) : s'.WF := by
  intro i hi
  have hb := h.brk
  rw [h.cell i (by by_contra hc; have := holds_brk hw hh (i := i) (by omega) (by omega); omega)]
  exact hw i (by omega)

theorem UpdW.transforms {m : M α Unit} {s s' : St α} {first : Nat} {xs : List α} {v v' : Nat → α}
    {u : Unit} (h : UpdW first (first + xs.length) s s' v') (hw : s.WF)
    (hv : Holds s.cell first (first + xs.length) v)
    (hr : m s = some (.ok u, s')) {R : List α → Prop} (hR : R (lst v' first (first + xs.length))) :
    Transforms m s first xs R :=
  ⟨s', lst v' first (first + xs.length), hr, by simp, h.holds.seg, hR, h.cell, h.wf hw hv⟩

/-- The rule for a block with a vector: the body may rely on a raw block that it must not touch. -/
theorem withStorage_wp {n : Nat} {body : M α γ} {Q : γ → St α → Prop} {s : St α}
    (h : ∀ s1 : St α, (∀ k, s.brk ≤ k → k < s.brk + n → s1.cell k = .raw) →
      (∀ k, k < s.brk ∨ s.brk + n ≤ k → s1.cell k = s.cell k) → s1.brk = s.brk + n → s1.grant = s.grant →
      s1.cmps = s.cmps → s1.movs = s.movs →
      wp body (fun r s2 => (∀ k, s.brk ≤ k → k < s.brk + n → s2.cell k = .raw) ∧
        ∀ s3 : St α, (∀ k, s.brk ≤ k → k < s.brk + n → s3.cell k = .unalloc) →
          (∀ k, k < s.brk ∨ s.brk + n ≤ k → s3.cell k = s2.cell k) → s3.env = s2.env →
          s3.cmps = s2.cmps → s3.movs = s2.movs → Q r s3) s1) : wp (withStorage n body) Q s := by
  unfold withStorage
  apply wp_bind
  refine wp_alloc fun s1 a1 a2 a3 a4 a5 a6 => ?_
  apply finallyDo_wp
  refine wp_mono (h s1 a1 a2 a3 a4 a5 a6) ?_
  rintro r s2 ⟨b1, b2⟩
  refine wp_free b1 fun s3 c1 c2 c3 c4 c5 => ?_
  exact b2 s3 c1 c2 c3 c4 c5

theorem its_perm {xs : List α} {its : List (α × Nat)} {k : Nat} (h : its.Perm (xs.zipIdx k)) :
    ∃ σ, PermBelow xs.length σ ∧ ItsAt its k xs.length σ ∧
      ∀ j, j < xs.length → (its.map (·.1))[j]? = xs[σ j]? := by
  have hl : its.length = xs.length := by simpa using h.length_eq
  have hnd : (its.map (·.2)).Nodup := by
    rw [(h.map (·.2)).nodup_iff, List.zipIdx_map_snd]
    exact List.nodup_range'
  have hm : ∀ j (hj : j < its.length), k ≤ its[j].2 ∧ its[j].2 < k + xs.length ∧
      xs[its[j].2 - k]? = some its[j].1 := by
    intro j hj
    have := h.mem_iff.1 (List.getElem_mem hj)
    generalize its[j] = p at this
    obtain ⟨x, i⟩ := p
    have := List.mem_zipIdx_iff_le_and_getElem?_sub.1 this
    refine ⟨this.1, ?_, this.2⟩
    have := (List.getElem?_eq_some_iff.1 this.2).1
    dsimp only
    omega
  refine ⟨fun j => if hj : j < its.length then its[j].2 - k else j, ⟨?_, ?_⟩, ⟨hl, ?_⟩, ?_⟩
  · intro j hj
    have := hm j (by omega)
    rw [dif_pos (by omega)]
    omega
  · intro i j hi hj e
    rw [dif_pos (by omega), dif_pos (by omega)] at e
    have h1 := hm i (by omega)
    have h2 := hm j (by omega)
    have e' : its[i].2 = its[j].2 := by omega
    have : (its.map (·.2))[i]'(by simp; omega) = (its.map (·.2))[j]'(by simp; omega) := by simpa using e'
    exact (List.Nodup.getElem_inj_iff hnd).1 this
  · intro j hj
    have h1 := hm j (by omega)
    dsimp only
    rw [dif_pos (by omega)]
    refine ⟨its[j].1, ?_⟩
    rw [List.getElem?_eq_getElem (by omega), show k + (its[j].2 - k) = its[j].2 by omega]
  · intro j hj
    have h1 := hm j (by omega)
    dsimp only
    rw [dif_pos (by omega), h1.2.2, List.getElem?_map, List.getElem?_eq_getElem (by omega)]
    rfl

/-- What the parts common to both versions of indirect_adapter need from the loop that moves elements. -/
theorem indirect_glue {f n k : Nat} {s : St α} {v : Nat → α} {c : Prop} [Decidable c]
    {sorter : Nat → Nat → M (α × Nat) Unit} {loop : List (α × Nat) → M α Unit} {R : List (α × Nat) → Prop}
    (hw : s.WF) (hh : Holds s.cell f (f + n) v) (hc : c → n < 2)
    (hs : ∀ t : St (α × Nat), t.WF → Seg t.cell 0 ((lst v f (f + n)).zipIdx k) →
      Transforms (sorter 0 n) t 0 ((lst v f (f + n)).zipIdx k)
        (fun its => its.Perm ((lst v f (f + n)).zipIdx k) ∧ R its))
    (hl : ∀ its σ (s1 : St α), PermBelow n σ → ItsAt its k n σ → Holds s1.cell f (f + n) v →
      wp (loop its) (fun _ s' => ∃ w', (∀ j, j < n → w' (f + j) = v (f + σ j)) ∧ Upd f (f + n) s1 s' v w' ∧
        2 * s'.movs ≤ 2 * s1.movs + 3 * n) s1) :
    wp (withStorage n (do
      let xs ← readRange f n
      let (_, its) ← embed (xs.zipIdx k) (sorter 0 n)
      if c then pure () else loop its))
      (fun _ s' => ∃ w' its, its.Perm ((lst v f (f + n)).zipIdx k) ∧ R its ∧
        lst w' f (f + n) = its.map (·.1) ∧ UpdW f (f + n) s s' w' ∧ 2 * s'.movs ≤ 2 * s.movs + 3 * n) s := by
  have hb : ∀ i, f ≤ i → i < f + n → i < s.brk := fun i h1 h2 => holds_brk hw hh h1 h2
  refine withStorage_wp fun s1 a1 a2 a3 a4 a5 a6 => ?_
  have hh1 : Holds s1.cell f (f + n) v := fun i h1 h2 => by rw [a2 i (.inl (hb i h1 h2))]; exact hh i h1 h2
  apply wp_bind
  refine readRange_wp n f hh1 ?_
  apply wp_bind
  refine wp_mono ((embed_transforms hs).wp s1) ?_
  rintro ⟨_, its⟩ s2 ⟨⟨cm, g, rfl⟩, hlen, hp, hR⟩
  dsimp only at hlen hp hR ⊢
  obtain ⟨σ, p1, p2, p3⟩ := its_perm hp
  have hln : (lst v f (f + n)).length = n := by simp
  rw [hln] at p1 p2 p3
  have fin : ∀ (w' : Nat → α) (s4 : St α), (∀ j, j < n → w' (f + j) = v (f + σ j)) →
      Upd f (f + n) { s1 with cmps := cm, grant := g } s4 v w' → 2 * s4.movs ≤ 2 * s1.movs + 3 * n →
      (∀ k, s.brk ≤ k → k < s.brk + n → s4.cell k = .raw) ∧
        ∀ s3 : St α, (∀ k, s.brk ≤ k → k < s.brk + n → s3.cell k = .unalloc) →
          (∀ k, k < s.brk ∨ s.brk + n ≤ k → s3.cell k = s4.cell k) → s3.env = s4.env →
          s3.cmps = s4.cmps → s3.movs = s4.movs →
          ∃ w' its, its.Perm ((lst v f (f + n)).zipIdx k) ∧ R its ∧
            lst w' f (f + n) = its.map (·.1) ∧ UpdW f (f + n) s s3 w' ∧ 2 * s3.movs ≤ 2 * s.movs + 3 * n := by
    intro w' s4 q1 q2 q3
    have hout : ∀ i, s.brk ≤ i → i < f ∨ f + n ≤ i := fun i hi => by
      by_contra hc
      have := hb i (by omega) (by omega)
      omega
    refine ⟨fun i h1 h2 => ?_, fun s3 b1 b2 b3 b4 b5 => ⟨w', its, hp, hR, ?_, ⟨?_, ?_, ?_⟩, by omega⟩⟩
    · rw [q2.frame.cell i (hout i h1)]
      exact a1 i h1 h2
    · apply List.ext_getElem?
      intro j
      by_cases hj : j < n
      · rw [p3 j hj]
        have := p1.lt j hj
        rw [List.getElem?_eq_getElem (by simpa using hj), List.getElem?_eq_getElem (by simpa using this),
          lst_getElem, lst_getElem, q1 j hj]
      · rw [List.getElem?_eq_none (by simp; omega), List.getElem?_eq_none (by simp [p2.1]; omega)]
    · intro i h1 h2
      rw [b2 i (.inl (hb i h1 h2))]
      exact q2.holds i h1 h2
    · intro i hi
      by_cases hbi : s.brk ≤ i ∧ i < s.brk + n
      · rw [b1 i hbi.1 hbi.2, hw i hbi.1]
      · rw [b2 i (by omega), q2.frame.cell i hi]
        exact a2 i (by omega)
    · have h1 : s1.brk ≤ s4.brk := q2.frame.brk.1
      have h2 : s3.brk = s4.brk := congrArg Prod.fst b3
      omega
  by_cases hcc : c
  · rw [if_pos hcc]
    apply wp_pure
    refine fin v _ (fun j hj => ?_) (Upd.refl hh1) (by dsimp only; omega)
    have := hc hcc
    have h1 := p1.lt j hj
    rw [show σ j = j by omega]
  · rw [if_neg hcc]
    refine wp_mono (hl its σ _ p1 p2 hh1) ?_
    rintro _ s4 ⟨w', q1, q2, q3⟩
    exact fin w' s4 q1 q2 q3

theorem flags_start (n : Nat) : Flags (List.replicate n false) n ∅ :=
  ⟨by simp, fun j hj => by simp [hj]⟩

theorem indirectAdapter_spec {f n : Nat} {s : St α} {v : Nat → α} (ra unc : Bool)
    {sorter : Nat → Nat → M (α × Nat) Unit} {R : List α → Prop}
    (hw : s.WF) (hh : Holds s.cell f (f + n) v)
    (hs : ∀ k (t : St (α × Nat)), t.WF → Seg t.cell 0 ((lst v f (f + n)).zipIdx k) →
      Transforms (sorter 0 n) t 0 ((lst v f (f + n)).zipIdx k)
        (fun its => its.Perm ((lst v f (f + n)).zipIdx k) ∧ R (its.map (·.1)))) :
    wp (indirectAdapter ra unc sorter f (f + n)) (fun _ s' => ∃ w',
      (lst w' f (f + n)).Perm (lst v f (f + n)) ∧ R (lst w' f (f + n)) ∧ UpdW f (f + n) s s' w' ∧
      2 * s'.movs ≤ 2 * s.movs + 3 * n) s := by
  unfold indirectAdapter
  have hn : f + n - f = n := by omega
  have out : ∀ k (u : Unit) (s' : St α), (∃ (w' : Nat → α) (its : List (α × Nat)),
      its.Perm ((lst v f (f + n)).zipIdx k) ∧ R (its.map (·.1)) ∧
      lst w' f (f + n) = its.map (·.1) ∧ UpdW f (f + n) s s' w' ∧ 2 * s'.movs ≤ 2 * s.movs + 3 * n) →
      ∃ w', (lst w' f (f + n)).Perm (lst v f (f + n)) ∧ R (lst w' f (f + n)) ∧ UpdW f (f + n) s s' w' ∧
        2 * s'.movs ≤ 2 * s.movs + 3 * n := by
    rintro k _ s' ⟨w', its, h1, h2, h3, h4⟩
    refine ⟨w', ?_, by rwa [h3], h4⟩
    rw [h3]
    have := h1.map (·.1)
    rwa [List.zipIdx_map_fst] at this
  split
  · unfold sortIndirectly
    rw [hn]
    refine wp_mono (indirect_glue (k := f) (c := unc = true ∧ n < 2) (sorter := sorter)
      (loop := fun its => indirectLoop its f (f + n) f (List.replicate n false)) (R := fun its => R (its.map (·.1))) (f := f) (n := n) hw hh (fun h => h.2) (hs f) ?_) (out f)
    intro its σ s1 p1 p2 h1
    have := indirectLoop_spec p2 p1 (v := v) n 0 ∅ (List.replicate n false) v s1 (by omega) (Whole.empty _ _)
      (fun k hk => by omega) (fun _ => by simp) (flags_start n) (Turned.start _ _ _ _) h1
    rw [Nat.add_zero] at this
    refine wp_mono this ?_
    rintro _ s' ⟨w', a, b, c, d⟩
    exact ⟨w', a, b, by simpa using d⟩
  · unfold indiesort
    rw [hn]
    have g := indirect_glue (k := 0) (c := unc = true ∧ n < 2) (sorter := sorter)
      (loop := fun its => indieLoop its f 0 (its.map (·.2))) (R := fun its => R (its.map (·.1)))
      (f := f) (n := n) hw hh (fun h => h.2) (hs 0)
    refine wp_mono (g ?_) (out 0)
    intro its σ s1 p1 p2 h1
    refine wp_mono (indieLoop_spec p2 p1 (v := v) n 0 ∅ (its.map (·.2)) v s1 (by omega) (Whole.empty _ _)
      (fun k hk => by omega) ⟨by rw [List.length_map]; exact p2.1, fun j _ hj => ?_⟩ (Turned.start _ _ _ _) h1) ?_
    · obtain ⟨x, hx⟩ := p2.2 j hj
      rw [List.getElem?_map, hx]
      simp
    · rintro _ s' ⟨w', a, b, c, d⟩
      exact ⟨w', a, b, by simpa using d⟩

/-! ### Lists of iterators and lists of elements -/

theorem sorted_map_fst {its : List (α × Nat)} (h : SortedList (indirectLt lt) its) :
    SortedList lt (its.map (·.1)) := by
  unfold SortedList at h ⊢
  rw [List.pairwise_map]
  exact h

theorem filter_map_fst (x : α) (its : List (α × Nat)) :
    (its.map (·.1)).filter (eqv lt x) = (its.filter (eqv (indirectLt lt) (x, 0))).map (·.1) := by
  rw [List.filter_map]
  rfl

theorem sameOrder_map_fst {xs : List α} {its : List (α × Nat)} {k : Nat}
    (h : SameOrder (indirectLt lt) (xs.zipIdx k) its) : SameOrder lt xs (its.map (·.1)) := by
  intro x
  rw [filter_map_fst, h, ← filter_map_fst, List.zipIdx_map_fst]

end CppSort
