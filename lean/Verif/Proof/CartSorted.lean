import Verif.Proof.SplayCost
import Verif.Proof.Cartesian
/-
cartesian_tree_sorter on sorted ranges: the tree is a path, the priority queue never holds two nodes.
-/
set_option autoImplicit false

namespace CppSort
variable {α : Type} {lt : α → α → Bool}

/-- The links of the path `0, 1, …, k - 1` along the right children. -/
def PathNodes (nd : Nodes) (k : Nat) : Prop :=
  (∀ i, i < k → (nd (some i)).left = none) ∧ (∀ i, i + 1 < k → (nd (some i)).right = some (i + 1)) ∧
    (nd (some (k - 1))).right = none

theorem cartBuild_sorted {v : Nat → α} {f n base : Nat} {s0 : St α} (hfb : f + n ≤ base)
    (hso : ∀ i, i + 1 < n → lt (v (i + 1)) (v i) = false) :
    ∀ (m k : Nat) (nd : Nodes) (s : St α), k + m = n → 0 < k → PathNodes nd k → SplayMem v f n base k s0 s →
    wp (cartBuild lt base nd (some 0) (f + k) (f + n) k) (fun r s' => PathNodes r.1 n ∧ r.2 = some 0 ∧
      SplayMem v f n base n s0 s' ∧ s'.cmps = s.cmps + m) s := by
  intro m
  induction m with
  | zero =>
    intro k nd s hk h0 ht hm
    rw [cartBuild, if_neg (by omega)]
    obtain rfl : k = n := by omega
    exact wp_pure ⟨ht, rfl, hm, rfl⟩
  | succ m ih =>
    intro k nd s hk h0 ht hm
    rw [cartBuild, if_pos (by omega)]
    apply wp_bind
    have hv := hso (k - 1) (by omega)
    rw [show k - 1 + 1 = k by omega] at hv
    rw [cartFindParent.eq_def]
    dsimp only
    apply wp_bind
    refine wp_read' (hm.rest k (by omega) (by omega)) ?_
    apply wp_bind
    refine wp_read' (hm.nodes (k - 1) (by omega)) ?_
    wtick
    rw [if_neg (by rw [hv]; simp)]
    refine wp_pure ?_
    apply wp_bind
    refine wp_constructFrom (hm.rest k (by omega) (by omega)) (hm.raw k (by omega) (by omega))
      fun s2 d1 d2 d3 _ => ?_
    rw [if_neg (by simp)]
    have hm2 : SplayMem v f n base (k + 1) s0 s2 := by
      obtain ⟨m1, m2, m3, m4, m5, m6⟩ := hm
      dsimp only at d1
      constructor
      · intro i hi
        rw [d1]
        by_cases e : i = k
        · rw [e, sc_eq rfl]
        · rw [sc_ne (by omega), sc_ne (by omega)]; exact m1 i (by omega)
      · intro i h1 h2; rw [d1, sc_ne (by omega), sc_ne (by omega)]; exact m2 i (by omega) h2
      · intro i hi
        rw [d1]
        by_cases e : i = k
        · rw [e, sc_ne (by omega), sc_eq rfl]
        · rw [sc_ne (by omega), sc_ne (by omega)]; exact m3 i (by omega)
      · intro i h1 h2; rw [d1, sc_ne (by omega), sc_ne (by omega)]; exact m4 i (by omega) h2
      · intro i h1 h2; rw [d1, sc_ne (by omega), sc_ne (by omega)]; exact m5 i h1 h2
      · exact d2.trans m6
    obtain ⟨p1, p2, p3⟩ := ht
    have hp : PathNodes ((nd.set (some k) ⟨some (k - 1), (nd (some (k - 1))).right, none⟩).setRight (some (k - 1))
        (some k)) (k + 1) := by
      have e1 : ∀ i, i ≠ k → i ≠ k - 1 → ((nd.set (some k) ⟨some (k - 1), (nd (some (k - 1))).right, none⟩).setRight
          (some (k - 1)) (some k)) (some i) = nd (some i) := by
        intro i h1 h2
        unfold Nodes.setRight
        rw [Nodes.set_ne (by simpa using h2), Nodes.set_ne (by simpa using h1)]
      have hne : (some (k - 1) : Option Nat) ≠ some k := by simp; omega
      have e2 : ((nd.set (some k) ⟨some (k - 1), (nd (some (k - 1))).right, none⟩).setRight
          (some (k - 1)) (some k)) (some (k - 1)) = { nd (some (k - 1)) with right := some k } := by
        unfold Nodes.setRight
        rw [Nodes.set_eq, Nodes.set_ne hne]
      have e3 : ((nd.set (some k) ⟨some (k - 1), (nd (some (k - 1))).right, none⟩).setRight
          (some (k - 1)) (some k)) (some k) = ⟨some (k - 1), (nd (some (k - 1))).right, none⟩ := by
        unfold Nodes.setRight
        rw [Nodes.set_ne hne.symm, Nodes.set_eq]
      refine ⟨fun i hi => ?_, fun i hi => ?_, ?_⟩
      · by_cases h1 : i = k
        · rw [h1, e3]; exact p3
        · by_cases h2 : i = k - 1
          · rw [h2, e2]; exact p1 _ (by omega)
          · rw [e1 i h1 h2]; exact p1 i (by omega)
      · by_cases h2 : i = k - 1
        · rw [h2, e2, show k - 1 + 1 = k by omega]
        · rw [e1 i (by omega) h2]; exact p2 i (by omega)
      · rw [Nat.add_sub_cancel, e3]
    refine wp_mono (ih (k + 1) _ s2 (by omega) (by omega) hp hm2) ?_
    rintro r s' ⟨q1, q2, q3, q4⟩
    refine ⟨q1, q2, q3, ?_⟩
    rw [q4, d3]
    dsimp only
    omega

theorem onNodes_single {base x : Nat} {s : St α} {m : (Nat → Nat → M Nat Bool) → M Nat Unit}
    (hm : ∀ cmp, m cmp = pure ()) :
    wp (onNodes lt base [x] m) (fun q s' => q = [x] ∧ s'.cell = s.cell ∧ s'.cmps = s.cmps) s := by
  have h1 : wp (onNodes lt base [x] m) (fun q' s' => (∃ k g, s' = { s with cmps := k, grant := g }) ∧
      q'.Perm [x] ∧ ∃ w, q' = lst w 0 [x].length ∧ True) s := by
    refine onNodes_upd fun t ht => ?_
    rw [hm]
    exact wp_pure ⟨_, Upd.refl ht, trivial⟩
  refine wp_mono (h1.cost (onNodes_cost (k := 0) fun cmp _ => by rw [hm]; exact Cost.pure (Nat.le_refl _))) ?_
  rintro q s' ⟨⟨⟨k, g, rfl⟩, h2, -⟩, c, hc, -, hc0⟩
  exact ⟨List.perm_singleton.1 h2, rfl, by omega⟩

/-- The memory when the nodes `0, …, k - 1` have been moved back. -/
structure PathOut (v : Nat → α) (f n base k : Nat) (s : St α) : Prop where
  out : ∀ i, i < k → s.cell (f + i) = .val (v i)
  nodes : ∀ i, k ≤ i → i < n → s.cell (base + i) = .val (v i)
  gap : ∀ i, k ≤ i → i < n → s.cell (f + i) = .moved
  used : ∀ i, i < k → s.cell (base + i) = .moved

theorem cartExtract_sorted {v : Nat → α} {f n base : Nat} (hfb : f + n ≤ base) {nd : Nodes} (hp : PathNodes nd n) :
    ∀ (m k : Nat) (s : St α), k + m + 1 = n → PathOut v f n base k s →
    wp (cartExtract lt base nd (f + k) [k]) (fun _ s' => PathOut v f n base n s' ∧ s'.cmps = s.cmps) s := by
  obtain ⟨p1, p2, p3⟩ := hp
  intro m
  induction m with
  | zero =>
    intro k s hk ho
    rw [cartExtract.eq_def]
    dsimp only
    apply wp_bind
    refine wp_moveTo' (by omega) (ho.nodes k (by omega) (by omega)) (.inl (ho.gap k (by omega) (by omega)))
      fun s1 c1 c2 c3 _ => ?_
    apply wp_bind
    unfold cartNext
    have e : k = n - 1 := by omega
    rw [p1 k (by omega), e, p3, ← e]
    dsimp only
    apply wp_bind
    refine wp_mono (onNodes_single fun cmp => by simp [popHeap]) ?_
    rintro q s2 ⟨rfl, d1, d3⟩
    refine wp_pure ?_
    rw [List.dropLast_singleton, cartExtract.eq_def]
    refine wp_pure ⟨⟨fun i hi => ?_, fun i h1 h2 => by omega, fun i h1 h2 => by omega, fun i hi => ?_⟩,
      by omega⟩
    · rw [d1, c1]
      by_cases h : i = k
      · rw [h, sc_eq rfl]
      · rw [sc_ne (by omega), sc_ne (by omega)]; exact ho.out i (by omega)
    · rw [d1, c1, sc_ne (by omega)]
      by_cases h : i = k
      · rw [h, sc_eq rfl]
      · rw [sc_ne (by omega)]; exact ho.used i (by omega)
  | succ m ih =>
    intro k s hk ho
    rw [cartExtract.eq_def]
    dsimp only
    apply wp_bind
    refine wp_moveTo' (by omega) (ho.nodes k (by omega) (by omega)) (.inl (ho.gap k (by omega) (by omega)))
      fun s1 c1 c2 c3 _ => ?_
    apply wp_bind
    unfold cartNext
    rw [p1 k (by omega), p2 k (by omega)]
    dsimp only
    refine wp_mono (onNodes_single fun cmp => by simp [siftDown]) ?_
    rintro q s2 ⟨rfl, d1, d3⟩
    refine wp_mono (ih (k + 1) s2 (by omega) ⟨fun i hi => ?_, fun i h1 h2 => ?_, fun i h1 h2 => ?_, fun i hi => ?_⟩)
      fun _ s' h => ⟨h.1, by have := h.2; omega⟩
    · rw [d1, c1]
      by_cases h : i = k
      · rw [h, sc_eq rfl]
      · rw [sc_ne (by omega), sc_ne (by omega)]; exact ho.out i (by omega)
    · rw [d1, c1, sc_ne (by omega), sc_ne (by omega)]; exact ho.nodes i (by omega) h2
    · rw [d1, c1, sc_ne (by omega), sc_ne (by omega)]; exact ho.gap i (by omega) h2
    · rw [d1, c1, sc_ne (by omega)]
      by_cases h : i = k
      · rw [h, sc_eq rfl]
      · rw [sc_ne (by omega)]; exact ho.used i (by omega)

theorem cartesianTreeSort_sorted [Inhabited α] {s s' : St α} {f : Nat} {xs : List α} (hw : s.WF)
    (hs : Seg s.cell f xs) (hso : SortedList lt xs)
    (hr : cartesianTreeSort lt f (f + xs.length) s = some (.ok (), s')) :
    Seg s'.cell f xs ∧ s'.cmps = s.cmps + (xs.length - 1) := by
  simp only [cartesianTreeSort, Nat.add_sub_cancel_left] at hr
  by_cases hlen : xs.length < 2
  · rw [if_pos hlen] at hr
    cases hr
    exact ⟨hs, by omega⟩
  rw [if_neg hlen] at hr
  have hbrk := hs.below hw (by omega)
  obtain ⟨v, hv⟩ : ∃ v : Nat → α, ∀ i (h : i < xs.length), xs[i] = v i :=
    ⟨fun i => xs.getD i default, fun i h => by simp [h]⟩
  obtain ⟨base, s1, h1, hr⟩ := bind_inv hr
  obtain ⟨_, s2, h2, hr⟩ := bind_inv hr
  obtain ⟨⟨nd, root⟩, s3, h3, hr⟩ := bind_inv hr
  obtain ⟨rfl, b1, b2, b4⟩ : base = s.brk ∧ (∀ k, s.brk ≤ k → k < s.brk + xs.length → s1.cell k = .raw) ∧
      (∀ k, k < s.brk ∨ s.brk + xs.length ≤ k → s1.cell k = s.cell k) ∧ s1.cmps = s.cmps :=
    (wp_alloc (Q := fun b s1 => b = s.brk ∧ (∀ k, s.brk ≤ k → k < s.brk + xs.length → s1.cell k = .raw) ∧
      (∀ k, k < s.brk ∨ s.brk + xs.length ≤ k → s1.cell k = s.cell k) ∧ s1.cmps = s.cmps)
      fun s' c1 c2 _ _ c5 _ => ⟨rfl, c1, c2, c5⟩).run h1
  have hcell : ∀ i, i < xs.length → s1.cell (f + i) = .val (v i) := fun i hi => by
    rw [b2 _ (by omega), hs i hi, hv i hi]
  obtain ⟨d1, d2⟩ : s2.cell = setCell (setCell s1.cell f .moved) s.brk (.val (v 0)) ∧ s2.cmps = s1.cmps :=
    (wp_constructFrom (Q := fun _ s2 => s2.cell = setCell (setCell s1.cell f .moved) s.brk (.val (v 0)) ∧
      s2.cmps = s1.cmps) (hcell 0 (by omega)) (b1 _ (by omega) (by omega)) fun s' c1 _ c3 _ => ⟨c1, c3⟩).run h2
  have hmem : SplayMem v f xs.length s.brk 1 s2 s2 := by
    constructor
    · intro i hi
      obtain rfl : i = 0 := by omega
      rw [d1, Nat.add_zero, sc_eq rfl]
    · intro i h1 h2; rw [d1, sc_ne (by omega), sc_ne (by omega)]; exact b1 _ (by omega) (by omega)
    · intro i hi
      obtain rfl : i = 0 := by omega
      rw [d1, Nat.add_zero, sc_ne (by omega), sc_eq rfl]
    · intro i h1 h2; rw [d1, sc_ne (by omega), sc_ne (by omega)]; exact hcell i h2
    · intro i _ _; rfl
    · rfl
  have hpath : PathNodes (Nodes.empty.set (some 0) ⟨none, none, none⟩) 1 := by
    refine ⟨fun i hi => ?_, fun i hi => by omega, rfl⟩
    obtain rfl : i = 0 := by omega
    rfl
  obtain ⟨e1, rfl, e2, e3⟩ := (cartBuild_sorted (lt := lt) hbrk (fun i hi => by
    rw [← hv (i + 1) hi, ← hv i (by omega)]
    exact List.pairwise_iff_getElem.1 hso i (i + 1) (by omega) hi (by omega))
    (xs.length - 1) 1 _ s2 (by omega) (by omega) hpath hmem).run h3
  dsimp only at hr
  obtain ⟨_, s4, h4, hr⟩ := bind_inv hr
  obtain ⟨_, s5, h5, hr⟩ := bind_inv hr
  obtain ⟨g1, g2⟩ := (cartExtract_sorted (lt := lt) (v := v) hbrk e1 (xs.length - 1) 0 s3 (by omega)
    ⟨fun i hi => by omega, fun i _ hi => e2.nodes i hi, fun i _ hi => e2.moved i hi, fun i hi => by omega⟩).run h4
  obtain ⟨k1, k2, -, k4, -⟩ := (destroyN_spec xs.length s.brk s4 fun k q1 q2 => by
    have := g1.used (k - s.brk) (by omega)
    rw [show s.brk + (k - s.brk) = k by omega] at this
    exact .inl this).run h5
  obtain ⟨l1, l2⟩ : (∀ i, i < s.brk ∨ s.brk + xs.length ≤ i → s'.cell i = s5.cell i) ∧ s'.cmps = s5.cmps :=
    (wp_free (Q := fun _ s' => (∀ i, i < s.brk ∨ s.brk + xs.length ≤ i → s'.cell i = s5.cell i) ∧
      s'.cmps = s5.cmps) k1 fun s' _ c2 _ c4 _ => ⟨c2, c4⟩).run hr
  refine ⟨fun i hi => ?_, by omega⟩
  rw [l1 _ (by omega), k2 _ (by omega), g1.out i hi, hv i hi]

end CppSort
