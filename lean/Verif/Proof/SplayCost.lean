import Verif.Proof.Splay
import Verif.Proof.SymCost
import Verif.Proof.MergeCost
import Verif.Proof.PdqBlockCost
/-
Comparisons of splaysort: the amortized analysis of splay trees, with integer ranks.
-/
set_option autoImplicit false

namespace CppSort
variable {α : Type} {lt : α → α → Bool}

/-- Number of nodes. -/
def BT.sz : BT → Nat
  | leaf => 0
  | node l _ r => l.sz + r.sz + 1

/-- Sum of the ranks of the nodes. -/
def BT.pot : BT → Nat
  | leaf => 0
  | node l _ r => Nat.log2 (l.sz + r.sz + 1) + l.pot + r.pot

/-- Sum of the ranks of the nodes of a tree with a hole filled by `m` nodes. -/
def potC : Nat → List Fr → Nat
  | _, [] => 0
  | m, f :: fs => Nat.log2 (m + f.t.sz + 1) + f.t.pot + potC (m + f.t.sz + 1) fs

/-- Number of nodes of a tree with a hole filled by `m` nodes. -/
def szC : Nat → List Fr → Nat
  | m, [] => m
  | m, f :: fs => szC (m + f.t.sz + 1) fs

theorem BT.inord_length : ∀ t : BT, t.inord.length = t.sz
  | leaf => rfl
  | node l k r => by
    simp only [inord, List.length_append, List.length_cons, inord_length l, inord_length r, sz]; omega

theorem whole_length : ∀ (fs : List Fr) (t : BT), (whole t fs).length = szC t.sz fs := by
  intro fs
  induction fs with
  | nil => intro t; simp [whole, pre, post, szC, BT.inord_length]
  | cons f fs ih =>
    intro t
    have := ih (.node t f.k f.t)
    simp only [szC, BT.sz] at this ⊢
    rw [← this]
    simp only [whole, pre, post, BT.inord]
    split <;> simp [List.length_append] <;> omega

theorem le_szC : ∀ (fs : List Fr) (m : Nat), m ≤ szC m fs := by
  intro fs
  induction fs with
  | nil => intro m; exact Nat.le_refl _
  | cons f fs ih => intro m; have := ih (m + f.t.sz + 1); simp only [szC]; omega

theorem log2_add {x y z : Nat} (hx : 0 < x) (hy : 0 < y) (h : x + y ≤ z) :
    Nat.log2 x + Nat.log2 y + 1 ≤ 2 * Nat.log2 z := by
  have h1 : Nat.log2 x ≤ Nat.log2 z := log2_mono (by omega)
  have h2 : Nat.log2 y ≤ Nat.log2 z := log2_mono (by omega)
  by_contra hc
  have e1 : Nat.log2 x = Nat.log2 z := by omega
  have e2 : Nat.log2 y = Nat.log2 z := by omega
  have p1 : 2 ^ Nat.log2 z ≤ x := (Nat.le_log2 (by omega)).1 (by omega)
  have p2 : 2 ^ Nat.log2 z ≤ y := (Nat.le_log2 (by omega)).1 (by omega)
  have p3 : 2 ^ (Nat.log2 z + 1) ≤ z := by rw [Nat.pow_succ]; omega
  have := (Nat.le_log2 (by omega)).2 p3
  omega

/-- A double rotation to the outside. -/
theorem zigzig {a b c d x y' y z' Z : Nat} (hx : x = a + b + 1) (hy : y = a + b + c + 2) (hz' : z' = c + d + 1)
    (hy' : y' = b + c + d + 2) (hZ : Z = a + b + c + d + 3) :
    Nat.log2 y' + Nat.log2 z' + 1 + 2 * Nat.log2 x ≤ Nat.log2 y + 3 * Nat.log2 Z := by
  have h1 : Nat.log2 x ≤ Nat.log2 y := log2_mono (by omega)
  have h2 : Nat.log2 y' ≤ Nat.log2 Z := log2_mono (by omega)
  have h3 := log2_add (x := x) (y := z') (z := Z) (by omega) (by omega) (by omega)
  omega

/-- A double rotation to the inside. -/
theorem zigzag {a b c d x y' y z' Z : Nat} (hx : x = a + b + 1) (hy : y = a + b + c + 2) (hz' : z' = a + d + 1)
    (hy' : y' = b + c + 1) (hZ : Z = a + b + c + d + 3) :
    Nat.log2 y' + Nat.log2 z' + 1 + 2 * Nat.log2 x ≤ Nat.log2 y + 3 * Nat.log2 Z := by
  have h1 : Nat.log2 x ≤ Nat.log2 y := log2_mono (by omega)
  have h2 : Nat.log2 x ≤ Nat.log2 Z := log2_mono (by omega)
  have h3 := log2_add (x := y') (y := z') (z := Z) (by omega) (by omega) (by omega)
  omega

theorem splayStep_cost {nd : Nodes} {k : Nat} {a b : BT} {f : Fr} {fs : List Fr}
    (h : At nd k (.node a k b) (f :: fs)) :
    ∃ a' b' fs', At (splayStep nd (some k) (nd (some k)).parent) k (.node a' k b') fs' ∧
      whole (.node a' k b') fs' = whole (.node a k b) (f :: fs) ∧
      (fs' = [] ∧ fs = [] ∧ (BT.node a' k b').pot + 3 * Nat.log2 (BT.node a k b).sz ≤
          (BT.node a k b).pot + potC (BT.node a k b).sz (f :: fs) + 3 * Nat.log2 (BT.node a' k b').sz ∨
        fs'.length + 1 = fs.length ∧
          (BT.node a' k b').pot + potC (BT.node a' k b').sz fs' + 1 + 3 * Nat.log2 (BT.node a k b).sz ≤
          (BT.node a k b).pot + potC (BT.node a k b).sz (f :: fs) + 3 * Nat.log2 (BT.node a' k b').sz) := by
  obtain ⟨hp, hup⟩ := h.up
  have hl := h.leftChild rfl
  obtain ⟨fl, p, c⟩ := f
  dsimp only at *
  unfold splayStep
  rw [hp]
  dsimp only
  have l1 : Nat.log2 (a.sz + b.sz + 1) ≤ Nat.log2 (a.sz + b.sz + 1 + c.sz + 1) := log2_mono (by omega)
  have l2 : Nat.log2 (b.sz + c.sz + 1) ≤ Nat.log2 (a.sz + b.sz + 1 + c.sz + 1) := log2_mono (by omega)
  have l3 : Nat.log2 (c.sz + a.sz + 1) ≤ Nat.log2 (a.sz + b.sz + 1 + c.sz + 1) := log2_mono (by omega)
  cases fs with
  | nil =>
    have hg : (nd (some p)).parent = none := hup.ctx
    rw [if_pos hg]
    split
    · rename_i e
      have := hl.1 e
      subst this
      refine ⟨_, _, _, h.rotRight, by simp [whole, pre, post, BT.inord], .inl ⟨rfl, rfl, ?_⟩⟩
      simp only [BT.pot, BT.sz, potC]
      rw [show a.sz + (b.sz + c.sz + 1) + 1 = a.sz + b.sz + 1 + c.sz + 1 by omega]
      omega
    · rename_i e
      have : fl = false := by
        cases fl
        · rfl
        · exact absurd (hl.2 rfl) e
      subst this
      refine ⟨_, _, _, h.rotLeft, by simp [whole, pre, post, BT.inord], .inl ⟨rfl, rfl, ?_⟩⟩
      simp only [BT.pot, BT.sz, potC]
      rw [show c.sz + a.sz + 1 + b.sz + 1 = a.sz + b.sz + 1 + c.sz + 1 by omega]
      omega
  | cons g fs =>
    obtain ⟨hg, -⟩ := hup.up
    have hl2 := hup.leftChild (by cases fl <;> rfl)
    rw [hg, if_neg (by simp)]
    obtain ⟨gl, g, d⟩ := g
    dsimp only at *
    cases gl <;> cases fl
    · rw [if_neg (by rw [hl2]; simp), if_neg (by rw [hl]; simp)]
      have h1 := At.rotLeft (nd := nd) (k := p) (p := g) (b := c) (a := .node a k b) (c := d) hup
      have h2 := (At.goRight h1).2
      refine ⟨_, _, _, h2.rotLeft, by simp [whole, pre, post, BT.inord], .inr ⟨rfl, ?_⟩⟩
      simp only [BT.pot, BT.sz, potC]
      have := zigzig (a := b.sz) (b := a.sz) (c := c.sz) (d := d.sz) (x := a.sz + b.sz + 1)
        (y := a.sz + b.sz + 1 + c.sz + 1) (z' := d.sz + c.sz + 1) (y' := d.sz + c.sz + 1 + a.sz + 1)
        (Z := a.sz + b.sz + 1 + c.sz + 1 + d.sz + 1) (by omega) (by omega) (by omega) (by omega) (by omega)
      rw [show d.sz + c.sz + 1 + a.sz + 1 + b.sz + 1 = a.sz + b.sz + 1 + c.sz + 1 + d.sz + 1 by omega]
      omega
    · rw [if_neg (by rw [hl2]; simp), if_pos (by rw [hl])]
      refine ⟨_, _, _, h.rotRight.rotLeft, by simp [whole, pre, post, BT.inord], .inr ⟨rfl, ?_⟩⟩
      simp only [BT.pot, BT.sz, potC]
      have := zigzag (a := a.sz) (b := b.sz) (c := c.sz) (d := d.sz) (x := a.sz + b.sz + 1)
        (y := a.sz + b.sz + 1 + c.sz + 1) (z' := d.sz + a.sz + 1) (y' := b.sz + c.sz + 1)
        (Z := a.sz + b.sz + 1 + c.sz + 1 + d.sz + 1) (by omega) (by omega) (by omega) (by omega) (by omega)
      rw [show d.sz + a.sz + 1 + (b.sz + c.sz + 1) + 1 = a.sz + b.sz + 1 + c.sz + 1 + d.sz + 1 by omega]
      omega
    · rw [if_pos (by rw [hl2]), if_neg (by rw [hl]; simp)]
      refine ⟨_, _, _, h.rotLeft.rotRight, by simp [whole, pre, post, BT.inord], .inr ⟨rfl, ?_⟩⟩
      simp only [BT.pot, BT.sz, potC]
      have := zigzag (a := b.sz) (b := a.sz) (c := c.sz) (d := d.sz) (x := a.sz + b.sz + 1)
        (y := a.sz + b.sz + 1 + c.sz + 1) (z' := b.sz + d.sz + 1) (y' := c.sz + a.sz + 1)
        (Z := a.sz + b.sz + 1 + c.sz + 1 + d.sz + 1) (by omega) (by omega) (by omega) (by omega) (by omega)
      rw [show c.sz + a.sz + 1 + (b.sz + d.sz + 1) + 1 = a.sz + b.sz + 1 + c.sz + 1 + d.sz + 1 by omega]
      omega
    · rw [if_pos (by rw [hl2]), if_pos (by rw [hl])]
      have h1 := At.rotRight (nd := nd) (k := p) (p := g) (a := .node a k b) (b := c) (c := d) hup
      have h2 := (At.goLeft h1).2
      refine ⟨_, _, _, h2.rotRight, by simp [whole, pre, post, BT.inord], .inr ⟨rfl, ?_⟩⟩
      simp only [BT.pot, BT.sz, potC]
      have := zigzig (a := a.sz) (b := b.sz) (c := c.sz) (d := d.sz) (x := a.sz + b.sz + 1)
        (y := a.sz + b.sz + 1 + c.sz + 1) (z' := c.sz + d.sz + 1) (y' := b.sz + (c.sz + d.sz + 1) + 1)
        (Z := a.sz + b.sz + 1 + c.sz + 1 + d.sz + 1) (by omega) (by omega) (by omega) (by omega) (by omega)
      rw [show a.sz + (b.sz + (c.sz + d.sz + 1) + 1) + 1 = a.sz + b.sz + 1 + c.sz + 1 + d.sz + 1 by omega]
      omega

theorem splay_cost {s : St α} : ∀ (m : Nat) {nd : Nodes} {k : Nat} {a b : BT} {f : Fr} {fs : List Fr}, fs.length < m →
    At nd k (.node a k b) (f :: fs) →
    wp (splay nd (some k) (nd (some k)).parent) (fun nd' s' => s' = s ∧ ∃ a' b',
      At nd' k (.node a' k b') [] ∧ (BT.node a' k b').inord = whole (.node a k b) (f :: fs) ∧
      2 * (BT.node a' k b').pot + (f :: fs).length + 6 * Nat.log2 (BT.node a k b).sz ≤
        2 * ((BT.node a k b).pot + potC (BT.node a k b).sz (f :: fs)) + 6 * Nat.log2 (BT.node a' k b').sz + 1) s := by
  intro m
  induction m with
  | zero => intro nd k a b f fs h; omega
  | succ m ih =>
    intro nd k a b f fs hm h
    rw [splay]
    obtain ⟨a', b', fs', h1, h2, h3⟩ := splayStep_cost h
    simp only [List.length_cons]
    split
    · rename_i hne
      cases fs' with
      | nil => exact absurd h1.ctx hne
      | cons f' fs' =>
        rcases h3 with ⟨h3, -⟩ | ⟨h3, h4⟩
        · cases h3
        simp only [List.length_cons] at h3
        refine wp_mono (ih (by omega) h1) ?_
        rintro nd' s' ⟨rfl, a2, b2, g1, g2, g3⟩
        simp only [List.length_cons] at g3
        exact ⟨rfl, a2, b2, g1, g2.trans h2, by omega⟩
    · rename_i hne
      cases fs' with
      | nil =>
        refine wp_pure ⟨rfl, a', b', h1, by rw [← h2]; simp [whole, pre, post], ?_⟩
        rcases h3 with ⟨-, rfl, h4⟩ | ⟨h3, h4⟩
        · simp only [List.length_nil]; omega
        · simp only [List.length_nil] at h3
          have : potC (BT.node a' k b').sz [] = 0 := rfl
          omega
      | cons f' fs' =>
        have := h1.ctx.1
        rw [this] at hne
        simp at hne

/-- A new node in the hole. -/
theorem potC_succ : ∀ (fs : List Fr) (m : Nat),
    potC (m + 1) fs + Nat.log2 (m + 1) ≤ potC m fs + Nat.log2 (szC (m + 1) fs) := by
  intro fs
  induction fs with
  | nil => intro m; simp only [potC, szC]; omega
  | cons f fs ih =>
    intro m
    have h1 := ih (m + f.t.sz + 1)
    simp only [potC, szC]
    rw [show m + 1 + f.t.sz + 1 = m + f.t.sz + 1 + 1 by omega]
    have : Nat.log2 (m + 1) ≤ Nat.log2 (m + f.t.sz + 1) := log2_mono (by omega)
    omega

theorem Cost.of_wp {β : Type} {N : Nat} {m : M α β} {P : β → Prop}
    (h : ∀ s, wp m (fun r s' => s' = s ∧ P r) s) : Cost N m (fun r c => c = 0 ∧ P r) := by
  intro s r s' hg hr
  obtain ⟨r1, s1, h1, rfl, h3⟩ := h s
  rw [hr] at h1
  simp only [Option.some.injEq, Prod.mk.injEq, Except.ok.injEq] at h1
  obtain ⟨rfl, rfl⟩ := h1
  exact ⟨hg, 0, rfl, rfl, h3⟩

theorem splayInsert_cost {N base it k : Nat} {nd : Nodes} : ∀ (t : BT) {l r : BT} {j : Nat} {fs : List Fr},
    t = .node l j r → At nd j t fs → (∀ i ∈ whole t fs, i < k) →
    Cost N (splayInsert (tick lt) base nd it k (some j)) (fun nd' c => ∃ a b, At nd' k (.node a k b) [] ∧
      (BT.node a k b).sz = (whole t fs).length + 1 ∧ (∀ i ∈ (BT.node a k b).inord, i < k + 1) ∧
      2 * (BT.node a k b).pot + fs.length + c ≤
        2 * (t.pot + potC t.sz fs) + 8 * Nat.log2 ((whole t fs).length + 1) + 1) := by
  intro t
  induction t with
  | leaf => intro l r j fs h; cases h
  | node l j r ihl ihr =>
    intro l' r' j' fs ht ha hb
    cases ht
    rw [splayInsert]
    refine (silent_read _).costBind fun x => (silent_read _).costBind fun y => Cost.tickBind fun bb => ?_
    have hkw : k ∉ whole (.node l j r) fs := fun h => Nat.lt_irrefl _ (hb k h)
    have fin : ∀ {nd1 : Nodes} {f : Fr} {t1 : BT}, At nd1 k (.node .leaf k .leaf) (f :: fs) →
        f.t = t1 → (BT.node l j r).sz = t1.sz + 1 → (BT.node l j r).pot = Nat.log2 (t1.sz + 1) + t1.pot →
        (∀ i ∈ whole (.node .leaf k .leaf) (f :: fs), i = k ∨ i ∈ whole (.node l j r) fs) →
        Cost (α := α) N (do
          constructFrom (base + k) it
          splay nd1 (some k) (nd1 (some k)).parent) (fun nd' c => ∃ a b, At nd' k (.node a k b) [] ∧
          (BT.node a k b).sz = (whole (.node l j r) fs).length + 1 ∧ (∀ i ∈ (BT.node a k b).inord, i < k + 1) ∧
          2 * (BT.node a k b).pot + fs.length + (1 + c) ≤
            2 * ((BT.node l j r).pot + potC (BT.node l j r).sz fs) +
              8 * Nat.log2 ((whole (.node l j r) fs).length + 1) + 1) := by
      intro nd1 f t1 c1 c2 c3 c4 c5
      refine (silent_constructFrom _ _).costBind fun _ => ?_
      refine (Cost.of_wp fun s => splay_cost (s := s) _ (Nat.lt_succ_self _) c1).mono ?_
      rintro nd' c ⟨rfl, a, b, g1, g2, g3⟩
      have hsz : (BT.node a k b).sz = (whole (.node l j r) fs).length + 1 := by
        rw [← BT.inord_length, g2, whole_length, whole_length, c3]
        have e : ∀ (fs : List Fr) (m : Nat), szC (m + 1) fs = szC m fs + 1 := by
          intro fs
          induction fs with
          | nil => intro m; rfl
          | cons f fs ih =>
            intro m
            simp only [szC]
            rw [show m + 1 + f.t.sz + 1 = m + f.t.sz + 1 + 1 by omega, ih]
        rw [← e]
        simp only [szC, BT.sz, c2]
        congr 1
        omega
      refine ⟨a, b, g1, hsz, fun i hi => ?_, ?_⟩
      · rw [g2] at hi
        rcases c5 i hi with e | e
        · omega
        · have := hb i e; omega
      · rw [hsz] at g3
        have h1 := potC_succ fs (t1.sz + 1)
        have h2 : szC (t1.sz + 1 + 1) fs = (whole (.node l j r) fs).length + 1 := by
          rw [← hsz, ← BT.inord_length (.node a k b), g2, whole_length]
          simp only [szC, BT.sz, c2]
          congr 1
          omega
        rw [h2] at h1
        simp only [List.length_cons] at g3
        have h3 : (BT.node .leaf k .leaf).pot + potC (BT.node .leaf k .leaf).sz (f :: fs) =
            Nat.log2 (t1.sz + 1 + 1) + t1.pot + potC (t1.sz + 1 + 1) fs := by
          have : Nat.log2 1 = 0 := by decide
          simp only [BT.pot, BT.sz, potC, c2]
          rw [show 0 + 0 + 1 + t1.sz + 1 = t1.sz + 1 + 1 by omega, show 0 + 0 + 1 = 1 by omega, this]
          omega
        have h4 : (BT.node .leaf k .leaf).sz = 1 := rfl
        have h5 : Nat.log2 1 = 0 := by decide
        rw [h3, h4, h5] at g3
        rw [c4, c3]
        omega
    split
    · split
      · rename_i hn
        cases l with
        | node a i b =>
          have := (ha.goLeft).1
          rw [this] at hn; cases hn
        | leaf =>
          refine fin (At.newLeft ha hkw) rfl ?_ ?_ ?_
          · simp only [BT.sz]; omega
          · simp only [BT.sz, BT.pot]; rw [Nat.zero_add]; omega
          · intro i hi
            simp only [whole, pre, post, BT.inord, if_true] at hi ⊢
            simp at hi ⊢
            tauto
      · rename_i hn
        cases l with
        | leaf => exact absurd ha.rep.2.2.1 hn
        | node a i b =>
          have hg := ha.goLeft
          rw [hg.1]
          have hw : whole (.node a i b) (⟨true, j, r⟩ :: fs) = whole (.node (.node a i b) j r) fs := by
            simp [whole, pre, post, BT.inord]
          rw [← hw] at hb ⊢
          refine (ihl rfl hg.2 hb).mono ?_
          rintro nd' c ⟨a1, b1, e1, e2, e3, e4⟩
          refine ⟨a1, b1, e1, e2, e3, ?_⟩
          simp only [List.length_cons, BT.pot, BT.sz, potC] at e4 ⊢
          omega
    · split
      · rename_i hn
        cases r with
        | node a i b =>
          have := (ha.goRight).1
          rw [this] at hn; cases hn
        | leaf =>
          refine fin (At.newRight ha hkw) rfl ?_ ?_ ?_
          · simp only [BT.sz, Nat.add_zero]
          · simp only [BT.sz, BT.pot, Nat.add_zero]
          · intro i hi
            simp only [whole, pre, post, BT.inord, if_false] at hi ⊢
            simp at hi ⊢
            tauto
      · rename_i hn
        cases r with
        | leaf => exact absurd ha.rep.2.2.2 hn
        | node a i b =>
          have hg := ha.goRight
          rw [hg.1]
          have hw : whole (.node a i b) (⟨false, j, l⟩ :: fs) = whole (.node l j (.node a i b)) fs := by
            simp [whole, pre, post, BT.inord]
          rw [← hw] at hb ⊢
          refine (ihr rfl hg.2 hb).mono ?_
          rintro nd' c ⟨a1, b1, e1, e2, e3, e4⟩
          refine ⟨a1, b1, e1, e2, e3, ?_⟩
          simp only [List.length_cons, BT.pot, BT.sz, potC] at e4 ⊢
          rw [show a.sz + b.sz + 1 + l.sz + 1 = l.sz + (a.sz + b.sz + 1) + 1 by omega] at e4
          omega

theorem splayBuild_cost {N base last n : Nat} : ∀ (m k first : Nat) (nd : Nodes) (a b : BT), k + m = n → 0 < k →
    first + m = last → At nd (k - 1) (.node a (k - 1) b) [] → (BT.node a (k - 1) b).sz = k →
    (∀ i ∈ (BT.node a (k - 1) b).inord, i < k) →
    Cost N (splayBuild (tick lt) base nd first last k) (fun _ c =>
      c ≤ 2 * (BT.node a (k - 1) b).pot + m * (8 * Nat.log2 n + 1)) := by
  intro m
  induction m with
  | zero =>
    intro k first nd a b h1 h2 h3 h4 h5 h6
    rw [splayBuild, if_neg (by omega)]
    exact Cost.pure (by omega)
  | succ m ih =>
    intro k first nd a b h1 h2 h3 h4 h5 h6
    rw [splayBuild, if_pos (by omega)]
    have hw : whole (.node a (k - 1) b) [] = (BT.node a (k - 1) b).inord := by simp [whole, pre, post]
    refine (splayInsert_cost (k := k) _ rfl h4 (by rw [hw]; exact h6)).bind ?_
    rintro nd' c ⟨a', b', g1, g2, g3, g4⟩
    rw [hw, BT.inord_length, h5] at g2 g4
    refine (ih (k + 1) (first + 1) nd' a' b' (by omega) (by omega) (by omega) g1 g2 g3).mono ?_
    intro _ c' hc
    have e : k + 1 - 1 = k := by omega
    rw [e] at hc
    have hl : Nat.log2 (k + 1) ≤ Nat.log2 n := log2_mono (by omega)
    have h0 : potC k [] = 0 := rfl
    simp only [List.length_nil] at g4
    rw [h0] at g4
    have hs : (m + 1) * (8 * Nat.log2 n + 1) = m * (8 * Nat.log2 n + 1) + (8 * Nat.log2 n + 1) := Nat.succ_mul _ _
    omega

theorem splayLeftmost_silent (nd : Nodes) : ∀ c, Silent (splayLeftmost nd c : M α (Option Nat)) := by
  refine splayLeftmost.fixpoint_induct nd (fun f => ∀ x, Silent (f x)) Silent.admissible1 ?_
  intro f ih x
  dsimp only
  split
  · exact ih _
  · exact Silent.pure

theorem splayOut_silent (base : Nat) (c : Option Nat) (out : Nat) : Silent (splayOut base c out : M α Unit) := by
  unfold splayOut
  split
  · exact silent_fail _
  · exact silent_moveTo _ _

theorem splayMoveLoop_silent (base : Nat) : ∀ nd c out, Silent (splayMoveLoop base nd c out : M α Unit) := by
  refine splayMoveLoop.fixpoint_induct base (fun f => ∀ x y z, Silent (f x y z)) Silent.admissible3 ?_
  intro f ih x y z
  dsimp only
  split
  · exact (splayLeftmost_silent _ _).bind fun _ => (splayOut_silent _ _ _).bind fun _ => ih _ _ _
  · split
    · exact (splayOut_silent _ _ _).bind fun _ => ih _ _ _
    · exact Silent.pure

theorem splayMoveTo_silent (base : Nat) (nd : Nodes) (root : Option Nat) (out : Nat) :
    Silent (splayMoveTo base nd root out : M α Unit) :=
  (splayLeftmost_silent _ _).bind fun _ => (splayOut_silent _ _ _).bind fun _ => splayMoveLoop_silent _ _ _ _

theorem splaysort_cost {N first last : Nat} (h : first ≤ last) : Cost N (splaysort (tick lt) first last)
    (fun _ c => c ≤ (last - first) * (8 * Nat.log2 (last - first) + 1)) := by
  unfold splaysort
  dsimp only
  refine Cost.ite (fun _ => Cost.pure (Nat.zero_le _)) fun h2 => ?_
  refine (silent_alloc _).costBind fun base => (silent_constructFrom _ _).costBind fun _ => ?_
  have hat : At (Nodes.empty.set (some 0) ⟨none, none, none⟩) (1 - 1) (.node .leaf (1 - 1) .leaf) [] :=
    ⟨⟨rfl, rfl, rfl, rfl⟩, rfl, by simp [whole, pre, post, BT.inord], rfl⟩
  refine (splayBuild_cost (n := last - first) (last - first - 1) 1 (first + 1) _ .leaf .leaf (by omega) (by omega)
    (by omega) hat rfl (by simp [BT.inord])).bind fun nd c hc => ?_
  have h0 : (BT.node .leaf (1 - 1) .leaf).pot = 0 := by decide
  rw [h0] at hc
  have hm : (last - first - 1) * (8 * Nat.log2 (last - first) + 1) ≤
      (last - first) * (8 * Nat.log2 (last - first) + 1) := Nat.mul_le_mul_right _ (by omega)
  refine (splayMoveTo_silent _ _ _ _).costBind fun _ => (destroyN_silent _ _).costBind fun _ => ?_
  exact (silent_free _ _).cost fun _ => by omega

/-! ### Ranges already in order -/

/-- The splay of the right child of the root. -/
theorem splay_one {s : St α} {nd : Nodes} {k p : Nat} {a b c : BT} (h : At nd k (.node b k a) [⟨false, p, c⟩]) :
    wp (splay nd (some k) (nd (some k)).parent) (fun nd' s' => s' = s ∧
      At nd' k (.node (.node c p b) k a) []) s := by
  obtain ⟨hp, hup⟩ := h.up
  have hl := h.leftChild rfl
  dsimp only at hl hp hup
  have hg : (nd (some p)).parent = none := hup.ctx
  have e : splayStep nd (some k) (nd (some k)).parent = splayRotateLeft nd (some k) := by
    unfold splayStep
    rw [hp]
    dsimp only
    rw [if_pos hg, if_neg (by rw [hl]; simp)]
  rw [splay, e]
  have h1 := h.rotLeft
  have h2 : (splayRotateLeft nd (some k) (some k)).parent = none := h1.ctx
  rw [if_neg (by rw [h2]; simp)]
  exact wp_pure ⟨rfl, h1⟩

theorem splayBuild_sorted {v : Nat → α} {f n base : Nat} (hfb : f + n ≤ base)
    (hso : ∀ i, i + 1 < n → lt (v (i + 1)) (v i) = false) :
    ∀ (m k : Nat) (nd : Nodes) (s : St α) (a : BT), k + m = n → 0 < k →
    At nd (k - 1) (.node a (k - 1) .leaf) [] → (∀ i ∈ (BT.node a (k - 1) .leaf).inord, i < k) →
    SplayMem v f n base k s s →
    wp (splayBuild (tick lt) base nd (f + k) (f + n) k) (fun _ s' => s'.cmps = s.cmps + m) s := by
  intro m
  induction m with
  | zero =>
    intro k nd s a h1 h2 h3 h4 hm
    rw [splayBuild, if_neg (by omega)]
    exact wp_pure rfl
  | succ m ih =>
    intro k nd s a h1 h2 h3 h4 hm
    rw [splayBuild, if_pos (by omega)]
    apply wp_bind
    rw [splayInsert]
    have hv := hso (k - 1) (by omega)
    rw [show k - 1 + 1 = k by omega] at hv
    apply wp_bind
    refine wp_read' (hm.rest k (by omega) (by omega)) ?_
    apply wp_bind
    refine wp_read' (hm.nodes (k - 1) (by omega)) ?_
    wtick
    dsimp only
    have hr : (nd (some (k - 1))).right = none := h3.rep.2.2.2
    rw [if_neg (by rw [hv]; simp), if_pos hr]
    apply wp_bind
    refine wp_constructFrom (hm.rest k (by omega) (by omega)) (hm.raw k (by omega) (by omega))
      fun s2 d1 d2 d3 _ => ?_
    have hk : k ∉ whole (.node a (k - 1) .leaf) [] := by
      intro h
      have := h4 k (by simpa [whole, pre, post] using h)
      omega
    refine wp_mono (splay_one (s := s2) (At.newRight h3 hk)) ?_
    rintro nd' s' ⟨rfl, h5⟩
    have h6 : k + 1 - 1 = k := by omega
    have := ih (k + 1) nd' s' (.node a (k - 1) .leaf) (by omega) (by omega) (by rw [h6]; exact h5) ?_ ?_
    · refine wp_mono this fun _ s3 h7 => ?_
      rw [h7, d3]
      dsimp only
      omega
    · rw [h6]
      intro i hi
      simp only [BT.inord, List.mem_append, List.mem_cons, List.not_mem_nil, or_false] at hi
      rcases hi with hi | rfl
      · have := h4 i (by simpa [BT.inord] using hi)
        omega
      · omega
    · obtain ⟨m1, m2, m3, m4, m5, m6⟩ := hm
      dsimp only at d1
      constructor
      · intro i hi
        rw [d1]
        by_cases e : i = k
        · rw [sc_eq (by omega), e]
        · rw [sc_ne (by omega), sc_ne (by omega)]; exact m1 i (by omega)
      · intro i e1 e2; rw [d1, sc_ne (by omega), sc_ne (by omega)]; exact m2 i (by omega) e2
      · intro i hi
        rw [d1]
        by_cases e : i = k
        · rw [sc_ne (by omega), sc_eq (by omega)]
        · rw [sc_ne (by omega), sc_ne (by omega)]; exact m3 i (by omega)
      · intro i e1 e2; rw [d1, sc_ne (by omega), sc_ne (by omega)]; exact m4 i (by omega) e2
      · intro i _ _; rfl
      · rfl

theorem splaysort_sorted [Inhabited α] {s s' : St α} {f : Nat} {xs : List α} (hw : s.WF)
    (hs : Seg s.cell f xs) (hso : SortedList lt xs)
    (hr : splaysort (tick lt) f (f + xs.length) s = some (.ok (), s')) :
    s'.cmps = s.cmps + (xs.length - 1) := by
  simp only [splaysort, Nat.add_sub_cancel_left] at hr
  by_cases hlen : xs.length < 2
  · rw [if_pos hlen] at hr
    have := (Silent.pure (x := ()) s () s' hr).1
    omega
  rw [if_neg hlen] at hr
  have hbrk := hs.below hw (by omega)
  obtain ⟨v, hv⟩ : ∃ v : Nat → α, ∀ i (h : i < xs.length), xs[i] = v i :=
    ⟨fun i => xs.getD i default, fun i h => by simp [h]⟩
  obtain ⟨base, s1, h1, hr⟩ := bind_inv hr
  obtain ⟨_, s2, h2, hr⟩ := bind_inv hr
  obtain ⟨nd, s3, h3, hr⟩ := bind_inv hr
  obtain ⟨rfl, b1, b2, b4⟩ : base = s.brk ∧ (∀ k, s.brk ≤ k → k < s.brk + xs.length → s1.cell k = .raw) ∧
      (∀ k, k < s.brk ∨ s.brk + xs.length ≤ k → s1.cell k = s.cell k) ∧ s1.cmps = s.cmps :=
    (wp_alloc (Q := fun b s1 => b = s.brk ∧ (∀ k, s.brk ≤ k → k < s.brk + xs.length → s1.cell k = .raw) ∧
      (∀ k, k < s.brk ∨ s.brk + xs.length ≤ k → s1.cell k = s.cell k) ∧ s1.cmps = s.cmps)
      fun s' c1 c2 _ _ c5 _ => ⟨rfl, c1, c2, c5⟩).run h1
  have hcell : ∀ i, i < xs.length → s1.cell (f + i) = .val (v i) := fun i hi => by
    rw [b2 _ (by omega), hs i hi, hv i hi]
  obtain ⟨d1, d2⟩ : s2.cell = setCell (setCell s1.cell f .moved) s.brk (.val (v 0)) ∧ s2.cmps = s1.cmps :=
    (wp_constructFrom (Q := fun _ s2 => s2.cell = setCell (setCell s1.cell f .moved) s.brk (.val (v 0)) ∧
      s2.cmps = s1.cmps) (hcell 0 (by omega)) (b1 _ (by omega) (by omega)) fun s' c1 _ c3 _ => ⟨c1, c3⟩).run h2
  have hmem : SplayMem v f xs.length s.brk 1 s2 s2 := by
    constructor
    · intro i hi
      obtain rfl : i = 0 := by omega
      rw [d1, Nat.add_zero, sc_eq rfl]
    · intro i h1 h2; rw [d1, sc_ne (by omega), sc_ne (by omega)]; exact b1 _ (by omega) (by omega)
    · intro i hi
      obtain rfl : i = 0 := by omega
      rw [d1, Nat.add_zero, sc_ne (by omega), sc_eq rfl]
    · intro i h1 h2; rw [d1, sc_ne (by omega), sc_ne (by omega)]; exact hcell i h2
    · intro i _ _; rfl
    · rfl
  have hat : At (Nodes.empty.set (some 0) ⟨none, none, none⟩) (1 - 1) (.node .leaf (1 - 1) .leaf) [] :=
    ⟨⟨rfl, rfl, rfl, rfl⟩, rfl, by simp [whole, pre, post, BT.inord], rfl⟩
  have hb := (splayBuild_sorted (lt := lt) hbrk (fun i hi => by
    rw [← hv (i + 1) hi, ← hv i (by omega)]
    exact List.pairwise_iff_getElem.1 hso i (i + 1) (by omega) hi (by omega))
    (xs.length - 1) 1 _ s2 .leaf (by omega) (by omega) hat (by simp [BT.inord]) hmem).run h3
  have hrest : Silent (do
      splayMoveTo s.brk nd (some (xs.length - 1)) f
      destroyN s.brk xs.length
      free s.brk xs.length : M α Unit) :=
    (splayMoveTo_silent _ _ _ _).bind fun _ => (destroyN_silent _ _).bind fun _ => silent_free _ _
  have := (hrest s3 () s' hr).1
  omega

end CppSort
