import Verif.Model.Smooth
import Verif.Proof.Poplar
set_option autoImplicit false

namespace CppSort
variable {α : Type} {lt : α → α → Bool}

/-- The Leonardo numbers. -/
def leo : Nat → Nat
  | 0 => 1
  | 1 => 1
  | k + 2 => leo (k + 1) + leo k + 1

theorem leo_pos (k : Nat) : 0 < leo k := by
  induction k using leo.induct with
  | case1 => decide
  | case2 => decide
  | case3 k _ _ => rw [leo]; omega

theorem leo_le_succ (k : Nat) : leo k ≤ leo (k + 1) := by
  cases k with
  | zero => decide
  | succ k => rw [leo]; omega

theorem leo_mono {a b : Nat} (h : a ≤ b) : leo a ≤ leo b := by
  induction b with
  | zero => rw [Nat.le_zero.1 h]
  | succ b ih =>
    rcases Nat.lt_or_ge b a with h' | h'
    · rw [show a = b + 1 by omega]
    · exact Nat.le_trans (ih h') (leo_le_succ b)

theorem table_rec : ∀ k : Fin 90, kLeonardoNumbers[k.val + 2]? =
    some (kLeonardoNumbers[k.val + 1]?.getD 0 + kLeonardoNumbers[k.val]?.getD 0 + 1) := by decide +kernel

/-- The table has the Leonardo numbers. -/
theorem table_leo {k : Nat} (h : k < 92) : kLeonardoNumbers[k]? = some (leo k) := by
  induction k using leo.induct with
  | case1 => decide +kernel
  | case2 => decide +kernel
  | case3 k ih1 ih2 =>
    have h1 := table_rec ⟨k, by omega⟩
    simp only [] at h1
    rw [ih1 (by omega), ih2 (by omega)] at h1
    rw [h1, leo]
    simp

/-- The largest heap order of a range addressed with a 64 bits difference type. -/
theorem leo_bound {k : Nat} (h : leo k < 2 ^ 63) : k < 90 := by
  rcases Nat.lt_or_ge k 90 with h1 | h1
  · exact h1
  · have h2 := leo_mono h1
    have h3 : some (leo 90) = some 9320093220751060617 := by
      rw [← table_leo (by omega)]; decide +kernel
    have h3 := Option.some.inj h3
    omega

theorem wp_leoAt {Q : Nat → St α → Prop} {s : St α} {k : Nat} (h : k < 92) (hQ : Q (leo k) s) :
    wp (leoAt k) Q s := by
  unfold leoAt
  rw [table_leo h]
  exact wp_pure hQ

/-- The values at `[a, a + leo k)` are a Leonardo heap. -/
def LPop (lt : α → α → Bool) (v : Nat → α) : Nat → Nat → Prop
  | 0, _ => True
  | 1, _ => True
  | k + 2, a => LPop lt v (k + 1) a ∧ LPop lt v k (a + leo (k + 1)) ∧
      ∀ i, a ≤ i → i < a + leo (k + 1) + leo k → lt (v (a + leo (k + 1) + leo k)) (v i) = false

/-- The trees below the root are heaps. -/
def LSub (lt : α → α → Bool) (v : Nat → α) : Nat → Nat → Prop
  | 0, _ => True
  | 1, _ => True
  | k + 2, a => LPop lt v (k + 1) a ∧ LPop lt v k (a + leo (k + 1))

theorem LPop.sub {v : Nat → α} {k a : Nat} (h : LPop lt v k a) : LSub lt v k a := by
  match k with
  | 0 => trivial
  | 1 => trivial
  | k + 2 => exact ⟨h.1, h.2.1⟩

theorem LPop.congr {v w : Nat → α} {k : Nat} : ∀ {a : Nat}, LPop lt v k a →
    (∀ i, a ≤ i → i < a + leo k → v i = w i) → LPop lt w k a := by
  induction k using leo.induct with
  | case1 => intros; trivial
  | case2 => intros; trivial
  | case3 k ih1 ih2 =>
    intro a h e
    obtain ⟨h1, h2, h3⟩ := h
    rw [leo] at e
    refine ⟨ih1 h1 fun i a b => e i (by omega) (by omega), ih2 h2 fun i a b => e i (by omega) (by omega), ?_⟩
    intro i a b
    rw [← e i (by omega) (by omega), ← e _ (by omega) (by omega)]
    exact h3 i a b

/-- The root does not matter for the trees below. -/
theorem LSub.congr {v w : Nat → α} {k a : Nat} (h : LSub lt v k a)
    (e : ∀ i, a ≤ i → i < a + leo k - 1 → v i = w i) : LSub lt w k a := by
  match k with
  | 0 => trivial
  | 1 => trivial
  | k + 2 =>
    rw [leo] at e
    exact ⟨h.1.congr fun i a b => e i (by omega) (by omega), h.2.congr fun i a b => e i (by omega) (by omega)⟩

theorem LPop.root_max (hlt : StrictWeak lt) {v : Nat → α} {k a : Nat} (h : LPop lt v k a) (i : Nat) (h1 : a ≤ i)
    (h2 : i < a + leo k) : lt (v (a + leo k - 1)) (v i) = false := by
  match k with
  | 0 => rw [leo] at h2 ⊢; rw [show a + 1 - 1 = i by omega]; exact hlt.irrefl _
  | 1 => rw [leo] at h2 ⊢; rw [show a + 1 - 1 = i by omega]; exact hlt.irrefl _
  | k + 2 =>
    rw [leo] at h2 ⊢
    rw [show a + (leo (k + 1) + leo k + 1) - 1 = a + leo (k + 1) + leo k by omega]
    by_cases hi : i = a + leo (k + 1) + leo k
    · subst hi; exact hlt.irrefl _
    · exact h.2.2 i h1 (by omega)

/-- A root that is not below the two children makes a heap. -/
theorem LSub.pop (hlt : StrictWeak lt) {v : Nat → α} {k a : Nat} (h : LSub lt v (k + 2) a)
    (h1 : lt (v (a + leo (k + 1) + leo k)) (v (a + leo (k + 1) - 1)) = false)
    (h2 : lt (v (a + leo (k + 1) + leo k)) (v (a + leo (k + 1) + leo k - 1)) = false) : LPop lt v (k + 2) a := by
  refine ⟨h.1, h.2, fun i i1 i2 => ?_⟩
  by_cases hi : i < a + leo (k + 1)
  · exact hlt.le_trans (h.1.root_max hlt i i1 hi) h1
  · exact hlt.le_trans (h.2.root_max hlt i (by omega) i2) h2

theorem smoothLarger_spec (hlt : StrictWeak lt) {f l first second size : Nat} {s : St α} {v : Nat → α}
    (hh : Holds s.cell f l v) (h1 : f ≤ first ∧ first < l) (h2 : f ≤ second ∧ second < l) :
    wp (smoothLarger (tick lt) first second size) (fun c s' => s' = { s with cmps := s.cmps + 1 } ∧
      (c = (second, size - 2) ∨ c = (first, size - 1)) ∧
      lt (v c.1) (v first) = false ∧ lt (v c.1) (v second) = false) s := by
  unfold smoothLarger
  apply wp_bind
  refine wp_read hh h1.1 h1.2 ?_
  apply wp_bind
  refine wp_read hh h2.1 h2.2 ?_
  wtick
  split
  · rename_i h
    exact wp_pure ⟨rfl, Or.inl rfl, hlt.asymm h, hlt.irrefl _⟩
  · rename_i h
    exact wp_pure ⟨rfl, Or.inr rfl, hlt.irrefl _, by simpa using h⟩

theorem smoothRebalance_spec (hlt : StrictWeak lt) : ∀ (n k : Nat), k ≤ n → k < 92 → ∀ (a : Nat) (s : St α)
    (v : Nat → α), Holds s.cell a (a + leo k) v → LSub lt v k a →
    wp (smoothRebalance (tick lt) (a + leo k - 1) k) (fun _ s' => ∃ v',
      Upd a (a + leo k) s s' v v' ∧ LPop lt v' k a) s := by
  intro n
  induction n with
  | zero =>
    intro k hk _ a s v hh hs
    obtain rfl : k = 0 := by omega
    rw [smoothRebalance, if_neg (by omega)]
    exact wp_pure ⟨v, Upd.refl hh, trivial⟩
  | succ n ih =>
    intro k hk hk2 a s v hh hs
    rw [smoothRebalance]
    match k, hk, hk2, hh, hs with
    | 0, _, _, hh, hs => rw [if_neg (by omega)]; exact wp_pure ⟨v, Upd.refl hh, trivial⟩
    | 1, _, _, hh, hs => rw [if_neg (by omega)]; exact wp_pure ⟨v, Upd.refl hh, trivial⟩
    | k + 2, hk, hk2, hh, hs =>
      have el : leo (k + 2) = leo (k + 1) + leo k + 1 := by rw [leo]
      have p0 := leo_pos k
      have p1 := leo_pos (k + 1)
      rw [if_pos (by omega)]
      apply wp_bind
      refine wp_leoAt (by omega) ?_
      rw [show k + 2 - 2 = k by omega]
      rw [show a + leo (k + 2) - 1 - 1 - leo k = a + leo (k + 1) - 1 by omega,
        show a + leo (k + 2) - 1 - 1 = a + leo (k + 1) + leo k - 1 by omega,
        show a + leo (k + 2) - 1 = a + leo (k + 1) + leo k by omega]
      apply wp_bind
      refine wp_mono (smoothLarger_spec hlt hh (by omega) (by omega)) ?_
      rintro c s1 ⟨rfl, hc, hc1, hc2⟩
      have hh1 : Holds { s with cmps := s.cmps + 1 }.cell a (a + leo (k + 2)) v := hh
      wread hh1
      apply wp_bind
      refine wp_read hh1 (i := c.1) (by rcases hc with rfl | rfl <;> dsimp only <;> omega)
        (by rcases hc with rfl | rfl <;> dsimp only <;> omega) ?_
      wtick
      split
      · rename_i hlc
        apply wp_bind
        refine wp_swap (s := { s with cmps := s.cmps + 1 + 1 }) (v := v) hh (i := a + leo (k + 1) + leo k) (j := c.1)
          (by omega) (by rcases hc with rfl | rfl <;> dsimp only <;> omega) ?_
        intro s2 hu2
        have hu2 : Upd a (a + leo (k + 2)) s s2 v (swp v (a + leo (k + 1) + leo k) c.1) :=
          ⟨hu2.holds, hu2.perm, hu2.frame.1, hu2.frame.2⟩
        -- the root is above all the others
        have hmax : ∀ i, a ≤ i → i < a + leo (k + 2) → lt (v c.1) (v i) = false := by
          intro i i1 i2
          by_cases hi : i < a + leo (k + 1)
          · exact hlt.le_trans (hs.1.root_max hlt i i1 hi) hc1
          · by_cases hi2 : i < a + leo (k + 1) + leo k
            · exact hlt.le_trans (hs.2.root_max hlt i (by omega) (by omega)) hc2
            · rw [show i = a + leo (k + 1) + leo k by omega]; exact hlt.asymm hlc
        have hmax2 := hu2.perm.forall (P := fun x => lt (v c.1) x = false) hmax
        rcases hc with rfl | rfl
        · dsimp only at *
          rw [show k + 2 - 2 = k by omega]
          refine wp_mono (ih k (by omega) (by omega) (a + leo (k + 1)) s2 _
            (hu2.holds.sub (by omega) (by omega)) (LSub.congr hs.2.sub ?_)) ?_
          · intro i i1 i2; sw
          · rintro _ s3 ⟨v3, hu3, hp3⟩
            refine ⟨v3, hu2.trans (hu3.widen hu2.holds (by omega) (by omega)), ?_, hp3, ?_⟩
            · refine hs.1.congr fun i i1 i2 => ?_
              rw [hu3.perm.out (by omega)]; sw
            · intro i i1 i2
              rw [hu3.perm.out (i := a + leo (k + 1) + leo k) (by omega), swp_l rfl]
              exact (hu3.perm.mono (f := a) (l := a + leo (k + 2)) (by omega) (by omega)).forall
                (P := fun x => lt (v _) x = false) hmax2 i i1 (by omega)
        · dsimp only at *
          rw [show k + 2 - 1 = k + 1 by omega]
          refine wp_mono (ih (k + 1) (by omega) (by omega) a s2 _
            (hu2.holds.sub (by omega) (by omega)) (LSub.congr hs.1.sub ?_)) ?_
          · intro i i1 i2; sw
          · rintro _ s3 ⟨v3, hu3, hp3⟩
            refine ⟨v3, hu2.trans (hu3.widen hu2.holds (by omega) (by omega)), hp3, ?_, ?_⟩
            · refine hs.2.congr fun i i1 i2 => ?_
              rw [hu3.perm.out (by omega)]; sw
            · intro i i1 i2
              rw [hu3.perm.out (i := a + leo (k + 1) + leo k) (by omega), swp_l rfl]
              exact (hu3.perm.mono (f := a) (l := a + leo (k + 2)) (by omega) (by omega)).forall
                (P := fun x => lt (v _) x = false) hmax2 i i1 (by omega)
      · rename_i hlc
        have hlc : lt (v (a + leo (k + 1) + leo k)) (v c.1) = false := by simpa using hlc
        exact wp_pure ⟨v, ⟨hh, PermOn.refl _ _ _, ⟨fun _ _ => rfl, (Frame.refl a a s).2⟩⟩,
          hs.pop hlt (hlt.le_trans hc1 hlc) (hlt.le_trans hc2 hlc)⟩

theorem smoothToCompare_spec (hlt : StrictWeak lt) {k a f l : Nat} {s : St α} {v : Nat → α} (hk : k < 92)
    (hh : Holds s.cell f l v) (hf : f ≤ a) (hl : a + leo k ≤ l) (hs : LSub lt v k a) :
    wp (smoothToCompare (tick lt) (a + leo k - 1) k) (fun c s' => (∃ n, s' = { s with cmps := n }) ∧
      (a ≤ c ∧ c < a + leo k) ∧ ∀ i, a ≤ i → i < a + leo k → lt (v c) (v i) = false) s := by
  unfold smoothToCompare
  match k, hk, hl, hs with
  | 0, _, _, hs =>
    rw [if_neg (by omega), leo]
    exact wp_pure ⟨⟨s.cmps, rfl⟩, by omega, fun i i1 i2 => by rw [show i = a + 1 - 1 by omega]; exact hlt.irrefl _⟩
  | 1, _, _, hs =>
    rw [if_neg (by omega), leo]
    exact wp_pure ⟨⟨s.cmps, rfl⟩, by omega, fun i i1 i2 => by rw [show i = a + 1 - 1 by omega]; exact hlt.irrefl _⟩
  | k + 2, hk2, hl, hs =>
    have el : leo (k + 2) = leo (k + 1) + leo k + 1 := by rw [leo]
    have p0 := leo_pos k
    have p1 := leo_pos (k + 1)
    rw [if_pos (by omega)]
    apply wp_bind
    refine wp_leoAt (by omega) ?_
    rw [show k + 2 - 2 = k by omega]
    rw [show a + leo (k + 2) - 1 - 1 - leo k = a + leo (k + 1) - 1 by omega,
      show a + leo (k + 2) - 1 - 1 = a + leo (k + 1) + leo k - 1 by omega,
      show a + leo (k + 2) - 1 = a + leo (k + 1) + leo k by omega]
    apply wp_bind
    refine wp_mono (smoothLarger_spec hlt hh (by omega) (by omega)) ?_
    rintro c s1 ⟨rfl, hc, hc1, hc2⟩
    have hcr : a ≤ c.1 ∧ c.1 < a + leo (k + 2) := by rcases hc with rfl | rfl <;> dsimp only <;> omega
    have hh1 : Holds { s with cmps := s.cmps + 1 }.cell f l v := hh
    wread hh1
    wread hh1
    wtick
    have hx : ∀ x, lt x (v (a + leo (k + 1) - 1)) = false → lt x (v (a + leo (k + 1) + leo k - 1)) = false →
        lt x (v (a + leo (k + 1) + leo k)) = false → ∀ i, a ≤ i → i < a + leo (k + 2) → lt x (v i) = false := by
      intro x x1 x2 x3 i i1 i2
      by_cases hi : i < a + leo (k + 1)
      · exact hlt.le_trans (hs.1.root_max hlt i i1 hi) x1
      · by_cases hi2 : i < a + leo (k + 1) + leo k
        · exact hlt.le_trans (hs.2.root_max hlt i (by omega) (by omega)) x2
        · rw [show i = a + leo (k + 1) + leo k by omega]; exact x3
    split
    · rename_i h
      exact wp_pure ⟨⟨_, rfl⟩, hcr, hx _ hc1 hc2 (hlt.asymm h)⟩
    · rename_i h
      have h : lt (v (a + leo (k + 1) + leo k)) (v c.1) = false := by simpa using h
      exact wp_pure ⟨⟨_, rfl⟩, by omega, hx _ (hlt.le_trans hc1 h) (hlt.le_trans hc2 h) (hlt.irrefl _)⟩

/-- The bits of the shape are the orders of the trees. -/
def Bits (os : List Nat) (sh : HeapShape) : Prop :=
  ∀ i, i < 92 → sh.trees.getLsbD i = decide (sh.smallest + i ∈ os)

/-- The shape of the given trees, the last one first. -/
def Shp (os : List Nat) (sh : HeapShape) : Prop := Bits os sh ∧ ∀ o ∈ os.head?, sh.smallest = o

theorem bits_shift {os : List Nat} {sh : HeapShape} (hb : ∀ o ∈ os, o < 92)
    (h : ∀ i, 1 ≤ i → i < 92 → sh.trees.getLsbD i = decide (sh.smallest + i ∈ os)) :
    Bits os ⟨sh.trees >>> 1, sh.smallest + 1⟩ := by
  intro i hi
  simp only [BitVec.getLsbD_ushiftRight]
  by_cases h1 : 1 + i < 92
  · rw [h (1 + i) (by omega) h1, Nat.add_assoc]
  · rw [BitVec.getLsbD_of_ge _ _ (by omega)]
    symm
    rw [decide_eq_false_iff_not]
    intro hm
    have := hb _ hm
    omega

theorem smoothScan_spec {o1 : Nat} {os : List Nat} (hb : ∀ o ∈ o1 :: os, o < 92) (hs : ∀ o ∈ os, o1 < o) :
    ∀ (d : Nat) (sh : HeapShape) (s : St α), o1 ≤ sh.smallest + d → sh.smallest < o1 →
    (∀ i, 1 ≤ i → i < 92 → sh.trees.getLsbD i = decide (sh.smallest + i ∈ o1 :: os)) →
    wp (smoothScan sh) (fun sh' s' => s' = s ∧ Shp (o1 :: os) sh') s := by
  intro d
  induction d with
  | zero => intros; omega
  | succ d ih =>
    intro sh s hd hlo h
    have hsh := bits_shift hb h
    rw [smoothScan]
    have h0 := hsh 0 (by omega)
    simp only [Nat.add_zero] at h0
    simp only []
    rw [h0]
    split
    · rename_i hm
      have hm := of_decide_eq_true hm
      have : sh.smallest + 1 = o1 := by
        rcases List.mem_cons.1 hm with h | h
        · exact h
        · have := hs _ h; omega
      exact wp_pure ⟨rfl, hsh, fun o ho => by simp at ho; subst ho; exact this⟩
    · rename_i hm
      have hm : ¬ (sh.smallest + 1 ∈ o1 :: os) := by simpa using hm
      have : sh.smallest + 1 ≠ o1 := fun h => hm (by rw [h]; exact List.mem_cons_self)
      exact ih ⟨sh.trees >>> 1, sh.smallest + 1⟩ s (by simp only []; omega) (by simp only []; omega)
        (fun i _ hi => hsh i hi)

theorem smoothDrop_spec {os : List Nat} (hb : ∀ o ∈ os, o < 92) (hp : os.Pairwise (· < ·)) :
    ∀ (d : Nat) (sh : HeapShape) (s : St α), 92 ≤ sh.smallest + d → (∀ o ∈ os, sh.smallest < o) →
    (∀ i, 1 ≤ i → i < 92 → sh.trees.getLsbD i = decide (sh.smallest + i ∈ os)) →
    wp (smoothDrop sh) (fun sh' s' => s' = s ∧ Shp os sh') s := by
  intro d
  induction d with
  | zero =>
    intro sh s hd hlo h
    have hsh := bits_shift hb h
    cases os with
    | cons o os => have := hb o List.mem_cons_self; have := hlo o List.mem_cons_self; omega
    | nil =>
      rw [smoothDrop]
      have : sh.trees >>> 1 = 0 := by
        apply BitVec.eq_of_getLsbD_eq
        intro i hi
        have := hsh i hi
        simp only [] at this
        rw [this]; simp
      simp only []
      rw [if_neg (by simp [this])]
      exact wp_pure ⟨rfl, hsh, by simp⟩
  | succ d ih =>
    intro sh s hd hlo h
    have hsh := bits_shift hb h
    rw [smoothDrop]
    have h0 := hsh 0 (by omega)
    simp only [Nat.add_zero] at h0
    simp only []
    split
    · rename_i hm
      have hm : ¬ (sh.smallest + 1 ∈ os) := by
        have := hm.2
        rw [h0] at this
        simpa using this
      refine ih ⟨sh.trees >>> 1, sh.smallest + 1⟩ s (by simp only []; omega) ?_ (fun i _ hi => hsh i hi)
      intro o ho
      have := hlo o ho
      simp only []
      rcases Nat.lt_or_ge (sh.smallest + 1) o with h | h
      · exact h
      · exact absurd (by rw [show sh.smallest + 1 = o by omega]; exact ho) hm
    · rename_i hm
      refine wp_pure ⟨rfl, hsh, fun o ho => ?_⟩
      have hmem : o ∈ os := List.mem_of_mem_head? ho
      have ho' := hlo o hmem
      have ho92 := hb o hmem
      have hn0 : sh.trees >>> 1 ≠ 0 := by
        intro he
        have := hsh (o - (sh.smallest + 1)) (by omega)
        simp only [] at this
        rw [he, show sh.smallest + 1 + (o - (sh.smallest + 1)) = o by omega] at this
        simp [hmem] at this
      have hb0 : (sh.trees >>> 1).getLsbD 0 = true := by
        by_contra hc
        exact hm ⟨hn0, by simpa using hc⟩
      rw [h0] at hb0
      have hm1 := of_decide_eq_true hb0
      simp only []
      -- `o` is the least
      have : o ≤ sh.smallest + 1 := by
        cases os with
        | nil => cases hmem
        | cons q os =>
          simp at ho; subst ho
          rcases List.mem_cons.1 hm1 with h | h
          · omega
          · have := (List.pairwise_cons.1 hp).1 _ h; omega
      omega

/-- The trees, the last one first, cover `[f, e)`. -/
def LRow (lt : α → α → Bool) (v : Nat → α) (f : Nat) : List Nat → Nat → Prop
  | [], e => f = e
  | o :: os, e => f + leo o ≤ e ∧ LPop lt v o (e - leo o) ∧ LRow lt v f os (e - leo o)

/-- Each root is not below anything before its tree. -/
def Asc (lt : α → α → Bool) (v : Nat → α) (f : Nat) : List Nat → Nat → Prop
  | [], _ => True
  | o :: os, e => (∀ i, f ≤ i → i < e - leo o → lt (v (e - 1)) (v i) = false) ∧ Asc lt v f os (e - leo o)

/-- The rows of trees which had ascending roots still have. -/
def KeepsAsc (lt : α → α → Bool) (v v' : Nat → α) (f : Nat) : List Nat → Nat → Prop
  | [], _ => True
  | o :: os, e => (Asc lt v f (o :: os) e → Asc lt v' f (o :: os) e) ∧ KeepsAsc lt v v' f os (e - leo o)

theorem LRow.le {v : Nat → α} {f : Nat} {os : List Nat} {e : Nat} (h : LRow lt v f os e) : f ≤ e := by
  cases os with
  | nil => exact Nat.le_of_eq h
  | cons o os => have := h.1; omega

theorem LRow.congr {v w : Nat → α} {f : Nat} : ∀ {os : List Nat} {e : Nat}, LRow lt v f os e →
    (∀ i, f ≤ i → i < e → v i = w i) → LRow lt w f os e := by
  intro os
  induction os with
  | nil => intro e h _; exact h
  | cons o os ih =>
    intro e h he
    have h1 := h.1
    exact ⟨h1, h.2.1.congr fun i a b => he i (by omega) (by omega), ih h.2.2 fun i a b => he i a (by omega)⟩

theorem Asc.congr {v w : Nat → α} {f : Nat} : ∀ {os : List Nat} {e : Nat}, LRow lt v f os e → Asc lt v f os e →
    (∀ i, f ≤ i → i < e → v i = w i) → Asc lt w f os e := by
  intro os
  induction os with
  | nil => intros; trivial
  | cons o os ih =>
    intro e hr h he
    have h1 := hr.1
    have := leo_pos o
    refine ⟨fun i a b => ?_, ih hr.2.2 h.2 fun i a b => he i a (by omega)⟩
    rw [← he i a (by omega), ← he (e - 1) (by omega) (by omega)]
    exact h.1 i a b

theorem KeepsAsc.congr {v w : Nat → α} {f : Nat} : ∀ {os : List Nat} {e : Nat}, LRow lt v f os e →
    (∀ i, f ≤ i → i < e → v i = w i) → KeepsAsc lt v w f os e := by
  intro os
  induction os with
  | nil => intros; trivial
  | cons o os ih =>
    intro e hr he
    have h1 := hr.1
    exact ⟨fun h => h.congr hr he, ih hr.2.2 fun i a b => he i a (by omega)⟩

theorem KeepsAsc.left {v w v' : Nat → α} {f : Nat} : ∀ {os : List Nat} {e : Nat}, LRow lt v f os e →
    (∀ i, f ≤ i → i < e → v i = w i) → KeepsAsc lt w v' f os e → KeepsAsc lt v v' f os e := by
  intro os
  induction os with
  | nil => intros; trivial
  | cons o os ih =>
    intro e hr he h
    have h1 := hr.1
    exact ⟨fun ha => h.1 (ha.congr hr he), ih hr.2.2 (fun i a b => he i a (by omega)) h.2⟩

/-- With ascending roots, the last root is above everything. -/
theorem Asc.max (hlt : StrictWeak lt) {v : Nat → α} {f o e : Nat} {os : List Nat} (hr : LRow lt v f (o :: os) e)
    (h : Asc lt v f (o :: os) e) : ∀ i, f ≤ i → i < e → lt (v (e - 1)) (v i) = false := by
  intro i a b
  by_cases hi : i < e - leo o
  · exact h.1 i a hi
  · have h1 := hr.1
    have := hr.2.1.root_max hlt i (by omega) (by omega)
    rwa [Nat.sub_add_cancel (by omega)] at this

theorem smoothRectify_spec (hlt : StrictWeak lt) {f : Nat} : ∀ (os : List Nat) (o a : Nat) (sh : HeapShape) (s : St α)
    (v : Nat → α), Holds s.cell f (a + leo o) v → LRow lt v f os a → LSub lt v o a → Shp (o :: os) sh →
    (o :: os).Pairwise (· < ·) → (∀ p ∈ o :: os, p < 92) →
    wp (smoothRectify (tick lt) f (a + leo o - 1) sh) (fun _ s' => ∃ v', Upd f (a + leo o) s s' v v' ∧
      LRow lt v' f (o :: os) (a + leo o) ∧ KeepsAsc lt v v' f os a ∧
      (Asc lt v f os a → Asc lt v' f (o :: os) (a + leo o))) s := by
  intro os
  induction os with
  | nil =>
    intro o a sh s v hh hr hs hsh _ hb
    have hr : f = a := hr
    subst hr
    have hsm : sh.smallest = o := hsh.2 o rfl
    have ho := hb o List.mem_cons_self
    have p := leo_pos o
    rw [smoothRectify]
    simp only []
    rw [hsm]
    apply wp_bind
    refine wp_leoAt ho ?_
    rw [if_pos (by omega)]
    refine wp_mono (smoothRebalance_spec hlt o o (Nat.le_refl _) ho f s v hh hs) ?_
    rintro _ s' ⟨v', hu, hp⟩
    refine ⟨v', hu, ⟨Nat.le_refl _, ?_, ?_⟩, trivial, fun _ => ⟨fun i a b => by omega, trivial⟩⟩
    · rw [Nat.add_sub_cancel]; exact hp
    · exact (Nat.add_sub_cancel ..).symm
  | cons o1 os ih =>
    intro o a sh s v hh hr hs hsh hsort hb
    have hsm : sh.smallest = o := hsh.2 o rfl
    have ho := hb o List.mem_cons_self
    have p := leo_pos o
    have p1 := leo_pos o1
    have hr1 := hr.1
    obtain ⟨b, rfl⟩ : ∃ b, a = b + leo o1 := ⟨a - leo o1, by omega⟩
    have hrp := hr.2.1
    have hr2 := hr.2.2
    rw [Nat.add_sub_cancel] at hrp hr2
    have hfb := hr2.le
    have hs1 := List.pairwise_cons.1 hsort
    have hs2 := List.pairwise_cons.1 hs1.2
    -- the end of the search
    have stop : ∀ (t : St α) (n : Nat), t = { s with cmps := n } →
        (∃ c, (b + leo o1 ≤ c ∧ c < b + leo o1 + leo o) ∧ lt (v c) (v (b + leo o1 - 1)) = false) →
        wp (smoothRebalance (tick lt) (b + leo o1 + leo o - 1) o)
        (fun _ s' => ∃ v', Upd f (b + leo o1 + leo o) s s' v v' ∧
          LRow lt v' f (o :: o1 :: os) (b + leo o1 + leo o) ∧ KeepsAsc lt v v' f (o1 :: os) (b + leo o1) ∧
          (Asc lt v f (o1 :: os) (b + leo o1) → Asc lt v' f (o :: o1 :: os) (b + leo o1 + leo o))) t := by
      rintro _ n rfl ⟨c, hc, hcv⟩
      have hh1 : Holds { s with cmps := n }.cell (b + leo o1) (b + leo o1 + leo o) v :=
        hh.sub (by omega) (Nat.le_refl _)
      refine wp_mono (smoothRebalance_spec hlt o o (Nat.le_refl _) ho _ _ v hh1 hs) ?_
      rintro _ s' ⟨v', hu, hp⟩
      have hout : ∀ i, f ≤ i → i < b + leo o1 → v i = v' i := fun i _ h => (hu.perm.out (by omega)).symm
      have hu' := hu.widen (f := f) (l := b + leo o1 + leo o) (s := { s with cmps := n }) hh (by omega) (Nat.le_refl _)
      refine ⟨v', ⟨hu'.holds, hu'.perm, hu'.frame.1, hu'.frame.2⟩, ⟨by omega, ?_, ?_⟩, KeepsAsc.congr hr hout, ?_⟩
      · rw [Nat.add_sub_cancel]; exact hp
      · rw [Nat.add_sub_cancel]; exact hr.congr hout
      · intro ha
        refine ⟨?_, ?_⟩
        · rw [Nat.add_sub_cancel]
          intro i i1 i2
          -- the new root is not below `v c`
          obtain ⟨c', c1, c2, ce⟩ := hu.perm.symm.mem hc.1 hc.2
          rw [← hout i i1 i2]
          have h1 := hp.root_max hlt c' c1 c2
          rw [← ce] at h1
          exact hlt.le_trans (ha.max hlt hr i i1 i2) (hlt.le_trans hcv h1)
        · rw [Nat.add_sub_cancel]; exact ha.congr hr hout
    rw [smoothRectify]
    simp only []
    rw [hsm]
    apply wp_bind
    refine wp_leoAt ho ?_
    rw [if_neg (by omega)]
    apply wp_bind
    refine wp_mono (smoothToCompare_spec hlt ho hh (by omega) (by omega) hs) ?_
    rintro c s1 ⟨⟨n, rfl⟩, hc, hcm⟩
    rw [show b + leo o1 + leo o - 1 - leo o = b + leo o1 - 1 by omega]
    have hh1 : Holds { s with cmps := n }.cell f (b + leo o1 + leo o) v := hh
    wread hh1
    wread hh1
    wtick
    split
    · rename_i hlc
      apply wp_bind
      refine wp_swap (s := { s with cmps := n + 1 }) (v := v) hh (i := b + leo o1 + leo o - 1) (j := b + leo o1 - 1)
        (by omega) (by omega) ?_
      intro s2 hu2
      obtain ⟨v2, hv2⟩ : ∃ v2, v2 = swp v (b + leo o1 + leo o - 1) (b + leo o1 - 1) := ⟨_, rfl⟩
      rw [← hv2] at hu2
      have ho2 : ∀ i, i ≠ b + leo o1 + leo o - 1 → i ≠ b + leo o1 - 1 → v i = v2 i := fun i h1 h2 => by
        rw [hv2, swp_o (by omega) (by omega)]
      have hroot : v2 (b + leo o1 + leo o - 1) = v (b + leo o1 - 1) := by rw [hv2, swp_l rfl]
      have hroot1 : v2 (b + leo o1 - 1) = v (b + leo o1 + leo o - 1) := by rw [hv2, swp_r rfl]
      apply wp_bind
      refine wp_mono (smoothScan_spec (o1 := o1) (os := os) (fun q hq => hb q (List.mem_cons_of_mem _ hq)) hs2.1 92 sh s2
        (by have := hb o1 (by simp); omega) (by rw [hsm]; exact hs1.1 o1 List.mem_cons_self) ?_) ?_
      · intro i i1 i2
        rw [hsh.1 i i2]
        congr 1
        rw [List.mem_cons]
        simp only [eq_iff_iff]
        exact ⟨fun h => h.resolve_left (by omega), Or.inr⟩
      rintro sh' _ ⟨rfl, hsh'⟩
      refine wp_mono (ih o1 b sh' _ v2 (hu2.holds.sub (Nat.le_refl _) (by omega))
        (hr2.congr fun i _ h => ho2 i (by omega) (by omega))
        (LSub.congr hrp.sub fun i i1 i2 => ho2 i (by omega) (by omega)) hsh' hs1.2
        (fun q hq => hb q (List.mem_cons_of_mem _ hq))) ?_
      rintro _ s3 ⟨v3, hu3, hr3, hk3, ha3⟩
      have hu : Upd f (b + leo o1 + leo o) s s3 v v3 := by
        have := hu2.trans (hu3.widen hu2.holds (Nat.le_refl _) (by omega))
        exact ⟨this.holds, this.perm, this.frame.1, this.frame.2⟩
      have hroot3 : v3 (b + leo o1 + leo o - 1) = v (b + leo o1 - 1) := by rw [hu3.perm.out (by omega), hroot]
      have ho3 : ∀ i, b + leo o1 ≤ i → i < b + leo o1 + leo o - 1 → v i = v3 i := fun i h1 h2 => by
        rw [hu3.perm.out (by omega), ho2 i (by omega) (by omega)]
      have has2 : Asc lt v f (o1 :: os) (b + leo o1) → Asc lt v2 f os b := fun ha => by
        have := ha.2
        rw [Nat.add_sub_cancel] at this
        exact this.congr hr2 fun i _ h => ho2 i (by omega) (by omega)
      refine ⟨v3, hu, ⟨by omega, ?_, ?_⟩, ⟨fun ha => ha3 (has2 ha), ?_⟩, fun ha => ⟨?_, ?_⟩⟩
      · -- the heap under the swapped root
        rw [Nat.add_sub_cancel]
        have hsub : LSub lt v3 o (b + leo o1) := hs.congr ho3
        match o, hsub, hroot3, hlc, hcm, ho3, p with
        | 0, _, _, _, _, _, _ => trivial
        | 1, _, _, _, _, _, _ => trivial
        | k + 2, hsub, hroot3, hlc, hcm, ho3, p =>
          have el : leo (k + 2) = leo (k + 1) + leo k + 1 := by rw [leo]
          have q0 := leo_pos k
          have q1 := leo_pos (k + 1)
          rw [show b + leo o1 + leo (k + 2) - 1 = b + leo o1 + leo (k + 1) + leo k by omega] at hroot3
          refine hsub.pop hlt ?_ ?_
          · rw [hroot3, ← ho3 _ (by omega) (by omega)]
            exact hlt.le_trans (hcm _ (by omega) (by omega)) (hlt.asymm hlc)
          · rw [hroot3, ← ho3 _ (by omega) (by omega)]
            exact hlt.le_trans (hcm _ (by omega) (by omega)) (hlt.asymm hlc)
      · rw [Nat.add_sub_cancel]; exact hr3
      · rw [Nat.add_sub_cancel]
        exact KeepsAsc.left hr2 (fun i _ h => ho2 i (by omega) (by omega)) hk3
      · rw [Nat.add_sub_cancel, hroot3]
        intro i i1 i2
        refine hu3.perm.forall (P := fun x => lt (v (b + leo o1 - 1)) x = false) (fun j j1 j2 => ?_) i i1 i2
        by_cases hj : j = b + leo o1 - 1
        · rw [hj, hroot1]
          exact hlt.le_trans (hcm _ (by omega) (by omega)) (hlt.asymm hlc)
        · rw [← ho2 j (by omega) hj]
          exact ha.max hlt hr j j1 j2
      · rw [Nat.add_sub_cancel]
        exact ha3 (has2 ha)
    · rename_i hlc
      exact stop _ (n + 1) rfl ⟨c, hc, by simpa using hlc⟩

/-- Whether a tree of the given order with `r` elements after it was rectified when it was made; `os` are the trees
before it. -/
def Marked (os : List Nat) (r : Nat) : Nat → Prop
  | 0 => r = 0
  | 1 => r = 0 ∨ (r = 1 ∧ 2 ∉ os)
  | o + 2 => r ≤ leo (o + 1)

def AllMarked (l : Nat) : List Nat → Nat → Prop
  | [], _ => True
  | o :: os, e => Marked os (l - e) o ∧ AllMarked l os (e - leo o)

/-- The rows of rectified trees have ascending roots. -/
def Built (lt : α → α → Bool) (v : Nat → α) (f l : Nat) : List Nat → Nat → Prop
  | [], _ => True
  | o :: os, e => (AllMarked l (o :: os) e → Asc lt v f (o :: os) e) ∧ Built lt v f l os (e - leo o)

theorem Built.keeps {v v' : Nat → α} {f l : Nat} : ∀ {os : List Nat} {e : Nat}, Built lt v f l os e →
    KeepsAsc lt v v' f os e → Built lt v' f l os e := by
  intro os
  induction os with
  | nil => intros; trivial
  | cons o os ih => intro e h hk; exact ⟨fun hm => hk.1 (h.1 hm), ih h.2 hk.2⟩

theorem Built.asc {v : Nat → α} {f l : Nat} {os : List Nat} {e : Nat} (h : Built lt v f l os e)
    (hm : AllMarked l os e) : Asc lt v f os e := by
  cases os with
  | nil => trivial
  | cons o os => exact h.1 hm

/-- The orders of the trees, the last one first: no two consecutive ones except for the last two trees, and a tree
of order 0 follows one of order 1. -/
def ShapeOk : List Nat → Prop
  | [] => True
  | o :: os => os.Pairwise (fun a b => a + 2 ≤ b) ∧ (∀ p ∈ os, o < p) ∧ (o = 0 → 1 ∈ os)

theorem ShapeOk.sorted {os : List Nat} (h : ShapeOk os) : os.Pairwise (· < ·) := by
  cases os with
  | nil => exact List.Pairwise.nil
  | cons o os => exact List.pairwise_cons.2 ⟨h.2.1, h.1.imp fun h => by omega⟩

theorem allMarked_gap {f l : Nat} {v : Nat → α} : ∀ {os : List Nat} {o e : Nat},
    (o :: os).Pairwise (fun a b => a + 2 ≤ b) → 2 ≤ o → l - e ≤ leo (o - 1) → e ≤ l → LRow lt v f (o :: os) e →
    AllMarked l (o :: os) e := by
  intro os
  induction os with
  | nil =>
    intro o e _ ho hr _ _
    obtain ⟨o, rfl⟩ : ∃ k, o = k + 2 := ⟨o - 2, by omega⟩
    exact ⟨hr, trivial⟩
  | cons p os ih =>
    intro o e hp ho hr hel hrow
    obtain ⟨hp1, hp2⟩ := List.pairwise_cons.1 hp
    have hpo := hp1 p List.mem_cons_self
    obtain ⟨o, rfl⟩ : ∃ k, o = k + 2 := ⟨o - 2, by omega⟩
    have h1 := hrow.1
    refine ⟨hr, ih hp2 (by omega) ?_ (by omega) hrow.2.2⟩
    have hm : leo (o + 1 + 2) ≤ leo (p - 1) := leo_mono (by omega)
    rw [leo] at hm
    rw [show o + 2 - 1 = o + 1 by omega] at hr
    rw [show o + 1 + 1 = o + 2 by omega] at hm
    omega

/-- At the end every tree was rectified. -/
theorem allMarked_end {f l : Nat} {v : Nat → α} {os : List Nat} (hs : ShapeOk os) (hr : LRow lt v f os l) :
    AllMarked l os l := by
  match os, hs, hr with
  | [], _, _ => trivial
  | [o], _, _ =>
    refine ⟨?_, trivial⟩
    rw [Nat.sub_self]
    match o with
    | 0 => exact rfl
    | 1 => exact Or.inl rfl
    | o + 2 => exact Nat.zero_le _
  | o :: p :: os, hs, hr =>
    obtain ⟨hg, hlo, hz⟩ := hs
    have h1 := hr.1
    have h2 := hr.2.2
    have h21 := h2.1
    refine ⟨?_, ?_⟩
    · rw [Nat.sub_self]
      match o with
      | 0 => exact rfl
      | 1 => exact Or.inl rfl
      | o + 2 => exact Nat.zero_le _
    · have hop := hlo p List.mem_cons_self
      rcases Nat.lt_or_ge p 2 with hp | hp
      · obtain rfl : p = 1 := by omega
        obtain rfl : o = 0 := by omega
        have e0 : leo 0 = 1 := rfl
        have e1 : leo 1 = 1 := rfl
        obtain ⟨hg1, hg2⟩ := List.pairwise_cons.1 hg
        refine ⟨Or.inr ⟨by omega, fun hm => by have := hg1 2 hm; omega⟩, ?_⟩
        cases os with
        | nil => trivial
        | cons q os =>
          have hq := hg1 q List.mem_cons_self
          have : leo 2 ≤ leo (q - 1) := leo_mono (by omega)
          have e2 : leo 2 = 3 := rfl
          exact allMarked_gap hg2 (by omega) (by omega) (by omega) h2.2.2
      · have : leo o ≤ leo (p - 1) := leo_mono (by omega)
        exact allMarked_gap hg hp (by omega) (by omega) h2

theorem LRow.bound {v : Nat → α} {f l : Nat} (hn : l - f < 2 ^ 63) : ∀ {os : List Nat} {e : Nat}, LRow lt v f os e →
    e ≤ l → ∀ o ∈ os, o < 90 := by
  intro os
  induction os with
  | nil => intro e _ _ o ho; cases ho
  | cons p os ih =>
    intro e h he o ho
    have h1 := h.1
    rcases List.mem_cons.1 ho with rfl | ho
    · exact leo_bound (by omega)
    · exact ih h.2.2 (by omega) o ho

/-- What one more element does to the trees. -/
theorem shape_add {v : Nat → α} {f l e : Nat} {os : List Nat} {sh : HeapShape} (hn : l - f < 2 ^ 63)
    (hel : e < l) (hsh : Shp os sh) (hok : ShapeOk os) (hr : LRow lt v f os e) (hbu : Built lt v f l os e) :
    ∃ o os' a, a + leo o = e + 1 ∧ Shp (o :: os') sh.add ∧ ShapeOk (o :: os') ∧ LRow lt v f os' a ∧ LSub lt v o a ∧
      Built lt v f l os' a := by
  have hb := hr.bound hn (by omega)
  have hbit : ∀ i, i < 92 → sh.trees.getLsbD i = decide (sh.smallest + i ∈ os) := hsh.1
  unfold HeapShape.add
  match os, hsh, hok, hr, hb, hbit, hbu with
  | [], hsh, hok, hr, hb, hbit, hbu =>
    have hr : f = e := hr
    subst hr
    rw [if_pos (by rw [hbit 0 (by omega)]; simp)]
    refine ⟨1, [], f, rfl, ⟨fun i hi => ?_, by simp⟩, ⟨List.Pairwise.nil, by simp, by omega⟩, rfl, trivial, trivial⟩
    simp only [BitVec.getLsbD_or, hbit i hi, BitVec.getLsbD_one]
    by_cases h : i = 0 <;> simp [h]
  | o :: os, hsh, hok, hr, hb, hbit, hbu =>
    have hsm : sh.smallest = o := hsh.2 o rfl
    rw [hsm] at hbit
    have h0 : sh.trees.getLsbD 0 = true := by rw [hbit 0 (by omega)]; simp
    have h1 : sh.trees.getLsbD 1 = decide (o + 1 ∈ os) := by
      rw [hbit 1 (by omega)]
      simp
    rw [if_neg (by rw [h0]; simp), h0, h1, hsm]
    obtain ⟨hg, hlo, hz⟩ := hok
    by_cases hm : o + 1 ∈ os
    · rw [if_pos (by simp [hm])]
      -- the next tree has order `o + 1`
      match os, hg, hlo, hz, hr, hb, hbit, hm, hbu with
      | p :: os, hg, hlo, hz, hr, hb, hbit, hm, hbu =>
        obtain ⟨hg1, hg2⟩ := List.pairwise_cons.1 hg
        have hp : p = o + 1 := by
          rcases List.mem_cons.1 hm with h | h
          · exact h.symm
          · have := hg1 _ h
            have := hlo p List.mem_cons_self
            omega
        subst hp
        have r1 := hr.1
        have r2 := hr.2.2.1
        have el : leo (o + 2) = leo (o + 1) + leo o + 1 := by rw [leo]
        refine ⟨o + 2, os, e - leo o - leo (o + 1), by omega, ⟨fun i hi => ?_, by simp⟩,
          ⟨hg2, fun q hq => by have := hg1 q hq; omega, by omega⟩, hr.2.2.2.2, ⟨?_, ?_⟩, hbu.2.2⟩
        · simp only [BitVec.getLsbD_or, BitVec.getLsbD_ushiftRight, BitVec.getLsbD_one]
          by_cases hi0 : i = 0
          · simp [hi0]
          · by_cases hi2 : 2 + i < 92
            · rw [hbit (2 + i) hi2]
              simp only [List.mem_cons]
              have e1 : (i = 0) = False := by simpa using hi0
              have e2 : (o + (2 + i) = o) = False := by simp
              have e3 : (o + (2 + i) = o + 1) = False := by simp; omega
              have e4 : (o + 2 + i = o + 2) = False := by simpa using hi0
              simp only [e2, e3, e4, e1]
              simp [Nat.add_assoc]
            · rw [BitVec.getLsbD_of_ge _ _ (by omega)]
              simp only [hi0, decide_false, Bool.and_false, Bool.or_false]
              symm
              rw [decide_eq_false_iff_not]
              intro hmem
              rcases List.mem_cons.1 hmem with h | h
              · omega
              · have := hb _ (List.mem_cons_of_mem _ (List.mem_cons_of_mem _ h)); omega
        · exact hr.2.2.2.1
        · have := hr.2.1
          rw [show e - leo o - leo (o + 1) + leo (o + 1) = e - leo o by omega]
          exact this
    · rw [if_neg (by simp [hm])]
      have r1 := hr.1
      have hlo2 : ∀ q ∈ os, o + 2 ≤ q := fun q hq => by
        have := hlo q hq
        rcases Nat.lt_or_ge (o + 1) q with h | h
        · exact h
        · exact absurd (by rw [show o + 1 = q by omega]; exact hq) hm
      by_cases ho1 : o = 1
      · subst ho1
        rw [if_pos rfl]
        refine ⟨0, 1 :: os, e, rfl, ⟨fun i hi => ?_, by simp⟩,
          ⟨List.pairwise_cons.2 ⟨hlo2, hg⟩, ?_, fun _ => List.mem_cons_self⟩, hr, trivial, hbu⟩
        · simp only [BitVec.getLsbD_or, BitVec.getLsbD_shiftLeft, BitVec.getLsbD_one]
          by_cases hi0 : i = 0
          · simp [hi0]
          · rw [hbit (i - 1) (by omega)]
            have e1 : (i = 0) = False := by simpa using hi0
            have e2 : (i < 1) = False := by simp; omega
            have e3 : (i < 92) = True := by simpa using hi
            rw [show 1 + (i - 1) = i by omega]
            simp [e1, e2, e3]
        · intro q hq
          rcases List.mem_cons.1 hq with rfl | hq
          · omega
          · have := hlo2 q hq; omega
      · rw [if_neg ho1]
        have ho2 : 2 ≤ o := by
          rcases Nat.lt_or_ge o 2 with h | h
          · obtain rfl : o = 0 := by omega
            exact absurd (hz rfl) hm
          · exact h
        refine ⟨1, o :: os, e, rfl, ⟨fun i hi => ?_, by simp⟩,
          ⟨List.pairwise_cons.2 ⟨hlo2, hg⟩, ?_, by omega⟩, hr, trivial, hbu⟩
        · simp only [BitVec.getLsbD_or, BitVec.getLsbD_shiftLeft, BitVec.getLsbD_one]
          have e3 : (i < 92) = True := by simpa using hi
          by_cases hi0 : i = 0
          · simp [hi0]
          · have e1 : (i = 0) = False := by simpa using hi0
            by_cases hio : i < o - 1
            · have e2 : (i < o - 1) = True := by simpa using hio
              have : ¬ (1 + i ∈ 1 :: o :: os) := by
                intro h
                rcases List.mem_cons.1 h with h | h
                · omega
                · rcases List.mem_cons.1 h with h | h
                  · omega
                  · have := hlo2 _ h; omega
              simp only [e1, e2, this]
              simp
            · have e2 : (i < o - 1) = False := by simpa using hio
              rw [hbit (i - (o - 1)) (by omega), show o + (i - (o - 1)) = 1 + i by omega]
              simp [e1, e2, e3]
        · intro q hq
          rcases List.mem_cons.1 hq with rfl | hq
          · omega
          · have := hlo2 q hq; omega

theorem smoothIsLast_spec {o e l : Nat} {os : List Nat} {sh : HeapShape} {s : St α} (ho : o < 92) (hel : e < l)
    (hsh : Shp (o :: os) sh) :
    wp (smoothIsLast e l sh) (fun r s' => s' = s ∧ (r = true ↔ Marked os (l - (e + 1)) o)) s := by
  have hsm : sh.smallest = o := hsh.2 o rfl
  unfold smoothIsLast
  rw [hsm]
  match o, ho, hsh, hsm with
  | 0, _, _, _ =>
    rw [if_pos rfl]
    refine wp_pure ⟨rfl, ?_⟩
    simp only [Marked, decide_eq_true_eq]
    omega
  | 1, _, hsh, hsm =>
    rw [if_neg (by omega), if_pos rfl]
    have h1 := hsh.1 1 (by omega)
    rw [hsm] at h1
    refine wp_pure ⟨rfl, ?_⟩
    rw [h1]
    simp only [Marked, Bool.or_eq_true, Bool.and_eq_true, decide_eq_true_eq, Bool.not_eq_true', decide_eq_false_iff_not,
      List.mem_cons]
    constructor
    · rintro (h | ⟨h, h'⟩)
      · left; omega
      · exact Or.inr ⟨by omega, fun hm => h' (Or.inr hm)⟩
    · rintro (h | ⟨h, h'⟩)
      · left; omega
      · exact Or.inr ⟨by omega, fun hm => h' (hm.resolve_left (by omega))⟩
  | o + 2, ho, _, _ =>
    rw [if_neg (by omega), if_neg (by omega)]
    apply wp_bind
    refine wp_leoAt (by omega) ?_
    refine wp_pure ⟨rfl, ?_⟩
    simp only [Marked, decide_eq_true_eq]
    rw [show o + 2 - 1 = o + 1 by omega]
    omega

theorem smoothAdd_spec (hlt : StrictWeak lt) {f l e : Nat} {os : List Nat} {sh : HeapShape} {s : St α} {v : Nat → α}
    (hn : l - f < 2 ^ 63) (hel : e < l) (hh : Holds s.cell f l v) (hsh : Shp os sh) (hok : ShapeOk os)
    (hr : LRow lt v f os e) (hbu : Built lt v f l os e) :
    wp (smoothAdd (tick lt) f e l sh) (fun sh' s' => ∃ os' v', Upd f l s s' v v' ∧ Shp os' sh' ∧ ShapeOk os' ∧
      LRow lt v' f os' (e + 1) ∧ Built lt v' f l os' (e + 1)) s := by
  obtain ⟨o, os', a, ha, hsh', hok', hr', hs', hbu'⟩ := shape_add hn hel hsh hok hr hbu
  have hfa := hr'.le
  have hp := leo_pos o
  have ho : o < 90 := leo_bound (by omega)
  have hsm : sh.add.smallest = o := hsh'.2 o rfl
  unfold smoothAdd
  simp only []
  apply wp_bind
  refine wp_mono (smoothIsLast_spec (by omega) hel hsh') ?_
  rintro r _ ⟨rfl, hm⟩
  rw [hsm]
  rw [show e = a + leo o - 1 by omega, Nat.sub_add_cancel (by omega)]
  split <;> apply wp_bind
  · rename_i hnot
    have hnot : ¬ Marked os' (l - (e + 1)) o := by rw [← hm]; simpa using hnot
    refine wp_mono (smoothRebalance_spec hlt o o (Nat.le_refl _) (by omega) a _ v (hh.sub hfa (by omega)) hs') ?_
    rintro _ s1 ⟨v1, hu1, hp1⟩
    have hout : ∀ i, f ≤ i → i < a → v i = v1 i := fun i _ h => (hu1.perm.out (by omega)).symm
    refine wp_pure ⟨o :: os', v1, hu1.widen hh hfa (by omega), hsh', hok', ⟨by omega, ?_, ?_⟩, ?_, ?_⟩
    · rw [Nat.add_sub_cancel]; exact hp1
    · rw [Nat.add_sub_cancel]; exact hr'.congr hout
    · intro hall
      rw [ha] at hall
      exact absurd hall.1 hnot
    · rw [Nat.add_sub_cancel]; exact hbu'.keeps (KeepsAsc.congr hr' hout)
  · refine wp_mono (smoothRectify_spec hlt os' o a sh.add _ v (hh.sub (Nat.le_refl _) (by omega)) hr' hs' hsh'
      hok'.sorted ?_) ?_
    · intro p hp
      rcases List.mem_cons.1 hp with rfl | hp
      · omega
      · have := hr'.bound hn (by omega) p hp; omega
    · rintro _ s1 ⟨v1, hu1, hr1, hk1, ha1⟩
      refine wp_pure ⟨o :: os', v1, hu1.widen hh (Nat.le_refl _) (by omega), hsh', hok', hr1, ?_, ?_⟩
      · intro hall
        have := hall.2
        rw [Nat.add_sub_cancel] at this
        exact ha1 (hbu'.asc this)
      · rw [Nat.add_sub_cancel]; exact hbu'.keeps hk1

theorem smoothAddAll_spec (hlt : StrictWeak lt) {f l : Nat} (hn : l - f < 2 ^ 63) : ∀ (d e : Nat) (os : List Nat)
    (sh : HeapShape) (s : St α) (v : Nat → α), l - e ≤ d → e ≤ l → Holds s.cell f l v → Shp os sh → ShapeOk os →
    LRow lt v f os e → Built lt v f l os e →
    wp (smoothAddAll (tick lt) f e l sh) (fun sh' s' => ∃ os' v', Upd f l s s' v v' ∧ Shp os' sh' ∧ ShapeOk os' ∧
      LRow lt v' f os' l ∧ Asc lt v' f os' l) s := by
  intro d
  induction d with
  | zero =>
    intro e os sh s v hd hel hh hsh hok hr hbu
    obtain rfl : e = l := by omega
    rw [smoothAddAll, if_neg (by simp)]
    exact wp_pure ⟨os, v, Upd.refl hh, hsh, hok, hr, hbu.asc (allMarked_end hok hr)⟩
  | succ d ih =>
    intro e os sh s v hd hel hh hsh hok hr hbu
    rw [smoothAddAll]
    split
    · rename_i hne
      apply wp_bind
      refine wp_mono (smoothAdd_spec hlt hn (by omega) hh hsh hok hr hbu) ?_
      rintro sh1 s1 ⟨os1, v1, hu1, hsh1, hok1, hr1, hbu1⟩
      refine wp_mono (ih (e + 1) os1 sh1 s1 v1 (by omega) (by omega) hu1.holds hsh1 hok1 hr1 hbu1) ?_
      rintro sh2 s2 ⟨os2, v2, hu2, h⟩
      exact ⟨os2, v2, hu1.trans hu2, h⟩
    · rename_i hne
      obtain rfl : e = l := by simpa using hne
      exact wp_pure ⟨os, v, Upd.refl hh, hsh, hok, hr, hbu.asc (allMarked_end hok hr)⟩

theorem bits3 : ∀ i : Fin 92, (3#92).getLsbD i.val = decide (i.val < 2) := by decide +kernel

theorem shape_break {o : Nat} {os : List Nat} {sh : HeapShape} (hsh : Shp ((o + 2) :: os) sh)
    (hlo : ∀ p ∈ os, o + 2 < p) : Shp (o :: (o + 1) :: os) sh.break := by
  have hsm : sh.smallest = o + 2 := hsh.2 _ rfl
  have hbit : ∀ i, i < 92 → sh.trees.getLsbD i = decide (sh.smallest + i ∈ (o + 2) :: os) := hsh.1
  unfold HeapShape.break
  refine ⟨fun i hi => ?_, by simp [hsm]⟩
  have e3 : (i < 92) = True := by simpa using hi
  rw [hsm] at hbit ⊢
  simp only [BitVec.getLsbD_or, BitVec.getLsbD_shiftLeft, BitVec.getLsbD_and, BitVec.getLsbD_not, BitVec.getLsbD_one,
    bits3 ⟨i, hi⟩]
  rw [show o + 2 - 2 = o by omega]
  by_cases hi2 : i < 2
  · rcases (show i = 0 ∨ i = 1 by omega) with rfl | rfl <;> simp
  · have e2 : (i < 2) = False := by simpa using hi2
    rw [hbit (i - 2) (by omega), show o + 2 + (i - 2) = o + i by omega]
    have e4 : (o + i = o) = False := by simp; omega
    have e5 : (o + i = o + 1) = False := by simp; omega
    by_cases hi3 : i = 2
    · subst hi3
      have : ¬ (o + 2 ∈ os) := fun h => by have := hlo _ h; omega
      simp [this]
    · have e6 : (o + i = o + 2) = False := by simp; omega
      have e7 : (i - 2 = 0) = False := by simp; omega
      have e8 : (i - 2 < 92) = True := by simp; omega
      simp only [List.mem_cons, e2, e3, e4, e5, e6, e7, e8]
      simp

theorem smoothRemove_spec (hlt : StrictWeak lt) {f l e : Nat} {o : Nat} {os : List Nat} {sh : HeapShape} {s : St α}
    {v : Nat → α} (hn : l - f < 2 ^ 63) (hel : e ≤ l) (hh : Holds s.cell f l v) (hsh : Shp (o :: os) sh)
    (hso : (o :: os).Pairwise (· < ·)) (hr : LRow lt v f (o :: os) e) (ha : Asc lt v f (o :: os) e) :
    wp (smoothRemove (tick lt) f e sh) (fun sh' s' => ∃ os' v', Upd f (e - 1) s s' v v' ∧ Shp os' sh' ∧
      os'.Pairwise (· < ·) ∧ LRow lt v' f os' (e - 1) ∧ Asc lt v' f os' (e - 1)) s := by
  have hb := hr.bound hn hel
  have hsm : sh.smallest = o := hsh.2 _ rfl
  have r1 := hr.1
  obtain ⟨hs1, hs2⟩ := List.pairwise_cons.1 hso
  unfold smoothRemove
  rw [hsm]
  rcases Nat.lt_or_ge 1 o with ho | ho
  · rw [if_neg (by omega)]
    obtain ⟨k, rfl⟩ : ∃ k, o = k + 2 := ⟨o - 2, by omega⟩
    have hk := hb _ List.mem_cons_self
    have el : leo (k + 2) = leo (k + 1) + leo k + 1 := by rw [leo]
    have p0 := leo_pos k
    have p1 := leo_pos (k + 1)
    obtain ⟨a, rfl⟩ : ∃ a, e = a + leo (k + 2) := ⟨e - leo (k + 2), by omega⟩
    have hrp := hr.2.1
    have hr2 := hr.2.2
    have ha2 := ha.2
    rw [Nat.add_sub_cancel] at hrp hr2 ha2
    have hfa := hr2.le
    have hbr := shape_break hsh hs1
    have hbsm : sh.break.smallest = k := hbr.2 _ rfl
    apply wp_bind
    refine wp_leoAt (by omega) ?_
    rw [show k + 2 - 2 = k by omega]
    simp only []
    rw [show a + leo (k + 2) - 1 - 1 - leo k = a + leo (k + 1) - 1 by omega,
      show a + leo (k + 2) - 1 - 1 = a + leo (k + 1) + leo k - 1 by omega,
      show a + leo (k + 2) - 1 = a + leo (k + 1) + leo k by omega]
    have hb1 : ∀ p ∈ (k + 1) :: os, p < 92 := by
      intro p hp
      rcases List.mem_cons.1 hp with rfl | hp
      · omega
      · have := hb p (List.mem_cons_of_mem _ hp); omega
    have hso1 : ((k + 1) :: os).Pairwise (· < ·) :=
      List.pairwise_cons.2 ⟨fun p hp => by have := hs1 p hp; omega, hs2⟩
    have hsh1 : Shp ((k + 1) :: os) ⟨sh.break.trees >>> 1, sh.break.smallest + 1⟩ := by
      refine ⟨bits_shift hb1 ?_, by simp [hbsm]⟩
      intro i i1 i2
      rw [hbr.1 i i2]
      congr 1
      rw [List.mem_cons]
      simp only [eq_iff_iff]
      exact ⟨fun h => h.resolve_left (by omega), Or.inr⟩
    apply wp_bind
    refine wp_mono (smoothRectify_spec hlt os (k + 1) a _ s v (hh.sub (Nat.le_refl _) (by omega)) hr2 hrp.1.sub hsh1
      hso1 hb1) ?_
    rintro _ s1 ⟨v1, hu1, hr1, -, ha1⟩
    have hu1' := hu1.widen (f := f) (l := a + leo (k + 1) + leo k) (hh.sub (Nat.le_refl _) (by omega)) (Nat.le_refl _)
      (by omega)
    apply wp_bind
    refine wp_mono (smoothRectify_spec hlt ((k + 1) :: os) k (a + leo (k + 1)) _ s1 v1 hu1'.holds hr1
      (hrp.2.1.sub.congr fun i i1 i2 => (hu1.perm.out (by omega)).symm) hbr
      (List.pairwise_cons.2 ⟨fun p hp => ?_, hso1⟩) ?_) ?_
    · rcases List.mem_cons.1 hp with rfl | hp
      · omega
      · have := hs1 p hp; omega
    · intro p hp
      rcases List.mem_cons.1 hp with rfl | hp
      · omega
      · exact hb1 p hp
    · rintro _ s2 ⟨v2, hu2, hr2', -, ha2'⟩
      refine wp_pure ⟨k :: (k + 1) :: os, v2, hu1'.trans hu2, hbr, List.pairwise_cons.2 ⟨fun p hp => ?_, hso1⟩, hr2',
        ha2' (ha1 ha2)⟩
      rcases List.mem_cons.1 hp with rfl | hp
      · omega
      · have := hs1 p hp; omega
  · rw [if_pos ho]
    have hl1 : leo o = 1 := by
      rcases (show o = 0 ∨ o = 1 by omega) with rfl | rfl <;> rfl
    refine wp_mono (smoothDrop_spec (fun p hp => by have := hb p (List.mem_cons_of_mem _ hp); omega) hs2 92 sh s (by omega)
      (fun p hp => by rw [hsm]; exact hs1 p hp) ?_) ?_
    · intro i i1 i2
      rw [hsh.1 i i2]
      congr 1
      rw [List.mem_cons]
      simp only [eq_iff_iff]
      exact ⟨fun h => h.resolve_left (by omega), Or.inr⟩
    · rintro sh' _ ⟨rfl, hsh'⟩
      have hr2 := hr.2.2
      have ha2 := ha.2
      rw [hl1] at hr2 ha2 r1
      exact ⟨os, v, Upd.refl (hh.sub (Nat.le_refl _) (by omega)), hsh', hs2, hr2, ha2⟩

theorem smoothRemoveAll_spec (hlt : StrictWeak lt) {f l : Nat} (hn : l - f < 2 ^ 63) : ∀ (d e : Nat) (os : List Nat)
    (sh : HeapShape) (s : St α) (v : Nat → α), e - f ≤ d → f ≤ e → e ≤ l → Holds s.cell f l v → Shp os sh →
    os.Pairwise (· < ·) → LRow lt v f os e → Asc lt v f os e → Tailed lt f e l v →
    wp (smoothRemoveAll (tick lt) f e sh) (fun _ s' => ∃ v', Upd f l s s' v v' ∧ SortedOn lt f l v') s := by
  intro d
  induction d with
  | zero =>
    intro e os sh s v hd hf hel hh _ _ _ _ ht
    obtain rfl : e = f := by omega
    rw [smoothRemoveAll, if_neg (by simp)]
    exact wp_pure ⟨v, Upd.refl hh, ht.1⟩
  | succ d ih =>
    intro e os sh s v hd hf hel hh hsh hso hr ha ht
    rw [smoothRemoveAll]
    split
    · rename_i hne
      cases os with
      | nil => have hr : f = e := hr; omega
      | cons o os =>
        have r1 := hr.1
        have hp := leo_pos o
        apply wp_bind
        refine wp_mono (smoothRemove_spec hlt hn hel hh hsh hso hr ha) ?_
        rintro sh1 s1 ⟨os1, v1, hu1, hsh1, hso1, hr1, ha1⟩
        have ht0 : Tailed lt f (e - 1) l v :=
          Tailed.grow hlt (by rw [Nat.sub_add_cancel (by omega)]; exact ht) (by omega)
            (fun i a b => ha.max hlt hr i a (by omega))
        have ht1 : Tailed lt f (e - 1) l v1 := by
          refine ⟨ht0.1.congr fun i a c => (hu1.perm.out (by omega)).symm, ?_⟩
          intro i j a c a' c'
          rw [hu1.perm.out (i := j) (by omega)]
          exact hu1.perm.forall (P := fun x => lt (v j) x = false) (fun i a c => ht0.2 i j a c a' c') i a c
        have hu1' := hu1.widen hh (Nat.le_refl _) (by omega)
        refine wp_mono (ih (e - 1) os1 sh1 s1 v1 (by omega) (by omega) (by omega) hu1'.holds hsh1 hso1 hr1 ha1 ht1) ?_
        rintro _ s2 ⟨v2, hu2, h⟩
        exact ⟨v2, hu1'.trans hu2, h⟩
    · rename_i hne
      obtain rfl : e = f := by simpa using hne
      exact wp_pure ⟨v, Upd.refl hh, ht.1⟩

theorem smoothsort_spec (hlt : StrictWeak lt) {f l : Nat} {s : St α} {v : Nat → α} (hf : f ≤ l) (hn : l - f < 2 ^ 63)
    (hh : Holds s.cell f l v) :
    wp (smoothsort (tick lt) f l) (fun _ s' => ∃ v', Upd f l s s' v v' ∧ SortedOn lt f l v') s := by
  unfold smoothsort
  split
  · exact wp_pure ⟨v, Upd.refl hh, SortedOn.trivial (by omega)⟩
  · apply wp_bind
    refine wp_mono (smoothAddAll_spec hlt hn (l - f) f [] ⟨0, 0⟩ s v (Nat.le_refl _) hf hh ⟨fun i hi => by simp, by simp⟩
      trivial rfl trivial) ?_
    rintro sh s1 ⟨os, v1, hu1, hsh, hok, hr, ha⟩
    refine wp_mono (smoothRemoveAll_spec hlt hn (l - f) l os sh s1 v1 (Nat.le_refl _) hf (Nat.le_refl _) hu1.holds hsh
      hok.sorted hr ha ⟨SortedOn.trivial (by omega), fun i j a b c d => by omega⟩) ?_
    rintro _ s2 ⟨v2, hu2, h⟩
    exact ⟨v2, hu1.trans hu2, h⟩

end CppSort
