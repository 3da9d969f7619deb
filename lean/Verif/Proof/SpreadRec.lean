import Verif.Proof.SpreadBins
/-
Spreadsort: the layout of the bins, the numbers of bins, the recursion.
-/
set_option autoImplicit false

namespace CppSort
variable {α : Type}

/-! ### The layout -/

/-- `rank` is its own inverse on the bins. -/
def RankOK (n : Nat) (rank : Nat → Nat) : Prop := ∀ b, b < n → rank b < n ∧ rank (rank b) = b

theorem binRank_ok (rv : Bool) (n : Nat) : RankOK n (binRank rv n) := by
  intro b hb
  unfold binRank
  cases rv
  · exact ⟨hb, rfl⟩
  · simp only [if_true]
    omega

theorem signRank_ok {p n : Nat} (hp : p ≤ n) : RankOK n (signRank p) := by
  intro b hb
  unfold signRank
  by_cases h : b < p
  · rw [if_pos h, if_pos (by omega)]
    omega
  · rw [if_neg h, if_neg h]
    exact ⟨hb, rfl⟩

/-- The starts of the blocks in memory. -/
def binEdge (rank sizes : Nat → Nat) (f j : Nat) : Nat := f + byteOffset (fun j => sizes (rank j)) j

theorem byteOffset_eqN {B : α → Nat} {c : Nat → Nat} {n : Nat} {xs : List α} (h : ∀ b, b < n → c b = byteCount B b xs) :
    ∀ b, b ≤ n → byteOffset c b = xs.countP (fun x => decide (B x < b)) := by
  intro b
  induction b with
  | zero => intro _; simp [byteOffset]
  | succ b ih =>
    intro hb
    rw [byteOffset, ih (by omega), h b (by omega)]
    unfold byteCount
    clear ih h
    induction xs with
    | nil => rfl
    | cons x xs ih =>
      simp only [List.countP_cons]
      have : (if decide (B x < b) = true then 1 else 0) + (if (B x == b) = true then 1 else 0) =
          (if decide (B x < b + 1) = true then 1 else 0) := by
        simp only [decide_eq_true_eq, beq_iff_eq]
        split_ifs <;> omega
      omega

section
variable {B : α → Nat} {n f l : Nat} {v : Nat → α} {rank sizes : Nat → Nat}

theorem binEdge_mono {i j : Nat} (h : i ≤ j) : binEdge rank sizes f i ≤ binEdge rank sizes f j := by
  have := byteOffset_mono (fun j => sizes (rank j)) h
  unfold binEdge
  omega

theorem binEdge_zero : binEdge rank sizes f 0 = f := rfl

theorem binEdge_last (hr : RankOK n rank) (hc : ∀ b, b < n → sizes b = byteCount B b (lst v f l))
    (hb : ∀ i, f ≤ i → i < l → B (v i) < n) (hfl : f ≤ l) : binEdge rank sizes f n = l := by
  unfold binEdge
  rw [byteOffset_eqN (B := fun x => rank (B x)) (n := n) (xs := lst v f l) ?_ n (Nat.le_refl _),
    List.countP_eq_length.2 ?_, lst_length]
  · omega
  · intro x hx
    obtain ⟨i, h1, h2, rfl⟩ := mem_lst.1 hx
    exact decide_eq_true (hr _ (hb i h1 h2)).1
  · intro j hj
    rw [hc _ (hr j hj).1]
    unfold byteCount
    refine List.countP_congr ?_
    intro x hx
    obtain ⟨i, h1, h2, rfl⟩ := mem_lst.1 hx
    have := hr _ (hb i h1 h2)
    simp only [beq_iff_eq]
    constructor
    · intro h; rw [h]; exact (hr j hj).2
    · intro h; rw [← h]; exact this.2.symm

theorem binStart_rank (hr : RankOK n rank) {j : Nat} (hj : j < n) :
    binStart rank sizes f (rank j) = binEdge rank sizes f j := by
  unfold binStart binEdge
  rw [(hr j hj).2]

theorem binEnd_rank (hr : RankOK n rank) {j : Nat} (hj : j < n) :
    binStart rank sizes f (rank j) + sizes (rank j) = binEdge rank sizes f (j + 1) := by
  rw [binStart_rank hr hj]
  unfold binEdge
  rw [byteOffset]
  omega

theorem binLayout (hr : RankOK n rank) (hc : ∀ b, b < n → sizes b = byteCount B b (lst v f l))
    (hb : ∀ i, f ≤ i → i < l → B (v i) < n) (hfl : f ≤ l) :
    BinRgn n f l (binStart rank sizes f) (fun b => binStart rank sizes f b + sizes b) ∧
      BinZones B n f l (binStart rank sizes f) (fun b => binStart rank sizes f b + sizes b) v (binStart rank sizes f) := by
  have hlo : ∀ b, b < n → binStart rank sizes f b = binEdge rank sizes f (rank b) := fun b _ => rfl
  have hhi : ∀ b, b < n → binStart rank sizes f b + sizes b = binEdge rank sizes f (rank b + 1) := by
    intro b hb'
    have h := hr b hb'
    have := binEnd_rank (sizes := sizes) (f := f) hr h.1
    rwa [h.2] at this
  refine ⟨⟨fun b hb' => ?_, fun b b' i h1 h2 a1 a2 a3 a4 => ?_⟩, ⟨fun _ _ => Nat.le_refl _, fun _ _ => Nat.le_add_right _ _,
    fun _ _ i h1 h2 => absurd h1 (by omega), fun b hb' => ?_, hb⟩⟩
  · refine ⟨Nat.le_add_right _ _, Nat.le_add_right _ _, ?_⟩
    show _ + _ ≤ _
    rw [hhi b hb', ← binEdge_last hr hc hb hfl]
    exact binEdge_mono (by have := (hr b hb').1; omega)
  · simp only [hhi b h1, hhi b' h2] at a2 a4
    rw [hlo b h1] at a1
    rw [hlo b' h2] at a3
    unfold binEdge at *
    have := byteOffset_block (c := fun j => sizes (rank j)) (i := i - f) (b := rank b) (b' := rank b') (by omega) (by omega)
      (by omega) (by omega)
    rw [← (hr b h1).2, this, (hr b' h2).2]
  · simp only [Nat.add_sub_cancel_left]
    exact hc b hb'

end

theorem binOrder_eq (rv : Bool) (n : Nat) : binOrder rv n = (List.range' 0 n).map (binRank rv n) := by
  unfold binOrder
  cases rv
  · rw [if_neg (by simp), List.range_eq_range']
    conv_lhs => rw [← List.map_id (List.range' 0 n)]
    exact List.map_congr_left fun _ _ => rfl
  · rw [if_pos rfl, ← List.range_eq_range']
    refine List.ext_getElem (by simp) fun i h1 h2 => ?_
    simp [binRank]

/-! ### Sorting the bins -/

section
variable {lt : α → α → Bool}

/-- A range sorted up to a position, and a sorted block after it. -/
theorem SortedOn.join {f m l : Nat} {v : Nat → α} (h1 : SortedOn lt f m v) (h2 : SortedOn lt m l v)
    (h3 : ∀ i j, f ≤ i → i < m → m ≤ j → j < l → lt (v j) (v i) = false) : SortedOn lt f l v := by
  intro i j a b c
  by_cases hj : j < m
  · exact h1 i j a b hj
  · by_cases hi : i < m
    · exact h3 i j a hi (by omega) c
    · exact h2 i j (by omega) b c

theorem spreadParts_spec {c : Spread α} {rv : Bool} {mc : Nat} {bins rank E : Nat → Nat} {T : Nat → α → Prop} {f l n : Nat}
    (hE : ∀ i j, i ≤ j → E i ≤ E j) (hf : E 0 = f) (hl : E n = l)
    (hT : ∀ i i' x y, i < i' → i' < n → T i x → T i' y → lt y x = false) :
    ∀ (k j : Nat) (s : St α) (v : Nat → α), j + k ≤ n → Holds s.cell f l v →
    (∀ i, j ≤ i → i < j + k → bins (rank i) = E (i + 1)) →
    (∀ i, j ≤ i → i < j + k → ∀ (s : St α) (v : Nat → α), Holds s.cell (E i) (E (i + 1)) v →
      (∀ p, E i ≤ p → p < E (i + 1) → T i (v p)) → 2 ≤ E (i + 1) - E i →
      wp (if E (i + 1) - E i < mc then c.sort (E i) (E (i + 1)) else spreadRec c rv (E i) (E (i + 1)))
        (fun _ s' => ∃ v', Upd (E i) (E (i + 1)) s s' v v' ∧ SortedOn lt (E i) (E (i + 1)) v') s) →
    (∀ i, i < n → ∀ p, E i ≤ p → p < E (i + 1) → T i (v p)) → SortedOn lt f (E j) v →
    wp (spreadParts c rv mc bins ((List.range' j k).map rank) (E j)) (fun r s' => ∃ (v' : Nat → α), r = E (j + k) ∧
      Upd f l s s' v v' ∧ SortedOn lt f (E (j + k)) v' ∧ (∀ i, i < n → ∀ p, E i ≤ p → p < E (i + 1) → T i (v' p))) s := by
  intro k
  induction k with
  | zero =>
    intro j s v hjn hh hb hrec hTv hso
    rw [List.range'_zero, List.map_nil, spreadParts]
    exact wp_pure ⟨v, rfl, Upd.refl hh, hso, hTv⟩
  | succ k ih =>
    intro j s v hjn hh hb hrec hTv hso
    rw [List.range'_succ, List.map_cons, spreadParts]
    simp only [hb j (Nat.le_refl _) (by omega)]
    have e1 := hE j (j + 1) (by omega)
    have e0 := hE 0 j (by omega)
    have e2 := hE (j + 1) n (by omega)
    have key : ∀ (s' : St α) (v' : Nat → α), Upd (E j) (E (j + 1)) s s' v v' → SortedOn lt (E j) (E (j + 1)) v' →
        Holds s'.cell f l v' ∧ (∀ i, i < n → ∀ p, E i ≤ p → p < E (i + 1) → T i (v' p)) ∧ SortedOn lt f (E (j + 1)) v' := by
      intro s' v' hu hs
      have hT' : ∀ i, i < n → ∀ p, E i ≤ p → p < E (i + 1) → T i (v' p) := by
        intro i hi p p1 p2
        by_cases hij : i = j
        · subst hij
          exact hu.perm.forall (P := T i) (hTv i hi) p p1 p2
        · have : p < E j ∨ E (j + 1) ≤ p := by
            rcases Nat.lt_or_gt_of_ne hij with h | h
            · have := hE (i + 1) j (by omega); omega
            · have := hE (j + 1) i (by omega); omega
          rw [hu.perm.1 p this]
          exact hTv i hi p p1 p2
      refine ⟨(hu.widen hh (by omega) (by omega)).holds, hT', ?_⟩
      refine SortedOn.join (m := E j) (hso.congr fun i a b => (hu.perm.1 i (Or.inl b)).symm) hs fun i j' a b c d => ?_
      have hf' : ∀ m, m ≤ j → f ≤ i → i < E m → ∃ q, q < m ∧ E q ≤ i ∧ i < E (q + 1) := by
        intro m
        induction m with
        | zero => intro _ h1 h2; omega
        | succ m ihm =>
          intro hm h1 h2
          by_cases h : i < E m
          · obtain ⟨q, q1, q2⟩ := ihm (by omega) h1 h
            exact ⟨q, by omega, q2⟩
          · exact ⟨m, by omega, by omega, h2⟩
      obtain ⟨q, q1, q2, q3⟩ := hf' j (Nat.le_refl _) a b
      exact hT q j _ _ q1 (by omega) (hT' q (by omega) i q2 q3) (hT' j (by omega) j' c d)
    have rest : ∀ (s' : St α) (v' : Nat → α), Upd (E j) (E (j + 1)) s s' v v' → SortedOn lt (E j) (E (j + 1)) v' →
        wp (spreadParts c rv mc bins ((List.range' (j + 1) k).map rank) (E (j + 1))) (fun r s' => ∃ (v' : Nat → α), r = E (j + (k + 1)) ∧
          Upd f l s s' v v' ∧ SortedOn lt f (E (j + (k + 1))) v' ∧ (∀ i, i < n → ∀ p, E i ≤ p → p < E (i + 1) → T i (v' p))) s' := by
      intro s' v' hu hs
      obtain ⟨g1, g2, g3⟩ := key s' v' hu hs
      refine wp_mono (ih (j + 1) s' v' (by omega) g1 (fun i a b => hb i (by omega) (by omega))
        (fun i a b => hrec i (by omega) (by omega)) g2 g3) ?_
      rintro r s'' ⟨v'', r1, r2, r3, r4⟩
      rw [show j + 1 + k = j + (k + 1) by omega] at r1 r3
      exact ⟨v'', r1, (hu.widen hh (by omega) (by omega)).trans r2, r3, r4⟩
    by_cases hc : E (j + 1) - E j < 2
    · rw [if_pos hc]
      exact rest s v (Upd.refl (hh.sub (by omega) (by omega))) (SortedOn.trivial (by omega))
    · rw [if_neg hc]
      have hone := hrec j (Nat.le_refl _) (by omega) s v (hh.sub (by omega) (by omega)) (hTv j (by omega)) (by omega)
      by_cases hm : E (j + 1) - E j < mc
      · rw [if_pos hm] at hone ⊢
        apply wp_bind
        refine wp_mono hone ?_
        rintro _ s' ⟨v', hu, hs⟩
        exact rest s' v' hu hs
      · rw [if_neg hm] at hone ⊢
        apply wp_bind
        refine wp_mono hone ?_
        rintro _ s' ⟨v', hu, hs⟩
        exact rest s' v' hu hs

end

/-! ### The number of bins -/

theorem roughLogLoop_spec (x : Nat) : ∀ (n r : Nat), (r = 0 ∨ 2 ^ (r - 1) ≤ x) → x < 2 ^ (r + n) →
    r ≤ roughLogLoop x n r ∧ roughLogLoop x n r ≤ r + n ∧ x < 2 ^ roughLogLoop x n r ∧
      (roughLogLoop x n r = 0 ∨ 2 ^ (roughLogLoop x n r - 1) ≤ x) := by
  intro n
  induction n with
  | zero => intro r h1 h2; rw [roughLogLoop]; exact ⟨Nat.le_refl _, Nat.le_refl _, h2, h1⟩
  | succ n ih =>
    intro r h1 h2
    rw [roughLogLoop]
    by_cases h : x / 2 ^ r ≠ 0
    · rw [if_pos h]
      have hx : 2 ^ r ≤ x := by
        by_contra hn
        exact h (Nat.div_eq_of_lt (by omega))
      obtain ⟨a1, a2, a3, a4⟩ := ih (r + 1) (Or.inr (by simpa using hx)) (by rwa [show r + 1 + n = r + (n + 1) by omega])
      exact ⟨by omega, by omega, a3, a4⟩
    · rw [if_neg h]
      have hx : x < 2 ^ r := by
        by_contra hn
        have := Nat.div_pos (show 2 ^ r ≤ x by omega) (Nat.pow_pos (by omega : 0 < 2))
        omega
      exact ⟨Nat.le_refl _, by omega, hx, h1⟩

theorem roughLogLoop_le (x : Nat) : ∀ (n r : Nat), r ≤ roughLogLoop x n r ∧ roughLogLoop x n r ≤ r + n := by
  intro n
  induction n with
  | zero => intro r; rw [roughLogLoop]; exact ⟨Nat.le_refl _, Nat.le_refl _⟩
  | succ n ih =>
    intro r
    rw [roughLogLoop]
    split
    · have := ih (r + 1); omega
    · omega

theorem roughLog2_four {x : Nat} (h : 4 ≤ x) : 3 ≤ roughLog2 64 x ∧ roughLog2 64 x ≤ 64 := by
  refine ⟨?_, by have := roughLogLoop_le x 64 0; unfold roughLog2; omega⟩
  unfold roughLog2
  rw [roughLogLoop, if_pos (by simp; omega), roughLogLoop, if_pos (by simp; omega), roughLogLoop, if_pos (by omega)]
  exact (roughLogLoop_le x 61 3).1

theorem logDivisor_spec {count lr : Nat} (hc : 4 ≤ count) (hl : lr ≤ 64) :
    logDivisor count lr = 0 ∧ lr ≤ 12 ∨ 0 < logDivisor count lr ∧ logDivisor count lr < lr ∧ lr ≤ logDivisor count lr + 11 := by
  obtain ⟨h1, h2⟩ := roughLog2_four hc
  unfold logDivisor
  generalize roughLog2 64 count = r at *
  simp only []
  split_ifs with g1 g2
  · left; exact ⟨rfl, g1.2⟩
  · right; omega
  · right; omega

/-! ### The recursion -/

/-- What the proof needs to know about a variant of spreadsort: the elements satisfy `P`, they are to be sorted by `lt`. -/
structure SpreadOK (c : Spread α) (lt : α → α → Bool) (P : α → Prop) : Prop where
  size : c.ty.bits ≤ c.sizeBits ∧ c.sizeBits ≤ 64 ∧ 0 < c.ty.bits
  lo : c.ty.lo ≤ 0
  hi : 4096 ≤ c.ty.hi ∧ c.ty.hi < 2 ^ c.ty.bits
  span : ∀ x y, P x → P y → c.key y ≤ c.key x → c.key x - c.key y ≤ c.ty.hi ∨
    c.wrapv = true ∧ c.sizeBits = c.ty.bits ∧ c.key x - c.key y < 2 ^ c.ty.bits
  ext : ∀ (s : St α) (f l : Nat) (v : Nat → α), f + 2 ≤ l → Holds s.cell f l v → (∀ i, f ≤ i → i < l → P (v i)) →
    wp (c.extremes f l) (fun r s' => s' = s ∧ match r with
      | none => SortedOn lt f l v
      | some (mx, mn) => ∃ i j, f ≤ i ∧ i < l ∧ f ≤ j ∧ j < l ∧ mx = c.key (v i) ∧ mn = c.key (v j) ∧
          ∀ p, f ≤ p → p < l → mn ≤ c.key (v p) ∧ c.key (v p) ≤ mx) s
  sort : ∀ (s : St α) (f l : Nat) (v : Nat → α), f ≤ l → Holds s.cell f l v → (∀ i, f ≤ i → i < l → P (v i)) →
    wp (c.sort f l) (fun _ s' => ∃ v', Upd f l s s' v v' ∧ SortedOn lt f l v') s
  mc : ∀ d, 4 ≤ c.minCount d

section
variable {lt : α → α → Bool} {P : α → Prop} {c : Spread α}

theorem wp_opOver {wrapv : Bool} {t : IntTy} {x : Int} {Q : Int → St α → Prop} {s : St α} (h1 : t.lo ≤ x) (h2 : x ≤ t.hi)
    (hQ : Q x s) : wp (opOver wrapv t x) Q s := by
  unfold opOver
  rw [if_pos ⟨h1, h2⟩]
  exact wp_pure hQ

theorem wp_shiftOver {t : IntTy} {x : Int} {d : Nat} {Q : Int → St α → Prop} {s : St α} (h : d < t.bits)
    (hQ : Q (x / 2 ^ d) s) : wp (shiftOver t x d) Q s := by
  unfold shiftOver
  rw [if_pos h]
  exact wp_pure hQ

theorem spreadHead_spec (h : SpreadOK c lt P) {s : St α} {f l : Nat} {v : Nat → α} (hfl : f + 4 ≤ l) (hh : Holds s.cell f l v)
    (hP : ∀ i, f ≤ i → i < l → P (v i)) :
    wp (spreadHead c f l) (fun r s' => s' = s ∧ match r with
      | none => SortedOn lt f l v
      | some (d, m, n) => d < c.ty.bits ∧ n ≤ 4096 ∧
        (∀ p, f ≤ p → p < l → 0 ≤ c.key (v p) / 2 ^ d - m ∧ c.key (v p) / 2 ^ d - m < n) ∧
        (∃ i, f ≤ i ∧ i < l ∧ m = c.key (v i) / 2 ^ d) ∧
        (∃ i, f ≤ i ∧ i < l ∧ (n : Int) = c.key (v i) / 2 ^ d - m + 1) ∧
        (d ≠ 0 → ∃ i j, f ≤ i ∧ i < l ∧ f ≤ j ∧ j < l ∧ 2 ^ d ≤ c.key (v i) - c.key (v j))) s := by
  unfold spreadHead
  apply wp_bind
  refine wp_mono (h.ext s f l v (by omega) hh hP) ?_
  rintro r s1 ⟨rfl, hr⟩
  match r, hr with
  | none, hr => exact wp_pure ⟨rfl, hr⟩
  | some (mx, mn), hr =>
    obtain ⟨i, j, i1, i2, j1, j2, rfl, rfl, hp⟩ := hr
    simp only
    obtain ⟨z1, z2, z3⟩ := h.size
    have hij := hp j j1 j2
    have hspan := h.span _ _ (hP i i1 i2) (hP j j1 j2) hij.2
    have hpow : (2 : Int) ^ c.ty.bits ≤ 2 ^ c.sizeBits := by
      exact_mod_cast Nat.pow_le_pow_right (by omega : 0 < 2) z1
    have hlt : c.key (v i) - c.key (v j) < 2 ^ c.ty.bits := by
      rcases hspan with h' | h'
      · have := h.hi.2; omega
      · exact h'.2.2
    -- the span
    have hop : wp (opOver c.wrapv c.ty (c.key (v i) - c.key (v j))) (fun r s' => s' = s1 ∧
        (r % 2 ^ c.sizeBits).toNat = (c.key (v i) - c.key (v j)).toNat) s1 := by
      unfold opOver
      by_cases g : c.ty.lo ≤ c.key (v i) - c.key (v j) ∧ c.key (v i) - c.key (v j) ≤ c.ty.hi
      · rw [if_pos g]
        exact wp_pure ⟨rfl, by rw [Int.emod_eq_of_lt (by omega) (by omega)]⟩
      · rw [if_neg g]
        have hlo := h.lo
        rcases hspan with h' | ⟨h1, h2, h3⟩
        · omega
        · rw [if_pos (by simp [h1])]
          refine wp_pure ⟨rfl, ?_⟩
          unfold IntTy.wrap
          rw [h2, Int.add_comm, Int.add_emod_emod]
          rw [show c.ty.lo + (c.key (v i) - c.key (v j) - c.ty.lo) = c.key (v i) - c.key (v j) by omega,
            Int.emod_eq_of_lt (by omega) (by omega)]
    apply wp_bind
    refine wp_mono hop ?_
    rintro span s2 ⟨rfl, hs⟩
    rw [hs]
    generalize hN : (c.key (v i) - c.key (v j)).toNat = N
    have hNlt : N < 2 ^ c.ty.bits := by
      have : (N : Int) < (2 ^ c.ty.bits : Nat) := by push_cast; omega
      exact_mod_cast this
    have hNs : N < 2 ^ c.sizeBits := Nat.lt_of_lt_of_le hNlt (Nat.pow_le_pow_right (by omega) z1)
    have hlog := roughLogLoop_spec N c.sizeBits 0 (Or.inl rfl) (by rwa [Nat.zero_add])
    rw [show roughLogLoop N c.sizeBits 0 = roughLog2 c.sizeBits N from rfl] at hlog
    generalize roughLog2 c.sizeBits N = lr at *
    obtain ⟨-, l2, l3, l4⟩ := hlog
    have hlr : lr ≤ c.ty.bits := by
      rcases l4 with l4 | l4
      · omega
      · by_contra hn
        have := Nat.pow_le_pow_right (by omega : 0 < 2) (show c.ty.bits ≤ lr - 1 by omega)
        omega
    have hdiv := logDivisor_spec (count := l - f) (by omega) (show lr ≤ 64 by omega)
    generalize logDivisor (l - f) lr = d at *
    have hdb : d < c.ty.bits := by omega
    have hd0 : (0 : Int) < 2 ^ d := Int.pow_pos (by omega)
    apply wp_bind
    refine wp_shiftOver hdb ?_
    apply wp_bind
    refine wp_shiftOver hdb ?_
    have hmono : ∀ p, f ≤ p → p < l → c.key (v j) / 2 ^ d ≤ c.key (v p) / 2 ^ d ∧ c.key (v p) / 2 ^ d ≤ c.key (v i) / 2 ^ d :=
      fun p p1 p2 => ⟨Int.ediv_le_ediv hd0 (hp p p1 p2).1, Int.ediv_le_ediv hd0 (hp p p1 p2).2⟩
    have hbound : c.key (v i) / 2 ^ d - c.key (v j) / 2 ^ d ≤ 4095 := by
      rcases hdiv with ⟨e, g⟩ | ⟨g1, g2, g3⟩
      · have := Nat.pow_le_pow_right (by omega : 0 < 2) g
        rw [e]
        simp only [Int.pow_zero, Int.ediv_one]
        omega
      · have h1 : N < 2 ^ d * 2048 := by
          have := Nat.pow_le_pow_right (by omega : 0 < 2) g3
          rw [Nat.pow_add] at this
          omega
        have h2 : c.key (v i) < c.key (v j) + 2 ^ d * 2048 := by
          have cast : ∀ K : Nat, N < 2 ^ d * K → (N : Int) < 2 ^ d * K := fun K hK => by exact_mod_cast hK
          have := cast 2048 h1
          omega
        have h3 : c.key (v i) / 2 ^ d < c.key (v j) / 2 ^ d + 2049 := by
          apply Int.ediv_lt_of_lt_mul hd0
          have := Int.lt_ediv_add_one_mul_self (c.key (v j)) hd0
          rw [Int.add_mul] at this ⊢
          omega
        omega
    have hm := hmono i i1 i2
    have hmj := hmono j j1 j2
    have hhi := h.hi.1
    have hlo := h.lo
    apply wp_bind
    refine wp_opOver (by omega) (by omega) ?_
    rw [Int.emod_eq_of_lt (by omega) (by omega), if_pos (by omega)]
    refine wp_pure ⟨rfl, hdb, by omega, fun p p1 p2 => ?_, ⟨j, j1, j2, rfl⟩, ⟨i, i1, i2, by omega⟩, fun hd => ⟨i, j, i1, i2, j1, j2, ?_⟩⟩
    · have := hmono p p1 p2
      omega
    · have h1 : 2 ^ d ≤ N := by
        rcases l4 with l4 | l4
        · omega
        · exact Nat.le_trans (Nat.pow_le_pow_right (by omega) (by omega)) l4
      have : ((2 ^ d : Nat) : Int) ≤ N := by exact_mod_cast h1
      push_cast at this
      omega

/-- The bin of an element. -/
def keyBin (key : α → Int) (d : Nat) (m : Int) (x : α) : Nat := (key x / 2 ^ d - m).toNat

theorem binOf_fn (h : SpreadOK c lt P) {f l d n : Nat} {m : Int} (hd : d < c.ty.bits) (hn : n ≤ 4096) :
    BinFn (keyBin c.key d m) (fun x => P x ∧ 0 ≤ c.key x / 2 ^ d - m ∧ c.key x / 2 ^ d - m < n) (fun _ => False) f l
      (binOf c d m n) := by
  rintro s v p hh p1 p2 ⟨-, a, b⟩ -
  unfold binOf
  apply wp_bind
  refine wp_read hh p1 p2 ?_
  apply wp_bind
  refine wp_shiftOver hd ?_
  apply wp_bind
  have hhi := h.hi.1
  have hlo := h.lo
  refine wp_opOver (by omega) (by omega) ?_
  rw [if_pos ⟨a, b⟩]
  exact wp_pure ⟨rfl, rfl⟩

/-- Elements of the same bin are close to each other. -/
theorem keyBin_close {key : α → Int} {d : Nat} {m : Int} {x y : α} (hx : 0 ≤ key x / 2 ^ d - m) (hy : 0 ≤ key y / 2 ^ d - m)
    (e : keyBin key d m x = keyBin key d m y) : key x - key y < 2 ^ d := by
  unfold keyBin at e
  have hd0 : (0 : Int) < 2 ^ d := Int.pow_pos (by omega)
  have h1 : key x / 2 ^ d = key y / 2 ^ d := by omega
  have h2 := Int.lt_ediv_add_one_mul_self (key x) hd0
  have h3 := Int.ediv_mul_le (key y) (Int.ne_of_gt hd0)
  rw [h1, Int.add_mul] at h2
  omega

/-- Elements of different bins. -/
theorem keyBin_lt {key : α → Int} {d : Nat} {m : Int} {x y : α} (e : keyBin key d m x < keyBin key d m y) : key x ≤ key y := by
  unfold keyBin at e
  by_contra hn
  have hd0 : (0 : Int) < 2 ^ d := Int.pow_pos (by omega)
  have := Int.ediv_le_ediv hd0 (show key y ≤ key x by omega)
  omega

/-- The order of the elements with respect to the one of their integers. -/
def KeyOrder (key : α → Int) (lt : α → α → Bool) (P : α → Prop) (rv : Bool) : Prop :=
  ∀ x y, P x → P y → (if rv then key y ≤ key x else key x ≤ key y) → lt y x = false

theorem accEnds_range {sizes hi rank E : Nat → Nat} {n : Nat}
    (h1 : ∀ j, j < n → hi (rank j) = E (j + 1) ∧ E j + sizes (rank j) = E (j + 1)) : ∀ (k j : Nat), j + k ≤ n →
    AccEnds sizes hi ((List.range' j k).map rank) (E j) := by
  intro k
  induction k with
  | zero => intro j _; exact trivial
  | succ k ih =>
    intro j hj
    rw [List.range'_succ, List.map_cons, AccEnds]
    obtain ⟨a, b⟩ := h1 j (by omega)
    rw [a]
    exact ⟨b, ih (j + 1) (by omega)⟩

theorem dropLast_map_range' {rank : Nat → Nat} {n : Nat} :
    ((List.range' 0 n).map rank).dropLast = (List.range' 0 (n - 1)).map rank := by
  rw [← List.map_dropLast]
  congr 1
  cases n with
  | zero => rfl
  | succ n => rw [List.range'_concat, List.dropLast_concat]; rfl

theorem spreadRec_spec (h : SpreadOK c lt P) {rv : Bool} (hko : KeyOrder c.key lt P rv) : ∀ (D : Nat) (s : St α) (f l : Nat) (v : Nat → α),
    f + 4 ≤ l → Holds s.cell f l v → (∀ i, f ≤ i → i < l → P (v i)) →
    (∀ i j, f ≤ i → i < l → f ≤ j → j < l → c.key (v i) - c.key (v j) < 2 ^ D) →
    wp (spreadRec c rv f l) (fun _ s' => ∃ v', Upd f l s s' v v' ∧ SortedOn lt f l v') s := by
  intro D
  induction D using Nat.strong_induction_on with
  | _ D ih =>
  intro s f l v hfl hh hP hD
  rw [spreadRec]
  apply wp_bind
  refine wp_mono (spreadHead_spec h hfl hh hP) ?_
  rintro r s1 ⟨rfl, hr⟩
  match r, hr with
  | none, hr => exact wp_pure ⟨v, Upd.refl hh, hr⟩
  | some (d, m, n), hr =>
    simp only
    obtain ⟨hd, hn, hin, -, ⟨iz, iz1, iz2, hnz⟩, hdD⟩ := hr
    have hn0 : 0 < n := by have := hin iz iz1 iz2; omega
    generalize hPd : (fun x => P x ∧ 0 ≤ c.key x / 2 ^ d - m ∧ c.key x / 2 ^ d - m < n) = Pd
    have hbf : BinFn (keyBin c.key d m) Pd (fun _ => False) f l (binOf c d m n) := hPd ▸ binOf_fn h hd hn
    have hPv : ∀ i, f ≤ i → i < l → Pd (v i) := fun i a b => by rw [← hPd]; exact ⟨hP i a b, hin i a b⟩
    have hPd1 : ∀ x, Pd x → P x ∧ 0 ≤ c.key x / 2 ^ d - m ∧ c.key x / 2 ^ d - m < n := fun x hx => by rw [← hPd] at hx; exact hx
    apply wp_bind
    refine wp_mono (countBins_spec hbf hh hPv _ f _ rfl (Nat.le_refl _) (by omega)) ?_
    rintro sizes s2 ⟨rfl, hsz⟩
    have hsz' : ∀ b, b < n → sizes b = byteCount (keyBin c.key d m) b (lst v f l) := fun b _ => by rw [hsz]; simp
    have hbd : ∀ i, f ≤ i → i < l → keyBin c.key d m (v i) < n := by
      intro i a b
      have := hin i a b
      unfold keyBin
      omega
    have hrk := binRank_ok rv n
    obtain ⟨hrg, hz⟩ := binLayout hrk hsz' hbd (show f ≤ l by omega)
    have hlast := binEdge_last hrk hsz' hbd (show f ≤ l by omega)
    rw [binOrder_eq, dropLast_map_range']
    have hacc : AccEnds sizes (fun b => binStart (binRank rv n) sizes f b + sizes b) ((List.range' 0 (n - 1)).map (binRank rv n)) f := by
      refine accEnds_range (n := n) (E := binEdge (binRank rv n) sizes f) (fun j hj => ?_) (n - 1) 0 (by omega)
      have := binEnd_rank (sizes := sizes) (f := f) hrk hj
      refine ⟨this, ?_⟩
      rw [← this, binStart_rank hrk hj]
    rw [spreadBins_eq _ _ _ hacc]
    apply wp_bind
    refine wp_mono (spreadEnds_spec hrg (spreadSwap_spec hrg hbf) _ s2 v _ hh hPv ?_ (fun _ _ hk => hk.elim) hz) ?_
    · intro u hu
      obtain ⟨j, hj, rfl⟩ := List.mem_map.1 hu
      rw [List.mem_range'_1] at hj
      exact ⟨(hrk j (by omega)).1, fun hk => hk, rfl⟩
    rintro bins s3 ⟨v1, hu1, hz1, hfull⟩
    have hblocks := hz1.blocks hrg (binRank rv n (n - 1)) fun b hb hne => hfull b hb (Or.inr ?_)
    swap
    · refine List.mem_map.2 ⟨binRank rv n b, ?_, (hrk b hb).2⟩
      rw [List.mem_range'_1]
      have h1 := (hrk b hb).1
      refine ⟨by omega, ?_⟩
      by_contra hc
      exact hne (by rw [show n - 1 = binRank rv n b by omega, (hrk b hb).2])
    have hP1 := hu1.perm.forall hPv
    -- the blocks, in the order of the memory
    have hT1 : ∀ i, i < n → ∀ p, binEdge (binRank rv n) sizes f i ≤ p → p < binEdge (binRank rv n) sizes f (i + 1) →
        Pd (v1 p) ∧ keyBin c.key d m (v1 p) = binRank rv n i := by
      intro i hi p p1 p2
      have e1 := binEdge_mono (rank := binRank rv n) (sizes := sizes) (f := f) (show 0 ≤ i by omega)
      have e2 := binEdge_mono (rank := binRank rv n) (sizes := sizes) (f := f) (show i + 1 ≤ n by omega)
      rw [binEdge_zero] at e1
      refine ⟨hP1 p (by omega) (by omega), hblocks _ (hrk i hi).1 p ?_ ?_⟩
      · rw [binStart_rank hrk hi]; exact p1
      · show p < _ + _
        rw [binEnd_rank hrk hi]; exact p2
    have hcross : ∀ i i' x y, i < i' → i' < n → Pd x ∧ keyBin c.key d m x = binRank rv n i →
        Pd y ∧ keyBin c.key d m y = binRank rv n i' → lt y x = false := by
      intro i i' x y h1 h2 hx hy
      refine hko x y (hPd1 x hx.1).1 (hPd1 y hy.1).1 ?_
      have ex := hx.2
      have ey := hy.2
      unfold binRank at ex ey
      cases rv
      · simp only [Bool.false_eq_true, if_false] at ex ey ⊢
        exact keyBin_lt (d := d) (m := m) (by omega)
      · simp only [if_true] at ex ey ⊢
        exact keyBin_lt (d := d) (m := m) (by omega)
    have hclose : ∀ i x y, Pd x ∧ keyBin c.key d m x = binRank rv n i → Pd y ∧ keyBin c.key d m y = binRank rv n i →
        c.key x - c.key y < 2 ^ d := fun i x y hx hy =>
      keyBin_close (hPd1 x hx.1).2.1 (hPd1 y hy.1).2.1 (by rw [hx.2, hy.2])
    by_cases hd0 : d = 0
    · rw [if_pos hd0]
      refine wp_pure ⟨v1, hu1, fun i j a b e => ?_⟩
      have hfind : ∀ p, f ≤ p → p < l → ∃ q, q < n ∧ binEdge (binRank rv n) sizes f q ≤ p ∧
          p < binEdge (binRank rv n) sizes f (q + 1) := by
        intro p p1 p2
        rw [← hlast] at p2
        unfold binEdge at p2
        obtain ⟨q, q1, q2, q3⟩ := byteOffset_find (fun j => sizes (binRank rv n j)) (i := p - f) n (by omega)
        exact ⟨q, q1, by unfold binEdge; omega, by unfold binEdge; omega⟩
      obtain ⟨q, q1, q2, q3⟩ := hfind i a (by omega)
      obtain ⟨q', q1', q2', q3'⟩ := hfind j (by omega) e
      have hqq : q ≤ q' := by
        by_contra hc
        have := binEdge_mono (rank := binRank rv n) (sizes := sizes) (f := f) (show q' + 1 ≤ q by omega)
        omega
      have hx := hT1 q q1 i q2 q3
      have hy := hT1 q' q1' j q2' q3'
      by_cases hqe : q = q'
      · rw [← hqe] at hy
        refine hko _ _ (hPd1 _ hx.1).1 (hPd1 _ hy.1).1 ?_
        have c1 := hclose q _ _ hx hy
        have c2 := hclose q _ _ hy hx
        rw [hd0, Int.pow_zero] at c1 c2
        split_ifs <;> omega
      · exact hcross q q' _ _ (by omega) q1' hx hy
    · rw [if_neg hd0]
      have hdD' : d < D := by
        obtain ⟨i, j, a1, a2, a3, a4, a5⟩ := hdD hd0
        have := hD i j a1 a2 a3 a4
        by_contra hc
        have hp : (2 : Int) ^ D ≤ 2 ^ d := by exact_mod_cast Nat.pow_le_pow_right (by omega : 0 < 2) (show D ≤ d by omega)
        omega
      apply wp_bind
      have hfb : ∀ i, i < n → upd bins (binRank rv n (n - 1)) l (binRank rv n i) = binEdge (binRank rv n) sizes f (i + 1) := by
        intro i hi
        by_cases e : i = n - 1
        · rw [upd_eq (by rw [e]), show i + 1 = n by omega, hlast]
        · have hne : binRank rv n i ≠ binRank rv n (n - 1) := by
            intro hc
            have h1 := (hrk i hi).2
            have h2 := (hrk (n - 1) (by omega)).2
            rw [hc, h2] at h1
            omega
          rw [upd_ne hne, hfull _ (hrk i hi).1 (Or.inr (List.mem_map.2 ⟨i, by rw [List.mem_range'_1]; omega, rfl⟩))]
          exact binEnd_rank hrk hi
      have key := spreadParts_spec (lt := lt) (c := c) (rv := rv) (mc := c.minCount d) (bins := upd bins (binRank rv n (n - 1)) l)
        (rank := binRank rv n) (E := binEdge (binRank rv n) sizes f)
        (T := fun i x => Pd x ∧ keyBin c.key d m x = binRank rv n i) (f := f) (l := l) (n := n)
        (fun i j hij => binEdge_mono hij) rfl hlast hcross n 0 s3 v1 (by omega) hu1.holds (fun i _ hi => hfb i (by omega)) ?_ hT1
        (SortedOn.trivial (by rw [binEdge_zero]; omega))
      · rw [binEdge_zero] at key
        refine wp_mono key ?_
        rintro r s4 ⟨v2, -, hu2, hs2, -⟩
        rw [Nat.zero_add, hlast] at hs2
        exact wp_pure ⟨v2, hu1.trans hu2, hs2⟩
      · intro i _ hi s5 v5 hh5 hT5 hc5
        split
        · exact h.sort s5 _ _ v5 (by omega) hh5 fun p p1 p2 => (hPd1 _ (hT5 p p1 p2).1).1
        · rename_i hge
          have := h.mc d
          exact ih d hdD' s5 _ _ v5 (by omega) hh5 (fun p p1 p2 => (hPd1 _ (hT5 p p1 p2).1).1)
            fun p q p1 p2 q1 q2 => hclose i _ _ (hT5 p p1 p2) (hT5 q q1 q2)

end

end CppSort
