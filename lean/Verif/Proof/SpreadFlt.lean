import Verif.Proof.SpreadInt
import Verif.Proof.SkaTypes
/-
Spreadsort on floating point numbers.
-/
set_option autoImplicit false

namespace CppSort
variable {α : Type}

section
variable {lt : α → α → Bool} {P : α → Prop} {c : Spread α}

theorem SpreadOK.mono (h : SpreadOK c lt P) {Q : α → Prop} (hQ : ∀ x, Q x → P x) : SpreadOK c lt Q where
  size := h.size
  lo := h.lo
  hi := h.hi
  span := fun x y hx hy => h.span x y (hQ x hx) (hQ y hy)
  ext := fun s f l v hfl hh hP => h.ext s f l v hfl hh fun i a b => hQ _ (hP i a b)
  sort := fun s f l v hfl hh hP => h.sort s f l v hfl hh fun i a b => hQ _ (hP i a b)
  mc := h.mc

theorem firstPositive_spec {wrapv : Bool} {t : IntTy} (hsg : t.signed = true) (hb : 32 ≤ t.bits) {m : Int} {n : Nat}
    (h31 : -2 ^ 31 ≤ m) (hlo : t.lo < m ∨ wrapv = true ∧ t.lo ≤ m) (s : St α) :
    wp (firstPositive wrapv t m n) (fun p s' => s' = s ∧ p ≤ n ∧ ∀ b : Nat, b < n → (b < p ↔ m + b < 0)) s := by
  unfold firstPositive
  by_cases hm : m < 0
  · rw [if_pos hm]
    have hr : ∀ p0 : Nat, (p0 : Int) = -m →
        wp (if n < p0 then pure n else pure p0 : M α Nat) (fun p s' => s' = s ∧ p ≤ n ∧ ∀ b : Nat, b < n → (b < p ↔ m + b < 0)) s := by
      intro p0 hp
      split
      · exact wp_pure ⟨rfl, Nat.le_refl _, fun b hb => by omega⟩
      · exact wp_pure ⟨rfl, by omega, fun b hb => by omega⟩
    have h2 : (2 : Int) ^ 31 ≤ 2 ^ (t.bits - 1) := by exact_mod_cast Nat.pow_le_pow_right (by omega : 0 < 2) (show 31 ≤ t.bits - 1 by omega)
    have e1 : t.lo = -2 ^ (t.bits - 1) := by unfold IntTy.lo; rw [if_pos hsg]
    have e2 : t.hi = 2 ^ (t.bits - 1) - 1 := by unfold IntTy.hi; rw [if_pos hsg]
    by_cases hh : -m ≤ t.hi
    · apply wp_bind
      refine wp_opOver (by omega) hh ?_
      have : (-m) % 2 ^ 32 = -m := by norm_num at h31 ⊢; omega
      rw [this]
      exact hr _ (by omega)
    · have hml : m = t.lo := by omega
      have hw : wrapv = true := by
        rcases hlo with h | h
        · omega
        · exact h.1
      have hb32 : t.bits = 32 := by
        by_contra hc
        have h3 : (2 : Int) ^ 32 ≤ 2 ^ (t.bits - 1) := by exact_mod_cast Nat.pow_le_pow_right (by omega : 0 < 2) (show 32 ≤ t.bits - 1 by omega)
        norm_num at h31 h3
        omega
      have hm2 : m = -2147483648 := by
        rw [hb32] at e1
        rw [hml, e1]
        norm_num
      rw [hb32] at e2
      norm_num at e2
      have hlo2 : t.lo = -2147483648 := by omega
      apply wp_bind
      unfold opOver
      rw [if_neg (by omega), if_pos (by simp [hw])]
      unfold IntTy.wrap
      rw [hb32, hlo2]
      refine wp_pure (hr (((-m - -2147483648) % 2 ^ 32 + -2147483648) % 2 ^ 32).toNat ?_)
      rw [hm2]
      rfl
  · rw [if_neg hm]
    exact wp_pure ⟨rfl, by omega, fun b hb => by omega⟩

theorem floatSortRec_spec (h : SpreadOK c lt P) (hsg : c.ty.signed = true) (hb : 32 ≤ c.ty.bits)
    (hneg : KeyOrder c.key lt (fun x => P x ∧ c.key x < 0) true) (hpos : KeyOrder c.key lt (fun x => P x ∧ 0 ≤ c.key x) false)
    (hmix : ∀ x y, P x → P y → c.key x < 0 → 0 ≤ c.key y → lt y x = false)
    (hlo : ∀ x, P x → c.ty.lo < c.key x ∨ c.wrapv = true ∧ c.ty.lo ≤ c.key x)
    {s : St α} {f l : Nat} {v : Nat → α} (hfl : f + 4 ≤ l) (hh : Holds s.cell f l v) (hP : ∀ i, f ≤ i → i < l → P (v i))
    (h31 : c.ty.bits = 32 ∨ c.ty.bits = 64 ∧ ((∃ i, f ≤ i ∧ i < l ∧ 0 ≤ c.key (v i)) ∨
      ∃ i j, f ≤ i ∧ i < l ∧ f ≤ j ∧ j < l ∧ 2 ^ 43 ≤ c.key (v i) - c.key (v j))) :
    wp (floatSortRec c f l) (fun _ s' => ∃ v', Upd f l s s' v v' ∧ SortedOn lt f l v') s := by
  unfold floatSortRec
  apply wp_bind
  refine wp_mono (spreadHead_spec h hfl hh hP) ?_
  rintro r s1 ⟨rfl, hr⟩
  match r, hr with
  | none, hr => exact wp_pure ⟨v, Upd.refl hh, hr⟩
  | some (d, m, n), hr =>
    simp only
    obtain ⟨hd, hn, hin, ⟨im, im1, im2, hmm⟩, ⟨iz, iz1, iz2, hnz⟩, hdD⟩ := hr
    have hn0 : 0 < n := by have := hin iz iz1 iz2; omega
    have hd0' : (0 : Int) < 2 ^ d := Int.pow_pos (by omega)
    have hsign : ∀ x : Int, x / 2 ^ d < 0 ↔ x < 0 := fun x =>
      ⟨fun hx => by by_contra hc; have := Int.ediv_nonneg (b := 2 ^ d) (show 0 ≤ x by omega) (by omega); omega,
        fun hx => Int.ediv_neg_of_neg_of_pos hx hd0'⟩
    generalize hPd : (fun x => P x ∧ 0 ≤ c.key x / 2 ^ d - m ∧ c.key x / 2 ^ d - m < n) = Pd
    have hbf : BinFn (keyBin c.key d m) Pd (fun _ => False) f l (binOf c d m n) := hPd ▸ binOf_fn h hd hn
    have hPv : ∀ i, f ≤ i → i < l → Pd (v i) := fun i a b => by rw [← hPd]; exact ⟨hP i a b, hin i a b⟩
    have hPd1 : ∀ x, Pd x → P x ∧ 0 ≤ c.key x / 2 ^ d - m ∧ c.key x / 2 ^ d - m < n := fun x hx => by rw [← hPd] at hx; exact hx
    apply wp_bind
    refine wp_mono (countBins_spec hbf hh hPv _ f _ rfl (Nat.le_refl _) (by omega)) ?_
    rintro sizes s2 ⟨rfl, hsz⟩
    have hsz' : ∀ b, b < n → sizes b = byteCount (keyBin c.key d m) b (lst v f l) := fun b _ => by rw [hsz]; simp
    have hbd : ∀ i, f ≤ i → i < l → keyBin c.key d m (v i) < n := by
      intro i a b
      have := hin i a b
      unfold keyBin
      omega
    -- the number of negative bins
    have hdl : ∀ x, c.ty.lo ≤ x → c.ty.lo ≤ x / 2 ^ d ∧ (c.ty.lo = x / 2 ^ d → x = c.ty.lo) := by
      intro x hx
      have h0 := h.lo
      have hp1 : (1 : Int) ≤ 2 ^ d := by omega
      have a1 := Int.lt_ediv_add_one_mul_self x hd0'
      by_cases hxn : x < 0
      · have a2 : x ≤ x / 2 ^ d := by
          by_contra hc
          have : (x / 2 ^ d + 1) * 2 ^ d ≤ (x / 2 ^ d + 1) * 1 :=
            Int.mul_le_mul_of_nonpos_left (by omega) hp1
          omega
        exact ⟨by omega, fun e => by omega⟩
      · have := (hsign x).not.2 hxn
        have hl0 : c.ty.lo < 0 := by
          unfold IntTy.lo; rw [if_pos hsg]
          have : (0 : Int) < 2 ^ (c.ty.bits - 1) := Int.pow_pos (by omega)
          omega
        exact ⟨by omega, fun e => by omega⟩
    have hlm : c.ty.lo < m ∨ c.wrapv = true ∧ c.ty.lo ≤ m := by
      rw [hmm]
      rcases hlo _ (hP im im1 im2) with g | g
      · left
        have := hdl _ (Int.le_of_lt g)
        by_contra hc
        have := this.2 (by omega)
        omega
      · exact Or.inr ⟨g.1, (hdl _ g.2).1⟩
    have hm31 : -2 ^ 31 ≤ m := by
      rcases h31 with g | ⟨g, hg⟩
      · have : c.ty.lo = -2 ^ 31 := by unfold IntTy.lo; rw [if_pos hsg, g]
        omega
      · rcases hg with ⟨i, i1, i2, hi⟩ | ⟨i, j, i1, i2, j1, j2, hij⟩
        · have := (hsign (c.key (v i))).not.2 (by omega)
          have := hin i i1 i2
          norm_num
          omega
        · have ha := hin i i1 i2
          have hb := hin j j1 j2
          have hd32 : 32 ≤ d := by
            by_contra hc
            have a1 := Int.lt_ediv_add_one_mul_self (c.key (v i)) hd0'
            have a2 := Int.ediv_mul_le (c.key (v j)) (Int.ne_of_gt hd0')
            have hp : (2 : Int) ^ d ≤ 2 ^ 31 := by exact_mod_cast Nat.pow_le_pow_right (by omega : 0 < 2) (show d ≤ 31 by omega)
            have a3 : (c.key (v i) / 2 ^ d + 1 - c.key (v j) / 2 ^ d) * 2 ^ d ≤ 4096 * 2 ^ d :=
              Int.mul_le_mul_of_nonneg_right (by omega) (by omega)
            rw [Int.sub_mul] at a3
            norm_num at hp hij
            omega
          have e1 : c.ty.lo = -2 ^ 63 := by unfold IntTy.lo; rw [if_pos hsg, g]
          have g2 : c.ty.lo ≤ c.key (v im) := by
            rcases hlo _ (hP im im1 im2) with g | g
            · omega
            · exact g.2
          rw [hmm]
          refine Int.le_ediv_of_mul_le hd0' ?_
          have hp : (2 : Int) ^ 32 ≤ 2 ^ d := by exact_mod_cast Nat.pow_le_pow_right (by omega : 0 < 2) hd32
          norm_num at hp e1 ⊢
          omega
    apply wp_bind
    refine wp_mono (firstPositive_spec (n := n) hsg hb hm31 hlm s2) ?_
    rintro p s2' ⟨rfl, hpn, hp⟩
    have hrk := signRank_ok hpn
    obtain ⟨hrg, hz⟩ := binLayout hrk hsz' hbd (show f ≤ l by omega)
    have hlast := binEdge_last hrk hsz' hbd (show f ≤ l by omega)
    apply wp_bind
    refine wp_mono (spreadEnds_spec hrg (spreadSwap_spec hrg hbf) _ s2' v _ hh hPv
      (fun u hu => ⟨List.mem_range.1 hu, fun hk => hk, rfl⟩) (fun _ _ hk => hk.elim) hz) ?_
    rintro bins s3 ⟨v1, hu1, hz1, hfull⟩
    have hfull' : ∀ b, b < n → bins b = binStart (signRank p) sizes f b + sizes b := fun b hb => hfull b hb (Or.inr (List.mem_range.2 hb))
    have hblocks := hz1.blocks hrg 0 fun b hb _ => hfull' b hb
    have hP1 := hu1.perm.forall hPv
    have hT1 : ∀ i, i < n → ∀ q, binEdge (signRank p) sizes f i ≤ q → q < binEdge (signRank p) sizes f (i + 1) →
        Pd (v1 q) ∧ keyBin c.key d m (v1 q) = signRank p i := by
      intro i hi q p1 p2
      have e1 := binEdge_mono (rank := signRank p) (sizes := sizes) (f := f) (show 0 ≤ i by omega)
      have e2 := binEdge_mono (rank := signRank p) (sizes := sizes) (f := f) (show i + 1 ≤ n by omega)
      rw [binEdge_zero] at e1
      refine ⟨hP1 q (by omega) (by omega), hblocks _ (hrk i hi).1 q ?_ ?_⟩
      · rw [binStart_rank hrk hi]; exact p1
      · show q < _ + _
        rw [binEnd_rank hrk hi]; exact p2
    have hsg' : ∀ i x, i < n → Pd x ∧ keyBin c.key d m x = signRank p i → P x ∧ (i < p ↔ c.key x < 0) := by
      intro i x hi hx
      obtain ⟨g1, g2, g3⟩ := hPd1 x hx.1
      refine ⟨g1, ?_⟩
      have e := hx.2
      unfold keyBin signRank at e
      have hs := hsign (c.key x)
      by_cases hip : i < p
      · rw [if_pos hip] at e
        have := (hp (p - 1 - i) (by omega)).1 (by omega)
        rw [← hs]
        omega
      · rw [if_neg hip] at e
        have := (hp i hi).not.1 hip
        rw [← hs]
        omega
    have hcross : ∀ i i' x y, i < i' → i' < n → Pd x ∧ keyBin c.key d m x = signRank p i →
        Pd y ∧ keyBin c.key d m y = signRank p i' → lt y x = false := by
      intro i i' x y h1 h2 hx hy
      obtain ⟨px, sx⟩ := hsg' i x (by omega) hx
      obtain ⟨py, sy⟩ := hsg' i' y h2 hy
      have ex := hx.2
      have ey := hy.2
      unfold signRank at ex ey
      by_cases g1 : i' < p
      · rw [if_pos g1] at ey
        rw [if_pos (by omega)] at ex
        refine hneg x y ⟨px, sx.1 (by omega)⟩ ⟨py, sy.1 g1⟩ ?_
        rw [if_pos rfl]
        exact keyBin_lt (d := d) (m := m) (by omega)
      · rw [if_neg g1] at ey
        by_cases g2 : i < p
        · exact hmix x y px py (sx.1 g2) (by have := sy.not.1 g1; omega)
        · rw [if_neg g2] at ex
          refine hpos x y ⟨px, by have := sx.not.1 g2; omega⟩ ⟨py, by have := sy.not.1 g1; omega⟩ ?_
          rw [if_neg (by simp)]
          exact keyBin_lt (d := d) (m := m) (by omega)
    have hclose : ∀ i x y, Pd x ∧ keyBin c.key d m x = signRank p i → Pd y ∧ keyBin c.key d m y = signRank p i →
        c.key x - c.key y < 2 ^ d := fun i x y hx hy =>
      keyBin_close (hPd1 x hx.1).2.1 (hPd1 y hy.1).2.1 (by rw [hx.2, hy.2])
    by_cases hd0 : d = 0
    · rw [if_pos hd0]
      refine wp_pure ⟨v1, hu1, fun i j a b e => ?_⟩
      have hfind : ∀ q, f ≤ q → q < l → ∃ r, r < n ∧ binEdge (signRank p) sizes f r ≤ q ∧
          q < binEdge (signRank p) sizes f (r + 1) := by
        intro q p1 p2
        rw [← hlast] at p2
        unfold binEdge at p2
        obtain ⟨r, q1, q2, q3⟩ := byteOffset_find (fun j => sizes (signRank p j)) (i := q - f) n (by omega)
        exact ⟨r, q1, by unfold binEdge; omega, by unfold binEdge; omega⟩
      obtain ⟨q, q1, q2, q3⟩ := hfind i a (by omega)
      obtain ⟨q', q1', q2', q3'⟩ := hfind j (by omega) e
      have hqq : q ≤ q' := by
        by_contra hc
        have := binEdge_mono (rank := signRank p) (sizes := sizes) (f := f) (show q' + 1 ≤ q by omega)
        omega
      have hx := hT1 q q1 i q2 q3
      have hy := hT1 q' q1' j q2' q3'
      by_cases hqe : q = q'
      · rw [← hqe] at hy
        have c1 := hclose q _ _ hx hy
        have c2 := hclose q _ _ hy hx
        rw [hd0, Int.pow_zero] at c1 c2
        obtain ⟨px, sx⟩ := hsg' q _ q1 hx
        obtain ⟨py, sy⟩ := hsg' q _ q1 hy
        by_cases hk : c.key (v1 i) < 0
        · exact hneg _ _ ⟨px, hk⟩ ⟨py, by omega⟩ (by rw [if_pos rfl]; omega)
        · exact hpos _ _ ⟨px, by omega⟩ ⟨py, by omega⟩ (by rw [if_neg (by simp)]; omega)
      · exact hcross q q' _ _ (by omega) q1' hx hy
    · rw [if_neg hd0]
      have hfb : ∀ i, i < n → bins (signRank p i) = binEdge (signRank p) sizes f (i + 1) := fun i hi => by
        rw [hfull' _ (hrk i hi).1]
        exact binEnd_rank hrk hi
      have hrec : ∀ (rv : Bool) i, i < n → (i < p ↔ rv = true) → ∀ (s : St α) (v : Nat → α),
          Holds s.cell (binEdge (signRank p) sizes f i) (binEdge (signRank p) sizes f (i + 1)) v →
          (∀ q, binEdge (signRank p) sizes f i ≤ q → q < binEdge (signRank p) sizes f (i + 1) →
            Pd (v q) ∧ keyBin c.key d m (v q) = signRank p i) →
          2 ≤ binEdge (signRank p) sizes f (i + 1) - binEdge (signRank p) sizes f i →
          wp (if binEdge (signRank p) sizes f (i + 1) - binEdge (signRank p) sizes f i < c.minCount d then
              c.sort (binEdge (signRank p) sizes f i) (binEdge (signRank p) sizes f (i + 1))
            else spreadRec c rv (binEdge (signRank p) sizes f i) (binEdge (signRank p) sizes f (i + 1)))
            (fun _ s' => ∃ v', Upd (binEdge (signRank p) sizes f i) (binEdge (signRank p) sizes f (i + 1)) s s' v v' ∧
              SortedOn lt (binEdge (signRank p) sizes f i) (binEdge (signRank p) sizes f (i + 1)) v') s := by
        intro rv i hi hrv s5 v5 hh5 hT5 hc5
        split
        · exact h.sort s5 _ _ v5 (by omega) hh5 fun q p1 p2 => (hPd1 _ (hT5 q p1 p2).1).1
        · rename_i hge
          have := h.mc d
          cases rv
          · refine spreadRec_spec (h.mono (Q := fun x => P x ∧ 0 ≤ c.key x) fun x hx => hx.1) hpos d s5 _ _ v5 (by omega) hh5
              (fun q p1 p2 => ?_) fun q q' p1 p2 q1 q2 => hclose i _ _ (hT5 q p1 p2) (hT5 q' q1 q2)
            have := hsg' i _ hi (hT5 q p1 p2)
            refine ⟨this.1, ?_⟩
            have h1 : ¬ i < p := fun hc => by simpa using hrv.1 hc
            have := this.2.not.1 h1
            omega
          · refine spreadRec_spec (h.mono (Q := fun x => P x ∧ c.key x < 0) fun x hx => hx.1) hneg d s5 _ _ v5 (by omega) hh5
              (fun q p1 p2 => ?_) fun q q' p1 p2 q1 q2 => hclose i _ _ (hT5 q p1 p2) (hT5 q' q1 q2)
            have := hsg' i _ hi (hT5 q p1 p2)
            exact ⟨this.1, this.2.1 (hrv.2 rfl)⟩
      have hlist1 : (List.range p).reverse = (List.range' 0 p).map (signRank p) := by
        have := binOrder_eq true p
        unfold binOrder at this
        rw [if_pos rfl] at this
        rw [this]
        refine List.map_congr_left fun a ha => ?_
        rw [List.mem_range'_1] at ha
        unfold binRank signRank
        rw [if_pos rfl, if_pos (by omega)]
      have hlist2 : List.range' p (n - p) = (List.range' p (n - p)).map (signRank p) := by
        conv_lhs => rw [← List.map_id (List.range' p (n - p))]
        refine List.map_congr_left fun a ha => ?_
        rw [List.mem_range'_1] at ha
        unfold signRank
        rw [if_neg (by omega)]
        rfl
      rw [hlist1, hlist2]
      apply wp_bind
      have key := spreadParts_spec (lt := lt) (c := c) (rv := true) (mc := c.minCount d) (bins := bins)
        (rank := signRank p) (E := binEdge (signRank p) sizes f)
        (T := fun i x => Pd x ∧ keyBin c.key d m x = signRank p i) (f := f) (l := l) (n := n)
        (fun i j hij => binEdge_mono hij) rfl hlast hcross p 0 s3 v1 (by omega) hu1.holds (fun i _ hi => hfb i (by omega))
        (fun i _ hi => hrec true i (by omega) ⟨fun _ => rfl, fun _ => by omega⟩) hT1
        (SortedOn.trivial (by rw [binEdge_zero]; omega))
      rw [binEdge_zero] at key
      refine wp_mono key ?_
      rintro r s4 ⟨v2, rfl, hu2, hs2, hT2⟩
      rw [Nat.zero_add] at hs2 ⊢
      apply wp_bind
      have key := spreadParts_spec (lt := lt) (c := c) (rv := false) (mc := c.minCount d) (bins := bins)
        (rank := signRank p) (E := binEdge (signRank p) sizes f)
        (T := fun i x => Pd x ∧ keyBin c.key d m x = signRank p i) (f := f) (l := l) (n := n)
        (fun i j hij => binEdge_mono hij) rfl hlast hcross (n - p) p s4 v2 (by omega) hu2.holds (fun i _ hi => hfb i (by omega))
        (fun i hi1 hi => hrec false i (by omega) ⟨fun _ => by omega, fun hc => by simp at hc⟩) hT2 hs2
      refine wp_mono key ?_
      rintro r s5 ⟨v3, -, hu3, hs3, -⟩
      rw [show p + (n - p) = n by omega, hlast] at hs3
      exact wp_pure ⟨v3, (hu1.trans hu2).trans hu3, hs3⟩

end

/-! ### The numbers -/

section
variable {ew mw : Nat}

theorem Flt.int_eq (x : Flt ew mw) : x.int = if x.sign then (x.low : Int) - 2 ^ (ew + mw) else x.low := by
  have hl := x.low_lt
  have hb : x.bits = (if x.sign then 2 ^ (ew + mw) else 0) + x.low := by
    unfold Flt.bits Flt.low; omega
  have cast : ∀ K : Nat, ((2 ^ K : Nat) : Int) = 2 ^ K := fun K => by push_cast; rfl
  have h1 := cast (ew + mw)
  have h2 : (2 : Int) ^ (ew + mw + 1) = 2 ^ (ew + mw) * 2 := Int.pow_succ ..
  unfold Flt.int
  rw [hb, h2, ← h1]
  cases x.sign
  · simp only [Bool.false_eq_true, if_false]
    rw [if_pos (by omega)]
    omega
  · simp only [if_true]
    rw [if_neg (by omega)]
    omega

theorem Flt.int_bounds (x : Flt ew mw) : -2 ^ (ew + mw) ≤ x.int ∧ x.int < 2 ^ (ew + mw) ∧ (x.int < 0 ↔ x.sign = true) := by
  have hl : (x.low : Int) < 2 ^ (ew + mw) := by exact_mod_cast x.low_lt
  rw [Flt.int_eq]
  cases x.sign
  · simp only [Bool.false_eq_true, if_false, iff_false]; omega
  · simp only [if_true, iff_true]; omega

/-- The order of the integers is the one of the numbers that are not negative, the reverse order of the other ones. -/
theorem Flt.int_value {x y : Flt ew mw} (hs : x.sign = y.sign) (h : x.int ≤ y.int) :
    if x.sign then y.value ≤ x.value else x.value ≤ y.value := by
  have hlow : x.low ≤ y.low := by
    rw [Flt.int_eq, Flt.int_eq, hs] at h
    cases hy : y.sign <;> rw [hy] at h <;> simp only [Bool.false_eq_true, if_false, if_true] at h <;> omega
  have hmag : x.mag ≤ y.mag := by
    rcases Nat.lt_or_eq_of_le hlow with h1 | h1
    · exact Nat.le_of_lt (Flt.low_mag h1)
    · exact Nat.le_of_eq (Flt.low_inj h1).1
  unfold Flt.value
  rw [← hs]
  cases x.sign
  · simp only [Bool.false_eq_true, if_false]; omega
  · simp only [if_true]; omega

variable {proj : α → Flt ew mw}

/-- The order of the projected numbers. -/
def fltLt (proj : α → Flt ew mw) (x y : α) : Bool := (proj x).lt (proj y)

theorem fltLt_value (hew : 0 < ew) (hn : ∀ a, (proj a).isNaN = false) (x y : α) :
    fltLt proj x y = decide ((proj x).value < (proj y).value) := Flt.lt_value hew (hn x) (hn y)

theorem fltLt_sw (hew : 0 < ew) (hn : ∀ a, (proj a).isNaN = false) : StrictWeak (fltLt proj) := by
  have := keyLt_sw fun a => (proj a).value
  have e : fltLt proj = keyLt fun a => (proj a).value := by
    funext x y
    rw [fltLt_value hew hn]
    rfl
  rw [e]
  exact this

theorem fltExtremesLoop_spec (hew : 0 < ew) (hnan : ∀ a, (proj a).isNaN = false) {f l : Nat} {v : Nat → α} {s : St α}
    (hh : Holds s.cell f l v) :
    ∀ (n cu : Nat) (so : Bool) (mx mn : Int), l - cu = n → f < cu → cu ≤ l →
    (so = true → SortedOn (fltLt proj) f cu v) →
    (∃ i j, f ≤ i ∧ i < cu ∧ f ≤ j ∧ j < cu ∧ mx = (proj (v i)).int ∧ mn = (proj (v j)).int ∧
      ∀ p, f ≤ p → p < cu → mn ≤ (proj (v p)).int ∧ (proj (v p)).int ≤ mx) →
    wp (fltExtremesLoop proj l cu (cu - 1) so mx mn) (fun r s' => s' = s ∧ match r with
      | none => SortedOn (fltLt proj) f l v
      | some (mx, mn) => ∃ i j, f ≤ i ∧ i < l ∧ f ≤ j ∧ j < l ∧ mx = (proj (v i)).int ∧ mn = (proj (v j)).int ∧
          ∀ p, f ≤ p → p < l → mn ≤ (proj (v p)).int ∧ (proj (v p)).int ≤ mx) s := by
  intro n
  induction n with
  | zero =>
    intro cu so mx mn h1 h2 h3 h4 h5
    rw [fltExtremesLoop, if_neg (by omega)]
    have e : cu = l := by omega
    subst e
    refine wp_pure ⟨rfl, ?_⟩
    cases so
    · exact h5
    · exact h4 rfl
  | succ n ih =>
    intro cu so mx mn h1 h2 h3 h4 ⟨i, j, i1, i2, j1, j2, e1, e2, hp⟩
    rw [fltExtremesLoop, if_pos (by omega)]
    apply wp_bind
    refine wp_read hh (by omega) (by omega) ?_
    apply wp_bind
    refine wp_read hh (by omega) (by omega) ?_
    have hso : (so && (proj (v cu)).ge (proj (v (cu - 1)))) = true → SortedOn (fltLt proj) f (cu + 1) v := by
      intro hb
      rw [Bool.and_eq_true] at hb
      refine SortedOn.snoc (fltLt_sw hew hnan) (h4 hb.1) fun _ => ?_
      have := hb.2
      unfold Flt.ge at this
      rw [Bool.and_eq_true, Bool.not_eq_true'] at this
      exact this.2
    by_cases g1 : mx < (proj (v cu)).int
    · rw [if_pos g1]
      refine ih (cu + 1) _ _ _ (by omega) (by omega) (by omega) hso ⟨cu, j, by omega, by omega, j1, by omega, rfl, e2, fun q a b => ?_⟩
      by_cases e : q = cu
      · rw [e]
        have := hp j j1 j2
        omega
      · have := hp q a (by omega); omega
    · rw [if_neg g1]
      by_cases g2 : (proj (v cu)).int < mn
      · rw [if_pos g2]
        refine ih (cu + 1) _ _ _ (by omega) (by omega) (by omega) hso ⟨i, cu, i1, by omega, by omega, by omega, e1, rfl, fun q a b => ?_⟩
        by_cases e : q = cu
        · rw [e]; omega
        · have := hp q a (by omega); omega
      · rw [if_neg g2]
        refine ih (cu + 1) _ _ _ (by omega) (by omega) (by omega) hso ⟨i, j, i1, by omega, j1, by omega, e1, e2, fun q a b => ?_⟩
        by_cases e : q = cu
        · rw [e]; omega
        · exact hp q a (by omega)

theorem fltExtremes_spec (hew : 0 < ew) (hnan : ∀ a, (proj a).isNaN = false) {f l : Nat} {v : Nat → α} {s : St α}
    (hfl : f + 2 ≤ l) (hh : Holds s.cell f l v) :
    wp (fltExtremes proj f l) (fun r s' => s' = s ∧ match r with
      | none => SortedOn (fltLt proj) f l v
      | some (mx, mn) => ∃ i j, f ≤ i ∧ i < l ∧ f ≤ j ∧ j < l ∧ mx = (proj (v i)).int ∧ mn = (proj (v j)).int ∧
          ∀ p, f ≤ p → p < l → mn ≤ (proj (v p)).int ∧ (proj (v p)).int ≤ mx) s := by
  unfold fltExtremes
  apply wp_bind
  refine wp_read hh (Nat.le_refl _) (by omega) ?_
  refine fltExtremesLoop_spec hew hnan hh _ (f + 1) true _ _ rfl (by omega) (by omega) (fun _ => SortedOn.trivial (by omega))
    ⟨f, f, by omega, by omega, by omega, by omega, rfl, rfl, fun p a b => ?_⟩
  rw [show p = f by omega]
  omega

variable {wrapv bl : Bool}

theorem fltSpread_ok (hew : 0 < ew) (hw : 32 ≤ ew + mw + 1) (hw' : ew + mw + 1 ≤ 64) (hnan : ∀ a, (proj a).isNaN = false) {P : α → Prop}
    (hspan : wrapv = true ∨ ∀ x y, P x → P y → (proj x).int - (proj y).int < 2 ^ (ew + mw)) :
    SpreadOK (fltSpread wrapv proj bl) (fltLt proj) P := by
  have hb := IntTy.hi_bounds (t := ⟨ew + mw + 1, true⟩) hw
  have ehi : (⟨ew + mw + 1, true⟩ : IntTy).hi = 2 ^ (ew + mw) - 1 := rfl
  constructor
  · exact ⟨Nat.le_refl _, hw', Nat.succ_pos _⟩
  · exact IntTy.lo_nonpos _
  · exact ⟨hb.1, hb.2.1⟩
  · intro x y hx hy _
    rcases hspan with h | h
    · right
      refine ⟨h, rfl, ?_⟩
      show (proj x).int - (proj y).int < 2 ^ (ew + mw + 1)
      have h1 := (proj x).int_bounds
      have h2 := (proj y).int_bounds
      rw [Int.pow_succ]
      omega
    · left
      show (proj x).int - (proj y).int ≤ (⟨ew + mw + 1, true⟩ : IntTy).hi
      have := h x y hx hy
      omega
  · intro s f l v hfl hh _
    exact fltExtremes_spec hew hnan hfl hh
  · intro s f l v hfl hh _
    exact pdqsort_spec (lt := fltLt proj) (fltLt_sw hew hnan) bl hfl hh
  · exact minCount_ge (mean := 2) (split := 8) (finish := 4) (by omega) (by omega)

theorem floatSpreadSort_spec (hew : 0 < ew) (hw : ew + mw + 1 = 32 ∨ ew + mw + 1 = 64) (hnan : ∀ a, (proj a).isNaN = false)
    {s : St α} {f l : Nat} {v : Nat → α} (hfl : f ≤ l) (hh : Holds s.cell f l v)
    (hP : l - f < 1000 ∨
      (wrapv = true ∨ (∀ i, f ≤ i → i < l → (proj (v i)).int ≠ -2 ^ (ew + mw)) ∧
        ∀ i j, f ≤ i → i < l → f ≤ j → j < l → (proj (v i)).int - (proj (v j)).int < 2 ^ (ew + mw)) ∧
      (ew + mw + 1 = 32 ∨ (∃ i, f ≤ i ∧ i < l ∧ 0 ≤ (proj (v i)).int) ∨
        ∃ i j, f ≤ i ∧ i < l ∧ f ≤ j ∧ j < l ∧ 2 ^ 43 ≤ (proj (v i)).int - (proj (v j)).int)) :
    wp (floatSpreadSort wrapv proj bl f l) (fun _ s' => ∃ v', Upd f l s s' v v' ∧ SortedOn (fltLt proj) f l v') s := by
  unfold floatSpreadSort
  by_cases h : l - f < 1000
  · rw [if_pos h]
    exact pdqsort_spec (lt := fltLt proj) (fltLt_sw hew hnan) bl hfl hh
  · rw [if_neg h]
    obtain ⟨h1, h2⟩ := hP.resolve_left h
    clear hP
    replace h2 := PLift.up h2
    have hok := fltSpread_ok (wrapv := wrapv) (bl := bl) hew (by omega) (by omega) hnan (P := fun x => ∃ i, f ≤ i ∧ i < l ∧ x = v i)
      (h1.imp_right fun g x y ⟨i, a, b, e⟩ ⟨j, a', b', e'⟩ => by rw [e, e']; exact g.2 i j a b a' b')
    have hsgn : ∀ x y : α, ((proj x).int < 0 ↔ (proj y).int < 0) → (proj x).sign = (proj y).sign := by
      intro x y hxy
      rw [(proj x).int_bounds.2.2, (proj y).int_bounds.2.2] at hxy
      exact Bool.eq_iff_iff.2 hxy
    refine floatSortRec_spec hok rfl (show 32 ≤ ew + mw + 1 by omega) ?_ ?_ ?_ ?_ (by omega) hh (fun i a b => ⟨i, a, b, rfl⟩) ?_
    · rintro x y ⟨-, hx⟩ ⟨-, hy⟩ hxy
      rw [if_pos rfl] at hxy
      have hs := hsgn y x ⟨fun _ => hx, fun _ => hy⟩
      have := Flt.int_value hs hxy
      rw [if_pos ((proj y).int_bounds.2.2.1 hy)] at this
      rw [fltLt_value hew hnan, decide_eq_false_iff_not]
      omega
    · rintro x y ⟨-, hx⟩ ⟨-, hy⟩ hxy
      rw [if_neg (by simp)] at hxy
      change 0 ≤ (proj x).int at hx
      change 0 ≤ (proj y).int at hy
      have hs := hsgn x y ⟨fun _ => by omega, fun _ => by omega⟩
      have := Flt.int_value hs hxy
      rw [if_neg (fun hc => by have := (proj x).int_bounds.2.2.2 hc; omega)] at this
      rw [fltLt_value hew hnan, decide_eq_false_iff_not]
      omega
    · intro x y _ _ hx hy
      change 0 ≤ (proj y).int at hy
      have sx := (proj x).int_bounds.2.2.1 hx
      have sy : ¬ (proj y).sign = true := fun hc => by have := (proj y).int_bounds.2.2.2 hc; omega
      rw [fltLt_value hew hnan, decide_eq_false_iff_not]
      unfold Flt.value
      rw [if_pos sx, if_neg sy]
      omega
    · rintro x ⟨i, a, b, rfl⟩
      show -2 ^ (ew + mw) < (proj (v i)).int ∨ wrapv = true ∧ -2 ^ (ew + mw) ≤ (proj (v i)).int
      have := (proj (v i)).int_bounds.1
      rcases h1 with g | g
      · exact Or.inr ⟨g, this⟩
      · have := g.1 i a b
        left
        omega
    · rcases h2.down with g | g
      · exact Or.inl g
      · rcases hw with e | e
        · exact Or.inl e
        · exact Or.inr ⟨e, g⟩

/-! ### What is wrong -/

/-- The span of a range that is not sorted is not a value of the integer type: the subtraction overflows. -/
theorem floatSpreadSort_overflow (hew : 0 < ew) (hnan : ∀ a, (proj a).isNaN = false)
    {s : St α} {f l : Nat} {v : Nat → α} (hfl : f + 1000 ≤ l)
    (hh : Holds s.cell f l v) (hns : ¬ SortedOn (fltLt proj) f l v)
    (hbig : ∃ i j, f ≤ i ∧ i < l ∧ f ≤ j ∧ j < l ∧ 2 ^ (ew + mw) ≤ (proj (v i)).int - (proj (v j)).int) :
    floatSpreadSort false proj bl f l s = some (.error .overflow, s) := by
  unfold floatSpreadSort
  rw [if_neg (by omega), floatSortRec]
  refine bind_fails ?_
  unfold spreadHead
  obtain ⟨r, s', hr, rfl, hx⟩ := fltExtremes_spec hew hnan (show f + 2 ≤ l by omega) hh
  rw [bind_ok (show (fltSpread false proj bl).extremes f l s' = _ from hr)]
  match r, hx with
  | none, hx => exact absurd hx hns
  | some (mx, mn), ⟨i, j, i1, i2, j1, j2, e1, e2, hp⟩ =>
    simp only
    refine bind_fails ?_
    obtain ⟨a, b, a1, a2, b1, b2, hab⟩ := hbig
    have h1 := hp a a1 a2
    have h2 := hp b b1 b2
    unfold opOver
    show (if -2 ^ (ew + mw) ≤ mx - mn ∧ mx - mn ≤ 2 ^ (ew + mw) - 1 then _ else if (false || !true) = true then _ else _ : M α Int) s' = _
    rw [if_neg (by omega), if_neg (by simp)]
    rfl

/-- The bins of negative numbers are taken for bins of positive ones when the conversion of their number to `unsigned` gives 0. -/
theorem floatSortRec_truncated {c : Spread α} {lt : α → α → Bool} {P : α → Prop} (h : SpreadOK c lt P) {s : St α} {f l : Nat}
    {v : Nat → α} (hfl : f + 4 ≤ l) (hh : Holds s.cell f l v) (hP : ∀ i, f ≤ i → i < l → P (v i))
    (hns : ¬ SortedOn lt f l v) {m : Int} (hm0 : m < 0) (hm1 : c.ty.lo < m) (hmh : -m ≤ c.ty.hi) (hm2 : (-m) % 2 ^ 32 = 0)
    (hkm : ∀ i, f ≤ i → i < l → c.key (v i) = m ∨ c.key (v i) = m + 1) (hex : ∃ i, f ≤ i ∧ i < l ∧ c.key (v i) = m) :
    wp (floatSortRec c f l) (fun _ s' => ∃ v', Upd f l s s' v v' ∧ SortedOn (keyLt c.key) f l v') s := by
  unfold floatSortRec
  apply wp_bind
  refine wp_mono (spreadHead_spec h hfl hh hP) ?_
  rintro r s1 ⟨rfl, hr⟩
  match r, hr with
  | none, hr => exact absurd hr hns
  | some (d, mm, n), hr =>
    simp only
    obtain ⟨hd, hn, hin, ⟨im, im1, im2, hmm⟩, ⟨iz, iz1, iz2, hnz⟩, hdD⟩ := hr
    have hd0 : d = 0 := by
      by_contra hc
      obtain ⟨i, j, i1, i2, j1, j2, hij⟩ := hdD hc
      have h2 : (2 : Int) ^ 1 ≤ 2 ^ d := by exact_mod_cast Nat.pow_le_pow_right (by omega : 0 < 2) (show 1 ≤ d by omega)
      rw [show (2 : Int) ^ 1 = 2 from rfl] at h2
      rcases hkm i i1 i2 with g | g <;> rcases hkm j j1 j2 with g' | g' <;> omega
    subst hd0
    simp only [Int.pow_zero, Int.ediv_one] at hin hmm hnz
    have hmm : mm = m := by
      obtain ⟨i, i1, i2, hi⟩ := hex
      have := hin i i1 i2
      rcases hkm im im1 im2 with g | g <;> omega
    subst hmm
    have hn0 : 0 < n := by have := hin iz iz1 iz2; omega
    generalize hPd : (fun x => P x ∧ 0 ≤ c.key x / 2 ^ 0 - mm ∧ c.key x / 2 ^ 0 - mm < n) = Pd
    have hbf : BinFn (keyBin c.key 0 mm) Pd (fun _ => False) f l (binOf c 0 mm n) := hPd ▸ binOf_fn h hd hn
    have hPv : ∀ i, f ≤ i → i < l → Pd (v i) := fun i a b => by
      rw [← hPd]
      refine ⟨hP i a b, ?_⟩
      simp only [Int.pow_zero, Int.ediv_one]
      exact hin i a b
    have hPd1 : ∀ x, Pd x → 0 ≤ c.key x - mm := fun x hx => by
      rw [← hPd] at hx
      simpa only [Int.pow_zero, Int.ediv_one] using hx.2.1
    apply wp_bind
    refine wp_mono (countBins_spec hbf hh hPv _ f _ rfl (Nat.le_refl _) (by omega)) ?_
    rintro sizes s2 ⟨rfl, hsz⟩
    have hsz' : ∀ b, b < n → sizes b = byteCount (keyBin c.key 0 mm) b (lst v f l) := fun b _ => by rw [hsz]; simp
    have hbd : ∀ i, f ≤ i → i < l → keyBin c.key 0 mm (v i) < n := by
      intro i a b
      have := hin i a b
      unfold keyBin
      simp only [Int.pow_zero, Int.ediv_one]
      omega
    apply wp_bind
    have hfp : wp (firstPositive (α := α) c.wrapv c.ty mm n) (fun p s' => s' = s2 ∧ p = 0) s2 := by
      unfold firstPositive
      rw [if_pos hm0]
      apply wp_bind
      refine wp_opOver (by have := h.lo; omega) hmh ?_
      rw [hm2]
      simp only [Int.toNat_zero, Nat.not_lt_zero, if_false]
      exact wp_pure ⟨rfl, rfl⟩
    refine wp_mono hfp ?_
    rintro p s3 ⟨rfl, rfl⟩
    have hrk := signRank_ok (p := 0) (n := n) (by omega)
    obtain ⟨hrg, hz⟩ := binLayout hrk hsz' hbd (show f ≤ l by omega)
    have hlast := binEdge_last hrk hsz' hbd (show f ≤ l by omega)
    apply wp_bind
    refine wp_mono (spreadEnds_spec hrg (spreadSwap_spec hrg hbf) _ s3 v _ hh hPv
      (fun u hu => ⟨List.mem_range.1 hu, fun hk => hk, rfl⟩) (fun _ _ hk => hk.elim) hz) ?_
    rintro bins s4 ⟨v1, hu1, hz1, hfull⟩
    rw [if_pos rfl]
    have hblocks := hz1.blocks hrg 0 fun b hb _ => hfull b hb (Or.inr (List.mem_range.2 hb))
    have hP1 := hu1.perm.forall hPv
    refine wp_pure ⟨v1, hu1, fun i j a b e => ?_⟩
    have hfind : ∀ q, f ≤ q → q < l → ∃ r, r < n ∧ binEdge (signRank 0) sizes f r ≤ q ∧
        q < binEdge (signRank 0) sizes f (r + 1) := by
      intro q p1 p2
      rw [← hlast] at p2
      unfold binEdge at p2
      obtain ⟨r, q1, q2, q3⟩ := byteOffset_find (fun j => sizes (signRank 0 j)) (i := q - f) n (by omega)
      exact ⟨r, q1, by unfold binEdge; omega, by unfold binEdge; omega⟩
    have hbin : ∀ q r, f ≤ q → q < l → r < n → binEdge (signRank 0) sizes f r ≤ q → q < binEdge (signRank 0) sizes f (r + 1) →
        c.key (v1 q) = mm + r := by
      intro q r q1 q2 q3 q4 q5
      have e := hblocks _ (hrk r q3).1 q (by rw [binStart_rank hrk q3]; exact q4) (by
        show q < _ + _
        rw [binEnd_rank hrk q3]; exact q5)
      have := hPd1 _ (hP1 q q1 q2)
      unfold keyBin signRank at e
      simp only [Int.pow_zero, Int.ediv_one, Nat.not_lt_zero, if_false] at e
      omega
    obtain ⟨q, q1, q2, q3⟩ := hfind i a (by omega)
    obtain ⟨q', q1', q2', q3'⟩ := hfind j (by omega) e
    have hqq : q ≤ q' := by
      by_contra hc
      have := binEdge_mono (rank := signRank 0) (sizes := sizes) (f := f) (show q' + 1 ≤ q by omega)
      omega
    have h1 := hbin i q a (by omega) q1 q2 q3
    have h2 := hbin j q' (by omega) e q1' q2' q3'
    simp only [keyLt, decide_eq_false_iff_not]
    omega

end

end CppSort
