import Verif.Proof.SkaTypes
import Verif.Proof.Pdq
import Verif.Proof.MergeFwdBug
/-
Helper lemmas about ska_sort: what it does for all the values, and for the types and values that it does not sort.
-/
set_option autoImplicit false

namespace CppSort

/-- The order in which everything is equivalent. -/
def allSame {α : Type} (_ _ : α) : Bool := false

/-- The types for which ska_sort does not read outside of the range: the elements of lists do not start with
a boolean. -/
def KTy.Safe : KTy → Prop
  | .bool => True
  | .uint n => 0 < n
  | .sint n => 0 < n
  | .char n => 0 < n
  | .flt ew mw => (ew + mw + 1) % 8 = 0
  | .pair a b => a.Safe ∧ b.Safe
  | .list a => a.Safe ∧ a.first.isBool = false

section
variable {α : Type} {lt : α → α → Bool}

theorem TiedL.of_same {P : α → α → Prop} {g : Nat → Nat → M α Unit} (h : TiedL allSame P g)
    (hp : ∀ x y, P x y → lt y x = false) : TiedL lt P g := by
  intro s f l v hfl hh ht
  refine wp_mono (h s f l v hfl hh ht) ?_
  rintro _ s' ⟨v', hu, _⟩
  exact ⟨v', hu, fun i j a1 a2 a3 => hp _ _ (tied_perm hu.perm ht i j a1 (by omega) (by omega) a3)⟩

theorem TiedW.of_same {P : α → α → Prop} {g : Nat → Nat → M α Unit} (h : TiedW allSame P g)
    (hp : ∀ x y, P x y → lt y x = false) : TiedW lt P g := by
  intro s f l v hfl hh ht
  refine wp_mono (h s f l v hfl hh ht) ?_
  rintro _ s' ⟨v', hu, _⟩
  exact ⟨v', hu, fun i j a1 a2 a3 => hp _ _ (tied_perm hu.perm ht i j a1 (by omega) (by omega) a3)⟩

theorem TiedW.same {P : α → α → Prop} {g : Nat → Nat → M α Unit} (h : TiedW lt P g) : TiedW allSame P g := by
  intro s f l v hfl hh ht
  refine wp_mono (h s f l v hfl hh ht) ?_
  rintro _ s' ⟨v', hu, _⟩
  exact ⟨v', hu, fun _ _ _ _ _ => rfl⟩

theorem signedKey_lt (n : Nat) (x : Int) : signedKey n x < 256 ^ n := Nat.mod_lt _ (Nat.pow_pos (by omega))

theorem charKey_lt (n : Nat) (x : Int) : charKey n x < 256 ^ n := by
  unfold charKey
  have hp : 0 < 256 ^ n := Nat.pow_pos (by omega)
  have h1 := Int.emod_nonneg x (show ((256 ^ n : Nat) : Int) ≠ 0 by omega)
  have h2 := Int.emod_lt_of_pos x (show (0 : Int) < ((256 ^ n : Nat) : Int) by omega)
  omega

/-- The first sub-key. -/
theorem safe_first : ∀ (t : KTy), t.Safe → ∀ {α : Type} (g : α → Option t.Val) (P Q : α → α → Prop),
    (∀ x y, P x y → ∃ a, g x = some a) → (∀ x y, P x y → P y x → Q x y) → (t.first.comap g).OK allSame P Q := by
  intro t
  have hw : ∀ {α β : Type} (n : Nat) (g : α → Option β) (K : β → Nat) (P Q : α → α → Prop), 0 < n → (∀ a, K a < 256 ^ n) →
      (∀ x y, P x y → ∃ a, g x = some a) → (∀ x y, P x y → P y x → Q x y) →
      WordOK allSame n (fun x => (g x).bind fun a => some (K a)) P Q := by
    intro α β n g K P Q hn hK hg hq
    refine ⟨hn, fun x y hp => ?_, fun _ _ _ _ _ _ _ _ _ => rfl, fun x y a hp hp' _ _ => hq x y hp hp'⟩
    obtain ⟨a, e⟩ := hg x y hp
    exact ⟨K a, by simp [e], hK a⟩
  induction t with
  | bool =>
    intro _ α g P Q hg hq
    refine ⟨fun x y hp => ?_, fun _ _ _ _ _ _ => rfl, fun x y a hp hp' _ _ => hq x y hp hp'⟩
    obtain ⟨a, e⟩ := hg x y hp
    exact ⟨a, by simp [e]⟩
  | uint n => exact fun ht α g P Q hg hq => hw n g (fun x => x.1) P Q ht (fun a => a.2) hg hq
  | sint n => exact fun ht α g P Q hg hq => hw n g (fun x => signedKey n x.1) P Q ht (fun a => signedKey_lt _ _) hg hq
  | char n => exact fun ht α g P Q hg hq => hw n g (fun x => charKey n x.1) P Q ht (fun a => charKey_lt _ _) hg hq
  | flt ew mw =>
    intro ht α g P Q hg hq
    have ht : (ew + mw + 1) % 8 = 0 := ht
    exact hw _ g (fun x => fltKey x.1) P Q (by omega) (fun a => by rw [pow_bytes ht]; exact fltKey_lt a.1) hg hq
  | pair a b iha _ =>
    intro ht α g P Q hg hq
    simp only [KTy.first, comap_comap]
    refine iha ht.1 _ P Q (fun x y hp => ?_) hq
    obtain ⟨c, e⟩ := hg x y hp
    exact ⟨c.1, by simp [e]⟩
  | list t ih =>
    intro ht α g P Q hg hq
    simp only [KTy.first, SubKey.comap]
    refine ⟨fun i x y => (P x y ∧ P y x) ∧ (∃ a, g x = some a ∧ i ≤ a.length) ∧ ∃ b, g y = some b ∧ i ≤ b.length,
      ⟨?_, ?_, ?_, ?_, ?_, ?_, ?_, ?_⟩, fun i => ⟨?_, ?_⟩⟩
    · intro x y hp hp'
      obtain ⟨a, e⟩ := hg x y hp
      obtain ⟨b, e'⟩ := hg y x hp'
      exact ⟨⟨hp, hp'⟩, ⟨a, e, Nat.zero_le _⟩, b, e', Nat.zero_le _⟩
    · rintro i x y ⟨_, ⟨a, e, h1⟩, _⟩
      exact ⟨a.length, by simp [e], h1⟩
    · rintro i x y m n ⟨_, ⟨a, e, h1⟩, b, e', h2⟩ hm hn him hin
      simp [e] at hm
      simp [e'] at hn
      simp only [comap_same, e, e', Option.bind_some]
      rw [List.getElem?_eq_getElem (by omega), List.getElem?_eq_getElem (by omega)]
      exact same_total t _ _
    · rintro i x y m n ⟨hp, ⟨a, e, h1⟩, b, e', h2⟩ hm hn him hin _
      simp [e] at hm
      simp [e'] at hn
      exact ⟨hp, ⟨a, e, by omega⟩, b, e', by omega⟩
    · rintro i x m ⟨hp, ⟨a, e, h1⟩, _⟩ hm him
      simp [e] at hm
      exact ⟨hp, ⟨a, e, by omega⟩, a, e, by omega⟩
    · rintro k i x y z hk ⟨hp, _⟩ ⟨_, _, hb⟩ ⟨_, _, hc⟩
      exact ⟨hp, hb, hc⟩
    · intros; rfl
    · rintro i x y ⟨hp, _⟩ _ _
      exact hq x y hp.1 hp.2
    · rw [comap_isBool, comap_isBool, ht.2]
    · beta_reduce
      rw [comap_comap]
      refine ih ht.1 _ _ _ ?_ ?_
      · rintro x y ⟨⟨hp, ⟨a, e, h1⟩, _⟩, ⟨m, hm, him⟩, _⟩
        simp [e] at hm
        exact ⟨a[i]'(by omega), by simp only [e, Option.bind_some]; exact List.getElem?_eq_getElem (by omega)⟩
      · rintro x y ⟨⟨hp, ⟨a, e, h1⟩, b, e', h2⟩, ⟨m, hm, him⟩, n, hn, hin⟩ _
        simp [e] at hm
        simp [e'] at hn
        exact ⟨hp, ⟨a, e, by omega⟩, b, e', by omega⟩
where
  same_total : ∀ (t : KTy) (a b : t.Val), ∃ c, t.first.same a b = some c := by
    intro t
    induction t with
    | bool => exact fun a b => ⟨_, rfl⟩
    | uint n => exact fun a b => ⟨_, rfl⟩
    | sint n => exact fun a b => ⟨_, rfl⟩
    | char n => exact fun a b => ⟨_, rfl⟩
    | flt ew mw => exact fun a b => ⟨_, rfl⟩
    | pair a b iha _ =>
      intro x y
      simp only [KTy.first, comap_same, Option.bind_some]
      exact iha _ _
    | list t => exact fun a b => ⟨_, rfl⟩

/-- The sub-keys. -/
theorem safe_keys : ∀ (t : KTy), t.Safe → ∀ {α : Type} (g : α → Option t.Val) (P : α → α → Prop) (rest : List (SubKey α)),
    (∀ x y, P x y → P y x) → (∀ x y, P x y → ∃ a, g x = some a) → KeysOK allSame rest P →
    KeysOK allSame ((t.first :: t.more).map (·.comap g) ++ rest) P := by
  intro t
  induction t with
  | pair a b iha ihb =>
    intro ht α g P rest hs hg hr
    have hb := ihb ht.2 (fun x => (g x).bind fun c => some c.2) P rest hs (fun x y hp => by
      obtain ⟨c, e⟩ := hg x y hp
      exact ⟨c.2, by simp [e]⟩) hr
    have hall := iha ht.1 (fun x => (g x).bind fun c => some c.1) P _ hs (fun x y hp => by
      obtain ⟨c, e⟩ := hg x y hp
      exact ⟨c.1, by simp [e]⟩) hb
    simp only [KTy.first, KTy.more, List.map_cons, List.map_append, List.map_map, Function.comp_def, comap_comap,
      List.cons_append, List.append_assoc] at hall ⊢
    exact hall
  | _ => exact fun ht α g P rest hs hg hr => ⟨P, safe_first _ ht g P P hg fun _ _ h _ => h, hr⟩

/-- `ska_sort` is `skaStart` for the sub-keys. -/
theorem fallback_tied (t : KTy) (proj : α → t.Val) (bl : Bool) :
    TiedW (fun x y => t.less (proj x) (proj y)) (fun _ _ => True)
      (pdqsort (tick fun x y => t.less (proj x) (proj y)) bl) := fun s f l v hfl hh _ =>
  pdqsort_spec (lt := fun x y => t.less (proj x) (proj y)) ⟨fun _ => (less_sw t).irrefl _,
    fun _ _ _ => (less_sw t).trans _ _ _, fun _ _ _ => (less_sw t).equiv_trans _ _ _⟩ bl hfl hh

theorem skaSort_permutes (t : KTy) (ht : t.Safe) (proj : α → t.Val) (bl : Bool) :
    TiedW allSame (fun _ _ => True) (skaSort t proj bl) := by
  unfold skaSort
  refine skaStart_spec (fallback_tied t proj bl).same _ _ ?_
  have := safe_keys t ht (fun x => some (proj x)) (fun _ _ => True) [] (fun _ _ h => h) (fun x _ _ => ⟨_, rfl⟩)
    (fun _ _ _ => rfl)
  simpa using this

theorem skaSort_small (t : KTy) (proj : α → t.Val) (bl : Bool) {s : St α} {f l : Nat} {v : Nat → α} (hfl : f ≤ l)
    (hl : l - f < 128) (hh : Holds s.cell f l v) :
    wp (skaSort t proj bl f l)
      (fun _ s' => ∃ v', Upd f l s s' v v' ∧ SortedOn (fun x y => t.less (proj x) (proj y)) f l v') s := by
  unfold skaSort
  simp only [List.map_cons, skaStart]
  unfold stdSortIfLess
  apply wp_bind
  by_cases h1 : l - f ≤ 1
  · rw [if_pos h1]
    exact wp_pure (wp_pure ⟨v, Upd.refl hh, SortedOn.trivial (by omega)⟩)
  · rw [if_neg h1, if_neg (by omega)]
    apply wp_bind
    refine wp_mono (fallback_tied t proj bl s f l v hfl hh fun _ _ _ _ _ _ => trivial) ?_
    rintro _ s' h
    exact wp_pure (wp_pure h)

theorem skaSort_fit (t : KTy) (ht : t.Plain) (proj : α → t.Val) (bl : Bool) :
    TiedW (fun x y => t.less (proj x) (proj y)) (fun x _ => t.Fit false (proj x)) (skaSort t proj bl) := by
  unfold skaSort
  refine skaStart_spec (fallback_tied t proj bl) _ _ ?_
  have := keys_ok t ht (lt := fun x y => t.less (proj x) (proj y)) false (fun x => some (proj x))
    (fun x _ => t.Fit false (proj x)) (fun x y => proj x = proj y) []
    ⟨fun x y h => ⟨_, rfl, h⟩, fun x y a b _ _ hx hy h => by simp at hx hy; subst hx hy; simpa using h,
      fun x y a _ _ hx hy => by simp at hx hy; rw [hx, hy]⟩
    (fun x y h => by simp only [show proj x = proj y from h]; exact (less_sw t).irrefl _)
  simpa using this


/-! ### Characters -/

/-- The order of the unsigned values. -/
def charKeyLess (x y : (KTy.char 1).Val) : Bool := decide (charKey 1 x.1 < charKey 1 y.1)

theorem stdSort_large {fb : Nat → Nat → M α Unit} {f l : Nat} (h : f + 128 ≤ l) {Q : Bool → St α → Prop} {s : St α} (hq : Q false s) :
    wp (stdSortIfLess fb f l) Q s := by
  unfold stdSortIfLess
  rw [if_neg (by omega), if_pos (by omega)]
  exact wp_pure hq

theorem skaSort_char (proj : α → (KTy.char 1).Val) (bl : Bool) :
    TiedL (fun x y => charKeyLess (proj x) (proj y)) (fun _ _ => True) (skaSort (.char 1) proj bl) := by
  intro s f l v hfl hh ht
  unfold skaSort
  simp only [KTy.first, KTy.more, List.map_cons, List.map_nil, skaStart, SubKey.comap]
  apply wp_bind
  refine stdSort_large hfl ?_
  simp only [Bool.false_eq_true, if_false, List.isEmpty_nil, if_true, SubKey.sort]
  rw [wordSort]
  have hok : ∀ sp, ByteOK (fun x y => charKeyLess (proj x) (proj y)) (fun _ _ => True)
      (fun x => (some (proj x)).bind fun x => some (charKey 1 x.1)) 0 (0 != 0 || (none : SkaNext α).isSome) sp := by
    have hb : ∀ x, byteOf (fun x => (some (proj x)).bind fun x => some (charKey 1 x.1)) 0 x = charKey 1 (proj x).1 := by
      intro x
      have := charKey_lt 1 (proj x).1
      simp only [byteOf, Option.bind_some, Option.getD_some, Nat.pow_zero, Nat.div_one]
      exact Nat.mod_eq_of_lt (by omega)
    intro sp
    refine ⟨fun x y _ => ⟨_, rfl⟩, fun x y _ h => ?_, fun h => by simp at h, fun _ x y _ h => ?_⟩
    · rw [hb, hb] at h
      simp only [charKeyLess, decide_eq_false_iff_not]
      omega
    · rw [hb, hb] at h
      simp only [charKeyLess, decide_eq_false_iff_not]
      omega
  split
  · exact americanFlagSort_spec (hok _) s f l v (by omega) hh fun _ _ _ _ _ _ => trivial
  · exact skaByteSort_spec (hok _) s f l v (by omega) hh fun _ _ _ _ _ _ => trivial

/-! ### Zeros -/

/-- Negative numbers, `-0.0` included, before positive numbers. -/
def signLess {ew mw : Nat} (x y : Flt ew mw) : Bool := x.sign && !y.sign

theorem flt_top {ew mw : Nat} (h : (ew + mw + 1) % 8 = 0) (x : Flt ew mw) :
    fltKey x / 256 ^ ((ew + mw + 1) / 8 - 1) % 256 < 128 ↔ x.sign = true := by
  have hl := x.low_lt
  have e : 2 ^ (ew + mw) = 128 * 256 ^ ((ew + mw + 1) / 8 - 1) := by
    rw [show (256 : Nat) = 2 ^ 8 from rfl, ← Nat.pow_mul, show (128 : Nat) = 2 ^ 7 from rfl, ← Nat.pow_add]
    congr 1
    omega
  have hp : 0 < 256 ^ ((ew + mw + 1) / 8 - 1) := Nat.pow_pos (by omega)
  rw [fltKey_eq]
  rw [e] at hl ⊢
  generalize 256 ^ ((ew + mw + 1) / 8 - 1) = N at *
  cases hs : x.sign
  · simp only [Bool.false_eq_true, if_false, iff_false, Nat.not_lt]
    have h1 : 128 ≤ (128 * N + x.low) / N := (Nat.le_div_iff_mul_le hp).2 (by omega)
    have h2 : (128 * N + x.low) / N < 256 := (Nat.div_lt_iff_lt_mul hp).2 (by omega)
    rw [Nat.mod_eq_of_lt h2]
    exact h1
  · simp only [if_true, iff_true]
    have h2 : (128 * N - 1 - x.low) / N < 128 := (Nat.div_lt_iff_lt_mul hp).2 (by omega)
    rw [Nat.mod_eq_of_lt (by omega)]
    exact h2

theorem skaSort_zeros {ew mw : Nat} (h : (ew + mw + 1) % 8 = 0) (b : KTy) (hb : b.Safe)
    (proj : α → (KTy.pair (.flt ew mw) b).Val) (bl : Bool) :
    TiedL (fun x y => signLess (proj x).1.1 (proj y).1.1) (fun _ _ => True) (skaSort (.pair (.flt ew mw) b) proj bl) := by
  intro s f l v hfl hh ht
  have hfb := (fallback_tied (.pair (.flt ew mw) b) proj bl).same
  unfold skaSort
  have hks := safe_keys b hb (fun x => some (proj x).2) (fun _ _ => True) [] (fun _ _ h => h) (fun x _ _ => ⟨_, rfl⟩)
    (fun _ _ _ => rfl)
  simp only [KTy.first, KTy.more, List.map_cons, List.map_nil, List.nil_append, List.append_nil, skaStart,
    List.map_map, Function.comp_def, comap_comap, Option.bind_some] at hks ⊢
  generalize (b.first.comap fun x => some (proj x).2) = k1 at hks ⊢
  generalize (List.map (fun x => x.comap fun x => some (proj x).2) b.more) = ks at hks ⊢
  generalize pdqsort _ bl = fb at hfb ⊢
  apply wp_bind
  refine stdSort_large hfl ?_
  simp only [Bool.false_eq_true, if_false, List.isEmpty_cons, SubKey.comap, SubKey.sort]
  obtain ⟨n, hn⟩ : ∃ n, (ew + mw + 1) / 8 = n + 1 := ⟨(ew + mw + 1) / 8 - 1, by omega⟩
  have htop := fun x : Flt ew mw => flt_top h x
  have hlt := fun x : Flt ew mw => fltKey_lt x
  rw [← pow_bytes h] at hlt
  rw [hn] at htop hlt ⊢
  rw [show n + 1 - 1 = n by omega] at htop
  have hnext : NextOK allSame (fun _ _ => True) (some (skaStart fb (k1 :: ks))) := (skaStart_spec hfb _ _ hks).large
  have hword : WordOK (α := α) allSame (n + 1) (fun x => (some (proj x)).bind fun x => some (fltKey x.1.1)) (fun _ _ => True)
      (fun _ _ => True) :=
    ⟨by omega, fun x y _ => ⟨_, rfl, hlt _⟩, fun _ _ _ _ _ _ _ _ _ => rfl, fun _ _ _ _ _ _ _ => trivial⟩
  have hb : ∀ x, byteOf (fun x => (some (proj x)).bind fun x => some (fltKey x.1.1)) n x =
      fltKey (proj x).1.1 / 256 ^ n % 256 := fun x => rfl
  have hmod : ∀ x : Flt ew mw, fltKey x / 256 ^ n % 256 = fltKey x / 256 ^ n := fun x => by
    refine Nat.mod_eq_of_lt ((Nat.div_lt_iff_lt_mul (Nat.pow_pos (by omega))).2 ?_)
    have := hlt x
    rw [Nat.pow_succ] at this
    omega
  have hdeep : TiedW allSame (fun x y => fltKey (proj x).1.1 / 256 ^ n = fltKey (proj y).1.1 / 256 ^ n)
      (sortPartition fb (wordSort fb (some (skaStart fb (k1 :: ks))) (fun x => (some (proj x)).bind fun x => some (fltKey x.1.1)) n)) := by
    exact sortPartition_spec hfb ((wordSort_spec hfb hnext hword n (Or.inr rfl)).mono fun x y h =>
      ⟨⟨trivial, trivial⟩, h⟩)
  have hok : ByteOK (fun x y => signLess (proj x).1.1 (proj y).1.1) (fun _ _ => True)
      (fun x => (some (proj x)).bind fun x => some (fltKey x.1.1)) n (n != 0 || (some (skaStart fb (k1 :: ks))).isSome)
      (sortPartition fb (wordSort fb (some (skaStart fb (k1 :: ks))) (fun x => (some (proj x)).bind fun x => some (fltKey x.1.1)) n)) := by
    refine ⟨fun x y _ => ⟨_, rfl⟩, fun x y _ h => ?_, fun _ => ?_, fun h => by simp at h⟩
    · rw [hb, hb] at h
      have hx := htop (proj x).1.1
      have hy := htop (proj y).1.1
      unfold signLess
      cases ey : (proj y).1.1.sign <;> cases ex : (proj x).1.1.sign <;> simp [ex, ey] at hx hy ⊢
      omega
    · refine (hdeep.mono fun x y h => by
        rw [← hmod (proj x).1.1, ← hmod (proj y).1.1]; exact h.2).of_same fun x y h => ?_
      have h := h.2
      rw [hb, hb] at h
      have hx := htop (proj x).1.1
      have hy := htop (proj y).1.1
      unfold signLess
      cases ey : (proj y).1.1.sign <;> cases ex : (proj x).1.1.sign <;> simp [ex, ey] at hx hy ⊢
      omega
  rw [wordSort]
  split
  · exact americanFlagSort_spec hok s f l v (by omega) hh fun _ _ _ _ _ _ => trivial
  · exact skaByteSort_spec hok s f l v (by omega) hh fun _ _ _ _ _ _ => trivial


/-! ### Lists of pairs -/

/-- A partition with nothing to move. -/
theorem partition_all {f l : Nat} {p : α → Option Bool} {s : St α} {v : Nat → α} (hfl : f ≤ l) (hh : Holds s.cell f l v)
    (h : ∀ i, f ≤ i → i < l → p (v i) = some true) :
    wp (partition .random (skaTest p) f l) (fun r s' => r = l ∧ ∃ k, s' = { s with cmps := k }) s := by
  unfold partition
  simp only
  rw [partitionBi]
  apply wp_bind
  refine wp_mono (partSkip_spec (skaTest_isPred f l p) (Nat.le_refl _) (Nat.le_refl _) hh (fun i a b => ⟨_, h i a b⟩)
    (l - f) f s.cmps (Nat.le_refl _) (by omega)) ?_
  rintro r s' ⟨k, e, hr⟩
  cases r with
  | none => exact wp_pure ⟨rfl, k, e⟩
  | some q =>
    have := hr.2.2.1
    rw [h q hr.1 hr.2.1] at this
    simp at this

theorem prefixLoop_one {size : α → Option Nat} {same : Nat → α → α → Option Bool} {f l : Nat} {s : St α} {v : Nat → α}
    (hh : Holds s.cell f l v) {x : α} (hsz : ∀ i, f ≤ i → i < l → size (v i) = some 1)
    (hs : ∀ i, f ≤ i → i < l → same 0 x (v i) = some true) : ∀ (d it : Nat), l - it = d → f ≤ it → it ≤ l →
    wp (prefixLoop size same x 0 l it 1) (fun r s' => r = 1 ∧ s' = s) s := by
  intro d
  induction d with
  | zero =>
    intro it h1 h2 h3
    rw [prefixLoop, if_neg (by omega)]
    exact wp_pure ⟨rfl, rfl⟩
  | succ d ih =>
    intro it h1 h2 h3
    rw [prefixLoop, if_pos (by omega)]
    apply wp_bind
    refine wp_read hh h2 (by omega) ?_
    apply wp_bind
    rw [hsz it h2 (by omega)]
    refine wp_pure ?_
    rw [if_neg (by omega)]
    apply wp_bind
    rw [hs it h2 (by omega)]
    refine wp_pure ?_
    rw [if_pos rfl]
    apply wp_bind
    rw [prefixWith]
    simp only [Nat.lt_irrefl, if_false, Nat.zero_add]
    exact wp_pure (ih (it + 1) (by omega) (by omega) (by omega))

theorem listBody_one {fb : Nat → Nat → M α Unit} {size : α → Option Nat} {same : Nat → α → α → Option Bool}
    {sortElt : Nat → SkaNext α → Nat → Nat → M α Unit} {deeper : Nat → Nat → Nat → M α Unit} {f l : Nat} {s : St α}
    {v : Nat → α} (hfl : f < l) (hh : Holds s.cell f l v) (hsz : ∀ i, f ≤ i → i < l → size (v i) = some 1)
    (hs : ∀ i, f ≤ i → i < l → same 0 (v f) (v i) = some true) :
    wp (listBody fb none size same sortElt deeper 0 f l) (fun _ s' => ∃ k, s' = { s with cmps := k }) s := by
  unfold listBody
  apply wp_bind
  unfold commonPrefix
  apply wp_bind
  refine wp_read hh (Nat.le_refl _) (by omega) ?_
  apply wp_bind
  rw [hsz f (Nat.le_refl _) (by omega)]
  refine wp_pure ?_
  rw [if_neg (by omega)]
  refine wp_mono (prefixLoop_one (f := f) hh hsz hs _ (f + 1) rfl (by omega) (by omega)) ?_
  rintro r s0 ⟨rfl, e0⟩
  subst e0
  apply wp_bind
  refine wp_mono (partition_all (by omega) hh fun i h1 h2 => by rw [hsz i h1 h2]; rfl) ?_
  rintro r s1 ⟨rfl, k, rfl⟩
  simp only
  unfold sortPartition stdSortIfLess
  rw [if_pos (by omega)]
  apply wp_bind
  exact wp_pure (wp_pure ⟨k, rfl⟩)

theorem skaSort_pairs (a b : KTy) (proj : α → (KTy.list (.pair a b)).Val) (bl : Bool) {s : St α} {f l : Nat} {v : Nat → α}
    (hfl : f + 128 ≤ l) (hh : Holds s.cell f l v) (c : a.Val) (hv : ∀ i, f ≤ i → i < l → ∃ d, proj (v i) = [(c, d)])
    (hc : a.first.same c c = some true) :
    wp (skaSort (.list (.pair a b)) proj bl f l) (fun _ s' => ∃ k, s' = { s with cmps := k }) s := by
  unfold skaSort
  simp only [KTy.first, KTy.more, List.map_cons, List.map_nil, skaStart, SubKey.comap]
  apply wp_bind
  refine stdSort_large hfl ?_
  simp only [Bool.false_eq_true, if_false, List.isEmpty_nil, if_true, SubKey.sort]
  rw [listSort]
  refine listBody_one (by omega) hh (fun i h1 h2 => ?_) (fun i h1 h2 => ?_)
  · obtain ⟨d, e⟩ := hv i h1 h2
    rw [e]; rfl
  · obtain ⟨d, e⟩ := hv i h1 h2
    obtain ⟨d', e'⟩ := hv f (Nat.le_refl _) (by omega)
    simp only [comap_same, e, e', Option.bind_some]
    exact hc

/-! ### Lists of booleans -/

theorem commonPrefix_empty {size : α → Option Nat} {same : Nat → α → α → Option Bool} {start f l : Nat} {s : St α}
    (h : ∀ a, s.cell f ≠ .val a) : Fails (commonPrefix size same start f l) .deref s :=
  fails_bind_left (fails_read h)

theorem listBody_bools {fb : Nat → Nat → M α Unit} {size : α → Option Nat} {same : Nat → α → α → Option Bool}
    {key : Nat → α → Option Bool} {g : Nat → Nat → Nat → M α Unit} {f l : Nat} {s : St α} {v : Nat → α} (hfl : f + 129 ≤ l)
    (hh : Holds s.cell f l v) (h0 : size (v f) = some 0) (hsz : ∀ i, f < i → i < l → size (v i) = some 1)
    (hk : ∀ i, f < i → i < l → key 0 (v i) = some false)
    (hg : TiedL allSame (fun x y => size x = some 1 ∧ size y = some 1) (g 0))
    (hg' : ∀ s' : St α, (∀ a, s'.cell l ≠ .val a) → Fails (g 0 l l) .deref s') (hend : ∀ a, s.cell l ≠ .val a) :
    Fails (listBody fb none size same (fun i next => boolSort next (key i)) g 0 f l) .deref s := by
  unfold listBody
  apply fails_bind
  unfold commonPrefix
  apply wp_bind
  refine wp_read hh (Nat.le_refl _) (by omega) ?_
  apply wp_bind
  rw [h0]
  refine wp_pure ?_
  rw [if_pos rfl]
  refine wp_pure ?_
  have hmem : ∀ i, f ≤ i → i < l → size (v i) = some 0 ∨ size (v i) = some 1 ∧ key 0 (v i) = some false := fun i h1 h2 => by
    by_cases e : i = f
    · left; rw [e, h0]
    · right; exact ⟨hsz i (by omega) h2, hk i (by omega) h2⟩
  apply fails_bind
  refine wp_mono (skaTest_partition (by omega) hh fun i h1 h2 => by
    rcases hmem i h1 h2 with e | ⟨e, _⟩ <;> rw [e] <;> exact ⟨_, rfl⟩) ?_
  rintro mid s1 ⟨v1, hu, hlo, hhi, hl, hr⟩
  have hmem1 := hu.perm.forall (P := fun x => size x = some 0 ∨ size x = some 1 ∧ key 0 x = some false) hmem
  have hright : ∀ i, mid ≤ i → i < l → size (v1 i) = some 1 ∧ key 0 (v1 i) = some false := fun i h1 h2 => by
    rcases hmem1 i (by omega) h2 with e | e
    · have := hr i h1 h2
      rw [e] at this
      simp at this
    · exact e
  have hmid : mid ≤ f + 1 := by
    by_contra hn
    have hc := (hu.perm.2 : (lst v1 f l).Perm (lst v f l)).countP_eq (fun x => size x == some 0)
    rw [lst_cons (v := v1) (by omega), lst_cons (v := v1) (f := f + 1) (by omega), lst_cons (v := v) (by omega)] at hc
    have hz : List.countP (fun x => size x == some 0) (lst v (f + 1) l) = 0 := by
      rw [List.countP_eq_zero]
      intro x hx
      obtain ⟨i, h1, h2, rfl⟩ := mem_lst.1 hx
      rw [hsz i (by omega) h2]
      simp
    have hl' : ∀ i, f ≤ i → i < mid → (size (v1 i) == some 0) = true := fun i h1 h2 => by
      have := hl i h1 h2
      rcases hmem1 i h1 (by omega) with e | ⟨e, _⟩
      · simp [e]
      · rw [e] at this
        simp at this
    rw [List.countP_cons, List.countP_cons, List.countP_cons, hz, if_pos (hl' f (Nat.le_refl _) (by omega)),
      if_pos (hl' (f + 1) (by omega) (by omega)), if_pos (by rw [h0]; rfl)] at hc
    omega
  have hend1 : ∀ a, s1.cell l ≠ .val a := by
    rw [hu.frame.cell l (by omega)]; exact hend
  simp only
  unfold sortPartition
  apply fails_bind
  refine stdSort_large (by omega) ?_
  simp only [Bool.false_eq_true, if_false]
  unfold boolSort
  apply fails_bind
  have hh1 : Holds s1.cell mid l v1 := hu.holds.sub hlo (Nat.le_refl _)
  refine wp_mono (partition_all hhi hh1 fun i h1 h2 => by rw [(hright i h1 h2).2]; rfl) ?_
  rintro r s2 ⟨rfl, k, rfl⟩
  simp only
  apply fails_bind
  refine wp_mono (hg { s1 with cmps := k } mid r v1 (by omega) hh1 fun i j a1 a2 a3 a4 =>
    ⟨(hright i a1 a2).1, (hright j a3 a4).1⟩) ?_
  rintro _ s3 ⟨v3, hu3, _⟩
  refine hg' s3 ?_
  rw [hu3.frame.cell r (by omega)]
  exact hend1

theorem listBody_end {fb : Nat → Nat → M α Unit} {size : α → Option Nat} {same : Nat → α → α → Option Bool}
    {sortElt : Nat → SkaNext α → Nat → Nat → M α Unit} {deeper : Nat → Nat → Nat → M α Unit} (n : Nat) :
    TiedL allSame (fun x y => size x = some n ∧ size y = some n) (listBody fb none size same sortElt deeper n) := by
  intro s f l v hfl hh ht
  have hsz : ∀ i, f ≤ i → i < l → size (v i) = some n := fun i h1 h2 => (ht i i h1 h2 h1 h2).1
  unfold listBody
  apply wp_bind
  unfold commonPrefix
  apply wp_bind
  refine wp_read hh (Nat.le_refl _) (by omega) ?_
  apply wp_bind
  rw [hsz f (Nat.le_refl _) (by omega)]
  refine wp_pure ?_
  rw [if_pos rfl]
  refine wp_pure ?_
  apply wp_bind
  refine wp_mono (partition_all (by omega) hh fun i h1 h2 => by rw [hsz i h1 h2]; simp) ?_
  rintro r s1 ⟨rfl, k, rfl⟩
  simp only
  unfold sortPartition stdSortIfLess
  rw [if_pos (by omega)]
  apply wp_bind
  exact wp_pure (wp_pure ⟨v, ⟨hh, PermOn.refl _ _ _, ⟨fun _ _ => rfl, EnvLe.refl s⟩⟩, fun _ _ _ _ _ => rfl⟩)

theorem skaSort_bools (proj : α → (KTy.list .bool).Val) (bl : Bool) {s : St α} {f l : Nat} {v : Nat → α} (hfl : f + 129 ≤ l)
    (hh : Holds s.cell f l v) (h0 : proj (v f) = []) (h1 : ∀ i, f < i → i < l → proj (v i) = [false])
    (hend : ∀ a, s.cell l ≠ .val a) : Fails (skaSort (.list .bool) proj bl f l) .deref s := by
  unfold skaSort
  simp only [KTy.first, KTy.more, List.map_cons, List.map_nil, skaStart, SubKey.comap]
  apply fails_bind
  refine stdSort_large (by omega) ?_
  simp only [Bool.false_eq_true, if_false, List.isEmpty_nil, if_true, SubKey.sort]
  rw [listSort]
  refine listBody_bools hfl hh ?_ (fun i a1 a2 => ?_) (fun i a1 a2 => ?_) ?_ (fun s' h => ?_) hend
  · rw [h0]; rfl
  · rw [h1 i a1 a2]; rfl
  · rw [h1 i a1 a2]; rfl
  · intro s' f' l' v' hfl' hh' ht
    rw [listSort]
    exact listBody_end 1 s' f' l' v' hfl' hh' ht
  · rw [listSort]
    exact fails_bind_left (commonPrefix_empty h)

end
end CppSort
