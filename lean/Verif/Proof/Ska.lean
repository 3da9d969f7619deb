import Verif.Proof.SkaBytes
import Verif.Proof.Partition
/-
Helper lemmas about ska_sort: the sorters of the sub-keys.
-/
set_option autoImplicit false

namespace CppSort
variable {α : Type} {lt : α → α → Bool}

/-- Sorting the ranges of at least 128 elements that are all related by `P`. -/
def TiedL (lt : α → α → Bool) (P : α → α → Prop) (g : Nat → Nat → M α Unit) : Prop :=
  ∀ (s : St α) (f l : Nat) (v : Nat → α), f + 128 ≤ l → Holds s.cell f l v →
    (∀ i j, f ≤ i → i < l → f ≤ j → j < l → P (v i) (v j)) →
    wp (g f l) (fun _ s' => ∃ v', Upd f l s s' v v' ∧ SortedOn lt f l v') s

theorem TiedW.large {P : α → α → Prop} {g : Nat → Nat → M α Unit} (h : TiedW lt P g) : TiedL lt P g :=
  fun s f l v hfl hh ht => h s f l v (by omega) hh ht

theorem TiedL.mono {P P' : α → α → Prop} {g : Nat → Nat → M α Unit} (h : TiedL lt P g) (hp : ∀ x y, P' x y → P x y) :
    TiedL lt P' g := fun s f l v hfl hh ht => h s f l v hfl hh fun i j a b c d => hp _ _ (ht i j a b c d)

section
variable {fb : Nat → Nat → M α Unit} (hfb : TiedW lt (fun _ _ => True) fb)
include hfb

theorem sortPartition_spec {P : α → α → Prop} {g : Nat → Nat → M α Unit} (h : TiedL lt P g) :
    TiedW lt P (sortPartition fb g) := by
  intro s f l v hfl hh ht
  unfold sortPartition stdSortIfLess
  apply wp_bind
  by_cases h1 : l - f ≤ 1
  · rw [if_pos h1]
    exact wp_pure (wp_pure ⟨v, Upd.refl hh, SortedOn.trivial (by omega)⟩)
  · rw [if_neg h1]
    by_cases h2 : 128 ≤ l - f
    · rw [if_pos h2]
      exact wp_pure (h s f l v (by omega) hh ht)
    · rw [if_neg h2]
      apply wp_bind
      refine wp_mono (hfb s f l v hfl hh fun _ _ _ _ _ _ => trivial) ?_
      rintro _ s' h
      exact wp_pure (wp_pure h)

/-! ### Words -/

/-- What `next` has to do. -/
def NextOK (lt : α → α → Bool) (Q : α → α → Prop) (next : SkaNext α) : Prop :=
  match next with
  | some g => TiedL lt Q g
  | none => ∀ x y, Q x y → lt y x = false

/-- A sub-key that is a word is consistent with the order. -/
structure WordOK (lt : α → α → Bool) (n : Nat) (key : α → Option Nat) (P Q : α → α → Prop) : Prop where
  pos : 0 < n
  dom : ∀ x y, P x y → ∃ k, key x = some k ∧ k < 256 ^ n
  cross : ∀ x y a b, P x y → P y x → key x = some a → key y = some b → a < b → lt y x = false
  tie : ∀ x y a, P x y → P y x → key x = some a → key y = some a → Q x y

omit hfb in
theorem byte_split {a b r : Nat} (h : a / 256 ^ (r + 1) = b / 256 ^ (r + 1)) :
    (a / 256 ^ r % 256 < b / 256 ^ r % 256 → a < b) ∧ (a / 256 ^ r % 256 = b / 256 ^ r % 256 → a / 256 ^ r = b / 256 ^ r) := by
  rw [Nat.pow_succ, ← Nat.div_div_eq_div_mul, ← Nat.div_div_eq_div_mul] at h
  refine ⟨fun hl => ?_, fun he => by omega⟩
  have h2 : a / 256 ^ r < b / 256 ^ r := by omega
  by_contra hn
  have := Nat.div_le_div_right (c := 256 ^ r) (show b ≤ a by omega)
  omega

theorem wordSort_spec {next : SkaNext α} {n : Nat} {key : α → Option Nat} {P Q : α → α → Prop}
    (hn : NextOK lt Q next) (h : WordOK lt n key P Q) : ∀ r, (r ≠ 0 ∨ next.isSome) →
    TiedL lt (fun x y => (P x y ∧ P y x) ∧ (key x).getD 0 / 256 ^ r = (key y).getD 0 / 256 ^ r) (wordSort fb next key r) := by
  intro r
  induction r with
  | zero =>
    intro hr
    cases e : next with
    | none => simp [e] at hr
    | some g =>
      rw [e] at hn
      intro s f l v hfl hh ht
      rw [wordSort]
      refine hn s f l v hfl hh fun i j h1 h2 h3 h4 => ?_
      obtain ⟨⟨a1, a2⟩, a3⟩ := ht i j h1 h2 h3 h4
      obtain ⟨k, b1, _⟩ := h.dom _ _ a1
      obtain ⟨k', c1, _⟩ := h.dom _ _ a2
      rw [b1, c1] at a3
      simp at a3
      rw [← a3] at c1
      exact h.tie _ _ _ a1 a2 b1 c1
  | succ r ih =>
    intro _
    have hok : ByteOK lt (fun x y => (P x y ∧ P y x) ∧ (key x).getD 0 / 256 ^ (r + 1) = (key y).getD 0 / 256 ^ (r + 1))
        key r (r != 0 || next.isSome) (sortPartition fb (wordSort fb next key r)) := by
      refine ⟨fun x y a => ?_, fun x y a hb => ?_, fun hm => ?_, fun hm x y a hb => ?_⟩
      · obtain ⟨k, b1, _⟩ := h.dom _ _ a.1.1
        exact ⟨k, b1⟩
      · obtain ⟨k, b1, _⟩ := h.dom _ _ a.1.1
        obtain ⟨k', c1, _⟩ := h.dom _ _ a.1.2
        have := (byte_split a.2).1 hb
        rw [b1, c1] at this
        exact h.cross _ _ _ _ a.1.1 a.1.2 b1 c1 this
      · refine sortPartition_spec hfb ((ih (by simpa using hm)).mono fun x y a => ⟨a.1.1, ?_⟩)
        exact (byte_split a.1.2).2 a.2
      · simp only [Bool.or_eq_false_iff, bne_eq_false_iff_eq] at hm
        obtain ⟨rfl, hm⟩ := hm
        have hnone : next = none := by simpa using hm
        rw [hnone] at hn
        obtain ⟨k, b1, _⟩ := h.dom _ _ a.1.1
        obtain ⟨k', c1, _⟩ := h.dom _ _ a.1.2
        have := (byte_split a.2).2 hb
        rw [b1, c1] at this
        simp at this
        rw [← this] at c1
        exact hn _ _ (h.tie _ _ _ a.1.1 a.1.2 b1 c1)
    intro s f l v hfl hh ht
    rw [wordSort]
    split
    · exact americanFlagSort_spec hok s f l v (by omega) hh ht
    · exact skaByteSort_spec hok s f l v (by omega) hh ht

omit hfb in
/-- The relation holds in both directions on a range. -/
theorem both {P : α → α → Prop} {f l : Nat} {v : Nat → α} (ht : ∀ i j, f ≤ i → i < l → f ≤ j → j < l → P (v i) (v j)) :
    ∀ i j, f ≤ i → i < l → f ≤ j → j < l → P (v i) (v j) ∧ P (v j) (v i) :=
  fun i j a b c d => ⟨ht i j a b c d, ht j i c d a b⟩

theorem wordSort_top {next : SkaNext α} {n : Nat} {key : α → Option Nat} {P Q : α → α → Prop}
    (hn : NextOK lt Q next) (h : WordOK lt n key P Q) : TiedL lt P (wordSort fb next key n) := by
  intro s f l v hfl hh ht
  refine wordSort_spec hfb hn h n (Or.inl (by have := h.pos; omega)) s f l v hfl hh fun i j h1 h2 h3 h4 => ?_
  have a := both ht i j h1 h2 h3 h4
  obtain ⟨k, b1, b2⟩ := h.dom _ _ a.1
  obtain ⟨k', c1, c2⟩ := h.dom _ _ a.2
  refine ⟨a, ?_⟩
  rw [b1, c1]
  simp [Nat.div_eq_of_lt b2, Nat.div_eq_of_lt c2]

/-! ### Partitions -/

omit hfb in
theorem skaTest_isPred (f l : Nat) (p : α → Option Bool) :
    IsPred f l f l (skaTest p) (fun x => (p x).getD false) (fun v => ∀ i, f ≤ i → i < l → ∃ b, p (v i) = some b) := by
  refine ⟨fun s v q hh hI h1 h2 => ?_, fun v i j hI h1 h2 h3 _ _ => ?_⟩
  · unfold skaTest
    apply wp_bind
    refine wp_read hh h1 h2 ?_
    obtain ⟨b, e⟩ := hI q h1 h2
    rw [e]
    apply wp_bind
    refine wp_pure ?_
    exact wp_tick ⟨by simp, rfl⟩
  · have hp : PermOn f l v (swp v i j) := PermOn.swp ⟨h1, by omega⟩ ⟨by omega, h3⟩
    exact hp.forall (P := fun x => ∃ b, p x = some b) hI

omit hfb in
theorem skaTest_partition {f l : Nat} {p : α → Option Bool} (hfl : f ≤ l) {s : St α} {v : Nat → α} (hh : Holds s.cell f l v)
    (hI : ∀ i, f ≤ i → i < l → ∃ b, p (v i) = some b) :
    wp (partition .random (skaTest p) f l) (fun r s' => ∃ v', Upd f l s s' v v' ∧ f ≤ r ∧ r ≤ l ∧
      (∀ i, f ≤ i → i < r → p (v' i) = some true) ∧ ∀ i, r ≤ i → i < l → p (v' i) = some false) s := by
  refine wp_mono (partition_spec .random (skaTest_isPred f l p) (Nat.le_refl _) (Nat.le_refl _) hfl hh hI) ?_
  rintro r s' ⟨v', hu, hp⟩
  refine ⟨v', hu, hp.lo, hp.hi, fun i h1 h2 => ?_, fun i h1 h2 => ?_⟩
  · have := hp.left i h1 h2
    obtain ⟨b, e⟩ := hp.inv i h1 (by have := hp.hi; omega)
    rw [e] at this ⊢
    simpa using this
  · have := hp.right i h1 h2
    obtain ⟨b, e⟩ := hp.inv i (by have := hp.lo; omega) h2
    rw [e] at this ⊢
    simpa using this

omit hfb in
/-- The two parts of a range are sorted separately. -/
theorem two_parts {a b : Nat → Nat → M α Unit} {f r l : Nat} {s : St α} {v : Nat → α} (hfr : f ≤ r) (hrl : r ≤ l)
    (hh : Holds s.cell f l v)
    (hx : ∀ i j, f ≤ i → i < r → r ≤ j → j < l → lt (v j) (v i) = false)
    (ha : ∀ s : St α, Holds s.cell f r v → wp (a f r) (fun _ s' => ∃ v', Upd f r s s' v v' ∧ SortedOn lt f r v') s)
    (hb : ∀ (s : St α) (w : Nat → α), (∀ i, r ≤ i → i < l → w i = v i) → Holds s.cell r l w →
      wp (b r l) (fun _ s' => ∃ v', Upd r l s s' w v' ∧ SortedOn lt r l v') s) :
    wp (do a f r; b r l) (fun _ s' => ∃ v', Upd f l s s' v v' ∧ SortedOn lt f l v') s := by
  apply wp_bind
  refine wp_mono (ha s (hh.sub (Nat.le_refl _) hrl)) ?_
  rintro _ s1 ⟨v1, h1, h2⟩
  have h1' := h1.widen hh (Nat.le_refl _) hrl
  refine wp_mono (hb s1 v1 (fun i g1 g2 => h1.perm.out (by omega)) (h1'.holds.sub hfr (Nat.le_refl _))) ?_
  rintro _ s2 ⟨v2, h3, h4⟩
  refine ⟨v2, h1'.trans (h3.widen h1'.holds hfr (Nat.le_refl _)), fun i j g1 g2 g3 => ?_⟩
  have e2 : ∀ k, k < r → v2 k = v1 k := fun k hk => h3.perm.out (by omega)
  have e1 : ∀ k, r ≤ k → k < l → v1 k = v k := fun k hk _ => h1.perm.out (by omega)
  by_cases hj : j < r
  · rw [e2 i (by omega), e2 j hj]; exact h2 i j g1 g2 hj
  · by_cases hi : r ≤ i
    · exact h4 i j hi g2 g3
    · rw [e2 i (by omega)]
      obtain ⟨i', a1, a2, a3⟩ := h1.perm.mem g1 (show i < r by omega)
      obtain ⟨j', b1, b2, b3⟩ := h3.perm.mem (show r ≤ j by omega) g3
      rw [a3, b3, e1 j' b1 b2]
      exact hx i' j' a1 a2 b1 b2

/-! ### Booleans -/

/-- A sub-key that is a boolean is consistent with the order. -/
structure BoolOK (lt : α → α → Bool) (key : α → Option Bool) (P Q : α → α → Prop) : Prop where
  dom : ∀ x y, P x y → ∃ k, key x = some k
  cross : ∀ x y, P x y → P y x → key x = some false → key y = some true → lt y x = false
  tie : ∀ x y a, P x y → P y x → key x = some a → key y = some a → Q x y

omit hfb in
theorem boolSort_spec {next : SkaNext α} {key : α → Option Bool} {P Q : α → α → Prop}
    (hn : match next with | some g => TiedW lt Q g | none => ∀ x y, Q x y → lt y x = false) (h : BoolOK lt key P Q) :
    TiedW lt P (boolSort next key) := by
  intro s f l v hfl hh ht
  unfold boolSort
  apply wp_bind
  have hI : ∀ i, f ≤ i → i < l → ∃ b, (key (v i)).map (!·) = some b := by
    intro i h1 h2
    obtain ⟨k, e⟩ := h.dom _ _ (ht i i h1 h2 h1 h2)
    exact ⟨!k, by rw [e]; rfl⟩
  refine wp_mono (skaTest_partition hfl hh hI) ?_
  rintro r s1 ⟨v1, hu, hlo, hhi, hl, hr⟩
  have ht1 := both (tied_perm hu.perm ht)
  have kl : ∀ i, f ≤ i → i < r → key (v1 i) = some false := fun i h1 h2 => by
    have := hl i h1 h2
    cases e : key (v1 i) with
    | none => rw [e] at this; simp at this
    | some b => rw [e] at this; simp at this; rw [this]
  have kr : ∀ i, r ≤ i → i < l → key (v1 i) = some true := fun i h1 h2 => by
    have := hr i h1 h2
    cases e : key (v1 i) with
    | none => rw [e] at this; simp at this
    | some b => rw [e] at this; simp at this; rw [this]
  have hx : ∀ i j, f ≤ i → i < r → r ≤ j → j < l → lt (v1 j) (v1 i) = false := fun i j a1 a2 a3 a4 =>
    h.cross _ _ (ht1 i j a1 (by omega) (by omega) a4).1 (ht1 i j a1 (by omega) (by omega) a4).2 (kl i a1 a2) (kr j a3 a4)
  have ql : ∀ i j, f ≤ i → i < r → f ≤ j → j < r → Q (v1 i) (v1 j) := fun i j a1 a2 a3 a4 =>
    h.tie _ _ _ (ht1 i j a1 (by omega) a3 (by omega)).1 (ht1 i j a1 (by omega) a3 (by omega)).2 (kl i a1 a2) (kl j a3 a4)
  have qr : ∀ i j, r ≤ i → i < l → r ≤ j → j < l → Q (v1 i) (v1 j) := fun i j a1 a2 a3 a4 =>
    h.tie _ _ _ (ht1 i j (by omega) a2 (by omega) a4).1 (ht1 i j (by omega) a2 (by omega) a4).2 (kr i a1 a2) (kr j a3 a4)
  cases e : next with
  | none =>
    rw [e] at hn
    refine wp_pure ⟨v1, hu, fun i j a1 a2 a3 => ?_⟩
    by_cases hj : j < r
    · exact hn _ _ (ql i j a1 (by omega) (by omega) hj)
    · by_cases hi : r ≤ i
      · exact hn _ _ (qr i j hi (by omega) (by omega) a3)
      · exact hx i j a1 (by omega) (by omega) a3
  | some g =>
    rw [e] at hn
    refine wp_mono (two_parts (a := g) (b := g) hlo hhi hu.holds hx (fun s' hs => hn s' f r v1 hlo hs ql)
      (fun s' w hw hs => hn s' r l w hhi hs fun i j a1 a2 a3 a4 => by
        rw [hw i a1 a2, hw j a3 a4]; exact qr i j a1 a2 a3 a4)) ?_
    rintro _ s2 ⟨v2, g1, g2⟩
    exact ⟨v2, hu.trans g1, g2⟩

/-! ### Lists -/

/-- A sub-key that is a list is consistent with the order, when its elements are: `Pi i` relates the values whose
lists have the same first `i` elements. -/
structure ListOK (lt : α → α → Bool) (size : α → Option Nat) (same : Nat → α → α → Option Bool) (P Q : α → α → Prop)
    (Pi : Nat → α → α → Prop) : Prop where
  start : ∀ x y, P x y → P y x → Pi 0 x y
  dom : ∀ i x y, Pi i x y → ∃ n, size x = some n ∧ i ≤ n
  total : ∀ i x y m n, Pi i x y → size x = some m → size y = some n → i < m → i < n → ∃ b, same i x y = some b
  step : ∀ i x y m n, Pi i x y → size x = some m → size y = some n → i < m → i < n → same i x y = some true → Pi (i + 1) x y
  refl : ∀ i x m, Pi i x x → size x = some m → i < m → Pi (i + 1) x x
  step' : ∀ k i x y z, k ≤ i → Pi k y z → Pi (i + 1) x y → Pi (i + 1) x z → Pi (i + 1) y z
  less : ∀ i x y n, Pi i x y → size x = some i → size y = some n → i < n → lt y x = false
  tie : ∀ i x y, Pi i x y → size x = some i → size y = some i → Q x y

section
variable {size : α → Option Nat} {same : Nat → α → α → Option Bool} {P Q : α → α → Prop} {Pi : Nat → α → α → Prop}

omit hfb in
theorem prefixWith_spec (h : ListOK lt size same P Q Pi) {s : St α} {x y : α} {m n : Nat} (hx : size x = some m)
    (hy : size y = some n) : ∀ (d i L : Nat), L - i = d → i ≤ L → L ≤ m → L ≤ n → Pi i x y →
    wp (prefixWith same x y L i) (fun r s' => s' = s ∧ i ≤ r ∧ r ≤ L ∧ ∀ k, i ≤ k → k ≤ r → Pi k x y) s := by
  intro d
  induction d with
  | zero =>
    intro i L hd h1 h2 h3 hp
    rw [prefixWith, if_neg (by omega)]
    exact wp_pure ⟨rfl, h1, Nat.le_refl _, fun k a b => by rw [show k = i by omega]; exact hp⟩
  | succ d ih =>
    intro i L hd h1 h2 h3 hp
    rw [prefixWith, if_pos (by omega)]
    obtain ⟨b, e⟩ := h.total i x y m n hp hx hy (by omega) (by omega)
    apply wp_bind
    rw [e]
    refine wp_pure ?_
    cases b with
    | false =>
      rw [if_neg (by simp)]
      exact wp_pure ⟨rfl, Nat.le_refl _, h1, fun k a b => by rw [show k = i by omega]; exact hp⟩
    | true =>
      rw [if_pos rfl]
      refine wp_mono (ih (i + 1) L (by omega) (by omega) h2 h3 (h.step i x y m n hp hx hy (by omega) (by omega) e)) ?_
      rintro r s' ⟨rfl, a1, a2, a3⟩
      refine ⟨rfl, by omega, a2, fun k b1 b2 => ?_⟩
      by_cases ek : k = i
      · rw [ek]; exact hp
      · exact a3 k (by omega) b2

omit hfb in
theorem prefixLoop_spec (h : ListOK lt size same P Q Pi) {s : St α} {f l : Nat} {v : Nat → α} {start : Nat}
    (hh : Holds s.cell f l v) (ht : ∀ i j, f ≤ i → i < l → f ≤ j → j < l → Pi start (v i) (v j)) (hfl : f < l) {m : Nat}
    (hm : size (v f) = some m) : ∀ (d it L : Nat), l - it = d → f < it → it ≤ l → start < L → L ≤ m →
    (∀ k, start ≤ k → k ≤ L → ∀ j, f ≤ j → j < it → Pi k (v f) (v j)) →
    wp (prefixLoop size same (v f) start l it L) (fun r s' => s' = s ∧ start ≤ r ∧ r ≤ m ∧
      ∀ k, start ≤ k → k ≤ r → ∀ j, f ≤ j → j < l → Pi k (v f) (v j)) s := by
  intro d
  induction d with
  | zero =>
    intro it L hd h1 h2 h3 h4 h5
    rw [prefixLoop, if_neg (by omega)]
    refine wp_pure ⟨rfl, by omega, h4, ?_⟩
    rw [show it = l by omega] at h5
    exact h5
  | succ d ih =>
    intro it L hd h1 h2 h3 h4 h5
    have hstart : ∀ k, start ≤ k → k ≤ start → ∀ j, f ≤ j → j < l → Pi k (v f) (v j) := fun k a b j c d => by
      rw [show k = start by omega]; exact ht f j (Nat.le_refl _) hfl c d
    rw [prefixLoop, if_pos (by omega)]
    apply wp_bind
    refine wp_read hh (by omega) (by omega) ?_
    obtain ⟨n, e, hn⟩ := h.dom start _ _ (ht it it (by omega) (by omega) (by omega) (by omega))
    apply wp_bind
    rw [e]
    refine wp_pure ?_
    by_cases hc : n < L ∧ n = start
    · rw [if_pos hc]
      exact wp_pure ⟨rfl, Nat.le_refl _, by omega, hstart⟩
    · rw [if_neg hc]
      have hn' : start < n := by omega
      have hpi := ht f it (Nat.le_refl _) hfl (by omega) (by omega)
      obtain ⟨b, es⟩ := h.total start _ _ m n hpi hm e (by omega) hn'
      apply wp_bind
      rw [es]
      refine wp_pure ?_
      cases b with
      | false =>
        rw [if_neg (by simp)]
        exact wp_pure ⟨rfl, Nat.le_refl _, by omega, hstart⟩
      | true =>
        rw [if_pos rfl]
        apply wp_bind
        have hL : start < (if n < L then n else L) ∧ (if n < L then n else L) ≤ n ∧ (if n < L then n else L) ≤ L := by
          split <;> omega
        generalize (if n < L then n else L) = L' at hL
        refine wp_mono (prefixWith_spec h hm e _ (start + 1) L' rfl (by omega) (by omega) (by omega)
          (h.step start _ _ m n hpi hm e (by omega) hn' es)) ?_
        rintro r s' ⟨rfl, a1, a2, a3⟩
        refine ih (it + 1) r (by omega) (by omega) (by omega) (by omega) (by omega) fun k b1 b2 j b3 b4 => ?_
        by_cases ej : j < it
        · exact h5 k b1 (by omega) j b3 ej
        · rw [show j = it by omega]
          by_cases ek : k = start
          · rw [ek]; exact hpi
          · exact a3 k (by omega) b2

omit hfb in
theorem commonPrefix_spec (h : ListOK lt size same P Q Pi) {s : St α} {f l : Nat} {v : Nat → α} {start : Nat}
    (hh : Holds s.cell f l v) (ht : ∀ i j, f ≤ i → i < l → f ≤ j → j < l → Pi start (v i) (v j)) (hfl : f < l) :
    wp (commonPrefix size same start f l) (fun r s' => s' = s ∧ start ≤ r ∧
      ∀ i j, f ≤ i → i < l → f ≤ j → j < l → Pi r (v i) (v j)) s := by
  unfold commonPrefix
  apply wp_bind
  refine wp_read hh (Nat.le_refl _) hfl ?_
  obtain ⟨m, e, hm⟩ := h.dom start _ _ (ht f f (Nat.le_refl _) hfl (Nat.le_refl _) hfl)
  apply wp_bind
  rw [e]
  refine wp_pure ?_
  by_cases em : m = start
  · rw [if_pos em]
    exact wp_pure ⟨rfl, Nat.le_refl _, ht⟩
  · rw [if_neg em]
    refine wp_mono (prefixLoop_spec h hh ht hfl e _ (f + 1) m rfl (by omega) (by omega) (by omega) (Nat.le_refl _) ?_) ?_
    · intro k h1 h2 j h3 h4
      rw [show j = f by omega]
      clear h3 h4 j
      have : ∀ d, start + d ≤ m → Pi (start + d) (v f) (v f) := by
        intro d
        induction d with
        | zero => intro _; exact ht f f (Nat.le_refl _) hfl (Nat.le_refl _) hfl
        | succ d ih =>
          intro hd
          have hp := ih (by omega)
          exact h.refl (start + d) _ m hp e (by omega)
      have := this (k - start) (by omega)
      rwa [show start + (k - start) = k by omega] at this
    · rintro r s' ⟨rfl, a1, a2, a3⟩
      refine ⟨rfl, a1, fun i j b1 b2 b3 b4 => ?_⟩
      by_cases er : r = start
      · rw [er]; exact ht i j b1 b2 b3 b4
      · obtain ⟨r', rfl⟩ : ∃ r', r = r' + 1 := ⟨r - 1, by omega⟩
        exact h.step' start r' _ _ _ (by omega) (ht i j b1 b2 b3 b4) (a3 _ (by omega) (Nat.le_refl _) i b1 b2) (a3 _ (by omega) (Nat.le_refl _) j b3 b4)


theorem listBody_spec {next : SkaNext α} (hn : NextOK lt Q next) (h : ListOK lt size same P Q Pi)
    {sortElt : Nat → SkaNext α → Nat → Nat → M α Unit}
    (hs : ∀ i g, TiedL lt (Pi (i + 1)) g →
      TiedL lt (fun x y => Pi i x y ∧ (∃ m, size x = some m ∧ i < m) ∧ ∃ n, size y = some n ∧ i < n) (sortElt i (some g)))
    {deeper : Nat → Nat → Nat → M α Unit} (hd : ∀ i, TiedL lt (Pi (i + 1)) (deeper i)) (index : Nat) :
    TiedL lt (Pi index) (listBody fb next size same sortElt deeper index) := by
  intro s f l v hfl hh ht
  unfold listBody
  apply wp_bind
  refine wp_mono (commonPrefix_spec h hh ht (by omega)) ?_
  rintro r s0 ⟨e0, hr, ht⟩
  subst e0
  have hI : ∀ i, f ≤ i → i < l → ∃ b, (size (v i)).map (fun n => decide (n ≤ r)) = some b := by
    intro i h1 h2
    obtain ⟨n, e, _⟩ := h.dom r _ _ (ht i i h1 h2 h1 h2)
    exact ⟨_, by rw [e]; rfl⟩
  apply wp_bind
  refine wp_mono (skaTest_partition (by omega) hh hI) ?_
  rintro mid s1 ⟨v1, hu, hlo, hhi, hl, hg⟩
  have ht1 := tied_perm hu.perm ht
  have sl : ∀ i, f ≤ i → i < mid → size (v1 i) = some r := fun i h1 h2 => by
    obtain ⟨n, e, hn⟩ := h.dom r _ _ (ht1 i i h1 (by omega) h1 (by omega))
    have := hl i h1 h2
    rw [e] at this ⊢
    simp at this
    rw [show n = r by omega]
  have sr : ∀ i, mid ≤ i → i < l → ∃ n, size (v1 i) = some n ∧ r < n := fun i h1 h2 => by
    obtain ⟨n, e, hn⟩ := h.dom r _ _ (ht1 i i (by omega) h2 (by omega) h2)
    have := hg i h1 h2
    rw [e] at this
    simp at this
    exact ⟨n, e, by omega⟩
  have hx : ∀ i j, f ≤ i → i < mid → mid ≤ j → j < l → lt (v1 j) (v1 i) = false := fun i j a1 a2 a3 a4 => by
    obtain ⟨n, e, hn⟩ := sr j a3 a4
    exact h.less r _ _ n (ht1 i j a1 (by omega) (by omega) a4) (sl i a1 a2) e hn
  have ql : ∀ i j, f ≤ i → i < mid → f ≤ j → j < mid → Q (v1 i) (v1 j) := fun i j a1 a2 a3 a4 =>
    h.tie r _ _ (ht1 i j a1 (by omega) a3 (by omega)) (sl i a1 a2) (sl j a3 a4)
  have hright : ∀ (s' : St α) (w : Nat → α), (∀ i, mid ≤ i → i < l → w i = v1 i) → Holds s'.cell mid l w →
      wp (sortPartition fb (sortElt r (some (deeper r))) mid l)
        (fun _ s'' => ∃ v', Upd mid l s' s'' w v' ∧ SortedOn lt mid l v') s' := fun s' w hw hs' => by
    refine sortPartition_spec hfb (hs r (deeper r) (hd r)) s' mid l w hhi hs' fun i j a1 a2 a3 a4 => ?_
    rw [hw i a1 a2, hw j a3 a4]
    exact ⟨ht1 i j (by omega) a2 (by omega) a4, sr i a1 a2, sr j a3 a4⟩
  have hmain : ∀ a : Nat → Nat → M α Unit, (∀ s' : St α, Holds s'.cell f mid v1 →
      wp (a f mid) (fun _ s'' => ∃ v', Upd f mid s' s'' v1 v' ∧ SortedOn lt f mid v') s') →
      wp (do a f mid; sortPartition fb (sortElt r (some (deeper r))) mid l)
        (fun _ s' => ∃ v', Upd f l s0 s' v v' ∧ SortedOn lt f l v') s1 := fun a ha => by
    refine wp_mono (two_parts hlo hhi hu.holds hx ha hright) ?_
    rintro _ s2 ⟨v2, g1, g2⟩
    exact ⟨v2, hu.trans g1, g2⟩
  cases e : next with
  | none =>
    rw [e] at hn
    refine hmain (fun _ _ => pure ()) fun s' hs' => wp_pure ⟨v1, Upd.refl hs', fun i j a1 a2 a3 => ?_⟩
    exact hn _ _ (ql i j a1 (by omega) (by omega) a3)
  | some g =>
    rw [e] at hn
    exact hmain (sortPartition fb g) fun s' hs' => sortPartition_spec hfb hn s' f mid v1 hlo hs' ql

theorem listSort_spec {next : SkaNext α} (hn : NextOK lt Q next) (h : ListOK lt size same P Q Pi)
    {sortElt : Nat → SkaNext α → Nat → Nat → M α Unit}
    (hs : ∀ i g, TiedL lt (Pi (i + 1)) g →
      TiedL lt (fun x y => Pi i x y ∧ (∃ m, size x = some m ∧ i < m) ∧ ∃ n, size y = some n ∧ i < n) (sortElt i (some g))) :
    ∀ k index, TiedL lt (Pi index) (listSort fb next size same sortElt k index) := by
  intro k
  induction k with
  | zero => exact fun index => listBody_spec hfb hn h hs (fun i => hfb.large.mono fun _ _ _ => trivial) index
  | succ k ih => exact fun index => listBody_spec hfb hn h hs (fun i => ih (i + 1)) index

end

/-! ### Sub-keys -/

/-- Whether a sub-key is a boolean. -/
def SubKey.isBool {β : Type} : SubKey β → Bool
  | .bool _ => true
  | _ => false

/-- A sub-key is consistent with the order on the values related by `P`; the values that it does not distinguish are
related by `Q`. -/
def SubKey.OK (lt : α → α → Bool) : SubKey α → (P Q : α → α → Prop) → Prop
  | .bool key, P, Q => BoolOK lt key P Q
  | .word n key, P, Q => WordOK lt n key P Q
  | .list size elt _, P, Q => ∃ Pi, ListOK lt size (fun i => (elt i).same) P Q Pi ∧ ∀ i, (elt i).isBool = false ∧
      (elt i).OK lt (fun x y => Pi i x y ∧ (∃ m, size x = some m ∧ i < m) ∧ ∃ n, size y = some n ∧ i < n) (Pi (i + 1))

theorem subKeySort_spec : ∀ (k : SubKey α) (next : SkaNext α) (P Q : α → α → Prop), k.OK lt P Q → NextOK lt Q next →
    (k.isBool = true → ∀ g, next = some g → TiedW lt Q g) → TiedL lt P (k.sort fb next)
  | .bool key, next, P, Q, h, hn, hb => by
    refine (boolSort_spec (next := next) ?_ h).large
    cases e : next with
    | none => rw [e] at hn; exact hn
    | some g => exact hb rfl g e
  | .word n key, next, P, Q, h, hn, _ => wordSort_top hfb hn h
  | .list size elt _, next, P, Q, h, hn, _ => by
    obtain ⟨Pi, h1, h2⟩ := h
    intro s f l v hfl hh ht
    refine listSort_spec hfb hn h1 (fun i g hg => ?_) 15 0 s f l v hfl hh fun i j a1 a2 a3 a4 =>
      h1.start _ _ (ht i j a1 a2 a3 a4) (ht j i a3 a4 a1 a2)
    refine subKeySort_spec (elt i) (some g) _ _ (h2 i).2 hg fun hb => ?_
    rw [(h2 i).1] at hb
    cases hb

omit hfb in
/-- A sequence of sub-keys is consistent with the order. -/
def KeysOK (lt : α → α → Bool) : List (SubKey α) → (α → α → Prop) → Prop
  | [], P => ∀ x y, P x y → lt y x = false
  | k :: ks, P => ∃ Q, k.OK lt P Q ∧ KeysOK lt ks Q

theorem skaStart_spec : ∀ (ks : List (SubKey α)) (P : α → α → Prop), KeysOK lt ks P → TiedW lt P (skaStart fb ks)
  | [], P, h => fun s f l v hfl hh ht => wp_pure ⟨v, Upd.refl hh, fun i j a1 a2 a3 =>
      h _ _ (ht i j a1 (by omega) (by omega) a3)⟩
  | k :: ks, P, h => by
    obtain ⟨Q, h1, h2⟩ := h
    have ih := skaStart_spec ks Q h2
    refine sortPartition_spec hfb (subKeySort_spec hfb k _ P Q h1 ?_ ?_)
    · cases ks with
      | nil => exact h2
      | cons k' ks => exact ih.large
    · intro _ g hg
      cases ks with
      | nil => cases hg
      | cons k' ks => cases hg; exact ih

end
end CppSort
