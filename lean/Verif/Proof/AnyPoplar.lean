import Verif.Proof.AnyCmp
import Verif.Proof.Poplar
/-
poplar_sort.h with any comparison function: the layout of the poplars does not depend on the comparisons.
-/
set_option autoImplicit false

namespace CppSort
variable {α : Type} {T : Shape α → Prop} {cmp : α → α → M α Bool}

theorem poplarSiftLoop_any (hc : Answers T cmp) {f l : Nat} (t : α) : ∀ (k root mr : Nat),
    f + psz (k + 1) ≤ mr + 1 → mr < root → root < l →
    Keep T f l (.hole root t) (poplarSiftLoop cmp t root mr (psz (k + 2))) fun r P => P = .hole r t := by
  intro k
  induction k with
  | zero =>
    intro root mr h1 h2 h3
    have e1 : psz (0 + 1) = 1 := rfl
    have e2 : psz (0 + 2) = 3 := rfl
    rw [poplarSiftLoop]
    keep1
    simp only []
    rw [if_pos (by omega)]
    keep
  | succ k ih =>
    intro root mr h1 h2 h3
    have hq : 0 < psz (k + 1) := psz_pos (by omega)
    have e1 : psz (k + 1 + 1) = 2 * psz (k + 1) + 1 := rfl
    have e2 : psz (k + 1 + 2) = 2 * psz (k + 1 + 1) + 1 := rfl
    rw [poplarSiftLoop]
    keep1
    simp only []
    rw [show psz (k + 1 + 2) / 2 = psz (k + 2) by show _ = psz (k + 1 + 1); omega,
      show psz (k + 2) - psz (k + 2) / 2 = psz (k + 1) + 1 by show psz (k + 1 + 1) - psz (k + 1 + 1) / 2 = _; omega]
    rw [if_neg (by show ¬ psz (k + 1 + 1) < 2; omega)]
    refine Keep.bind (R := fun r P => P = .hole mr t ∧ (r = mr - 1 ∨ r = mr - (psz (k + 1) + 1))) ?_ ?_
    · keep
    · rintro m _ ⟨rfl, hm⟩
      keep
      exact ih _ _ (by omega) (by omega) (by omega)

theorem poplarSift_any (hc : Answers T cmp) {f l a k : Nat} (hf : f ≤ a) (hl : a + psz (k + 1) ≤ l) :
    Intact T f l (poplarSift cmp a (psz (k + 1))) fun _ => True := by
  unfold poplarSift
  cases k with
  | zero =>
    rw [if_pos (by simp [psz])]
    keep
  | succ k =>
    have hq : 0 < psz (k + 1) := psz_pos (by omega)
    have e1 : psz (k + 1 + 1) = 2 * psz (k + 1) + 1 := rfl
    rw [if_neg (by omega)]
    simp only []
    rw [show psz (k + 1 + 1) / 2 = psz (k + 1) by omega,
      show a + (psz (k + 1 + 1) - 1) = a + 2 * psz (k + 1) by omega]
    refine Keep.bind (R := fun r P => P = .whole ∧ (r = a + 2 * psz (k + 1) - 1 ∨ r = a + 2 * psz (k + 1))) ?_ ?_
    · keep
    · rintro m _ ⟨rfl, hm⟩
      refine Keep.bind (R := fun r P => P = .whole ∧ (r = a + (psz (k + 1) - 1) ∨
        r = a + 2 * psz (k + 1) - 1 ∨ r = a + 2 * psz (k + 1))) ?_ ?_
      · keep
      · rintro m' _ ⟨rfl, hm'⟩
        keep
        refine (poplarSiftLoop_any hc _ k _ _ (by omega) (by omega) (by omega)).bind ?_
        rintro _ _ rfl
        keep

theorem makePoplar_any (hc : Answers T cmp) {f l : Nat} : ∀ (k a : Nat), f ≤ a → a + psz k ≤ l →
    Intact T f l (makePoplar cmp a (a + psz k)) fun _ => True := by
  intro k
  induction k with
  | zero =>
    intro a hf hl
    rw [makePoplar]
    simp only []
    rw [if_pos (by simp [psz])]
    exact insertionSort_any hc hf (by omega) hl
  | succ k ih =>
    intro a hf hl
    rw [makePoplar]
    have e1 : psz (k + 1) = 2 * psz k + 1 := rfl
    simp only []
    refine Keep.ite (fun _ => insertionSort_any hc hf (by omega) hl) fun _ => ?_
    rw [show a + (a + psz (k + 1) - a) / 2 = a + psz k by omega,
      show a + psz (k + 1) - 1 = a + psz k + psz k by omega, show a + psz (k + 1) - a = psz (k + 1) by omega]
    refine (ih a hf (by omega)).bind ?_
    rintro _ _ ⟨rfl, -⟩
    refine (ih (a + psz k) (by omega) (by omega)).bind ?_
    rintro _ _ ⟨rfl, -⟩
    exact poplarSift_any hc hf hl

/-- The row of poplars, nothing being said of their elements. -/
abbrev PLay (a : Nat) (ps : List Poplar) (e : Nat) : Prop :=
  PRow (fun _ _ : Unit => false) (fun _ => ()) a ps e

theorem pop_trivial : ∀ (k a : Nat), Pop (fun _ _ : Unit => false) (fun _ => ()) k a
  | 0, _ => trivial
  | k + 1, a => ⟨pop_trivial k a, pop_trivial k _, fun _ _ _ => rfl⟩

theorem strictWeak_never : StrictWeak fun _ _ : Unit => false :=
  ⟨fun _ => rfl, fun _ _ _ h => absurd h (by simp), fun _ _ _ _ _ _ _ => ⟨rfl, rfl⟩⟩

theorem poplarBuild_any (hc : Answers T cmp) {f l : Nat} : ∀ (d : Nat) (k it : Nat) (ps : List Poplar),
    l - it + k ≤ d → it ≤ l → PLay f ps it →
    Intact T f l (poplarBuild cmp l it (psz (k + 1)) ps) fun r => PLay f r l := by
  intro d
  induction d with
  | zero =>
    intro k it ps hd hi hr
    rw [poplarBuild]
    obtain rfl : k = 0 := by omega
    obtain rfl : it = l := by omega
    rw [show psz (0 + 1) = 1 from rfl, if_neg (by omega)]
    exact Keep.pure ⟨rfl, hr⟩
  | succ d ih =>
    intro k it ps hd hi hr
    have hq := psz_pos (k := k + 1) (by omega)
    have hfi := hr.le
    rw [poplarBuild]
    simp only []
    refine Keep.ite (fun hn => ?_) fun hn => ?_
    · refine (makePoplar_any hc (k + 1) it hfi (by omega)).bind ?_
      rintro _ _ ⟨rfl, -⟩
      rw [if_pos hq]
      exact ih k _ _ (by omega) (by omega) (PRow.append.2 ⟨it, hr, k, rfl, pop_trivial _ _, rfl⟩)
    · have e1 : psz (k + 1) = 2 * psz k + 1 := rfl
      rw [show (psz (k + 1) + 1) / 2 - 1 = psz k by omega]
      cases k with
      | zero =>
        have e0 : psz 0 = 0 := rfl
        obtain rfl : it = l := by omega
        rw [if_neg (by omega)]
        exact Keep.pure ⟨rfl, hr⟩
      | succ k =>
        rw [if_pos (psz_pos (by omega))]
        exact ih k it ps (by omega) hi hr

/-- A poplar within `[f, l)`. -/
def Poplar.Fits (f l : Nat) (p : Poplar) : Prop := ∃ a k, p = ⟨a, a + psz (k + 1), psz (k + 1)⟩ ∧ f ≤ a ∧ a + psz (k + 1) ≤ l

theorem PLay.fits {f l : Nat} : ∀ {ps : List Poplar} {a e : Nat}, PLay a ps e → f ≤ a → e ≤ l → ∀ p ∈ ps, p.Fits f l := by
  intro ps
  induction ps with
  | nil => intro a e _ _ _ p hp; cases hp
  | cons p ps ih =>
    rintro a e ⟨k, rfl, -, h⟩ hf hl q hq
    have := h.le
    rcases List.mem_cons.1 hq with rfl | hq
    · exact ⟨a, k, rfl, hf, by omega⟩
    · exact ih h (by omega) hl q hq

theorem Poplar.Fits.root {f l : Nat} {p : Poplar} (h : p.Fits f l) : f ≤ p.root ∧ p.root < l := by
  obtain ⟨a, k, rfl, h1, h2⟩ := h
  have := psz_pos (k := k + 1) (by omega)
  unfold Poplar.root
  constructor <;> simp only [] <;> omega

theorem poplarBigger_any (hc : Answers T cmp) {f l : Nat} {last : Poplar} (hl : last.Fits f l) :
    ∀ (ps : List Poplar) (b : Option Poplar), (∀ p ∈ ps, p.Fits f l) → (∀ p ∈ b, p.Fits f l) →
    Intact T f l (poplarBigger cmp last b ps) fun r => ∀ p ∈ r, p.Fits f l := by
  intro ps
  induction ps with
  | nil => intro b _ hb; exact Keep.pure ⟨rfl, hb⟩
  | cons p ps ih =>
    intro b hp hb
    unfold poplarBigger
    have h1 := (hp p (by simp)).root
    have h2 : (b.getD last).Fits f l := by
      cases b with
      | none => exact hl
      | some b => exact hb b rfl
    have h3 := h2.root
    refine (Keep.read h3.1 h3.2).next fun _ => (Keep.read h1.1 h1.2).next fun _ => (Keep.cmp hc).next fun _ => ?_
    refine Keep.ite (fun _ => ?_) fun _ => ?_
    · exact ih _ (fun q hq => hp q (by simp [hq])) fun q hq => by cases hq; exact hp p (by simp)
    · exact ih _ (fun q hq => hp q (by simp [hq])) hb

theorem poplarRelocate_any (hc : Answers T cmp) {f l : Nat} {ps : List Poplar} {last : Poplar} (hl : last.Fits f l)
    (hp : ∀ p ∈ ps, p.Fits f l) : Intact T f l (poplarRelocate cmp ps last) fun _ => True := by
  unfold poplarRelocate
  refine (poplarBigger_any hc hl ps none hp (fun _ h => by cases h)).bind ?_
  rintro r _ ⟨rfl, hr⟩
  cases r with
  | none => keep
  | some b =>
    have hb := hr b rfl
    refine (Keep.swap hb.root hl.root).next fun _ => ?_
    obtain ⟨a, k, rfl, h1, h2⟩ := hb
    exact poplarSift_any hc h1 h2

theorem poplarLoop_any (hc : Answers T cmp) {f l : Nat} : ∀ (d : Nat) (ps : List Poplar) (e : Nat),
    e ≤ d → f < e → e ≤ l → PLay f ps e → Intact T f l (poplarLoop cmp ps) fun _ => True := by
  intro d
  induction d with
  | zero => intros; omega
  | succ d ih =>
    intro ps e hd hf hl hr
    have hfit := hr.fits (Nat.le_refl _) hl
    rcases List.eq_nil_or_concat ps with rfl | ⟨init, back, rfl⟩
    · have hr : f = e := hr
      omega
    · rw [List.concat_eq_append] at hr hfit ⊢
      obtain ⟨b, hr1, k, rfl, hpk, he⟩ := PRow.append.1 hr
      have he : b + psz (k + 1) = e := he
      subst he
      have hq := psz_pos (k := k + 1) (by omega)
      have hfb := hr1.le
      rw [poplarLoop]
      rw [List.getLast?_append, List.getLast?_singleton, Option.some_or, List.dropLast_concat]
      simp only []
      refine (poplarRelocate_any hc (hfit _ (by simp)) fun p hp => hfit p (by simp [hp])).bind ?_
      rintro _ _ ⟨rfl, -⟩
      have hn := poplarNext_spec (l := l) strictWeak_never hr1 hpk
        ⟨fun _ _ _ _ _ => rfl, fun _ _ _ _ _ _ => rfl⟩ hl
      cases hpn : poplarNext init ⟨b, b + psz (k + 1), psz (k + 1)⟩ with
      | none => keep
      | some qs =>
        rw [hpn] at hn
        obtain ⟨e, hrq, hfe, hel, hte⟩ := hn
        exact ih qs e (by omega) hfe (by omega) hrq

theorem poplarSort_any (hc : Answers T cmp) {f l : Nat} (hf : f ≤ l) : Intact T f l (poplarSort cmp f l) fun _ => True := by
  unfold poplarSort
  simp only []
  refine Keep.ite (fun _ => by keep) fun hn => ?_
  rw [← psz_eq]
  obtain ⟨k, hk⟩ : ∃ k, Nat.log2 (l - f + 1) = k + 1 := by
    have : Nat.log2 (l - f + 1) ≠ 0 := by
      intro h
      have := (Nat.log2_eq_iff (by omega)).1 h
      omega
    exact ⟨Nat.log2 (l - f + 1) - 1, by omega⟩
  rw [hk]
  refine (poplarBuild_any hc _ k f [] (Nat.le_refl _) hf rfl).bind ?_
  rintro ps _ ⟨rfl, hr⟩
  exact poplarLoop_any hc l ps l (Nat.le_refl _) (by omega) (Nat.le_refl _) hr

end CppSort
