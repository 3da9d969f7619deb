import Verif.Model.Ska
import Verif.Base.Order
/-
Helper lemmas about ska_sort: the permutation of the elements by a byte of their keys.
-/
set_option autoImplicit false

namespace CppSort
variable {α : Type} {lt : α → α → Bool}

/-- The byte of an element. -/
def byteOf (key : α → Option Nat) (r : Nat) (x : α) : Nat := (key x).getD 0 / 256 ^ r % 256

theorem byteOf_lt (key : α → Option Nat) (r : Nat) (x : α) : byteOf key r x < 256 := Nat.mod_lt _ (by omega)

/-- The keys of the elements of a range are defined. -/
def KeysOn (key : α → Option Nat) (f l : Nat) (v : Nat → α) : Prop :=
  ∀ i, f ≤ i → i < l → ∃ k, key (v i) = some k

theorem KeysOn.perm {key : α → Option Nat} {f l : Nat} {v v' : Nat → α} (h : KeysOn key f l v) (hp : PermOn f l v v') :
    KeysOn key f l v' := hp.forall (P := fun x => ∃ k, key x = some k) h

theorem wp_currentByte {key : α → Option Nat} {r f l i : Nat} {v : Nat → α} {s : St α} {Q : Nat → St α → Prop}
    (hh : Holds s.cell f l v) (hk : KeysOn key f l v) (h1 : f ≤ i) (h2 : i < l) (hQ : Q (byteOf key r (v i)) s) :
    wp (currentByte key r i) Q s := by
  unfold currentByte
  apply wp_bind
  refine wp_read hh h1 h2 ?_
  obtain ⟨k, e⟩ := hk i h1 h2
  unfold byteOf at hQ
  rw [e] at hQ ⊢
  exact hQ |> fun h => ⟨_, _, rfl, h⟩

/-- The number of elements with a given byte. -/
def byteCount (B : α → Nat) (b : Nat) (xs : List α) : Nat := xs.countP (fun x => B x == b)

theorem countBytes_spec {key : α → Option Nat} {r f l : Nat} {v : Nat → α} {s : St α} (hh : Holds s.cell f l v)
    (hk : KeysOn key f l v) : ∀ (d it : Nat) (c : Nat → Nat), l - it = d → f ≤ it → it ≤ l →
      wp (countBytes key r l it c) (fun c' s' => s' = s ∧ ∀ b, c' b = c b + byteCount (byteOf key r) b (lst v it l)) s := by
  intro d
  induction d with
  | zero =>
    intro it c hd h1 h2
    rw [countBytes, if_neg (by omega)]
    refine wp_pure ⟨rfl, fun b => ?_⟩
    rw [lst_nil (by omega)]
    rfl
  | succ d ih =>
    intro it c hd h1 h2
    rw [countBytes, if_pos (by omega)]
    apply wp_bind
    refine wp_currentByte hh hk h1 (by omega) ?_
    refine wp_mono (ih (it + 1) _ (by omega) (by omega) (by omega)) ?_
    rintro c' s' ⟨rfl, hc⟩
    refine ⟨rfl, fun b => ?_⟩
    rw [hc, lst_cons (show it < l by omega)]
    unfold byteCount
    rw [List.countP_cons]
    by_cases e : b = byteOf key r (v it)
    · rw [upd_eq e, if_pos (by simp [e]), e]; try omega
    · rw [upd_ne e, if_neg (by simp; exact fun h => e h.symm)]; try omega

/-! ### Offsets -/

theorem byteOffset_mono (c : Nat → Nat) {a b : Nat} (h : a ≤ b) : byteOffset c a ≤ byteOffset c b := by
  induction b with
  | zero => rw [show a = 0 by omega]
  | succ b ih =>
    by_cases e : a = b + 1
    · rw [e]
    · have := ih (by omega); rw [byteOffset]; omega

theorem byteOffset_eq {B : α → Nat} {c : Nat → Nat} {xs : List α} (h : ∀ b, b < 256 → c b = byteCount B b xs) :
    ∀ b, b ≤ 256 → byteOffset c b = xs.countP (fun x => decide (B x < b)) := by
  intro b
  induction b with
  | zero => intro _; simp [byteOffset]
  | succ b ih =>
    intro hb
    rw [byteOffset, ih (by omega), h b (by omega)]
    unfold byteCount
    clear ih h
    induction xs with
    | nil => rfl
    | cons x xs ih =>
      simp only [List.countP_cons]
      have : (if decide (B x < b) = true then 1 else 0) + (if (B x == b) = true then 1 else 0) =
          (if decide (B x < b + 1) = true then 1 else 0) := by
        simp only [decide_eq_true_eq, beq_iff_eq]
        split_ifs <;> omega
      omega

theorem byteOffset_upd (g : Nat → Nat) (b x : Nat) : ∀ n, b < n → byteOffset (upd g b x) n + g b = byteOffset g n + x := by
  intro n
  induction n with
  | zero => intro h; omega
  | succ n ih =>
    intro h
    rw [byteOffset, byteOffset]
    by_cases e : n = b
    · subst e
      rw [upd_eq rfl]
      have : ∀ m, m ≤ n → byteOffset (upd g n x) m = byteOffset g m := by
        intro m
        induction m with
        | zero => intro _; rfl
        | succ m ihm => intro hm; rw [byteOffset, byteOffset, ihm (by omega), upd_ne (by omega)]
      rw [this n (Nat.le_refl _)]; omega
    · rw [upd_ne e]
      have := ih (by omega)
      omega

theorem byteOffset_le {g g' : Nat → Nat} (h : ∀ b, g b ≤ g' b) : ∀ n, byteOffset g n ≤ byteOffset g' n := by
  intro n
  induction n with
  | zero => exact Nat.le_refl _
  | succ n ih => rw [byteOffset, byteOffset]; have := h n; omega

theorem byteOffset_congr {g g' : Nat → Nat} {n : Nat} (h : ∀ b, b < n → g b = g' b) : byteOffset g n = byteOffset g' n := by
  induction n with
  | zero => rfl
  | succ n ih => rw [byteOffset, byteOffset, ih (fun b hb => h b (by omega)), h n (by omega)]

/-- The block of a position. -/
theorem byteOffset_find (c : Nat → Nat) {i : Nat} : ∀ n, i < byteOffset c n →
    ∃ b, b < n ∧ byteOffset c b ≤ i ∧ i < byteOffset c (b + 1) := by
  intro n
  induction n with
  | zero => intro h; simp [byteOffset] at h
  | succ n ih =>
    intro h
    by_cases e : i < byteOffset c n
    · obtain ⟨b, h1, h2⟩ := ih e
      exact ⟨b, by omega, h2⟩
    · exact ⟨n, by omega, by omega, h⟩

theorem byteOffset_block {c : Nat → Nat} {b b' i : Nat} (h1 : byteOffset c b ≤ i) (h2 : i < byteOffset c (b + 1))
    (h3 : byteOffset c b' ≤ i) (h4 : i < byteOffset c (b' + 1)) : b = b' := by
  rcases Nat.lt_trichotomy b b' with h | h | h
  · have := byteOffset_mono c (show b + 1 ≤ b' by omega); omega
  · exact h
  · have := byteOffset_mono c (show b' + 1 ≤ b by omega); omega

/-- The elements in front of the offset of each block belong to it. -/
structure Zones (B : α → Nat) (f l : Nat) (c : Nat → Nat) (v : Nat → α) (offs : Nat → Nat) : Prop where
  lo : ∀ b, b < 256 → byteOffset c b ≤ offs b
  hi : ∀ b, b < 256 → offs b ≤ byteOffset c (b + 1)
  mem : ∀ b, b < 256 → ∀ i, byteOffset c b ≤ i → i < offs b → B (v (f + i)) = b
  cnt : ∀ b, b < 256 → c b = byteCount B b (lst v f l)
  bound : ∀ i, f ≤ i → i < l → B (v i) < 256

/-- The elements are in their blocks. -/
def Blocks (B : α → Nat) (f : Nat) (c : Nat → Nat) (v : Nat → α) : Prop :=
  ∀ b, b < 256 → ∀ i, byteOffset c b ≤ i → i < byteOffset c (b + 1) → B (v (f + i)) = b

section
variable {B : α → Nat} {f l : Nat} {c : Nat → Nat} {v : Nat → α} {offs : Nat → Nat}

theorem Zones.total (h : Zones B f l c v offs) : byteOffset c 256 = l - f := by
  rw [byteOffset_eq h.cnt 256 (Nat.le_refl _), List.countP_eq_length.2 ?_, lst_length]
  intro x hx
  obtain ⟨i, h1, h2, rfl⟩ := mem_lst.1 hx
  exact decide_eq_true (h.bound i h1 h2)

theorem Zones.le (h : Zones B f l c v offs) {b : Nat} (hb : b < 256) : byteOffset c (b + 1) ≤ l - f := by
  rw [← h.total]; exact byteOffset_mono c (by omega)

/-- There is room in the block of an element that is not in place. -/
theorem Zones.room (h : Zones B f l c v offs) {p : Nat} (h1 : f ≤ p) (h2 : p < l)
    (hp : ¬ (byteOffset c (B (v p)) ≤ p - f ∧ p - f < offs (B (v p)))) :
    offs (B (v p)) < byteOffset c (B (v p) + 1) := by
  have hb := h.bound p h1 h2
  generalize e : B (v p) = b at *
  have hlo := h.lo b hb
  have hhi := h.hi b hb
  have hle := h.le hb
  by_contra hn
  have hc := h.cnt b hb
  have hbc : byteOffset c (b + 1) = byteOffset c b + c b := rfl
  have hm : ∀ m n, f ≤ m → m ≤ n → n ≤ l → byteCount B b (lst v f l) =
      byteCount B b (lst v f m) + byteCount B b (lst v m n) + byteCount B b (lst v n l) := by
    intro m n a1 a2 a3
    unfold byteCount
    rw [lst_append (m := m) (by omega) (by omega : m ≤ l), lst_append (m := n) (f := m) a2 a3, List.countP_append,
      List.countP_append]
    omega
  have hsplit := hm (f + byteOffset c b) (f + offs b) (by omega) (by omega) (by omega)
  have hmid : byteCount B b (lst v (f + byteOffset c b) (f + offs b)) = offs b - byteOffset c b := by
    unfold byteCount
    rw [List.countP_eq_length.2, lst_length]
    · omega
    · intro x hx
      obtain ⟨i, a1, a2, rfl⟩ := mem_lst.1 hx
      have := h.mem b hb (i - f) (by omega) (by omega)
      rw [show f + (i - f) = i by omega] at this
      simp [this]
  have hpos : ∀ m n, m ≤ p → p < n → 0 < byteCount B b (lst v m n) := by
    intro m n a1 a2
    unfold byteCount
    rw [List.countP_pos_iff]
    exact ⟨v p, mem_lst.2 ⟨p, a1, a2, rfl⟩, by simp [e]⟩
  by_cases hlt : p - f < byteOffset c b
  · have := hpos f (f + byteOffset c b) h1 (by omega)
    omega
  · have := hpos (f + offs b) l (by omega) h2
    omega

/-- An element is put in its place. -/
theorem Zones.put (h : Zones B f l c v offs) {p : Nat} (h1 : f ≤ p) (h2 : p < l)
    (hp : ∀ b, b < 256 → ¬ (byteOffset c b ≤ p - f ∧ p - f < offs b)) :
    Zones B f l c (swp v p (f + offs (B (v p)))) (upd offs (B (v p)) (offs (B (v p)) + 1)) := by
  have hb := h.bound p h1 h2
  have hr := h.room h1 h2 (hp _ hb)
  have hin := h.le hb
  generalize e : B (v p) = b at *
  have hperm : PermOn f l v (swp v p (f + offs b)) := PermOn.swp ⟨h1, h2⟩ ⟨by omega, by omega⟩
  constructor
  · intro b' hb'
    by_cases eb : b' = b
    · rw [upd_eq eb, eb]; have := h.lo b hb; omega
    · rw [upd_ne eb]; exact h.lo b' hb'
  · intro b' hb'
    by_cases eb : b' = b
    · rw [upd_eq eb, eb]; omega
    · rw [upd_ne eb]; exact h.hi b' hb'
  · intro b' hb' i a1 a2
    have hne : i < offs b' → f + i ≠ p := fun hi hc => hp b' hb' ⟨by omega, by omega⟩
    by_cases eb : b' = b
    · rw [upd_eq eb] at a2
      by_cases ei : i = offs b
      · rw [swp_r (by rw [ei]), e, eb]
      · have hi : i < offs b' := by rw [eb]; omega
        rw [swp_o (hne hi) (by omega)]
        exact h.mem b' hb' i a1 hi
    · rw [upd_ne eb] at a2
      have hi' := h.hi b' hb'
      have hlo := h.lo b hb
      rw [swp_o (hne a2)]
      · exact h.mem b' hb' i a1 a2
      · intro hc
        exact eb (byteOffset_block a1 (show i < byteOffset c (b' + 1) by omega) (show byteOffset c b ≤ i by omega)
          (by omega))
  · intro b' hb'
    rw [h.cnt b' hb']
    exact (hperm.2.countP_eq _).symm
  · exact hperm.forall (P := fun x => B x < 256) h.bound

/-- An element is in its place already. -/
theorem Zones.advance (h : Zones B f l c v offs) {b : Nat} (hb : b < 256) (h2 : offs b < byteOffset c (b + 1))
    (e : B (v (f + offs b)) = b) : Zones B f l c v (upd offs b (offs b + 1)) := by
  have hle := h.le hb
  refine ⟨fun b' hb' => ?_, fun b' hb' => ?_, fun b' hb' i a1 a2 => ?_, h.cnt, h.bound⟩
  · by_cases eb : b' = b
    · rw [upd_eq eb, eb]; have := h.lo b hb; omega
    · rw [upd_ne eb]; exact h.lo b' hb'
  · by_cases eb : b' = b
    · rw [upd_eq eb, eb]; omega
    · rw [upd_ne eb]; exact h.hi b' hb'
  · by_cases eb : b' = b
    · rw [upd_eq eb] at a2
      by_cases ei : i = offs b
      · rw [ei, e, eb]
      · exact h.mem b' hb' i a1 (by rw [eb]; omega)
    · rw [upd_ne eb] at a2
      exact h.mem b' hb' i a1 a2

/-- When all the blocks but one are full, all of them are. -/
theorem Zones.blocks (h : Zones B f l c v offs) (b0 : Nat)
    (hf : ∀ b, b < 256 → b ≠ b0 → offs b = byteOffset c (b + 1)) : Blocks B f c v := by
  intro b hb i h1 h2
  have hle := h.le hb
  by_cases e : b = b0
  · by_contra hn
    have hb' := h.bound (f + i) (by omega) (by omega)
    have := h.room (p := f + i) (by omega) (by omega) fun ⟨a1, a2⟩ => by
      have := h.hi _ hb'
      exact hn (byteOffset_block (c := c) (i := i) (by omega) (by omega) h1 h2)
    rw [hf _ hb' (fun hc => hn (hc.trans e.symm))] at this
    omega
  · exact h.mem b hb i h1 (by rw [hf b hb e]; exact h2)

/-- The number of elements that have not been put in their place. -/
def unplaced (c offs : Nat → Nat) : Nat := byteOffset (fun b => byteOffset c (b + 1) - offs b) 256

theorem unplaced_upd {c offs : Nat → Nat} {b : Nat} (hb : b < 256) (h : offs b < byteOffset c (b + 1)) :
    unplaced c (upd offs b (offs b + 1)) + 1 = unplaced c offs := by
  unfold unplaced
  have := byteOffset_upd (fun b => byteOffset c (b + 1) - offs b) b (byteOffset c (b + 1) - (offs b + 1)) 256 hb
  have e : (fun b' => byteOffset c (b' + 1) - upd offs b (offs b + 1) b') =
      upd (fun b => byteOffset c (b + 1) - offs b) b (byteOffset c (b + 1) - (offs b + 1)) := by
    funext b'
    by_cases eb : b' = b
    · rw [upd_eq eb, upd_eq eb, eb]
    · rw [upd_ne eb, upd_ne eb]
  rw [e]
  omega

attribute [irreducible] unplaced

end

/-! ### `american_flag_sort` -/

theorem mem_usedBytes {c : Nat → Nat} {b : Nat} : b ∈ usedBytes c ↔ b < 256 ∧ c b ≠ 0 := by
  simp [usedBytes]

theorem usedBytes_pairwise (c : Nat → Nat) : (usedBytes c).Pairwise (· < ·) :=
  List.Pairwise.filter _ List.pairwise_lt_range

theorem flagNext_spec {offs ends : Nat → Nat} : ∀ {rest : List Nat}, rest ≠ [] →
    match flagNext offs ends rest with
    | none => ∃ pre b0, rest = pre ++ [b0] ∧ ∀ b ∈ pre, offs b = ends b
    | some (b, rest') => ∃ pre, rest = pre ++ b :: rest' ∧ rest' ≠ [] ∧ offs b ≠ ends b ∧ ∀ b ∈ pre, offs b = ends b
  | [], h => absurd rfl h
  | [b], _ => ⟨[], b, rfl, by simp⟩
  | b :: b' :: rest, _ => by
    rw [flagNext]
    by_cases e : offs b ≠ ends b
    · rw [if_pos e]
      exact ⟨[], rfl, by simp, e, by simp⟩
    · rw [if_neg e]
      have := flagNext_spec (offs := offs) (ends := ends) (rest := b' :: rest) (by simp)
      split at this
      · obtain ⟨pre, b0, h1, h2⟩ := this
        refine ⟨b :: pre, b0, by rw [h1]; rfl, ?_⟩
        intro x hx
        rcases List.mem_cons.1 hx with rfl | hx
        · exact not_not.1 e
        · exact h2 x hx
      · obtain ⟨pre, h1, h2, h3, h4⟩ := this
        refine ⟨b :: pre, by rw [h1]; rfl, h2, h3, ?_⟩
        intro x hx
        rcases List.mem_cons.1 hx with rfl | hx
        · exact not_not.1 e
        · exact h4 x hx

/-- The invariant of the loop: `e` has the offsets of the elements that are in place. -/
structure FlagInv (B : α → Nat) (f l : Nat) (c : Nat → Nat) (v : Nat → α) (offs e : Nat → Nat) (cur : Nat)
    (rest : List Nat) : Prop where
  zones : Zones B f l c v e
  curlt : cur < 256
  below : ∀ b, b < cur → e b = byteOffset c (b + 1)
  above : ∀ b, cur < b → b < 256 → e b = offs b
  pw : (cur :: rest).Pairwise (· < ·)
  ne : rest ≠ []
  used : ∀ b ∈ rest, b < 256 ∧ c b ≠ 0
  all : ∀ b, cur < b → b < 256 → c b ≠ 0 → b ∈ rest

theorem FlagInv.unused {B : α → Nat} {f l : Nat} {c : Nat → Nat} {v : Nat → α} {offs : Nat → Nat}
    (h : Zones B f l c v offs) {b : Nat} (hb : b < 256) (hc : c b = 0) : offs b = byteOffset c (b + 1) := by
  have h1 := h.lo b hb
  have h2 := h.hi b hb
  rw [byteOffset, hc] at h2 ⊢
  omega

theorem flagLoop_spec {key : α → Option Nat} {r f l : Nat} {c : Nat → Nat} : ∀ (d : Nat) (s : St α) (v : Nat → α)
    (offs e : Nat → Nat) (cur : Nat) (rest : List Nat) (it : Nat), unplaced c e = d → Holds s.cell f l v →
    KeysOn key f l v → FlagInv (byteOf key r) f l c v offs e cur rest → it = f + e cur →
    e cur < byteOffset c (cur + 1) →
    wp (flagLoop key r f l (fun b => byteOffset c (b + 1)) offs cur rest it (f + byteOffset c (cur + 1)))
      (fun _ s' => ∃ v', Upd f l s s' v v' ∧ Blocks (byteOf key r) f c v' ∧
        ∀ b, b < 256 → c b = byteCount (byteOf key r) b (lst v' f l)) s := by
  intro d
  induction d with
  | zero =>
    intro s v offs e cur rest it hd hh hk hi hit hlt
    have := unplaced_upd hi.curlt hlt
    omega
  | succ d ih =>
    intro s v offs e cur rest it hd hh hk hi hit hlt
    have hcl := hi.zones.le hi.curlt
    rw [flagLoop]
    apply wp_bind
    refine wp_currentByte hh hk (by omega) (by omega) ?_
    by_cases hb : byteOf key r (v it) = cur
    · rw [if_pos hb]
      have hz := hi.zones.advance hi.curlt hlt (by rw [← hit]; exact hb)
      have hd' := unplaced_upd hi.curlt hlt
      by_cases hl1 : it + 1 = l - 1
      · rw [if_pos hl1]
        refine wp_pure ⟨v, Upd.refl hh, ?_, hi.zones.cnt⟩
        obtain ⟨b0, rest', hr⟩ := List.exists_cons_of_ne_nil hi.ne
        have hb0 := hi.used b0 (by rw [hr]; simp)
        have hcb : cur < b0 := by
          have := hi.pw; rw [hr] at this
          exact (List.pairwise_cons.1 this).1 b0 (by simp)
        have htot := hi.zones.total
        have m1 := byteOffset_mono c (show cur + 1 ≤ b0 by omega)
        have m2 := byteOffset_mono c (show b0 + 1 ≤ 256 by omega)
        have m3 : byteOffset c (b0 + 1) = byteOffset c b0 + c b0 := rfl
        refine hz.blocks b0 fun b hb hne => ?_
        by_cases h1 : b = cur
        · rw [upd_eq h1, h1]; omega
        · rw [upd_ne h1]
          by_cases h2 : b < cur
          · exact hi.below b h2
          · refine FlagInv.unused hi.zones hb ?_
            have n3 : byteOffset c (b + 1) = byteOffset c b + c b := rfl
            by_cases h3 : b < b0
            · have n1 := byteOffset_mono c (show cur + 1 ≤ b by omega)
              have n2 := byteOffset_mono c (show b + 1 ≤ b0 by omega)
              omega
            · have n1 := byteOffset_mono c (show b0 + 1 ≤ b by omega)
              have n2 := byteOffset_mono c (show b + 1 ≤ 256 by omega)
              omega
      · rw [if_neg hl1]
        by_cases hbe : it + 1 = f + byteOffset c (cur + 1)
        · rw [if_pos hbe]
          have hfull : e cur + 1 = byteOffset c (cur + 1) := by omega
          have hn := flagNext_spec (offs := offs) (ends := fun b => byteOffset c (b + 1)) hi.ne
          split at hn
          · obtain ⟨pre, b0, h1, h2⟩ := hn
            rename_i heq
            rw [heq]
            refine wp_pure ⟨v, Upd.refl hh, ?_, hi.zones.cnt⟩
            refine hz.blocks b0 fun b hb' hne => ?_
            by_cases g1 : b = cur
            · rw [upd_eq g1, g1, hfull]
            · rw [upd_ne g1]
              by_cases g2 : b < cur
              · exact hi.below b g2
              · by_cases g3 : c b = 0
                · exact FlagInv.unused hi.zones hb' g3
                · have := hi.all b (by omega) hb' g3
                  rw [h1] at this
                  rw [hi.above b (by omega) hb']
                  exact h2 b (by simpa [hne] using this)
          · obtain ⟨pre, h1, h2, h3, h4⟩ := hn
            rename_i cur' rest' heq
            rw [heq]
            simp only
            have hpw := hi.pw
            rw [h1] at hpw
            have hpw1 := List.pairwise_cons.1 hpw
            have hpw2 := List.pairwise_append.1 hpw1.2
            have hcur' : cur < cur' := hpw1.1 cur' (by simp)
            have hu' := hi.used cur' (by rw [h1]; simp)
            have hoff : upd e cur (e cur + 1) cur' = offs cur' := by
              rw [upd_ne (by omega)]; exact hi.above cur' hcur' hu'.1
            have hhi := hz.hi cur' hu'.1
            refine ih s v offs (upd e cur (e cur + 1)) cur' rest' _ (by omega) hh hk ?_ (by rw [hoff]) (by omega)
            refine ⟨hz, hu'.1, fun b hb' => ?_, fun b g1 g2 => ?_, hpw2.2.1, h2, fun b hb' => ?_, fun b g1 g2 g3 => ?_⟩
            · by_cases g1 : b = cur
              · rw [upd_eq g1, g1, hfull]
              · rw [upd_ne g1]
                by_cases g2 : b < cur
                · exact hi.below b g2
                · by_cases g3 : c b = 0
                  · exact FlagInv.unused hi.zones (by omega) g3
                  · have := hi.all b (by omega) (by omega) g3
                    rw [h1] at this
                    rw [hi.above b (by omega) (by omega)]
                    refine h4 b ?_
                    rcases List.mem_append.1 this with g | g
                    · exact g
                    · rcases List.mem_cons.1 g with g | g
                      · omega
                      · have := (List.pairwise_cons.1 hpw2.2.1).1 b g
                        omega
            · rw [upd_ne (by omega)]; exact hi.above b (by omega) g2
            · exact hi.used b (by rw [h1]; simp [hb'])
            · have := hi.all b (by omega) g2 g3
              rw [h1] at this
              rcases List.mem_append.1 this with g | g
              · have := hpw2.2.2 b g cur' (by simp)
                omega
              · rcases List.mem_cons.1 g with g | g
                · omega
                · exact g
        · rw [if_neg hbe]
          refine ih s v offs (upd e cur (e cur + 1)) cur rest _ (by omega) hh hk ?_ (by rw [upd_eq rfl, hit, Nat.add_assoc])
            (by rw [upd_eq rfl]; omega)
          exact ⟨hz, hi.curlt, fun b hb' => by rw [upd_ne (by omega)]; exact hi.below b hb',
            fun b g1 g2 => by rw [upd_ne (by omega)]; exact hi.above b g1 g2, hi.pw, hi.ne, hi.used, hi.all⟩
    · rw [if_neg hb]
      have hnz : ∀ b, b < 256 → ¬ (byteOffset c b ≤ it - f ∧ it - f < e b) := by
        intro b hb' ⟨a1, a2⟩
        have g1 := hi.zones.hi b hb'
        have g2 := hi.zones.lo cur hi.curlt
        have := byteOffset_block a1 (show it - f < byteOffset c (b + 1) by omega)
          (show byteOffset c cur ≤ it - f by omega) (by omega)
        rw [this] at a2
        omega
      have hbl := hi.zones.bound it (by omega) (by omega)
      have hroom := hi.zones.room (p := it) (by omega) (by omega) (hnz _ hbl)
      have hz := hi.zones.put (p := it) (by omega) (by omega) hnz
      have hd' := unplaced_upd hbl hroom
      have hle := hi.zones.le hbl
      generalize hbe : byteOf key r (v it) = b at *
      have hgt : cur < b := by
        rcases Nat.lt_trichotomy b cur with g | g | g
        · have := hi.below b g; omega
        · exact absurd g hb
        · exact g
      have hoff := hi.above b hgt hbl
      apply wp_bind
      refine wp_swap hh ⟨by omega, by omega⟩ ⟨by omega, by omega⟩ fun s' hu => ?_
      rw [hoff] at hz hd'
      refine wp_mono (ih s' _ (upd offs b (offs b + 1)) (upd e b (offs b + 1)) cur rest it (by omega) hu.holds
        (hk.perm hu.perm) ?_ ?_ ?_) ?_
      · refine ⟨hz, hi.curlt, fun b' g => by rw [upd_ne (by omega)]; exact hi.below b' g, fun b' g1 g2 => ?_,
          hi.pw, hi.ne, hi.used, hi.all⟩
        by_cases eb : b' = b
        · rw [upd_eq eb, upd_eq eb]
        · rw [upd_ne eb, upd_ne eb]; exact hi.above b' g1 g2
      · rw [upd_ne (by omega)]; exact hit
      · rw [upd_ne (by omega)]; exact hlt
      · rintro _ s'' ⟨v', hu', h⟩
        exact ⟨v', hu.trans hu', h⟩

theorem zones_init {key : α → Option Nat} {r f l : Nat} {c : Nat → Nat} {v : Nat → α}
    (hc : ∀ b, c b = byteCount (byteOf key r) b (lst v f l)) : Zones (byteOf key r) f l c v (byteOffset c) :=
  ⟨fun _ _ => Nat.le_refl _, fun b _ => byteOffset_mono c (by omega), fun _ _ i h1 h2 => absurd h1 (by omega),
    fun b _ => hc b, fun _ _ _ => byteOf_lt _ _ _⟩

theorem flagPermute_spec {key : α → Option Nat} {r f l : Nat} {c : Nat → Nat} {s : St α} {v : Nat → α}
    (hh : Holds s.cell f l v) (hk : KeysOn key f l v)
    (hc : ∀ b, c b = byteCount (byteOf key r) b (lst v f l)) :
    wp (flagPermute key r f l c) (fun _ s' => ∃ v', Upd f l s s' v v' ∧ Blocks (byteOf key r) f c v' ∧
        ∀ b, b < 256 → c b = byteCount (byteOf key r) b (lst v' f l)) s := by
  have hz := zones_init (key := key) (r := r) hc
  have hun : ∀ b, b < 256 → c b = 0 → byteOffset c b = byteOffset c (b + 1) := fun b hb h => FlagInv.unused hz hb h
  have hu : ∀ b, b ∈ usedBytes c ↔ b < 256 ∧ c b ≠ 0 := fun b => mem_usedBytes
  have hp := usedBytes_pairwise c
  unfold flagPermute
  split
  · rename_i cur b rest e
    rw [e] at hu hp
    have hcur := (hu cur).1 (by simp)
    refine flagLoop_spec (unplaced c (byteOffset c)) s v (byteOffset c) (byteOffset c) cur (b :: rest) f rfl hh hk ?_ ?_ ?_
    · have hp1 := List.pairwise_cons.1 hp
      refine ⟨hz, hcur.1, fun b' h => ?_, fun _ _ _ => rfl, hp, by simp, fun b' h => (hu b').1 (List.mem_cons_of_mem _ h), ?_⟩
      · refine hun b' (by omega) ?_
        by_contra hn
        have := (hu b').2 ⟨by omega, hn⟩
        rcases List.mem_cons.1 this with g | g
        · omega
        · have := hp1.1 b' g; omega
      · intro b' h1 h2 h3
        rcases List.mem_cons.1 ((hu b').2 ⟨h2, h3⟩) with g | g
        · omega
        · exact g
    · have : byteOffset c cur = 0 := by
        have h0 : ∀ n, n ≤ cur → byteOffset c n = 0 := by
          intro n
          induction n with
          | zero => intro _; rfl
          | succ n ih =>
            intro hn
            rw [byteOffset, ih (by omega)]
            by_contra hne
            have := (hu n).2 ⟨by omega, by omega⟩
            rcases List.mem_cons.1 this with g | g
            · omega
            · have := (List.pairwise_cons.1 hp).1 n g; omega
        exact h0 cur (Nat.le_refl _)
      omega
    · rw [byteOffset]; omega
  · rename_i hn
    refine wp_pure ⟨v, Upd.refl hh, ?_, fun b _ => hc b⟩
    cases e : usedBytes c with
    | nil =>
      refine hz.blocks 0 fun b hb _ => hun b hb ?_
      by_contra h
      have := (hu b).2 ⟨hb, h⟩
      rw [e] at this
      simp at this
    | cons b0 t =>
      cases t with
      | nil =>
        refine hz.blocks b0 fun b hb hne => hun b hb ?_
        by_contra h
        have := (hu b).2 ⟨hb, h⟩
        rw [e] at this
        simp at this
        exact hne this
      | cons b1 t => exact absurd e (hn b0 b1 t)

/-! ### `ska_byte_sort` -/

theorem skaScatter_spec {key : α → Option Nat} {r f l : Nat} {c : Nat → Nat} {p : Nat} (hp : p < 256) :
    ∀ (n : Nat) (s : St α) (v : Nat → α) (offs : Nat → Nat) (it : Nat), Holds s.cell f l v → KeysOn key f l v →
    Zones (byteOf key r) f l c v offs → f + offs p ≤ it → it + n = f + byteOffset c (p + 1) →
    wp (skaScatter key r f it n offs) (fun offs' s' => ∃ v', Upd f l s s' v v' ∧
      Zones (byteOf key r) f l c v' offs' ∧ (∀ b, offs b ≤ offs' b) ∧ unplaced c offs' + n = unplaced c offs) s := by
  intro n
  induction n with
  | zero =>
    intro s v offs it hh hk hz _ _
    exact wp_pure ⟨v, Upd.refl hh, hz, fun _ => Nat.le_refl _, rfl⟩
  | succ n ih =>
    intro s v offs it hh hk hz h1 h2
    have hcl := hz.le hp
    have hlo := hz.lo p hp
    rw [skaScatter]
    apply wp_bind
    refine wp_currentByte hh hk (by omega) (by omega) ?_
    have hnz : ∀ b, b < 256 → ¬ (byteOffset c b ≤ it - f ∧ it - f < offs b) := by
      intro b hb' ⟨a1, a2⟩
      have g1 := hz.hi b hb'
      have := byteOffset_block a1 (show it - f < byteOffset c (b + 1) by omega)
        (show byteOffset c p ≤ it - f by omega) (by omega)
      rw [this] at a2
      omega
    have hbl := hz.bound it (by omega) (by omega)
    have hroom := hz.room (p := it) (by omega) (by omega) (hnz _ hbl)
    have hz' := hz.put (p := it) (by omega) (by omega) hnz
    have hd' := unplaced_upd hbl hroom
    have hle := hz.le hbl
    generalize hbe : byteOf key r (v it) = b at *
    apply wp_bind
    refine wp_swap hh ⟨by omega, by omega⟩ ⟨by omega, by omega⟩ fun s' hu => ?_
    have hoff : upd offs b (offs b + 1) p ≤ offs p + 1 := by
      by_cases e : p = b
      · rw [upd_eq e, e]
      · rw [upd_ne e]; omega
    refine wp_mono (ih s' _ _ (it + 1) hu.holds (hk.perm hu.perm) hz' (by omega) (by omega)) ?_
    rintro offs' s'' ⟨v', hu', hz'', hm, hun⟩
    refine ⟨v', hu.trans hu', hz'', fun b' => ?_, by omega⟩
    have := hm b'
    by_cases e : b' = b
    · rw [upd_eq e] at this; rw [e] at this ⊢; omega
    · rwa [upd_ne e] at this

/-- What a step of the partition does. -/
structure SkaStep (key : α → Option Nat) (r f l : Nat) (c : Nat → Nat) (s s' : St α) (v v' : Nat → α)
    (offs offs' : Nat → Nat) (n : Nat) : Prop where
  upd : Upd f l s s' v v'
  zones : Zones (byteOf key r) f l c v' offs'
  mono : ∀ b, offs b ≤ offs' b
  less : unplaced c offs' + n ≤ unplaced c offs

theorem SkaStep.trans {key : α → Option Nat} {r f l : Nat} {c : Nat → Nat} {s s' s'' : St α} {v v' v'' : Nat → α}
    {offs offs' offs'' : Nat → Nat} {m n : Nat} (h : SkaStep key r f l c s s' v v' offs offs' m)
    (h' : SkaStep key r f l c s' s'' v' v'' offs' offs'' n) : SkaStep key r f l c s s'' v v'' offs offs'' (m + n) :=
  ⟨h.upd.trans h'.upd, h'.zones, fun b => Nat.le_trans (h.mono b) (h'.mono b), by have := h.less; have := h'.less; omega⟩

/-- A full block stays full. -/
theorem SkaStep.full {key : α → Option Nat} {r f l : Nat} {c : Nat → Nat} {s s' : St α} {v v' : Nat → α}
    {offs offs' : Nat → Nat} {m b : Nat} (h : SkaStep key r f l c s s' v v' offs offs' m) (hb : b < 256)
    (hf : offs b = byteOffset c (b + 1)) : offs' b = byteOffset c (b + 1) := by
  have h1 := h.mono b
  have h2 := h.zones.hi b hb
  omega

theorem skaPred_spec {key : α → Option Nat} {r f l : Nat} {c : Nat → Nat} {p : Nat} (hp : p < 256) {s : St α}
    {v : Nat → α} {offs : Nat → Nat} (hh : Holds s.cell f l v) (hk : KeysOn key f l v)
    (hz : Zones (byteOf key r) f l c v offs) :
    wp (skaPred key r f (fun b => byteOffset c (b + 1)) offs p) (fun res s' => ∃ v',
      SkaStep key r f l c s s' v v' offs res.2 (if res.1 then 1 else 0) ∧
      (res.1 = false → res.2 p = byteOffset c (p + 1))) s := by
  have hhi := hz.hi p hp
  unfold skaPred
  by_cases e : offs p = byteOffset c (p + 1)
  · rw [if_pos e]
    exact wp_pure ⟨v, ⟨Upd.refl hh, hz, fun _ => Nat.le_refl _, Nat.le_refl _⟩, fun _ => e⟩
  · rw [if_neg e]
    apply wp_bind
    refine wp_mono (skaScatter_spec hp (byteOffset c (p + 1) - offs p) s v offs (f + offs p) hh hk hz (Nat.le_refl _)
      (by omega)) ?_
    rintro offs' s' ⟨v', hu, hz', hm, hun⟩
    refine wp_pure ⟨v', ⟨hu, hz', hm, ?_⟩, fun h => ?_⟩
    · simp only; split <;> omega
    · simpa using h

section
variable {key : α → Option Nat} {r f l : Nat} {c : Nat → Nat}

theorem skaUp_spec {parts : Nat → Nat} {j : Nat} : ∀ (d : Nat) (s : St α) (v : Nat → α) (offs : Nat → Nat) (i : Nat), j - i = d → i ≤ j →
    (∀ k, i ≤ k → k < j → parts k < 256) → Holds s.cell f l v → KeysOn key f l v → Zones (byteOf key r) f l c v offs →
    wp (skaUp key r f (fun b => byteOffset c (b + 1)) parts i j offs) (fun res s' => ∃ v',
      match res.1 with
      | none => SkaStep key r f l c s s' v v' offs res.2 (j - i)
      | some i' => i ≤ i' ∧ i' < j ∧ SkaStep key r f l c s s' v v' offs res.2 (i' - i) ∧
          res.2 (parts i') = byteOffset c (parts i' + 1)) s := by
  intro d
  induction d with
  | zero =>
    intro s v offs i hd hij hp hh hk hz
    rw [skaUp, if_pos (by omega)]
    exact wp_pure ⟨v, ⟨Upd.refl hh, hz, fun _ => Nat.le_refl _, by simp only; omega⟩⟩
  | succ d ih =>
    intro s v offs i hd hij hp hh hk hz
    rw [skaUp, if_neg (by omega)]
    apply wp_bind
    refine wp_mono (skaPred_spec (hp i (Nat.le_refl _) (by omega)) hh hk hz) ?_
    rintro ⟨b, offs'⟩ s' ⟨v', hs, hf⟩
    simp only
    cases b with
    | false =>
      rw [if_neg (by simp)]
      refine wp_pure ⟨v', Nat.le_refl _, by omega, ?_, hf rfl⟩
      simpa using hs
    | true =>
      rw [if_pos rfl]
      simp only [if_true] at hs
      refine wp_mono (ih s' v' offs' (i + 1) (by omega) (by omega) (fun k h1 h2 => hp k (by omega) h2) hs.upd.holds
        (hk.perm hs.upd.perm) hs.zones) ?_
      rintro ⟨o, offs''⟩ s'' ⟨v'', h⟩
      refine ⟨v'', ?_⟩
      cases o with
      | none =>
        simp only at h ⊢
        have := hs.trans h
        rwa [show 1 + (j - (i + 1)) = j - i by omega] at this
      | some i' =>
        simp only at h ⊢
        obtain ⟨h1, h2, h3, h4⟩ := h
        have := hs.trans h3
        rw [show 1 + (i' - (i + 1)) = i' - i by omega] at this
        exact ⟨by omega, h2, this, h4⟩

theorem skaDown_spec {parts : Nat → Nat} {i : Nat} : ∀ (d : Nat) (s : St α) (v : Nat → α) (offs : Nat → Nat) (j : Nat),
    j - i = d → i < j → (∀ k, i ≤ k → k < j → parts k < 256) → Holds s.cell f l v → KeysOn key f l v →
    Zones (byteOf key r) f l c v offs →
    wp (skaDown key r f (fun b => byteOffset c (b + 1)) parts i j offs) (fun res s' => ∃ v',
      match res.1 with
      | none => SkaStep key r f l c s s' v v' offs res.2 0 ∧
          ∀ k, i < k → k < j → res.2 (parts k) = byteOffset c (parts k + 1)
      | some j' => i < j' ∧ j' < j ∧ SkaStep key r f l c s s' v v' offs res.2 1 ∧
          ∀ k, j' < k → k < j → res.2 (parts k) = byteOffset c (parts k + 1)) s := by
  intro d
  induction d with
  | zero => intro s v offs j hd hij; omega
  | succ d ih =>
    intro s v offs j hd hij hp hh hk hz
    rw [skaDown]
    by_cases e : i = j - 1
    · rw [if_pos e]
      exact wp_pure ⟨v, ⟨Upd.refl hh, hz, fun _ => Nat.le_refl _, by simp only; omega⟩, fun k h1 h2 => by omega⟩
    · rw [if_neg e]
      apply wp_bind
      have hpj := hp (j - 1) (by omega) (by omega)
      refine wp_mono (skaPred_spec hpj hh hk hz) ?_
      rintro ⟨b, offs'⟩ s' ⟨v', hs, hf⟩
      simp only
      cases b with
      | true =>
        rw [if_pos rfl]
        exact wp_pure ⟨v', by omega, by omega, by simpa using hs, fun k h1 h2 => by omega⟩
      | false =>
        rw [if_neg (by simp)]
        have hs : SkaStep key r f l c s s' v v' offs offs' 0 := by simpa using hs
        refine wp_mono (ih s' v' offs' (j - 1) (by omega) (by omega) (fun k h1 h2 => hp k h1 (by omega)) hs.upd.holds
          (hk.perm hs.upd.perm) hs.zones) ?_
        rintro ⟨o, offs''⟩ s'' ⟨v'', h⟩
        refine ⟨v'', ?_⟩
        cases o with
        | none =>
          simp only at h ⊢
          refine ⟨by have := hs.trans h.1; simpa using this, fun k h1 h2 => ?_⟩
          by_cases ek : k = j - 1
          · rw [ek]; exact h.1.full hpj (hf rfl)
          · exact h.2 k h1 (by omega)
        | some j' =>
          simp only at h ⊢
          obtain ⟨h1, h2, h3, h4⟩ := h
          refine ⟨h1, by omega, by have := hs.trans h3; simpa using this, fun k g1 g2 => ?_⟩
          by_cases ek : k = j - 1
          · rw [ek]; exact h3.full hpj (hf rfl)
          · exact h4 k g1 (by omega)

theorem skaPartition_spec : ∀ (d : Nat) (s : St α) (v : Nat → α) (offs parts : Nat → Nat) (i j : Nat), j - i ≤ d →
    i ≤ j → (∀ k, i ≤ k → k < j → parts k < 256) → Holds s.cell f l v → KeysOn key f l v →
    Zones (byteOf key r) f l c v offs →
    wp (skaPartition key r f (fun b => byteOffset c (b + 1)) parts i j offs) (fun res s' => ∃ v',
      i ≤ res.1 ∧ res.1 ≤ j ∧ PermOn i j parts res.2.1 ∧ SkaStep key r f l c s s' v v' offs res.2.2 (res.1 - i) ∧
      ∀ k, res.1 ≤ k → k < j → res.2.2 (res.2.1 k) = byteOffset c (res.2.1 k + 1)) s := by
  intro d
  induction d with
  | zero =>
    intro s v offs parts i j hd hij hp hh hk hz
    rw [skaPartition]
    apply wp_bind
    rw [skaUp, if_pos (by omega)]
    refine wp_pure ?_
    exact wp_pure ⟨v, hij, Nat.le_refl _, PermOn.refl _ _ _, ⟨Upd.refl hh, hz, fun _ => Nat.le_refl _, by simp only; omega⟩,
      fun k h1 h2 => by omega⟩
  | succ d ih =>
    intro s v offs parts i j hd hij hp hh hk hz
    rw [skaPartition]
    apply wp_bind
    refine wp_mono (skaUp_spec _ s v offs i rfl hij hp hh hk hz) ?_
    rintro ⟨o, offs1⟩ s1 ⟨v1, h⟩
    cases o with
    | none =>
      simp only at h ⊢
      exact wp_pure ⟨v1, hij, Nat.le_refl _, PermOn.refl _ _ _, h, fun k h1 h2 => by omega⟩
    | some i' =>
      simp only at h ⊢
      obtain ⟨h1, h2, h3, h4⟩ := h
      apply wp_bind
      refine wp_mono (skaDown_spec _ s1 v1 offs1 j rfl h2 (fun k g1 g2 => hp k (by omega) g2) h3.upd.holds
        (hk.perm h3.upd.perm) h3.zones) ?_
      rintro ⟨o, offs2⟩ s2 ⟨v2, h⟩
      have hpi := hp i' h1 h2
      cases o with
      | none =>
        simp only at h ⊢
        refine wp_pure ⟨v2, h1, by omega, PermOn.refl _ _ _, h3.trans h.1, fun k g1 g2 => ?_⟩
        by_cases ek : k = i'
        · rw [ek]; exact h.1.full hpi h4
        · exact h.2 k (by omega) g2
      | some j' =>
        simp only at h ⊢
        obtain ⟨g1, g2, g3, g4⟩ := h
        have h34 := h3.trans g3
        have hpm : PermOn i j parts (swp parts i' j') := PermOn.swp ⟨by omega, by omega⟩ ⟨by omega, by omega⟩
        have hp' := hpm.forall (P := fun b => b < 256) hp
        refine wp_mono (ih s2 v2 offs2 (swp parts i' j') (i' + 1) j' (by omega) (by omega)
          (fun k a1 a2 => hp' k (by omega) (by omega)) h34.upd.holds (hk.perm h34.upd.perm) h34.zones) ?_
        rintro ⟨n, parts', offs'⟩ s3 ⟨v3, a1, a2, a3, a4, a5⟩
        simp only at a1 a2 a3 a4 a5 ⊢
        have hst := h34.trans a4
        rw [show i' - i + 1 + (n - (i' + 1)) = n - i by omega] at hst
        refine ⟨v3, by omega, by omega, hpm.trans (a3.mono (by omega) (by omega)), hst, fun k b1 b2 => ?_⟩
        by_cases ek : k < j'
        · exact a5 k b1 ek
        · rw [a3.out (by omega)]
          by_cases ek' : k = j'
          · rw [ek', swp_r rfl]
            exact a4.full hpi (g3.full hpi h4)
          · rw [swp_o (by omega) ek']
            exact a4.full (hp k (by omega) b2) (g4 k (by omega) b2)

theorem skaLoop_spec {N : Nat} : ∀ (d : Nat) (s : St α) (v : Nat → α) (offs parts : Nat → Nat) (n : Nat),
    unplaced c offs + n ≤ d → n ≤ N → (∀ k, k < N → parts k < 256) → Holds s.cell f l v → KeysOn key f l v →
    Zones (byteOf key r) f l c v offs → (∀ k, n ≤ k → k < N → offs (parts k) = byteOffset c (parts k + 1)) →
    (∀ b, b < 256 → c b ≠ 0 → ∃ k, k < N ∧ parts k = b) →
    wp (skaLoop key r f (fun b => byteOffset c (b + 1)) parts n offs) (fun parts' s' => ∃ v', Upd f l s s' v v' ∧
      PermOn 0 N parts parts' ∧ Blocks (byteOf key r) f c v' ∧
        ∀ b, b < 256 → c b = byteCount (byteOf key r) b (lst v' f l)) s := by
  intro d
  induction d with
  | zero =>
    intro s v offs parts n hd hn hp hh hk hz hf hall
    rw [skaLoop, if_neg (by omega)]
    refine wp_pure ⟨v, Upd.refl hh, PermOn.refl _ _ _, hz.blocks 256 fun b hb _ => ?_, hz.cnt⟩
    by_cases e : c b = 0
    · exact FlagInv.unused hz hb e
    · obtain ⟨k, h1, rfl⟩ := hall b hb e
      exact hf k (by omega) h1
  | succ d ih =>
    intro s v offs parts n hd hn hp hh hk hz hf hall
    rw [skaLoop]
    by_cases e : 1 < n
    · rw [if_pos e]
      apply wp_bind
      refine wp_mono (skaPartition_spec _ s v offs parts 0 n (Nat.le_refl _) (by omega)
        (fun k _ h => hp k (by omega)) hh hk hz) ?_
      rintro ⟨n', parts', offs'⟩ s' ⟨v', h1, h2, h3, h4, h5⟩
      simp only at h1 h2 h3 h4 h5 ⊢
      have hpm : PermOn 0 N parts parts' := h3.mono (Nat.le_refl _) hn
      have hless := h4.less
      refine wp_mono (ih s' v' offs' parts' n' (by omega) (by omega)
        (fun k hk' => hpm.forall (P := fun b => b < 256) (fun k _ h => hp k h) k (by omega) hk') h4.upd.holds
        (hk.perm h4.upd.perm) h4.zones ?_ ?_) ?_
      · intro k g1 g2
        by_cases ek : k < n
        · exact h5 k g1 ek
        · rw [h3.out (by omega)]
          exact h4.full (hp k g2) (hf k (by omega) g2)
      · intro b hb hc
        obtain ⟨k, g1, rfl⟩ := hall b hb hc
        obtain ⟨j, g2, g3, g4⟩ := hpm.symm.mem (Nat.zero_le k) g1
        exact ⟨j, g3, g4.symm⟩
      · rintro p s'' ⟨v'', a1, a2, a3⟩
        exact ⟨v'', h4.upd.trans a1, hpm.trans a2, a3⟩
    · rw [if_neg e]
      refine wp_pure ⟨v, Upd.refl hh, PermOn.refl _ _ _, hz.blocks (parts 0) fun b hb hne => ?_, hz.cnt⟩
      by_cases ec : c b = 0
      · exact FlagInv.unused hz hb ec
      · obtain ⟨k, h1, rfl⟩ := hall b hb ec
        refine hf k ?_ h1
        by_contra hk0
        exact hne (by rw [show k = 0 by omega])

end

/-! ### The recursion -/

/-- Sorting the ranges whose elements are all related by `P`. -/
def TiedW (lt : α → α → Bool) (P : α → α → Prop) (g : Nat → Nat → M α Unit) : Prop :=
  ∀ (s : St α) (f l : Nat) (v : Nat → α), f ≤ l → Holds s.cell f l v →
    (∀ i j, f ≤ i → i < l → f ≤ j → j < l → P (v i) (v j)) →
    wp (g f l) (fun _ s' => ∃ v', Upd f l s s' v v' ∧ SortedOn lt f l v') s

theorem tied_perm {P : α → α → Prop} {f l : Nat} {v v' : Nat → α} (hp : PermOn f l v v')
    (h : ∀ i j, f ≤ i → i < l → f ≤ j → j < l → P (v i) (v j)) :
    ∀ i j, f ≤ i → i < l → f ≤ j → j < l → P (v' i) (v' j) := by
  intro i j h1 h2 h3 h4
  obtain ⟨i', a1, a2, a3⟩ := hp.mem h1 h2
  obtain ⟨j', b1, b2, b3⟩ := hp.mem h3 h4
  rw [a3, b3]
  exact h i' j' a1 a2 b1 b2

theorem TiedW.mono {P P' : α → α → Prop} {g : Nat → Nat → M α Unit} (h : TiedW lt P g) (hp : ∀ x y, P' x y → P x y) :
    TiedW lt P' g := fun s f l v hfl hh ht => h s f l v hfl hh fun i j a b c d => hp _ _ (ht i j a b c d)

section
variable {B : α → Nat} {P : α → α → Prop} {f l : Nat} {c : Nat → Nat}

/-- One block is sorted. -/
theorem block_spec {sp : Nat → Nat → M α Unit} (hsp : TiedW lt (fun x y => P x y ∧ B x = B y) sp) {s : St α} {v : Nat → α}
    (hh : Holds s.cell f l v) (ht : ∀ i j, f ≤ i → i < l → f ≤ j → j < l → P (v i) (v j)) (hb : Blocks B f c v)
    (htot : byteOffset c 256 = l - f) {b : Nat} (hb256 : b < 256) :
    wp (sp (f + byteOffset c b) (f + byteOffset c (b + 1))) (fun _ s' => ∃ v', Upd f l s s' v v' ∧ Blocks B f c v' ∧
      SortedOn lt (f + byteOffset c b) (f + byteOffset c (b + 1)) v' ∧
      ∀ i, (i < f + byteOffset c b ∨ f + byteOffset c (b + 1) ≤ i) → v' i = v i) s := by
  have m1 := byteOffset_mono c (show b ≤ b + 1 by omega)
  have m2 := byteOffset_mono c (show b + 1 ≤ 256 by omega)
  have hin : ∀ i, f + byteOffset c b ≤ i → i < f + byteOffset c (b + 1) → B (v i) = b := fun i h1 h2 => by
    have := hb b hb256 (i - f) (by omega) (by omega)
    rwa [show f + (i - f) = i by omega] at this
  rcases Nat.lt_or_eq_of_le m1 with hlt | heq
  · refine wp_mono (hsp s _ _ v (by omega) (hh.sub (by omega) (by omega)) fun i j a1 a2 a3 a4 =>
      ⟨ht i j (by omega) (by omega) (by omega) (by omega), (hin i a1 a2).trans (hin j a3 a4).symm⟩) ?_
    rintro _ s' ⟨v', hu, hs⟩
    refine ⟨v', hu.widen hh (by omega) (by omega), fun b' hb' i h1 h2 => ?_, hs, fun i hi => hu.perm.out hi⟩
    by_cases e : b' = b
    · rw [e] at h1 h2 ⊢
      exact hu.perm.forall (P := fun x => B x = b) hin _ (by omega) (by omega)
    · rw [hu.perm.out, hb b' hb' i h1 h2]
      by_contra hn
      exact e (byteOffset_block (c := c) (i := i) h1 h2 (by omega) (by omega))
  · refine wp_mono (hsp s _ _ v (by omega) (fun i h1 h2 => by omega) fun i j a1 a2 a3 a4 => by omega) ?_
    rintro _ s' ⟨v', hu, hs⟩
    have he : ∀ i, v' i = v i := fun i => hu.perm.out (by omega)
    have hcell : ∀ i, s'.cell i = s.cell i := fun i => hu.frame.cell i (by omega)
    refine ⟨v', ⟨fun i h1 h2 => by rw [hcell, hh i h1 h2, he], ⟨fun i _ => he i, by rw [lst_congr (fun i _ _ => he i)]⟩, ?_⟩, fun b' hb' i h1 h2 => by rw [he, hb b' hb' i h1 h2], hs,
      fun i _ => he i⟩
    exact ⟨fun i _ => hcell i, hu.frame.brk⟩


/-- The elements of a block are sorted. -/
def BytesSorted (lt : α → α → Bool) (f : Nat) (c : Nat → Nat) (v : Nat → α) (b : Nat) : Prop :=
  SortedOn lt (f + byteOffset c b) (f + byteOffset c (b + 1)) v

theorem block_step {sp : Nat → Nat → M α Unit} (hsp : TiedW lt (fun x y => P x y ∧ B x = B y) sp) {s : St α} {v : Nat → α}
    (hh : Holds s.cell f l v) (ht : ∀ i j, f ≤ i → i < l → f ≤ j → j < l → P (v i) (v j)) (hb : Blocks B f c v)
    (htot : byteOffset c 256 = l - f) {b : Nat} (hb256 : b < 256) :
    wp (sp (f + byteOffset c b) (f + byteOffset c (b + 1))) (fun _ s' => ∃ v', Upd f l s s' v v' ∧ Blocks B f c v' ∧
      BytesSorted lt f c v' b ∧ ∀ b', BytesSorted lt f c v b' → BytesSorted lt f c v' b') s := by
  refine wp_mono (block_spec hsp hh ht hb htot hb256) ?_
  rintro _ s' ⟨v', h1, h2, h3, h4⟩
  refine ⟨v', h1, h2, h3, fun b' hs => ?_⟩
  by_cases e : b' = b
  · rw [e]; exact h3
  · intro i j a1 a2 a3
    have hout : ∀ k, f + byteOffset c b' ≤ k → k < f + byteOffset c (b' + 1) → v' k = v k := fun k g1 g2 => h4 k (by
      by_contra hn
      exact e (byteOffset_block (c := c) (i := k - f) (by omega) (by omega) (by omega) (by omega)))
    rw [hout i a1 (by omega), hout j (by omega) a3]
    exact hs i j a1 a2 a3

theorem blocks_sorted {v : Nat → α} (ht : ∀ i j, f ≤ i → i < l → f ≤ j → j < l → P (v i) (v j)) (hb : Blocks B f c v)
    (htot : byteOffset c 256 = l - f) (hs : ∀ b, b < 256 → BytesSorted lt f c v b)
    (hx : ∀ x y, P x y → B x < B y → lt y x = false) : SortedOn lt f l v := by
  intro i j h1 h2 h3
  obtain ⟨bi, a1, a2, a3⟩ := byteOffset_find c (i := i - f) 256 (by omega)
  obtain ⟨bj, b1, b2, b3⟩ := byteOffset_find c (i := j - f) 256 (by omega)
  have ei := hb bi a1 (i - f) a2 a3
  have ej := hb bj b1 (j - f) b2 b3
  rw [show f + (i - f) = i by omega] at ei
  rw [show f + (j - f) = j by omega] at ej
  rcases Nat.lt_trichotomy bi bj with h | h | h
  · exact hx _ _ (ht i j h1 (by omega) (by omega) h3) (by omega)
  · exact hs bi a1 i j (by omega) h2 (by rw [h]; omega)
  · have := byteOffset_mono c (show bj + 1 ≤ bi by omega)
    omega

theorem flagParts_spec {sp : Nat → Nat → M α Unit} (hsp : TiedW lt (fun x y => P x y ∧ B x = B y) sp)
    (htot : byteOffset c 256 = l - f) : ∀ (bs : List Nat) (lo : Nat) (s : St α) (v : Nat → α), Holds s.cell f l v →
    (∀ i j, f ≤ i → i < l → f ≤ j → j < l → P (v i) (v j)) → Blocks B f c v → bs.Pairwise (· < ·) →
    (∀ b ∈ bs, b < 256 ∧ lo ≤ b) → (∀ b, lo ≤ b → b < 256 → c b ≠ 0 → b ∈ bs) →
    (∀ b, b < 256 → b ∉ bs → BytesSorted lt f c v b) →
    wp (flagParts sp f (fun b => byteOffset c (b + 1)) (byteOffset c lo) bs) (fun _ s' => ∃ v', Upd f l s s' v v' ∧
      Blocks B f c v' ∧ ∀ b, b < 256 → BytesSorted lt f c v' b) s := by
  intro bs
  induction bs with
  | nil =>
    intro lo s v hh ht hb _ _ _ hs
    exact wp_pure ⟨v, Upd.refl hh, hb, fun b hb => hs b hb (by simp)⟩
  | cons b bs ih =>
    intro lo s v hh ht hb hpw hmem hall hs
    obtain ⟨hb256, hlo⟩ := hmem b (by simp)
    obtain ⟨hp1, hp2⟩ := List.pairwise_cons.1 hpw
    have hst : ∀ n, lo + n ≤ b → byteOffset c (lo + n) = byteOffset c lo := by
      intro n
      induction n with
      | zero => intro _; rfl
      | succ n ihn =>
        intro hn
        have := ihn (by omega)
        have e : c (lo + n) = 0 := by
          by_contra h
          rcases List.mem_cons.1 (hall (lo + n) (by omega) (by omega) h) with g | g
          · omega
          · have := hp1 _ g; omega
        rw [← Nat.add_assoc, byteOffset, this, e, Nat.add_zero]
    have hst' := hst (b - lo) (by omega)
    rw [show lo + (b - lo) = b by omega] at hst'
    rw [flagParts]
    apply wp_bind
    rw [← hst']
    refine wp_mono (block_step hsp hh ht hb htot hb256) ?_
    rintro _ s1 ⟨v1, h1, h2, h3, h4⟩
    refine wp_mono (ih (b + 1) s1 v1 h1.holds (tied_perm h1.perm ht) h2 hp2 ?_ ?_ ?_) ?_
    · intro x hx
      exact ⟨(hmem x (by simp [hx])).1, hp1 x hx⟩
    · intro x g1 g2 g3
      rcases List.mem_cons.1 (hall x (by omega) g2 g3) with g | g
      · omega
      · exact g
    · intro x g1 g2
      by_cases e : x = b
      · rw [e]; exact h3
      · exact h4 x (hs x g1 (by simp [e, g2]))
    · rintro _ s2 ⟨v2, g1, g2⟩
      exact ⟨v2, h1.trans g1, g2⟩

theorem skaParts_spec {sp : Nat → Nat → M α Unit} (hsp : TiedW lt (fun x y => P x y ∧ B x = B y) sp)
    (htot : byteOffset c 256 = l - f) {parts : Nat → Nat} : ∀ (n : Nat) (s : St α) (v : Nat → α), Holds s.cell f l v →
    (∀ i j, f ≤ i → i < l → f ≤ j → j < l → P (v i) (v j)) → Blocks B f c v → (∀ k, k < n → parts k < 256) →
    (∀ b, b < 256 → (∀ k, k < n → parts k ≠ b) → BytesSorted lt f c v b) →
    wp (skaParts sp f c parts n) (fun _ s' => ∃ v', Upd f l s s' v v' ∧
      Blocks B f c v' ∧ ∀ b, b < 256 → BytesSorted lt f c v' b) s := by
  intro n
  induction n with
  | zero =>
    intro s v hh ht hb _ hs
    exact wp_pure ⟨v, Upd.refl hh, hb, fun b hb => hs b hb (fun k hk => by omega)⟩
  | succ n ih =>
    intro s v hh ht hb hp hs
    rw [skaParts]
    apply wp_bind
    refine wp_mono (block_step hsp hh ht hb htot (hp n (by omega))) ?_
    rintro _ s1 ⟨v1, h1, h2, h3, h4⟩
    refine wp_mono (ih s1 v1 h1.holds (tied_perm h1.perm ht) h2 (fun k hk => hp k (by omega)) ?_) ?_
    · intro b hb256 hne
      by_cases e : parts n = b
      · rw [← e]; exact h3
      · refine h4 b (hs b hb256 fun k hk => ?_)
        by_cases ek : k = n
        · rw [ek]; exact e
        · exact hne k (by omega)
    · rintro _ s2 ⟨v2, g1, g2⟩
      exact ⟨v2, h1.trans g1, g2⟩

/-- A block without elements. -/
theorem blockSorted_empty {v : Nat → α} {b : Nat} (h : c b = 0) : BytesSorted lt f c v b := by
  intro i j h1 h2 h3
  rw [byteOffset, h] at h3
  omega

end

/-- What a sorter by one byte needs. -/
structure ByteOK (lt : α → α → Bool) (P : α → α → Prop) (key : α → Option Nat) (r : Nat) (more : Bool)
    (sp : Nat → Nat → M α Unit) : Prop where
  dom : ∀ x y, P x y → ∃ k, key x = some k
  cross : ∀ x y, P x y → byteOf key r x < byteOf key r y → lt y x = false
  deeper : more = true → TiedW lt (fun x y => P x y ∧ byteOf key r x = byteOf key r y) sp
  done : more = false → ∀ x y, P x y → byteOf key r x = byteOf key r y → lt y x = false

section
variable {P : α → α → Prop} {key : α → Option Nat} {r : Nat} {more : Bool} {sp : Nat → Nat → M α Unit}

theorem ByteOK.keys (h : ByteOK lt P key r more sp) {f l : Nat} {v : Nat → α}
    (ht : ∀ i j, f ≤ i → i < l → f ≤ j → j < l → P (v i) (v j)) : KeysOn key f l v :=
  fun i h1 h2 => h.dom _ _ (ht i i h1 h2 h1 h2)

theorem ByteOK.all (h : ByteOK lt P key r more sp) {f l : Nat} {v : Nat → α} {c : Nat → Nat}
    (ht : ∀ i j, f ≤ i → i < l → f ≤ j → j < l → P (v i) (v j)) (hb : Blocks (byteOf key r) f c v)
    (htot : byteOffset c 256 = l - f) (hm : more = false) : SortedOn lt f l v := by
  refine blocks_sorted ht hb htot (fun b hb256 i j h1 h2 h3 => ?_) h.cross
  have m := byteOffset_mono c (show b + 1 ≤ 256 by omega)
  refine h.done hm _ _ (ht i j (by omega) (by omega) (by omega) (by omega)) ?_
  have e1 := hb b hb256 (i - f) (by omega) (by omega)
  have e2 := hb b hb256 (j - f) (by omega) (by omega)
  rw [show f + (i - f) = i by omega] at e1
  rw [show f + (j - f) = j by omega] at e2
  rw [e1, e2]

theorem americanFlagSort_spec (h : ByteOK lt P key r more sp) : TiedW lt P (americanFlagSort sp more key r) := by
  intro s f l v hfl hh ht
  have hk := h.keys ht
  unfold americanFlagSort
  apply wp_bind
  refine wp_mono (countBytes_spec hh hk _ f _ rfl (Nat.le_refl _) hfl) ?_
  rintro c s0 ⟨e0, hc⟩
  subst e0
  simp only [Nat.zero_add] at hc
  have htot := (zones_init (key := key) (r := r) hc).total
  apply wp_bind
  refine wp_mono (flagPermute_spec hh hk hc) ?_
  rintro _ s1 ⟨v1, h1, h2, _⟩
  have ht1 := tied_perm h1.perm ht
  cases hm : more with
  | false => exact wp_pure ⟨v1, h1, h.all ht1 h2 htot hm⟩
  | true =>
    rw [if_pos rfl]
    refine wp_mono (flagParts_spec (h.deeper hm) htot (usedBytes c) 0 s1 v1 h1.holds ht1 h2 (usedBytes_pairwise c) ?_ ?_ ?_) ?_
    · exact fun b hb => ⟨(mem_usedBytes.1 hb).1, Nat.zero_le _⟩
    · exact fun b _ hb hc => mem_usedBytes.2 ⟨hb, hc⟩
    · refine fun b hb hn => blockSorted_empty ?_
      by_contra hc0
      exact hn (mem_usedBytes.2 ⟨hb, hc0⟩)
    · rintro _ s2 ⟨v2, g1, g2, g3⟩
      exact ⟨v2, h1.trans g1, blocks_sorted (tied_perm g1.perm ht1) g2 htot g3 h.cross⟩

theorem skaByteSort_spec (h : ByteOK lt P key r more sp) : TiedW lt P (skaByteSort sp more key r) := by
  intro s f l v hfl hh ht
  have hk := h.keys ht
  unfold skaByteSort
  apply wp_bind
  refine wp_mono (countBytes_spec hh hk _ f _ rfl (Nat.le_refl _) hfl) ?_
  rintro c s0 ⟨e0, hc⟩
  subst e0
  simp only [Nat.zero_add] at hc
  have hz := zones_init (key := key) (r := r) hc
  have htot := hz.total
  have hget : ∀ k, k < (usedBytes c).length → (usedBytes c).getD k 0 ∈ usedBytes c := by
    intro k hk
    rw [show (usedBytes c).getD k 0 = (usedBytes c)[k] by simp [hk]]
    exact List.getElem_mem hk
  have hp : ∀ k, k < (usedBytes c).length → (usedBytes c).getD k 0 < 256 := fun k hk => (mem_usedBytes.1 (hget k hk)).1
  have hall : ∀ b, b < 256 → c b ≠ 0 → ∃ k, k < (usedBytes c).length ∧ (usedBytes c).getD k 0 = b := by
    intro b hb hc0
    obtain ⟨k, hk, e⟩ := List.getElem_of_mem (mem_usedBytes.2 ⟨hb, hc0⟩)
    exact ⟨k, hk, by simp [hk, e]⟩
  apply wp_bind
  refine wp_mono (skaLoop_spec (N := (usedBytes c).length) _ _ v (byteOffset c) _ _ (Nat.le_refl _) (Nat.le_refl _) hp hh hk hz
    (fun k h1 h2 => by omega) hall) ?_
  rintro parts s1 ⟨v1, h1, hpm, h2, _⟩
  have ht1 := tied_perm h1.perm ht
  cases hm : more with
  | false => exact wp_pure ⟨v1, h1, h.all ht1 h2 htot hm⟩
  | true =>
    rw [if_pos rfl]
    refine wp_mono (skaParts_spec (h.deeper hm) htot _ s1 v1 h1.holds ht1 h2 ?_ ?_) ?_
    · exact fun k hk => hpm.forall (P := fun b => b < 256) (fun k _ hk => hp k hk) k (Nat.zero_le _) hk
    · refine fun b hb hn => blockSorted_empty ?_
      by_contra hc0
      obtain ⟨k, a1, a2⟩ := hall b hb hc0
      obtain ⟨j, b1, b2, b3⟩ := hpm.symm.mem (Nat.zero_le k) a1
      exact hn j b2 (by rw [← b3]; exact a2)
    · rintro _ s2 ⟨v2, g1, g2, g3⟩
      exact ⟨v2, h1.trans g1, blocks_sorted (tied_perm g1.perm ht1) g2 htot g3 h.cross⟩

end
end CppSort
