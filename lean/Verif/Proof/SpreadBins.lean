import Verif.Model.Spread
import Verif.Proof.SkaBytes
/-
The bins of spreadsort: the loops that put the elements in their bins.
-/
set_option autoImplicit false

namespace CppSort
variable {α : Type}

/-- The blocks of the bins are disjoint parts of the range. -/
structure BinRgn (n f l : Nat) (lo hi : Nat → Nat) : Prop where
  sub : ∀ b, b < n → f ≤ lo b ∧ lo b ≤ hi b ∧ hi b ≤ l
  disj : ∀ b b' i, b < n → b' < n → lo b ≤ i → i < hi b → lo b' ≤ i → i < hi b' → b = b'

/-- The elements in front of the current position of each bin belong to it. -/
structure BinZones (B : α → Nat) (n f l : Nat) (lo hi : Nat → Nat) (v : Nat → α) (cur : Nat → Nat) : Prop where
  ge : ∀ b, b < n → lo b ≤ cur b
  le : ∀ b, b < n → cur b ≤ hi b
  mem : ∀ b, b < n → ∀ i, lo b ≤ i → i < cur b → B (v i) = b
  cnt : ∀ b, b < n → hi b - lo b = byteCount B b (lst v f l)
  bound : ∀ i, f ≤ i → i < l → B (v i) < n

/-- The number of elements that have not been put in their bins. -/
def binsLeft (n : Nat) (hi cur : Nat → Nat) : Nat := byteOffset (fun b => hi b - cur b) n

theorem binsLeft_upd {n : Nat} {hi cur : Nat → Nat} {b : Nat} (hb : b < n) (h : cur b < hi b) :
    binsLeft n hi (upd cur b (cur b + 1)) + 1 = binsLeft n hi cur := by
  unfold binsLeft
  have := byteOffset_upd (fun b => hi b - cur b) b (hi b - (cur b + 1)) n hb
  have e : (fun b' => hi b' - upd cur b (cur b + 1) b') = upd (fun b => hi b - cur b) b (hi b - (cur b + 1)) := by
    funext b'
    by_cases eb : b' = b
    · rw [upd_eq eb, upd_eq eb, eb]
    · rw [upd_ne eb, upd_ne eb]
  rw [e]
  omega

attribute [irreducible] binsLeft

theorem upd_comm {β : Type} (g : Nat → β) {a b : Nat} (x y : β) (h : a ≠ b) :
    upd (upd g a x) b y = upd (upd g b y) a x := by
  funext c
  by_cases h1 : c = a
  · rw [upd_ne (by omega), upd_eq h1, upd_eq h1]
  · by_cases h2 : c = b
    · rw [upd_eq h2, upd_ne h1, upd_eq h2]
    · rw [upd_ne h2, upd_ne h1, upd_ne h1, upd_ne h2]

theorem upd_upd {β : Type} (g : Nat → β) (a : Nat) (x y : β) : upd (upd g a x) a y = upd g a y := by
  funext c
  by_cases h1 : c = a
  · rw [upd_eq h1, upd_eq h1]
  · rw [upd_ne h1, upd_ne h1, upd_ne h1]

theorem upd_self {β : Type} (g : Nat → β) (a : Nat) : upd g a (g a) = g := by
  funext c
  by_cases h1 : c = a
  · rw [upd_eq h1, h1]
  · rw [upd_ne h1]

section
variable {B : α → Nat} {n f l : Nat} {lo hi : Nat → Nat} {v : Nat → α} {cur : Nat → Nat}

/-- There is room in the bin of an element that is not in place. -/
theorem BinZones.room (h : BinZones B n f l lo hi v cur) (hr : BinRgn n f l lo hi) {p : Nat} (h1 : f ≤ p) (h2 : p < l)
    (hp : ¬ (lo (B (v p)) ≤ p ∧ p < cur (B (v p)))) : cur (B (v p)) < hi (B (v p)) := by
  have hb := h.bound p h1 h2
  generalize e : B (v p) = b at *
  have hlo := h.ge b hb
  have hhi := h.le b hb
  obtain ⟨r1, r2, r3⟩ := hr.sub b hb
  by_contra hn
  have hc := h.cnt b hb
  have hm : ∀ m n, f ≤ m → m ≤ n → n ≤ l → byteCount B b (lst v f l) =
      byteCount B b (lst v f m) + byteCount B b (lst v m n) + byteCount B b (lst v n l) := by
    intro m n a1 a2 a3
    unfold byteCount
    rw [lst_append (m := m) (by omega) (by omega : m ≤ l), lst_append (m := n) (f := m) a2 a3, List.countP_append,
      List.countP_append]
    omega
  have hsplit := hm (lo b) (cur b) (by omega) (by omega) (by omega)
  have hmid : byteCount B b (lst v (lo b) (cur b)) = cur b - lo b := by
    unfold byteCount
    rw [List.countP_eq_length.2, lst_length]
    intro x hx
    obtain ⟨i, a1, a2, rfl⟩ := mem_lst.1 hx
    simp [h.mem b hb i a1 a2]
  have hpos : ∀ m n, m ≤ p → p < n → 0 < byteCount B b (lst v m n) := by
    intro m n a1 a2
    unfold byteCount
    rw [List.countP_pos_iff]
    exact ⟨v p, mem_lst.2 ⟨p, a1, a2, rfl⟩, by simp [e]⟩
  by_cases hlt : p < lo b
  · have := hpos f (lo b) h1 (by omega)
    omega
  · have := hpos (cur b) l (by omega) h2
    omega

/-- An element of the bin that is being filled is put in its place. -/
theorem BinZones.step (h : BinZones B n f l lo hi v cur) (hr : BinRgn n f l lo hi) {u p : Nat} (hu : u < n) (hp : cur u = p)
    (hlt : p < hi u) (hne : B (v p) ≠ u) :
    B (v p) < n ∧ lo (B (v p)) ≤ cur (B (v p)) ∧ cur (B (v p)) < hi (B (v p)) ∧
      BinZones B n f l lo hi (swp v p (cur (B (v p)))) (upd cur (B (v p)) (cur (B (v p)) + 1)) := by
  have hlu := h.ge u hu
  have hsu := hr.sub u hu
  have h1 : f ≤ p := by omega
  have h2 : p < l := by omega
  have hz : ∀ b, b < n → ¬ (lo b ≤ p ∧ p < cur b) := by
    rintro b hb ⟨a1, a2⟩
    have := h.le b hb
    have e := hr.disj b u p hb hu a1 (by omega) (by omega) hlt
    rw [e] at a2
    omega
  have hb := h.bound p h1 h2
  have hroom := h.room hr h1 h2 (hz _ hb)
  have hin := hr.sub _ hb
  have hlb := h.ge _ hb
  refine ⟨hb, hlb, hroom, ?_⟩
  generalize e : B (v p) = b at *
  have hperm : PermOn f l v (swp v p (cur b)) := PermOn.swp ⟨h1, h2⟩ ⟨by omega, by omega⟩
  constructor
  · intro b' hb'
    by_cases eb : b' = b
    · rw [upd_eq eb, eb]; omega
    · rw [upd_ne eb]; exact h.ge b' hb'
  · intro b' hb'
    by_cases eb : b' = b
    · rw [upd_eq eb, eb]; omega
    · rw [upd_ne eb]; exact h.le b' hb'
  · intro b' hb' i a1 a2
    have hnp : i < cur b' → i ≠ p := fun hi hc => hz b' hb' ⟨by omega, by omega⟩
    by_cases eb : b' = b
    · rw [upd_eq eb] at a2
      by_cases ei : i = cur b
      · rw [swp_r ei, e, eb]
      · have hi : i < cur b' := by rw [eb]; omega
        rw [swp_o (hnp hi) ei]
        exact h.mem b' hb' i a1 hi
    · rw [upd_ne eb] at a2
      have hi' := h.le b' hb'
      rw [swp_o (hnp a2)]
      · exact h.mem b' hb' i a1 a2
      · intro hc
        exact eb (hr.disj b' b i hb' hb a1 (by omega) (by omega) (by omega))
  · intro b' hb'
    rw [h.cnt b' hb']
    exact (hperm.2.countP_eq _).symm
  · exact hperm.forall (P := fun x => B x < n) h.bound

/-- An element is in its place already. -/
theorem BinZones.advance (h : BinZones B n f l lo hi v cur) {b : Nat} (hb : b < n) (h2 : cur b < hi b)
    (e : B (v (cur b)) = b) : BinZones B n f l lo hi v (upd cur b (cur b + 1)) := by
  refine ⟨fun b' hb' => ?_, fun b' hb' => ?_, fun b' hb' i a1 a2 => ?_, h.cnt, h.bound⟩
  · by_cases eb : b' = b
    · rw [upd_eq eb, eb]; have := h.ge b hb; omega
    · rw [upd_ne eb]; exact h.ge b' hb'
  · by_cases eb : b' = b
    · rw [upd_eq eb, eb]; omega
    · rw [upd_ne eb]; exact h.le b' hb'
  · by_cases eb : b' = b
    · rw [upd_eq eb] at a2
      by_cases ei : i = cur b
      · rw [ei, e, eb]
      · exact h.mem b' hb' i a1 (by rw [eb]; omega)
    · rw [upd_ne eb] at a2
      exact h.mem b' hb' i a1 a2

/-- The elements of a bin that is not full are not those of a full bin. -/
theorem BinZones.notFull (h : BinZones B n f l lo hi v cur) (hr : BinRgn n f l lo hi) {t p : Nat} (ht : t < n) (h1 : lo t ≤ p)
    (h2 : p < hi t) {b : Nat} (hb : b < n) (hbt : b ≠ t) (hfull : cur b = hi b) : B (v p) ≠ b := by
  intro e
  have hs := hr.sub t ht
  have := h.room hr (p := p) (by omega) (by omega) fun ⟨a1, a2⟩ => by
    rw [e] at a1 a2
    exact hbt (hr.disj b t p hb ht a1 (by omega) h1 h2)
  rw [e] at this
  omega

/-- When all the bins but one are full, all of them are. -/
theorem BinZones.blocks (h : BinZones B n f l lo hi v cur) (hr : BinRgn n f l lo hi) (b0 : Nat)
    (hf : ∀ b, b < n → b ≠ b0 → cur b = hi b) : ∀ b, b < n → ∀ i, lo b ≤ i → i < hi b → B (v i) = b := by
  intro b hb i h1 h2
  have hs := hr.sub b hb
  by_cases e : b = b0
  · by_contra hn
    have hb' := h.bound i (by omega) (by omega)
    exact h.notFull hr hb h1 h2 hb' hn (hf _ hb' fun hc => hn (hc.trans e.symm)) rfl
  · exact h.mem b hb i h1 (by rw [hf b hb e]; exact h2)

end

/-! ### Counting -/

/-- `bin` computes `B`, on elements that satisfy `P` and are not in the bins `K`. -/
def BinFn (B : α → Nat) (P : α → Prop) (K : Nat → Prop) (f l : Nat) (bin : Nat → M α Nat) : Prop :=
  ∀ (s : St α) (v : Nat → α) (p : Nat), Holds s.cell f l v → f ≤ p → p < l → P (v p) → ¬ K (B (v p)) →
    wp (bin p) (fun r s' => r = B (v p) ∧ s' = s) s

theorem countBins_spec {B : α → Nat} {P : α → Prop} {f l : Nat} {bin : Nat → M α Nat} (hbin : BinFn B P (fun _ => False) f l bin)
    {v : Nat → α} {s : St α} (hh : Holds s.cell f l v) (hP : ∀ i, f ≤ i → i < l → P (v i)) :
    ∀ (d it : Nat) (c : Nat → Nat), l - it = d → f ≤ it → it ≤ l →
      wp (countBins bin l it c) (fun c' s' => s' = s ∧ ∀ b, c' b = c b + byteCount B b (lst v it l)) s := by
  intro d
  induction d with
  | zero =>
    intro it c hd h1 h2
    rw [countBins, if_neg (by omega)]
    refine wp_pure ⟨rfl, fun b => ?_⟩
    rw [lst_nil (by omega)]
    rfl
  | succ d ih =>
    intro it c hd h1 h2
    rw [countBins, if_pos (by omega)]
    apply wp_bind
    refine wp_mono (hbin s v it hh h1 (by omega) (hP it h1 (by omega)) (fun h => h)) ?_
    rintro b s1 ⟨rfl, rfl⟩
    refine wp_mono (ih (it + 1) _ (by omega) (by omega) (by omega)) ?_
    rintro c' s' ⟨rfl, hc⟩
    refine ⟨rfl, fun b => ?_⟩
    rw [hc, lst_cons (show it < l by omega)]
    unfold byteCount
    rw [List.countP_cons]
    by_cases e : b = B (v it)
    · rw [upd_eq e, if_pos (by simp [e]), e]; try omega
    · rw [upd_ne e, if_neg (by simp; exact fun h => e h.symm)]; try omega

/-! ### The swaps -/

/-- What the swaps for one position of a bin do. -/
def SwapsFn (B : α → Nat) (P : α → Prop) (K : Nat → Prop) (n f l : Nat) (lo hi : Nat → Nat)
    (swaps : Nat → Nat → (Nat → Nat) → M α (Nat → Nat)) : Prop :=
  ∀ (s : St α) (v : Nat → α) (bins : Nat → Nat) (u p : Nat), Holds s.cell f l v → (∀ i, f ≤ i → i < l → P (v i)) → u < n → ¬ K u →
    p < hi u → (∀ b, b < n → K b → bins b = hi b) → BinZones B n f l lo hi v (upd bins u p) →
    wp (swaps u p bins) (fun bins' s' => ∃ (v' : Nat → α), Upd f l s s' v v' ∧ BinZones B n f l lo hi v' (upd bins' u p) ∧
      bins' u = bins u ∧ (∀ b, b < n → bins b ≤ bins' b) ∧ B (v' p) = u) s

section
variable {B : α → Nat} {P : α → Prop} {K : Nat → Prop} {n f l : Nat} {lo hi : Nat → Nat}

theorem notK {v : Nat → α} {cur : Nat → Nat} (h : BinZones B n f l lo hi v cur) (hr : BinRgn n f l lo hi)
    (hK : ∀ b, b < n → K b → cur b = hi b) {t p : Nat} (ht : t < n) (htK : ¬ K t) (h1 : lo t ≤ p) (h2 : p < hi t) :
    ¬ K (B (v p)) := by
  intro hk
  have hs := hr.sub t ht
  have hb := h.bound p (by omega) (by omega)
  exact h.notFull hr ht h1 h2 hb (fun e => htK (e ▸ hk)) (hK _ hb hk) rfl

theorem upd_full {u p : Nat} {bins : Nat → Nat} (hu : ¬ K u) (hK : ∀ b, b < n → K b → bins b = hi b) :
    ∀ b, b < n → K b → upd bins u p b = hi b := by
  intro b hb hk
  have e : b ≠ u := fun e => hu (e ▸ hk)
  rw [upd_ne e]
  exact hK b hb hk

theorem spreadSwap_spec (hr : BinRgn n f l lo hi) {bin : Nat → M α Nat} (hbin : BinFn B P K f l bin) :
    SwapsFn B P K n f l lo hi (spreadSwap bin) := by
  have main : ∀ (m : Nat) (s : St α) (v : Nat → α) (bins : Nat → Nat) (u p : Nat), binsLeft n hi (upd bins u p) ≤ m →
    Holds s.cell f l v → (∀ i, f ≤ i → i < l → P (v i)) → u < n → ¬ K u →
    p < hi u → (∀ b, b < n → K b → bins b = hi b) → BinZones B n f l lo hi v (upd bins u p) →
    wp (spreadSwap bin u p bins) (fun bins' s' => ∃ (v' : Nat → α), Upd f l s s' v v' ∧ BinZones B n f l lo hi v' (upd bins' u p) ∧
      bins' u = bins u ∧ (∀ b, b < n → bins b ≤ bins' b) ∧ B (v' p) = u) s := by
    intro m
    induction m with
    | zero =>
      intro s v bins u p hm hh hP hu huK hlt hK hz
      have := binsLeft_upd (n := n) (hi := hi) (cur := upd bins u p) hu (by rw [upd_eq rfl]; exact hlt)
      omega
    | succ m ih =>
      intro s v bins u p hm hh hP hu huK hlt hK hz
      have hsu := hr.sub u hu
      have hlu := hz.ge u hu
      rw [upd_eq rfl] at hlu
      have hnk := notK hz hr (upd_full huK hK) hu huK hlu hlt
      rw [spreadSwap]
      apply wp_bind
      refine wp_mono (hbin s v p hh (by omega) (by omega) (hP p (by omega) (by omega)) hnk) ?_
      rintro t s1 ⟨rfl, rfl⟩
      by_cases he : B (v p) = u
      · rw [if_pos he]
        exact wp_pure ⟨v, Upd.refl hh, hz, rfl, fun _ _ => Nat.le_refl _, he⟩
      · rw [if_neg he]
        obtain ⟨g1, g2, g3, g4⟩ := hz.step hr hu (upd_eq rfl) hlt he
        have hd := binsLeft_upd (n := n) (hi := hi) g1 g3
        generalize ht : B (v p) = t at *
        rw [upd_ne he] at g2 g3 g4 hd
        rw [upd_comm _ _ _ (fun h => he h.symm)] at g4 hd
        have hst := hr.sub t g1
        have hbp : bins t ≠ p := fun e => he (hr.disj t u p g1 hu (by omega) (by omega) hlu hlt)
        have hnkb := notK hz hr (upd_full huK hK) g1 hnk g2 g3
        have hK1 : ∀ b, b < n → K b → upd bins t (bins t + 1) b = hi b := upd_full hnk hK
        have hP1 : ∀ i, f ≤ i → i < l → P (swp v p (bins t) i) :=
          (PermOn.swp ⟨by omega, by omega⟩ ⟨by omega, by omega⟩ : PermOn f l v (swp v p (bins t))).forall hP
        apply wp_bind
        refine wp_mono (hbin _ v (bins t) hh (by omega) (by omega) (hP _ (by omega) (by omega)) hnkb) ?_
        rintro bb s2 ⟨rfl, rfl⟩
        have hmono1 : ∀ b, bins b ≤ upd bins t (bins t + 1) b := by
          intro b
          by_cases eb : b = t
          · rw [upd_eq eb, eb]; omega
          · rw [upd_ne eb]
        by_cases hbb : B (v (bins t)) ≠ u
        · rw [if_pos hbb]
          have hv1 : swp v p (bins t) p = v (bins t) := swp_l rfl
          obtain ⟨k1, k2, k3, k4⟩ := g4.step hr hu (upd_eq rfl) hlt (by rw [hv1]; exact hbb)
          have hd2 := binsLeft_upd (n := n) (hi := hi) k1 k3
          rw [hv1] at k1 k2 k3 k4 hd2
          generalize hb' : B (v (bins t)) = b' at *
          rw [upd_ne hbb] at k2 k3 k4 hd2
          rw [upd_comm _ _ _ (fun h => hbb h.symm)] at k4 hd2
          have hsb := hr.sub b' k1
          generalize hc : upd bins t (bins t + 1) b' = c at *
          have hcp : c ≠ p := fun e => hbb (hr.disj b' u p k1 hu (by omega) (by omega) hlu hlt)
          have hcb : c ≠ bins t := by
            by_cases e : b' = t
            · rw [upd_eq e] at hc; omega
            · intro hc'
              exact e (hr.disj b' t c k1 g1 k2 k3 (by omega) (by omega))
          apply wp_bind
          refine wp_moveOut hh (by omega) (by omega) fun s3 x3 f3 _ _ => ?_
          apply wp_bind
          refine wp_moveTo x3 (by omega) (by omega) (Ne.symm hcb) fun s4 x4 f4 _ _ => ?_
          apply wp_bind
          refine wp_moveTo x4 (by omega) (by omega) (Ne.symm hbp) fun s5 x5 f5 _ _ => ?_
          apply wp_bind
          refine wp_assign x5 ?_ fun s6 x6 f6 _ _ => ?_
          · rw [swp_r rfl, swp_r rfl]
          have hw : swp (swp v c (bins t)) (bins t) p = swp (swp v p (bins t)) p c := by
            funext i
            by_cases e1 : i = p
            · rw [swp_r e1, swp_l e1, swp_r rfl, swp_o hcp hcb]
            · by_cases e2 : i = bins t
              · rw [swp_l e2, swp_o e1 (by omega), swp_o (Ne.symm hcp) (Ne.symm hbp), swp_r e2]
              · by_cases e3 : i = c
                · rw [swp_o e2 e1, swp_l e3, swp_r e3, swp_l rfl]
                · rw [swp_o e2 e1, swp_o e3 e2, swp_o e1 e3, swp_o e1 e2]
          rw [hw] at x6
          have hp2 : PermOn f l v (swp (swp v p (bins t)) p c) :=
            (PermOn.swp ⟨by omega, by omega⟩ ⟨by omega, by omega⟩).trans (PermOn.swp ⟨by omega, by omega⟩ ⟨by omega, by omega⟩)
          have hu2 : Upd f l s2 s6 v (swp (swp v p (bins t)) p c) := ⟨x6, hp2, ((f3.trans f4).trans f5).trans f6⟩
          have hK2 : ∀ b, b < n → K b → upd (upd bins t (bins t + 1)) b' (c + 1) b = hi b := upd_full hnkb hK1
          refine wp_mono (ih s6 _ _ u p (by omega) x6 (hp2.forall hP) hu huK hlt hK2 k4) ?_
          rintro bins' s' ⟨v', q1, q2, q3, q4, q5⟩
          refine ⟨v', hu2.trans q1, q2, ?_, fun b hb => ?_, q5⟩
          · rw [q3, upd_ne (Ne.symm hbb), upd_ne (Ne.symm he)]
          · refine Nat.le_trans (hmono1 b) (Nat.le_trans ?_ (q4 b hb))
            by_cases eb : b = b'
            · rw [upd_eq eb, eb]; omega
            · rw [upd_ne eb]
        · rw [if_neg hbb]
          apply wp_bind
          refine wp_moveOut hh (by omega) (by omega) fun s3 x3 f3 _ _ => ?_
          apply wp_bind
          refine wp_moveTo x3 (by omega) (by omega) (Ne.symm hbp) fun s4 x4 f4 _ _ => ?_
          apply wp_bind
          refine wp_assign x4 ?_ fun s5 x5 f5 _ _ => ?_
          · rw [swp_r rfl]
          rw [swp_comm] at x5
          have hu2 : Upd f l s2 s5 v (swp v p (bins t)) :=
            ⟨x5, PermOn.swp ⟨by omega, by omega⟩ ⟨by omega, by omega⟩, (f3.trans f4).trans f5⟩
          refine wp_mono (ih s5 _ _ u p (by omega) x5 hP1 hu huK hlt hK1 g4) ?_
          rintro bins' s' ⟨v', q1, q2, q3, q4, q5⟩
          refine ⟨v', hu2.trans q1, q2, ?_, fun b hb => Nat.le_trans (hmono1 b) (q4 b hb), q5⟩
          rw [q3, upd_ne (Ne.symm he)]
  intro s v bins u p
  exact main _ s v bins u p (Nat.le_refl _)

/-- What filling a bin does. -/
theorem spreadBin_spec (hr : BinRgn n f l lo hi) {swaps : Nat → Nat → (Nat → Nat) → M α (Nat → Nat)}
    (hsw : SwapsFn B P K n f l lo hi swaps) : ∀ (m : Nat) (s : St α) (v : Nat → α) (bins : Nat → Nat) (u p : Nat), hi u - p = m →
    Holds s.cell f l v → (∀ i, f ≤ i → i < l → P (v i)) → u < n → ¬ K u → p ≤ hi u →
    (∀ b, b < n → K b → bins b = hi b) → BinZones B n f l lo hi v (upd bins u p) →
    wp (spreadBin swaps u (hi u) p bins) (fun bins' s' => ∃ (v' : Nat → α), Upd f l s s' v v' ∧
      BinZones B n f l lo hi v' bins' ∧ bins' u = hi u ∧ (∀ b, b < n → b ≠ u → bins b ≤ bins' b)) s := by
  intro m
  induction m with
  | zero =>
    intro s v bins u p hm hh hP hu huK hlt hK hz
    rw [spreadBin, if_neg (by omega)]
    rw [show p = hi u by omega] at hz
    exact wp_pure ⟨v, Upd.refl hh, hz, upd_eq rfl, fun b _ hb => by rw [upd_ne hb]⟩
  | succ m ih =>
    intro s v bins u p hm hh hP hu huK hlt hK hz
    rw [spreadBin, if_pos (by omega)]
    apply wp_bind
    refine wp_mono (hsw s v bins u p hh hP hu huK (by omega) hK hz) ?_
    rintro bins1 s1 ⟨v1, q1, q2, q3, q4, q5⟩
    have hz1 := q2.advance hu (by rw [upd_eq rfl]; omega) (by rw [upd_eq rfl]; exact q5)
    rw [upd_eq rfl, upd_upd] at hz1
    refine wp_mono (ih s1 v1 bins1 u (p + 1) (by omega) q1.holds (q1.perm.forall hP) hu huK (by omega) ?_ hz1) ?_
    · intro b hb hk
      have e : b ≠ u := fun e => huK (e ▸ hk)
      have h1 := q4 b hb
      have h2 := q2.le b hb
      rw [upd_ne e] at h2
      have := hK b hb hk
      omega
    · rintro bins' s' ⟨v', r1, r2, r3, r4⟩
      exact ⟨v', q1.trans r1, r2, r3, fun b hb e => Nat.le_trans (q4 b hb) (r4 b hb e)⟩

/-- What filling some bins does: those that were full remain so. -/
theorem spreadBin_full (hr : BinRgn n f l lo hi) {swaps : Nat → Nat → (Nat → Nat) → M α (Nat → Nat)}
    (hsw : SwapsFn B P K n f l lo hi swaps) {s : St α} {v : Nat → α} {bins : Nat → Nat} {u e : Nat} (he : e = hi u)
    (hh : Holds s.cell f l v) (hP : ∀ i, f ≤ i → i < l → P (v i)) (hu : u < n) (huK : ¬ K u)
    (hK : ∀ b, b < n → K b → bins b = hi b) (hz : BinZones B n f l lo hi v bins) :
    wp (spreadBin swaps u e (bins u) bins) (fun bins' s' => ∃ (v' : Nat → α), Upd f l s s' v v' ∧
      BinZones B n f l lo hi v' bins' ∧ bins' u = hi u ∧ (∀ b, b < n → bins b = hi b → bins' b = hi b)) s := by
  rw [he]
  refine wp_mono (spreadBin_spec hr hsw _ s v bins u (bins u) rfl hh hP hu huK (hz.le u hu) hK (by rw [upd_self]; exact hz)) ?_
  rintro bins' s' ⟨v', r1, r2, r3, r4⟩
  refine ⟨v', r1, r2, r3, fun b hb h => ?_⟩
  by_cases e : b = u
  · rw [e, r3]
  · have h1 := r4 b hb e
    have h2 := r2.le b hb
    omega

theorem spreadEnds_spec (hr : BinRgn n f l lo hi) {swaps : Nat → Nat → (Nat → Nat) → M α (Nat → Nat)}
    (hsw : SwapsFn B P K n f l lo hi swaps) {ends : Nat → Nat} : ∀ (us : List Nat) (s : St α) (v : Nat → α) (bins : Nat → Nat),
    Holds s.cell f l v → (∀ i, f ≤ i → i < l → P (v i)) → (∀ u ∈ us, u < n ∧ ¬ K u ∧ ends u = hi u) →
    (∀ b, b < n → K b → bins b = hi b) → BinZones B n f l lo hi v bins →
    wp (spreadEnds swaps ends us bins) (fun bins' s' => ∃ (v' : Nat → α), Upd f l s s' v v' ∧
      BinZones B n f l lo hi v' bins' ∧ (∀ b, b < n → (bins b = hi b ∨ b ∈ us) → bins' b = hi b)) s := by
  intro us
  induction us with
  | nil =>
    intro s v bins hh hP hus hK hz
    rw [spreadEnds]
    exact wp_pure ⟨v, Upd.refl hh, hz, fun b _ h => by simpa using h⟩
  | cons u us ih =>
    intro s v bins hh hP hus hK hz
    rw [spreadEnds]
    obtain ⟨h1, h2, h3⟩ := hus u (by simp)
    apply wp_bind
    refine wp_mono (spreadBin_full hr hsw h3 hh hP h1 h2 hK hz) ?_
    rintro bins1 s1 ⟨v1, q1, q2, q3, q4⟩
    refine wp_mono (ih s1 v1 bins1 q1.holds (q1.perm.forall hP) (fun x hx => hus x (by simp [hx]))
      (fun b hb hk => q4 b hb (hK b hb hk)) q2) ?_
    rintro bins' s' ⟨v', r1, r2, r3⟩
    refine ⟨v', q1.trans r1, r2, fun b hb h => r3 b hb ?_⟩
    rcases h with h | h
    · exact Or.inl (q4 b hb h)
    · rcases List.mem_cons.1 h with h | h
      · left; rw [h]; exact q3
      · exact Or.inr h

/-- The ends of the bins of a list, computed from the sizes. -/
def AccEnds (sizes hi : Nat → Nat) : List Nat → Nat → Prop
  | [], _ => True
  | u :: us, next => next + sizes u = hi u ∧ AccEnds sizes hi us (hi u)

theorem spreadBins_eq {swaps : Nat → Nat → (Nat → Nat) → M α (Nat → Nat)} {sizes hi : Nat → Nat} :
    ∀ (us : List Nat) (next : Nat) (bins : Nat → Nat), AccEnds sizes hi us next →
      spreadBins swaps sizes us next bins = spreadEnds swaps hi us bins := by
  intro us
  induction us with
  | nil => intro next bins _; rfl
  | cons u us ih =>
    intro next bins h
    rw [spreadBins, spreadEnds]
    rw [AccEnds] at h
    simp only [h.1]
    congr 1
    funext bins'
    exact ih _ _ h.2

end

end CppSort
