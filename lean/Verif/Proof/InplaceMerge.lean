import Verif.Proof.HalfMerge
set_option autoImplicit false

namespace CppSort
variable {α : Type} {lt : α → α → Bool}

/-! ### Splitting a merge at a cut -/

/-- After exchanging `[m1, m)` and `[m, m2)`, the two halves can be merged independently. -/
theorem cut_rotated (hlt : StrictWeak lt) {f m1 m m2 l : Nat} {v v' : Nat → α} (h1 : f ≤ m1)
    (h2 : m1 ≤ m) (h3 : m ≤ m2) (h4 : m2 ≤ l) (hs1 : SortedOn lt f m v) (hs2 : SortedOn lt m l v)
    (lo : ∀ i j, f ≤ i → i < m1 → m2 ≤ j → j < l → lt (v j) (v i) = false)
    (hi : ∀ i j, m1 ≤ i → i < m → m ≤ j → j < m2 → lt (v j) (v i) = true)
    (hr : Rotated m1 m m2 v v') :
    SPermOn lt f l v v' ∧ SortedOn lt f m1 v' ∧ SortedOn lt m1 (m1 + (m2 - m)) v' ∧
    SortedOn lt (m1 + (m2 - m)) m2 v' ∧ SortedOn lt m2 l v' ∧
    ∀ i j, f ≤ i → i < m1 + (m2 - m) → m1 + (m2 - m) ≤ j → j < l → lt (v' j) (v' i) = false := by
  obtain ⟨r1, r2, r3⟩ := hr
  refine ⟨(Rotated.sperm hlt h2 h3 ⟨r1, r2, r3⟩ hi).mono h1 h4, ?_, ?_, ?_, ?_, ?_⟩
  · intro i j a b c
    rw [r1 i (by omega), r1 j (by omega)]; exact hs1 i j a b (by omega)
  · intro i j a b c
    rw [r2 i (by omega) (by omega), r2 j (by omega) (by omega)]
    exact hs2 _ _ (by omega) (by omega) (by omega)
  · intro i j a b c
    rw [r3 i (by omega) (by omega), r3 j (by omega) (by omega)]
    exact hs1 _ _ (by omega) (by omega) (by omega)
  · intro i j a b c
    rw [r1 i (by omega), r1 j (by omega)]; exact hs2 i j (by omega) b c
  · intro i j a b c d
    by_cases hi' : i < m1 <;> by_cases hj : j < m2
    · rw [r1 i (by omega), r3 j (by omega) (by omega)]
      exact hs1 _ _ a (by omega) (by omega)
    · rw [r1 i (by omega), r1 j (by omega)]
      exact lo _ _ a hi' (by omega) d
    · rw [r2 i (by omega) (by omega), r3 j (by omega) (by omega)]
      exact hlt.asymm (hi _ _ (by omega) (by omega) (by omega) (by omega))
    · rw [r2 i (by omega) (by omega), r1 j (by omega)]
      exact hs2 _ _ (by omega) (by omega) d

/-- Sorting two halves one of which is below the other sorts the whole. -/
theorem sorted_join {f m l : Nat} {v v' : Nat → α} (hlt : StrictWeak lt) (h1 : f ≤ m) (h2 : m ≤ l)
    (hp1 : PermOn f m v v') (hp2 : SortedOn lt f m v') {v'' : Nat → α} (hp3 : PermOn m l v' v'')
    (hp4 : SortedOn lt m l v'')
    (hx : ∀ i j, f ≤ i → i < m → m ≤ j → j < l → lt (v j) (v i) = false) : SortedOn lt f l v'' := by
  refine SortedOn.append hlt (m := m) (hp2.congr fun i a b => (hp3.out (Or.inl b)).symm) hp4 ?_
  intro a b
  rw [hp3.out (i := m - 1) (by omega)]
  obtain ⟨j, c, d, e⟩ := hp3.mem (Nat.le_refl m) b
  obtain ⟨i, c', d', e'⟩ := hp1.mem (i := m - 1) (by omega) (by omega)
  rw [e, e', hp1.out (i := j) (by omega)]
  exact hx i j c' d' c d

theorem sorted_join' {f m l : Nat} {v v' : Nat → α} (hlt : StrictWeak lt) (h1 : f ≤ m) (h2 : m ≤ l)
    (hp1 : PermOn m l v v') (hp2 : SortedOn lt m l v') {v'' : Nat → α} (hp3 : PermOn f m v' v'')
    (hp4 : SortedOn lt f m v'')
    (hx : ∀ i j, f ≤ i → i < m → m ≤ j → j < l → lt (v j) (v i) = false) : SortedOn lt f l v'' := by
  refine SortedOn.append hlt (m := m) hp4 (hp2.congr fun i a b => (hp3.out (Or.inr a)).symm) ?_
  intro a b
  rw [hp3.out (i := m) (by omega)]
  obtain ⟨j, c, d, e⟩ := hp1.mem (Nat.le_refl m) b
  obtain ⟨i, c', d', e'⟩ := hp3.mem (i := m - 1) (by omega) (by omega)
  rw [e, e', hp1.out (i := i) (by omega)]
  exact hx i j c' d' c d

theorem RawBuf.upd {f l p n : Nat} {s s' : St α} {v v' : Nat → α} (h : RawBuf s.cell p n)
    (hh : Holds s.cell f l v) (hu : Upd f l s s' v v') : RawBuf s'.cell p n := by
  intro k a b
  rw [hu.frame.cell k ?_]
  · exact h k a b
  · by_contra hc
    have := h.disj hh k (by omega) (by omega)
    omega

theorem RawBuf.sub {c : Nat → Cell α} {p n m : Nat} (h : RawBuf c p n) (hm : m ≤ n) :
    RawBuf c p m := fun k a b => h k a (by omega)

theorem RotPost.supd (hlt : StrictWeak lt) {f m l : Nat} {s s' : St α} {v v' : Nat → α}
    (h : RotPost f m l s s' v v') (h1 : f ≤ m) (h2 : m ≤ l)
    (hb : ∀ i j, f ≤ i → i < m → m ≤ j → j < l → lt (v j) (v i) = true) :
    SUpd lt f l s s' v v' := ⟨h.holds, h.rot.sperm hlt h1 h2 hb, h.frame⟩

/-! ### recmerge, bidirectional -/

theorem recShrink_spec {f middle l : Nat} {v : Nat → α} : ∀ (len1 first : Nat) (s : St α),
    f ≤ first → middle = first + len1 → middle < l → Holds s.cell f l v →
    wp (recShrink (tick lt) first middle len1) (fun r s' => (∃ k, s' = { s with cmps := k }) ∧
      match r with
      | none => ∀ i, first ≤ i → i < middle → lt (v middle) (v i) = false
      | some (first', len1') => first ≤ first' ∧ 0 < len1' ∧ middle = first' + len1' ∧
          lt (v middle) (v first') = true ∧
          ∀ i, first ≤ i → i < first' → lt (v middle) (v i) = false) s := by
  intro len1
  induction len1 with
  | zero =>
    intro first s h1 h2 h3 hh
    rw [recShrink, if_pos rfl]
    apply wp_pure
    exact ⟨⟨_, rfl⟩, fun i a b => by omega⟩
  | succ n ih =>
    intro first s h1 h2 h3 hh
    rw [recShrink, if_neg (by omega)]
    wread hh; wread hh; wtick
    split
    · rename_i hc
      apply wp_pure
      exact ⟨⟨_, rfl⟩, Nat.le_refl _, by omega, h2, hc, fun i a b => by omega⟩
    · rename_i hc
      have hc : lt (v middle) (v first) = false := by simpa using hc
      refine wp_mono (ih (first + 1) _ (by omega) (by omega) h3 hh) ?_
      rintro r s' ⟨⟨k, rfl⟩, h⟩
      refine ⟨⟨k, rfl⟩, ?_⟩
      match r, h with
      | none, h =>
        intro i a b
        by_cases e : i = first
        · rw [e]; exact hc
        · exact h i (by omega) b
      | some (first', len1'), h =>
        obtain ⟨a1, a2, a3, a4, a5⟩ := h
        refine ⟨by omega, a2, a3, a4, fun i a b => ?_⟩
        by_cases e : i = first
        · rw [e]; exact hc
        · exact a5 i (by omega) b

theorem recCut_spec (hlt : StrictWeak lt) {first middle last len1 len2 : Nat} {v : Nat → α}
    {s : St α} (h1 : middle = first + len1) (h2 : last = middle + len2) (p1 : 0 < len1)
    (p2 : 0 < len2) (hh : Holds s.cell first last v) (hs1 : SortedOn lt first middle v)
    (hs2 : SortedOn lt middle last v) (hf : lt (v middle) (v first) = true) :
    wp (recCut (tick lt) first middle last len1 len2) (fun r s' =>
      match r with
      | none => ∃ v', SUpd lt first last s s' v v' ∧ SortedOn lt first last v'
      | some (m1, m2, len11, len21) => (∃ k, s' = { s with cmps := k }) ∧ first ≤ m1 ∧ m1 ≤ middle ∧
          middle ≤ m2 ∧ m2 ≤ last ∧ len11 = m1 - first ∧ len21 = m2 - middle ∧
          0 < len11 + len21 ∧ len11 + len21 < len1 + len2 ∧
          (∀ i j, first ≤ i → i < m1 → m2 ≤ j → j < last → lt (v j) (v i) = false) ∧
          (∀ i j, m1 ≤ i → i < middle → middle ≤ j → j < m2 → lt (v j) (v i) = true)) s := by
  unfold recCut
  split
  · rename_i hc
    wread hh
    apply wp_bind
    refine wp_mono (upperBound_spec hlt (v (middle + len2 / 2)) (Nat.le_refl _)
      (by omega : first ≤ middle) (by omega) hh hs1) ?_
    rintro m1 s' ⟨a, b, c, d, k, rfl, -⟩
    apply wp_pure
    refine ⟨⟨k, rfl⟩, a, b, by omega, by omega, rfl, by omega, by omega, by omega, ?_, ?_⟩
    · intro i j q1 q2 q3 q4
      exact hlt.le_trans (c i q1 q2) (hs2.le hlt (by omega) q3 q4)
    · intro i j q1 q2 q3 q4
      exact hlt.lt_of_le_of_lt (hs2 j _ (by omega) q4 (by omega)) (d i q1 q2)
  · split
    · rename_i h3 h4
      have e2 : len2 = 1 := by omega
      apply wp_bind
      refine wp_swap hh ⟨by omega, by omega⟩ ⟨by omega, by omega⟩ ?_
      intro s' hu
      apply wp_pure
      have em : middle = first + 1 := by omega
      rw [em] at hu hf
      refine ⟨_, ⟨hu.holds, SPermOn.swp hlt (Nat.le_refl _) (by omega) hf, hu.frame⟩, ?_⟩
      intro i j a b c
      have e1 : i = first := by omega
      have e2 : j = first + 1 := by omega
      subst e1 e2
      sw
      exact hlt.asymm hf
    · rename_i h3 h4
      wread hh
      apply wp_bind
      refine wp_mono (lowerBound_spec hlt (v (first + len1 / 2)) (by omega : first ≤ middle)
        (by omega : middle ≤ last) (Nat.le_refl _) hh hs2) ?_
      rintro m2 s' ⟨a, b, c, d, k, rfl, -⟩
      apply wp_pure
      refine ⟨⟨k, rfl⟩, by omega, by omega, a, b, by omega, rfl, by omega, by omega, ?_, ?_⟩
      · intro i j q1 q2 q3 q4
        exact hlt.le_trans (hs1 i _ q1 q2 (by omega)) (d j q3 q4)
      · intro i j q1 q2 q3 q4
        exact hlt.lt_of_lt_of_le (c j q3 q4) (hs1.le hlt (by omega) q1 q2)

/-- What a stable merge routine does. -/
def Merges (lt : α → α → Bool) (f m l buff buffSize : Nat) (prog : M α Unit) : Prop :=
  ∀ (s : St α) (v : Nat → α), Holds s.cell f l v → SortedOn lt f m v → SortedOn lt m l v →
    RawBuf s.cell buff buffSize →
    wp prog (fun _ s' => ∃ v', SUpd lt f l s s' v v' ∧ SortedOn lt f l v') s

theorem buffered_merges (hlt : StrictWeak lt) {f m l buff buffSize len1 len2 : Nat}
    (e1 : m = f + len1) (e2 : l = m + len2) (hc : len1 ≤ buffSize ∨ len2 ≤ buffSize) :
    Merges lt f m l buff buffSize (bufferedInplaceMerge (tick lt) f m l len1 len2 buff) := by
  intro s v hh hs1 hs2 hr
  have := bufferedInplaceMerge_spec hlt (first := f) (middle := m) (last := l) (by omega) (by omega)
    hh hs1 hs2 (hr.sub (m := min (m - f) (l - m)) (by omega))
  rwa [show m - f = len1 by omega, show l - m = len2 by omega] at this

/-- Two merges after a cut, left one first. -/
theorem cut_merges (hlt : StrictWeak lt) {f m1 mid m2 l buff buffSize : Nat} {s0 s : St α}
    {v0 v : Nat → α} (h1 : f ≤ m1) (h2 : m1 ≤ mid) (h3 : mid ≤ m2) (h4 : m2 ≤ l)
    (hu : SUpd lt f l s0 s v0 v) (hr : RawBuf s.cell buff buffSize)
    (s1 : SortedOn lt f m1 v) (s2 : SortedOn lt m1 mid v) (s3 : SortedOn lt mid m2 v)
    (s4 : SortedOn lt m2 l v)
    (hx : ∀ i j, f ≤ i → i < mid → mid ≤ j → j < l → lt (v j) (v i) = false)
    {p1 p2 : M α Unit} (hp1 : Merges lt f m1 mid buff buffSize p1)
    (hp2 : Merges lt mid m2 l buff buffSize p2) :
    wp (do p1; p2) (fun _ s' => ∃ v', SUpd lt f l s0 s' v0 v' ∧ SortedOn lt f l v') s ∧
    wp (do p2; p1) (fun _ s' => ∃ v', SUpd lt f l s0 s' v0 v' ∧ SortedOn lt f l v') s := by
  constructor
  · apply wp_bind
    refine wp_mono (hp1 s v (hu.holds.sub (Nat.le_refl _) (by omega)) s1 s2 hr) ?_
    rintro _ sa ⟨va, ua, sa'⟩
    have uw := ua.widen hu.holds (Nat.le_refl _) (by omega)
    have pa := ua.sperm.1
    refine wp_mono (hp2 sa va (uw.holds.sub (by omega) (Nat.le_refl _))
      (s3.congr fun i a b => (pa.out (Or.inr a)).symm)
      (s4.congr fun i a b => (pa.out (by omega)).symm)
      (hr.upd hu.holds uw.upd)) ?_
    rintro _ sb ⟨vb, ub, sb'⟩
    refine ⟨vb, (hu.trans uw).trans (ub.widen uw.holds (by omega) (Nat.le_refl _)), ?_⟩
    exact sorted_join hlt (by omega) (by omega) ua.sperm.1 sa' ub.sperm.1 sb' hx
  · apply wp_bind
    refine wp_mono (hp2 s v (hu.holds.sub (by omega) (Nat.le_refl _)) s3 s4 hr) ?_
    rintro _ sa ⟨va, ua, sa'⟩
    have uw := ua.widen hu.holds (by omega) (Nat.le_refl _)
    have pa := ua.sperm.1
    refine wp_mono (hp1 sa va (uw.holds.sub (Nat.le_refl _) (by omega))
      (s1.congr fun i a b => (pa.out (by omega)).symm)
      (s2.congr fun i a b => (pa.out (by omega)).symm)
      (hr.upd hu.holds uw.upd)) ?_
    rintro _ sb ⟨vb, ub, sb'⟩
    refine ⟨vb, (hu.trans uw).trans (ub.widen uw.holds (Nat.le_refl _) (by omega)), ?_⟩
    exact sorted_join' hlt (by omega) (by omega) ua.sperm.1 sa' ub.sperm.1 sb' hx

theorem recmergeBi_spec (hlt : StrictWeak lt) (c : Cfg) {buff buffSize : Nat} :
    ∀ (n first middle last len1 len2 : Nat), len1 + len2 ≤ n → middle = first + len1 →
    last = middle + len2 →
    Merges lt first middle last buff buffSize
      (recmergeBi (tick lt) c first middle last len1 len2 buff buffSize) := by
  intro n
  induction n with
  | zero =>
    intro first middle last len1 len2 hn e1 e2 s v hh hs1 hs2 hr
    rw [recmergeBi, if_pos (by omega)]
    apply wp_pure
    exact ⟨v, SUpd.refl hh, SortedOn.trivial (by omega)⟩
  | succ n ih =>
    intro first middle last len1 len2 hn e1 e2 s v hh hs1 hs2 hr
    rw [recmergeBi]
    split
    · apply wp_pure
      exact ⟨v, SUpd.refl hh, by rwa [show last = middle by omega]⟩
    · split
      · exact buffered_merges hlt e1 e2 (by assumption) s v hh hs1 hs2 hr
      · apply wp_bind
        refine wp_mono (recShrink_spec (lt := lt) len1 first s (Nat.le_refl _) e1 (by omega) hh) ?_
        rintro r s' ⟨⟨k, rfl⟩, h⟩
        match r, h with
        | none, h =>
          apply wp_pure
          refine ⟨v, (SUpd.refl hh).tickr, hs1.append hlt hs2 fun a b => h _ (by omega) (by omega)⟩
        | some (first', len1'), h =>
          obtain ⟨a1, a2, a3, a4, a5⟩ := h
          simp only
          -- it is enough to merge the shrunk range
          have key : ∀ (s0 : St α) (prog : M α Unit),
              wp prog (fun _ s' => ∃ v', SUpd lt first' last s0 s' v v' ∧ SortedOn lt first' last v')
                s0 → Holds s0.cell first last v →
              wp prog (fun _ s' => ∃ v', SUpd lt first last s0 s' v v' ∧ SortedOn lt first last v')
                s0 := by
            intro s0 prog hp hh0
            refine wp_mono hp ?_
            rintro _ s2 ⟨v2, u2, o2⟩
            refine ⟨v2, u2.widen hh0 a1 (Nat.le_refl _), ?_⟩
            refine sorted_join hlt (m := first') a1 (by omega) (PermOn.refl _ _ _)
              (hs1.sub (Nat.le_refl _) (by omega)) u2.sperm.1 o2 ?_
            intro i j q1 q2 q3 q4
            by_cases hj : j < middle
            · exact hs1 i j q1 (by omega) hj
            · exact hlt.le_trans (a5 i q1 q2) (hs2.le hlt (Nat.le_refl _) (by omega) q4)
          have hh' : Holds s.cell first' last v := hh.sub a1 (Nat.le_refl _)
          have hs1' := hs1.sub a1 (Nat.le_refl _)
          refine wp_mono (key { s with cmps := k } _ ?_ hh) fun _ _ ⟨v', u, o⟩ => ⟨v', u.tick, o⟩
          apply wp_bind
          refine wp_mono (recCut_spec hlt (s := { s with cmps := k }) a3 e2 a2 (by omega) hh' hs1' hs2
            a4) ?_
          rintro r s' h
          match r, h with
          | none, h => exact wp_pure h
          | some (m1, m2, len11, len21), h =>
            obtain ⟨⟨k2, rfl⟩, b1, b2, b3, b4, b5, b6, b7, b8, lo, hi⟩ := h
            simp only
            apply wp_bind
            refine wp_mono (rotate_spec c b2 b3 (hh'.sub b1 b4)) ?_
            rintro mid s2 ⟨em, v2, hrot⟩
            obtain ⟨q0, q1, q2, q3, q4, q5⟩ := cut_rotated hlt b1 b2 b3 b4 hs1' hs2 lo hi hrot.rot
            have hu : SUpd lt first' last { s with cmps := k } s2 v v2 :=
              ((hrot.supd hlt b2 b3 hi).widen hh' b1 b4).tick (s := { s with cmps := k })
            subst em
            have hr2 := RawBuf.upd (s := { s with cmps := k }) hr hh' hu.upd
            obtain ⟨w1, w2⟩ := cut_merges hlt b1 (by omega) (by omega) b4 hu hr2 q1 q2 q3 q4 q5
              (ih first' m1 (m1 + (m2 - middle)) len11 len21 (by omega) (by omega) (by omega))
              (ih (m1 + (m2 - middle)) m2 last (len1' - len11) (len2 - len21) (by omega) (by omega)
                (by omega))
            split
            · exact w1
            · exact w2

/-- Undo the duplication of a continuation by the elaboration of `do` blocks. -/
theorem ite_bind {β γ : Type} {c : Prop} [Decidable c] {a b : M α β} {k : β → M α γ} :
    (if c then a >>= k else b >>= k) = (if c then a else b) >>= k := by split <;> rfl

/-! ### symmerge -/

theorem symmergeBsearch_spec {f l : Nat} {v : Nat → α} (arr p : Nat) : ∀ (n lo r : Nat) (s : St α),
    r - lo ≤ n → lo ≤ r → Holds s.cell f l v →
    (∀ k, lo ≤ k → k < r → f ≤ arr + k ∧ arr + k < l ∧ f ≤ arr + (p - k) ∧ arr + (p - k) < l) →
    (∀ j k, lo ≤ j → j < k → k < r → lt (v (arr + (p - j))) (v (arr + j)) = true →
      lt (v (arr + (p - k))) (v (arr + k)) = true) →
    wp (symmergeBsearch (tick lt) arr lo r p) (fun x s' => (∃ k, s' = { s with cmps := k }) ∧
      lo ≤ x ∧ x ≤ r ∧ (∀ k, lo ≤ k → k < x → lt (v (arr + (p - k))) (v (arr + k)) = false) ∧
      (∀ k, x ≤ k → k < r → lt (v (arr + (p - k))) (v (arr + k)) = true)) s := by
  intro n
  induction n with
  | zero =>
    intro lo r s hn h1 hh ha hm
    rw [symmergeBsearch, if_neg (by omega)]
    apply wp_pure
    exact ⟨⟨_, rfl⟩, by omega, by omega, fun k _ _ => by omega, fun k _ _ => by omega⟩
  | succ n ih =>
    intro lo r s hn h1 hh ha hm
    rw [symmergeBsearch]
    split
    · rename_i hlr
      obtain ⟨g1, g2, g3, g4⟩ := ha (lo + (r - lo) / 2) (by omega) (by omega)
      wread hh; wread hh; wtick
      split
      · rename_i hc
        have hc : lt (v (arr + (p - (lo + (r - lo) / 2)))) (v (arr + (lo + (r - lo) / 2))) = false := by
          simpa using hc
        refine wp_mono (ih (lo + (r - lo) / 2 + 1) r _ (by omega) (by omega) hh
          (fun k a b => ha k (by omega) b) (fun j k a b c => hm j k (by omega) b c)) ?_
        rintro x s' ⟨⟨k, rfl⟩, b1, b2, b3, b4⟩
        refine ⟨⟨k, rfl⟩, by omega, b2, fun k a b => ?_, b4⟩
        by_cases hk : k < lo + (r - lo) / 2 + 1
        · by_contra hne
          have hne : lt (v (arr + (p - k))) (v (arr + k)) = true := by simpa using hne
          by_cases e : k = lo + (r - lo) / 2
          · rw [e, hc] at hne; cases hne
          · rw [hm k _ a (by omega) (by omega) hne] at hc; cases hc
        · exact b3 k (by omega) b
      · rename_i hc
        have hc : lt (v (arr + (p - (lo + (r - lo) / 2)))) (v (arr + (lo + (r - lo) / 2))) = true := by
          simpa using hc
        refine wp_mono (ih lo (lo + (r - lo) / 2) _ (by omega) (by omega) hh
          (fun k a b => ha k a (by omega)) (fun j k a b c => hm j k a b (by omega))) ?_
        rintro x s' ⟨⟨k, rfl⟩, b1, b2, b3, b4⟩
        refine ⟨⟨k, rfl⟩, b1, by omega, b3, fun k a b => ?_⟩
        by_cases hk : k < lo + (r - lo) / 2
        · exact b4 k a hk
        · by_cases e : k = lo + (r - lo) / 2
          · rw [e]; exact hc
          · exact hm _ k (by omega) (by omega) b hc
    · apply wp_pure
      exact ⟨⟨_, rfl⟩, by omega, by omega, fun k _ _ => by omega, fun k _ _ => by omega⟩

theorem symmerge_spec (hlt : StrictWeak lt) (c : Cfg) (arr : Nat) {buff buffSize : Nat} :
    ∀ (n first middle last len1 len2 : Nat), len1 + len2 ≤ n → middle = first + len1 →
    last = middle + len2 →
    Merges lt (arr + first) (arr + middle) (arr + last) buff buffSize
      (symmerge (tick lt) c arr first middle last len1 len2 buff buffSize) := by
  intro n
  induction n with
  | zero =>
    intro first middle last len1 len2 hn e1 e2 s v hh hs1 hs2 hr
    rw [symmerge, if_neg (by omega)]
    apply wp_pure
    exact ⟨v, SUpd.refl hh, SortedOn.trivial (by omega)⟩
  | succ n ih =>
    intro first middle last len1 len2 hn e1 e2 s v hh hs1 hs2 hr
    rw [symmerge]
    split
    · rename_i hpos
      split
      · exact buffered_merges hlt (by omega) (by omega) (by assumption) s v hh hs1 hs2 hr
      · simp only
        rw [ite_bind]
        apply wp_bind
        -- the cut
        have hcut : wp (if middle > first + (last - first) / 2 then
              symmergeBsearch (tick lt) arr (first + (last - first) / 2 + middle - last)
                (first + (last - first) / 2) (first + (last - first) / 2 + middle - 1)
            else symmergeBsearch (tick lt) arr first middle (first + (last - first) / 2 + middle - 1))
            (fun x s' => (∃ k, s' = { s with cmps := k }) ∧ first ≤ x ∧ x ≤ middle ∧
              x ≤ first + (last - first) / 2 ∧
              middle + (first + (last - first) / 2) ≤ last + x ∧
              (∀ i j, arr + first ≤ i → i < arr + x →
                arr + (first + (last - first) / 2 + middle - x) ≤ j → j < arr + last →
                lt (v j) (v i) = false) ∧
              (∀ i j, arr + x ≤ i → i < arr + middle → arr + middle ≤ j →
                j < arr + (first + (last - first) / 2 + middle - x) → lt (v j) (v i) = true)) s := by
          have mono : ∀ lo r, first ≤ lo → r ≤ middle →
              (∀ k, lo ≤ k → k < r → middle ≤ first + (last - first) / 2 + middle - 1 - k ∧
                first + (last - first) / 2 + middle - 1 - k < last) →
              ∀ j k, lo ≤ j → j < k → k < r →
                lt (v (arr + (first + (last - first) / 2 + middle - 1 - j))) (v (arr + j)) = true →
                lt (v (arr + (first + (last - first) / 2 + middle - 1 - k))) (v (arr + k)) = true := by
            intro lo r h1 h2 h3 j k a b c' d
            have g1 := h3 j a (by omega)
            have g2 := h3 k (by omega) c'
            exact hlt.lt_of_lt_of_le (hlt.lt_of_le_of_lt
              (hs2.le hlt (i := arr + (first + (last - first) / 2 + middle - 1 - k))
                (j := arr + (first + (last - first) / 2 + middle - 1 - j)) (by omega) (by omega)
                (by omega)) d) (hs1 (arr + j) (arr + k) (by omega) (by omega) (by omega))
          have fin : ∀ (lo r x : Nat) (s' : St α), first ≤ lo → r ≤ middle →
              (∀ k, lo ≤ k → k < r → middle ≤ first + (last - first) / 2 + middle - 1 - k ∧
                first + (last - first) / 2 + middle - 1 - k < last) →
              (lo = first ∨ first + (last - first) / 2 + middle - lo = last) →
              (r = middle ∨ r = first + (last - first) / 2) →
              lo ≤ x → x ≤ r → r ≤ first + (last - first) / 2 →
              middle + (first + (last - first) / 2) ≤ last + lo →
              (∀ k, lo ≤ k → k < x →
                lt (v (arr + (first + (last - first) / 2 + middle - 1 - k))) (v (arr + k)) = false) →
              (∀ k, x ≤ k → k < r →
                lt (v (arr + (first + (last - first) / 2 + middle - 1 - k))) (v (arr + k)) = true) →
              (∀ i j, arr + first ≤ i → i < arr + x →
                arr + (first + (last - first) / 2 + middle - x) ≤ j → j < arr + last →
                lt (v j) (v i) = false) ∧
              (∀ i j, arr + x ≤ i → i < arr + middle → arr + middle ≤ j →
                j < arr + (first + (last - first) / 2 + middle - x) → lt (v j) (v i) = true) := by
            intro lo r x s' h1 h2 h3 h4 h5 h6 h7 h7' h8 h9 h10
            constructor
            · intro i j a b c' d
              have hx : lo < x := by omega
              have g := h3 (x - 1) (by omega) (by omega)
              have t := h9 (x - 1) (by omega) (by omega)
              have t1 := hs1.le hlt a (by omega : i ≤ arr + (x - 1)) (by omega)
              have t2 := hs2.le hlt (i := arr + (first + (last - first) / 2 + middle - 1 - (x - 1)))
                (j := j) (by omega) (by omega) d
              exact hlt.le_trans (hlt.le_trans t1 t) t2
            · intro i j a b c' d
              have hx : x < r := by omega
              have g := h3 x (by omega) (by omega)
              have t := h10 x (by omega) (by omega)
              have t1 := hs1.le hlt (by omega) (by omega : arr + x ≤ i) b
              have t2 := hs2.le hlt (i := j) (j := arr + (first + (last - first) / 2 + middle - 1 - x))
                c' (by omega) (by omega)
              exact hlt.lt_of_lt_of_le (hlt.lt_of_le_of_lt t2 t) t1
          split
          · rename_i hm
            have h3 : ∀ k, first + (last - first) / 2 + middle - last ≤ k →
                k < first + (last - first) / 2 →
                middle ≤ first + (last - first) / 2 + middle - 1 - k ∧
                first + (last - first) / 2 + middle - 1 - k < last := fun k a b => by omega
            refine wp_mono (symmergeBsearch_spec (lt := lt) arr _ _ _ _ s (Nat.le_refl _) (by omega) hh
              (fun k a b => by have := h3 k a b; omega) (mono _ _ (by omega) (by omega) h3)) ?_
            rintro x s' ⟨hk, b1, b2, b3, b4⟩
            exact ⟨hk, by omega, by omega, by omega, by omega,
              fin _ _ x s' (by omega) (by omega) h3 (by omega) (by omega) b1 b2 (by omega) (by omega) b3 b4⟩
          · rename_i hm
            have h3 : ∀ k, first ≤ k → k < middle →
                middle ≤ first + (last - first) / 2 + middle - 1 - k ∧
                first + (last - first) / 2 + middle - 1 - k < last := fun k a b => by omega
            refine wp_mono (symmergeBsearch_spec (lt := lt) arr _ _ _ _ s (Nat.le_refl _) (by omega) hh
              (fun k a b => by have := h3 k a b; omega) (mono _ _ (by omega) (by omega) h3)) ?_
            rintro x s' ⟨hk, b1, b2, b3, b4⟩
            exact ⟨hk, by omega, by omega, by omega, by omega,
              fin _ _ x s' (by omega) (by omega) h3 (by omega) (by omega) b1 b2 (by omega) (by omega) b3 b4⟩
        refine wp_mono hcut ?_
        rintro x s' ⟨⟨k, rfl⟩, b1, b2, b2', b3, lo, hi⟩
        apply wp_bind
        have g1 : arr + x ≤ arr + middle := by omega
        have g2 : arr + middle ≤ arr + (first + (last - first) / 2 + middle - x) := by omega
        have g3 : arr + (first + (last - first) / 2 + middle - x) ≤ arr + last := by omega
        have g0 : arr + first ≤ arr + x := by omega
        refine wp_mono (rotate_spec (s := { s with cmps := k }) c g1 g2 (hh.sub g0 g3)) ?_
        rintro _ s2 ⟨-, v2, hrot⟩
        obtain ⟨q0, q1, q2, q3, q4, q5⟩ := cut_rotated hlt g0 g1 g2 g3 hs1 hs2 lo hi hrot.rot
        have hu : SUpd lt (arr + first) (arr + last) s s2 v v2 :=
          ((hrot.supd hlt g1 g2 hi).widen hh g0 g3).tick
        have em : arr + x + (arr + (first + (last - first) / 2 + middle - x) - (arr + middle)) =
          arr + (first + (last - first) / 2) := by omega
        rw [em] at q2 q3 q5
        exact (cut_merges hlt g0 (by omega) (by omega) g3 hu (hr.upd hh hu.upd) q1 q2 q3 q4 q5
          (ih first x (first + (last - first) / 2) (x - first) (first + (last - first) / 2 - x)
            (by omega) (by omega) (by omega))
          (ih (first + (last - first) / 2) (first + (last - first) / 2 + middle - x) last
            (first + (last - first) / 2 + middle - x - (first + (last - first) / 2))
            (last - (first + (last - first) / 2 + middle - x)) (by omega) (by omega) (by omega))).1
    · rename_i hpos
      apply wp_pure
      refine ⟨v, SUpd.refl hh, ?_⟩
      by_cases e : len1 = 0
      · rwa [show arr + first = arr + middle by omega]
      · rwa [show arr + last = arr + middle by omega]

/-! ### recmerge, forward -/

/-- The forward variant is only correct when the buffer is empty or when the left part fits and is
the shorter one: `half_inplace_merge` is told (recmerge_forward.h 117-120) that `n0` steps are
possible without looking at the ends, which is wrong when `n1 < n0`. -/
theorem recmergeFwd_spec (hlt : StrictWeak lt) (c : Cfg) {buff buffSize : Nat} :
    ∀ (n f0 n0 f1 n1 : Nat), n0 + n1 ≤ n → f1 = f0 + n0 →
    (buffSize = 0 ∨ n0 ≤ buffSize ∧ n0 ≤ n1) →
    Merges lt f0 f1 (f1 + n1) buff buffSize
      (recmergeFwd (tick lt) c f0 n0 f1 n1 buff buffSize) := by
  intro n
  induction n with
  | zero =>
    intro f0 n0 f1 n1 hn e1 hb s v hh hs1 hs2 hr
    rw [recmergeFwd, if_pos (by omega)]
    apply wp_pure
    exact ⟨v, SUpd.refl hh, SortedOn.trivial (by omega)⟩
  | succ n ih =>
    intro f0 n0 f1 n1 hn e1 hb s v hh hs1 hs2 hr
    rw [recmergeFwd]
    split
    · apply wp_pure
      refine ⟨v, SUpd.refl hh, ?_⟩
      by_cases e : n0 = 0
      · rwa [show f0 = f1 by omega]
      · rwa [show f1 + n1 = f1 by omega]
    · split
      · have := leftBuffered_spec hlt (first := f0) (middle := f1) (last := f1 + n1) (buff := buff)
          (n2 := n1) (minLen := n0) (by omega) (by omega) hh (by omega) (Or.inr trivial) hs1 hs2
          (hr.sub (by omega)) (by omega) (by omega)
        exact this
      · rename_i hz hnb
        have hb0 : buffSize = 0 := by omega
        split
        · rename_i hc
          unfold mergeStep0
          apply wp_bind
          simp only
          wread hh
          apply wp_bind
          refine wp_mono (lowerBoundN_spec (decides_tick (lt := lt) (v (f0 + n0 / 2))) n1 f1 n1 s
            (Nat.le_refl _) (by omega) (Nat.le_refl _) hh
            (fun i j a b c hp => hlt.lt_of_le_of_lt (hs2 i j a b c) hp)) ?_
          rintro f11 s' ⟨a1, a2, a3, a4, k, rfl, -⟩
          apply wp_bind
          have g0 : f0 ≤ f0 + n0 / 2 := by omega
          have g1 : f0 + n0 / 2 ≤ f1 := by omega
          refine wp_mono (rotate_spec (s := { s with cmps := k }) c g1 a1 (hh.sub g0 a2)) ?_
          rintro f10 s2 ⟨e10, v2, hrot⟩
          have lo : ∀ i j, f0 ≤ i → i < f0 + n0 / 2 → f11 ≤ j → j < f1 + n1 →
              lt (v j) (v i) = false := fun i j q1 q2 q3 q4 =>
            hlt.le_trans (hs1 i _ q1 q2 (by omega)) (a4 j q3 q4)
          have hi : ∀ i j, f0 + n0 / 2 ≤ i → i < f1 → f1 ≤ j → j < f11 → lt (v j) (v i) = true :=
            fun i j q1 q2 q3 q4 => hlt.lt_of_lt_of_le (a3 j q3 q4) (hs1.le hlt (by omega) q1 q2)
          obtain ⟨q0, q1, q2, q3, q4, q5⟩ := cut_rotated hlt g0 g1 a1 a2 hs1 hs2 lo hi hrot.rot
          have hu : SUpd lt f0 (f1 + n1) s s2 v v2 :=
            ((hrot.supd hlt g1 a1 hi).widen hh g0 a2).tick
          subst e10
          apply wp_pure
          simp only
          have hr2 := hr.upd hh hu.upd
          -- the pivot stays in front of the right part
          have e10 : v2 (f0 + n0 / 2 + (f11 - f1)) = v (f0 + n0 / 2) := by
            rw [hrot.rot.2.2 _ (Nat.le_refl _) (by omega)]; congr 1; omega
          have hright : Merges lt (f0 + n0 / 2 + (f11 - f1) + 1) f11 (f11 + (n1 - (f11 - f1))) buff buffSize
              (recmergeFwd (tick lt) c (f0 + n0 / 2 + (f11 - f1) + 1) (n0 - n0 / 2 - 1) f11
                (n1 - (f11 - f1)) buff buffSize) :=
            ih _ _ _ _ (by omega) (by omega) (Or.inl hb0)
          have hleft := ih f0 (n0 / 2) (f0 + n0 / 2) (f11 - f1) (by omega) (by omega) (Or.inl hb0)
          rw [show f11 + (n1 - (f11 - f1)) = f1 + n1 by omega] at hright
          rw [show f0 + n0 / 2 + (f11 - f1) - (f0 + n0 / 2) = f11 - f1 by omega]
          apply wp_bind
          refine wp_mono (hleft s2 v2 (hu.holds.sub (Nat.le_refl _) (by omega)) q1 q2 hr2) ?_
          rintro _ sa ⟨va, ua, oa⟩
          have uw := ua.widen hu.holds (Nat.le_refl _) (by omega)
          have pa := ua.sperm.1
          refine wp_mono (hright sa va (uw.holds.sub (by omega) (Nat.le_refl _))
            ((q3.sub (by omega) (Nat.le_refl _)).congr fun i a b => (pa.out (by omega)).symm)
            (q4.congr fun i a b => (pa.out (by omega)).symm) (hr2.upd hu.holds uw.upd)) ?_
          rintro _ sb ⟨vb, ub, ob⟩
          refine ⟨vb, (hu.trans uw).trans (ub.widen uw.holds (by omega) (Nat.le_refl _)), ?_⟩
          have pb := ub.sperm.1
          refine sorted_join hlt (m := f0 + n0 / 2 + (f11 - f1)) (by omega) (by omega) pa oa
            (pb.mono (by omega) (Nat.le_refl _)) ?_ q5
          have hpb : PermOn (f0 + n0 / 2 + (f11 - f1) + 1) (f1 + n1) v2 vb ∨ True := Or.inr trivial
          refine sorted_join hlt (m := f0 + n0 / 2 + (f11 - f1) + 1) (by omega) (by omega)
            (PermOn.refl _ _ va) (SortedOn.trivial (by omega)) pb ob ?_
          intro i j r1 r2 r3 r4
          rw [show i = f0 + n0 / 2 + (f11 - f1) by omega, pa.out (by omega), pa.out (by omega)]
          by_cases hj : j < f11
          · exact q3 _ _ (by omega) (by omega) hj
          · rw [e10, hrot.rot.1 j (by omega)]
            exact a4 j (by omega) r4
        · rename_i hc
          unfold mergeStep1 upperBoundN
          apply wp_bind
          simp only
          wread hh
          apply wp_bind
          refine wp_mono (lowerBoundN_spec (decides_notFlip (lt := lt) (v (f1 + n1 / 2))) n0 f0 n0 s
            (Nat.le_refl _) (by omega) (by omega) hh
            (fun i j a b c hp => by
              have hp : lt (v (f1 + n1 / 2)) (v j) = false := by simpa using hp
              have := hlt.le_trans (hs1 i j a b (by omega)) hp
              simp [this])) ?_
          rintro f01 s' ⟨a1, a2, a3, a4, k, rfl, -⟩
          have a3 : ∀ i, f0 ≤ i → i < f01 → lt (v (f1 + n1 / 2)) (v i) = false := fun i p q => by
            simpa using a3 i p q
          have a4 : ∀ i, f01 ≤ i → i < f0 + n0 → lt (v (f1 + n1 / 2)) (v i) = true := fun i p q => by
            simpa using a4 i p q
          apply wp_bind
          have g1 : f01 ≤ f1 := by omega
          have g2 : f1 ≤ f1 + n1 / 2 + 1 := by omega
          have g3 : f1 + n1 / 2 + 1 ≤ f1 + n1 := by omega
          refine wp_mono (rotate_spec (s := { s with cmps := k }) c g1 g2 (hh.sub a1 g3)) ?_
          rintro f10 s2 ⟨e10, v2, hrot⟩
          have lo : ∀ i j, f0 ≤ i → i < f01 → f1 + n1 / 2 + 1 ≤ j → j < f1 + n1 →
              lt (v j) (v i) = false := fun i j q1 q2 q3 q4 =>
            hlt.le_trans (a3 i q1 q2) (hs2.le hlt (by omega) (by omega) q4)
          have hi : ∀ i j, f01 ≤ i → i < f1 → f1 ≤ j → j < f1 + n1 / 2 + 1 → lt (v j) (v i) = true :=
            fun i j q1 q2 q3 q4 => hlt.lt_of_le_of_lt (hs2.le hlt q3 (by omega) (by omega))
              (a4 i q1 (by omega))
          obtain ⟨q0, q1, q2, q3, q4, q5⟩ := cut_rotated hlt a1 g1 g2 g3 hs1 hs2 lo hi hrot.rot
          have hu : SUpd lt f0 (f1 + n1) s s2 v v2 :=
            ((hrot.supd hlt g1 g2 hi).widen hh a1 g3).tick
          subst e10
          rw [show f1 + n1 / 2 + 1 - f1 = n1 / 2 + 1 by omega] at *
          apply wp_pure
          simp only
          have hr2 := hr.upd hh hu.upd
          have hleft : Merges lt f0 f01 (f01 + n1 / 2) buff buffSize
              (recmergeFwd (tick lt) c f0 (f01 - f0) f01 (n1 / 2) buff buffSize) :=
            ih f0 (f01 - f0) f01 (n1 / 2) (by omega) (by omega) (Or.inl hb0)
          have hright := ih (f01 + (n1 / 2 + 1)) (n0 - (f01 - f0)) (f1 + n1 / 2 + 1) (n1 - n1 / 2 - 1)
            (by omega) (by omega) (Or.inl hb0)
          rw [show f1 + n1 / 2 + 1 + (n1 - n1 / 2 - 1) = f1 + n1 by omega] at hright
          apply wp_bind
          refine wp_mono (hleft s2 v2 (hu.holds.sub (Nat.le_refl _) (by omega)) q1
            (q2.sub (Nat.le_refl _) (by omega)) hr2) ?_
          rintro _ sa ⟨va, ua, oa⟩
          have uw := ua.widen hu.holds (Nat.le_refl _) (by omega)
          have pa := ua.sperm.1
          refine wp_mono (hright sa va (uw.holds.sub (by omega) (Nat.le_refl _))
            (q3.congr fun i a b => (pa.out (by omega)).symm)
            (q4.congr fun i a b => (pa.out (by omega)).symm) (hr2.upd hu.holds uw.upd)) ?_
          rintro _ sb ⟨vb, ub, ob⟩
          refine ⟨vb, (hu.trans uw).trans (ub.widen uw.holds (by omega) (Nat.le_refl _)), ?_⟩
          have pb := ub.sperm.1
          have ep : v2 (f01 + n1 / 2) = v (f1 + n1 / 2) := by
            rw [hrot.rot.2.1 _ (by omega) (by omega)]; congr 1; omega
          refine sorted_join hlt (m := f01 + (n1 / 2 + 1)) (by omega) (by omega)
            (pa.mono (Nat.le_refl _) (by omega)) ?_ pb ob q5
          refine sorted_join hlt (m := f01 + n1 / 2) (by omega) (by omega) pa oa
            (PermOn.refl _ _ _) (SortedOn.trivial (by omega)) ?_
          intro i j r1 r2 r3 r4
          rw [show j = f01 + n1 / 2 by omega]
          by_cases hj : i < f01
          · rw [ep, hrot.rot.1 i (by omega)]
            exact a3 i r1 hj
          · exact q2 _ _ (by omega) (by omega) (by omega)

end CppSort
