import Verif.Proof.SymCost
import Verif.Proof.Poplar
set_option autoImplicit false

namespace CppSort
variable {α : Type} {lt : α → α → Bool} {N : Nat}

theorem poplarSiftLoop_cost {value : α} : ∀ (k root maxRoot size : Nat), size < 2 ^ (k + 2) →
    Cost N (poplarSiftLoop (tick lt) value root maxRoot size) (fun _ c => c ≤ 2 * k) := by
  intro k
  induction k with
  | zero =>
    intro root maxRoot size h
    rw [poplarSiftLoop]
    refine (silent_moveTo _ _).costBind fun _ => ?_
    dsimp only
    rw [if_pos (by omega)]
    exact Cost.pure (by omega)
  | succ k ih =>
    intro root maxRoot size h
    rw [poplarSiftLoop]
    refine (silent_moveTo _ _).costBind fun _ => ?_
    dsimp only
    refine Cost.ite (fun _ => Cost.pure (by omega)) fun _ => ?_
    have : Cost N (do
        if ← tick lt (← read (maxRoot - (size / 2 - size / 2 / 2))) (← read (maxRoot - 1)) then pure (maxRoot - 1)
        else pure (maxRoot - (size / 2 - size / 2 / 2))) (fun _ c => c = 1) := by
      refine (silent_read _).costBind fun _ => (silent_read _).costBind fun _ => Cost.tickBind fun b => ?_
      exact Cost.ite (fun _ => Cost.pure rfl) fun _ => Cost.pure rfl
    refine this.bind fun mc c hc => ?_
    refine (silent_read _).costBind fun _ => Cost.tickBind fun b => ?_
    refine Cost.ite (fun _ => (ih _ _ _ ?_).mono fun _ c' hc' => by omega) fun _ => Cost.pure (by omega)
    rw [show 2 ^ (k + 1 + 2) = 2 * 2 ^ (k + 2) by ring] at h
    omega

theorem poplarSift_cost {first size k : Nat} (h : size < 2 ^ (k + 1)) :
    Cost N (poplarSift (tick lt) first size) (fun _ c => c ≤ 2 * k) := by
  unfold poplarSift
  refine Cost.ite (fun _ => Cost.pure (by omega)) fun hs => ?_
  obtain _ | k := k
  · simp at h; omega
  have sel : ∀ a b x y : Nat, Cost N (do
      if ← tick lt (← read a) (← read b) then pure x else pure y) (fun (_ : Nat) c => c = 1) := by
    intro a b x y
    refine (silent_read _).costBind fun _ => (silent_read _).costBind fun _ => Cost.tickBind fun b => ?_
    exact Cost.ite (fun _ => Cost.pure rfl) fun _ => Cost.pure rfl
  refine (sel _ _ _ _).bind fun m1 c1 hc1 => (sel _ _ _ _).bind fun m2 c2 hc2 => ?_
  refine Cost.ite (fun _ => ?_) fun _ => Cost.pure (by omega)
  refine (silent_moveOut _).costBind fun _ => (poplarSiftLoop_cost k _ _ _ h).bind fun _ c hc => ?_
  exact (silent_assign _ _).cost (by omega)

theorem makePoplar_cost : ∀ (n first last : Nat), last = first + n → 1 ≤ n →
    Cost N (makePoplar (tick lt) first last) (fun _ c => c + 2 * Nat.log2 n + 6 ≤ 10 * n) := by
  intro n
  induction n using Nat.strongRecOn with
  | ind n ih =>
    intro first last h h1
    rw [makePoplar]
    refine Cost.ite (fun hs => ?_) fun hs => ?_
    · refine (insertionSort_cost (by omega)).mono fun _ c hc => ?_
      rw [show last - first = n by omega] at hc
      have e1 : n * (n - 1) ≤ 15 * (n - 1) := Nat.mul_le_mul_right _ (by omega)
      have := log2_lt_self h1
      by_cases h2 : n < 8
      · have e1 : n * (n - 1) ≤ 7 * (n - 1) := Nat.mul_le_mul_right _ (by omega)
        omega
      · have : Nat.log2 n ≤ Nat.log2 15 := log2_mono (by omega)
        rw [show Nat.log2 15 = 3 by decide] at this
        omega
    · have e1 : last - first = n := by omega
      rw [e1]
      have l1 := log2_half (n := n) (by omega)
      have l2 := log2_half (n := n / 2) (by omega)
      have l3 : Nat.log2 (n / 2 / 2) ≤ Nat.log2 (n - 1 - n / 2) := log2_mono (by omega)
      refine (ih (n / 2) (by omega) _ _ rfl (by omega)).bind fun _ c hc => ?_
      refine (ih (n - 1 - n / 2) (by omega) _ _ (by omega) (by omega)).bind fun _ c' hc' => ?_
      refine (poplarSift_cost (k := Nat.log2 n) Nat.lt_log2_self).mono fun _ c'' hc'' => ?_
      omega

/-! ### the poplars -/

theorem psz_mono {a b : Nat} (h : a ≤ b) : psz a ≤ psz b := by
  rw [psz_eq, psz_eq]
  have := Nat.pow_le_pow_right (show 0 < 2 by omega) h
  omega

/-- The poplars have sizes of ranks at most `K`. -/
def PRanks (K : Nat) (ps : List Poplar) : Prop := ∀ p ∈ ps, ∃ k, k + 1 ≤ K ∧ p.size = psz (k + 1)

theorem PRanks.length {ps : List Poplar} : ∀ {K}, PRanks K ps → ps.Pairwise (fun p q => q.size < p.size) →
    ps.length ≤ K := by
  induction ps with
  | nil => intros; simp
  | cons p ps ih =>
    intro K h hp
    rw [List.pairwise_cons] at hp
    obtain ⟨k, hk, hs⟩ := h p (by simp)
    have : PRanks k ps := by
      intro q hq
      obtain ⟨k', hk', hs'⟩ := h q (by simp [hq])
      refine ⟨k', ?_, hs'⟩
      have h1 := hp.1 q hq
      by_contra hc
      have := psz_mono (show k + 1 ≤ k' + 1 by omega)
      omega
    have := ih this hp.2
    rw [List.length_cons]
    omega

/-- The sizes decrease, the last two may be equal. -/
structure PStack (K : Nat) (ps : List Poplar) (back : Poplar) : Prop where
  ranks : PRanks K (ps ++ [back])
  dec : ps.Pairwise (fun p q => q.size < p.size)
  last : ∀ p ∈ ps, back.size ≤ p.size

/-- Number of elements of the poplars. -/
def psum (ps : List Poplar) : Nat := (ps.map (·.size)).sum

theorem psum_append (ps qs : List Poplar) : psum (ps ++ qs) = psum ps + psum qs := by simp [psum]
theorem psum_one (p : Poplar) : psum [p] = p.size := by simp [psum]

theorem poplarBigger_cost {last : Poplar} : ∀ (ps : List Poplar) (bigger : Option Poplar),
    Cost N (poplarBigger (tick lt) last bigger ps) (fun r c => c = ps.length ∧ ∀ q, r = some q → bigger = some q ∨ q ∈ ps) := by
  intro ps
  induction ps with
  | nil => intro b; exact Cost.pure ⟨rfl, fun q h => .inl h⟩
  | cons p ps ih =>
    intro b
    rw [poplarBigger]
    refine (silent_read _).costBind fun _ => (silent_read _).costBind fun _ => Cost.tickBind fun x => ?_
    refine Cost.ite (fun _ => (ih _).mono fun r c h => ⟨?_, fun q hq => ?_⟩) fun _ => (ih _).mono fun r c h => ⟨?_, fun q hq => ?_⟩
    · rw [List.length_cons]; omega
    · rcases h.2 q hq with h | h
      · injection h with h; subst h; right; simp
      · right; simp [h]
    · rw [List.length_cons]; omega
    · rcases h.2 q hq with h | h
      · exact .inl h
      · right; simp [h]

theorem poplarRelocate_cost {K : Nat} {ps : List Poplar} {back : Poplar} (h : PStack (K + 1) ps back) :
    Cost N (poplarRelocate (tick lt) ps back) (fun _ c => c ≤ 3 * K + 1) := by
  unfold poplarRelocate
  refine (poplarBigger_cost _ _).bind fun r c hr => ?_
  have hl : ps.length ≤ K + 1 := PRanks.length (fun p hp => h.ranks p (by simp [hp])) h.dec
  split
  · exact Cost.pure (by omega)
  · rename_i q
    refine (silent_swap _ _).costBind fun _ => ?_
    rcases hr.2 q rfl with h' | h'
    · cases h'
    obtain ⟨k, hk, hs⟩ := h.ranks q (by simp [h'])
    refine (poplarSift_cost (k := K) ?_).mono fun _ c' hc' => by omega
    rw [hs, psz_eq]
    have := Nat.pow_le_pow_right (show 0 < 2 by omega) (show k + 1 ≤ K + 1 by omega)
    have := Nat.two_pow_pos (k + 1)
    omega

theorem psz_half (k : Nat) : (psz (k + 1) - 1) / 2 = psz k := by rw [psz]; omega

theorem poplarNext_stack {K : Nat} {ps : List Poplar} {back : Poplar} (h : PStack K ps back) {qs : List Poplar}
    (hq : poplarNext ps back = some qs) : ∃ ps' back', qs = ps' ++ [back'] ∧ PStack K ps' back' ∧
      psum qs < psum (ps ++ [back]) := by
  unfold poplarNext at hq
  obtain ⟨kb, hkb, hsb⟩ := h.ranks back (by simp)
  split at hq
  · rename_i hb
    split at hq
    · cases hq
    · rename_i _ p
      split at hq
      · cases hq
      · rename_i hp1
        obtain ⟨k, hk, hs⟩ := h.ranks p (by simp)
        obtain _ | k := k
        · exact absurd hs hp1
        injection hq with hq
        subst hq
        refine ⟨[⟨p.start, p.start + (p.size - 1) / 2, (p.size - 1) / 2⟩],
          ⟨p.start + (p.size - 1) / 2, p.stop - 1, (p.size - 1) / 2⟩, rfl, ?_, ?_⟩
        · constructor
          · intro q hq
            simp only [List.cons_append, List.nil_append, List.mem_cons, List.not_mem_nil, or_false] at hq
            refine ⟨k, by omega, ?_⟩
            rcases hq with rfl | rfl <;> simp only [hs, psz_half]
          · exact List.pairwise_singleton _ _
          · intro q hq
            simp only [List.mem_cons, List.not_mem_nil, or_false] at hq
            subst hq
            exact Nat.le_refl _
        · simp [psum, Poplar.split]; omega
    · rename_i _ p q ps
      injection hq with hq
      subst hq
      rcases List.eq_nil_or_concat (p :: q :: ps) with h0 | ⟨init, bk, h0⟩
      · cases h0
      rw [List.concat_eq_append] at h0
      rw [h0] at h ⊢
      refine ⟨init, bk, rfl, ?_, ?_⟩
      · have hd := h.dec
        rw [List.pairwise_append] at hd
        refine ⟨fun x hx => h.ranks x (List.mem_append_left _ hx), hd.1, fun x hx => ?_⟩
        exact Nat.le_of_lt (hd.2.2 x hx bk (by simp))
      · rw [psum_append (init ++ [bk]), psum_one]; omega
  · rename_i hb
    split at hq
    · injection hq with hq
      subst hq
      obtain _ | k := kb
      · exact absurd hsb hb
      refine ⟨ps ++ [⟨back.start, back.start + (back.size - 1) / 2, (back.size - 1) / 2⟩],
          ⟨back.start + (back.size - 1) / 2, back.stop - 1, (back.size - 1) / 2⟩, by simp [Poplar.split], ?_, ?_⟩
      · constructor
        · intro q hq
          simp only [List.append_assoc, List.mem_append, List.cons_append, List.nil_append, List.mem_cons, List.not_mem_nil, or_false] at hq
          rcases hq with hq | rfl | rfl
          · exact h.ranks q (by simp [hq])
          · exact ⟨k, by omega, by simp only [hsb, psz_half]⟩
          · exact ⟨k, by omega, by simp only [hsb, psz_half]⟩
        · rw [List.pairwise_append]
          refine ⟨h.dec, List.pairwise_singleton _ _, fun p hp q hq => ?_⟩
          simp only [List.mem_cons, List.not_mem_nil, or_false] at hq
          subst hq
          have := h.last p hp
          have := psz_pos (k := k + 1 + 1) (by omega)
          dsimp only
          omega
        · intro q hq
          simp only [List.mem_append, List.mem_cons, List.not_mem_nil, or_false] at hq
          rcases hq with hq | rfl
          · have := h.last q hq
            dsimp only
            omega
          · exact Nat.le_refl _
      · rw [psum_append, psum_append, psum_one]
        simp [psum, Poplar.split]
        rw [hsb] at hb ⊢
        rw [psz] at hb ⊢
        omega
    · cases hq

theorem poplarLoop_cost {K : Nat} : ∀ (d : Nat) (ps : List Poplar) (back : Poplar), psum (ps ++ [back]) ≤ d → PStack (K + 1) ps back →
    Cost N (poplarLoop (tick lt) (ps ++ [back])) (fun _ c => c ≤ d * (3 * K + 1)) := by
  intro d
  induction d with
  | zero =>
    intro ps back h hs
    obtain ⟨k, hk, hz⟩ := hs.ranks back (by simp)
    rw [psum_append, psum_one] at h
    have := psz_pos (k := k + 1) (by omega)
    omega
  | succ d ih =>
    intro ps back h hs
    rw [poplarLoop]
    rw [List.getLast?_append, List.getLast?_singleton, Option.some_or, List.dropLast_concat]
    simp only []
    have e : (d + 1) * (3 * K + 1) = d * (3 * K + 1) + (3 * K + 1) := by ring
    refine (poplarRelocate_cost hs).bind fun _ c hc => ?_
    split
    · exact Cost.pure (by omega)
    · rename_i qs hq
      obtain ⟨ps', back', rfl, hs', hlt⟩ := poplarNext_stack hs hq
      exact (ih ps' back' (by omega) hs').mono fun _ c' hc' => by omega

/-- The poplars already made, `rem` elements being left and the next size being `psz k`. -/
inductive PBuild (K k rem : Nat) (ps : List Poplar) : Prop
  | fresh : rem ≤ 2 * psz k → ps.Pairwise (fun p q => q.size < p.size) → (∀ p ∈ ps, psz k < p.size) → PBuild K k rem ps
  | once : rem ≤ psz k → ps.Pairwise (fun p q => q.size < p.size) → (∀ p ∈ ps, psz k ≤ p.size) → PBuild K k rem ps
  | done (ps' : List Poplar) (back : Poplar) : rem = 0 → ps = ps' ++ [back] → PStack K ps' back → PBuild K k rem ps

theorem poplarBuild_cost {K last : Nat} : ∀ (d k it : Nat) (ps : List Poplar), last - it + k ≤ d → it ≤ last → k + 1 ≤ K →
    PRanks K ps → PBuild K (k + 1) (last - it) ps → 0 < psum ps + (last - it) →
    Cost N (poplarBuild (tick lt) last it (psz (k + 1)) ps) (fun r c => c ≤ 10 * (last - it) ∧
      psum r = psum ps + (last - it) ∧ ∃ ps' back, r = ps' ++ [back] ∧ PStack K ps' back) := by
  intro d
  induction d with
  | zero =>
    intro k it ps hd hi hk hr hb h0
    rw [poplarBuild]
    obtain rfl : k = 0 := by omega
    obtain rfl : it = last := by omega
    rw [show psz (0 + 1) = 1 from rfl, if_neg (by omega)]
    refine Cost.pure ⟨by omega, by omega, ?_⟩
    rcases List.eq_nil_or_concat ps with rfl | ⟨init, bk, rfl⟩
    · simp [psum] at h0
    rw [List.concat_eq_append] at *
    cases hb with
    | fresh h1 h2 h3 =>
      rw [List.pairwise_append] at h2
      exact ⟨init, bk, rfl, hr, h2.1, fun p hp => Nat.le_of_lt (h2.2.2 p hp bk (by simp))⟩
    | once h1 h2 h3 =>
      rw [List.pairwise_append] at h2
      exact ⟨init, bk, rfl, hr, h2.1, fun p hp => Nat.le_of_lt (h2.2.2 p hp bk (by simp))⟩
    | done ps' back h1 h2 h3 => exact ⟨ps', back, h2, h3⟩
  | succ d ih =>
    intro k it ps hd hi hk hr hb h0
    have hq := psz_pos (k := k + 1) (by omega)
    rw [poplarBuild]
    simp only []
    split
    · rename_i hfit
      refine (makePoplar_cost (psz (k + 1)) it _ rfl hq).bind fun _ c hc => ?_
      have hr' : PRanks K (ps ++ [⟨it, it + psz (k + 1), psz (k + 1)⟩]) := by
        intro p hp
        simp only [List.mem_append, List.mem_cons, List.not_mem_nil, or_false] at hp
        rcases hp with hp | rfl
        · exact hr p hp
        · exact ⟨k, hk, rfl⟩
      refine (ih k _ _ (by omega) (by omega) hk hr' ?_ (by rw [psum_append, psum_one]; dsimp only; omega)).mono fun r c' hc' => ?_
      · cases hb with
        | fresh h1 h2 h3 =>
          refine .once (by omega) ?_ ?_
          · rw [List.pairwise_append]
            refine ⟨h2, List.pairwise_singleton _ _, fun p hp q hq => ?_⟩
            simp only [List.mem_cons, List.not_mem_nil, or_false] at hq
            subst hq
            exact h3 p hp
          · intro p hp
            simp only [List.mem_append, List.mem_cons, List.not_mem_nil, or_false] at hp
            rcases hp with hp | rfl
            · exact Nat.le_of_lt (h3 p hp)
            · exact Nat.le_refl _
        | once h1 h2 h3 => exact .done ps _ (by omega) rfl ⟨hr', h2, h3⟩
        | done ps' back h1 h2 h3 => omega
      · rw [psum_append, psum_one] at hc'
        dsimp only at hc'
        refine ⟨by omega, by omega, hc'.2.2⟩
    · rename_i hfit
      have e : (psz (k + 1) + 1) / 2 - 1 = psz k := by rw [psz]; omega
      rw [e]
      obtain _ | k := k
      · rw [show psz 0 = 0 from rfl, if_neg (by omega)]
        have hz : psz (0 + 1) = 1 := rfl
        have h00 : last - it = 0 := by omega
        refine Cost.pure ⟨by omega, by omega, ?_⟩
        rcases List.eq_nil_or_concat ps with rfl | ⟨init, bk, rfl⟩
        · simp [psum] at h0; omega
        rw [List.concat_eq_append] at *
        cases hb with
        | fresh h1 h2 h3 =>
          rw [List.pairwise_append] at h2
          exact ⟨init, bk, rfl, hr, h2.1, fun p hp => Nat.le_of_lt (h2.2.2 p hp bk (by simp))⟩
        | once h1 h2 h3 =>
          rw [List.pairwise_append] at h2
          exact ⟨init, bk, rfl, hr, h2.1, fun p hp => Nat.le_of_lt (h2.2.2 p hp bk (by simp))⟩
        | done ps' back h1 h2 h3 => exact ⟨ps', back, h2, h3⟩
      rw [if_pos (psz_pos (by omega))]
      have hz : psz (k + 1 + 1) = 2 * psz (k + 1) + 1 := by rw [psz]; try omega
      refine (ih k it ps (by omega) hi (by omega) hr ?_ h0).mono fun r c' hc' => hc'
      cases hb with
      | fresh h1 h2 h3 => exact .fresh (by omega) h2 fun p hp => by have := h3 p hp; omega
      | once h1 h2 h3 => exact .fresh (by omega) h2 fun p hp => by have := h3 p hp; omega
      | done ps' back h1 h2 h3 => exact .done ps' back h1 h2 h3

theorem poplarSort_cost {first last : Nat} (h : first ≤ last) :
    Cost N (poplarSort (tick lt) first last) (fun _ c => c ≤ (last - first) * (3 * Nat.log2 (last - first) + 11)) := by
  unfold poplarSort
  dsimp only
  refine Cost.ite (fun _ => Cost.pure (by omega)) fun hs => ?_
  generalize hn : last - first = n at *
  obtain ⟨k, hk⟩ : ∃ k, Nat.log2 (n + 1) = k + 1 := ⟨Nat.log2 (n + 1) - 1, by rw [log2_half (by omega)]; omega⟩
  have hlog : k ≤ Nat.log2 n := by
    have h1 := log2_half (n := n + 1) (by omega)
    have h2 : Nat.log2 ((n + 1) / 2) ≤ Nat.log2 n := log2_mono (by omega)
    omega
  have hlt : n + 1 < 2 ^ (k + 1 + 1) := by rw [← hk]; exact Nat.lt_log2_self
  rw [hk, ← psz_eq]
  have e : 2 * psz (k + 1) + 2 = 2 ^ (k + 1 + 1) := by
    rw [psz_eq]
    have := Nat.two_pow_pos (k + 1)
    rw [Nat.pow_succ 2 (k + 1)]
    omega
  refine (poplarBuild_cost (K := k + 1) _ k first [] (Nat.le_refl _) h (Nat.le_refl _) (fun p hp => by cases hp)
    (.fresh (by omega) List.Pairwise.nil (fun p hp => by cases hp)) (by simp [psum]; omega)).bind fun r c hr => ?_
  obtain ⟨hc, hsum, ps, back, rfl, hst⟩ := hr
  rw [hn] at hc hsum
  refine (poplarLoop_cost n ps back (by rw [hsum]; simp [psum]) hst).mono fun _ c' hc' => ?_
  have e1 : n * (3 * k + 1) ≤ n * (3 * Nat.log2 n + 1) := Nat.mul_le_mul_left _ (by omega)
  have e2 : n * (3 * Nat.log2 n + 11) = n * (3 * Nat.log2 n + 1) + 10 * n := by ring
  omega

end CppSort
