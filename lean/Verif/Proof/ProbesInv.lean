import Verif.Proof.ProbesOsc
set_option autoImplicit false

namespace CppSort
variable {α β γ : Type} {lt : α → α → Bool}

/-- The number of inversions: pairs of positions `i < j` such that the element at `j` is smaller than
the element at `i`. -/
def invCount (lt : α → α → Bool) : List α → Nat
  | [] => 0
  | x :: xs => xs.countP (fun y => lt y x) + invCount lt xs

/-- The number of pairs of an element of `as` and a smaller element of `bs`. -/
def crossInv (lt : α → α → Bool) (as bs : List α) : Nat :=
  (bs.map (fun y => as.countP (fun x => lt y x))).sum

theorem crossInv_cons_left (x : α) (as bs : List α) :
    crossInv lt (x :: as) bs = bs.countP (fun y => lt y x) + crossInv lt as bs := by
  unfold crossInv
  simp only [List.countP_cons]
  rw [sum_map_add', sum_map_ite (fun y => lt y x)]
  omega

theorem invCount_append (as bs : List α) :
    invCount lt (as ++ bs) = invCount lt as + invCount lt bs + crossInv lt as bs := by
  induction as with
  | nil =>
    have : crossInv lt [] bs = 0 := by unfold crossInv; simp
    simp [invCount, this]
  | cons x as ih =>
    rw [List.cons_append, invCount, invCount, ih, crossInv_cons_left, List.countP_append]
    omega

theorem crossInv_perm {as as' bs bs' : List α} (h : as.Perm as') (h' : bs.Perm bs') :
    crossInv lt as bs = crossInv lt as' bs' := by
  unfold crossInv
  rw [(h'.map _).sum_eq]
  simp only [h.countP_eq]

theorem crossInv_append_left (as as' bs : List α) :
    crossInv lt (as ++ as') bs = crossInv lt as bs + crossInv lt as' bs := by
  unfold crossInv
  simp only [List.countP_append]
  exact sum_map_add' _ _ _

theorem crossInv_zero {as bs : List α} (h : ∀ x ∈ as, ∀ y ∈ bs, lt y x = false) :
    crossInv lt as bs = 0 := by
  unfold crossInv
  rw [List.map_congr_left (g := fun _ => 0)]
  · simp
  · intro y hy
    exact List.countP_eq_zero.2 fun x hx => by simp [h x hx y hy]

theorem invSkip_spec (hlt : StrictWeak lt) {v : Nat → α} {f l middle : Nat} : ∀ (n first : Nat) (s : St α),
    first + n = middle → f ≤ first → middle < l → Holds s.cell f l v →
    wp (invSkip (tick lt) first middle) (fun r s' => s'.cell = s.cell ∧ s'.env = s.env ∧
      first ≤ r ∧ r ≤ middle ∧ ∀ i, first ≤ i → i < r → lt (v i) (v middle) = true) s := by
  intro n
  induction n with
  | zero =>
    intro first s hn h1 h2 hh
    rw [invSkip]
    wread hh
    wread hh
    wtick
    rw [show first = middle by omega, hlt.irrefl, if_neg (by simp)]
    apply wp_pure
    exact ⟨rfl, rfl, le_refl _, le_refl _, fun i _ _ => by omega⟩
  | succ n ih =>
    intro first s hn h1 h2 hh
    rw [invSkip]
    wread hh
    wread hh
    wtick
    split
    · rename_i hc
      refine wp_mono (ih (first + 1) _ (by omega) (by omega) h2 hh) ?_
      rintro r s' ⟨a, b, c, d, e⟩
      refine ⟨a, b, by omega, d, fun i h3 h4 => ?_⟩
      by_cases hi : i = first
      · rw [hi]; exact hc
      · exact e i (by omega) h4
    · apply wp_pure
      exact ⟨rfl, rfl, le_refl _, by omega, fun i _ _ => by omega⟩

/-- What `invMerge` guarantees. -/
structure InvPost (lt : α → α → Bool) (v : Nat → α) (middle last f1 f2 res inv : Nat) (r : Nat × Nat)
    (s s' : St α) (w : Nat → α) : Prop where
  lo : f2 ≤ r.1
  hi : r.1 ≤ last
  count : r.2 = inv + crossInv lt (lst v f1 middle) (lst v f2 last)
  out : ∀ k, res ≤ k → k < res + (middle - f1) + (r.1 - f2) → s'.cell k = .val (w k)
  perm : (lst w res (res + (middle - f1) + (r.1 - f2))).Perm (lst v f1 middle ++ lst v f2 r.1)
  sorted : SortedList lt (lst w res (res + (middle - f1) + (r.1 - f2)))
  le : ∀ x ∈ lst v f1 middle, ∀ k, r.1 ≤ k → k < last → lt (v k) x = false
  m1 : ∀ k, f1 ≤ k → k < middle → s'.cell k = .moved
  m2 : ∀ k, f2 ≤ k → k < r.1 → s'.cell k = .moved
  oth : ∀ k, ¬ (f1 ≤ k ∧ k < middle) → ¬ (f2 ≤ k ∧ k < r.1) →
    ¬ (res ≤ k ∧ k < res + (middle - f1) + (r.1 - f2)) → s'.cell k = s.cell k
  env : s'.env = s.env

theorem lst_shift' {v : Nat → α} {a b r n : Nat} (h : b = a + n) :
    lst (fun k => v (a + (k - r))) r (r + n) = lst v a b := by
  subst h
  refine List.ext_getElem (by simp) fun i h1 h2 => ?_
  simp [lst]

theorem invMerge_spec (hlt : StrictWeak lt) {v : Nat → α} {middle last : Nat} :
    ∀ (n f1 f2 res inv : Nat) (s : St α),
    (middle - f1) + (last - f2) = n → f1 ≤ middle → middle ≤ f2 → f2 ≤ last → last ≤ res →
    (∀ k, f1 ≤ k → k < middle → s.cell k = .val (v k)) →
    (∀ k, f2 ≤ k → k < last → s.cell k = .val (v k)) →
    (∀ k, res ≤ k → k < res + n → Live s.cell k) →
    SortedOn lt f1 middle v → SortedOn lt f2 last v →
    wp (invMerge (tick lt) middle last f1 f2 res inv)
      (fun r s' => ∃ w, InvPost lt v middle last f1 f2 res inv r s s' w) s := by
  intro n
  induction n with
  | zero =>
    intro f1 f2 res inv s hn h1 h2 h3 h4 _ _ _ _ _
    rw [invMerge, if_neg (by omega)]
    apply wp_pure
    have e : res + (middle - f1) + (f2 - f2) = res := by omega
    refine ⟨v, le_refl _, by dsimp only; omega, ?_, ?_, ?_, ?_, ?_, ?_, ?_, fun _ _ _ _ => rfl, rfl⟩
    · rw [lst_nil (show middle ≤ f1 by omega), lst_nil (show last ≤ f2 by omega)]; rfl
    · dsimp only; intro k _ _; omega
    · dsimp only; rw [lst_nil (by omega), lst_nil (by omega), lst_nil (by omega)]; exact .refl _
    · dsimp only; rw [lst_nil (by omega)]; exact List.Pairwise.nil
    · dsimp only; intro _ _ k _ _; omega
    · intro k _ _; omega
    · dsimp only; intro k _ _; omega
  | succ n ih =>
    intro f1 f2 res inv s hn h1 h2 h3 h4 c1 c2 cl s1 s2
    rw [invMerge]
    split
    · rename_i hne
      split
      · rename_i heq
        apply wp_bind
        refine wp_mono (moveRange_spec (d1 := id) (d2 := id) (D := fun k => res + (k - f1)) (x := v)
          (middle - f1) f1 middle res s (by omega) (fun k a b => rfl) c1 ?_ ?_ ?_ ?_) ?_
        · intro k a b; exact cl _ (by omega) (by omega)
        · intro j k a b c; exact fun e => by simp only [id] at e; omega
        · intro j k a b c; omega
        · intro j k a b c; exact fun e => by simp only [id] at e; omega
        · rintro r s' ⟨-, m1, m2, m3, m4, -, -⟩
          apply wp_pure
          refine ⟨fun k => v (f1 + (k - res)), le_refl _, by dsimp only; omega, ?_, ?_, ?_, ?_, ?_, ?_, ?_, ?_,
            m4⟩
          · rw [lst_nil (show last ≤ f2 by omega)]; rfl
          · intro k a b
            dsimp only at b
            have := m1 (f1 + (k - res)) (by omega) (by omega)
            rwa [show res + (f1 + (k - res) - f1) = k by omega] at this
          · dsimp only
            rw [lst_nil (f := f2) (by omega), show res + (middle - f1) + (f2 - f2) = res + (middle - f1) by omega,
              lst_shift' (b := middle) (by omega), List.append_nil]
          · dsimp only
            rw [show res + (middle - f1) + (f2 - f2) = res + (middle - f1) by omega,
              lst_shift' (b := middle) (by omega)]
            exact sortedOn_iff.1 s1
          · dsimp only; intro _ _ k _ _; omega
          · intro k a b
            exact m2 k a b fun j _ _ => by simp only [id]; omega
          · dsimp only; intro k _ _; omega
          · dsimp only
            intro k a b c
            exact m3 k (fun j _ _ e => c (by omega)) (fun j _ _ e => a (by simp only [id] at e; omega))
      · rename_i hne2
        apply wp_bind
        refine wp_read' (c2 f2 (le_refl _) (by omega)) ?_
        apply wp_bind
        refine wp_read' (c1 f1 (le_refl _) (by omega)) ?_
        wtick
        split
        · rename_i hc
          apply wp_bind
          refine wp_moveTo' (a := v f2) (by omega) (c2 f2 (le_refl _) (by omega))
            (cl res (le_refl _) (by omega)) fun s' e1 e2 _ _ => ?_
          refine wp_mono (ih f1 (f2 + 1) (res + 1) (inv + (middle - f1)) s' (by omega) h1 (by omega) (by omega)
            (by omega) ?_ ?_ ?_ s1 (fun i j a b c => s2 i j (by omega) b c)) ?_
          · intro k a b; rw [e1, sc_ne (by omega), sc_ne (by omega)]; exact c1 k a b
          · intro k a b; rw [e1, sc_ne (by omega), sc_ne (by omega)]; exact c2 k (by omega) b
          · intro k a b
            have := cl k (by omega) (by omega)
            unfold Live at this ⊢
            rwa [e1, sc_ne (by omega), sc_ne (by omega)]
          · rintro ⟨r1, r2⟩ s'' ⟨w, p⟩
            obtain ⟨lo, hi, count, out, perm, sorted, le, m1, m2, oth, env⟩ := p
            dsimp only at *
            have L : lst (fun k => if k = res then v f2 else w k) res (res + (middle - f1) + (r1 - f2)) =
                v f2 :: lst w (res + 1) (res + 1 + (middle - f1) + (r1 - (f2 + 1))) := by
              rw [lst_cons (by omega), show res + 1 + (middle - f1) + (r1 - (f2 + 1)) =
                res + (middle - f1) + (r1 - f2) by omega]
              simp only [if_true]
              rw [lst_congr (w := w) fun i _ _ => if_neg (by omega)]
            refine ⟨fun k => if k = res then v f2 else w k, ?_, hi, ?_, ?_, ?_, ?_, le, m1, ?_, ?_, ?_⟩
            · dsimp only; omega
            · dsimp only
              rw [count, lst_cons (f := f2) (by omega)]
              unfold crossInv
              rw [List.map_cons, List.sum_cons, List.countP_eq_length.2, lst_length]
              · omega
              · intro x hx
                obtain ⟨i, a, b, rfl⟩ := mem_lst.1 hx
                by_cases hi : i = f1
                · rw [hi]; exact hc
                · exact hlt.lt_of_lt_of_le hc (s1 f1 i (le_refl _) (by omega) b)
            · dsimp only
              intro k a b
              split
              · rename_i hk
                rw [oth k (by omega) (by omega) (by omega), e1, hk, sc_eq rfl]
              · exact out k (by omega) (by omega)
            · dsimp only
              rw [L, lst_cons (f := f2) (l := r1) (by omega)]
              exact ((List.perm_cons _).2 perm).trans List.perm_middle.symm
            · dsimp only
              rw [L]
              refine List.pairwise_cons.2 ⟨fun y hy => ?_, sorted⟩
              rcases List.mem_append.1 (perm.mem_iff.1 hy) with h | h
              · obtain ⟨i, a, b, rfl⟩ := mem_lst.1 h
                refine hlt.asymm ?_
                by_cases hi : i = f1
                · rw [hi]; exact hc
                · exact hlt.lt_of_lt_of_le hc (s1 f1 i (le_refl _) (by omega) b)
              · obtain ⟨i, a, b, rfl⟩ := mem_lst.1 h
                exact s2 f2 i (le_refl _) (by omega) (by omega)
            · dsimp only
              intro k a b
              by_cases hk : k = f2
              · rw [oth k (by omega) (by omega) (by omega), e1, hk, sc_ne (by omega), sc_eq rfl]
              · exact m2 k (by omega) b
            · dsimp only
              intro k a b c
              rw [oth k a (by omega) (by omega), e1, sc_ne (by omega), sc_ne (by omega)]
            · rw [env, e2]; rfl
        · rename_i hc
          have hc : lt (v f2) (v f1) = false := by simpa using hc
          apply wp_bind
          refine wp_moveTo' (a := v f1) (by omega) (c1 f1 (le_refl _) (by omega))
            (cl res (le_refl _) (by omega)) fun s' e1 e2 _ _ => ?_
          refine wp_mono (ih (f1 + 1) f2 (res + 1) inv s' (by omega) (by omega) (by omega) (by omega)
            (by omega) ?_ ?_ ?_ (fun i j a b c => s1 i j (by omega) b c) s2) ?_
          · intro k a b; rw [e1, sc_ne (by omega), sc_ne (by omega)]; exact c1 k (by omega) b
          · intro k a b; rw [e1, sc_ne (by omega), sc_ne (by omega)]; exact c2 k (by omega) b
          · intro k a b
            have := cl k (by omega) (by omega)
            unfold Live at this ⊢
            rwa [e1, sc_ne (by omega), sc_ne (by omega)]
          · rintro ⟨r1, r2⟩ s'' ⟨w, p⟩
            obtain ⟨lo, hi, count, out, perm, sorted, le, m1, m2, oth, env⟩ := p
            dsimp only at *
            have L : lst (fun k => if k = res then v f1 else w k) res (res + (middle - f1) + (r1 - f2)) =
                v f1 :: lst w (res + 1) (res + 1 + (middle - (f1 + 1)) + (r1 - f2)) := by
              rw [lst_cons (by omega), show res + 1 + (middle - (f1 + 1)) + (r1 - f2) =
                res + (middle - f1) + (r1 - f2) by omega]
              simp only [if_true]
              rw [lst_congr (w := w) fun i _ _ => if_neg (by omega)]
            have f1le : ∀ k, f2 ≤ k → k < last → lt (v k) (v f1) = false := by
              intro k a b
              by_cases hk : k = f2
              · rw [hk]; exact hc
              · exact hlt.le_trans hc (s2 f2 k (le_refl _) (by omega) b)
            refine ⟨fun k => if k = res then v f1 else w k, lo, hi, ?_, ?_, ?_, ?_, ?_, ?_, m2, ?_, ?_⟩
            · dsimp only
              rw [count, lst_cons (f := f1) (by omega), crossInv_cons_left, List.countP_eq_zero.2]
              · omega
              · intro x hx
                obtain ⟨i, a, b, rfl⟩ := mem_lst.1 hx
                simp [f1le i a b]
            · dsimp only
              intro k a b
              split
              · rename_i hk
                rw [oth k (by omega) (by omega) (by omega), e1, hk, sc_eq rfl]
              · exact out k (by omega) (by omega)
            · dsimp only
              rw [L, lst_cons (f := f1) (l := middle) (by omega)]
              exact (List.perm_cons _).2 perm
            · dsimp only
              rw [L]
              refine List.pairwise_cons.2 ⟨fun y hy => ?_, sorted⟩
              rcases List.mem_append.1 (perm.mem_iff.1 hy) with h | h
              · obtain ⟨i, a, b, rfl⟩ := mem_lst.1 h
                exact s1 f1 i (le_refl _) (by omega) b
              · obtain ⟨i, a, b, rfl⟩ := mem_lst.1 h
                exact f1le i a (by omega)
            · dsimp only
              intro x hx k a b
              rw [lst_cons (by omega)] at hx
              rcases List.mem_cons.1 hx with e | e
              · rw [e]; exact f1le k (by omega) b
              · exact le x e k a b
            · intro k a b
              by_cases hk : k = f1
              · rw [oth k (by omega) (by omega) (by omega), e1, hk, sc_ne (by omega), sc_eq rfl]
              · exact m1 k (by omega) b
            · dsimp only
              intro k a b c
              rw [oth k (by omega) b (by omega), e1, sc_ne (by omega), sc_ne (by omega)]
            · rw [env, e2]; rfl
    · rename_i heq
      apply wp_pure
      refine ⟨v, le_refl _, by dsimp only; omega, ?_, ?_, ?_, ?_, ?_, ?_, ?_, fun _ _ _ _ => rfl, rfl⟩
      · rw [lst_nil (show middle ≤ f1 by omega)]
        dsimp only
        rw [crossInv_zero (by simp)]; rfl
      · dsimp only; intro k _ _; omega
      · dsimp only; rw [lst_nil (by omega), lst_nil (by omega), lst_nil (by omega)]; exact .refl _
      · dsimp only; rw [lst_nil (by omega)]; exact List.Pairwise.nil
      · dsimp only
        intro x hx
        rw [lst_nil (by omega)] at hx
        exact absurd hx (by simp)
      · intro k _ _; omega
      · dsimp only; intro k _ _; omega

/-- The cells `[first, last)` and the cache `[cache, cache + size)` changed; the cache is usable. -/
structure InvFrame (first last cache size : Nat) (s s' : St α) : Prop where
  oth : ∀ k, ¬ (first ≤ k ∧ k < last) → ¬ (cache ≤ k ∧ k < cache + size) → s'.cell k = s.cell k
  live : ∀ k, cache ≤ k → k < cache + size → Live s'.cell k
  env : s'.env = s.env

theorem countInversionsMerge_spec (hlt : StrictWeak lt) {v : Nat → α} {first middle last cache : Nat}
    {s : St α} (h1 : first ≤ middle) (h2 : middle < last) (h3 : last ≤ cache)
    (hh : Holds s.cell first last v)
    (hl : ∀ k, cache ≤ k → k < cache + (last - first) → Live s.cell k)
    (s1 : SortedOn lt first middle v) (s2 : SortedOn lt middle last v) :
    wp (countInversionsMerge (tick lt) first middle last cache) (fun r s' => ∃ w,
      r = crossInv lt (lst v first middle) (lst v middle last) ∧ Holds s'.cell first last w ∧
      SortedOn lt first last w ∧ (lst w first last).Perm (lst v first last) ∧
      InvFrame first last cache (last - first) s s') s := by
  unfold countInversionsMerge
  apply wp_bind
  refine wp_mono (invSkip_spec hlt (middle - first) first s (by omega) (le_refl _) h2 hh) ?_
  rintro g t ⟨t1, t2, t3, t4, t5⟩
  have hle : ∀ i, first ≤ i → i < g → ∀ k, middle ≤ k → k < last → lt (v k) (v i) = false := by
    intro i a b k c d
    refine hlt.asymm ?_
    by_cases hk : k = middle
    · rw [hk]; exact t5 i a b
    · exact hlt.lt_of_lt_of_le (t5 i a b) (s2 middle k (le_refl _) (by omega) d)
  apply wp_bind
  refine wp_mono (invMerge_spec hlt (v := v) (middle := middle) (last := last) _ g middle cache 0 t rfl t4 (le_refl _)
    (by omega) h3 ?_ ?_ ?_ (fun i j a b c => s1 i j (by omega) b c) s2) ?_
  · intro k a b; rw [t1]; exact hh k (by omega) (by omega)
  · intro k a b; rw [t1]; exact hh k (by omega) (by omega)
  · intro k a b; rw [t1]; exact hl k a (by omega)
  · rintro ⟨r1, r2⟩ t' ⟨w, p⟩
    obtain ⟨lo, hi, count, out, perm, sorted, le, m1, m2, oth, env⟩ := p
    dsimp only at *
    apply wp_bind
    refine wp_mono (moveRange_spec (d1 := id) (d2 := id) (D := fun k => g + (k - cache)) (x := w)
      (r1 - g) cache (cache + (r1 - g)) g t' rfl (fun k a b => rfl) ?_ ?_ ?_ ?_ ?_) ?_
    · intro k a b; exact out k a (by omega)
    · intro k a b
      by_cases hk : g + (k - cache) < middle
      · exact .inl (m1 _ (by omega) hk)
      · exact .inl (m2 _ (by omega) (by omega))
    · intro j k a b c; exact fun e => by simp only [id] at e; omega
    · intro j k a b c; omega
    · intro j k a b c; exact fun e => by simp only [id] at e; omega
    · rintro _ u ⟨-, u1, u2, u3, u4, -, -⟩
      apply wp_pure
      have e : cache + (middle - g) + (r1 - middle) = cache + (r1 - g) := by omega
      rw [e] at perm sorted
      have low : ∀ k, g ≤ k → k < r1 → u.cell k = .val (w (cache + (k - g))) := by
        intro k a b
        have := u1 (cache + (k - g)) (by omega) (by omega)
        rwa [show g + (cache + (k - g) - cache) = k by omega] at this
      have keep : ∀ k, first ≤ k → k < last → ¬ (g ≤ k ∧ k < r1) → u.cell k = .val (v k) := by
        intro k a b c
        rw [u3 k (fun j _ _ => by omega) (fun j _ _ e => by simp only [id] at e; omega),
          oth k (by omega) (by omega) (by omega), t1]
        exact hh k a b
      generalize hw' : (fun k => if g ≤ k ∧ k < r1 then w (cache + (k - g)) else v k) = w'
      have la : lst w' first g = lst v first g := lst_congr fun i a b => by
        rw [← hw']; exact if_neg (by omega)
      have lb : lst w' g r1 = lst w cache (cache + (r1 - g)) := by
        rw [← lst_shift' (v := w) (a := cache) (b := cache + (r1 - g)) (r := g) (n := r1 - g) rfl,
          show g + (r1 - g) = r1 by omega]
        exact lst_congr fun i a b => by rw [← hw']; exact if_pos ⟨a, b⟩
      have lc : lst w' r1 last = lst v r1 last := lst_congr fun i a b => by
        rw [← hw']; exact if_neg (by omega)
      have lw : lst w' first last = lst v first g ++ (lst w cache (cache + (r1 - g)) ++ lst v r1 last) := by
        rw [lst_append (m := g) (by omega) (by omega), lst_append (f := g) (m := r1) (by omega) (by omega), la, lb, lc]
      have lv : lst v first last = lst v first g ++ (lst v g middle ++ lst v middle r1 ++ lst v r1 last) := by
        rw [← lst_append (by omega) (by omega), ← lst_append (by omega) (by omega),
          ← lst_append (by omega) (by omega)]
      refine ⟨w', ?_, ?_, ?_, ?_, ?_, ?_, ?_⟩
      · rw [count, lst_append (f := first) (m := g) (by omega) t4, crossInv_append_left, crossInv_zero (as := lst v first g)]
        intro x hx y hy
        obtain ⟨i, a, b, rfl⟩ := mem_lst.1 hx
        obtain ⟨k, c, d, rfl⟩ := mem_lst.1 hy
        exact hle i a b k c d
      · intro k a b
        rw [← hw']
        dsimp only
        split
        · rename_i h; exact low k h.1 h.2
        · rename_i h; exact keep k a b h
      · refine sortedOn_iff.2 ?_
        rw [lw]
        refine List.pairwise_append.2 ⟨sortedOn_iff.1 fun i j a b c => s1 i j a b (by omega), List.pairwise_append.2
          ⟨sorted, sortedOn_iff.1 fun i j a b c => s2 i j (by omega) b c, ?_⟩, ?_⟩
        · intro x hx y hy
          obtain ⟨k, c, d, rfl⟩ := mem_lst.1 hy
          rcases List.mem_append.1 (perm.mem_iff.1 hx) with h | h
          · exact le x h k c d
          · obtain ⟨i, a, b, rfl⟩ := mem_lst.1 h
            exact s2 i k a (by omega) d
        · intro x hx y hy
          obtain ⟨i, a, b, rfl⟩ := mem_lst.1 hx
          rcases List.mem_append.1 hy with h | h
          · rcases List.mem_append.1 (perm.mem_iff.1 h) with h | h
            · obtain ⟨k, c, d, rfl⟩ := mem_lst.1 h
              exact s1 i k a (by omega) d
            · obtain ⟨k, c, d, rfl⟩ := mem_lst.1 h
              exact hle i a b k c (by omega)
          · obtain ⟨k, c, d, rfl⟩ := mem_lst.1 h
            exact hle i a b k (by omega) d
      · rw [lw, lv]
        exact (perm.append_right _).append_left _
      · intro k a b
        rw [u3 k (fun j _ _ => by omega) (fun j _ _ e => by simp only [id] at e; omega),
          oth k (by omega) (by omega) (by omega), t1]
      · intro k a b
        by_cases hk : k < cache + (r1 - g)
        · exact .inl (u2 k a hk fun j _ _ => by simp only [id]; omega)
        · have := hl k a b
          unfold Live at this ⊢
          rwa [u3 k (fun j _ _ => by omega) (fun j _ _ e => by simp only [id] at e; omega),
            oth k (by omega) (by omega) (by omega), t1]
      · rw [u4, env, t2]

theorem countInversions_spec (hlt : StrictWeak lt) {cache : Nat} : ∀ (n first last : Nat) (v : Nat → α)
    (s : St α), last - first = n → first ≤ last → last ≤ cache → Holds s.cell first last v →
    (∀ k, cache ≤ k → k < cache + (last - first) → Live s.cell k) →
    wp (countInversions (tick lt) first last cache) (fun r s' => ∃ w,
      r = invCount lt (lst v first last) ∧ Holds s'.cell first last w ∧
      SortedOn lt first last w ∧ (lst w first last).Perm (lst v first last) ∧
      InvFrame first last cache (last - first) s s') s := by
  intro n
  induction n using Nat.strong_induction_on with
  | _ n ih =>
    intro first last v s hn h1 h2 hh hl
    rw [countInversions]
    dsimp only
    split
    · rename_i hs
      apply wp_pure
      refine ⟨v, ?_, hh, fun i j _ _ _ => by omega, .refl _, fun _ _ _ => rfl, hl, rfl⟩
      rcases (by omega : first = last ∨ last = first + 1) with h | h
      · rw [lst_nil (by omega)]; rfl
      · rw [h, lst_one]; rfl
    · rename_i hs
      generalize hm : first + (last - first) / 2 = m
      apply wp_bind
      refine wp_mono (ih (m - first) (by omega) first m v s rfl (by omega) (by omega)
        (fun i a b => hh i a (by omega)) (fun k a b => hl k a (by omega))) ?_
      rintro ra s1 ⟨w1, e1, hw1, so1, p1, f1⟩
      have hl1 : ∀ k, cache ≤ k → k < cache + (last - first) → Live s1.cell k := by
        intro k a b
        by_cases hk : k < cache + (m - first)
        · exact f1.live k a hk
        · have := hl k a b
          unfold Live at this ⊢
          rwa [f1.oth k (by omega) (by omega)]
      apply wp_bind
      refine wp_mono (ih (last - m) (by omega) m last v s1 rfl (by omega) (by omega)
        (fun i a b => by rw [f1.oth i (by omega) (by omega)]; exact hh i (by omega) b)
        (fun k a b => hl1 k a (by omega))) ?_
      rintro rb s2 ⟨w2, e2, hw2, so2, p2, f2⟩
      have hl2 : ∀ k, cache ≤ k → k < cache + (last - first) → Live s2.cell k := by
        intro k a b
        by_cases hk : k < cache + (last - m)
        · exact f2.live k a hk
        · have := hl1 k a b
          unfold Live at this ⊢
          rwa [f2.oth k (by omega) (by omega)]
      generalize hu : (fun k => if k < m then w1 k else w2 k) = u
      have ua : ∀ k, k < m → u k = w1 k := fun k h => by rw [← hu]; exact if_pos h
      have ub : ∀ k, m ≤ k → u k = w2 k := fun k h => by rw [← hu]; exact if_neg (by omega)
      have la : lst u first m = lst w1 first m := lst_congr fun i a b => ua i b
      have lb : lst u m last = lst w2 m last := lst_congr fun i a b => ub i a
      apply wp_bind
      refine wp_mono (countInversionsMerge_spec hlt (v := u) (first := first) (middle := m) (last := last)
        (cache := cache) (by omega) (by omega) h2 ?_ hl2 ?_ ?_) ?_
      · intro k a b
        by_cases hk : k < m
        · rw [f2.oth k (by omega) (by omega), ua k hk]; exact hw1 k a hk
        · rw [ub k (by omega)]; exact hw2 k (by omega) b
      · rw [sortedOn_iff, la]; exact sortedOn_iff.1 so1
      · rw [sortedOn_iff, lb]; exact sortedOn_iff.1 so2
      · rintro rc s3 ⟨w, e3, hw, so3, p3, f3⟩
        apply wp_pure
        have hv : lst v first last = lst v first m ++ lst v m last := lst_append (by omega) (by omega)
        have hu' : lst u first last = lst w1 first m ++ lst w2 m last := by
          rw [lst_append (m := m) (by omega) (by omega), la, lb]
        refine ⟨w, ?_, hw, so3, ?_, ?_, f3.live, ?_⟩
        · rw [hv, invCount_append, e1, e2, e3, la, lb, crossInv_perm p1 p2]
          omega
        · rw [hv]
          rw [hu'] at p3
          exact p3.trans (p1.append p2)
        · intro k a b
          rw [f3.oth k a b, f2.oth k (by omega) (by omega), f1.oth k (by omega) (by omega)]
        · rw [f3.env, f2.env, f1.env]

theorem invCount_map {f : β → α} (xs : List β) :
    invCount lt (xs.map f) = invCount (fun x y => lt (f x) (f y)) xs := by
  induction xs with
  | nil => rfl
  | cons x xs ih => rw [List.map_cons, invCount, invCount, ih, List.countP_map]; rfl

theorem probeInv_keeps (hlt : StrictWeak lt) (xs : List α) :
    Keeps (probeInv lt xs) (fun r => r = invCount lt xs) := by
  intro s
  unfold probeInv
  split
  · rename_i h
    refine ⟨0, s.cmps, s.grant, rfl, ?_⟩
    match xs, h with
    | [], _ => rfl
    | [_], _ => rfl
    | _ :: _ :: _, h => simp at h; omega
  · rename_i h
    have hseg : Seg (invMem xs.zipIdx s).cell 0 xs.zipIdx := by
      intro i hi
      show (match xs.zipIdx[0 + i]? with | some x => Cell.val x | none => _) = _
      rw [Nat.zero_add, List.getElem?_eq_getElem hi]
    obtain ⟨v, hv, hv'⟩ := @Seg.holds _ ⟨(xs.zipIdx[0]'(by simp; omega))⟩ _ _ _ hseg
    simp only [Nat.zero_add, List.length_zipIdx] at hv hv'
    obtain ⟨r, s', e, w, er, -⟩ := countInversions_spec (indirectLt_sw hlt) (cache := xs.length) xs.length 0 xs.length v
      (invMem xs.zipIdx s) (by omega) (by omega) (le_refl _) hv (by
        intro k a b
        left
        show (match xs.zipIdx[k]? with
          | some x => Cell.val x
          | none => if k < 2 * xs.zipIdx.length then .moved else .unalloc) = _
        rw [List.getElem?_eq_none (by simpa using a)]
        simp only [List.length_zipIdx]
        exact if_pos (by omega))
    rw [e]
    refine ⟨r, s'.cmps, s'.grant, rfl, ?_⟩
    rw [er, hv']
    show invCount (indirectLt lt) xs.zipIdx = invCount lt xs
    have := invCount_map (lt := lt) (f := Prod.fst) xs.zipIdx
    rw [List.zipIdx_map_fst 0 xs] at this
    rw [this]
    rfl

theorem invCount_le (xs : List α) : 2 * invCount lt xs ≤ xs.length * (xs.length - 1) := by
  induction xs with
  | nil => simp [invCount]
  | cons x xs ih =>
    rw [invCount, List.length_cons, Nat.add_sub_cancel]
    have : xs.countP (fun y => lt y x) ≤ xs.length := List.countP_le_length
    obtain h | ⟨m, h⟩ : xs.length = 0 ∨ ∃ m, xs.length = m + 1 := by
      cases xs with
      | nil => exact .inl rfl
      | cons y ys => exact .inr ⟨ys.length, rfl⟩
    · rw [h] at ih this ⊢; omega
    · rw [h] at ih this ⊢; simp only [Nat.add_sub_cancel] at ih ⊢; nlinarith

/-- A strictly decreasing sequence reaches the greatest value. -/
theorem invCount_desc {xs : List α} (h : xs.Pairwise (fun x y => lt y x = true)) :
    2 * invCount lt xs = xs.length * (xs.length - 1) := by
  induction xs with
  | nil => simp [invCount]
  | cons x xs ih =>
    obtain ⟨h1, h2⟩ := List.pairwise_cons.1 h
    have ih := ih h2
    rw [invCount, List.length_cons, Nat.add_sub_cancel, List.countP_eq_length.2 h1]
    obtain h | ⟨m, h⟩ : xs.length = 0 ∨ ∃ m, xs.length = m + 1 := by
      cases xs with
      | nil => exact .inl rfl
      | cons y ys => exact .inr ⟨ys.length, rfl⟩
    · rw [h] at ih ⊢; omega
    · rw [h] at ih ⊢; simp only [Nat.add_sub_cancel] at ih ⊢; nlinarith

theorem invCount_zero (xs : List α) : invCount lt xs = 0 ↔ SortedList lt xs := by
  induction xs with
  | nil => exact ⟨fun _ => List.Pairwise.nil, fun _ => rfl⟩
  | cons x xs ih =>
    rw [invCount, Nat.add_eq_zero_iff, ih, SortedList, SortedList, List.pairwise_cons, List.countP_eq_zero]
    simp

end CppSort
