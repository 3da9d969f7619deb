import Verif.Proof.Partition
import Verif.Proof.Insertion
import Verif.Proof.MergeSort
set_option autoImplicit false

namespace CppSort
variable {α : Type} {lt : α → α → Bool}

/-- `[f, m1) < x`, `[m1, m2) ≡ x`, `x < [m2, l)`. -/
structure Split3 (lt : α → α → Bool) (f m1 m2 l : Nat) (v : Nat → α) (x : α) : Prop where
  lo : f ≤ m1
  mid : m1 < m2
  hi : m2 ≤ l
  left : ∀ i, f ≤ i → i < m1 → lt (v i) x = true
  eq1 : ∀ i, m1 ≤ i → i < m2 → lt (v i) x = false
  eq2 : ∀ i, m1 ≤ i → i < m2 → lt x (v i) = false
  right : ∀ i, m2 ≤ i → i < l → lt x (v i) = true

theorem threeWay_spec (hlt : StrictWeak lt) (cat : Cat) {f l m : Nat} {s : St α} {v : Nat → α}
    (hm : f ≤ m ∧ m < l) (hh : Holds s.cell f l v) :
    wp (threeWay (tick lt) cat f l m (l - 1)) (fun r s' => ∃ v' x, Upd f l s s' v v' ∧
      Split3 lt f r.1 r.2 l v' x) s := by
  unfold threeWay
  apply wp_bind
  refine wp_swap hh hm (by omega) ?_
  intro s1 u1
  apply wp_bind
  refine wp_mono (partition_spec cat (isPred_ltPivot (x := swp v m (l - 1) (l - 1)) (by omega)
    (by omega) (Nat.le_refl f) (by omega) (Or.inr (Nat.le_refl _))) (Nat.le_refl _) (by omega)
    (by omega) u1.holds rfl) ?_
  generalize swp v m (l - 1) (l - 1) = x
  rintro m1 s2 ⟨v2, u2, p2⟩
  have lo1 := p2.lo
  have hi1 := p2.hi
  apply wp_bind
  refine wp_swap u2.holds (i := m1) (j := l - 1) (by omega) (by omega) ?_
  intro s3 u3
  have hx : swp v2 m1 (l - 1) m1 = x := by
    rw [swp_l rfl]; exact p2.inv
  apply wp_bind
  refine wp_mono (partition_spec cat (isPred_notPivotLt (lt := lt) (x := x) (piv := m1) (by omega)
    (by omega) (show f ≤ m1 + 1 by omega) (Nat.le_refl l) (Or.inl (Nat.lt_succ_self _))) (by omega)
    (Nat.le_refl _) (by omega) u3.holds hx) ?_
  rintro m2 s4 ⟨v4, u4, p4⟩
  have lo2 := p4.lo
  have hi2 := p4.hi
  have hx4 : v4 m1 = x := p4.inv
  have hge : ∀ i, m1 + 1 ≤ i → i < l → lt (swp v2 m1 (l - 1) i) x = false := by
    intro i a b
    by_cases e : i = l - 1
    · rw [swp_r e]
      exact p2.right m1 (Nat.le_refl _) (by omega)
    · rw [swp_o (by omega) e]
      exact p2.right i (by omega) (by omega)
  have hge4 := p4.perm.forall (P := fun y => lt y x = false) hge
  refine wp_pure ⟨v4, x, ((u1.trans u2).trans u3).trans u4, lo1, by omega, hi2, ?_, ?_, ?_, ?_⟩
  · intro i a b
    have b' : i < m1 := b
    rw [p4.perm.out (by omega), swp_o (by omega) (by omega)]
    exact p2.left i a b
  · intro i a b
    have a' : m1 ≤ i := a
    have b' : i < m2 := b
    by_cases e : i = m1
    · rw [e, hx4]; exact hlt.irrefl _
    · exact hge4 i (by omega) (by omega)
  · intro i a b
    have a' : m1 ≤ i := a
    have b' : i < m2 := b
    by_cases e : i = m1
    · rw [e, hx4]; exact hlt.irrefl _
    · have := p4.left i (by omega) b
      simpa using this
  · intro i a b
    have a' : m2 ≤ i := a
    have := p4.right i a b
    simpa using this

theorem iterSort3_mixes {f l a b c : Nat} (ha : f ≤ a ∧ a < l) (hb : f ≤ b ∧ b < l)
    (hc : f ≤ c ∧ c < l) : Mixes f l (iterSort3 (tick lt) a b c) (fun r => r = b) := by
  unfold iterSort3
  mix

theorem pickPivotGood_mixes {f l : Nat} (h : 8 ≤ l - f) :
    Mixes f l (pickPivotGood (tick lt) f l (l - f))
      (fun r => (f ≤ r.1 ∧ r.1 < l) ∧ r.2 = l - 1) := by
  unfold pickPivotGood
  refine (iterSort3_mixes (by omega) (by omega) (by omega)).bind fun _ _ => ?_
  refine (iterSort3_mixes (by omega) (by omega) (by omega)).bind fun _ _ => ?_
  refine (iterSort3_mixes (by omega) (by omega) (by omega)).bind fun _ _ => ?_
  refine (iterSort3_mixes (by omega) (by omega) (by omega)).bind fun r hr => ?_
  refine Mixes.pure ⟨?_, rfl⟩
  show f ≤ r ∧ r < l
  omega

set_option maxRecDepth 4000 in
theorem iterMedian5_mixes {f l a b c d e : Nat} (ha : f ≤ a ∧ a < l) (hb : f ≤ b ∧ b < l)
    (hc : f ≤ c ∧ c < l) (hd : f ≤ d ∧ d < l) (he : f ≤ e ∧ e < l) :
    Mixes f l (iterMedian5 (tick lt) a b c d e) (fun r => f ≤ r ∧ r < l) := by
  unfold iterMedian5
  dsimp only
  mix

theorem iterMedianRest_mixes {f l a n : Nat} (h : n ≤ 5) (h0 : 0 < n) (ha : f ≤ a) (hl : a + n ≤ l) :
    Mixes f l (iterMedianRest (tick lt) a n) (fun r => f ≤ r ∧ r < l) := by
  have : n = 1 ∨ n = 2 ∨ n = 3 ∨ n = 4 ∨ n = 5 := by omega
  rcases this with rfl | rfl | rfl | rfl | rfl
  · exact Mixes.pure (by omega)
  · exact Mixes.pure (by omega)
  · simp only [iterMedianRest]
    mix
  · simp only [iterMedianRest]
    mix
  · exact iterMedian5_mixes (by omega) (by omega) (by omega) (by omega) (by omega)

theorem mediansLoop_mixes {f l : Nat} : ∀ (i it q : Nat), f ≤ q → q ≤ it → it + 5 * i ≤ l →
    Mixes f l (mediansLoop (tick lt) i it q) (fun r => r = (it + 5 * i, q + i)) := by
  intro i
  induction i with
  | zero => intro it q _ _ _; exact Mixes.pure rfl
  | succ i ih =>
    intro it q h1 h2 h3
    rw [mediansLoop]
    refine (iterMedian5_mixes (by omega) (by omega) (by omega) (by omega) (by omega)).bind
      fun r hr => ?_
    mix1
    refine (ih (it + 5) (q + 1) (by omega) (by omega) (by omega)).mono ?_
    rintro r rfl
    ext <;> simp only <;> omega

theorem mediansRest_mixes {f l rs n it q : Nat} (h1 : n - rs < 5) (h : rs ≤ n) (hq : f ≤ q)
    (hq2 : q < l ∨ rs = n) (hit : f ≤ it) (hl : it + (n - rs) ≤ l) :
    Mixes f l (mediansRest (tick lt) rs n it q) (fun r => r = if rs = n then q else q + 1) := by
  unfold mediansRest
  refine Mixes.ite (fun hc => ?_) (fun hc => ?_)
  · refine (iterMedianRest_mixes (f := f) (l := l) (by omega) (by omega) hit hl).bind fun r hr => ?_
    mix1
    refine Mixes.pure ?_
    rw [if_neg hc]
  · refine Mixes.pure ?_
    rw [if_pos (by omega)]

/-- Everything before `k` is at most everything from `k` on. -/
def CutAt (lt : α → α → Bool) (f k l : Nat) (v : Nat → α) : Prop :=
  ∀ i j, f ≤ i → i < k → k ≤ j → j < l → lt (v j) (v i) = false

theorem smallSort_spec (hlt : StrictWeak lt) (cat : Cat) {f l : Nat} {s : St α} {v : Nat → α}
    (h : f ≤ l) (hh : Holds s.cell f l v) :
    wp (smallSort (tick lt) cat f l) (fun _ s' => ∃ v', Upd f l s s' v v' ∧ SortedOn lt f l v') s := by
  unfold smallSort
  have hi := wp_mono (insertionSort_spec hlt h hh) (Q' := fun _ s' => ∃ v', Upd f l s s' v v' ∧
    SortedOn lt f l v') fun _ _ ⟨v', a, b, _⟩ => ⟨v', a.upd, b⟩
  cases cat with
  | forward =>
    exact wp_mono (selectionSortLoop_spec hlt f l (l - f) f s v (by omega) (Nat.le_refl _) hh
      (SortedOn.trivial (by omega)) (fun i j _ _ _ _ => by omega))
      fun _ _ ⟨v', h1, h2, _⟩ => ⟨v', h1, h2⟩
  | bidirectional => exact hi
  | random => exact hi

/-- introselect: returns the position `first + nth`, everything before it is at most everything
from it on. -/
def IntroOk (lt : α → α → Bool) (cat : Cat) (N : Nat) : Prop :=
  ∀ (f l nth : Nat) (s : St α) (v : Nat → α), l - f < N → nth < l - f → Holds s.cell f l v →
    wp (introselect (tick lt) cat f l nth (l - f)) (fun r s' => r = f + nth ∧
      ∃ v', Upd f l s s' v v' ∧ CutAt lt f r l v') s

theorem medianOfMedians_mixes (cat : Cat) {f l N : Nat} (hN : IntroOk lt cat N) (hl : l - f ≤ N)
    (h0 : f < l) : Mixes f l (medianOfMedians (tick lt) cat f l (l - f))
      (fun r => f ≤ r ∧ r < l) := by
  rw [medianOfMedians]
  refine Mixes.ite (fun hc => ?_) (fun hc => ?_)
  · exact iterMedianRest_mixes hc (by omega) (Nat.le_refl _) (by omega)
  · simp only []
    refine (mediansLoop_mixes (l := l) _ f f (Nat.le_refl _) (Nat.le_refl _) (by omega)).bind
      fun r hr => ?_
    subst hr
    simp only
    refine (mediansRest_mixes (l := l) (by omega) (by omega) (by omega) (by omega) (by omega)
      (by omega)).bind fun r hr => ?_
    subst hr
    generalize hsz : (if (l - f) / 5 * 5 = l - f then (l - f) / 5 else (l - f) / 5 + 1) = sz
    have e : (if (l - f) / 5 * 5 = l - f then f + (l - f) / 5 * 5 / 5
        else f + (l - f) / 5 * 5 / 5 + 1) = f + sz := by
      rw [← hsz]; split <;> omega
    rw [e]
    have hs1 : sz < l - f ∧ 0 < sz := by rw [← hsz]; split <;> omega
    intro s v hh
    have := hN f (f + sz) (sz / 2) s v (by omega) (by omega) (hh.sub (Nat.le_refl _) (by omega))
    rw [show f + sz - f = sz by omega] at this
    refine wp_mono this ?_
    rintro r s' ⟨hr, v', u, -⟩
    exact ⟨by omega, v', u.widen hh (Nat.le_refl _) (by omega)⟩

theorem pickPivot_mixes (cat : Cat) {f l N : Nat} (hN : IntroOk lt cat N) (hl : l - f ≤ N)
    (h : 8 ≤ l - f) (bad : Int) :
    Mixes f l (pickPivot (tick lt) cat f l (l - f) bad)
      (fun r => (f ≤ r.1 ∧ r.1 < l) ∧ r.2 = l - 1) := by
  rw [pickPivot]
  refine Mixes.ite (fun _ => pickPivotGood_mixes h) (fun _ => ?_)
  exact (medianOfMedians_mixes cat hN hl (by omega)).bind fun r hr => Mixes.pure ⟨hr, rfl⟩

theorem introselectLoop_spec (hlt : StrictWeak lt) (cat : Cat) {N : Nat} (hN : IntroOk lt cat N) :
    ∀ (n f l nth : Nat) (bad : Int) (s : St α) (v : Nat → α), l - f < n → l - f ≤ N →
    nth < l - f → Holds s.cell f l v →
    wp (introselectLoop (tick lt) cat f l nth (l - f) bad) (fun r s' => r = f + nth ∧
      ∃ v', Upd f l s s' v v' ∧ CutAt lt f r l v') s := by
  intro n
  induction n with
  | zero => intros; omega
  | succ n ih =>
    intro f l nth bad s v hn hl hnth hh
    rw [introselectLoop]
    split
    · rename_i hc
      apply wp_bind
      refine wp_mono (pickPivot_mixes cat hN hl (by omega) bad s v hh) ?_
      rintro ⟨m, last1⟩ s1 ⟨⟨hm, rfl⟩, v1, u1⟩
      apply wp_bind
      refine wp_mono (threeWay_spec hlt cat hm u1.holds) ?_
      rintro ⟨m1, m2⟩ s2 ⟨v2, x, u2, sp⟩
      have lo := sp.lo
      have mid := sp.mid
      have hi := sp.hi
      simp only at lo mid hi
      simp only
      have es : l - f - (m1 - f) - (m2 - m1) = l - m2 := by omega
      rw [es]
      split
      · refine wp_mono (ih f m1 nth (bad - 1) s2 v2 (by omega) (by omega) (by omega)
          (u2.holds.sub (Nat.le_refl _) (by omega))) ?_
        rintro r s3 ⟨hr, v3, u3, cut⟩
        refine ⟨hr, v3, (u1.trans u2).trans (u3.widen u2.holds (Nat.le_refl _) (by omega)), ?_⟩
        intro i j a b c d
        by_cases e : j < m1
        · exact cut i j a b c e
        · have h1 := u3.perm.forall (P := fun y => lt y x = true) sp.left i a (by omega)
          rw [u3.perm.out (i := j) (by omega)]
          have h2 : lt (v2 j) x = false := by
            by_cases e2 : j < m2
            · exact sp.eq1 j (by show m1 ≤ j; omega) e2
            · exact hlt.asymm (sp.right j (by show m2 ≤ j; omega) d)
          exact hlt.le_trans (hlt.asymm h1) h2
      · split
        · refine wp_mono (ih m2 l (nth - (m1 - f + (m2 - m1))) (bad - 1) s2 v2 (by omega) (by omega)
            (by omega) (u2.holds.sub (by omega) (Nat.le_refl _))) ?_
          rintro r s3 ⟨hr, v3, u3, cut⟩
          refine ⟨by omega, v3, (u1.trans u2).trans (u3.widen u2.holds (by omega) (Nat.le_refl _)),
            ?_⟩
          intro i j a b c d
          by_cases e : m2 ≤ i
          · exact cut i j e b c d
          · have h1 := u3.perm.forall (P := fun y => lt x y = true) sp.right j (by omega) d
            rw [u3.perm.out (i := i) (by omega)]
            have h2 : lt x (v2 i) = false := by
              by_cases e2 : i < m1
              · exact hlt.asymm (sp.left i a e2)
              · exact sp.eq2 i (by show m1 ≤ i; omega) (by show i < m2; omega)
            exact hlt.le_trans h2 (hlt.asymm h1)
        · refine wp_pure ⟨by omega, v2, u1.trans u2, ?_⟩
          intro i j a b c d
          have h1 : lt x (v2 i) = false := by
            by_cases e2 : i < m1
            · exact hlt.asymm (sp.left i a e2)
            · exact sp.eq2 i (by show m1 ≤ i; omega) (by show i < m2; omega)
          have h2 : lt (v2 j) x = false := by
            by_cases e2 : j < m2
            · exact sp.eq1 j (by show m1 ≤ j; omega) e2
            · exact hlt.asymm (sp.right j (by show m2 ≤ j; omega) d)
          exact hlt.le_trans h1 h2
    · apply wp_bind
      refine wp_mono (smallSort_spec hlt cat (by omega) hh) ?_
      rintro _ s' ⟨v', u, so⟩
      refine wp_pure ⟨rfl, v', u, fun i j a b c d => so i j a (by omega) d⟩

theorem introOk (hlt : StrictWeak lt) (cat : Cat) : ∀ N, IntroOk lt cat N := by
  intro N
  induction N with
  | zero => intro f l nth s v h; omega
  | succ N ih =>
    intro f l nth s v h hn hh
    rw [introselect]
    exact introselectLoop_spec hlt cat ih (l - f + 1) f l nth _ s v (by omega) (by omega) hn hh

/-- introselect.h, for every size. -/
theorem introselect_spec (hlt : StrictWeak lt) (cat : Cat) {f l nth : Nat} {s : St α} {v : Nat → α}
    (hn : nth < l - f) (hh : Holds s.cell f l v) :
    wp (introselect (tick lt) cat f l nth (l - f)) (fun r s' => r = f + nth ∧
      ∃ v', Upd f l s s' v v' ∧ CutAt lt f r l v') s :=
  introOk hlt cat (l - f + 1) f l nth s v (by omega) hn hh

/-! ### quicksort -/

theorem quicksortFallback_spec (hlt : StrictWeak lt) (cat : Cat) {f l : Nat} {s : St α}
    {v : Nat → α} (h : f ≤ l) (hh : Holds s.cell f l v) :
    wp (quicksortFallback (tick lt) cat f l (l - f)) (fun r s' =>
      (r = true ∧ ∃ v', Upd f l s s' v v' ∧ SortedOn lt f l v') ∨
      (r = false ∧ s' = s ∧ 10 ≤ l - f)) s := by
  have hbi : wp (if l - f < 42 then do insertionSort (tick lt) f l; pure true else pure false)
      (fun r s' => (r = true ∧ ∃ v', Upd f l s s' v v' ∧ SortedOn lt f l v') ∨
      (r = false ∧ s' = s ∧ 10 ≤ l - f)) s := by
    split
    · apply wp_bind
      refine wp_mono (insertionSort_spec hlt h hh) ?_
      rintro _ s' ⟨v', a, b, -⟩
      exact wp_pure (Or.inl ⟨rfl, v', a.upd, b⟩)
    · exact wp_pure (Or.inr ⟨rfl, rfl, by omega⟩)
  cases cat with
  | forward =>
    simp only [quicksortFallback]
    split
    · apply wp_bind
      have e : f + (l - f) = l := by omega
      have := bubbleSort_spec hlt (first := f) (size := l - f) (s := s) (v := v) (by rw [e]; exact hh)
      rw [e] at this
      refine wp_mono this ?_
      rintro _ s' ⟨v', a, b⟩
      exact wp_pure (Or.inl ⟨rfl, v', a.upd, b⟩)
    · exact wp_pure (Or.inr ⟨rfl, rfl, by omega⟩)
  | bidirectional => exact hbi
  | random => exact hbi

/-- Sorting both outer parts of a three-way split sorts everything. -/
theorem Split3.sorted (hlt : StrictWeak lt) {f m1 m2 l : Nat} {v w : Nat → α} {x : α}
    (sp : Split3 lt f m1 m2 l v x) (hmid : ∀ i, m1 ≤ i → i < m2 → w i = v i)
    (hl : ∀ i, f ≤ i → i < m1 → lt (w i) x = true)
    (hr : ∀ i, m2 ≤ i → i < l → lt x (w i) = true)
    (s1 : SortedOn lt f m1 w) (s2 : SortedOn lt m2 l w) : SortedOn lt f l w := by
  intro i j a b c
  by_cases hj : j < m1
  · exact s1 i j a b hj
  · by_cases hi : m2 ≤ i
    · exact s2 i j hi b c
    · have h1 : lt x (w i) = false := by
        by_cases e : i < m1
        · exact hlt.asymm (hl i a e)
        · rw [hmid i (by omega) (by omega)]; exact sp.eq2 i (by omega) (by omega)
      have h2 : lt (w j) x = false := by
        by_cases e : j < m2
        · rw [hmid j (by omega) e]; exact sp.eq1 j (by omega) e
        · exact hlt.asymm (hr j (by omega) c)
      exact hlt.le_trans h1 h2

theorem quicksortLoop_spec (hlt : StrictWeak lt) (cat : Cat) :
    ∀ (n f l : Nat) (bad : Int) (s : St α) (v : Nat → α), l - f < n → f ≤ l → Holds s.cell f l v →
    wp (quicksortLoop (tick lt) cat f l (l - f) bad) (fun _ s' => ∃ v', Upd f l s s' v v' ∧
      SortedOn lt f l v') s := by
  intro n
  induction n with
  | zero => intros; omega
  | succ n ih =>
    intro f l bad s v hn hfl hh
    rw [quicksortLoop]
    apply wp_bind
    refine wp_mono (quicksortFallback_spec hlt cat hfl hh) ?_
    rintro b s0 (⟨rfl, v', u, so⟩ | ⟨rfl, rfl, hsz⟩)
    · exact wp_pure ⟨v', u, so⟩
    · simp only [Bool.false_eq_true, if_false]
      apply wp_bind
      refine wp_mono (pickPivot_mixes cat (introOk hlt cat (l - f)) (Nat.le_refl _) (by omega) bad
        s0 v hh) ?_
      rintro ⟨m, last1⟩ s1 ⟨⟨hm, rfl⟩, v1, u1⟩
      apply wp_bind
      refine wp_mono (threeWay_spec hlt cat hm u1.holds) ?_
      rintro ⟨m1, m2⟩ s2 ⟨v2, x, u2, sp⟩
      simp only at sp
      have lo := sp.lo
      have mid := sp.mid
      have hi := sp.hi
      simp only
      have es : l - f - (m1 - f) - (m2 - m1) = l - m2 := by omega
      rw [es]
      split
      · apply wp_bind
        refine wp_mono (ih m2 l (bad - 1) s2 v2 (by omega) (by omega)
            (u2.holds.sub (by omega) (Nat.le_refl _))) ?_
        rintro _ s3 ⟨v3, u3, so3⟩
        have u3' := u3.widen u2.holds (show f ≤ m2 by omega) (Nat.le_refl _)
        refine wp_mono (ih f m1 (bad - 1) s3 v3 (by omega) (by omega)
            (u3'.holds.sub (Nat.le_refl _) (by omega))) ?_
        rintro _ s4 ⟨v4, u4, so4⟩
        refine ⟨v4, ((u1.trans u2).trans u3').trans (u4.widen u3'.holds (Nat.le_refl _) (by omega)),
          sp.sorted hlt ?_ ?_ ?_ so4 ?_⟩
        · intro i a b
          rw [u4.perm.out (by omega), u3.perm.out (by omega)]
        · refine u4.perm.forall (P := fun y => lt y x = true) fun i a b => ?_
          rw [u3.perm.out (by omega)]; exact sp.left i a b
        · intro i a b
          rw [u4.perm.out (by omega)]
          exact u3.perm.forall (P := fun y => lt x y = true) sp.right i a b
        · exact so3.congr fun i a b => (u4.perm.out (by omega)).symm
      · apply wp_bind
        refine wp_mono (ih f m1 (bad - 1) s2 v2 (by omega) (by omega)
            (u2.holds.sub (Nat.le_refl _) (by omega))) ?_
        rintro _ s3 ⟨v3, u3, so3⟩
        have u3' := u3.widen u2.holds (Nat.le_refl f) (show m1 ≤ l by omega)
        refine wp_mono (ih m2 l (bad - 1) s3 v3 (by omega) (by omega)
            (u3'.holds.sub (by omega) (Nat.le_refl _))) ?_
        rintro _ s4 ⟨v4, u4, so4⟩
        refine ⟨v4, ((u1.trans u2).trans u3').trans (u4.widen u3'.holds (by omega) (Nat.le_refl _)),
          sp.sorted hlt ?_ ?_ ?_ ?_ so4⟩
        · intro i a b
          rw [u4.perm.out (by omega), u3.perm.out (by omega)]
        · intro i a b
          rw [u4.perm.out (by omega)]
          exact u3.perm.forall (P := fun y => lt y x = true) sp.left i a b
        · refine u4.perm.forall (P := fun y => lt x y = true) fun i a b => ?_
          rw [u3.perm.out (by omega)]; exact sp.right i a b
        · exact so3.congr fun i a b => (u4.perm.out (by omega)).symm

theorem quicksort_spec (hlt : StrictWeak lt) (cat : Cat) {f l : Nat} {s : St α} {v : Nat → α}
    (h : f ≤ l) (hh : Holds s.cell f l v) :
    wp (quicksort (tick lt) cat f l) (fun _ s' => ∃ v', Upd f l s s' v v' ∧ SortedOn lt f l v') s :=
  quicksortLoop_spec hlt cat (l - f + 1) f l _ s v (by omega) h hh

end CppSort
