import Verif.Proof.CmpWeightNine
import Mathlib.Logic.Equiv.Basic
/-
How few comparisons a straight-line body can make, added up over all the orders of `n` different
elements: the answers of the comparisons identify the order, and no sequence of answers is the beginning
of another one.
-/
set_option autoImplicit false

namespace CppSort
variable {α : Type} {lt : α → α → Bool}

/-! ### Words of which none is the beginning of another one -/

theorem word_sum : ∀ (m : Nat) (S : Finset (List Bool)), (∀ a ∈ S, a.length ≤ m) →
    (∀ a ∈ S, ∀ b ∈ S, a <+: b → a = b) → ∀ k : Nat,
    S.card * (k + 2) ≤ (∑ a ∈ S, a.length) + 2 ^ (k + 1) := by
  classical
  intro m
  induction m with
  | zero =>
    intro S hm _ k
    have h1 : S ⊆ {[]} := fun a ha => by
      have := hm a ha
      simp only [Finset.mem_singleton]
      exact List.length_eq_zero_iff.1 (by omega)
    have h2 : S.card ≤ 1 := (Finset.card_le_card h1).trans (by simp)
    have h3 : k + 2 ≤ 2 ^ (k + 1) := Nat.lt_two_pow_self
    calc S.card * (k + 2) ≤ 1 * (k + 2) := Nat.mul_le_mul_right _ h2
      _ ≤ _ := by omega
  | succ m ih =>
    intro S hm hp k
    have h3 : k + 2 ≤ 2 ^ (k + 1) := Nat.lt_two_pow_self
    by_cases hn : [] ∈ S
    · have h1 : S ⊆ {[]} := fun a ha => by
        simp only [Finset.mem_singleton]
        exact (hp [] hn a ha List.nil_prefix).symm
      have h2 : S.card ≤ 1 := (Finset.card_le_card h1).trans (by simp)
      calc S.card * (k + 2) ≤ 1 * (k + 2) := Nat.mul_le_mul_right _ h2
        _ ≤ _ := by omega
    · -- the words that begin with each of the answers
      let T : Bool → Finset (List Bool) := fun b => (S.filter fun a => a.head? = some b).image List.tail
      have hT : ∀ b a, a ∈ T b ↔ b :: a ∈ S := by
        intro b a
        simp only [T, Finset.mem_image, Finset.mem_filter]
        constructor
        · rintro ⟨c, ⟨h1, h2⟩, rfl⟩
          cases c with
          | nil => simp at h2
          | cons x c =>
            simp only [List.head?_cons, Option.some.injEq] at h2
            subst h2
            exact h1
        · intro h
          exact ⟨b :: a, ⟨h, rfl⟩, rfl⟩
      have hS : S = (T true).image (List.cons true) ∪ (T false).image (List.cons false) := by
        ext a
        simp only [Finset.mem_union, Finset.mem_image, hT]
        constructor
        · intro h
          cases a with
          | nil => exact absurd h hn
          | cons b a =>
            cases b
            · exact Or.inr ⟨a, h, rfl⟩
            · exact Or.inl ⟨a, h, rfl⟩
        · rintro (⟨c, h, rfl⟩ | ⟨c, h, rfl⟩) <;> exact h
      have hd : Disjoint ((T true).image (List.cons true)) ((T false).image (List.cons false)) := by
        rw [Finset.disjoint_left]
        intro a h1 h2
        obtain ⟨c, -, rfl⟩ := Finset.mem_image.1 h1
        obtain ⟨d, -, e⟩ := Finset.mem_image.1 h2
        simp at e
      have inj : ∀ b : Bool, Function.Injective (List.cons b) := fun b x y h => (List.cons.inj h).2
      have hcard : S.card = (T true).card + (T false).card := by
        conv_lhs => rw [hS]
        rw [Finset.card_union_of_disjoint hd, Finset.card_image_of_injective _ (inj _),
          Finset.card_image_of_injective _ (inj _)]
      have hsum : ∑ a ∈ S, a.length = (∑ a ∈ T true, a.length) + (T true).card +
          ((∑ a ∈ T false, a.length) + (T false).card) := by
        conv_lhs => rw [hS]
        rw [Finset.sum_union hd, Finset.sum_image fun x _ y _ h => inj _ h,
          Finset.sum_image fun x _ y _ h => inj _ h]
        simp only [List.length_cons, Finset.sum_add_distrib, ← Finset.card_eq_sum_ones]
      have ihT : ∀ b k, (T b).card * (k + 2) ≤ (∑ a ∈ T b, a.length) + 2 ^ (k + 1) := by
        intro b
        refine ih (T b) (fun a ha => ?_) (fun a ha c hc h => ?_)
        · have := hm _ ((hT b a).1 ha)
          simp only [List.length_cons] at this
          omega
        · exact inj b (hp _ ((hT b a).1 ha) _ ((hT b c).1 hc) ((List.prefix_cons_inj b).2 h))
      rw [hcard, hsum]
      cases k with
      | succ k =>
        have a := ihT true k
        have b := ihT false k
        have e : 2 ^ (k + 1 + 1) = 2 ^ (k + 1) + 2 ^ (k + 1) := by rw [pow_succ]; omega
        rw [e]
        nlinarith
      | zero =>
        have a := ihT true 0
        have b := ihT false 0
        simp only [Nat.zero_add, pow_one] at a b ⊢
        by_cases h1 : (T true).card = 0
        · rw [Finset.card_eq_zero] at h1
          rw [h1] at a ⊢
          by_cases h2 : (T false).card = 0
          · omega
          · simp only [Finset.card_empty, Finset.sum_empty]
            omega
        · by_cases h2 : (T false).card = 0
          · rw [Finset.card_eq_zero] at h2
            rw [h2] at b ⊢
            simp only [Finset.card_empty, Finset.sum_empty]
            omega
          · omega

/-! ### The answers of the comparisons of a body -/

/-- The answers of the comparisons, in order. -/
def DP.answers (lt : α → α → Bool) : DP → Nat → (Nat → α) → List Bool
  | .nop, _, _ => []
  | .stop, _, _ => []
  | .cswap i j, off, v => [lt (v (off + j)) (v (off + i))]
  | .swap _ _, _, _ => []
  | .rotR _ _, _, _ => []
  | .rotL _ _, _, _ => []
  | .cyc _, _, _ => []
  | .ite i j t e, off, v =>
    if lt (v (off + i)) (v (off + j)) then true :: t.answers lt off v else false :: e.answers lt off v
  | .seq p q, off, v =>
    if (p.ev lt off v).2.2 then p.answers lt off v
    else p.answers lt off v ++ q.answers lt off (p.ev lt off v).2.1
  | .catch p q, off, v =>
    if (p.ev lt off v).2.2 then p.answers lt off v
    else p.answers lt off v ++ q.answers lt off (p.ev lt off v).2.1
  | .call k p, off, v => p.answers lt (off + k) v

theorem DP.answers_length : ∀ (p : DP) (off : Nat) (v : Nat → α),
    (p.answers lt off v).length = (p.ev lt off v).1 := by
  intro p
  induction p with
  | nop => intros; rfl
  | stop => intros; rfl
  | cswap => intros; rfl
  | swap => intros; rfl
  | rotR => intros; rfl
  | rotL => intros; rfl
  | cyc => intros; rfl
  | ite i j t e iht ihe =>
    intro off v
    simp only [DP.answers, DP.ev]
    split
    · simp [iht]
    · simp [ihe]
  | seq p q ihp ihq =>
    intro off v
    simp only [DP.answers, DP.ev]
    split
    · exact ihp off v
    · simp [ihp, ihq]
  | «catch» p q ihp ihq =>
    intro off v
    simp only [DP.answers, DP.ev]
    split
    · exact ihp off v
    · simp [ihp, ihq]
  | call k p ih => intro off v; exact ih (off + k) v

theorem swp_comp (v : Nat → α) (a b : Nat) : swp v a b = v ∘ Equiv.swap a b := by
  funext k
  simp only [Function.comp]
  by_cases h1 : k = a
  · subst h1
    rw [swp_l rfl, Equiv.swap_apply_left]
  · by_cases h2 : k = b
    · subst h2
      rw [swp_r rfl, Equiv.swap_apply_right]
    · rw [swp_o h1 h2, Equiv.swap_apply_of_ne_of_ne h1 h2]

theorem cycleVals_comp : ∀ cs : List Nat, ∃ π : Equiv.Perm Nat, ∀ v : Nat → α,
    cycleVals v cs = v ∘ π
  | [] => ⟨1, fun v => rfl⟩
  | [_] => ⟨1, fun v => rfl⟩
  | a :: b :: cs => by
    obtain ⟨π, h⟩ := cycleVals_comp (b :: cs)
    refine ⟨π.trans (Equiv.swap a b), fun v => ?_⟩
    rw [cycleVals, h, swp_comp]
    rfl

/-- The answers decide what happens next and which position goes where. -/
theorem DP.answers_sync : ∀ (p : DP) (off : Nat) (v w : Nat → α) (r r' : List Bool),
    p.answers lt off v ++ r = p.answers lt off w ++ r' →
    p.answers lt off v = p.answers lt off w ∧ (p.ev lt off v).2.2 = (p.ev lt off w).2.2 ∧
    ∃ π : Equiv.Perm Nat, (p.ev lt off v).2.1 = v ∘ π ∧ (p.ev lt off w).2.1 = w ∘ π := by
  intro p
  induction p with
  | nop => intro off v w r r' _; exact ⟨rfl, rfl, 1, rfl, rfl⟩
  | stop => intro off v w r r' _; exact ⟨rfl, rfl, 1, rfl, rfl⟩
  | cswap i j =>
    intro off v w r r' h
    simp only [DP.answers, List.cons_append, List.nil_append] at h
    obtain ⟨h, -⟩ := List.cons.inj h
    simp only [DP.answers, DP.ev]
    refine ⟨by rw [h], trivial, ?_⟩
    rw [← h]
    by_cases e : lt (v (off + j)) (v (off + i)) = true
    · rw [if_pos e, if_pos e]
      exact ⟨_, swp_comp _ _ _, swp_comp _ _ _⟩
    · rw [if_neg e, if_neg e]
      exact ⟨1, rfl, rfl⟩
  | swap i j =>
    intro off v w r r' _
    exact ⟨rfl, rfl, _, swp_comp _ _ _, swp_comp _ _ _⟩
  | rotR m i =>
    intro off v w r r' _
    obtain ⟨π, h⟩ := cycleVals_comp (α := α) ((List.range' i m).reverse.map (off + ·))
    exact ⟨rfl, rfl, π, h v, h w⟩
  | rotL m i =>
    intro off v w r r' _
    obtain ⟨π, h⟩ := cycleVals_comp (α := α) ((List.range' i m).map (off + ·))
    exact ⟨rfl, rfl, π, h v, h w⟩
  | cyc cs =>
    intro off v w r r' _
    obtain ⟨π, h⟩ := cycleVals_comp (α := α) (cs.map (off + ·))
    exact ⟨rfl, rfl, π, h v, h w⟩
  | ite i j t e iht ihe =>
    intro off v w r r' h
    simp only [DP.answers, DP.ev] at h ⊢
    by_cases a : lt (v (off + i)) (v (off + j)) = true <;>
      by_cases b : lt (w (off + i)) (w (off + j)) = true
    · rw [if_pos a, if_pos b] at h ⊢
      simp only [List.cons_append, List.cons.injEq, true_and] at h
      obtain ⟨h1, h2, h3⟩ := iht off v w r r' h
      rw [if_pos a, if_pos b]
      exact ⟨by rw [h1], h2, h3⟩
    · rw [if_pos a, if_neg b] at h
      simp at h
    · rw [if_neg a, if_pos b] at h
      simp at h
    · rw [if_neg a, if_neg b] at h ⊢
      simp only [List.cons_append, List.cons.injEq, true_and] at h
      obtain ⟨h1, h2, h3⟩ := ihe off v w r r' h
      rw [if_neg a, if_neg b]
      exact ⟨by rw [h1], h2, h3⟩
  | seq p q ihp ihq =>
    intro off v w r r' h
    simp only [DP.answers, DP.ev] at h ⊢
    by_cases a : (p.ev lt off v).2.2 = true <;> by_cases b : (p.ev lt off w).2.2 = true
    · rw [if_pos a, if_pos b] at h ⊢
      rw [if_pos a, if_pos b]
      exact ihp off v w r r' h
    · rw [if_pos a, if_neg b, List.append_assoc] at h
      obtain ⟨-, h2, -⟩ := ihp off v w _ _ h
      exact absurd (h2 ▸ a) b
    · rw [if_neg a, if_pos b, List.append_assoc] at h
      obtain ⟨-, h2, -⟩ := ihp off v w _ _ h
      exact absurd (h2 ▸ b) a
    · rw [if_neg a, if_neg b] at h ⊢
      rw [if_neg a, if_neg b]
      rw [List.append_assoc, List.append_assoc] at h
      obtain ⟨h1, h2, π, h3, h4⟩ := ihp off v w _ _ h
      rw [h1, List.append_cancel_left_eq] at h
      obtain ⟨g1, g2, ρ, g3, g4⟩ := ihq off _ _ _ _ h
      refine ⟨by rw [h1, g1], g2, ρ.trans π, ?_, ?_⟩
      · rw [g3, h3]; rfl
      · rw [g4, h4]; rfl
  | «catch» p q ihp ihq =>
    intro off v w r r' h
    simp only [DP.answers, DP.ev] at h ⊢
    by_cases a : (p.ev lt off v).2.2 = true <;> by_cases b : (p.ev lt off w).2.2 = true
    · rw [if_pos a, if_pos b] at h ⊢
      rw [if_pos a, if_pos b]
      obtain ⟨h1, h2, h3⟩ := ihp off v w r r' h
      exact ⟨h1, rfl, h3⟩
    · rw [if_pos a, if_neg b, List.append_assoc] at h
      obtain ⟨-, h2, -⟩ := ihp off v w _ _ h
      exact absurd (h2 ▸ a) b
    · rw [if_neg a, if_pos b, List.append_assoc] at h
      obtain ⟨-, h2, -⟩ := ihp off v w _ _ h
      exact absurd (h2 ▸ b) a
    · rw [if_neg a, if_neg b] at h ⊢
      rw [if_neg a, if_neg b]
      rw [List.append_assoc, List.append_assoc] at h
      obtain ⟨h1, h2, π, h3, h4⟩ := ihp off v w _ _ h
      rw [h1, List.append_cancel_left_eq] at h
      obtain ⟨g1, g2, ρ, g3, g4⟩ := ihq off _ _ _ _ h
      refine ⟨by rw [h1, g1], g2, ρ.trans π, ?_, ?_⟩
      · rw [g3, h3]; rfl
      · rw [g4, h4]; rfl
  | call k p ih =>
    intro off v w r r' h
    obtain ⟨h1, -, h3⟩ := ih (off + k) v w r r' h
    exact ⟨h1, rfl, h3⟩

/-- No body that sorts the orders of `n` different elements takes less. -/
theorem ev_lower [Inhabited α] {p : DP} {n : Nat} (hp : p.inb n 0 = true) {zs : List α} (hl : zs.length = n)
    (hn : zs.Nodup) (R : List α)
    (hs : ∀ xs, xs.Perm zs → lst (p.ev lt 0 (valAt xs)).2.1 0 n = R) (k : Nat) :
    n.factorial * (k + 2) ≤ (zs.permutations.map fun xs => (p.ev lt 0 (valAt xs)).1).sum +
      2 ^ (k + 1) := by
  classical
  -- runs with the same beginning start with the same order
  have sync : ∀ xs ys : List α, xs.Perm zs → ys.Perm zs →
      p.answers lt 0 (valAt xs) <+: p.answers lt 0 (valAt ys) → xs = ys := by
    intro xs ys hx hy ⟨r, hr⟩
    obtain ⟨-, -, π, h1, h2⟩ := DP.answers_sync p 0 (valAt xs) (valAt ys) r [] (by rw [hr]; simp)
    have lx : xs.length = n := by rw [hx.length_eq, hl]
    have ly : ys.length = n := by rw [hy.length_eq, hl]
    have out : ∀ us : List α, us.length = n → ∀ j, n ≤ j → (p.ev lt 0 (valAt us)).2.1 j = default := by
      intro us hu j hj
      have := (DP.ev_shift (lt := lt) (lt' := lt) (g := id) (d := 0) (D := fun _ => True)
        (fun _ _ _ _ => rfl) p 0 (v := valAt us) (w := valAt us) hp
        fun k _ => ⟨by rw [Nat.zero_add]; rfl, trivial⟩).2.2.2 j (Or.inr (by omega))
      rw [Nat.zero_add] at this
      rw [this]
      unfold valAt
      exact List.getD_eq_default _ _ (by omega)
    have e : (p.ev lt 0 (valAt xs)).2.1 = (p.ev lt 0 (valAt ys)).2.1 := by
      funext j
      by_cases hj : j < n
      · rw [← valAt_lst (v := (p.ev lt 0 (valAt xs)).2.1) hj,
          ← valAt_lst (v := (p.ev lt 0 (valAt ys)).2.1) hj, hs xs hx, hs ys hy]
      · rw [out xs lx j (by omega), out ys ly j (by omega)]
    have e2 : valAt xs = valAt ys := by
      funext j
      have := congrFun (h1.symm.trans (e.trans h2)) (π.symm j)
      simpa using this
    rw [← lst_valAt xs lx, ← lst_valAt ys ly, e2]
  let S : Finset (List Bool) := zs.permutations.toFinset.image fun xs => p.answers lt 0 (valAt xs)
  have hinj : Set.InjOn (fun xs => p.answers lt 0 (valAt xs)) (zs.permutations.toFinset : Set (List α)) := by
    intro xs hx ys hy e
    have hx := List.mem_permutations.1 (List.mem_toFinset.1 (Finset.mem_coe.1 hx))
    have hy := List.mem_permutations.1 (List.mem_toFinset.1 (Finset.mem_coe.1 hy))
    refine sync xs ys hx hy ?_
    dsimp only at e
    rw [e]
  have hcard : S.card = n.factorial := by
    rw [Finset.card_image_of_injOn hinj,
      List.toFinset_card_of_nodup (List.nodup_permutations _ hn), List.length_permutations, hl]
  have hsum : ∑ a ∈ S, a.length = (zs.permutations.map fun xs => (p.ev lt 0 (valAt xs)).1).sum := by
    rw [Finset.sum_image hinj, ← List.sum_toFinset _ (List.nodup_permutations _ hn)]
    exact Finset.sum_congr rfl fun xs _ => DP.answers_length p 0 _
  rw [← hcard, ← hsum]
  refine word_sum (S.sup List.length) S (fun a ha => Finset.le_sup ha) (fun a ha b hb h => ?_) k
  obtain ⟨xs, hx, rfl⟩ := Finset.mem_image.1 ha
  obtain ⟨ys, hy, rfl⟩ := Finset.mem_image.1 hb
  have hx := List.mem_permutations.1 (List.mem_toFinset.1 hx)
  have hy := List.mem_permutations.1 (List.mem_toFinset.1 hy)
  rw [sync xs ys hx hy h]

/-! ### Six elements with fewer comparisons

Not in the library: a witness, found by going through the partial orders of six elements. Each part starts
from a partial order of the positions in which a smaller element never comes after a larger one. -/

def six0 : DP := .ite 4 5 (.nop) (.cyc [4, 5])
def six1 : DP := .ite 1 2 (.nop) (.cyc [1, 2])
def six2 : DP := .ite 2 3 (.nop) (.seq (.cyc [2, 3]) six1)
def six3 : DP := .ite 3 5 six0 (.seq (.cyc [3, 5, 4]) six2)
def six4 : DP := .seq (.ite 2 3 (.nop) (.cyc [2, 3])) six3
def six5 : DP := .ite 2 3 (.nop) (.cyc [2, 3])
def six6 : DP := .ite 3 5 six0 (.seq (.cyc [3, 5, 4]) six5)
def six7 : DP := .ite 0 1 six3 (.seq (.cyc [0, 1]) six6)
def six8 : DP := .ite 1 3 six4 (.seq (.cyc [1, 3, 2]) six7)
def six9 : DP := .ite 3 4 (.nop) (.cyc [3, 4])
def six10 : DP := .ite 4 5 (.nop) (.seq (.cyc [4, 5]) six9)
def six11 : DP := .ite 1 2 six6 (.seq (.cyc [1, 2]) six10)
def six12 : DP := .ite 0 1 six3 (.seq (.cyc [0, 1]) six11)
def six13 : DP := .ite 0 1 (.nop) (.cyc [0, 1])
def six14 : DP := .ite 1 2 (.nop) (.seq (.cyc [1, 2]) six13)
def six15 : DP := .seq (.ite 4 5 (.nop) (.cyc [4, 5])) six14
def six16 : DP := .ite 1 3 six5 (.seq (.cyc [1, 3, 2]) six13)
def six17 : DP := .seq (.ite 1 2 (.nop) (.cyc [1, 2])) six16
def six18 : DP := .ite 3 5 six15 (.seq (.cyc [2, 5, 4, 3]) six17)
def six19 : DP := .ite 2 3 six12 (.seq (.cyc [1, 3, 2]) six18)
def six20 : DP := .ite 3 4 (.seq (.cyc [1, 2, 3]) six8) (.seq (.cyc [2, 4, 3]) six19)
def six21 : DP := .seq (.ite 4 5 (.cyc [1, 4, 5, 3, 2]) (.cyc [1, 5, 3, 2])) six20
def six22 : DP := .seq (.ite 0 1 (.nop) (.seq (.cyc [0, 1]) (.cyc [2, 3]))) six21
def six23 : DP := .seq (.ite 2 3 (.cyc [1, 2, 3]) (.cyc [1, 3])) six22
def better6 : DP := .seq (.ite 0 1 (.nop) (.cyc [0, 1])) six23

theorem better6_check : better6.check 6 10 = true := by decide +kernel
theorem better6_inb : better6.inb 6 0 = true := by decide +kernel

set_option maxRecDepth 100000 in
theorem cmpSum_better6 : cmpSum better6 (List.range 6) = 6896 := by rw [cmpSum_enum]; decide +kernel

/-! ### Seven and eight elements with fewer comparisons

These bodies are not in the library: they are witnesses. The middle five elements are sorted with
`low_comparisons_sorter<5>`, the first and the last element are put in order, and the two are merged with
the five. -/

/-- Where the smaller element goes after the `s` smallest of the five and the other one after the `r`
smallest. -/
def place7 (s r : Nat) : DP := .seq (.rotL (s + 1) 0) (.rotR (6 - r) (r + 1))

/-- Three places are left for the last element. -/
def threePlaces (s a : Nat) : DP :=
  .ite 6 (a + 1) (place7 s a) (.ite 6 (a + 2) (place7 s (a + 1)) (place7 s (a + 2)))

/-- Two places are left for the last element. -/
def twoPlaces (s a : Nat) : DP := .ite 6 (a + 1) (place7 s a) (place7 s (a + 1))

def merge25 : DP :=
  .seq (.cswap 0 6) <|
  .ite 2 0
    (.ite 3 0
      (.ite 4 0
        (.ite 6 5 (place7 4 4) (.ite 5 0 (place7 5 5) (place7 4 5)))
        (threePlaces 3 3))
      (.ite 6 4 (twoPlaces 2 2) (twoPlaces 2 4)))
    (.ite 1 0
      (.ite 6 3 (twoPlaces 1 1) (threePlaces 1 3))
      (.ite 6 3 (threePlaces 0 0) (threePlaces 0 3)))

def better7 : DP := .seq (.call 1 sortN5) merge25

def better8 : DP := .seq (.call 1 better7) (.call 0 frontInsert8)

theorem better7_check : better7.check 7 13 = true := by decide +kernel
theorem better8_check : better8.check 8 16 = true := by decide +kernel
theorem better7_inb : better7.inb 7 0 = true := by decide +kernel
theorem better8_inb : better8.inb 8 0 = true := by decide +kernel

theorem cmpSum_better7 : cmpSum better7 (List.range 7) = 62544 := by
  have h := cmpSum_insert2 (q := merge25) (p := sortN5) (n := 5) (by decide +kernel) check5
  rw [cmpSum_five] at h
  exact h.trans (by decide +kernel)

theorem cmpSum_better8 : cmpSum better8 (List.range 8) = 621312 := by
  have h := cmpSum_insert (q := .call 0 frontInsert8) (p := better7) (n := 7) better7_inb better7_check
  rw [cmpSum_better7] at h
  exact h.trans (by decide +kernel)

end CppSort
