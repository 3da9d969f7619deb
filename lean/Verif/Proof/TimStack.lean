import Verif.Proof.TimCost
/-
The stack of runs of timsort: its height and the cost of its merges. The lengths of the runs are listed from the top
of the stack.
-/
set_option autoImplicit false

namespace CppSort
variable {α : Type} {lt : α → α → Bool} {N : Nat}

/-- The lengths of the pending runs, the last one first. -/
def runLens (p : List (Nat × Nat)) : List Nat := (p.map Prod.snd).reverse

/-- The sum, over the elements in the stack, of the height of their runs. -/
def stackPot : List Nat → Nat
  | [] => 0
  | x :: R => x * (R.length + 1) + stackPot R

theorem stackPot_top (a b : Nat) (R : List Nat) : stackPot (a :: b :: R) = stackPot ((a + b) :: R) + a := by
  simp only [stackPot, List.length_cons, Nat.add_mul, Nat.mul_add]
  omega

theorem stackPot_second (a b c : Nat) (R : List Nat) :
    stackPot (a :: b :: c :: R) = stackPot (a :: (b + c) :: R) + (a + b) := by
  simp only [stackPot, List.length_cons, Nat.add_mul, Nat.mul_add]
  omega

theorem runLens_length (p : List (Nat × Nat)) : (runLens p).length = p.length := by simp [runLens]

theorem runLens_cons {p : List (Nat × Nat)} {a : Nat} {R : List Nat} (h : runLens p = a :: R) :
    ∃ p0 x, p = p0 ++ [(x, a)] ∧ runLens p0 = R := by
  rcases List.eq_nil_or_concat p with rfl | ⟨p0, y, rfl⟩
  · simp [runLens] at h
  · simp only [runLens, List.concat_eq_append, List.map_append, List.reverse_append, List.map_cons, List.map_nil,
      List.reverse_cons, List.reverse_nil, List.nil_append, List.cons_append, List.cons.injEq] at h
    exact ⟨p0, y.1, by rw [← h.1]; simp, h.2⟩

theorem runLens_snoc (p : List (Nat × Nat)) (x a : Nat) : runLens (p ++ [(x, a)]) = a :: runLens p := by
  simp [runLens]

theorem pendingAt_cost {p : List (Nat × Nat)} {i : Nat} :
    Cost N (pendingAt p i : M α (Nat × Nat)) (fun r c => c = 0 ∧ p[i]? = some r ∧
      ∀ k, i + k + 1 = p.length → (runLens p)[k]? = some r.2) := by
  unfold pendingAt
  split
  · rename_i r hr
    refine Cost.pure ⟨rfl, hr, fun k hk => ?_⟩
    unfold runLens
    rw [List.getElem?_reverse (by simp; omega), List.length_map, show p.length - 1 - k = i by omega,
      List.getElem?_map, hr]
    rfl
  · intro s r s' hs hr
    simp [fail] at hr

theorem mergeAt_top {b : TimBuf} {p : List (Nat × Nat)} {l3 l2 : Nat} {R : List Nat} (h : runLens p = l3 :: l2 :: R)
    (h3 : 1 ≤ l3) (h2 : 1 ≤ l2) : Cost N (mergeAt (tick lt) b p (p.length - 2))
      (fun r c => c ≤ 4 * (l3 + l2) ∧ runLens r.1 = (l3 + l2) :: R) := by
  obtain ⟨p1, x3, rfl, h'⟩ := runLens_cons h
  obtain ⟨p0, x2, rfl, h''⟩ := runLens_cons h'
  clear h h'
  rename' h'' => h
  unfold mergeAt
  have e : (p0 ++ [(x2, l2)] ++ [(x3, l3)]).length - 2 = p0.length := by simp
  rw [e]
  refine pendingAt_cost.bind ?_
  rintro ⟨y2, m2⟩ c ⟨rfl, g2, -⟩
  simp at g2
  obtain ⟨rfl, rfl⟩ := g2
  refine pendingAt_cost.bind ?_
  rintro ⟨y3, m3⟩ c ⟨rfl, g3, -⟩
  simp at g3
  obtain ⟨rfl, rfl⟩ := g3
  dsimp only
  rw [if_neg (by simp)]
  refine (mergeConsecutiveRuns_cost h2 h3).bind fun b' c hc => Cost.pure ⟨by omega, ?_⟩
  rw [← h]
  simp [runLens, Nat.add_comm]

theorem mergeAt_second {b : TimBuf} {p : List (Nat × Nat)} {l3 l2 l1 : Nat} {R : List Nat}
    (h : runLens p = l3 :: l2 :: l1 :: R) (h2 : 1 ≤ l2) (h1 : 1 ≤ l1) :
    Cost N (mergeAt (tick lt) b p (p.length - 3))
      (fun r c => c ≤ 4 * (l2 + l1) ∧ runLens r.1 = l3 :: (l2 + l1) :: R) := by
  obtain ⟨p1, x3, rfl, h'⟩ := runLens_cons h
  obtain ⟨p0, x2, rfl, h''⟩ := runLens_cons h'
  obtain ⟨q, x1, rfl, h3⟩ := runLens_cons h''
  clear h h' h''
  rename' h3 => h
  unfold mergeAt
  have e : (q ++ [(x1, l1)] ++ [(x2, l2)] ++ [(x3, l3)]).length - 3 = q.length := by simp
  rw [e]
  refine pendingAt_cost.bind ?_
  rintro ⟨y1, m1⟩ c ⟨rfl, g1, -⟩
  simp at g1
  obtain ⟨rfl, rfl⟩ := g1
  refine pendingAt_cost.bind ?_
  rintro ⟨y2, m2⟩ c ⟨rfl, g2, -⟩
  simp at g2
  obtain ⟨rfl, rfl⟩ := g2
  dsimp only
  rw [if_pos (by simp)]
  refine pendingAt_cost.bind ?_
  rintro ⟨y3, m3⟩ c ⟨rfl, g3, -⟩
  simp at g3
  obtain ⟨rfl, rfl⟩ := g3
  refine (mergeConsecutiveRuns_cost h1 h2).bind fun b' c hc => Cost.pure ⟨by omega, ?_⟩
  rw [← h]
  simp [runLens, Nat.add_comm]

/-- The first two conditions of timsort, from the top of the stack. -/
def willTest : List Nat → Bool
  | a :: b :: c :: d :: _ => decide (c ≤ b + a) || decide (d ≤ c + b)
  | [a, b, c] => decide (c ≤ b + a)
  | _ => false

theorem collapseTest_cost {p : List (Nat × Nat)} {l3 l2 : Nat} {R : List Nat} (h : runLens p = l3 :: l2 :: R) :
    Cost N (collapseTest p (p.length - 2) : M α Bool) (fun r c => c = 0 ∧ r = willTest (runLens p)) := by
  have hl := runLens_length p
  rw [h] at hl
  unfold collapseTest
  rcases R with _ | ⟨l1, _ | ⟨l0, R⟩⟩
  · simp only [List.length_cons, List.length_nil] at hl
    rw [if_neg (by omega)]
    refine (Cost.pure (R := fun r c => r = false ∧ c = 0) ⟨rfl, rfl⟩).bind ?_
    rintro _ _ ⟨rfl, rfl⟩
    dsimp only
    rw [if_neg (by simp), if_neg (by omega), h]
    exact Cost.pure ⟨rfl, rfl⟩
  · simp only [List.length_cons, List.length_nil] at hl
    rw [if_pos (by omega)]
    refine pendingAt_cost.bind ?_
    rintro ⟨y1, m1⟩ c ⟨rfl, -, g1⟩
    have g1 := g1 2 (by omega)
    refine pendingAt_cost.bind ?_
    rintro ⟨y2, m2⟩ c ⟨rfl, -, g2⟩
    have g2 := g2 1 (by omega)
    refine pendingAt_cost.bind ?_
    rintro ⟨y3, m3⟩ c ⟨rfl, -, g3⟩
    have g3 := g3 0 (by omega)
    rw [h] at g1 g2 g3
    have g1 : l1 = m1 := Option.some.inj g1
    have g2 : l2 = m2 := Option.some.inj g2
    have g3 : l3 = m3 := Option.some.inj g3
    subst g1 g2 g3
    dsimp only
    refine (Cost.pure (R := fun r c => r = decide (l1 ≤ l2 + l3) ∧ c = 0) ⟨rfl, rfl⟩).bind ?_
    rintro _ _ ⟨rfl, rfl⟩
    rw [h]
    refine Cost.ite (fun e => Cost.pure ⟨rfl, e.symm⟩) fun e => ?_
    rw [if_neg (by omega)]
    refine Cost.pure ⟨rfl, ?_⟩
    simpa [willTest] using e
  · simp only [List.length_cons] at hl
    rw [if_pos (by omega)]
    refine pendingAt_cost.bind ?_
    rintro ⟨y1, m1⟩ c ⟨rfl, -, g1⟩
    have g1 := g1 2 (by omega)
    refine pendingAt_cost.bind ?_
    rintro ⟨y2, m2⟩ c ⟨rfl, -, g2⟩
    have g2 := g2 1 (by omega)
    refine pendingAt_cost.bind ?_
    rintro ⟨y3, m3⟩ c ⟨rfl, -, g3⟩
    have g3 := g3 0 (by omega)
    rw [h] at g1 g2 g3
    have g1 : l1 = m1 := Option.some.inj g1
    have g2 : l2 = m2 := Option.some.inj g2
    have g3 : l3 = m3 := Option.some.inj g3
    subst g1 g2 g3
    dsimp only
    refine (Cost.pure (R := fun r c => r = decide (l1 ≤ l2 + l3) ∧ c = 0) ⟨rfl, rfl⟩).bind ?_
    rintro _ _ ⟨rfl, rfl⟩
    rw [h]
    refine Cost.ite (fun e => Cost.pure ⟨rfl, by simp only [willTest]; rw [e]; rfl⟩) fun e => ?_
    rw [if_pos (by omega)]
    refine pendingAt_cost.bind ?_
    rintro ⟨y1, m1⟩ c ⟨rfl, -, g1⟩
    have g1 := g1 3 (by omega)
    refine pendingAt_cost.bind ?_
    rintro ⟨y2, m2⟩ c ⟨rfl, -, g2⟩
    have g2 := g2 2 (by omega)
    refine pendingAt_cost.bind ?_
    rintro ⟨y3, m3⟩ c ⟨rfl, -, g3⟩
    have g3 := g3 1 (by omega)
    rw [h] at g1 g2 g3
    have g1 : l0 = m1 := Option.some.inj g1
    have g2 : l1 = m2 := Option.some.inj g2
    have g3 : l2 = m3 := Option.some.inj g3
    subst g1 g2 g3
    refine Cost.pure ⟨rfl, ?_⟩
    simp only [Bool.not_eq_true] at e
    simp only [willTest]
    rw [e]
    rfl

/-- Runs that grow at least like the Fibonacci numbers, from the top of the stack. -/
def Growing : List Nat → Prop
  | a :: b :: R => a < b ∧ (∀ c ∈ R.head?, b + a < c) ∧ Growing (b :: R)
  | _ => True

theorem Growing.tail : ∀ {R : List Nat}, Growing R → Growing R.tail
  | [], _ => trivial
  | [_], _ => trivial
  | _ :: _ :: _, h => h.2.2

theorem growing_sum : ∀ (n a : Nat) (R : List Nat), R.length ≤ n → Growing (a :: R) →
    a * 2 ^ (R.length / 2) ≤ (a :: R).sum := by
  intro n
  induction n using Nat.strongRecOn with
  | ind n ih =>
    intro a R hn h
    rcases R with _ | ⟨b, _ | ⟨c, R⟩⟩
    · simp
    · simp
    · simp only [List.length_cons] at hn
      have g := ih (n - 2) (by omega) c R (by omega) h.tail.tail
      have hc := h.2.1 c rfl
      have hb := h.1
      have e : (c :: R).sum ≤ (a :: b :: c :: R).sum := by simp; omega
      have e2 : (b :: c :: R).length / 2 = R.length / 2 + 1 := by simp; omega
      rw [e2, Nat.pow_succ]
      have : 2 * a * 2 ^ (R.length / 2) ≤ c * 2 ^ (R.length / 2) := Nat.mul_le_mul_right _ (by omega)
      have e3 : a * (2 ^ (R.length / 2) * 2) = 2 * a * 2 ^ (R.length / 2) := by
        rw [Nat.mul_comm (2 ^ _) 2, ← Nat.mul_assoc, Nat.mul_comm a 2]
      omega

theorem growing_height {R : List Nat} {n : Nat} (h : Growing R) (hp : ∀ x ∈ R, 1 ≤ x) (hs : R.sum ≤ n) :
    R.length ≤ 2 * n.log2 + 2 := by
  rcases R with _ | ⟨a, R⟩
  · simp
  have g := growing_sum _ a R (Nat.le_refl _) h
  have ha := hp a (by simp)
  have : 2 ^ (R.length / 2) ≤ n := by
    have := Nat.mul_le_mul_right (2 ^ (R.length / 2)) ha
    omega
  have := (Nat.le_log2 (by have := Nat.two_pow_pos (R.length / 2); omega)).2 this
  simp only [List.length_cons]
  omega

/-- What `mergeCollapse` does to the stack: `Ok` is what holds of it between two pushes. -/
def CollapseCosts (N : Nat) (Ok : List Nat → Prop)
    (collapse : TimBuf → List (Nat × Nat) → M α (List (Nat × Nat) × TimBuf)) : Prop :=
  ∀ (b : TimBuf) (p : List (Nat × Nat)) (a : Nat) (R : List Nat), runLens p = a :: R →
    (∀ x ∈ runLens p, 1 ≤ x) → Ok R → Cost N (collapse b p) (fun r c =>
      c + 12 * stackPot (runLens r.1) ≤ 12 * stackPot (runLens p) ∧ (runLens r.1).sum = (runLens p).sum ∧
        (∀ x ∈ runLens r.1, 1 ≤ x) ∧ Ok (runLens r.1))

/-- The stack is going to be changed. -/
def willMerge : List Nat → Bool
  | a :: b :: R => willTest (a :: b :: R) || decide (b ≤ a)
  | _ => false

theorem timCollapse_cost : ∀ (n : Nat) (b : TimBuf) (p : List (Nat × Nat)), p.length ≤ n →
    (∀ x ∈ runLens p, 1 ≤ x) → Growing ((runLens p).drop 2) → Cost N (timCollapse (tick lt) b p) (fun r c =>
      c + (if willMerge (runLens p) then 4 * (runLens p).headD 0 else 0) + 12 * stackPot (runLens r.1)
        ≤ 12 * stackPot (runLens p) ∧ (runLens r.1).sum = (runLens p).sum ∧
        (∀ x ∈ runLens r.1, 1 ≤ x) ∧ Growing (runLens r.1)) := by
  intro n
  induction n with
  | zero =>
    intro b p hn hp hg
    have : p = [] := List.eq_nil_of_length_eq_zero (by omega)
    subst this
    rw [timCollapse, if_neg (by simp)]
    exact Cost.pure ⟨by simp [willMerge, runLens], rfl, hp, trivial⟩
  | succ n ih =>
    intro b p hn hp hg
    have hl := runLens_length p
    rw [timCollapse]
    rcases hR : runLens p with _ | ⟨l3, _ | ⟨l2, R⟩⟩
    · rw [hR] at hl
      rw [if_neg (by simp at hl; omega)]
      exact Cost.pure ⟨by simp [willMerge, hR], by rw [hR], by rw [hR]; simp, by rw [hR]; trivial⟩
    · rw [hR] at hl
      rw [if_neg (by simp at hl; omega)]
      exact Cost.pure ⟨by simp [willMerge, hR], by rw [hR], by rw [hR] at hp; rwa [hR], by rw [hR]; trivial⟩
    rw [hR] at hl hp hg
    simp only [List.length_cons] at hl
    rw [if_pos (by omega)]
    have h3 := hp l3 (by simp)
    have h2 := hp l2 (by simp)
    dsimp only
    refine (collapseTest_cost hR).bind ?_
    rintro _ _ ⟨rfl, rfl⟩
    -- merging the two runs at the top
    have top : ∀ (k : Nat), (4 * (l3 + l2) + k ≤
          12 * l3 + (if willMerge ((l3 + l2) :: R) then 4 * (l3 + l2) else 0)) →
        Cost N (do
          let (p, b) ← mergeAt (tick lt) b p (p.length - 2)
          timCollapse (tick lt) b p) (fun r c => c + k + 12 * stackPot (runLens r.1)
            ≤ 12 * stackPot (l3 :: l2 :: R) ∧ (runLens r.1).sum = (l3 :: l2 :: R).sum ∧
            (∀ x ∈ runLens r.1, 1 ≤ x) ∧ Growing (runLens r.1)) := by
      intro k hk
      refine (mergeAt_top hR h3 h2).bind ?_
      rintro ⟨p', b'⟩ c ⟨hc, hp'⟩
      dsimp only at hp' ⊢
      have hl' := runLens_length p'
      rw [hp'] at hl'
      simp only [List.length_cons] at hl'
      refine (ih b' p' (by omega) ?_ ?_).mono ?_
      · rw [hp']
        intro x hx
        rcases List.mem_cons.1 hx with rfl | hx
        · omega
        · exact hp x (by simp [hx])
      · rw [hp']
        simpa using Growing.tail hg
      · rw [hp']
        rintro r c' ⟨e1, e2, e3, e4⟩
        refine ⟨?_, ?_, e3, e4⟩
        · rw [stackPot_top]
          simp only [List.headD_cons] at e1
          omega
        · rw [e2]; simp; omega
    refine Cost.ite (fun hw => ?_) fun hw => ?_
    · -- one of the first two conditions
      rcases R with _ | ⟨l1, R⟩
      · rw [hR] at hw; simp [willTest] at hw
      have h1 := hp l1 (by simp)
      simp only [List.length_cons] at hl
      refine pendingAt_cost.bind ?_
      rintro ⟨y1, m1⟩ c ⟨rfl, -, g1⟩
      have g1 := g1 2 (by omega)
      refine pendingAt_cost.bind ?_
      rintro ⟨y3, m3⟩ c ⟨rfl, -, g3⟩
      have g3 := g3 0 (by omega)
      rw [hR] at g1 g3
      have g1 : l1 = m1 := Option.some.inj g1
      have g3 : l3 = m3 := Option.some.inj g3
      subst g1 g3
      dsimp only
      have hwm : willMerge (l3 :: l2 :: l1 :: R) = true := by
        rw [hR] at hw
        unfold willMerge
        dsimp only
        rw [hw]; rfl
      rw [if_pos hwm]
      by_cases h13 : l1 < l3
      · rw [if_pos h13, show p.length - 2 - 1 = p.length - 3 by omega]
        refine (mergeAt_second hR h2 h1).bind ?_
        rintro ⟨p', b'⟩ c ⟨hc, hp'⟩
        dsimp only at hp' ⊢
        have hl' := runLens_length p'
        rw [hp'] at hl'
        simp only [List.length_cons] at hl'
        refine (ih b' p' (by omega) ?_ ?_).mono ?_
        · rw [hp']
          intro x hx
          rcases List.mem_cons.1 hx with rfl | hx
          · omega
          rcases List.mem_cons.1 hx with rfl | hx
          · omega
          · exact hp x (by simp [hx])
        · rw [hp']
          exact Growing.tail hg
        · rw [hp']
          rintro r c' ⟨e1, e2, e3, e4⟩
          refine ⟨?_, ?_, e3, e4⟩
          · rw [stackPot_second]
            simp only [List.headD_cons]
            omega
          · rw [e2]; simp; omega
      · rw [if_neg h13]
        have hw' : willMerge ((l3 + l2) :: l1 :: R) = true := by
          rw [hR] at hw
          unfold willMerge
          rcases R with _ | ⟨l0, R⟩
          · simp only [willTest, decide_eq_true_eq] at hw
            simp; omega
          · simp only [willTest, Bool.or_eq_true, decide_eq_true_eq] at hw
            rcases R with _ | ⟨x, R⟩ <;> simp [willTest] <;> omega
        refine (top (4 * l3) ?_).mono fun r c h => ?_
        · rw [if_pos hw']; omega
        · simp only [List.headD_cons]
          simpa using h
    · refine pendingAt_cost.bind ?_
      rintro ⟨y2, m2⟩ c ⟨rfl, -, g2⟩
      have g2 := g2 1 (by omega)
      refine pendingAt_cost.bind ?_
      rintro ⟨y3, m3⟩ c ⟨rfl, -, g3⟩
      have g3 := g3 0 (by omega)
      rw [hR] at g2 g3
      have g2 : l2 = m2 := Option.some.inj g2
      have g3 : l3 = m3 := Option.some.inj g3
      subst g2 g3
      dsimp only
      refine Cost.ite (fun h23 => ?_) fun h23 => Cost.pure ?_
      · refine (top (4 * l3) (by split <;> omega)).mono fun r c h => ?_
        rw [if_pos (by unfold willMerge; simp [h23])]
        simp only [List.headD_cons]
        simpa using h
      · rw [hR] at hw
        have hwm : willMerge (l3 :: l2 :: R) = false := by
          unfold willMerge
          dsimp only
          simp only [Bool.not_eq_true] at hw
          rw [hw]; simpa using h23
        rw [hwm]
        dsimp only
        rw [hR]
        refine ⟨by simp, rfl, hp, ⟨by omega, ?_, ?_⟩⟩
        · intro c hc
          rcases R with _ | ⟨l1, _ | ⟨l0, R⟩⟩
          · cases hc
          · cases hc
            simp [willTest] at hw
            omega
          · cases hc
            simp [willTest] at hw
            omega
        · rcases R with _ | ⟨l1, R⟩
          · trivial
          · refine ⟨?_, ?_, hg⟩
            · rcases R with _ | ⟨l0, R⟩ <;> simp [willTest] at hw <;> omega
            · intro c hc
              rcases R with _ | ⟨l0, R⟩
              · cases hc
              · cases hc
                simp [willTest] at hw
                omega

theorem tim_collapses : CollapseCosts N Growing (timCollapse (tick lt)) := by
  intro b p a R hR hp hg
  refine (timCollapse_cost _ b p (Nat.le_refl _) hp ?_).mono fun r c h => ⟨by omega, h.2⟩
  rw [hR]
  simpa using hg.tail

/-- Runs whose lengths have more and more bits, from the top of the stack. -/
def GrowingLog : List Nat → Prop
  | a :: b :: R => a.log2 < b.log2 ∧ GrowingLog (b :: R)
  | _ => True

theorem GrowingLog.tail : ∀ {R : List Nat}, GrowingLog R → GrowingLog R.tail
  | [], _ => trivial
  | [_], _ => trivial
  | _ :: _ :: _, h => h.2

theorem growingLog_sum : ∀ (R : List Nat) (a : Nat), GrowingLog (a :: R) →
    R.length + a.log2 ≤ (a :: R).sum.log2
  | [], a, _ => by simp
  | b :: R, a, h => by
    have g := growingLog_sum R b h.2
    have h1 := h.1
    have : (b :: R).sum.log2 ≤ (a :: b :: R).sum.log2 := log2_mono (by simp)
    simp only [List.length_cons]
    omega

theorem growingLog_height {R : List Nat} {n : Nat} (h : GrowingLog R.tail) (hs : R.sum ≤ n) :
    R.length ≤ n.log2 + 2 := by
  rcases R with _ | ⟨a, _ | ⟨b, R⟩⟩
  · simp
  · simp
  · have g := growingLog_sum R b h
    have : (b :: R).sum.log2 ≤ n.log2 := log2_mono (by simp at hs ⊢; omega)
    simp only [List.length_cons]
    omega

theorem andNot_testBit (a b i : Nat) : (andNot a b).testBit i = (a.testBit i && !b.testBit i) := by
  unfold andNot
  rw [Nat.testBit_xor, Nat.testBit_and]
  cases a.testBit i <;> cases b.testBit i <;> rfl

theorem andNot_le (a b : Nat) : andNot a b ≤ a := by
  apply Nat.le_of_testBit
  intro i h
  rw [andNot_testBit] at h
  simp at h
  exact h.1

/-- When adaptive shivers sort goes on merging. -/
theorem andNot_lt {x c : Nat} (h : andNot c x < x) : c < 2 * x := by
  by_contra hc
  have hx : x ≠ 0 := by rintro rfl; omega
  have h1 : x < 2 ^ (x.log2 + 1) := Nat.lt_log2_self
  have h0 : 2 ^ x.log2 ≤ x := Nat.log2_self_le hx
  have hcx : c.log2 ≥ x.log2 + 1 := by
    refine (Nat.le_log2 (by omega)).2 ?_
    rw [Nat.pow_succ]; omega
  have hb : (andNot c x).testBit c.log2 = true := by
    rw [andNot_testBit, Nat.testBit_log2 (by omega), Nat.testBit_lt_two_pow
      (Nat.lt_of_lt_of_le h1 (Nat.pow_le_pow_right (by omega) hcx))]
    rfl
  have h3 := Nat.ge_two_pow_of_testBit hb
  have h4 := Nat.pow_le_pow_right (show 0 < 2 by omega) hcx
  omega

/-- When adaptive shivers sort stops merging. -/
theorem log2_andNot {x c : Nat} (hx : x ≠ 0) (h : x ≤ andNot c x) : x.log2 < c.log2 := by
  by_contra hc
  have hle := andNot_le c x
  have hc0 : c ≠ 0 := by rintro rfl; omega
  have h0 : 2 ^ x.log2 ≤ x := Nat.log2_self_le hx
  have h1 : c < 2 ^ (c.log2 + 1) := Nat.lt_log2_self
  have h2 := Nat.pow_le_pow_right (show 0 < 2 by omega) (show c.log2 + 1 ≤ x.log2 + 1 by omega)
  have : andNot c x < 2 ^ x.log2 := by
    apply Nat.lt_pow_two_of_testBit
    intro i hi
    rw [andNot_testBit]
    by_cases e : i = x.log2
    · rw [e, Nat.testBit_log2 hx]; simp
    · rw [Nat.testBit_lt_two_pow (Nat.lt_of_lt_of_le (show c < 2 ^ (x.log2 + 1) by omega)
        (Nat.pow_le_pow_right (by omega) (by omega)))]
      rfl
  omega

theorem or_le_add (a b : Nat) : a ||| b ≤ a + b := by
  induction a using Nat.strongRecOn generalizing b with
  | ind a ih =>
    by_cases h : a = 0
    · subst h; simp
    have g := ih (a / 2) (by omega) (b / 2)
    have e := Nat.or_div_two (a := a) (b := b)
    have m := Nat.or_mod_two_eq_one (a := a) (b := b)
    have := Nat.div_add_mod (a ||| b) 2
    omega

theorem shiversCollapse_cost : ∀ (n : Nat) (b : TimBuf) (p : List (Nat × Nat)), p.length ≤ n →
    (∀ x ∈ runLens p, 1 ≤ x) → GrowingLog ((runLens p).drop 2) → Cost N (shiversCollapse (tick lt) b p) (fun r c =>
      c + 12 * stackPot (runLens r.1) ≤ 12 * stackPot (runLens p) ∧ (runLens r.1).sum = (runLens p).sum ∧
        (∀ x ∈ runLens r.1, 1 ≤ x) ∧ GrowingLog (runLens r.1).tail) := by
  intro n
  induction n with
  | zero =>
    intro b p hn hp hg
    have : p = [] := List.eq_nil_of_length_eq_zero (by omega)
    subst this
    rw [shiversCollapse, if_neg (by simp)]
    exact Cost.pure ⟨by simp, rfl, hp, trivial⟩
  | succ n ih =>
    intro b p hn hp hg
    have hl := runLens_length p
    rw [shiversCollapse]
    rcases hR : runLens p with _ | ⟨l3, _ | ⟨l2, R⟩⟩
    · rw [hR] at hl
      rw [if_neg (by simp at hl; omega)]
      exact Cost.pure ⟨by simp [hR], by rw [hR], by rw [hR]; simp, by rw [hR]; trivial⟩
    · rw [hR] at hl
      rw [if_neg (by simp at hl; omega)]
      exact Cost.pure ⟨by simp [hR], by rw [hR], by rw [hR] at hp; rwa [hR], by rw [hR]; trivial⟩
    rw [hR] at hl hp hg
    simp only [List.length_cons] at hl
    rw [if_pos (by omega)]
    have h3 := hp l3 (by simp)
    have h2 := hp l2 (by simp)
    refine pendingAt_cost.bind ?_
    rintro ⟨y2, m2⟩ c ⟨rfl, -, g2⟩
    have g2 := g2 1 (by omega)
    refine pendingAt_cost.bind ?_
    rintro ⟨y3, m3⟩ c ⟨rfl, -, g3⟩
    have g3 := g3 0 (by omega)
    rw [hR] at g2 g3
    have g2 : l2 = m2 := Option.some.inj g2
    have g3 : l3 = m3 := Option.some.inj g3
    subst g2 g3
    dsimp only
    rcases R with _ | ⟨l1, R⟩
    · rw [if_pos (by simp at hl; omega)]
      exact Cost.pure ⟨by simp [hR], by rw [hR], by rwa [hR], by rw [hR]; trivial⟩
    simp only [List.length_cons] at hl
    have h1 := hp l1 (by simp)
    rw [if_neg (by omega)]
    refine pendingAt_cost.bind ?_
    rintro ⟨y1, m1⟩ c ⟨rfl, -, g1⟩
    have g1 := g1 2 (by omega)
    rw [hR] at g1
    have g1 : l1 = m1 := Option.some.inj g1
    subst g1
    dsimp only
    have hor := or_le_add l2 l3
    have hx2 : l2 ≤ l2 ||| l3 := Nat.left_le_or
    refine Cost.ite (fun hs => Cost.pure ?_) fun hs => ?_
    · dsimp only
      rw [hR]
      refine ⟨by simp, rfl, hp, ⟨?_, hg⟩⟩
      have := log2_andNot (by omega) hs
      have := log2_mono hx2
      omega
    · have hlt := andNot_lt (show andNot l1 (l2 ||| l3) < l2 ||| l3 by omega)
      refine (mergeAt_second hR h2 h1).bind ?_
      rintro ⟨p', b'⟩ c ⟨hc, hp'⟩
      dsimp only at hp' ⊢
      have hl' := runLens_length p'
      rw [hp'] at hl'
      simp only [List.length_cons] at hl'
      refine (ih b' p' (by omega) ?_ ?_).mono ?_
      · rw [hp']
        intro x hx
        rcases List.mem_cons.1 hx with rfl | hx
        · omega
        rcases List.mem_cons.1 hx with rfl | hx
        · omega
        · exact hp x (by simp [hx])
      · rw [hp']
        exact GrowingLog.tail hg
      · rw [hp']
        rintro r c' ⟨e1, e2, e3, e4⟩
        refine ⟨?_, ?_, e3, e4⟩
        · rw [stackPot_second]
          omega
        · rw [e2]; simp; omega

theorem shivers_collapses : CollapseCosts N (fun R => GrowingLog R.tail) (shiversCollapse (tick lt)) := by
  intro b p a R hR hp hg
  refine shiversCollapse_cost _ b p (Nat.le_refl _) hp ?_
  rw [hR]
  simpa using hg

theorem forceTest_cost {p : List (Nat × Nat)} {n : Nat} :
    Cost N (forceTest p n : M α Bool) (fun r c => c = 0 ∧ (r = true → 0 < n)) := by
  unfold forceTest
  refine Cost.ite (fun h => ?_) fun h => Cost.pure ⟨rfl, by simp⟩
  refine pendingAt_cost.bind ?_
  rintro ⟨y1, m1⟩ c ⟨rfl, -⟩
  refine pendingAt_cost.bind ?_
  rintro ⟨y3, m3⟩ c ⟨rfl, -⟩
  exact Cost.pure ⟨rfl, fun _ => h⟩

theorem forceCollapse_cost : ∀ (n : Nat) (b : TimBuf) (p : List (Nat × Nat)), p.length ≤ n →
    (∀ x ∈ runLens p, 1 ≤ x) →
    Cost N (forceCollapse (tick lt) b p) (fun _ c => c ≤ n * (4 * (runLens p).sum)) := by
  intro n
  induction n with
  | zero =>
    intro b p hn hp
    rw [forceCollapse, if_neg (by omega)]
    exact Cost.pure (by omega)
  | succ n ih =>
    intro b p hn hp
    have hl := runLens_length p
    rw [forceCollapse]
    refine Cost.ite (fun h => ?_) fun _ => Cost.pure (by omega)
    dsimp only
    refine forceTest_cost.bind ?_
    rintro t _ ⟨rfl, ht⟩
    rcases hR : runLens p with _ | ⟨l3, _ | ⟨l2, R⟩⟩
    · rw [hR] at hl; simp at hl; omega
    · rw [hR] at hl; simp at hl; omega
    rw [hR] at hl hp
    simp only [List.length_cons] at hl
    have h3 := hp l3 (by simp)
    have h2 := hp l2 (by simp)
    have fin : ∀ (p' : List (Nat × Nat)) (b' : TimBuf) (c : Nat), c ≤ 4 * (l3 :: l2 :: R).sum →
        (runLens p').sum = (l3 :: l2 :: R).sum → p'.length ≤ n → (∀ x ∈ runLens p', 1 ≤ x) →
        Cost N (forceCollapse (tick lt) b' p') (fun _ c' => 0 + (c + c') ≤ (n + 1) * (4 * (l3 :: l2 :: R).sum)) := by
      intro p' b' c hc hs hn' hp'
      refine (ih b' p' hn' hp').mono fun _ c' hc' => ?_
      rw [hs] at hc'
      rw [Nat.succ_mul]
      omega
    by_cases htt : t = true
    · rw [if_pos htt]
      have := ht htt
      rcases R with _ | ⟨l1, R⟩
      · simp at hl; omega
      simp only [List.length_cons] at hl
      rw [show p.length - 2 - 1 = p.length - 3 by omega]
      refine (mergeAt_second hR h2 (hp l1 (by simp))).bind ?_
      rintro ⟨p', b'⟩ c ⟨hc, hp'⟩
      dsimp only at hp' ⊢
      have hl' := runLens_length p'
      rw [hp'] at hl'
      simp only [List.length_cons] at hl'
      refine fin p' b' c (by simp; omega) (by rw [hp']; simp; omega) (by omega) ?_
      rw [hp']
      intro x hx
      rcases List.mem_cons.1 hx with rfl | hx
      · omega
      rcases List.mem_cons.1 hx with rfl | hx
      · omega
      · exact hp x (by simp [hx])
    · rw [if_neg htt]
      refine (mergeAt_top hR h3 h2).bind ?_
      rintro ⟨p', b'⟩ c ⟨hc, hp'⟩
      dsimp only at hp' ⊢
      have hl' := runLens_length p'
      rw [hp'] at hl'
      simp only [List.length_cons] at hl'
      refine fin p' b' c (by simp; omega) (by rw [hp']; simp; omega) (by omega) ?_
      rw [hp']
      intro x hx
      rcases List.mem_cons.1 hx with rfl | hx
      · omega
      · exact hp x (by simp [hx])

theorem reverse_silent : ∀ first last, Silent (reverse first last : M α Unit) := by
  refine reverse.fixpoint_induct (fun f => ∀ x y, Silent (f x y)) Silent.admissible2 ?_
  intro f ih x y
  dsimp only
  split
  · exact Silent.ite Silent.pure ((silent_swap _ _).bind fun _ => ih _ _)
  · exact Silent.pure

theorem runLoop_cost {cmp : α → α → M α Bool} (hu : Unit1 N cmp) {hi : Nat} : ∀ (m runHi : Nat), runHi < hi →
    hi - runHi ≤ m → Cost N (runLoop cmp hi runHi) (fun r c => c ≤ r - runHi ∧ runHi < r ∧ r ≤ hi) := by
  intro m
  induction m with
  | zero => intro r h h'; omega
  | succ m ih =>
    intro x h h'
    rw [runLoop]
    refine Cost.ite (fun h1 => ?_) fun h1 => Cost.pure (by omega)
    refine (silent_read _).costBind fun _ => (silent_read _).costBind fun _ => Cost.cmpBind hu fun b => ?_
    exact Cost.ite (fun _ => (ih _ (by omega) (by omega)).mono fun r c hr => by omega) fun _ => Cost.pure (by omega)

theorem countRun_cost {lo hi : Nat} (h : lo < hi) :
    Cost N (countRun (tick lt) lo hi) (fun r c => c ≤ r ∧ 1 ≤ r ∧ r ≤ hi - lo) := by
  unfold countRun
  dsimp only
  refine Cost.ite (fun h1 => Cost.pure (by omega)) fun h1 => ?_
  refine (silent_read _).costBind fun _ => (silent_read _).costBind fun _ => Cost.tickBind fun b => ?_
  refine Cost.ite (fun _ => ?_) fun _ => ?_
  · refine (runLoop_cost unit1_tick _ _ (by omega) (Nat.le_refl _)).bind fun r c hr => ?_
    exact (reverse_silent _ _).costBind fun _ => Cost.pure (by omega)
  · refine (runLoop_cost (spin_unit1_not unit1_tick) _ _ (by omega) (Nat.le_refl _)).bind fun r c hr => ?_
    exact Cost.pure (by omega)

theorem binaryLoop_cost {lo hi : Nat} (h : hi ≤ lo + 64) : ∀ (m start : Nat), start + m = hi →
    Cost N (binaryLoop (tick lt) lo hi start) (fun _ c => c ≤ 6 * m) := by
  intro m
  induction m with
  | zero =>
    intro start hs
    rw [binaryLoop, if_neg (by omega)]
    exact Cost.pure (by omega)
  | succ m ih =>
    intro start hs
    rw [binaryLoop, if_pos (by omega)]
    refine (silent_moveOut _).costBind fun _ => (upperBound_cost unit1_tick (k := 6) (by omega)).bind fun q c hq => ?_
    refine (moveBackward_silent _ _ _).costBind fun _ => (silent_assign _ _).costBind fun _ => ?_
    exact (ih _ (by omega)).mono fun _ c hc => by omega

theorem binarySort_cost {lo hi start : Nat} (h : hi ≤ lo + 64) (h1 : lo < start) (h2 : start ≤ hi) :
    Cost N (binarySort (tick lt) lo hi start) (fun _ c => c ≤ 6 * (hi - start)) := by
  unfold binarySort
  rw [if_neg (by omega)]
  exact binaryLoop_cost h (hi - start) start (by omega)

theorem minRunLoop_le : ∀ (n r : Nat), r ≤ 1 → minRunLoop n r ≤ 64 := by
  intro n
  induction n using Nat.strongRecOn with
  | ind n ih =>
    intro r hr
    rw [minRunLoop]
    split
    · refine ih _ (by rw [Nat.shiftRight_eq_div_pow]; omega) _ ?_
      have : r ||| (n &&& 1) < 2 ^ 1 := Nat.or_lt_two_pow (by omega) (by rw [Nat.and_one_is_mod]; omega)
      omega
    · omega

theorem timLoop_cost {Ok : List Nat → Prop} {collapse : TimBuf → List (Nat × Nat) → M α (List (Nat × Nat) × TimBuf)}
    (hc : CollapseCosts N Ok collapse) {n h : Nat}
    (hh : ∀ R, Ok R → (∀ x ∈ R, 1 ≤ x) → R.sum ≤ n → R.length ≤ h) {hi minRun : Nat} (hm : minRun ≤ 64) :
    ∀ (m : Nat) (b : TimBuf) (p : List (Nat × Nat)) (cur nRem : Nat), nRem ≤ m → 1 ≤ nRem → cur + nRem = hi →
    (∀ x ∈ runLens p, 1 ≤ x) → Ok (runLens p) → (runLens p).sum + nRem = n →
    Cost N (timLoop (tick lt) collapse hi minRun b p cur nRem) (fun r c =>
      c + 12 * stackPot (runLens r.1) ≤ 12 * stackPot (runLens p) + nRem * (12 * (h + 1) + 7) ∧
        (runLens r.1).sum = n ∧ (∀ x ∈ runLens r.1, 1 ≤ x) ∧ Ok (runLens r.1)) := by
  intro m
  induction m with
  | zero => intro b p cur nRem h1 h2; omega
  | succ m ih =>
    intro b p cur nRem h1 h2 h3 h4 h5 h6
    rw [timLoop]
    refine (countRun_cost (by omega)).bind fun r0 c0 hr0 => ?_
    have fin : ∀ (runLen c1 : Nat), c1 ≤ 7 * runLen → 1 ≤ runLen → runLen ≤ nRem →
        Cost N (do
          let (p, b) ← collapse b (p ++ [(cur, runLen)])
          if nRem - runLen ≠ 0 then
            timLoop (tick lt) collapse hi minRun b p (cur + runLen) (nRem - runLen)
          else
            pure (p, b)) (fun r c =>
          c1 + c + 12 * stackPot (runLens r.1) ≤ 12 * stackPot (runLens p) + nRem * (12 * (h + 1) + 7) ∧
            (runLens r.1).sum = n ∧ (∀ x ∈ runLens r.1, 1 ≤ x) ∧ Ok (runLens r.1)) := by
      intro runLen c1 hc1 g1 g2
      have hlen := hh _ h5 h4 (by omega)
      have hpot : stackPot (runLen :: runLens p) ≤ runLen * (h + 1) + stackPot (runLens p) := by
        simp only [stackPot]
        exact Nat.add_le_add_right (Nat.mul_le_mul_left _ (by omega)) _
      refine (hc b (p ++ [(cur, runLen)]) runLen (runLens p) (runLens_snoc _ _ _) ?_ h5).bind ?_
      · rw [runLens_snoc]
        intro x hx
        rcases List.mem_cons.1 hx with rfl | hx
        · exact g1
        · exact h4 x hx
      rintro ⟨p', b'⟩ c ⟨e1, e2, e3, e4⟩
      rw [runLens_snoc] at e1 e2
      dsimp only at e1 e2 e3 e4 ⊢
      rw [List.sum_cons] at e2
      have hmul : runLen * (12 * (h + 1) + 7) = 12 * (runLen * (h + 1)) + 7 * runLen := by
        rw [Nat.mul_add, Nat.mul_comm runLen 7, Nat.mul_left_comm]
      have hsplit : nRem * (12 * (h + 1) + 7) =
          runLen * (12 * (h + 1) + 7) + (nRem - runLen) * (12 * (h + 1) + 7) := by
        rw [← Nat.add_mul, show runLen + (nRem - runLen) = nRem by omega]
      refine Cost.ite (fun hne => ?_) fun hne => Cost.pure ?_
      · refine (ih b' p' (cur + runLen) (nRem - runLen) (by omega) (by omega) (by omega) e3 e4 (by omega)).mono ?_
        rintro r c' ⟨f1, f2, f3, f4⟩
        exact ⟨by omega, f2, f3, f4⟩
      · exact ⟨by dsimp only; omega, by dsimp only; omega, e3, e4⟩
    refine Cost.ite (fun hs => ?_) fun hs => ?_
    · dsimp only
      refine (binarySort_cost (by omega) (by omega) (by omega)).bind fun _ c1 hc1 => ?_
      refine (Cost.pure (R := fun r c => r = min nRem minRun ∧ c = 0) ⟨rfl, rfl⟩).bind ?_
      rintro _ _ ⟨rfl, rfl⟩
      exact (fin (min nRem minRun) (c0 + c1) (by omega) (by omega) (by omega)).mono fun r c hr =>
        ⟨by omega, hr.2⟩
    · refine (Cost.pure (R := fun r c => r = r0 ∧ c = 0) ⟨rfl, rfl⟩).bind ?_
      rintro _ _ ⟨rfl, rfl⟩
      exact (fin _ c0 (by omega) (by omega) (by omega)).mono fun r c hr => ⟨by omega, hr.2⟩

/-- `TimSortBase::sort`, with the height of the stack as a parameter. -/
theorem timBase_cost {Ok : List Nat → Prop} {collapse : TimBuf → List (Nat × Nat) → M α (List (Nat × Nat) × TimBuf)}
    (hc : CollapseCosts N Ok collapse) (hnil : Ok []) {lo hi h : Nat}
    (hh : ∀ R, Ok R → (∀ x ∈ R, 1 ≤ x) → R.sum ≤ hi - lo → R.length ≤ h) :
    Cost N (timBase (tick lt) collapse lo hi) (fun _ c => c ≤ (hi - lo) * (16 * h + 19)) := by
  unfold timBase
  dsimp only
  refine Cost.ite (fun _ => Cost.pure (by omega)) fun h1 => ?_
  refine Cost.ite (fun h2 => ?_) fun h2 => ?_
  · refine (countRun_cost (by omega)).bind fun r c hr => ?_
    refine (binarySort_cost (by omega) (by omega) (by omega)).mono fun _ c' hc' => ?_
    have := Nat.mul_le_mul_left (hi - lo) (show 7 ≤ 16 * h + 19 by omega)
    omega
  · refine (timLoop_cost hc hh (minRunLoop_le _ _ (by omega)) _ _ [] lo (hi - lo) (Nat.le_refl _) (by omega)
      (by omega) (by simp [runLens]) (by simpa [runLens] using hnil) (by simp [runLens])).bind ?_
    rintro ⟨p, b⟩ c ⟨e1, e2, e3, e4⟩
    dsimp only at e1 e2 e3 e4 ⊢
    have hl := hh _ e4 e3 (by omega)
    rw [runLens_length] at hl
    refine (forceCollapse_cost h b p hl e3).bind ?_
    rintro ⟨p', b'⟩ c' hc'
    rw [e2] at hc'
    refine (silent_free _ _).cost fun _ => ?_
    have a0 : stackPot (runLens []) = 0 := rfl
    have a1 : (hi - lo) * (16 * h + 19) = (hi - lo) * (12 * (h + 1) + 7) + h * (4 * (hi - lo)) := by
      rw [Nat.mul_comm h, Nat.mul_comm 4, Nat.mul_assoc, ← Nat.mul_add]
      congr 1
      omega
    omega

end CppSort
