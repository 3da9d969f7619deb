import Verif.Proof.NetExec
import Mathlib.Data.Nat.Bitwise
/-
How few comparators a network needs: what a network can leave of the 0-1 inputs is a set of words of
bits, kept as the bits of a number. All the sets that `k` comparators can leave are enumerated, without
repetitions.
-/
set_option autoImplicit false

namespace CppSort
variable {α : Type} {lt : α → α → Bool}

/-! ### Sets of numbers -/

/-- A binary search tree. -/
inductive NTree where
  | leaf
  | node (l : NTree) (x : Nat) (r : NTree)

namespace NTree

def Has (y : Nat) : NTree → Prop
  | leaf => False
  | node l x r => y = x ∨ l.Has y ∨ r.Has y

noncomputable def insert (t : NTree) (y : Nat) : NTree :=
  NTree.rec (motive := fun _ => NTree) (.node .leaf y .leaf)
    (fun l x r il ir => bif Nat.ble y x then (bif Nat.ble x y then .node l x r else .node il x r)
      else .node l x ir) t

theorem insert_node (l : NTree) (x : Nat) (r : NTree) (y : Nat) : (node l x r).insert y =
    bif Nat.ble y x then (bif Nat.ble x y then .node l x r else .node (l.insert y) x r)
      else .node l x (r.insert y) := rfl

theorem insert_has {z y : Nat} : ∀ {t : NTree}, z = y ∨ t.Has z → (t.insert y).Has z := by
  intro t
  induction t with
  | leaf => rintro (h | h); exacts [Or.inl h, h.elim]
  | node l x r ihl ihr =>
    intro h
    rw [insert_node]
    cases e1 : Nat.ble y x
    · rw [cond_false]
      rcases h with h | h | h | h
      · exact Or.inr (Or.inr (ihr (Or.inl h)))
      · exact Or.inl h
      · exact Or.inr (Or.inl h)
      · exact Or.inr (Or.inr (ihr (Or.inr h)))
    · rw [cond_true]
      cases e2 : Nat.ble x y
      · rw [cond_false]
        rcases h with h | h | h | h
        · exact Or.inr (Or.inl (ihl (Or.inl h)))
        · exact Or.inl h
        · exact Or.inr (Or.inl (ihl (Or.inr h)))
        · exact Or.inr (Or.inr h)
      · rw [cond_true]
        have : y = x := Nat.le_antisymm (Nat.le_of_ble_eq_true e1) (Nat.le_of_ble_eq_true e2)
        rcases h with h | h
        · exact Or.inl (h.trans this)
        · exact h

noncomputable def toList (t : NTree) (acc : List Nat) : List Nat :=
  NTree.rec (motive := fun _ => List Nat → List Nat) (fun acc => acc)
    (fun _ x _ il ir acc => il (x :: ir acc)) t acc

theorem toList_mem {z : Nat} : ∀ {t : NTree} {acc : List Nat}, t.Has z ∨ z ∈ acc → z ∈ t.toList acc := by
  intro t
  induction t with
  | leaf => rintro acc (h | h); exacts [h.elim, h]
  | node l x r ihl ihr =>
    intro acc h
    show z ∈ l.toList (x :: r.toList acc)
    rcases h with (h | h | h) | h
    · exact ihl (Or.inr (by simp [h]))
    · exact ihl (Or.inl h)
    · exact ihl (Or.inr (List.mem_cons_of_mem _ (ihr (Or.inl h))))
    · exact ihl (Or.inr (List.mem_cons_of_mem _ (ihr (Or.inr h))))

end NTree

/-! ### Sets of words -/

/-- What a comparator leaves of a set: `c.1` has the words that it changes, and adds `c.2` to them. -/
def maskStep (m : Nat) (c : Nat × Nat) : Nat :=
  Nat.lor (Nat.xor m (Nat.land m c.1)) (Nat.shiftLeft (Nat.land m c.1) c.2)

/-- Evaluates a number before it is used. -/
noncomputable def forceNat {β : Type} (x : Nat) (k : Nat → β) : β :=
  Nat.rec (motive := fun _ => β) (k 0) (fun p _ => k (Nat.succ p)) x

theorem forceNat_eq {β : Type} (x : Nat) (k : Nat → β) : forceNat x k = k x := by cases x <;> rfl

/-- Inserts what each comparator leaves of a set, if that is not the same set. -/
noncomputable def pushSteps (cs : List (Nat × Nat)) (m : Nat) (t : NTree) : NTree :=
  List.rec (motive := fun _ => NTree → NTree) (fun t => t)
    (fun c _ ih t => forceNat (maskStep m c) fun y =>
      bif Nat.beq y m then ih t else ih (t.insert y)) cs t

theorem pushSteps_cons (c : Nat × Nat) (cs : List (Nat × Nat)) (m : Nat) (t : NTree) :
    pushSteps (c :: cs) m t = bif Nat.beq (maskStep m c) m then pushSteps cs m t else
      pushSteps cs m (t.insert (maskStep m c)) := by
  refine (show pushSteps (c :: cs) m t = forceNat (maskStep m c) (fun y =>
      bif Nat.beq y m then pushSteps cs m t else pushSteps cs m (t.insert y)) from rfl).trans ?_
  rw [forceNat_eq]

theorem pushSteps_has {m z : Nat} : ∀ {cs : List (Nat × Nat)} {t : NTree},
    (t.Has z ∨ z ≠ m ∧ ∃ c ∈ cs, z = maskStep m c) → (pushSteps cs m t).Has z := by
  intro cs
  induction cs with
  | nil =>
    rintro t (h | ⟨-, c, h, -⟩)
    · exact h
    · simp at h
  | cons c cs ih =>
    intro t h
    rw [pushSteps_cons]
    cases e : Nat.beq (maskStep m c) m
    · rw [cond_false]
      rcases h with h | ⟨h1, d, h2, h3⟩
      · exact ih (Or.inl (NTree.insert_has (Or.inr h)))
      · rcases List.mem_cons.1 h2 with rfl | h2
        · exact ih (Or.inl (NTree.insert_has (Or.inl h3)))
        · exact ih (Or.inr ⟨h1, d, h2, h3⟩)
    · rw [cond_true]
      rcases h with h | ⟨h1, d, h2, h3⟩
      · exact ih (Or.inl h)
      · rcases List.mem_cons.1 h2 with rfl | h2
        · exact absurd (h3.trans (Nat.eq_of_beq_eq_true e)) h1
        · exact ih (Or.inr ⟨h1, d, h2, h3⟩)

noncomputable def expandSets (cs : List (Nat × Nat)) (L : List Nat) (t : NTree) : NTree :=
  List.rec (motive := fun _ => NTree → NTree) (fun t => t) (fun m _ ih t => ih (pushSteps cs m t)) L t

theorem expandSets_has {cs : List (Nat × Nat)} {z : Nat} : ∀ {L : List Nat} {t : NTree},
    (t.Has z ∨ ∃ m ∈ L, z ≠ m ∧ ∃ c ∈ cs, z = maskStep m c) → (expandSets cs L t).Has z := by
  intro L
  induction L with
  | nil =>
    rintro t (h | ⟨m, h, -⟩)
    · exact h
    · simp at h
  | cons m L ih =>
    intro t h
    show (expandSets cs L (pushSteps cs m t)).Has z
    rcases h with h | ⟨m', h1, h2⟩
    · exact ih (Or.inl (pushSteps_has (Or.inl h)))
    · rcases List.mem_cons.1 h1 with rfl | h1
      · exact ih (Or.inl (pushSteps_has (Or.inr h2)))
      · exact ih (Or.inr ⟨m', h1, h2⟩)

/-- Has every set a word that is not sorted? `s` has the sorted ones. -/
def allUnsorted (s : Nat) (L : List Nat) : Bool := L.all fun m => !(Nat.beq (Nat.lor m s) s)

/-- Is there no network of `k` comparators or fewer which sorts, from the sets of `L` on? -/
noncomputable def noNetwork (cs : List (Nat × Nat)) (s : Nat) : Nat → List Nat → Bool
  | 0, L => allUnsorted s L
  | k + 1, L => allUnsorted s L && noNetwork cs s k ((expandSets cs L .leaf).toList [])

theorem noNetwork_sound {cs : List (Nat × Nat)} {s : Nat} : ∀ (net : List (Nat × Nat)) (k : Nat)
    (L : List Nat), noNetwork cs s k L = true → (∀ c ∈ net, c ∈ cs) → net.length ≤ k → ∀ m ∈ L,
    Nat.lor (net.foldl maskStep m) s ≠ s := by
  intro net
  induction net with
  | nil =>
    intro k L h _ _ m hm
    have : allUnsorted s L = true := by
      cases k with
      | zero => exact h
      | succ k => exact (Bool.and_eq_true _ _ ▸ h).1
    have := List.all_eq_true.1 this m hm
    intro e
    simp only [List.foldl_nil] at e
    rw [e] at this
    simp at this
  | cons c net ih =>
    intro k L h hc hk m hm
    rw [List.foldl_cons]
    by_cases e : maskStep m c = m
    · rw [e]
      exact ih k L h (fun d hd => hc d (by simp [hd])) (by simp at hk; omega) m hm
    · cases k with
      | zero => simp at hk
      | succ k =>
        refine ih k _ (Bool.and_eq_true _ _ ▸ h).2 (fun d hd => hc d (by simp [hd]))
          (by simpa using hk) _ ?_
        exact NTree.toList_mem (Or.inl (expandSets_has (Or.inr ⟨m, hm, e, c, hc c (by simp), rfl⟩)))

/-! ### Networks on words -/

/-- A comparator on a word. -/
def wordStep (x : Nat) (p : Nat × Nat) : Nat :=
  bif x.testBit p.1 && !x.testBit p.2 then x + (2 ^ p.2 - 2 ^ p.1) else x

/-- The words of `n` bits that a comparator changes. -/
def netSel (n i j : Nat) : Nat :=
  (List.range (2 ^ n)).foldl (fun m x => bif x.testBit i && !x.testBit j then m + 2 ^ x else m) 0

/-- The sorted words of `n` bits. -/
def sortedWords (n : Nat) : Nat :=
  (List.range (n + 1)).foldl (fun m k => m + 2 ^ (2 ^ n - 2 ^ k)) 0

/-- A comparator as a function on sets of words of `n` bits. -/
def netComp (n : Nat) (p : Nat × Nat) : Nat × Nat := (netSel n p.1 p.2, 2 ^ p.2 - 2 ^ p.1)

def netComps (n : Nat) : List (Nat × Nat) :=
  (List.range n).flatMap fun j => (List.range j).map fun i => netComp n (i, j)

/-- What is evaluated about the words of `n` bits. -/
def NetFacts (n : Nat) : Prop :=
  (∀ j < n, ∀ i < j, ∀ x < 2 ^ n,
    (netSel n i j).testBit x = (x.testBit i && !x.testBit j) ∧ wordStep x (i, j) < 2 ^ n ∧
    ∀ k < n, (wordStep x (i, j)).testBit k = ceB (i, j) x.testBit k) ∧
  ∀ y < 2 ^ n, (∀ j < n, ∀ i < j, y.testBit i = true → y.testBit j = true) →
    (sortedWords n).testBit y = true

instance (n : Nat) : Decidable (NetFacts n) := by unfold NetFacts; infer_instance

theorem maskStep_back {n : Nat} (hf : NetFacts n) {i j : Nat} (hij : i < j) (hj : j < n) {m : Nat}
    (hm : ∀ y, m.testBit y = true → y < 2 ^ n) {y : Nat}
    (hy : (maskStep m (netComp n (i, j))).testBit y = true) :
    ∃ x, m.testBit x = true ∧ wordStep x (i, j) = y := by
  have hy : (m ^^^ (m &&& netSel n i j) ||| (m &&& netSel n i j) <<< (2 ^ j - 2 ^ i)).testBit y = true := hy
  rw [Nat.testBit_or, Bool.or_eq_true] at hy
  rcases hy with hy | hy
  · rw [Nat.testBit_xor, Nat.testBit_and] at hy
    cases e : m.testBit y
    · rw [e] at hy; simp at hy
    · rw [e] at hy
      have := (hf.1 j hj i hij y (hm y e)).1
      rw [this] at hy
      refine ⟨y, e, ?_⟩
      unfold wordStep
      simp only
      cases e2 : (y.testBit i && !y.testBit j)
      · rfl
      · rw [e2] at hy; simp at hy
  · rw [Nat.testBit_shiftLeft, Bool.and_eq_true, decide_eq_true_eq, Nat.testBit_and,
      Bool.and_eq_true] at hy
    obtain ⟨h1, h2, h3⟩ := hy
    refine ⟨y - (2 ^ j - 2 ^ i), h2, ?_⟩
    rw [(hf.1 j hj i hij _ (hm _ h2)).1] at h3
    unfold wordStep
    simp only [h3, cond_true]
    omega

theorem masks_back {n : Nat} (hf : NetFacts n) : ∀ (net : List (Nat × Nat)),
    (∀ p ∈ net, p.1 < p.2 ∧ p.2 < n) → ∀ m, (∀ y, m.testBit y = true → y < 2 ^ n) → ∀ y,
    ((net.map (netComp n)).foldl maskStep m).testBit y = true →
    ∃ x, m.testBit x = true ∧ net.foldl wordStep x = y := by
  intro net
  induction net with
  | nil => intro _ m _ y hy; exact ⟨y, hy, rfl⟩
  | cons p net ih =>
    intro hp m hm y hy
    obtain ⟨h1, h2⟩ := hp p (by simp)
    rw [List.map_cons, List.foldl_cons] at hy
    have back := fun z (hz : (maskStep m (netComp n p)).testBit z = true) =>
      maskStep_back hf (i := p.1) (j := p.2) h1 h2 hm hz
    obtain ⟨z, hz1, hz2⟩ := ih (fun q hq => hp q (by simp [hq])) (maskStep m (netComp n p))
      (fun z hz => by
        obtain ⟨x, hx, rfl⟩ := back z hz
        exact (hf.1 p.2 h2 p.1 h1 x (hm x hx)).2.1) y hy
    obtain ⟨x, hx, e⟩ := back z hz1
    refine ⟨x, hx, ?_⟩
    rw [List.foldl_cons]
    have : wordStep x p = z := e
    rw [this, hz2]

theorem runB_word {n : Nat} (hf : NetFacts n) : ∀ (net : List (Nat × Nat)),
    (∀ p ∈ net, p.1 < p.2 ∧ p.2 < n) → ∀ x < 2 ^ n,
    net.foldl wordStep x < 2 ^ n ∧ ∀ u : Nat → Bool, (∀ k < n, u k = x.testBit k) →
      ∀ k < n, runB net u k = (net.foldl wordStep x).testBit k := by
  intro net
  induction net with
  | nil => intro _ x hx; exact ⟨hx, fun u hu k hk => hu k hk⟩
  | cons p net ih =>
    intro hp x hx
    obtain ⟨h1, h2⟩ := hp p (by simp)
    obtain ⟨-, a, b⟩ := hf.1 p.2 h2 p.1 h1 x hx
    obtain ⟨c, d⟩ := ih (fun q hq => hp q (by simp [hq])) (wordStep x p) a
    refine ⟨c, fun u hu k hk => ?_⟩
    refine d (ceB p u) (fun k hk => ?_) k hk
    rw [show wordStep x p = wordStep x (p.1, p.2) from rfl, b k hk]
    unfold ceB
    simp only
    rw [hu p.1 (by omega), hu p.2 h2, hu k hk]

/-- No network with `k` comparators or fewer sorts. -/
theorem net_lower {n k : Nat} (hf : NetFacts n)
    (hc : noNetwork (netComps n) (sortedWords n) k [2 ^ 2 ^ n - 1] = true) {net : List (Nat × Nat)}
    (hp : ∀ p ∈ net, p.1 < p.2 ∧ p.2 < n) (hs : Sorts01 n net) : k < net.length := by
  by_contra hk
  have h := noNetwork_sound (net.map (netComp n)) k _ hc (fun c hcm => by
    obtain ⟨p, h1, rfl⟩ := List.mem_map.1 hcm
    obtain ⟨a, b⟩ := hp p h1
    exact List.mem_flatMap.2 ⟨p.2, List.mem_range.2 b, List.mem_map.2 ⟨p.1, List.mem_range.2 a, rfl⟩⟩)
    (by simp only [List.length_map]; omega) (2 ^ 2 ^ n - 1) (by simp)
  apply h
  apply Nat.eq_of_testBit_eq
  intro y
  show ((net.map (netComp n)).foldl maskStep (2 ^ 2 ^ n - 1) ||| sortedWords n).testBit y = _
  rw [Nat.testBit_or]
  cases e : ((net.map (netComp n)).foldl maskStep (2 ^ 2 ^ n - 1)).testBit y
  · simp
  · obtain ⟨x, hx, rfl⟩ := masks_back hf net hp _ (fun y hy => by
      rw [Nat.testBit_two_pow_sub_one, decide_eq_true_eq] at hy
      exact hy) y e
    rw [Nat.testBit_two_pow_sub_one, decide_eq_true_eq] at hx
    obtain ⟨a, b⟩ := runB_word hf net hp x hx
    rw [hf.2 _ a fun j hj i hi h => ?_]
    · simp
    · have r := b x.testBit (fun _ _ => rfl)
      rw [← r i (by omega)] at h
      rw [← r j hj]
      exact hs _ i j hi hj h

theorem netFacts_le : ∀ n ≤ 5, NetFacts n := by decide +kernel

set_option maxRecDepth 100000 in
theorem noNetwork2 : noNetwork (netComps 2) (sortedWords 2) 0 [2 ^ 2 ^ 2 - 1] = true := by decide +kernel
set_option maxRecDepth 100000 in
theorem noNetwork3 : noNetwork (netComps 3) (sortedWords 3) 2 [2 ^ 2 ^ 3 - 1] = true := by decide +kernel
set_option maxRecDepth 100000 in
theorem noNetwork4 : noNetwork (netComps 4) (sortedWords 4) 4 [2 ^ 2 ^ 4 - 1] = true := by decide +kernel
set_option maxRecDepth 100000 in
theorem noNetwork5 : noNetwork (netComps 5) (sortedWords 5) 8 [2 ^ 2 ^ 5 - 1] = true := by decide +kernel

end CppSort
