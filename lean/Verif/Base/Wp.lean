import Verif.Spec
import Mathlib.Logic.Equiv.Basic
import Mathlib.Data.List.Range
import Mathlib.Data.List.Nodup
import Mathlib.Data.List.Perm.Basic
import Mathlib.Tactic.Common
/-
Weakest preconditions, ranges of memory described by a function, permutations of a range.
-/
set_option autoImplicit false

namespace CppSort
variable {α β γ : Type}

/-- `m` started in `s` terminates without error and its result and final state satisfy `Q`. -/
def wp (m : M α β) (Q : β → St α → Prop) (s : St α) : Prop :=
  ∃ r s', m s = some (.ok r, s') ∧ Q r s'

theorem wp_pure {x : β} {Q : β → St α → Prop} {s : St α} (h : Q x s) :
    wp (pure x : M α β) Q s := ⟨x, s, rfl, h⟩

theorem bind_ok {m : M α β} {k : β → M α γ} {s s' : St α} {r : β}
    (h : m s = some (.ok r, s')) : (m >>= k) s = k r s' := by
  show ExceptT.bind m k s = _
  simp only [ExceptT.bind, ExceptT.mk, bind, StateT.bind, Option.bind]
  have h' : (m : StateT (St α) Option (Except Err β)) s = some (.ok r, s') := h
  rw [h']
  rfl

theorem wp_bind {m : M α β} {k : β → M α γ} {Q : γ → St α → Prop} {s : St α}
    (h : wp m (fun r s' => wp (k r) Q s') s) : wp (m >>= k) Q s := by
  obtain ⟨r, s', h1, r2, s2, h2, hQ⟩ := h
  exact ⟨r2, s2, (bind_ok h1).trans h2, hQ⟩

theorem wp_mono {m : M α β} {Q Q' : β → St α → Prop} {s : St α}
    (h : wp m Q s) (hQ : ∀ r s', Q r s' → Q' r s') : wp m Q' s := by
  obtain ⟨r, s', h1, h2⟩ := h
  exact ⟨r, s', h1, hQ _ _ h2⟩

/-- The cells of `[f, l)` hold the values given by `v`. -/
def Holds (c : Nat → Cell α) (f l : Nat) (v : Nat → α) : Prop :=
  ∀ i, f ≤ i → i < l → c i = .val (v i)

/-- Like `Holds`, but the cell `h` is moved-from (its logical value `v h` is in a local). -/
def HoldsX (c : Nat → Cell α) (f l h : Nat) (v : Nat → α) : Prop :=
  (∀ i, f ≤ i → i < l → i ≠ h → c i = .val (v i)) ∧ c h = .moved ∧ f ≤ h ∧ h < l

/-- The allocation frontier only grows, answers of the environment are only consumed. -/
def EnvLe (s s' : St α) : Prop := s.brk ≤ s'.brk ∧ ∃ k, ∀ i, s'.grant i = s.grant (i + k)

/-- Allocation frontier and remaining answers. -/
def St.env (s : St α) : Nat × (Nat → Nat) := (s.brk, s.grant)

theorem St.env_brk {s s' : St α} (h : s'.env = s.env) : s'.brk = s.brk := congrArg Prod.fst h

theorem EnvLe.refl (s : St α) : EnvLe s s := ⟨Nat.le_refl _, 0, fun _ => rfl⟩

theorem EnvLe.of_env {s s' : St α} (h : s'.env = s.env) : EnvLe s s' := by
  refine ⟨Nat.le_of_eq (St.env_brk h).symm, 0, fun i => ?_⟩
  exact congrFun (congrArg Prod.snd h) i

theorem EnvLe.trans {s s' s'' : St α} (h : EnvLe s s') (h' : EnvLe s' s'') : EnvLe s s'' := by
  obtain ⟨a, k, b⟩ := h
  obtain ⟨a', k', b'⟩ := h'
  exact ⟨Nat.le_trans a a', k' + k, fun i => by rw [b', b, Nat.add_assoc]⟩

/-- Everything outside `[f, l)` is unchanged; the allocation frontier only grows. -/
structure Frame (f l : Nat) (s s' : St α) : Prop where
  cell : ∀ i, (i < f ∨ l ≤ i) → s'.cell i = s.cell i
  brk : EnvLe s s'

theorem Frame.refl (f l : Nat) (s : St α) : Frame f l s s := ⟨fun _ _ => rfl, EnvLe.refl _⟩

theorem Frame.trans {f l : Nat} {s s' s'' : St α} (h : Frame f l s s') (h' : Frame f l s' s'') :
    Frame f l s s'' :=
  ⟨fun i hi => (h'.cell i hi).trans (h.cell i hi), h.brk.trans h'.brk⟩

theorem Frame.mono {f l f' l' : Nat} {s s' : St α} (h : Frame f' l' s s')
    (hf : f ≤ f') (hl : l' ≤ l) : Frame f l s s' :=
  ⟨fun i hi => h.cell i (by omega), h.brk⟩

theorem Frame.tick {f l : Nat} {s s' : St α} {n : Nat} (h : Frame f l { s with cmps := n } s') :
    Frame f l s s' := ⟨h.cell, h.brk⟩

theorem Frame.tickr {f l : Nat} {s s' : St α} {n : Nat} (h : Frame f l s s') :
    Frame f l s { s' with cmps := n } := ⟨h.cell, h.brk⟩

theorem Holds.sub {c : Nat → Cell α} {f l f' l' : Nat} {v : Nat → α} (h : Holds c f l v)
    (hf : f ≤ f') (hl : l' ≤ l) : Holds c f' l' v :=
  fun i h1 h2 => h i (by omega) (by omega)

theorem Holds.congr {c : Nat → Cell α} {f l : Nat} {v v' : Nat → α} (h : Holds c f l v)
    (e : ∀ i, f ≤ i → i < l → v i = v' i) : Holds c f l v' :=
  fun i h1 h2 => by rw [h i h1 h2, e i h1 h2]

theorem Holds.frame {s s' : St α} {f l f' l' : Nat} {v : Nat → α} (h : Holds s.cell f l v)
    (hf : Frame f' l' s s') (hd : l ≤ f' ∨ l' ≤ f) : Holds s'.cell f l v :=
  fun i h1 h2 => by rw [hf.cell i (by omega), h i h1 h2]

/-- Exchange of two positions. -/
def swp (v : Nat → α) (i j : Nat) : Nat → α :=
  fun k => if k = i then v j else if k = j then v i else v k

theorem swp_l {v : Nat → α} {i j k : Nat} (h : k = i) : swp v i j k = v j := by
  simp [swp, h]

theorem swp_r {v : Nat → α} {i j k : Nat} (h : k = j) : swp v i j k = v i := by
  subst h; unfold swp; split_ifs with h <;> simp_all

theorem swp_o {v : Nat → α} {i j k : Nat} (h : k ≠ i) (h' : k ≠ j) : swp v i j k = v k := by
  simp [swp, h, h']

theorem swp_comm (v : Nat → α) (i j : Nat) : swp v i j = swp v j i := by
  funext k
  by_cases h1 : k = i
  · rw [swp_l h1, swp_r h1]
  · by_cases h2 : k = j
    · rw [swp_r h2, swp_l h2]
    · rw [swp_o h1 h2, swp_o h2 h1]

/-- Update of one position. -/
def upd (v : Nat → α) (i : Nat) (x : α) : Nat → α := fun k => if k = i then x else v k

theorem upd_eq {v : Nat → α} {i k : Nat} {x : α} (h : k = i) : upd v i x k = x := by
  simp [upd, h]

theorem upd_ne {v : Nat → α} {i k : Nat} {x : α} (h : k ≠ i) : upd v i x k = v k := by
  simp [upd, h]

/-- Simplify exchanges and updates, deciding index (in)equalities with `omega`. -/
macro "sw" loc:(Lean.Parser.Tactic.location)? : tactic =>
  `(tactic| simp (disch := omega) only [swp_l, swp_r, swp_o, upd_eq, upd_ne] $[$loc]?)

/-- The values at `[f, l)`, as a list. -/
def lst (v : Nat → α) (f l : Nat) : List α := (List.range' f (l - f)).map v

@[simp] theorem lst_length (v : Nat → α) (f l : Nat) : (lst v f l).length = l - f := by
  simp [lst]

theorem lst_nil {v : Nat → α} {f l : Nat} (h : l ≤ f) : lst v f l = [] := by
  have : l - f = 0 := by omega
  simp [lst, this]

theorem lst_append {v : Nat → α} {f m l : Nat} (h1 : f ≤ m) (h2 : m ≤ l) :
    lst v f l = lst v f m ++ lst v m l := by
  unfold lst
  rw [← List.map_append]
  congr 1
  have : l - f = (m - f) + (l - m) := by omega
  rw [this, ← List.range'_append_1]
  congr 2
  omega

theorem lst_cons {v : Nat → α} {f l : Nat} (h : f < l) : lst v f l = v f :: lst v (f + 1) l := by
  unfold lst
  have : l - f = (l - (f + 1)) + 1 := by omega
  rw [this, List.range'_succ]
  simp

theorem lst_one {v : Nat → α} {f : Nat} : lst v f (f + 1) = [v f] := by
  rw [lst_cons (by omega), lst_nil (by omega)]

theorem lst_snoc {v : Nat → α} {f l : Nat} (h : f ≤ l) :
    lst v f (l + 1) = lst v f l ++ [v l] := by
  rw [lst_append h (Nat.le_succ l), lst_one]

theorem lst_congr {v w : Nat → α} {f l : Nat} (h : ∀ i, f ≤ i → i < l → v i = w i) :
    lst v f l = lst w f l := by
  unfold lst
  apply List.map_congr_left
  intro i hi
  rw [List.mem_range'_1] at hi
  exact h i hi.1 (by omega)

theorem mem_lst {v : Nat → α} {f l : Nat} {x : α} :
    x ∈ lst v f l ↔ ∃ i, f ≤ i ∧ i < l ∧ v i = x := by
  unfold lst
  rw [List.mem_map]
  constructor
  · rintro ⟨i, hi, e⟩
    rw [List.mem_range'_1] at hi
    exact ⟨i, hi.1, by omega, e⟩
  · rintro ⟨i, h1, h2, e⟩
    exact ⟨i, by rw [List.mem_range'_1]; omega, e⟩

/-- `v'` is obtained from `v` by a permutation of the positions in `[f, l)`. -/
def PermOn (f l : Nat) (v v' : Nat → α) : Prop :=
  (∀ i, (i < f ∨ l ≤ i) → v' i = v i) ∧ (lst v' f l).Perm (lst v f l)

theorem map_range'_perm {σ : Equiv.Perm Nat} {f l : Nat}
    (h : ∀ i, (i < f ∨ l ≤ i) → σ i = i) :
    ((List.range' f (l - f)).map σ).Perm (List.range' f (l - f)) := by
  have hin : ∀ i, f ≤ i → i < l → f ≤ σ i ∧ σ i < l := by
    intro i h1 h2
    by_contra hc
    have := σ.injective (h (σ i) (by omega))
    omega
  apply (List.perm_ext_iff_of_nodup _ _).2
  · intro a
    rw [List.mem_map]
    constructor
    · rintro ⟨i, hi, rfl⟩
      rw [List.mem_range'_1] at hi ⊢
      have := hin i hi.1 (by omega)
      omega
    · intro ha
      rw [List.mem_range'_1] at ha
      refine ⟨σ.symm a, ?_, by simp⟩
      rw [List.mem_range'_1]
      by_contra hc
      have := h (σ.symm a) (by omega)
      simp at this
      omega
  · exact List.Nodup.map σ.injective (List.nodup_range')
  · exact List.nodup_range'

theorem PermOn.of_equiv {f l : Nat} {v v' : Nat → α} (σ : Equiv.Perm Nat)
    (h1 : ∀ i, (i < f ∨ l ≤ i) → σ i = i) (h2 : ∀ i, v' i = v (σ i)) : PermOn f l v v' := by
  refine ⟨fun i hi => by rw [h2, h1 i hi], ?_⟩
  have : lst v' f l = ((List.range' f (l - f)).map σ).map v := by
    unfold lst
    rw [List.map_map]
    apply List.map_congr_left
    intro i _
    exact h2 i
  rw [this]
  exact (map_range'_perm h1).map v

theorem PermOn.refl (f l : Nat) (v : Nat → α) : PermOn f l v v :=
  ⟨fun _ _ => rfl, List.Perm.refl _⟩

theorem PermOn.trans {f l : Nat} {v v' v'' : Nat → α} (h : PermOn f l v v')
    (h' : PermOn f l v' v'') : PermOn f l v v'' :=
  ⟨fun i hi => (h'.1 i hi).trans (h.1 i hi), h'.2.trans h.2⟩

theorem PermOn.symm {f l : Nat} {v v' : Nat → α} (h : PermOn f l v v') : PermOn f l v' v :=
  ⟨fun i hi => (h.1 i hi).symm, h.2.symm⟩

theorem PermOn.mono {f l f' l' : Nat} {v v' : Nat → α} (h : PermOn f' l' v v')
    (hf : f ≤ f') (hl : l' ≤ l) : PermOn f l v v' := by
  refine ⟨fun i hi => h.1 i (by omega), ?_⟩
  by_cases hc : f' ≤ l'
  · rw [lst_append (v := v') hf (by omega), lst_append (v := v) hf (by omega),
      lst_append (v := v') hc hl, lst_append (v := v) hc hl]
    rw [lst_congr (v := v') (w := v) (f := f) (fun i _ _ => h.1 i (by omega)),
      lst_congr (v := v') (w := v) (f := l') (fun i _ _ => h.1 i (by omega))]
    exact (h.2.append_right _).append_left _
  · rw [lst_congr (v := v') (w := v) (fun i _ _ => h.1 i (by omega))]

theorem PermOn.swp {f l i j : Nat} {v : Nat → α} (hi : f ≤ i ∧ i < l) (hj : f ≤ j ∧ j < l) :
    PermOn f l v (swp v i j) := by
  refine PermOn.of_equiv (Equiv.swap i j) (fun k hk => ?_) (fun k => ?_)
  · exact Equiv.swap_apply_of_ne_of_ne (by omega) (by omega)
  · unfold CppSort.swp
    rw [Equiv.swap_apply_def]
    split_ifs <;> rfl

theorem PermOn.out {f l : Nat} {v v' : Nat → α} (h : PermOn f l v v') {i : Nat}
    (hi : i < f ∨ l ≤ i) : v' i = v i := h.1 i hi

/-- Every new value is an old value of the range. -/
theorem PermOn.mem {f l : Nat} {v v' : Nat → α} (h : PermOn f l v v') {i : Nat}
    (hi : f ≤ i) (hl : i < l) : ∃ j, f ≤ j ∧ j < l ∧ v' i = v j := by
  have h1 : v' i ∈ lst v' f l := mem_lst.2 ⟨i, hi, hl, rfl⟩
  obtain ⟨j, a, b, c⟩ := mem_lst.1 (h.2.mem_iff.1 h1)
  exact ⟨j, a, b, c.symm⟩

theorem PermOn.forall {f l : Nat} {v v' : Nat → α} (h : PermOn f l v v') {P : α → Prop}
    (hP : ∀ i, f ≤ i → i < l → P (v i)) : ∀ i, f ≤ i → i < l → P (v' i) := by
  intro i h1 h2
  obtain ⟨j, a, b, e⟩ := h.mem h1 h2
  rw [e]; exact hP j a b

/-- Change the part of the range that is permuted: values outside do not matter. -/
theorem PermOn.congr {f l : Nat} {v v' w w' : Nat → α} (h : PermOn f l v v')
    (e : ∀ i, f ≤ i → i < l → v i = w i) (e' : ∀ i, f ≤ i → i < l → v' i = w' i)
    (eo : ∀ i, (i < f ∨ l ≤ i) → w' i = w i) : PermOn f l w w' := by
  refine ⟨eo, ?_⟩
  rw [← lst_congr e, ← lst_congr e']
  exact h.2

/-- The values of an in-place update: the standard postcondition of code working on `[f, l)`. -/
structure Upd (f l : Nat) (s s' : St α) (v v' : Nat → α) : Prop where
  holds : Holds s'.cell f l v'
  perm : PermOn f l v v'
  frame : Frame f l s s'

theorem Upd.refl {f l : Nat} {s : St α} {v : Nat → α} (h : Holds s.cell f l v) :
    Upd f l s s v v := ⟨h, PermOn.refl _ _ _, Frame.refl _ _ _⟩

theorem Upd.trans {f l : Nat} {s s' s'' : St α} {v v' v'' : Nat → α}
    (h : Upd f l s s' v v') (h' : Upd f l s' s'' v' v'') : Upd f l s s'' v v'' :=
  ⟨h'.holds, h.perm.trans h'.perm, h.frame.trans h'.frame⟩

/-- An update of a sub-range is an update of the range. -/
theorem Upd.widen {f l f' l' : Nat} {s s' : St α} {v v' : Nat → α} (h : Upd f' l' s s' v v')
    (hh : Holds s.cell f l v) (hf : f ≤ f') (hl : l' ≤ l) : Upd f l s s' v v' := by
  refine ⟨fun i h1 h2 => ?_, h.perm.mono hf hl, h.frame.mono hf hl⟩
  by_cases hi : f' ≤ i ∧ i < l'
  · exact h.holds i hi.1 hi.2
  · rw [h.frame.cell i (by omega), hh i h1 h2, h.perm.out (by omega)]

theorem Upd.wf {f l : Nat} {s s' : St α} {v v' : Nat → α} (h : Upd f l s s' v v')
    (hh : Holds s.cell f l v) (hw : s.WF) : s'.WF := by
  intro i hi
  have hb := h.frame.brk.1
  by_cases hc : f ≤ i ∧ i < l
  · have h1 := hh i hc.1 hc.2
    rw [hw i (by omega)] at h1
    cases h1
  · rw [h.frame.cell i (by omega)]
    exact hw i (by omega)

theorem Upd.tick {f l : Nat} {s s' : St α} {v v' : Nat → α} {n : Nat}
    (h : Upd f l { s with cmps := n } s' v v') : Upd f l s s' v v' :=
  ⟨h.holds, h.perm, h.frame.tick⟩

theorem Upd.tickr {f l : Nat} {s s' : St α} {v v' : Nat → α} {n : Nat}
    (h : Upd f l s s' v v') : Upd f l s { s' with cmps := n } v v' :=
  ⟨h.holds, h.perm, h.frame.tickr⟩

/-! ### Rules for the primitives -/

theorem wp_read {Q : α → St α → Prop} {s : St α} {f l i : Nat} {v : Nat → α}
    (h : Holds s.cell f l v) (h1 : f ≤ i) (h2 : i < l) (hQ : Q (v i) s) : wp (read i) Q s := by
  refine ⟨v i, s, ?_, hQ⟩
  simp [read, h i h1 h2]

theorem wp_readX {Q : α → St α → Prop} {s : St α} {f l hh i : Nat} {v : Nat → α}
    (h : HoldsX s.cell f l hh v) (h1 : f ≤ i) (h2 : i < l) (h3 : i ≠ hh) (hQ : Q (v i) s) :
    wp (read i) Q s := by
  refine ⟨v i, s, ?_, hQ⟩
  simp [read, h.1 i h1 h2 h3]

theorem wp_read' {Q : α → St α → Prop} {s : St α} {i : Nat} {x : α}
    (h : s.cell i = .val x) (hQ : Q x s) : wp (read i) Q s := by
  refine ⟨x, s, ?_, hQ⟩
  simp [read, h]

theorem wp_tick {lt : α → α → Bool} {x y : α} {Q : Bool → St α → Prop} {s : St α}
    (hQ : Q (lt x y) { s with cmps := s.cmps + 1 }) : wp (tick lt x y) Q s :=
  ⟨_, _, rfl, hQ⟩

theorem swap_eq {s : St α} {f l i j : Nat} {v : Nat → α}
    (h : Holds s.cell f l v) (hi : f ≤ i ∧ i < l) (hj : f ≤ j ∧ j < l) :
    ∃ s', swap i j s = some (.ok (), s') ∧ Holds s'.cell f l (swp v i j) ∧ Frame f l s s' ∧
      s'.cmps = s.cmps ∧ s'.movs = s.movs + 3 ∧ s'.brk = s.brk ∧ s'.grant = s.grant := by
  refine ⟨{ s with cell := setCell (setCell s.cell i (.val (v j))) j (.val (v i)),
                   movs := s.movs + 3 }, ?_, ?_, ?_, rfl, rfl, rfl, rfl⟩
  · simp [swap, h i hi.1 hi.2, h j hj.1 hj.2]
  · intro k h1 h2
    have := h k h1 h2
    simp only [setCell, swp]
    split_ifs with a b <;> simp_all
  · refine ⟨fun k hk => ?_, EnvLe.of_env rfl⟩
    simp only [setCell]
    rw [if_neg (by omega), if_neg (by omega)]

theorem wp_swap {Q : Unit → St α → Prop} {s : St α} {f l i j : Nat} {v : Nat → α}
    (h : Holds s.cell f l v) (hi : f ≤ i ∧ i < l) (hj : f ≤ j ∧ j < l)
    (hQ : ∀ s', Upd f l s s' v (swp v i j) → Q () s') : wp (swap i j) Q s := by
  obtain ⟨s', h1, h2, h3, -⟩ := swap_eq h hi hj
  exact ⟨(), s', h1, hQ s' ⟨h2, PermOn.swp hi hj, h3⟩⟩

/-- Swap, with the counters. -/
theorem wp_swap_c {Q : Unit → St α → Prop} {s : St α} {f l i j : Nat} {v : Nat → α}
    (h : Holds s.cell f l v) (hi : f ≤ i ∧ i < l) (hj : f ≤ j ∧ j < l)
    (hQ : ∀ s', Upd f l s s' v (swp v i j) → s'.cmps = s.cmps → s'.movs = s.movs + 3 → Q () s') :
    wp (swap i j) Q s := by
  obtain ⟨s', h1, h2, h3, h4, h5, -⟩ := swap_eq h hi hj
  exact ⟨(), s', h1, hQ s' ⟨h2, PermOn.swp hi hj, h3⟩ h4 h5⟩

theorem wp_moveOut {Q : α → St α → Prop} {s : St α} {f l i : Nat} {v : Nat → α}
    (h : Holds s.cell f l v) (h1 : f ≤ i) (h2 : i < l)
    (hQ : ∀ s', HoldsX s'.cell f l i v → Frame f l s s' → s'.cmps = s.cmps →
      s'.movs = s.movs + 1 → Q (v i) s') :
    wp (moveOut i) Q s := by
  refine ⟨v i, { s with cell := setCell s.cell i .moved, movs := s.movs + 1 }, ?_, ?_⟩
  · simp [moveOut, h i h1 h2]
  · refine hQ _ ⟨fun k a b c => ?_, ?_, h1, h2⟩ ⟨fun k hk => ?_, EnvLe.of_env rfl⟩ rfl rfl
    · simp [setCell, c, h k a b]
    · simp [setCell]
    · simp only [setCell]; rw [if_neg (by omega)]

/-- Moving an element into the hole moves the hole; the logical array is exchanged. -/
theorem wp_moveTo {Q : Unit → St α → Prop} {s : St α} {f l h i : Nat} {v : Nat → α}
    (hx : HoldsX s.cell f l h v) (h1 : f ≤ i) (h2 : i < l) (h3 : i ≠ h)
    (hQ : ∀ s', HoldsX s'.cell f l i (swp v h i) → Frame f l s s' → s'.cmps = s.cmps →
      s'.movs = s.movs + 1 → Q () s') :
    wp (moveTo h i) Q s := by
  obtain ⟨hv, hm, ha, hb⟩ := hx
  refine ⟨(), { s with cell := setCell (setCell s.cell i .moved) h (.val (v i)),
                       movs := s.movs + 1 }, ?_, ?_⟩
  · have : ¬ h = i := fun e => h3 e.symm
    simp [moveTo, this, hv i h1 h2 h3, hm]
  · refine hQ _ ⟨fun k a b c => ?_, ?_, h1, h2⟩ ⟨fun k hk => ?_, EnvLe.of_env rfl⟩ rfl rfl
    · simp only [setCell, swp]
      split_ifs <;> simp_all
    · simp [setCell, h3]
    · simp only [setCell]; rw [if_neg (by omega), if_neg (by omega)]

theorem wp_assign {Q : Unit → St α → Prop} {s : St α} {f l h : Nat} {v : Nat → α} {x : α}
    (hx : HoldsX s.cell f l h v) (e : x = v h)
    (hQ : ∀ s', Holds s'.cell f l v → Frame f l s s' → s'.cmps = s.cmps →
      s'.movs = s.movs + 1 → Q () s') :
    wp (assign h x) Q s := by
  obtain ⟨hv, hm, ha, hb⟩ := hx
  refine ⟨(), { s with cell := setCell s.cell h (.val x), movs := s.movs + 1 }, ?_, ?_⟩
  · simp [assign, hm]
  · refine hQ _ (fun k a b => ?_) ⟨fun k hk => ?_, EnvLe.of_env rfl⟩ rfl rfl
    · simp only [setCell]
      split_ifs <;> simp_all
    · simp only [setCell]; rw [if_neg (by omega)]

macro "wread" h:term : tactic =>
  `(tactic| (apply wp_bind; refine wp_read $h (by omega) (by omega) ?_))
macro "wreadX" h:term : tactic =>
  `(tactic| (apply wp_bind; refine wp_readX $h (by omega) (by omega) (by omega) ?_))
macro "wtick" : tactic => `(tactic| (apply wp_bind; apply wp_tick))

end CppSort
