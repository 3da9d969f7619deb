import Verif.Proof.Verge
import Verif.Proof.DropCost
import Verif.Proof.SymCost
import Verif.Proof.SpinCost
import Verif.Proof.TimStack
/-
The comparisons of vergesort for random-access iterators.
-/
set_option autoImplicit false

namespace CppSort
variable {α β γ : Type} {lt : α → α → Bool}

/-! ### runs over a memory whose cells hold values -/

/-- The cells of `[A, B)` hold values. -/
def LiveOn (A B : Nat) (s : St α) : Prop := s.WF ∧ ∀ i, A ≤ i → i < B → ∃ x, s.cell i = .val x

/-- If `m` starts with values in `[A, B)` and returns `r` after at most `c` comparisons, there are values again, and
`R r c`. -/
def RunsIn (A B : Nat) (m : M α β) (R : β → Nat → Prop) : Prop :=
  ∀ s r s', LiveOn A B s → m s = some (.ok r, s') → LiveOn A B s' ∧ ∃ c, s'.cmps ≤ s.cmps + c ∧ R r c

variable {A B : Nat}

theorem RunsIn.mono {m : M α β} {R R' : β → Nat → Prop} (h : RunsIn A B m R) (hR : ∀ r c, R r c → R' r c) :
    RunsIn A B m R' := fun s r s' hs hr =>
  let ⟨h1, c, h2, h3⟩ := h s r s' hs hr
  ⟨h1, c, h2, hR r c h3⟩

theorem RunsIn.pure {x : β} {R : β → Nat → Prop} (h : R x 0) : RunsIn A B (pure x : M α β) R := by
  intro s r s' hs hr
  have : (some (.ok x, s) : Option (Except Err β × St α)) = some (.ok r, s') := hr
  simp only [Option.some.injEq, Prod.mk.injEq, Except.ok.injEq] at this
  obtain ⟨rfl, rfl⟩ := this
  exact ⟨hs, 0, Nat.le_refl _, h⟩

theorem RunsIn.bind {m : M α β} {k : β → M α γ} {R : β → Nat → Prop} {R' : γ → Nat → Prop} (h : RunsIn A B m R)
    (hk : ∀ r c, R r c → RunsIn A B (k r) (fun r' c' => R' r' (c + c'))) : RunsIn A B (m >>= k) R' := by
  intro s r s' hs hr
  obtain ⟨x, s1, h1, h2⟩ := bind_inv hr
  obtain ⟨g1, c1, e1, r1⟩ := h s x s1 hs h1
  obtain ⟨g2, c2, e2, r2⟩ := hk x c1 r1 s1 r s' g1 h2
  exact ⟨g2, c1 + c2, by omega, r2⟩

theorem RunsIn.ite {c : Prop} [Decidable c] {m m' : M α β} {R : β → Nat → Prop}
    (h : c → RunsIn A B m R) (h' : ¬ c → RunsIn A B m' R) : RunsIn A B (if c then m else m') R := by
  split
  · exact h ‹_›
  · exact h' ‹_›

theorem RunsIn.readBind {i : Nat} {k : α → M α γ} {R : γ → Nat → Prop} (h : ∀ x, RunsIn A B (k x) R) :
    RunsIn A B (read i >>= k) R := by
  refine RunsIn.bind (R := fun _ c => c = 0) ?_ fun x c hc => (h x).mono fun r c' hr => by
    rw [hc, Nat.zero_add]; exact hr
  intro s r s' hs hr
  unfold read at hr
  split at hr <;> simp only [Option.some.injEq, Prod.mk.injEq, reduceCtorEq, false_and, and_false] at hr
  obtain ⟨-, rfl⟩ := hr
  exact ⟨hs, 0, Nat.le_refl _, rfl⟩

theorem RunsIn.tick {x y : α} : RunsIn A B (tick lt x y) (fun _ c => c = 1) := by
  intro s r s' hs hr
  unfold CppSort.tick at hr
  simp only [Option.some.injEq, Prod.mk.injEq, Except.ok.injEq] at hr
  obtain ⟨rfl, rfl⟩ := hr
  exact ⟨hs, 1, Nat.le_refl _, rfl⟩

theorem LiveOn.seg {s : St α} (h : LiveOn A B s) : ∀ (n f : Nat), A ≤ f → f + n ≤ B →
    ∃ xs : List α, xs.length = n ∧ Seg s.cell f xs := by
  intro n
  induction n with
  | zero => exact fun f _ _ => ⟨[], rfl, Seg.nil⟩
  | succ n ih =>
    intro f h1 h2
    obtain ⟨xs, e, hx⟩ := ih (f + 1) (by omega) (by omega)
    obtain ⟨x, hf⟩ := h.2 f h1 (by omega)
    refine ⟨x :: xs, by simp [e], fun i hi => ?_⟩
    cases i with
    | zero => exact hf
    | succ i =>
      have := hx i (by simpa using hi)
      rw [show f + (i + 1) = f + 1 + i by omega, this]
      rfl

theorem LiveOn.of_seg {s : St α} {f : Nat} {xs : List α} (hw : s.WF) (hs : Seg s.cell f xs) :
    LiveOn f (f + xs.length) s :=
  ⟨hw, fun i h1 h2 => ⟨xs[i - f], by
    have := hs (i - f) (by omega)
    rwa [show f + (i - f) = i by omega] at this⟩⟩

theorem LiveOn.step {s s' : St α} (h : LiveOn A B s) {f : Nat} {ys : List α} (hw : s'.WF)
    (ho : Seg s'.cell f ys) (hr : ∀ i, i < f ∨ f + ys.length ≤ i → s'.cell i = s.cell i) : LiveOn A B s' := by
  refine ⟨hw, fun i h1 h2 => ?_⟩
  by_cases c : i < f ∨ f + ys.length ≤ i
  · rw [hr i c]; exact h.2 i h1 h2
  · exact (LiveOn.of_seg hw ho).2 i (by omega) (by omega)

/-- A sorter, run on a part of the range. -/
theorem RunsIn.sorter {fb : Nat → Nat → M α Unit} {C : Nat → Nat} (hfb : Sorts lt fb) (hc : CmpBound fb C) {f l : Nat}
    (h1 : A ≤ f) (h2 : f ≤ l) (h3 : l ≤ B) : RunsIn A B (fb f l) (fun _ c => c ≤ C (l - f)) := by
  intro s r s' hs hr
  obtain ⟨xs, e, hx⟩ := hs.seg (l - f) f h1 (by omega)
  obtain ⟨s1, ys, g1, g2, g3, -, g5, g6⟩ := hfb s f xs hs.1 hx
  have el : l = f + xs.length := by omega
  have hb := hc s f xs s1 hs.1 hx g1
  rw [el] at hr
  have hr' := g1.symm.trans hr
  simp only [Option.some.injEq, Prod.mk.injEq] at hr'
  obtain ⟨-, rfl⟩ := hr'
  exact ⟨hs.step g6 g3 (by rwa [g2]), C xs.length, hb, by rw [← e]⟩

/-! ### the main loop -/

theorem vergeStop_within {st d : Bool} {x y : α} :
    RunsIn A B (vergeStop (tick lt) st d x y) (fun _ c => c = 1) := by
  unfold vergeStop notC
  cases d <;> cases st <;> simp only [if_true, if_false, Bool.false_eq_true]
  · exact RunsIn.tick
  · exact RunsIn.tick
  · exact RunsIn.tick
  · exact RunsIn.tick.bind fun b c hc => RunsIn.pure (by omega)

theorem vergeLeftLoop_within {st d : Bool} {b : Nat} : ∀ (n cur : Nat), cur = b + n + 1 →
    RunsIn A B (vergeLeftLoop (tick lt) st d b cur) (fun r c => b ≤ r ∧ r ≤ b + n ∧ c ≤ n + 1) := by
  intro n
  induction n with
  | zero =>
    intro cur h
    rw [vergeLeftLoop]
    refine RunsIn.readBind fun x => RunsIn.readBind fun y => vergeStop_within.bind fun t c hc => ?_
    refine RunsIn.ite (fun _ => RunsIn.pure (by omega)) fun _ => ?_
    rw [if_neg (by omega)]
    exact RunsIn.pure (by omega)
  | succ n ih =>
    intro cur h
    rw [vergeLeftLoop]
    refine RunsIn.readBind fun x => RunsIn.readBind fun y => vergeStop_within.bind fun t c hc => ?_
    refine RunsIn.ite (fun _ => RunsIn.pure (by omega)) fun _ => ?_
    rw [if_pos (by omega)]
    exact (ih _ (by omega)).mono fun r c' h' => by omega

theorem vergeLeft_within {st d : Bool} {b cur : Nat} (h : b < cur) :
    RunsIn A B (vergeLeft (tick lt) st d b cur) (fun r c => b ≤ r ∧ r ≤ cur ∧ c ≤ cur - b + 1) := by
  unfold vergeLeft
  refine (vergeLeftLoop_within (cur - b - 1) cur (by omega)).bind fun r c hc => ?_
  refine RunsIn.readBind fun x => RunsIn.readBind fun y => vergeStop_within.bind fun t c' hc' => ?_
  exact RunsIn.ite (fun _ => RunsIn.pure (by omega)) fun _ => RunsIn.pure (by omega)

theorem vergeRight_within {st d : Bool} {last : Nat} : ∀ (n next : Nat), last = next + n →
    RunsIn A B (vergeRight (tick lt) st d last next) (fun r c => next ≤ r ∧ r ≤ last ∧ c ≤ r - next + 1) := by
  intro n
  induction n with
  | zero =>
    intro next h
    rw [vergeRight, if_neg (by omega)]
    exact RunsIn.pure (by omega)
  | succ n ih =>
    intro next h
    rw [vergeRight, if_pos (by omega)]
    refine RunsIn.readBind fun x => RunsIn.readBind fun y => vergeStop_within.bind fun t c hc => ?_
    refine RunsIn.ite (fun _ => RunsIn.pure (by omega)) fun _ => ?_
    exact (ih _ (by omega)).mono fun r c' h' => by omega

theorem vergeReverse_within {d : Bool} {f l : Nat} (h1 : A ≤ f) (h2 : f ≤ l) (h3 : l ≤ B) :
    RunsIn A B (vergeReverse d f l : M α Unit) (fun _ c => c = 0) := by
  intro s r s' hs hr
  obtain ⟨xs, e, hx⟩ := hs.seg (l - f) f h1 (by omega)
  have hv := (vergeReverse_seg (d := d) hs.1 (by omega) hx).run hr
  refine ⟨hs.step hv.wf hv.out (by rw [hv.len]; exact hv.rest), 0, ?_, rfl⟩
  have : Silent (vergeReverse d f l : M α Unit) := by
    unfold vergeReverse
    exact Silent.ite (reverse_silent _ _) Silent.pure
  rw [this.run hr]
  omega

/-- The runs follow one another from `f` to `e`. -/
def VChain (f : Nat) : List VRun → Nat → Prop
  | [], e => e = f
  | r :: rs, e => 1 ≤ r.size ∧ r.stop = f + r.size ∧ VChain r.stop rs e

theorem VChain.push : ∀ {rs : List VRun} {f e e' : Nat}, VChain f rs e → e < e' →
    VChain f (rs ++ [⟨e', e' - e⟩]) e'
  | [], f, e, e', h, h' => by
    have h : e = f := h
    subst h
    exact ⟨by simp; omega, by simp; omega, rfl⟩
  | r :: rs, f, e, e', h, h' => ⟨h.1, h.2.1, VChain.push h.2.2 h'⟩

theorem VChain.le : ∀ {rs : List VRun} {f e : Nat}, VChain f rs e → f + rs.length ≤ e
  | [], f, e, h => by have h : e = f := h; simp [h]
  | r :: rs, f, e, h => by
    have := VChain.le h.2.2
    have := h.1
    have := h.2.1
    simp only [List.length_cons]; omega

/-- The first element that is not in a run yet. -/
def vergeFrom (last cur unsorted : Nat) : Nat := if unsorted = last then cur else unsorted

theorem vergeFound_within {fb : Nat → Nat → M α Unit} {C : Nat → Nat} (hfb : Sorts lt fb) (hc : CmpBound fb C)
    (hC0 : C 0 = 0) {d : Bool} {b cur next u minrun : Nat} {runs : List VRun} (hm : 1 ≤ minrun)
    (h1 : A ≤ b) (h2 : b ≤ cur) (h3 : cur + minrun ≤ next) (h4 : next ≤ B) (hu : u = B ∨ A ≤ u ∧ u < b)
    (hr : VChain A runs (vergeFrom B b u)) (hl : runs.length * minrun ≤ 2 * (vergeFrom B b u - A)) :
    RunsIn A B (vergeFound fb d B b cur next u runs) (fun r c => r.1 = B ∧ VChain A r.2 next ∧
      r.2.length * minrun ≤ 2 * (next - A) ∧ c ≤ C (cur - vergeFrom B b u)) := by
  unfold vergeFound
  refine (vergeReverse_within (by omega) (by omega) h4).bind fun _ c0 hc0 => ?_
  subst hc0
  dsimp only
  unfold vergeFrom at *
  have hp : cur < next := by omega
  have hbB : b ≠ B := by omega
  by_cases e : u = B
  · rw [if_pos e] at hr hl ⊢
    by_cases e' : cur = b
    · have hw : (if cur - b ≠ 0 ∧ u = B then b else u) = u := if_neg (by omega)
      rw [hw, if_neg (by simp [e])]
      subst e'
      refine RunsIn.pure ⟨e, hr.push hp, ?_, by omega⟩
      simp only [List.length_append, List.length_cons, List.length_nil]
      rw [Nat.add_mul]; omega
    · have hw : (if cur - b ≠ 0 ∧ u = B then b else u) = b := if_pos (by omega)
      rw [hw, if_pos hbB]
      refine (RunsIn.sorter hfb hc h1 h2 (by omega)).bind fun _ c1 hc1 => RunsIn.pure ⟨rfl, ?_, ?_, by omega⟩
      · exact (hr.push (by omega)).push hp
      · simp only [List.length_append, List.length_cons, List.length_nil]
        rw [Nat.add_mul, Nat.add_mul]; omega
  · rw [if_neg e] at hr hl ⊢
    have hw : (if cur - b ≠ 0 ∧ u = B then b else u) = u := if_neg (by omega)
    rw [hw, if_pos e]
    refine (RunsIn.sorter hfb hc (by omega) (by omega) (by omega)).bind fun _ c1 hc1 =>
      RunsIn.pure ⟨rfl, ?_, ?_, by omega⟩
    · exact (hr.push (by omega)).push hp
    · simp only [List.length_append, List.length_cons, List.length_nil]
      rw [Nat.add_mul, Nat.add_mul]; omega

/-- The main loop and the elements it leaves unsorted. -/
theorem vergeLoop_within {fb : Nat → Nat → M α Unit} {C : Nat → Nat} (hfb : Sorts lt fb) (hc : CmpBound fb C)
    (hC : ∀ a b, C a + C b ≤ C (a + b)) {st : Bool} {minrun : Nat} (hm : 1 ≤ minrun) : ∀ (n cur u : Nat)
    (runs : List VRun), B - cur = n → A ≤ cur → cur < B → (u = B ∨ A ≤ u ∧ u < cur) →
    VChain A runs (vergeFrom B cur u) → runs.length * minrun ≤ 2 * (vergeFrom B cur u - A) →
    RunsIn A B (vergeLoop (tick lt) fb st B minrun cur u runs) (fun r c => A ≤ r.1 ∧ r.1 ≤ B ∧ VChain A r.2 r.1 ∧
      r.2.length * minrun ≤ 2 * (r.1 - A) ∧ c + C (B - r.1) ≤ 2 * (B - cur) + C (B - vergeFrom B cur u)) := by
  have hC0 : C 0 = 0 := by have := hC 0 0; simp at this; omega
  intro n
  induction n using Nat.strongRecOn with
  | _ n ih =>
    intro cur u runs hn h1 h2 hu hr hl
    rw [vergeLoop]
    dsimp only
    have hend : (if u = B then cur else u) = vergeFrom B cur u := rfl
    have hfr : A ≤ vergeFrom B cur u ∧ vergeFrom B cur u ≤ cur := by unfold vergeFrom; split <;> omega
    refine RunsIn.ite (fun h => RunsIn.pure ?_) fun h => ?_
    · rw [hend]
      exact ⟨hfr.1, by dsimp only; omega, hr, hl, by dsimp only; omega⟩
    refine RunsIn.readBind fun x => RunsIn.readBind fun y => RunsIn.tick.bind fun d c0 hc0 => ?_
    refine (vergeLeft_within (by omega)).bind fun left c1 hc1 => ?_
    refine (vergeRight_within (B - (cur + 1 + minrun + 1)) _ (by omega)).bind fun next2 c2 hc2 => ?_
    refine RunsIn.ite (fun h' => ?_) fun h' => ?_
    · refine (vergeFound_within hfb hc hC0 hm h1 hc1.1 (by omega) (by omega) hu hr hl).bind fun r c3 hc3 => ?_
      obtain ⟨r1, r2⟩ := r
      obtain ⟨k1, k2, k3, k4⟩ := hc3
      have k1 : B = r1 := k1.symm
      subst k1
      dsimp only at k2 k3
      have e1 := hC (left - vergeFrom B cur u) (B - next2)
      have e2 := hC (left - vergeFrom B cur u + (B - next2)) (next2 - left)
      rw [show left - vergeFrom B cur u + (B - next2) + (next2 - left) = B - vergeFrom B cur u by omega] at e2
      refine RunsIn.ite (fun e => RunsIn.pure ?_) fun e => ?_
      · dsimp only
        rw [Nat.sub_self, hC0]
        exact ⟨by omega, by omega, (show next2 = B from e) ▸ k2, (show next2 = B from e) ▸ k3, by omega⟩
      · have hv : vergeFrom B next2 B = next2 := if_pos rfl
        refine (ih (B - next2) (by omega) next2 B r2 rfl (by omega) (by omega) (.inl rfl) (by rw [hv]; exact k2)
          (by rw [hv]; exact k3)).mono fun r c4 h4 => ?_
        obtain ⟨g1, g2, g3, g4, g5⟩ := h4
        rw [hv] at g5
        exact ⟨g1, g2, g3, g4, by omega⟩
    · rw [hend]
      refine RunsIn.ite (fun e => RunsIn.pure ?_) fun e => ?_
      · exact ⟨hfr.1, by dsimp only; omega, hr, hl, by dsimp only; omega⟩
      · have hv : vergeFrom B next2 (vergeFrom B cur u) = vergeFrom B cur u := if_neg (by omega)
        refine (ih (B - next2) (by omega) next2 _ runs rfl (by omega) (by omega) (.inr ⟨hfr.1, by omega⟩)
          (by rw [hv]; exact hr) (by rw [hv]; exact hl)).mono fun r c4 h4 => ?_
        obtain ⟨g1, g2, g3, g4, g5⟩ := h4
        rw [hv] at g5
        exact ⟨g1, g2, g3, g4, by omega⟩

/-! ### merging the runs -/

variable {N : Nat}

theorem vergeMerge_cost {triv : Bool} {first start e : Nat} {r r' : VRun} {rs : List VRun}
    (h : VChain start (r :: r' :: rs) e) :
    Cost N (vergeMerge (tick lt) ⟨.random, triv⟩ first start r r') (fun _ c => c ≤ 3 * (r.size + r'.size)) := by
  obtain ⟨h1, h2, h3, h4, -⟩ := h
  unfold vergeMerge
  have hlog : ∀ m, 1 ≤ m → m < 2 ^ m := fun m _ => Nat.lt_two_pow_self
  refine Cost.ite (fun _ => ?_) fun _ => Cost.ite (fun _ => ?_) fun _ => ?_
  · refine (silent_read _).costBind fun _ => (silent_read _).costBind fun _ => Cost.tickBind fun b => ?_
    refine Cost.ite (fun _ => ?_) fun _ => Cost.pure (by omega)
    refine (lowerBoundN_cost unit1_tick _ _ _ (hlog _ h3)).bind fun it c hc => ?_
    exact (rotateLeft_silent _ _).costBind fun _ => Cost.pure (by omega)
  · refine (silent_read _).costBind fun _ => (silent_read _).costBind fun _ => Cost.tickBind fun b => ?_
    refine Cost.ite (fun _ => ?_) fun _ => Cost.pure (by omega)
    unfold upperBoundN
    refine (lowerBoundN_cost (spin_unit1_not (unit1_flip unit1_tick)) _ _ _ (hlog _ h1)).bind fun it c hc => ?_
    exact (rotateRight_silent _ _).costBind fun _ => Cost.pure (by omega)
  · unfold inplaceMergeLen
    refine (newBuf_cost _).bind fun b c hc => ?_
    refine (inplaceMergeBuf_cost' (by omega) (by omega)).bind fun _ c' hc' => ?_
    exact (release_silent b).cost fun _ => by omega

theorem vergePass_cost {triv : Bool} {first e : Nat} : ∀ (n start : Nat) (runs : List VRun), runs.length ≤ n →
    VChain start runs e →
    Cost N (vergePass (tick lt) ⟨.random, triv⟩ first start runs) (fun r c => VChain start r e ∧
      r.length = (runs.length + 1) / 2 ∧ c ≤ 3 * (e - start)) := by
  intro n
  induction n using Nat.strongRecOn with
  | _ n ih =>
    intro start runs hn h
    match runs, hn, h with
    | [], _, h => exact Cost.pure ⟨h, rfl, by omega⟩
    | [r], _, h => exact Cost.pure ⟨h, by simp, by omega⟩
    | r :: r' :: rest, hn, h =>
      unfold vergePass
      simp only [List.length_cons] at hn
      refine (vergeMerge_cost h).bind fun _ c hc => ?_
      obtain ⟨h1, h2, h3, h4, h5⟩ := h
      have hle := h5.le
      refine (ih (n - 2) (by omega) r'.stop rest (by omega) h5).bind fun rs c' hc' => Cost.pure ?_
      refine ⟨⟨by simp; omega, by simp; omega, hc'.1⟩, ?_, by omega⟩
      simp only [List.length_cons]
      omega

theorem vergeMergeLoop_cost {triv : Bool} {first e : Nat} : ∀ (k : Nat) (runs : List VRun),
    runs.length ≤ 2 ^ (k + 1) → VChain first runs e →
    Cost N (vergeMergeLoop (tick lt) ⟨.random, triv⟩ first runs) (fun _ c => c ≤ 3 * (e - first) * (k + 1)) := by
  intro k
  induction k with
  | zero =>
    intro runs h1 h2
    rw [vergeMergeLoop]
    refine (vergePass_cost _ _ _ (Nat.le_refl _) h2).bind fun rs c hc => ?_
    rw [if_neg (by omega)]
    exact Cost.pure (by omega)
  | succ k ih =>
    intro runs h1 h2
    rw [Nat.pow_succ] at h1
    rw [vergeMergeLoop]
    refine (vergePass_cost _ _ _ (Nat.le_refl _) h2).bind fun rs c hc => ?_
    have e : 3 * (e - first) * (k + 1 + 1) = 3 * (e - first) * (k + 1) + 3 * (e - first) := by ring
    refine Cost.ite (fun _ => ?_) fun _ => Cost.pure (by omega)
    exact (ih rs (by omega) hc.1).mono fun _ c' h' => by omega

theorem vergeMergeRuns_cost {triv : Bool} {first e k : Nat} {runs : List VRun} (h1 : runs.length ≤ 2 ^ (k + 1))
    (h2 : VChain first runs e) :
    Cost N (vergeMergeRuns (tick lt) ⟨.random, triv⟩ first runs) (fun _ c => c ≤ 3 * (e - first) * (k + 1)) := by
  unfold vergeMergeRuns
  exact Cost.ite (fun _ => Cost.pure (by omega)) fun _ => vergeMergeLoop_cost k runs h1 h2

/-! ### vergesort -/

theorem verge_runs {n r : Nat} (hn : 128 ≤ n) (h : r * (n / n.log2) ≤ 2 * n) : r + 1 ≤ 2 ^ (n.log2.log2 + 3 + 1) := by
  have hL : 7 ≤ n.log2 := (Nat.le_log2 (by omega)).2 (by omega)
  have hm := minrun_two hn
  have hd : n < n.log2 * (n / n.log2) + n.log2 := by
    have := Nat.div_add_mod n n.log2
    have := Nat.mod_lt n (y := n.log2) (by omega)
    omega
  have hp : n.log2 < 2 ^ (n.log2.log2 + 1) := Nat.lt_log2_self
  generalize n.log2.log2 = k at *
  generalize n.log2 = L at *
  generalize n / L = m at *
  have hLm : L * 2 ≤ L * m := Nat.mul_le_mul_left _ hm
  have hr : r < 3 * L := by
    by_contra hc
    have : 3 * L * m ≤ r * m := Nat.mul_le_mul_right _ (by omega)
    rw [Nat.mul_assoc] at this
    omega
  rw [show k + 3 + 1 = k + 1 + 3 by omega, Nat.pow_add]
  omega

theorem vergesortRandom_cmps {fb : Nat → Nat → M α Unit} {C : Nat → Nat} (hfb : Sorts lt fb) (hc : CmpBound fb C)
    (hC : ∀ a b, C a + C b ≤ C (a + b)) (triv st : Bool) :
    CmpBound (vergesortRandom (tick lt) ⟨.random, triv⟩ fb st)
      (fun n => C n + n * (3 * n.log2.log2 + 14)) := by
  intro s f xs s' hw hs hrun
  unfold vergesortRandom at hrun
  dsimp only at hrun ⊢
  rw [Nat.add_sub_cancel_left] at hrun
  by_cases hlen : xs.length < 128
  · rw [if_pos hlen] at hrun
    have := hc s f xs s' hw hs hrun
    omega
  rw [if_neg hlen] at hrun
  obtain ⟨⟨u, runs⟩, s1, hr1, hrun⟩ := bind_inv hrun
  have hm := minrun_two (n := xs.length) (by omega)
  have hv : vergeFrom (f + xs.length) f (f + xs.length) = f := if_pos rfl
  obtain ⟨hl1, c1, e1, g1, g2, g3, g4, g5⟩ := vergeLoop_within hfb hc hC (by omega) _ f (f + xs.length) [] rfl
    (Nat.le_refl _) (by omega) (.inl rfl) (by rw [hv]; rfl) (by simp) s _ s1 (.of_seg hw hs) hr1
  rw [hv] at g5
  dsimp only at g1 g2 g3 g4 g5 hrun
  rw [Nat.add_sub_cancel_left] at g5
  have hruns := verge_runs (n := xs.length) (r := runs.length) (by omega) (by omega)
  have ea : 3 * (f + xs.length - f) * (xs.length.log2.log2 + 3 + 1) = xs.length * (3 * xs.length.log2.log2 + 12) := by
    rw [Nat.add_sub_cancel_left]; ring
  have eb : xs.length * (3 * xs.length.log2.log2 + 14) = xs.length * (3 * xs.length.log2.log2 + 12) + 2 * xs.length := by
    ring
  split at hrun
  · rename_i hne
    obtain ⟨_, s2, hr2, hrun⟩ := bind_inv hrun
    obtain ⟨-, c2, e2, g6⟩ := RunsIn.sorter hfb hc g1 g2 (Nat.le_refl _) s1 _ s2 hl1 hr2
    obtain ⟨c3, e3, g7⟩ := (vergeMergeRuns_cost (k := xs.length.log2.log2 + 3) (by
      simp only [List.length_append, List.length_cons, List.length_nil]; omega) (g3.push (by omega))).run hrun
    rw [ea] at g7
    omega
  · rename_i hne
    have hu : u = f + xs.length := by simpa using hne
    subst hu
    obtain ⟨c3, e3, g7⟩ := (vergeMergeRuns_cost (k := xs.length.log2.log2 + 3) (by omega) g3).run hrun
    rw [ea] at g7
    omega

end CppSort
