import Verif.Proof.Facade
set_option autoImplicit false
set_option synthInstance.maxSize 4000
set_option synthInstance.maxHeartbeats 1000000

namespace CppSort.Facade
variable {m : Impl} {T : Traits}

/-! ### The choice between overloads -/

/-- What comes of overload resolution, but for the functions passed on. -/
def Outcome.kind : Outcome → Option (Option Shape)
  | .none => .none
  | .ambiguous => some .none
  | .calls c => some (some c.shape)

/-- The same from the parameters of the viable overloads. -/
def choice (v : List (List Pat × Shape)) : Option (Option Shape) :=
  match v.filter fun o => v.all fun o' => atLeast o.1 o'.1 with
  | [] => if v.isEmpty then .none else some .none
  | [o] => some (some o.2)
  | _ => some .none

theorem best_kind (v : List (List Pat × Call)) : (best v).kind = choice (v.map fun o => (o.1, o.2.shape)) := by
  unfold best choice
  have e : (v.map fun o => (o.1, o.2.shape)).filter
        (fun o => (v.map fun o => (o.1, o.2.shape)).all fun o' => atLeast o.1 o'.1) =
      (v.filter fun o => v.all fun o' => atLeast o.1 o'.1).map fun o => (o.1, o.2.shape) := by
    rw [List.filter_map]
    congr 1
    apply List.filter_congr
    intro o _
    simp [List.all_map, Function.comp_def]
  rw [e]
  generalize (v.filter fun o => v.all fun o' => atLeast o.1 o'.1) = w
  match w with
  | [] => cases v <;> rfl
  | [_] => rfl
  | _ :: _ :: _ => rfl

/-- The range that the call an overload makes is for. -/
def tshape (m : Impl) : Target → Shape
  | .impl c => c.shape
  | .self => if m ⟨.range, []⟩ then .range else .iters

theorem call_shape {t : Target} {c : Call} (h : t.call m = some c) : c.shape = tshape m t := by
  unfold Target.call selfCall hasSort at h
  unfold tshape
  split at h
  · split at h
    · cases h; rfl
    · cases h
  · split at h
    · rename_i e; cases h; simp [e]
    · rename_i e
      split at h
      · cases h; simp [e]
      · cases h

theorem viable_kind (os : List Overload) (c : Call) : (viable m os c).map (fun o => (o.1, o.2.shape)) =
    os.flatMap fun o => if (o.shape = c.shape && accepts o.pats c.args && o.enabled c.args &&
      ((o.target c.args).call m).isSome) then [(o.pats, tshape m (o.target c.args))] else [] := by
  unfold viable
  rw [List.map_flatMap]
  congr 1
  funext o
  unfold cand
  cases (decide (o.shape = c.shape) && accepts o.pats c.args && o.enabled c.args) with
  | false => rfl
  | true =>
    cases e : (o.target c.args).call m with
    | none => rfl
    | some t =>
      have := call_shape e
      simp [this]

theorem resolve_kind (b : Bool) (c : Call) : (resolve m T b c).kind =
    choice ((overloads m T b).flatMap fun o => if (o.shape = c.shape && accepts o.pats c.args && o.enabled c.args &&
      ((o.target c.args).call m).isSome) then [(o.pats, tshape m (o.target c.args))] else []) := by
  rw [resolve, best_kind, viable_kind]

theorem kind_calls {o : Outcome} {s : Shape} (h : o.kind = some (some s)) : ∃ ys, o = .calls ⟨s, ys⟩ := by
  match o, h with
  | .calls c, h =>
    simp only [Outcome.kind, Option.some.injEq] at h
    exact ⟨c.args, by rw [← h]⟩

theorem none_of_kind {o : Outcome} (h : o.kind = .none) : o = .none := by
  match o, h with
  | .none, _ => rfl

theorem calls_of_kind {o : Outcome} (h1 : o.kind ≠ .none) (h2 : o.kind ≠ some .none) : ∃ c, o = .calls c := by
  match o, h1, h2 with
  | .none, h1, _ => exact (h1 rfl).elim
  | .ambiguous, _, h2 => exact (h2 rfl).elim
  | .calls c, _, _ => exact ⟨c, rfl⟩

theorem beq_lu (n : Nat) : (Fn.less == .user n) = false := rfl
theorem beq_ru (n : Nat) : (Fn.rless == .user n) = false := rfl
theorem beq_iu (n : Nat) : (Fn.ident == .user n) = false := rfl
theorem beq_su (n : Nat) : (Fn.sident == .user n) = false := rfl
theorem beq_lp (c p : Fn) : (Fn.less == .pc c p) = false := rfl
theorem beq_rp (c p : Fn) : (Fn.rless == .pc c p) = false := rfl
theorem beq_ip (c p : Fn) : (Fn.ident == .pc c p) = false := rfl
theorem beq_sp (c p : Fn) : (Fn.sident == .pc c p) = false := rfl
theorem beq_ll : (Fn.less == .less) = true := rfl
theorem beq_lr : (Fn.less == .rless) = false := rfl
theorem beq_li : (Fn.less == .ident) = false := rfl
theorem beq_ls : (Fn.less == .sident) = false := rfl
theorem beq_rl : (Fn.rless == .less) = false := rfl
theorem beq_rr : (Fn.rless == .rless) = true := rfl
theorem beq_ri : (Fn.rless == .ident) = false := rfl
theorem beq_rs : (Fn.rless == .sident) = false := rfl
theorem beq_il : (Fn.ident == .less) = false := rfl
theorem beq_ir : (Fn.ident == .rless) = false := rfl
theorem beq_ii : (Fn.ident == .ident) = true := rfl
theorem beq_is : (Fn.ident == .sident) = false := rfl
theorem beq_sl : (Fn.sident == .less) = false := rfl
theorem beq_sr : (Fn.sident == .rless) = false := rfl
theorem beq_si : (Fn.sident == .ident) = false := rfl
theorem beq_ss : (Fn.sident == .sident) = true := rfl

theorem to_isSome (s : Shape) (g : List Fn → List Fn) (xs : List Fn) :
    ((to s g xs).call m).isSome = m ⟨s, g xs⟩ := by
  unfold to Target.call
  dsimp only
  cases m ⟨s, g xs⟩ <;> rfl

theorem self_isSome : ((Target.self).call m).isSome = (m ⟨.range, []⟩ || m ⟨.iters, []⟩) := by
  unfold Target.call selfCall hasSort
  dsimp only
  cases m ⟨.range, []⟩ <;> cases m ⟨.iters, []⟩ <;> rfl

theorem to_shape (s : Shape) (g : List Fn → List Fn) (xs : List Fn) : tshape m (to s g xs) = s := rfl

theorem self_shape : tshape m .self = if m ⟨.range, []⟩ then .range else .iters := rfl

/-- Evaluates the overloads for given forms of arguments. -/
syntax "facade_simp" : tactic
macro_rules
  | `(tactic| facade_simp) => `(tactic| simp only [overloads, plain, comparison, projection, lessOnly, identityOnly,
      fused, lessIdentity, lessProjection, embedded, accepts, on1, on2, to_isSome, self_isSome, to_shape, self_shape, bakeLess, bake, lessAnd,
      dropC, List.flatMap_cons, List.flatMap_nil, List.cons_append, List.nil_append, List.append_nil, reduceCtorEq,
      Bool.false_and, Bool.and_false, Bool.true_and, Bool.and_true, decide_true, decide_false, if_false, if_true,
      List.flatMap_append, Bool.false_eq_true, List.drop_succ_cons, List.drop_zero, id, hasC, hasP, hasCP, hasSort,
      Traits.pc_law,
      Traits.less_law, Traits.rless_law, Traits.ident_law, Traits.sident_law, Traits.same_law, Bool.not_false,
      beq_lu, beq_ru, beq_iu, beq_su, beq_lp, beq_rp, beq_ip, beq_sp, beq_ll, beq_lr, beq_li, beq_ls, beq_rl, beq_rr,
      beq_ri, beq_rs, beq_il, beq_ir, beq_ii, beq_is, beq_sl, beq_sr, beq_si, beq_ss, *])


theorem beq_no {f g : Fn} (h : f ≠ g) : (g == f) = false := by
  simpa using Ne.symm h

set_option maxHeartbeats 1000000 in
theorem not_amb0 (b : Bool) (s : Shape) : (resolve m T b ⟨s, []⟩).kind ≠ some .none := by
  rw [resolve_kind]
  cases b <;> cases s
  all_goals
    facade_simp
    generalize m ⟨.iters, []⟩ = b1
    generalize m ⟨.range, []⟩ = b2
    revert b1 b2
    decide +kernel

/-- No overload takes three functions. -/
theorem resolve_many (b : Bool) (s : Shape) (x y z : Fn) (xs : List Fn) :
    (resolve m T b ⟨s, x :: y :: z :: xs⟩).kind = .none := by
  rw [resolve_kind]
  cases b <;> cases s <;> facade_simp <;> rfl

/-- The implementation accepts two iterators whenever it accepts an iterable. -/
def ItersToo (m : Impl) : Prop := ∀ xs, m ⟨.range, xs⟩ = true → m ⟨.iters, xs⟩ = true


set_option hygiene false in
/-- One function: the values in play become Booleans. -/
macro "facade_amb1" f:term : tactic => `(tactic| (
      generalize T.isProj .ident $f = a1
      generalize T.isProj $f .less = a2
      generalize T.isProj .ident .less = a3
      generalize m ⟨.iters, [$f]⟩ = b1
      generalize m ⟨.iters, [.less, $f]⟩ = b2
      generalize m ⟨.iters, [.pc .less $f]⟩ = b3
      generalize m ⟨.iters, [mkpc .less $f]⟩ = b4
      generalize m ⟨.iters, []⟩ = b5
      generalize m ⟨.range, [$f]⟩ = c1
      generalize m ⟨.range, [.less, $f]⟩ = c2
      generalize m ⟨.range, [.pc .less $f]⟩ = c3
      generalize m ⟨.range, [mkpc .less $f]⟩ = c4
      generalize m ⟨.range, []⟩ = c5
      revert a1 a2 a3 b1 b2 b3 b4 b5))

theorem fn_cases (f : Fn) : f = .less ∨ f = .rless ∨ f = .ident ∨ f = .sident ∨
    ((Fn.less == f) = false ∧ (Fn.rless == f) = false ∧ (Fn.ident == f) = false ∧ (Fn.sident == f) = false) := by
  cases f <;> simp [beq_lu, beq_ru, beq_iu, beq_su, beq_lp, beq_rp, beq_ip, beq_sp]

set_option maxHeartbeats 4000000 in
theorem not_amb1_iters (b : Bool) {f : Fn} (h : T.isProj .ident f = true → T.isProj f .less = false) :
    (resolve m T b ⟨.iters, [f]⟩).kind ≠ some .none := by
  rw [resolve_kind]
  rcases fn_cases f with rfl | rfl | rfl | rfl | ⟨e1, e2, e3, e4⟩
  · clear h; cases b <;> facade_simp <;> facade_amb1 (.less) <;> decide +kernel
  · clear h; cases b <;> facade_simp <;> facade_amb1 (.rless) <;> decide +kernel
  · clear h; cases b <;> facade_simp <;> facade_amb1 (.ident) <;> decide +kernel
  · clear h; cases b <;> facade_simp <;> facade_amb1 (.sident) <;> decide +kernel
  · revert h; cases b <;> facade_simp <;> facade_amb1 f <;> decide +kernel

set_option maxHeartbeats 4000000 in
theorem not_amb1_range (b : Bool) {f : Fn} (h : T.isProj .ident f = true → T.isProj f .less = false)
    (hm : ItersToo m) : (resolve m T b ⟨.range, [f]⟩).kind ≠ some .none := by
  rw [resolve_kind]
  have k1 := hm [f]
  have k2 := hm [.less, f]
  have k3 := hm [.pc .less f]
  have k4 := hm [mkpc .less f]
  clear hm
  rcases fn_cases f with rfl | rfl | rfl | rfl | ⟨e1, e2, e3, e4⟩ <;> revert h k1 k2 k3 k4 
  · cases b <;> facade_simp <;> facade_amb1 (.less) <;> decide +kernel +revert
  · cases b <;> facade_simp <;> facade_amb1 (.rless) <;> decide +kernel +revert
  · cases b <;> facade_simp <;> facade_amb1 (.ident) <;> decide +kernel +revert
  · cases b <;> facade_simp <;> facade_amb1 (.sident) <;> decide +kernel +revert
  · cases b <;> facade_simp <;> clear e1 e2 e3 e4 <;> facade_amb1 f <;> decide +kernel +revert

set_option hygiene false in
/-- Two functions. -/
macro "facade_amb2" c:term:max p:term:max : tactic => `(tactic| (
      generalize T.isProj $p $c = a1
      generalize T.isProj $p .less = a2
      generalize T.isProj .ident $c = a3
      generalize T.isProj .ident .less = a4
      generalize m ⟨.iters, [$c, $p]⟩ = b1
      generalize m ⟨.iters, [$p]⟩ = b2
      generalize m ⟨.iters, [.pc $c $p]⟩ = b3
      generalize m ⟨.iters, [mkpc $c $p]⟩ = b4
      generalize m ⟨.iters, []⟩ = b5
      generalize m ⟨.range, [$c, $p]⟩ = c1
      generalize m ⟨.range, [$p]⟩ = c2
      generalize m ⟨.range, [.pc $c $p]⟩ = c3
      generalize m ⟨.range, [mkpc $c $p]⟩ = c4
      generalize m ⟨.range, []⟩ = c5))

theorem cmp_cases (f : Fn) : f = .less ∨ f = .rless ∨ ((Fn.less == f) = false ∧ (Fn.rless == f) = false) := by
  cases f <;> simp [beq_lu, beq_ru, beq_lp, beq_rp, beq_li, beq_ri, beq_ls, beq_rs]

theorem proj_cases (f : Fn) : f = .ident ∨ f = .sident ∨ ((Fn.ident == f) = false ∧ (Fn.sident == f) = false) := by
  cases f <;> simp [beq_iu, beq_su, beq_ip, beq_sp, beq_il, beq_ir, beq_sl, beq_sr]

set_option maxHeartbeats 4000000 in
theorem not_amb2_iters (b : Bool) (c p : Fn) : (resolve m T b ⟨.iters, [c, p]⟩).kind ≠ some .none := by
  rw [resolve_kind]
  rcases cmp_cases c with rfl | rfl | ⟨e1, e2⟩ <;> rcases proj_cases p with rfl | rfl | ⟨e3, e4⟩
  · cases b <;> facade_simp <;> facade_amb2 .less .ident <;> decide +kernel +revert
  · cases b <;> facade_simp <;> facade_amb2 .less .sident <;> decide +kernel +revert
  · cases b <;> facade_simp <;> clear e3 e4 <;> facade_amb2 .less p <;> decide +kernel +revert
  · cases b <;> facade_simp <;> facade_amb2 .rless .ident <;> decide +kernel +revert
  · cases b <;> facade_simp <;> facade_amb2 .rless .sident <;> decide +kernel +revert
  · cases b <;> facade_simp <;> clear e3 e4 <;> facade_amb2 .rless p <;> decide +kernel +revert
  · cases b <;> facade_simp <;> clear e1 e2 <;> facade_amb2 c .ident <;> decide +kernel +revert
  · cases b <;> facade_simp <;> clear e1 e2 <;> facade_amb2 c .sident <;> decide +kernel +revert
  · cases b <;> facade_simp <;> clear e1 e2 e3 e4 <;> facade_amb2 c p <;> decide +kernel +revert

set_option maxHeartbeats 4000000 in
theorem not_amb2_range (b : Bool) (c p : Fn) (hm : ItersToo m) :
    (resolve m T b ⟨.range, [c, p]⟩).kind ≠ some .none := by
  rw [resolve_kind]
  have k1 := hm [c, p]
  have k3 := hm [.pc c p]
  clear hm
  rcases cmp_cases c with rfl | rfl | ⟨e1, e2⟩ <;> rcases proj_cases p with rfl | rfl | ⟨e3, e4⟩ <;> revert k1 k3
  · cases b <;> facade_simp <;> facade_amb2 .less .ident <;> decide +kernel +revert
  · cases b <;> facade_simp <;> facade_amb2 .less .sident <;> decide +kernel +revert
  · cases b <;> facade_simp <;> clear e3 e4 <;> facade_amb2 .less p <;> decide +kernel +revert
  · cases b <;> facade_simp <;> facade_amb2 .rless .ident <;> decide +kernel +revert
  · cases b <;> facade_simp <;> facade_amb2 .rless .sident <;> decide +kernel +revert
  · cases b <;> facade_simp <;> clear e3 e4 <;> facade_amb2 .rless p <;> decide +kernel +revert
  · cases b <;> facade_simp <;> clear e1 e2 <;> facade_amb2 c .ident <;> decide +kernel +revert
  · cases b <;> facade_simp <;> clear e1 e2 <;> facade_amb2 c .sident <;> decide +kernel +revert
  · cases b <;> facade_simp <;> clear e1 e2 e3 e4 <;> facade_amb2 c p <;> decide +kernel +revert

/-! ### Some overload is viable -/

/-- An implementation that accepts an iterable and a comparison with an identity baked in accepts the comparison. -/
def Unbakes (m : Impl) : Prop := ∀ c i, i = .ident ∨ i = .sident → m ⟨.range, [.pc c i]⟩ = true → m ⟨.range, [c]⟩ = true

theorem Unbakes.mkpc (hu : Unbakes m) {c p : Fn} (h : m ⟨.range, [.pc c p]⟩ = true) :
    m ⟨.range, [Facade.mkpc c p]⟩ = true := by
  unfold Facade.mkpc
  split
  · rename_i e
    exact hu c p e h
  · exact h

theorem isProj_mkpc (T : Traits) (c p : Fn) : T.isProj .ident (mkpc c p) = T.isProj p c := by
  unfold mkpc
  split
  · rename_i e
    rcases e with rfl | rfl
    · rfl
    · exact (T.same_law c).symm
  · exact T.pc_law c p

set_option maxHeartbeats 4000000 in
theorem found0 (b : Bool) (s : Shape) (h0 : m ⟨.iters, []⟩ = true) : (resolve m T b ⟨s, []⟩).kind ≠ .none := by
  rw [resolve_kind]
  revert h0
  cases b <;> cases s
  all_goals
    facade_simp
    generalize m ⟨.iters, []⟩ = b1
    generalize m ⟨.range, []⟩ = b2
    revert b1 b2
    decide +kernel

set_option maxHeartbeats 4000000 in
theorem found1 (b : Bool) (s : Shape) {f : Fn} (hu : Unbakes m) (h0 : m ⟨.iters, []⟩ = true)
    (h1 : ∀ c, T.isProj .ident c = true → m ⟨.iters, [c]⟩ = true)
    (h : T.isProj .ident f = true ∨ T.isProj f .less = true) : (resolve m T b ⟨s, [f]⟩).kind ≠ .none := by
  rw [resolve_kind]
  have k1 := h1 f
  have k2 := h1 (.pc .less f)
  have k3 := h1 (mkpc .less f)
  rw [isProj_mkpc] at k3
  rw [T.pc_law] at k2
  have k4 : m ⟨.range, [.pc .less f]⟩ = true → m ⟨.range, [mkpc .less f]⟩ = true := hu.mkpc
  clear h1 hu
  rcases fn_cases f with rfl | rfl | rfl | rfl | ⟨e1, e2, e3, e4⟩ <;> revert h h0 k1 k2 k3 k4
  · cases b <;> cases s <;> facade_simp <;> facade_amb1 (.less) <;> decide +kernel +revert
  · cases b <;> cases s <;> facade_simp <;> facade_amb1 (.rless) <;> decide +kernel +revert
  · cases b <;> cases s <;> facade_simp <;> facade_amb1 (.ident) <;> decide +kernel +revert
  · cases b <;> cases s <;> facade_simp <;> facade_amb1 (.sident) <;> decide +kernel +revert
  · cases b <;> cases s <;> facade_simp <;> clear e1 e2 e3 e4 <;> facade_amb1 f <;> decide +kernel +revert

set_option maxHeartbeats 4000000 in
theorem found2 (b : Bool) (s : Shape) {c p : Fn} (hu : Unbakes m) (h0 : m ⟨.iters, []⟩ = true)
    (h1 : ∀ c, T.isProj .ident c = true → m ⟨.iters, [c]⟩ = true)
    (h : T.isProj p c = true) : (resolve m T b ⟨s, [c, p]⟩).kind ≠ .none := by
  rw [resolve_kind]
  have k2 := h1 (.pc c p)
  have k3 := h1 (mkpc c p)
  rw [isProj_mkpc] at k3
  rw [T.pc_law] at k2
  have k4 : m ⟨.range, [.pc c p]⟩ = true → m ⟨.range, [mkpc c p]⟩ = true := hu.mkpc
  clear h1 hu
  rcases cmp_cases c with rfl | rfl | ⟨e1, e2⟩ <;> rcases proj_cases p with rfl | rfl | ⟨e3, e4⟩ <;>
    revert h h0 k2 k3 k4
  · cases b <;> cases s <;> facade_simp <;> facade_amb2 .less .ident <;> decide +kernel +revert
  · cases b <;> cases s <;> facade_simp <;> facade_amb2 .less .sident <;> decide +kernel +revert
  · cases b <;> cases s <;> facade_simp <;> clear e3 e4 <;> facade_amb2 .less p <;> decide +kernel +revert
  · cases b <;> cases s <;> facade_simp <;> facade_amb2 .rless .ident <;> decide +kernel +revert
  · cases b <;> cases s <;> facade_simp <;> facade_amb2 .rless .sident <;> decide +kernel +revert
  · cases b <;> cases s <;> facade_simp <;> clear e3 e4 <;> facade_amb2 .rless p <;> decide +kernel +revert
  · cases b <;> cases s <;> facade_simp <;> clear e1 e2 <;> facade_amb2 c .ident <;> decide +kernel +revert
  · cases b <;> cases s <;> facade_simp <;> clear e1 e2 <;> facade_amb2 c .sident <;> decide +kernel +revert
  · cases b <;> cases s <;> facade_simp <;> clear e1 e2 e3 e4 <;> facade_amb2 c p <;> decide +kernel +revert

/-! ### Implementations with a comparison and a projection -/

set_option maxHeartbeats 4000000 in
theorem fused1 (b : Bool) (s : Shape) {f : Fn} (hf : T.isProj .ident f = true → T.isProj f .less = false)
    (h1 : ∀ c, T.isProj .ident c = true → m ⟨.iters, [c]⟩ = true)
    (h2 : ∀ c p, T.isProj p c = true → m ⟨.iters, [c, p]⟩ = true) :
    (resolve m T b ⟨s, [f]⟩).kind ≠ some .none := by
  rw [resolve_kind]
  have k1 := h1 f
  have k2 := h2 .less f
  have k3 := h1 (.pc .less f)
  have k4 := h1 (mkpc .less f)
  rw [isProj_mkpc] at k4
  rw [T.pc_law] at k3
  clear h1 h2
  rcases fn_cases f with rfl | rfl | rfl | rfl | ⟨e1, e2, e3, e4⟩ <;> revert hf k1 k2 k3 k4
  · cases b <;> cases s <;> facade_simp <;> facade_amb1 (.less) <;> decide +kernel +revert
  · cases b <;> cases s <;> facade_simp <;> facade_amb1 (.rless) <;> decide +kernel +revert
  · cases b <;> cases s <;> facade_simp <;> facade_amb1 (.ident) <;> decide +kernel +revert
  · cases b <;> cases s <;> facade_simp <;> facade_amb1 (.sident) <;> decide +kernel +revert
  · cases b <;> cases s <;> facade_simp <;> clear e1 e2 e3 e4 <;> facade_amb1 f <;> decide +kernel +revert

set_option maxHeartbeats 4000000 in
theorem fused2 (b : Bool) (s : Shape) {c p : Fn}
    (h2 : ∀ c p, T.isProj p c = true → m ⟨.iters, [c, p]⟩ = true) :
    (resolve m T b ⟨s, [c, p]⟩).kind ≠ some .none := by
  rw [resolve_kind]
  have k2 := h2 c p
  clear h2
  rcases cmp_cases c with rfl | rfl | ⟨e1, e2⟩ <;> rcases proj_cases p with rfl | rfl | ⟨e3, e4⟩ <;> revert k2
  · cases b <;> cases s <;> facade_simp <;> facade_amb2 .less .ident <;> decide +kernel +revert
  · cases b <;> cases s <;> facade_simp <;> facade_amb2 .less .sident <;> decide +kernel +revert
  · cases b <;> cases s <;> facade_simp <;> clear e3 e4 <;> facade_amb2 .less p <;> decide +kernel +revert
  · cases b <;> cases s <;> facade_simp <;> facade_amb2 .rless .ident <;> decide +kernel +revert
  · cases b <;> cases s <;> facade_simp <;> facade_amb2 .rless .sident <;> decide +kernel +revert
  · cases b <;> cases s <;> facade_simp <;> clear e3 e4 <;> facade_amb2 .rless p <;> decide +kernel +revert
  · cases b <;> cases s <;> facade_simp <;> clear e1 e2 <;> facade_amb2 c .ident <;> decide +kernel +revert
  · cases b <;> cases s <;> facade_simp <;> clear e1 e2 <;> facade_amb2 c .sident <;> decide +kernel +revert
  · cases b <;> cases s <;> facade_simp <;> clear e1 e2 e3 e4 <;> facade_amb2 c p <;> decide +kernel +revert

/-! ### Iterables -/

set_option maxHeartbeats 4000000 in
theorem direct0 (b : Bool) (h : m ⟨.range, []⟩ = true) :
    (resolve m T b ⟨.range, []⟩).kind = some (some .range) := by
  revert h
  rw [resolve_kind]
  cases b
  all_goals
    facade_simp
    generalize m ⟨.iters, []⟩ = b1
    generalize m ⟨.range, []⟩ = b2
    revert b1 b2
    decide +kernel

set_option maxHeartbeats 4000000 in
theorem direct1 (b : Bool) {f : Fn}  (hf : T.isProj .ident f = true → T.isProj f .less = false) (hm : ItersToo m)
    (h : (m ⟨.range, [f]⟩ && (T.isProj .ident f || T.isProj f .less) || m ⟨.range, [.less, f]⟩ && T.isProj f .less) =
      true) :
    (resolve m T b ⟨.range, [f]⟩).kind = some (some .range) := by
  rw [resolve_kind]
  have k1 := hm [f]
  have k2 := hm [.less, f]
  clear hm
  rcases fn_cases f with rfl | rfl | rfl | rfl | ⟨e1, e2, e3, e4⟩ <;> revert h hf k1 k2
  · cases b <;> facade_simp <;> facade_amb1 (.less) <;> decide +kernel +revert
  · cases b <;> facade_simp <;> facade_amb1 (.rless) <;> decide +kernel +revert
  · cases b <;> facade_simp <;> facade_amb1 (.ident) <;> decide +kernel +revert
  · cases b <;> facade_simp <;> facade_amb1 (.sident) <;> decide +kernel +revert
  · cases b <;> facade_simp <;> clear e1 e2 e3 e4 <;> facade_amb1 f <;> decide +kernel +revert

set_option maxHeartbeats 4000000 in
theorem direct2 (b : Bool) {c p : Fn} (hm : ItersToo m)
    (h : (m ⟨.range, [c, p]⟩ && T.isProj p c) = true) :
    (resolve m T b ⟨.range, [c, p]⟩).kind = some (some .range) := by
  rw [resolve_kind]
  have k1 := hm [c, p]
  clear hm
  rcases cmp_cases c with rfl | rfl | ⟨e1, e2⟩ <;> rcases proj_cases p with rfl | rfl | ⟨e3, e4⟩ <;> revert h k1
  · cases b <;> facade_simp <;> facade_amb2 .less .ident <;> decide +kernel +revert
  · cases b <;> facade_simp <;> facade_amb2 .less .sident <;> decide +kernel +revert
  · cases b <;> facade_simp <;> clear e3 e4 <;> facade_amb2 .less p <;> decide +kernel +revert
  · cases b <;> facade_simp <;> facade_amb2 .rless .ident <;> decide +kernel +revert
  · cases b <;> facade_simp <;> facade_amb2 .rless .sident <;> decide +kernel +revert
  · cases b <;> facade_simp <;> clear e3 e4 <;> facade_amb2 .rless p <;> decide +kernel +revert
  · cases b <;> facade_simp <;> clear e1 e2 <;> facade_amb2 c .ident <;> decide +kernel +revert
  · cases b <;> facade_simp <;> clear e1 e2 <;> facade_amb2 c .sident <;> decide +kernel +revert
  · cases b <;> facade_simp <;> clear e1 e2 e3 e4 <;> facade_amb2 c p <;> decide +kernel +revert

/-! ### The default order spelled out -/

set_option maxHeartbeats 4000000 in
theorem spelled1 (b : Bool) (s : Shape) {f : Fn} (hf : f = .less ∨ f = .ident ∨ b = true ∧ (f = .rless ∨ f = .sident))
    (h : (resolve m T b ⟨s, []⟩).kind ≠ .none) :
    (resolve m T b ⟨s, [f]⟩).kind ≠ .none := by
  revert h
  rw [resolve_kind, resolve_kind]
  rcases hf with rfl | rfl | ⟨rfl, rfl | rfl⟩
  · cases b <;> cases s <;> facade_simp <;> facade_amb1 (.less) <;> decide +kernel +revert
  · cases b <;> cases s <;> facade_simp <;> facade_amb1 (.ident) <;> decide +kernel +revert
  · cases s <;> facade_simp <;> facade_amb1 (.rless) <;> decide +kernel +revert
  · cases s <;> facade_simp <;> facade_amb1 (.sident) <;> decide +kernel +revert

set_option maxHeartbeats 4000000 in
theorem spelled2 (b : Bool) (s : Shape) {c p : Fn}
    (hf : c = .less ∧ p = .ident ∨ b = true ∧ (c = .less ∨ c = .rless) ∧ p = .sident)
    (h : (resolve m T b ⟨s, []⟩).kind ≠ .none) : (resolve m T b ⟨s, [c, p]⟩).kind ≠ .none := by
  revert h
  rw [resolve_kind, resolve_kind]
  rcases hf with ⟨rfl, rfl⟩ | ⟨rfl, rfl | rfl, rfl⟩
  · cases b <;> cases s <;> facade_simp <;> facade_amb2 .less .ident <;> decide +kernel +revert
  · cases s <;> facade_simp <;> facade_amb2 .less .sident <;> decide +kernel +revert
  · cases s <;> facade_simp <;> facade_amb2 .rless .sident <;> decide +kernel +revert

set_option maxHeartbeats 4000000 in
theorem spelled_proj (b : Bool) (s : Shape) {f : Fn} (hf : T.isProj .ident f = true → T.isProj f .less = false)
    (hp : T.isProj f .less = true) (h : (resolve m T b ⟨s, [f]⟩).kind ≠ .none) :
    (resolve m T b ⟨s, [.less, f]⟩).kind ≠ .none := by
  revert h hf hp
  rw [resolve_kind, resolve_kind]
  rcases fn_cases f with rfl | rfl | rfl | rfl | ⟨e1, e2, e3, e4⟩
  · cases b <;> cases s <;> facade_simp <;> facade_amb1 (.less) <;> decide +kernel +revert
  · cases b <;> cases s <;> facade_simp <;> facade_amb1 (.rless) <;> decide +kernel +revert
  · cases b <;> cases s <;> facade_simp <;> facade_amb1 (.ident) <;> decide +kernel +revert
  · cases b <;> cases s <;> facade_simp <;> facade_amb1 (.sident) <;> decide +kernel +revert
  · cases b <;> cases s <;> facade_simp <;> clear e1 e2 e3 e4 <;> facade_amb1 f <;> decide +kernel +revert

end CppSort.Facade
