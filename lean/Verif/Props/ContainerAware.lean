import Verif.Proof.ContainerAware
import Verif.Props.Facade
/-
C94: what `container_aware_adapter` calls.
-/
set_option autoImplicit false

namespace CppSort.Facade
variable {V : Type}

/-- C94: no call of `container_aware_adapter<Sorter>` is ambiguous, whatever `sort` functions argument-dependent lookup
finds, whatever the adapted sorter accepts and whatever is passed, be it a function that is both a comparison and a
projection. -/
theorem C94_unambiguous (adl : Adl) (T : Traits) (iter : Bool) (m : Impl) (lval : Bool) (xs : List Arg) :
    caResolve adl T iter m lval xs ≠ .ambiguous := by
  cases lval with
  | false => rw [caResolve_rvalue]; simp
  | true =>
    have h : ∀ d : Dest, d.outcome iter m ≠ .ambiguous := by
      intro d; unfold Dest.outcome; split <;> simp
    match xs with
    | [] => rw [caResolve_0]; exact h _
    | [x] => rw [caResolve_1]; exact h _
    | [x, y] => rw [caResolve_2]; exact h _
    | x :: y :: z :: xs => rw [caResolve_more]; simp

/-- The functions of a call as arguments. -/
def fns (xs : List Fn) : List Arg := xs.map .fn

/-- There is a dedicated algorithm for a call: a `sort` that takes the functions as they are, or a projection with
`std::less<>`, or the comparison and the projection as one comparison. -/
def Known (adl : Adl) (T : Traits) : List Fn → Prop
  | [] => adl [] = true
  | [f] => adl (fns [f]) = true ∨
      T.isProj f .less = true ∧ (adl (fns [.less, f]) = true ∨ adl (fns [.pc .less f]) = true)
  | [c, p] => adl (fns [c, p]) = true ∨ adl (fns [.pc c p]) = true
  | _ => False

theorem wf_sorter_fns {m : Impl} (xs : List Fn) : (Dest.sorter (fns xs)).wf false m = m ⟨.range, xs⟩ := by
  have h : ∀ xs : List Fn, fnsOf (fns xs) = some xs := by
    intro xs
    induction xs with
    | nil => rfl
    | cons x xs ih =>
      show (fnsOf (fns xs)).map (x :: ·) = _
      rw [ih]; rfl
  simp [Dest.wf, sorterCall, h]

/-- C94: given an iterable, the adapter calls the dedicated algorithm when there is one for the functions passed, and
one that exists (a `sort` that takes a comparison with the identity baked in takes the comparison itself). -/
theorem C94_dedicated (adl : Adl) (T : Traits) (m : Impl) (xs : List Fn) (hs : Sensible T xs) (hk : Known adl T xs)
    (hi : ∀ c p, p = .ident ∨ p = .sident → adl (fns [.pc c p]) = true → adl (fns [c]) = true) :
    ∃ ys, caResolve adl T false m true (fns xs) = .calls (.algo (fns ys)) ∧ adl (fns ys) = true := by
  have hb : ∀ c p, adl (fns [.pc c p]) = true → adl (fns [mkpc c p]) = true := by
    intro c p h
    unfold mkpc
    split
    · exact hi c p ‹_› h
    · exact h
  match xs, hs, hk with
  | [], _, hk =>
    refine ⟨[], ?_, hk⟩
    show caResolve adl T false m true [] = _
    rw [caResolve_0, choice0, if_pos (show adl [] = true from hk)]; rfl
  | [f], hs, hk =>
    show ∃ ys, caResolve adl T false m true [.fn f] = _ ∧ _
    rw [caResolve_1]
    unfold choice1
    simp only [pj, Bool.not_false, Bool.true_and, argPc, argMkpc]
    by_cases h1 : adl [.fn f] = true
    · refine ⟨[f], ?_, h1⟩
      have hs : T.isProj .ident f = true ∨ T.isProj f .less = true := hs
      rw [if_pos (by simpa [h1] using hs)]; rfl
    · rw [if_neg (by simp [h1])]
      rcases hk with hk | ⟨hp, hk⟩
      · exact absurd hk h1
      by_cases h2 : adl [.fn .less, .fn f] = true
      · refine ⟨[.less, f], ?_, h2⟩
        rw [if_pos (by simp [h2, hp])]; rfl
      · rw [if_neg (by simp [h2])]
        rcases hk with hk | hk
        · exact absurd hk h2
        refine ⟨[mkpc .less f], ?_, hb _ _ hk⟩
        have hk' : adl [.fn (.pc .less f)] = true := hk
        rw [if_pos (by simp [hk', hp])]; rfl
  | [c, p], hs, hk =>
    show ∃ ys, caResolve adl T false m true [.fn c, .fn p] = _ ∧ _
    rw [caResolve_2]
    unfold choice2
    have hs : T.isProj p c = true := hs
    simp only [pj, Bool.not_false, Bool.true_and, argPc, argMkpc, hs, Bool.and_true]
    by_cases h1 : adl [.fn c, .fn p] = true
    · exact ⟨[c, p], by rw [if_pos h1]; rfl, h1⟩
    · rw [if_neg h1]
      rcases hk with hk | hk
      · exact absurd hk h1
      refine ⟨[mkpc c p], ?_, hb _ _ hk⟩
      have hk' : adl [.fn (.pc c p)] = true := hk
      rw [if_pos hk']; rfl

/-- C94: given an iterable without a dedicated algorithm, the adapter passes the call on to the adapted sorter as it
is, if that sorter accepts it. -/
theorem C94_fallback (adl : Adl) (T : Traits) (m : Impl) (xs : List Fn) (hk : ¬ Known adl T xs) (hx : xs.length ≤ 2) :
    caResolve adl T false m true (fns xs) =
      if m ⟨.range, xs⟩ then .calls (.sorter (fns xs)) else .none := by
  have ho : Dest.outcome false m (.sorter (fns xs)) =
      if m ⟨.range, xs⟩ then .calls (.sorter (fns xs)) else .none := by
    unfold Dest.outcome; rw [wf_sorter_fns]
  rw [← ho]
  match xs, hk with
  | [], hk =>
    show caResolve adl T false m true [] = _
    rw [caResolve_0, choice0, if_neg (show ¬ adl [] = true from hk)]; rfl
  | [f], hk =>
    show caResolve adl T false m true [.fn f] = _
    rw [caResolve_1, choice1]
    simp only [Known, fns, List.map_cons, List.map_nil, not_or, not_and] at hk
    rw [if_neg (by simp [hk.1]), if_neg (by
      simp only [pj, Bool.not_false, Bool.true_and, Bool.and_eq_true, not_and]
      exact fun h h' => (hk.2 h').1 h), if_neg (by
      simp only [pj, argPc, Bool.not_false, Bool.true_and, Bool.and_eq_true, not_and]
      exact fun h h' => (hk.2 h').2 h)]
    rfl
  | [c, p], hk =>
    show caResolve adl T false m true [.fn c, .fn p] = _
    rw [caResolve_2, choice2]
    simp only [Known, fns, List.map_cons, List.map_nil, not_or] at hk
    rw [if_neg (by simp [hk.1]), if_neg (by simp [argPc, hk.2])]
    rfl

/-- C94: whatever a call with an iterable comes to, the dedicated algorithm or the adapted sorter is asked for the order
that was asked for. -/
theorem C94_order (adl : Adl) (T : Traits) (m : Impl) (I : Interp V) (xs : List Fn) (d : Dest) (hx : Clear T xs)
    (h : caResolve adl T false m true (fns xs) = .calls d) :
    ∃ ys, (d = .algo (fns ys) ∨ d = .sorter (fns ys) ∧ m ⟨.range, ys⟩ = true) ∧ I.order T ys = I.order T xs := by
  have ho : ∀ d' : Dest, d'.outcome false m = .calls d → d' = d ∧ d'.wf false m = true := by
    intro d' h
    unfold Dest.outcome at h
    split at h
    · cases h; exact ⟨rfl, ‹_›⟩
    · cases h
  have hs : ∀ ys, (Dest.sorter (fns ys)).wf false m = true → m ⟨.range, ys⟩ = true := by
    intro ys h; rwa [wf_sorter_fns] at h
  match xs, hx, h with
  | [], _, h =>
    rw [show fns [] = [] from rfl, caResolve_0] at h
    obtain ⟨rfl, hw⟩ := ho _ h
    unfold choice0 at hw ⊢
    split
    · exact ⟨[], .inl rfl, rfl⟩
    · rename_i hn
      rw [if_neg hn] at hw
      exact ⟨[], .inr ⟨rfl, hs [] hw⟩, rfl⟩
  | [f], hx, h =>
    rw [show fns [f] = [.fn f] from rfl, caResolve_1] at h
    obtain ⟨rfl, hw⟩ := ho _ h
    have hp : ∀ h : T.isProj f .less = true, I.order T [f] = fun x y => I.less (I.projOf f x) (I.projOf f y) := by
      intro h
      have := cmp_not_proj (hx f (by simp)) h
      simp only [Interp.order, this, Bool.false_eq_true, if_false]
    unfold choice1 at hw ⊢
    split
    · exact ⟨[f], .inl rfl, rfl⟩
    rename_i h1
    rw [if_neg h1] at hw
    split
    · rename_i h2
      simp only [pj, Bool.not_false, Bool.true_and, Bool.and_eq_true] at h2
      exact ⟨[.less, f], .inl rfl, (hp h2.2).symm⟩
    rename_i h2
    rw [if_neg h2] at hw
    split
    · rename_i h3
      simp only [pj, Bool.not_false, Bool.true_and, Bool.and_eq_true] at h3
      refine ⟨[mkpc .less f], .inl rfl, ?_⟩
      rw [order_bake h3.2, hp h3.2]; rfl
    · rename_i h3
      rw [if_neg h3] at hw
      exact ⟨[f], .inr ⟨rfl, hs [f] hw⟩, rfl⟩
  | [c, p], hx, h =>
    rw [show fns [c, p] = [.fn c, .fn p] from rfl, caResolve_2] at h
    obtain ⟨rfl, hw⟩ := ho _ h
    unfold choice2 at hw ⊢
    split
    · exact ⟨[c, p], .inl rfl, rfl⟩
    rename_i h1
    rw [if_neg h1] at hw
    split
    · rename_i h3
      simp only [pj, Bool.not_false, Bool.true_and, Bool.and_eq_true] at h3
      refine ⟨[mkpc c p], .inl rfl, ?_⟩
      rw [order_bake h3.2]; rfl
    · rename_i h3
      rw [if_neg h3] at hw
      exact ⟨[c, p], .inr ⟨rfl, hs [c, p] hw⟩, rfl⟩
  | x :: y :: z :: xs, _, h =>
    rw [show fns (x :: y :: z :: xs) = .fn x :: .fn y :: .fn z :: fns xs from rfl, caResolve_more] at h
    cases h

/-- The `sort` of tests/adapters/container_aware_adapter.cpp 23-33: it takes one comparison. -/
def exAdl : Adl
  | [.fn f] => exTraits.isProj .ident f
  | _ => false

/-- The calls of tests/adapters/container_aware_adapter.cpp 46-64: a comparison, a projection, both; without a function
the adapted sorter is called. -/
example : caResolve exAdl exTraits false (both exTraits) true (fns [.user 0]) = .calls (.algo (fns [.user 0])) ∧
    caResolve exAdl exTraits false (both exTraits) true (fns [.user 1]) = .calls (.algo (fns [.pc .less (.user 1)])) ∧
    caResolve exAdl exTraits false (both exTraits) true (fns [.user 0, .user 1]) =
      .calls (.algo (fns [.pc (.user 0) (.user 1)])) ∧
    caResolve exAdl exTraits false (both exTraits) true [] = .calls (.sorter []) := by
  decide +kernel

/-- The hypotheses of `C94_dedicated` are met. -/
example : ∃ ys, caResolve exAdl exTraits false (both exTraits) true (fns [.user 0, .user 1]) =
    .calls (.algo (fns ys)) ∧ exAdl (fns ys) = true :=
  C94_dedicated exAdl exTraits (both exTraits) [.user 0, .user 1] (show exTraits.isProj (.user 1) (.user 0) = true by decide +kernel)
    (.inr (by decide +kernel))
    fun c p hp h => by
      have h : exTraits.isProj .ident (.pc c p) = true := h
      rw [exTraits.pc_law] at h
      rcases hp with rfl | rfl
      · exact h
      · rwa [exTraits.same_law] at h

/-- Those of `C94_fallback` and `C94_order`. -/
example : caResolve exAdl exTraits false (both exTraits) true (fns []) = .calls (.sorter (fns [])) ∧
    ∀ I : Interp Nat, I.order exTraits [.pc .less (.user 1)] = I.order exTraits [.user 1] :=
  ⟨C94_fallback exAdl exTraits (both exTraits) [] (by simp [Known, exAdl]) (by simp), fun I => by
    obtain ⟨ys, h, e⟩ := C94_order exAdl exTraits (both exTraits) I [.user 1] (.algo (fns [.pc .less (.user 1)]))
      (exClear _) (by decide +kernel)
    rcases h with h | ⟨h, -⟩
    · have h : fns [.pc .less (.user 1)] = fns ys := Dest.algo.inj h
      match ys, h with
      | [_], h => cases h; exact e
    · cases h⟩

/-! ### Iterators -/

/-- C94, the part that holds of "when called with a pair of iterators, the resulting sorter uses the raw adapted
sorter" (docs/Sorter-adapters.md 52): when the first iterator is an lvalue and at most one function is passed. -/
theorem C94_iterators_partial (adl : Adl) (T : Traits) (m : Impl) (xs : List Fn) (hx : xs.length ≤ 1) :
    caResolve adl T true m true (.it :: fns xs) = if m ⟨.iters, xs⟩ then .calls (.sorter (.it :: fns xs)) else .none := by
  match xs, hx with
  | [], _ =>
    show caResolve adl T true m true [.it] = _
    rw [caResolve_1, choice1]
    simp only [pj, Bool.or_self, Bool.and_false, Bool.false_eq_true, if_false]
    rfl
  | [f], _ =>
    show caResolve adl T true m true [.it, .fn f] = _
    rw [caResolve_2, choice2]
    simp only [pj, Bool.and_false, Bool.false_eq_true, if_false]
    rfl

example : caResolve exAdl exTraits true (defaulted exTraits) true (.it :: fns [.user 0]) =
    .calls (.sorter (.it :: fns [.user 0])) :=
  C94_iterators_partial exAdl exTraits (defaulted exTraits) [.user 0] (by simp)

/-- C94 is false for the other calls with iterators: with a comparison and a projection, or with a temporary such as
`v.begin()`, no call compiles, whatever the adapted sorter. -/
theorem C94_iterators_false (adl : Adl) (T : Traits) (m : Impl) (c p : Fn) (xs : List Arg) (lval : Bool) :
    caResolve adl T true m lval (.it :: fns [c, p]) = .none ∧ caResolve adl T true m false xs = .none := by
  refine ⟨?_, rfl⟩
  cases lval with
  | false => rfl
  | true => exact caResolve_more _ _ _ _

/-- The sorters of the library accept what the adapter refuses. -/
example : defaulted exTraits ⟨.iters, [.user 0, .user 1]⟩ = true ∧ defaulted exTraits ⟨.iters, []⟩ = true := by
  decide +kernel

/-! ### Stability -/

/-- C94: if `is_stable` of the adapter is true, the adapted sorter is called with the arguments as they
are, and its `is_stable` is true for that call. -/
theorem C94_is_stable (adl : Adl) (T : Traits) (iter : Bool) (m : Impl) (stable : Call → Bool) (xs : List Arg)
    (h : caIsStable adl T iter m stable xs = some true) :
    ∃ c, caResolve adl T iter m true xs = .calls (.sorter xs) ∧ sorterCall iter xs = some c ∧ stable c = true := by
  unfold caIsStable at h
  split at h
  · cases h
  · rename_i ys e
    obtain ⟨c, h1, h2⟩ := Option.map_eq_some_iff.1 h
    obtain ⟨rfl, -⟩ := caResolve_sorter e
    exact ⟨c, e, h1, h2⟩
  · cases h

example : caIsStable exAdl exTraits false (both exTraits) (fun _ => true) [] = some true ∧
    caIsStable exAdl exTraits false (both exTraits) (fun _ => true) (fns [.user 1]) = some false ∧
    caIsStable exAdl exTraits true (both exTraits) (fun _ => true) [.it] = some true := by
  decide +kernel

/-! ### The specializations for lists -/

/-- C94 for the sorters with list algorithms: a call with an lvalue `std::list` or `std::forward_list` runs the list
algorithm, with a comparison and a projection that give the order asked for, whatever else is visible. -/
theorem C94_list (adl : Adl) (T : Traits) (usesBase : Bool) (m : Impl) (I : Interp V) (xs : List Fn)
    (hc : Clear T xs) (hs : Sensible T xs) :
    ∃ c p, listResolve adl T usesBase m xs = .dedicated c p ∧ I.order T [c, p] = I.order T xs := by
  match xs, hc, hs with
  | [], _, _ => exact ⟨.less, .ident, by simp [listResolve, listOverloads, on1, on2], rfl⟩
  | [f], hc, hs =>
    have hc := hc f (by simp)
    by_cases h1 : T.isProj .ident f = true
    · refine ⟨f, .ident, by simp [listResolve, listOverloads, on1, on2, h1, hc h1], ?_⟩
      simp only [Interp.order, isCmp, h1, Bool.or_true, if_true]
      rfl
    · have h2 : T.isProj f .less = true := hs.resolve_left h1
      refine ⟨.less, f, by simp [listResolve, listOverloads, on1, on2, h1, h2], ?_⟩
      have := cmp_not_proj hc h2
      simp only [Interp.order, this, Bool.false_eq_true, if_false]
      rfl
  | [c, p], _, hs =>
    have hs : T.isProj p c = true := hs
    exact ⟨c, p, by simp [listResolve, listOverloads, on1, on2, hs], rfl⟩

example : listResolve exAdl exTraits false (both exTraits) [.user 1] = .dedicated .less (.user 1) ∧
    Clear exTraits [.user 1] ∧ Sensible exTraits [.user 1] :=
  ⟨by decide +kernel, exClear _, .inr (by decide +kernel)⟩

/-- A function that is a comparison and a projection makes the call of a specialization ambiguous, unlike one of the
base class. -/
theorem C94_list_false (adl : Adl) (T : Traits) (usesBase : Bool) (m : Impl) (f : Fn) (h1 : T.isProj .ident f = true)
    (h2 : T.isProj f .less = true) : listResolve adl T usesBase m [f] = .ambiguous := by
  simp [listResolve, listOverloads, on1, on2, h1, h2]

/-- The trait of a specialization is true only if it is for the sorter itself on the same call; where the base class is
hidden (insertion_sort.h 101-218 has no using-declaration) it has no value. -/
theorem C94_list_is_stable (adl : Adl) (T : Traits) (usesBase : Bool) (m : Impl) (stable : Call → Bool) (xs : List Fn)
    (h : listIsStable adl T false usesBase m stable (fns xs) = some true) :
    usesBase = true ∧ stable ⟨.range, xs⟩ = true ∧ m ⟨.range, xs⟩ = true := by
  unfold listIsStable at h
  split at h
  · rename_i hu
    obtain ⟨c, h1, h2, h3⟩ := C94_is_stable _ _ _ _ _ _ h
    have hw := (caResolve_sorter h1).2
    rw [wf_sorter_fns] at hw
    have := wf_sorter_fns (m := fun c' => decide (c' = c)) xs
    simp only [Dest.wf, h2, decide_true] at this
    exact ⟨hu, by simpa [← (of_decide_eq_true this.symm)] using h3, hw⟩
  · cases h

example : listIsStable (fun _ => false) exTraits false true (both exTraits) (fun _ => true) (fns [.user 0]) = some true := by
  decide +kernel

end CppSort.Facade
