import Verif.Model.ContainerAware
import Verif.Proof.Facade
set_option autoImplicit false

namespace CppSort.Facade
variable {adl : Adl} {T : Traits} {iter : Bool} {m : Impl}

theorem pj_pc (c p : Arg) : pj T iter (.fn .ident) (argPc c p) = pj T iter p c := by
  cases c <;> cases p <;> simp [pj, argPc, T.pc_law]

theorem wf_algo (xs : List Arg) : Dest.wf iter m (.algo xs) = true := rfl

/-- The call that an overload makes, if well-formed. -/
def Dest.outcome (iter : Bool) (m : Impl) (d : Dest) : CAOutcome := if d.wf iter m then .calls d else .none

/-- What the overloads for one argument come to. -/
def choice1 (adl : Adl) (T : Traits) (iter : Bool) (x : Arg) : Dest :=
  if adl [x] && (pj T iter (.fn .ident) x || pj T iter x (.fn .less)) then .algo [x]
  else if adl [.fn .less, x] && pj T iter x (.fn .less) then .algo [.fn .less, x]
  else if adl [argPc (.fn .less) x] && pj T iter x (.fn .less) then .algo [argMkpc (.fn .less) x]
  else .sorter [x]

/-- What the overloads for two arguments come to. -/
def choice2 (adl : Adl) (T : Traits) (iter : Bool) (c p : Arg) : Dest :=
  if adl [c, p] && pj T iter p c then .algo [c, p]
  else if adl [argPc c p] && pj T iter p c then .algo [argMkpc c p]
  else .sorter [c, p]

/-- What the overloads come to. -/
def choice0 (adl : Adl) : Dest := if adl [] then .algo [] else .sorter []

theorem caResolve_0 : caResolve adl T iter m true [] = (choice0 adl).outcome iter m := by
  unfold caResolve caViable caOverloads choice0 Dest.outcome canSort
  cases h1 : adl [] <;> cases h2 : Dest.wf iter m (.sorter []) <;>
    simp [args0, args1, args2, h1, h2, wf_algo, List.filter_cons]

theorem caResolve_1 (x : Arg) : caResolve adl T iter m true [x] = (choice1 adl T iter x).outcome iter m := by
  unfold caResolve caViable caOverloads choice1 Dest.outcome canC canP canCP
  generalize e1 : adl [x] = a1
  generalize e2 : adl [.fn .less, x] = a2
  generalize e3 : adl [argPc (.fn .less) x] = a3
  generalize e4 : pj T iter (.fn .ident) x = a4
  generalize e5 : pj T iter x (.fn .less) = a5
  cases h2 : Dest.wf iter m (.sorter [x]) <;> cases a1 <;> cases a2 <;> cases a3 <;> cases a4 <;> cases a5 <;>
    simp [args0, args1, args2, caLess, caBake, h2, e1, e2, e3, e4, e5, pj_pc, wf_algo, List.filter_cons]

theorem caResolve_2 (c p : Arg) : caResolve adl T iter m true [c, p] = (choice2 adl T iter c p).outcome iter m := by
  unfold caResolve caViable caOverloads choice2 Dest.outcome canC canP canCP
  generalize e1 : adl [c, p] = a1
  generalize e2 : adl [argPc c p] = a2
  generalize e3 : pj T iter p c = a3
  cases h2 : Dest.wf iter m (.sorter [c, p]) <;> cases a1 <;> cases a2 <;> cases a3 <;>
    simp [args0, args1, args2, caBake, h2, e1, e2, e3, pj_pc, wf_algo, List.filter_cons]

theorem caResolve_more (x y z : Arg) (xs : List Arg) : caResolve adl T iter m true (x :: y :: z :: xs) = .none := by
  unfold caResolve caViable caOverloads
  simp [args0, args1, args2, List.filter_cons]

theorem caResolve_rvalue (xs : List Arg) : caResolve adl T iter m false xs = .none := rfl

/-- A call that reaches the adapted sorter reaches it with the arguments passed. -/
theorem caResolve_sorter {lval : Bool} {xs ys : List Arg} (h : caResolve adl T iter m lval xs = .calls (.sorter ys)) :
    ys = xs ∧ Dest.wf iter m (.sorter xs) = true := by
  have key : ∀ d : Dest, d.outcome iter m = .calls (.sorter ys) → d = .sorter ys ∧ d.wf iter m = true := by
    intro d h
    unfold Dest.outcome at h
    split at h
    · cases h; exact ⟨rfl, ‹_›⟩
    · cases h
  cases lval with
  | false => cases h
  | true =>
    match xs, h with
    | [], h =>
      rw [caResolve_0] at h
      obtain ⟨e, hw⟩ := key _ h
      rw [e] at hw
      unfold choice0 at e
      split at e <;> cases e
      exact ⟨rfl, hw⟩
    | [x], h =>
      rw [caResolve_1] at h
      obtain ⟨e, hw⟩ := key _ h
      rw [e] at hw
      unfold choice1 at e
      split at e
      · cases e
      split at e
      · cases e
      split at e <;> cases e
      exact ⟨rfl, hw⟩
    | [x, y], h =>
      rw [caResolve_2] at h
      obtain ⟨e, hw⟩ := key _ h
      rw [e] at hw
      unfold choice2 at e
      split at e
      · cases e
      split at e <;> cases e
      exact ⟨rfl, hw⟩
    | x :: y :: z :: xs, h => rw [caResolve_more] at h; cases h

end CppSort.Facade
