import Verif.Model.Facade
/-
adapters/container_aware_adapter.h and the overloads of its specializations for insertion_sorter, selection_sorter,
merge_sorter and mel_sorter in detail/container_aware: which algorithm a call runs. The list algorithms themselves are
in Verif/Model/Lists.lean.

As in Verif/Model/Facade.lean the model is one of overload resolution; here the value category of the first argument
matters, since every overload takes an `Iterable&`.
-/
set_option autoImplicit false

namespace CppSort.Facade

/-- An argument after the first one: an iterator, or a function. -/
inductive Arg where
  | it
  | fn (f : Fn)
deriving DecidableEq

/-- container_aware_adapter.h 24-54: whether argument-dependent lookup finds, for the adapted sorter and the type of the
first argument, a `sort` that takes the arguments; if not, `detail::sort` (24-26), which returns `nope_type` and is
not defined, is found. -/
abbrev Adl := List Arg → Bool

/-- `is_projection<p, Iterable, c>` where `Iterable` is the type of the first argument of a call: an iterator has no
`std::begin` (sorter_traits.h 24-67). -/
def pj (T : Traits) (iter : Bool) : Arg → Arg → Bool
  | .fn p, .fn c => !iter && T.isProj p c
  | _, _ => false

/-- `projection_compare<c, p>`; not looked at for iterators, for which `pj` is false. -/
def argPc : Arg → Arg → Arg
  | .fn c, .fn p => .fn (.pc c p)
  | _, _ => .it

/-- `make_projection_compare(c, p)`; not called with iterators. -/
def argMkpc : Arg → Arg → Arg
  | .fn c, .fn p => .fn (mkpc c p)
  | _, _ => .it

section
variable (adl : Adl) (T : Traits) (iter : Bool)

/-- container_aware_adapter.h 56-62: `can_sort`. -/
def canSort : Bool := adl []

/-- container_aware_adapter.h 64-71: `can_comparison_sort`. -/
def canC (c : Arg) : Bool := adl [c] && pj T iter (.fn .ident) c

/-- container_aware_adapter.h 73-80: `can_projection_sort`. -/
def canP (p : Arg) : Bool := adl [p] && pj T iter p (.fn .less)

/-- container_aware_adapter.h 82-89: `can_comparison_projection_sort`. -/
def canCP (c p : Arg) : Bool := adl [c, p] && pj T iter p c

/-- What an overload calls: the `sort` found by argument-dependent lookup, or the adapted sorter, with the first
argument and those given. -/
inductive Dest where
  | algo (args : List Arg)
  | sorter (args : List Arg)
deriving DecidableEq

/-- An overload of `container_aware_adapter_base::operator()`: its condition, and what it calls. -/
structure CAOverload where
  enabled : List Arg → Bool
  dest : List Arg → Dest

/-- A condition on no argument. -/
def args0 (b : Bool) : List Arg → Bool
  | [] => b
  | _ => false

/-- A condition on one argument. -/
def args1 (f : Arg → Bool) : List Arg → Bool
  | [x] => f x
  | _ => false

/-- A condition on two arguments. -/
def args2 (f : Arg → Arg → Bool) : List Arg → Bool
  | [x, y] => f x y
  | _ => false

/-- The arguments `std::less<>{}` and a projection. -/
def caLess (xs : List Arg) : List Arg := .fn .less :: xs

/-- A comparison made of `std::less<>` and a projection, or of the comparison and the projection. -/
def caBake : List Arg → List Arg
  | [p] => [argMkpc (.fn .less) p]
  | [c, p] => [argMkpc c p]
  | xs => xs

/-- container_aware_adapter.h 101-331. -/
def caOverloads : List CAOverload := [
  -- 101-116
  ⟨args0 (canSort adl), .algo⟩,
  -- 118-133
  ⟨args0 (!canSort adl), .sorter⟩,
  -- 135-151
  ⟨args1 fun c => canC adl T iter c, .algo⟩,
  -- 153-170
  ⟨args1 fun c => !pj T iter c (.fn .less) && !canC adl T iter c, .sorter⟩,
  -- 172-189
  ⟨args1 fun p => !canC adl T iter p && canP adl T iter p, .algo⟩,
  -- 191-210
  ⟨args1 fun p => !canP adl T iter p && canCP adl T iter (.fn .less) p, fun xs => .algo (caLess xs)⟩,
  -- 212-236
  ⟨args1 fun p => !canP adl T iter p && !canCP adl T iter (.fn .less) p && canC adl T iter (argPc (.fn .less) p),
    fun xs => .algo (caBake xs)⟩,
  -- 238-261
  ⟨args1 fun p => pj T iter p (.fn .less) && !canP adl T iter p && !canCP adl T iter (.fn .less) p &&
    !canC adl T iter (argPc (.fn .less) p), .sorter⟩,
  -- 263-282
  ⟨args2 fun c p => canCP adl T iter c p, .algo⟩,
  -- 284-308
  ⟨args2 fun c p => !canCP adl T iter c p && canC adl T iter (argPc c p), fun xs => .algo (caBake xs)⟩,
  -- 310-331
  ⟨args2 fun c p => !canCP adl T iter c p && !canC adl T iter (argPc c p), .sorter⟩]

/-- The functions among the arguments, if there are only functions. -/
def fnsOf : List Arg → Option (List Fn)
  | [] => some []
  | .fn f :: xs => (fnsOf xs).map (f :: ·)
  | .it :: _ => none

/-- The call of the adapted sorter. -/
def sorterCall : Bool → List Arg → Option Call
  | false, xs => (fnsOf xs).map fun fs => ⟨.range, fs⟩
  | true, .it :: xs => (fnsOf xs).map fun fs => ⟨.iters, fs⟩
  | true, _ => none

/-- Whether the `decltype` of a return type is well-formed: `adl_despair` always is, thanks to `detail::sort`. `m` is
what the adapted sorter accepts. -/
def Dest.wf (m : Impl) : Dest → Bool
  | .algo _ => true
  | .sorter xs => match sorterCall iter xs with
    | some c => m c
    | none => false

/-- What comes of a call. -/
inductive CAOutcome where
  | none
  | ambiguous
  | calls (d : Dest)
deriving DecidableEq

/-- The viable overloads: what they call. -/
def caViable (m : Impl) (xs : List Arg) : List Dest :=
  ((caOverloads adl T iter).filter fun o => o.enabled xs && (o.dest xs).wf iter m).map fun o => o.dest xs

/-- A call of `container_aware_adapter<Sorter>` with a first argument that is an iterator or not and an lvalue or not:
an `Iterable&` does not bind to an rvalue. Two viable overloads have parameters of the same form, so none of them is
better (`operator()` of `adapter_storage` is hidden). -/
def caResolve (m : Impl) (lval : Bool) (xs : List Arg) : CAOutcome :=
  if lval then
    match caViable adl T iter m xs with
    | [] => .none
    | [d] => .calls d
    | _ => .ambiguous
  else .none

/-- container_aware_adapter.h 350-357: `is_stable<container_aware_adapter<Sorter>(Args...)>`, the return type of
`operator()<true>` for lvalues; `stable` is `is_stable` of the adapted sorter. No value: the trait is ill-formed. -/
def caIsStable (m : Impl) (stable : Call → Bool) (xs : List Arg) : Option Bool :=
  match caResolve adl T iter m true xs with
  | .calls (.algo _) => some false
  | .calls (.sorter ys) => (sorterCall iter ys).map stable
  | _ => none

/-! ### The specializations -/

/-- The overloads of a specialization for `std::list`, or for `std::forward_list`: the conditions, and the comparison
and the projection passed to the list algorithm.
insertion_sort.h 112-197, selection_sort.h 89-177, merge_sort.h 81-175, mel_sort.h 205-293. -/
def listOverloads (T : Traits) : List ((List Fn → Bool) × (List Fn → Fn × Fn)) := [
  (fun xs => match xs with | [] => true | _ => false, fun _ => (.less, .ident)),
  (on1 fun c => T.isProj .ident c, fun xs => (xs.headD .less, .ident)),
  (on1 fun p => T.isProj p .less, fun xs => (.less, xs.headD .ident)),
  (on2 fun c p => T.isProj p c, fun xs => (xs.headD .less, xs.getLastD .ident))]

/-- What comes of a call with a list: a list algorithm with a comparison and a projection, or what the base class makes
of it. -/
inductive ListOutcome where
  | dedicated (c p : Fn)
  | ambiguous
  | base (o : CAOutcome)
deriving DecidableEq

/-- A call of a specialization with an lvalue `std::list` or `std::forward_list`: the overloads for lists are more
specialized than those of the base class, which `usesBase` says to be visible (selection_sort.h 87, merge_sort.h 79,
mel_sort.h 203); they are not for insertion_sorter, whose other overload excludes lists (insertion_sort.h 202-217). -/
def listResolve (usesBase : Bool) (m : Impl) (xs : List Fn) : ListOutcome :=
  match (listOverloads T).filter fun o => o.1 xs with
  | [] => .base (if usesBase then caResolve adl T false m true (xs.map .fn) else .none)
  | [o] => .dedicated (o.2 xs).1 (o.2 xs).2
  | _ => .ambiguous

/-- `is_stable` of a specialization: `operator()<true>` can only name the overloads of the base class, as those of the
specialization have no parameter that is a value; without the using-declaration the base class is hidden. -/
def listIsStable (usesBase : Bool) (m : Impl) (stable : Call → Bool) (xs : List Arg) : Option Bool :=
  if usesBase then caIsStable adl T iter m stable xs else none

end

end CppSort.Facade
