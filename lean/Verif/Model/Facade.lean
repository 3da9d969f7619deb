/-
sorter_facade.h 150-1175: the overloads of `operator()` that `sorter_facade` adds to a sorter implementation, their
conditions, and the choice between them; with the detection traits of sorter_traits.h 24-131.

The model is one of overload resolution: an implementation is known by the lists of arguments its `operator()` accepts,
a call is a list of argument types, and a result is the call that the selected overload makes. `refined_t<T, F>` is
taken to be `F` (refined.h 30-63: so it is for functions without a `refine` method), value categories and return types
are left out.
-/
set_option autoImplicit false

namespace CppSort.Facade

/-- Types of functions passed to a sorter: `std::less<>`, `std::ranges::less`, `utility::identity`, `std::identity`,
types given by the user, and `projection_compare<c, p>` (projection_compare.h 23-114). -/
inductive Fn where
  | less | rless | ident | sident
  | user (n : Nat)
  | pc (c p : Fn)
deriving DecidableEq

/-- `make_projection_compare` (projection_compare.h 116-200): with an identity the comparison itself. -/
def mkpc (c p : Fn) : Fn :=
  if p = .ident ∨ p = .sident then c else .pc c p

/-- How the range is given: two iterators or an iterable. -/
inductive Shape where
  | iters | range
deriving DecidableEq

/-- A call: the range, then the functions. -/
structure Call where
  shape : Shape
  args : List Fn
deriving DecidableEq

/-- A sorter implementation: the calls it accepts (`is_invocable<Sorter, ...>`). Default arguments count: an
implementation with `(It, It, Compare = {}, Projection = {})` accepts zero, one and two functions. -/
abbrev Impl := Call → Bool

/-- sorter_traits.h 24-67: `isProj p c` is `is_projection<P, Iterable, C>`: `c` can be called with two elements
projected with `p`. `projection_compare` is callable exactly when this holds (projection_compare.h 40-110, the return
types make it SFINAE-friendly); the comparisons of the standard library take two arguments and the identities one, and
the two identities are called alike. -/
structure Traits where
  isProj : Fn → Fn → Bool
  pc_law : ∀ c p, isProj .ident (.pc c p) = isProj p c
  less_law : ∀ c, isProj .less c = false
  rless_law : ∀ c, isProj .rless c = false
  ident_law : ∀ p, isProj p .ident = false
  sident_law : ∀ p, isProj p .sident = false
  same_law : ∀ c, isProj .sident c = isProj .ident c

variable (m : Impl) (T : Traits)

/-- sorter_traits.h 75-78: `has_sort`. -/
def hasSort : Bool := m ⟨.range, []⟩

/-- sorter_traits.h 80-86, 108-114: `has_comparison_sort` and `has_comparison_sort_iterator`. -/
def hasC (s : Shape) (c : Fn) : Bool := m ⟨s, [c]⟩ && T.isProj .ident c

/-- sorter_traits.h 88-94, 116-122: `has_projection_sort` and `has_projection_sort_iterator`. -/
def hasP (s : Shape) (p : Fn) : Bool := m ⟨s, [p]⟩ && T.isProj p .less

/-- sorter_traits.h 96-102, 124-130: `has_comparison_projection_sort` and
`has_comparison_projection_sort_iterator`. -/
def hasCP (s : Shape) (c p : Fn) : Bool := m ⟨s, [c, p]⟩ && T.isProj p c

/-- The type of a parameter: a template parameter or a given type. -/
inductive Pat where
  | any
  | is (f : Fn)
deriving DecidableEq

/-- What an overload calls: the implementation, or `operator()(iterable)` of the facade. -/
inductive Target where
  | impl (c : Call)
  | self
deriving DecidableEq

/-- An overload: parameters, condition of its `enable_if_t`, and the call it makes, which also has to be well-formed. -/
structure Overload where
  shape : Shape
  pats : List Pat
  enabled : List Fn → Bool
  target : List Fn → Target

/-- A condition on one function. -/
def on1 (f : Fn → Bool) : List Fn → Bool
  | [x] => f x
  | _ => false

/-- A condition on two functions. -/
def on2 (f : Fn → Fn → Bool) : List Fn → Bool
  | [x, y] => f x y
  | _ => false

/-- The call of the implementation with the arguments that `g` computes. -/
def to (s : Shape) (g : List Fn → List Fn) (xs : List Fn) : Target := .impl ⟨s, g xs⟩

/-- The arguments `std::less<>{}` and a projection. -/
def lessAnd (xs : List Fn) : List Fn := .less :: xs

/-- The projection of `(compare, projection)`. -/
def dropC (xs : List Fn) : List Fn := xs.drop 1

/-- One comparison made of `std::less<>` and a projection. -/
def bakeLess : List Fn → List Fn
  | [p] => [mkpc .less p]
  | xs => xs

/-- One comparison made of the comparison and the projection. -/
def bake : List Fn → List Fn
  | [c, p] => [mkpc c p]
  | xs => xs

/-- sorter_facade.h 166-194: no function. -/
def plain : List Overload := [
  -- 169-174
  ⟨.iters, [], fun _ => true, to .iters id⟩,
  -- 176-184
  ⟨.range, [], fun _ => hasSort m, to .range id⟩,
  -- 186-194
  ⟨.range, [], fun _ => !hasSort m, to .iters id⟩]

/-- sorter_facade.h 196-252: a comparison. -/
def comparison : List Overload := [
  -- 199-213
  ⟨.iters, [.any], on1 fun c => hasC m T .iters c, to .iters id⟩,
  -- 215-229
  ⟨.range, [.any], on1 fun c => hasC m T .range c, to .range id⟩,
  -- 231-251
  ⟨.range, [.any], on1 fun c => !hasC m T .range c && hasC m T .iters c, to .iters id⟩]

/-- sorter_facade.h 253-414: a projection. -/
def projection : List Overload := [
  -- 255-274
  ⟨.iters, [.any], on1 fun p => !hasC m T .iters p && hasP m T .iters p, to .iters id⟩,
  -- 276-296
  ⟨.iters, [.any], on1 fun p => !hasP m T .iters p && hasCP m T .iters .less p, to .iters lessAnd⟩,
  -- 298-317
  ⟨.range, [.any], on1 fun p => !hasC m T .range p && hasP m T .range p, to .range id⟩,
  -- 319-344
  ⟨.range, [.any], on1 fun p => !hasC m T .range p && !hasP m T .range p && hasCP m T .range .less p,
    to .range lessAnd⟩,
  -- 346-381
  ⟨.range, [.any], on1 fun p => !hasC m T .range p && !hasC m T .iters p && !hasP m T .range p &&
    !hasCP m T .range .less p && hasP m T .iters p, to .iters id⟩,
  -- 383-414
  ⟨.range, [.any], on1 fun p => !hasP m T .range p && !hasCP m T .range .less p && !hasP m T .iters p &&
    hasCP m T .iters .less p, to .iters lessAnd⟩]

/-- sorter_facade.h 416-441 and 444-466: `std::less<>`, or `std::ranges::less`. -/
def lessOnly (l : Fn) : List Overload := [
  -- 419-427, 444-452
  ⟨.iters, [.is l], on1 fun _ => !hasC m T .iters l, to .iters fun _ => []⟩,
  -- 429-441, 454-466
  ⟨.range, [.is l], on1 fun _ => !hasC m T .iters l, fun _ => .self⟩]

/-- sorter_facade.h 469-506 and 509-543: `utility::identity`, or `std::identity`. -/
def identityOnly (i : Fn) : List Overload := [
  -- 472-486, 509-523
  ⟨.iters, [.is i], on1 fun _ => !hasP m T .iters i && !hasCP m T .iters .less i, to .iters fun _ => []⟩,
  -- 488-506, 525-543
  ⟨.range, [.is i], on1 fun _ => !hasP m T .iters i && !hasCP m T .iters .less i, fun _ => .self⟩]

/-- sorter_facade.h 546-610: a comparison and a projection. -/
def fused : List Overload := [
  -- 549-566
  ⟨.iters, [.any, .any], on2 fun c p => hasCP m T .iters c p, to .iters id⟩,
  -- 568-585
  ⟨.range, [.any, .any], on2 fun c p => hasCP m T .range c p, to .range id⟩,
  -- 587-610
  ⟨.range, [.any, .any], on2 fun c p => !hasCP m T .range c p && hasCP m T .iters c p, to .iters id⟩]

/-- sorter_facade.h 615-643, 646-674 and 818-846: `std::less<>` with an identity, `std::ranges::less` with
`std::identity`. -/
def lessIdentity (l i : Fn) : List Overload := [
  -- 615-628, 646-659, 818-831
  ⟨.iters, [.is l, .is i], on2 fun _ _ => !hasCP m T .iters l i, to .iters fun _ => []⟩,
  -- 630-643, 661-674, 833-846
  ⟨.range, [.is l, .is i], on2 fun _ _ => !hasCP m T .iters l i, fun _ => .self⟩]

/-- sorter_facade.h 677-815 and 848-986: `std::less<>`, or `std::ranges::less`, with a projection. -/
def lessProjection (l : Fn) : List Overload := [
  -- 677-692, 848-863
  ⟨.iters, [.is l, .any], on2 fun _ p => hasCP m T .iters l p, to .iters id⟩,
  -- 694-714, 865-885
  ⟨.iters, [.is l, .any], on2 fun _ p => !hasCP m T .iters l p && hasP m T .iters p, to .iters dropC⟩,
  -- 716-731, 887-902
  ⟨.range, [.is l, .any], on2 fun _ p => hasCP m T .range l p, to .range id⟩,
  -- 733-754, 904-925
  ⟨.range, [.is l, .any], on2 fun _ p => !hasCP m T .range l p && hasCP m T .iters l p, to .iters id⟩,
  -- 756-782, 927-953
  ⟨.range, [.is l, .any], on2 fun _ p => !hasCP m T .range l p && !hasCP m T .iters l p && hasP m T .range p,
    to .range dropC⟩,
  -- 784-815, 955-986
  ⟨.range, [.is l, .any], on2 fun _ p => !hasCP m T .range l p && !hasCP m T .iters l p && !hasP m T .range p &&
    hasP m T .iters p, to .iters dropC⟩]

/-- sorter_facade.h 989-1174: the projection baked into the comparison. -/
def embedded : List Overload := [
  -- 992-1014
  ⟨.iters, [.any], on1 fun p => !hasP m T .iters p && !hasCP m T .iters .less p && hasC m T .iters (.pc .less p),
    to .iters bakeLess⟩,
  -- 1017-1042
  ⟨.iters, [.any, .any], on2 fun c p => !hasCP m T .iters c p && hasC m T .iters (.pc c p), to .iters bake⟩,
  -- 1044-1072
  ⟨.range, [.any], on1 fun p => !hasP m T .iters p && !hasCP m T .iters .less p && hasC m T .range (.pc .less p),
    to .range bakeLess⟩,
  -- 1074-1112
  ⟨.range, [.any], on1 fun p => !hasP m T .iters p && !hasCP m T .iters .less p && !hasC m T .range (.pc .less p) &&
    hasC m T .iters (.pc .less p), to .iters bakeLess⟩,
  -- 1114-1139
  ⟨.range, [.any, .any], on2 fun c p => !hasCP m T .iters c p && hasC m T .range (.pc c p), to .range bake⟩,
  -- 1141-1173
  ⟨.range, [.any, .any], on2 fun c p => !hasCP m T .iters c p && !hasC m T .range (.pc c p) &&
    hasC m T .iters (.pc c p), to .iters bake⟩]

/-- All the overloads; `std20` tells whether `std::identity` and `std::ranges::less` are available. -/
def overloads (std20 : Bool) : List Overload :=
  plain m ++ comparison m T ++ projection m T ++ lessOnly m T .less ++ identityOnly m T .ident ++ fused m T ++
    lessIdentity m T .less .ident ++ lessProjection m T .less ++ embedded m T ++
    (if std20 then lessOnly m T .rless ++ identityOnly m T .sident ++ lessIdentity m T .less .sident ++
      lessIdentity m T .rless .sident ++ lessProjection m T .rless else [])

/-- Whether arguments match parameters. -/
def accepts : List Pat → List Fn → Bool
  | [], [] => true
  | .any :: ps, _ :: xs => accepts ps xs
  | .is f :: ps, x :: xs => f == x && accepts ps xs
  | _, _ => false

/-- Whether the first list of parameters is at least as specialized as the second ([temp.func.order]). -/
def atLeast : List Pat → List Pat → Bool
  | [], [] => true
  | _ :: ps, .any :: qs => atLeast ps qs
  | .is f :: ps, .is g :: qs => f == g && atLeast ps qs
  | _, _ => false

/-- What comes of a call: no viable overload, several best ones, or a call of the implementation. -/
inductive Outcome where
  | none
  | ambiguous
  | calls (c : Call)
deriving DecidableEq

/-- `operator()(iterable)` of the facade (sorter_facade.h 176-194), which the overloads with `std::less<>` and
`utility::identity` alone call: its conditions exclude each other. -/
def selfCall : Option Call :=
  if hasSort m then some ⟨.range, []⟩ else if m ⟨.iters, []⟩ then some ⟨.iters, []⟩ else .none

/-- The call an overload makes, if it is well-formed (the `decltype` of its return type). -/
def Target.call : Target → Option Call
  | .impl c => if m c then some c else .none
  | .self => selfCall m

/-- The candidate that an overload is when it matches and `t` is the call it makes, if well-formed. -/
def cand (matching : Bool) (ps : List Pat) (t : Option Call) : List (List Pat × Call) :=
  if matching then t.toList.map fun c => (ps, c) else []

/-- The viable overloads for a call, with the calls they make. -/
def viable (os : List Overload) (c : Call) : List (List Pat × Call) :=
  os.flatMap fun o =>
    cand (o.shape = c.shape && accepts o.pats c.args && o.enabled c.args) o.pats ((o.target c.args).call m)

/-- Overload resolution between viable function templates: the only one at least as specialized as all the others. -/
def best (v : List (List Pat × Call)) : Outcome :=
  match v.filter fun o => v.all fun o' => atLeast o.1 o'.1 with
  | [] => if v.isEmpty then .none else .ambiguous
  | [o] => .calls o.2
  | _ => .ambiguous

/-- The call of the implementation that a call of the facade comes to. -/
def resolve (std20 : Bool) (c : Call) : Outcome := best (viable m (overloads m T std20) c)

end CppSort.Facade
