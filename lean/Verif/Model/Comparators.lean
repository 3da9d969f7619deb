import Verif.Spec
/-
Model of comparators/{total_less,total_greater,weak_less,weak_greater,case_insensitive_less,
natural_less,flip,not_fn,projection_compare}.h and detail/floating_point_weight.h.
-/
set_option autoImplicit false

namespace CppSort

/-! ### Floating point values -/

/-- A value of an IEEE 754 binary interchange format with `ew` bits of exponent and `mw` bits of
significand: `float`, `double`.  (`long double` with an explicit leading bit is not modelled.) -/
structure Flt (ew mw : Nat) where
  sign : Bool
  expo : Nat
  mant : Nat
  hexpo : expo < 2 ^ ew
  hmant : mant < 2 ^ mw
deriving DecidableEq

namespace Flt
variable {ew mw : Nat}

/-- `std::isnan`, IEEE 754. -/
def isNaN (x : Flt ew mw) : Bool := x.expo + 1 == 2 ^ ew && x.mant != 0

/-- `std::isinf`, IEEE 754. -/
def isInf (x : Flt ew mw) : Bool := x.expo + 1 == 2 ^ ew && x.mant == 0

/-- `std::isfinite`, IEEE 754. -/
def isFinite (x : Flt ew mw) : Bool := x.expo + 1 != 2 ^ ew

/-- The absolute value of a finite number, in units of the smallest subnormal number. -/
def mag (x : Flt ew mw) : Nat :=
  if x.expo = 0 then x.mant else (2 ^ mw + x.mant) * 2 ^ (x.expo - 1)

/-- The value of a finite number, in units of the smallest subnormal number. -/
def value (x : Flt ew mw) : Int := if x.sign then - (x.mag : Int) else x.mag

/-- The built-in `<`, IEEE 754: false if an operand is a NaN, infinities at both ends. -/
def lt (x y : Flt ew mw) : Bool :=
  if x.isNaN || y.isNaN then false
  else if x.isInf then x.sign && !(y.isInf && y.sign)
  else if y.isInf then !y.sign
  else decide (x.value < y.value)

/-- The built-in `== 0`. -/
def isZero (x : Flt ew mw) : Bool := x.isFinite && x.value == 0

end Flt

variable {ew mw : Nat}

/-- detail/floating_point_weight.h 24-47 (`weak_weight`). -/
def weakWeight (x : Flt ew mw) : Int :=
  let res : Int := if x.sign then -1 else 1
  if x.isNaN then res * 2 else if x.isInf then res else 0

/-- detail/floating_point_weight.h 49-78 (`total_weight`). -/
def totalWeight (x : Flt ew mw) : Int :=
  let res : Int := if x.sign then -1 else 1
  if x.isNaN then res * 2 else if x.isInf then res else 0

/-- comparators/total_less.h 35-49. -/
def totalLess (x y : Flt ew mw) : Bool :=
  if x.isFinite && y.isFinite then
    if x.isZero && y.isZero then x.sign && !y.sign
    else x.lt y
  else decide (totalWeight x < totalWeight y)

/-- comparators/total_greater.h 34-48. -/
def totalGreater (x y : Flt ew mw) : Bool :=
  if x.isFinite && y.isFinite then
    if x.isZero && y.isZero then y.sign && !x.sign
    else y.lt x
  else decide (totalWeight x > totalWeight y)

/-- comparators/weak_less.h 27-38. -/
def weakLess (x y : Flt ew mw) : Bool :=
  if x.isFinite && y.isFinite then x.lt y
  else decide (weakWeight x < weakWeight y)

/-- comparators/weak_greater.h 27-38. -/
def weakGreater (x y : Flt ew mw) : Bool :=
  if x.isFinite && y.isFinite then y.lt x
  else decide (weakWeight x > weakWeight y)

/-- comparators/partial_less.h 23-29. -/
def partialLess (x y : Flt ew mw) : Bool := x.lt y

/-! ### Strings: lists of character codes -/

/-- `std::lexicographical_compare`. -/
def lexCompare (lt : Nat → Nat → Bool) : List Nat → List Nat → Bool
  | _, [] => false
  | [], _ :: _ => true
  | x :: xs, y :: ys =>
    if lt x y then true else if lt y x then false else lexCompare lt xs ys

/-- comparators/case_insensitive_less.h 27-41 (`char_less`), for the folding function of the
locale's `ctype` facet. -/
def charLess (tolower : Nat → Nat) (x y : Nat) : Bool := decide (tolower x < tolower y)

/-- comparators/case_insensitive_less.h 43-53, 159-165, 205-216. -/
def caseInsensitiveLess (tolower : Nat → Nat) (xs ys : List Nat) : Bool :=
  lexCompare (charLess tolower) xs ys

/-- `std::isdigit`. -/
def isDigitC (c : Nat) : Bool := decide (48 ≤ c) && decide (c ≤ 57)

/-- comparators/natural_less.h 43-50: skip leading zeros of a non-empty number. -/
def skipZeros : List Nat → Nat → List Nat × Nat
  | xs, 0 => (xs, 0)
  | [], n => ([], n)
  | c :: xs, n + 1 => if c = 48 then skipZeros xs n else (c :: xs, n + 1)

/-- comparators/natural_less.h 62-68: the loop `while (begin1 != end1)`.  Reading `*begin2` at the
end of the second sequence is undefined behaviour: `none`.  `some (inl b)` is `return b`,
`some (inr (b1, b2))` are the iterators when the loop exits. -/
def naturalEqualSizes : List Nat → List Nat → Option (Bool ⊕ (List Nat × List Nat))
  | [], ys => some (.inr ([], ys))
  | _ :: _, [] => none
  | x :: xs, y :: ys => if x ≠ y then some (.inl (decide (x < y))) else naturalEqualSizes xs ys

/-- comparators/natural_less.h 71-84: the end of the body of the main loop; `some (inr _)` starts
the next iteration. -/
def naturalTail : List Nat → List Nat → Bool ⊕ (List Nat × List Nat)
  | [], ys => .inl (!ys.isEmpty)
  | _ :: _, [] => .inl false
  | x :: xs, y :: ys => if x ≠ y then .inl (decide (x < y)) else .inr (xs, ys)

/-- comparators/natural_less.h 28-84: the body of the main loop, both sequences non-empty. -/
def naturalBody (xs ys : List Nat) : Option (Bool ⊕ (List Nat × List Nat)) :=
  let n1 := (xs.takeWhile isDigitC).length
  let n2 := (ys.takeWhile isDigitC).length
  if n1 ≠ 0 ∧ n2 ≠ 0 then
    let (xs', size1) := skipZeros xs n1
    let (ys', size2) := skipZeros ys n2
    if size1 ≠ size2 then some (.inl (decide (size1 < size2)))
    else if size1 = 0 then some (.inl false)
    else match naturalEqualSizes xs' ys' with
      | none => none
      | some (.inl b) => some (.inl b)
      | some (.inr (xs'', ys'')) => some (naturalTail xs'' ys'')
  else some (naturalTail xs ys)

/-- comparators/natural_less.h 23-88 (`natural_less_impl`), as fuel-bounded iteration: each
iteration that goes on consumes a character, so the length of the first sequence is enough fuel. -/
def naturalLoop : Nat → List Nat → List Nat → Option Bool
  | fuel, xs, ys =>
    if xs.isEmpty || ys.isEmpty then some (xs.isEmpty && !ys.isEmpty)
    else match naturalBody xs ys, fuel with
      | none, _ => none
      | some (.inl b), _ => some b
      | some (.inr (xs', ys')), fuel + 1 => naturalLoop fuel xs' ys'
      | some (.inr _), 0 => none

/-- comparators/natural_less.h 90-96 (`natural_less`). -/
def naturalLess (xs ys : List Nat) : Option Bool := naturalLoop xs.length xs ys

/-! ### flip, not_fn, projection_compare -/

/-- A projection: `utility::identity` (or `std::identity`), which the library recognizes by its
type, or any other callable. -/
inductive Proj : Type → Type → Type 1
  | identity {α : Type} : Proj α α
  | fn {α β : Type} (f : α → β) : Proj α β

/-- utility/functional.h (`as_function`): calling a projection. -/
def Proj.call {α β : Type} : Proj α β → α → β
  | .identity, x => x
  | .fn f, x => f x

/-- The callable types the library builds: `flip_t<F>`, `not_fn_t<F>`,
`projection_compare<Compare, Projection>`, or any other callable. -/
inductive Callable : Type → Type 1
  | fn {α : Type} (f : α → α → Bool) : Callable α
  | flipT {α : Type} (c : Callable α) : Callable α
  | notT {α : Type} (c : Callable α) : Callable α
  | projT {α β : Type} (c : Callable β) (p : Proj α β) : Callable α

/-- comparators/flip.h 52-83, not_fn.h 49-79, projection_compare.h 37-97: `operator()`. -/
def Callable.call {α : Type} : Callable α → α → α → Bool
  | .fn f, x, y => f x y
  | .flipT c, x, y => c.call y x
  | .notT c, x, y => !c.call x y
  | .projT c p, x, y => c.call (p.call x) (p.call y)

/-- comparators/flip.h 100-170, 180-185 (`flip_impl`, `flip`). -/
def flipCall {α : Type} : Callable α → Callable α
  | .flipT c => c
  | .notT (.flipT c) => .notT c
  | .projT c p => .projT (flipCall c) p
  | c => .flipT c

/-- comparators/not_fn.h 96-166, 171-176 (`not_fn_impl`, `not_fn`). -/
def notFnC {α : Type} : Callable α → Callable α
  | .notT c => c
  | .flipT (.notT c) => .flipT c
  | .projT c p => .projT (notFnC c) p
  | c => .notT c

/-- comparators/projection_compare.h 120-186 (`proj_comp_impl`, `make_projection_compare`). -/
def makeProjectionCompare {α β : Type} : Callable β → Proj α β → Callable α
  | c, .identity => c
  | c, .fn f => .projT c (.fn f)

end CppSort
