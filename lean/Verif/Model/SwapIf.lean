import Verif.Model.Comparators
/-
Model of detail/swap_if.h: the overloads for arithmetic types.
-/
set_option autoImplicit false

namespace CppSort

/-- The comparators the overloads distinguish. -/
inductive CmpKind | less | greater | rangesLess | rangesGreater
deriving DecidableEq

/-- The projections the overloads distinguish: `utility::identity` and `std::identity`. -/
inductive IdKind | utilityIdentity | stdIdentity
deriving DecidableEq

/-- `std::min`. -/
def stdMin {T : Type} (lt : T → T → Bool) (a b : T) : T := if lt b a then b else a

/-- `std::max`. -/
def stdMax {T : Type} (lt : T → T → Bool) (a b : T) : T := if lt a b then b else a

/-- detail/swap_if.h 49-56, 68-75, 87-91, 101-105, 115-120, 129-134, 143-148, 157-162: the overloads
for integers of `w` bits, `lt` being their signed or unsigned order.  The overloads for
`std::ranges::less`/`greater` pass their comparator on unchanged. -/
def swapIfInt {w : Nat} (lt : BitVec w → BitVec w → Bool) (c : CmpKind) (p : IdKind)
    (x y : BitVec w) : Option (BitVec w × BitVec w) :=
  match c, p with
  | .less, .utilityIdentity =>
    let dx := x
    let x := stdMin lt x y
    some (x, y ^^^ (dx ^^^ x))
  | .greater, .utilityIdentity =>
    let dx := x
    let x := stdMax lt x y
    some (x, y ^^^ (dx ^^^ x))
  | .less, .stdIdentity => swapIfInt lt .less .utilityIdentity x y
  | .greater, .stdIdentity => swapIfInt lt .greater .utilityIdentity x y
  | .rangesLess, .utilityIdentity => swapIfInt lt .rangesLess .utilityIdentity x y
  | .rangesGreater, .utilityIdentity => swapIfInt lt .rangesGreater .utilityIdentity x y
  | .rangesLess, .stdIdentity => swapIfInt lt .rangesLess .utilityIdentity x y
  | .rangesGreater, .stdIdentity => swapIfInt lt .rangesGreater .utilityIdentity x y
partial_fixpoint

/-- detail/swap_if.h 58-65, 77-84, 94-98, 108-112, 122-127, 136-141, 150-155, 164-169: the overloads
for floating point types. -/
def swapIfFlt {ew mw : Nat} (c : CmpKind) (p : IdKind) (x y : Flt ew mw) :
    Option (Flt ew mw × Flt ew mw) :=
  match c, p with
  | .less, .utilityIdentity =>
    let dx := x
    let x := stdMin Flt.lt x y
    some (x, stdMax Flt.lt dx y)
  | .greater, .utilityIdentity =>
    let dx := x
    let x := stdMax Flt.lt x y
    some (x, stdMin Flt.lt dx y)
  | .less, .stdIdentity => swapIfFlt .less .utilityIdentity x y
  | .greater, .stdIdentity => swapIfFlt .greater .utilityIdentity x y
  | .rangesLess, .utilityIdentity => swapIfFlt .rangesLess .utilityIdentity x y
  | .rangesGreater, .utilityIdentity => swapIfFlt .rangesGreater .utilityIdentity x y
  | .rangesLess, .stdIdentity => swapIfFlt .rangesLess .utilityIdentity x y
  | .rangesGreater, .stdIdentity => swapIfFlt .rangesGreater .utilityIdentity x y
partial_fixpoint

end CppSort
