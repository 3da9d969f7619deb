import Verif.Model.Batcher
/-
Model of detail/bitops.h and utility/make_integer_range.h.  An unsigned type of `w` value bits is
`BitVec w`; a signed type of `w` bits (two's complement) is `BitVec w` read with `toInt`.  Types
narrower than `int` are promoted to `int` in the code and converted back: for the operations of this
file the result is the one of the operation on `w` bits.
-/
set_option autoImplicit false

namespace CppSort
namespace Bitops

/-- detail/bitops.h 37-39 and 50-52: `for (i = 1 ; i <= bound ; i <<= 1) n |= (n >> i)`, from the
index `i`.  `i` is never 0 in the code; the second test makes the definition terminate. -/
def smear (w bound i : Nat) (n : BitVec w) : BitVec w :=
  if i ≤ bound ∧ 0 < i then smear w bound (2 * i) (n ||| n >>> i) else n
termination_by bound + 1 - i

/-- detail/bitops.h 31-41 (`hyperfloor`); `digits` is `w` for an unsigned type. -/
def hyperfloor (w : Nat) (n : BitVec w) : BitVec w :=
  let n := smear w (w / 2) 1 n
  n &&& ~~~(n >>> 1)

/-- detail/bitops.h 43-54 (`hyperceil`). -/
def hyperceil (w : Nat) (n : BitVec w) : BitVec w :=
  let n := n - 1#w
  smear w (w / 2) 1 n + 1#w

/-- detail/bitops.h 83-85 (`log2`, generic overload): `while (n >>= 1) ++log`. -/
def log2Loop (n log : Nat) : Nat :=
  if n / 2 ≠ 0 then log2Loop (n / 2) (log + 1) else log
termination_by n

/-- detail/bitops.h 78-87 (`log2`, generic overload), for a non-negative value: `>> 1` is the
division by 2, and the value of `log` is at most the number of bits of the type. -/
def log2Generic (n : Nat) : Nat := log2Loop n 0

/-- detail/bitops.h 58-75 (`log2`, overloads for `unsigned int`, `unsigned long` and `unsigned long
long`): `digits - clz(n) - 1`, in an unsigned type of `w` bits.  `__builtin_clz(0)` is undefined. -/
def log2Clz (w : Nat) (n : BitVec w) : Option (BitVec w) :=
  if n = 0#w then none else some (BitVec.ofNat w w - n.clz - 1#w)

/-- detail/bitops.h 21-29, 105-110 (`half`, for an integer type): the value is divided as an unsigned
integer and converted back. -/
def half (w : Nat) (n : BitVec w) : BitVec w := n / 2#w

/-- detail/bitops.h 123-130 (`has_single_bit`); the assertion of line 127 is not modelled. -/
def hasSingleBit (w : Nat) (n : BitVec w) : Bool :=
  n != 0#w && (n &&& (n - 1#w)) == 0#w

/-- detail/bitops.h 132-140 (`rotl`), for a type which is not promoted: a shift by a negative count
or by at least `w` is undefined; so is the one by `w - s` when `s = 0`. -/
def rotl (w : Nat) (x : BitVec w) (s : Int) : Option (BitVec w) :=
  if 0 < s ∧ s < w then some ((x <<< s.toNat) ||| (x >>> (w - s.toNat))) else none

/-- detail/poplar_sort.h 155-163: the size of the first poplar, computed in an unsigned type. -/
def poplarFirst (w : Nat) (size : BitVec w) : BitVec w := hyperfloor w (size + 1#w) - 1#w

/-- utility/make_integer_range.h 63-66: the number of elements, in a signed type whose operations
do not overflow; the division truncates.  `std::make_integer_sequence` is ill-formed for a negative
number of elements. -/
def rangeSizeSigned (b e step : Int) : Int :=
  (((if b < e then e - b else b - e) - 1).tdiv (if step = 0 then 1 else step)) + 1

/-- utility/make_integer_range.h 63-66: the same in an unsigned type of `w` bits which is not
promoted. -/
def rangeSizeUnsigned (w : Nat) (b e step : BitVec w) : BitVec w :=
  ((if b < e then e - b else b - e) - 1#w) / (if step = 0#w then 1#w else step) + 1#w

/-- utility/make_integer_range.h 21-50, 53-70 (`make_integer_range`), in a signed type. -/
def integerRange (b e step : Int) : Option (List Int) :=
  let size := rangeSizeSigned b e step
  let step := if step = 0 then 1 else step
  if size < 0 then none
  else some ((List.range size.toNat).map fun (k : Nat) =>
    if b < e then (k : Int) * step + b else b - (k : Int) * step)

/-- utility/make_integer_range.h 72-79 (`make_index_range`): the same in an unsigned type of `w`
bits. -/
def indexRange (w : Nat) (b e step : BitVec w) : List (BitVec w) :=
  let size := rangeSizeUnsigned w b e step
  let step := if step = 0#w then 1#w else step
  (List.range size.toNat).map fun k =>
    if b < e then BitVec.ofNat w k * step + b else b - BitVec.ofNat w k * step

end Bitops
end CppSort
