import Verif.Base.Wp
import Verif.Model.Pdq
import Verif.Model.Counting
import Verif.Model.Ska
/-
detail/spreadsort/integer_sort.h, detail/spreadsort/float_sort.h, detail/spreadsort/detail/common.h,
detail/spreadsort/detail/constants.h, detail/spreadsort/detail/integer_sort.h, detail/spreadsort/detail/float_sort.h,
sorters/spread_sorter/integer_spread_sorter.h, sorters/spread_sorter/float_spread_sorter.h

In this file "integer_sort.h" and "float_sort.h" are the ones in detail/spreadsort/detail.

`std::size_t` has 64 bits, `unsigned` 32. The vector `bin_cache` is a stack of arrays of iterators: a call only uses the segment
`[cache_offset, cache_end)` it has made in `size_bins` (common.h 113-130), and the calls it makes use the ones above. Here each call
has its own array, a function from indices. The same holds for the array `bin_sizes`, shared by all the calls: each call
fills it before it uses it, and does not use it any more when it calls itself.
Comparisons of integers and of floating point numbers made outside of pdqsort are not counted.
-/
set_option autoImplicit false

namespace CppSort
variable {α : Type}

/-- The value of an operation of the type `t` whose mathematical result is `x`. When `wrapv` is set, the signed operations wrap
around (`-fwrapv`); otherwise their overflow is an error, as in the standard. -/
def opOver (wrapv : Bool) (t : IntTy) (x : Int) : M α Int :=
  if t.lo ≤ x ∧ x ≤ t.hi then pure x
  else if wrapv || !t.signed then pure (t.wrap x)
  else fail .overflow

/-- `x >> d` in the type `t`: it is an error when `d` is not smaller than the number of bits. The shift of a negative number is
arithmetic (implementation-defined before C++20). -/
def shiftOver (t : IntTy) (x : Int) (d : Nat) : M α Int :=
  if d < t.bits then pure (x / 2 ^ d) else fail .overflow

/-- common.h 39-49: the loop of `rough_log_2_size`, from `result = r`; `n` is `8*sizeof(T) - r`. -/
def roughLogLoop (x : Nat) : Nat → Nat → Nat
  | 0, r => r
  | n + 1, r => if x / 2 ^ r ≠ 0 then roughLogLoop x n (r + 1) else r

/-- common.h 39-49: `rough_log_2_size`, for an unsigned type of `bits` bits. -/
def roughLog2 (bits x : Nat) : Nat := roughLogLoop x bits 0

/-- integer_sort.h 75-94: `get_log_divisor`, then the conversion to `unsigned`. `max_splits` is 11, `max_finishing_splits` 12,
`log_mean_bin_size` 2 in all the calls. -/
def logDivisor (count logRange : Nat) : Nat :=
  let d : Int := logRange - roughLog2 64 count
  let d : Int :=
    if d ≤ 0 ∧ logRange ≤ 12 then 0
    else
      let d := d + 2
      if logRange - d > 11 then logRange - 11 else d
  (d % 2 ^ 32).toNat

/-- common.h 93-95: `for (offset = min_size; offset < log_range; offset += ++result);`, the final `result`. -/
def minCountLoop (logRange offset result : Nat) : Nat :=
  if offset < logRange then minCountLoop logRange (offset + (result + 1)) (result + 1) else result
termination_by logRange - offset

/-- common.h 51-111: `get_min_count<mean, split, finish>`. -/
def minCount (mean split finish logRange : Nat) : Nat :=
  let minSize := mean + split
  if finish < minSize ∧ logRange ≤ minSize ∧ logRange ≤ 11 then
    if logRange ≤ finish then 2 ^ finish else 2 ^ logRange
  else
    let baseIterations := 11 - split
    let baseRange := (baseIterations + 1) * (11 + split) / 2 + mean
    if logRange < baseRange then
      let result := minCountLoop logRange minSize split
      if result + mean ≥ 64 then 2 ^ 63 else 2 ^ (result + mean)
    else
      let bitLength := (10 + (logRange - baseRange)) / 11 + baseIterations + minSize
      if bitLength ≥ 64 then 2 ^ 63 else 2 ^ bitLength

/-- What differs between the integer and the floating point variants.

`wrapv`: see `opOver`. `ty`: `Div_type`, the type the operations are done in. `sizeBits`: the bits of `Size_type`. `key`: the integer
of an element, the projected value converted to `Div_type` (integers) or `memcpy_cast` to it (floating point numbers).
`extremes`: `is_sorted_or_find_extremes`, the result is `none` when it returns `true`, otherwise the integers of the maximum
and of the minimum. `minCount`: `get_min_count` with the constants of the variant. `sort`: `pdqsort` with `std::less<>` and the
projection. -/
structure Spread (α : Type) where
  wrapv : Bool
  ty : IntTy
  sizeBits : Nat
  key : α → Int
  extremes : Nat → Nat → M α (Option (Int × Int))
  minCount : Nat → Nat
  sort : Nat → Nat → M α Unit

/-- integer_sort.h 112-119, float_sort.h 138-149, 204-215, 269-280: `log_divisor`, `div_min` and `bin_count`, `none` when the range is
sorted. `bin_sizes` has room for `1 << max_finishing_splits` bins (integer_sort.h 211, 228, float_sort.h 373, 388). -/
def spreadHead (c : Spread α) (first last : Nat) : M α (Option (Nat × Int × Nat)) := do
  match ← c.extremes first last with
  | none => pure none
  | some (mx, mn) =>
    let span ← opOver c.wrapv c.ty (mx - mn)
    let d := logDivisor (last - first) (roughLog2 c.sizeBits (span % 2 ^ c.sizeBits).toNat)
    let divMin ← shiftOver c.ty mn d
    let divMax ← shiftOver c.ty mx d
    let diff ← opOver c.wrapv c.ty (divMax - divMin)
    let n := ((diff + 1) % 2 ^ 32).toNat
    if n ≤ 4096 then pure (some (d, divMin, n)) else fail .deref

/-- integer_sort.h 126, 145, 147, 153, float_sort.h 65-68, 71-72, 156-157, 222-223, 287-288: the bin of the element at a position,
`(key >> log_divisor) - div_min`. It is an error when there is no such bin. -/
def binOf (c : Spread α) (d : Nat) (divMin : Int) (n : Nat) (i : Nat) : M α Nat := do
  let x ← read i
  let q ← shiftOver c.ty (c.key x) d
  let r ← opOver c.wrapv c.ty (q - divMin)
  if 0 ≤ r ∧ r < n then pure r.toNat else fail .deref

/-- integer_sort.h 124-128, float_sort.h 154-159, 220-225, 285-290, string_sort.h 191-198, 306-313: the sizes of the bins. -/
def countBins (bin : Nat → M α Nat) (last current : Nat) (sizes : Nat → Nat) : M α (Nat → Nat) := do
  if current < last then
    let b ← bin current
    countBins bin last (current + 1) (upd sizes b (sizes b + 1))
  else pure sizes
partial_fixpoint

/-- integer_sort.h 129-132, float_sort.h 160-162, 226-228, 297-318, string_sort.h 200-203, 315-318: the starts of the bins. The bin `rank j` is
the `j`-th one in memory, and `rank` is its own inverse: `bins[rank(0)] = first`,
`bins[rank(j + 1)] = bins[rank(j)] + bin_sizes[rank(j)]`. -/
def binStart (rank : Nat → Nat) (sizes : Nat → Nat) (first b : Nat) : Nat :=
  first + byteOffset (fun j => sizes (rank j)) (rank b)

/-- integer_sort.h 143-166, float_sort.h 64-87: the swaps for one position `current` of the bin `u`. -/
def spreadSwap (bin : Nat → M α Nat) (u current : Nat) (bins : Nat → Nat) : M α (Nat → Nat) := do
  let target ← bin current
  if target = u then pure bins
  else
    let b := bins target
    let bins := upd bins target (b + 1)
    let bBin ← bin b
    if bBin ≠ u then
      let c := bins bBin
      let bins := upd bins bBin (c + 1)
      let tmp ← moveOut c
      moveTo c b
      moveTo b current
      assign current tmp
      spreadSwap bin u current bins
    else
      let tmp ← moveOut b
      moveTo b current
      assign current tmp
      spreadSwap bin u current bins
partial_fixpoint

/-- integer_sort.h 141-168, float_sort.h 62-89, string_sort.h 212-222, 232-244, 326-336, 347-360: the loop over the positions of the bin `u`
from `current`. `swaps` is the inner loop. -/
def spreadBin (swaps : Nat → Nat → (Nat → Nat) → M α (Nat → Nat)) (u next current : Nat) (bins : Nat → Nat) :
    M α (Nat → Nat) := do
  if current < next then
    let bins ← swaps u current bins
    spreadBin swaps u next (current + 1) bins
  else pure (upd bins u next)
partial_fixpoint

/-- integer_sort.h 134-169, float_sort.h 92-103, 165-169, 230-235, string_sort.h 228-245, 343-361: the loop over some bins, the ends of the
bins are computed from their sizes. -/
def spreadBins (swaps : Nat → Nat → (Nat → Nat) → M α (Nat → Nat)) (sizes : Nat → Nat) :
    List Nat → Nat → (Nat → Nat) → M α (Nat → Nat)
  | [], _, bins => pure bins
  | u :: us, next, bins => do
    let next := next + sizes u
    let bins ← spreadBin swaps u next (bins u) bins
    spreadBins swaps sizes us next bins

/-- float_sort.h 320-326: the loop over all the bins, whose ends are in `bin_sizes`. -/
def spreadEnds (swaps : Nat → Nat → (Nat → Nat) → M α (Nat → Nat)) (ends : Nat → Nat) :
    List Nat → (Nat → Nat) → M α (Nat → Nat)
  | [], bins => pure bins
  | u :: us, bins => do
    let bins ← spreadBin swaps u (ends u) (bins u) bins
    spreadEnds swaps ends us bins

/-- The order of the bins of integers and positive floating point numbers, or of negative ones (`rv`). -/
def binOrder (rv : Bool) (n : Nat) : List Nat := if rv then (List.range n).reverse else List.range n

/-- The position of a bin in this order, and its inverse. -/
def binRank (rv : Bool) (n b : Nat) : Nat := if rv then n - 1 - b else b

mutual

/-- integer_sort.h 96-199 `spreadsort_rec`, float_sort.h 130-192 `positive_float_sort_rec`, 194-259 `negative_float_sort_rec` (`rv`). -/
def spreadRec (c : Spread α) (rv : Bool) (first last : Nat) : M α Unit := do
  match ← spreadHead c first last with
  | none => pure ()
  | some (d, divMin, n) =>
    let sizes ← countBins (binOf c d divMin n) last first (fun _ => 0)
    let bins := binStart (binRank rv n) sizes first
    let bins ← spreadBins (spreadSwap (binOf c d divMin n)) sizes (binOrder rv n).dropLast first bins
    let bins := upd bins (binRank rv n (n - 1)) last
    if d = 0 then pure ()
    else
      let _ ← spreadParts c rv (c.minCount d) bins (binOrder rv n) first
      pure ()
partial_fixpoint

/-- integer_sort.h 180-198, float_sort.h 180-191, 247-258, 335-361: the loop that sorts some bins. It returns the end of the last one. -/
def spreadParts (c : Spread α) (rv : Bool) (maxCount : Nat) (bins : Nat → Nat) (order : List Nat) (lastPos : Nat) :
    M α Nat := do
  match order with
  | [] => pure lastPos
  | u :: us =>
    let count := bins u - lastPos
    if count < 2 then spreadParts c rv maxCount bins us (bins u)
    else
      if count < maxCount then c.sort lastPos (bins u)
      else spreadRec c rv lastPos (bins u)
      spreadParts c rv maxCount bins us (bins u)
partial_fixpoint

end

/-! ### Integers -/

/-- integer_sort.h 56-61: the loop over the sorted beginning. The result is `none` when the whole range is sorted, otherwise the position
before the first descent. -/
def intSortedStart (key : α → Int) (last current : Nat) : M α (Option Nat) := do
  let y ← read (current + 1)
  let x ← read current
  if key y < key x then pure (some current)
  else if current + 1 = last - 1 then pure none
  else intSortedStart key last (current + 1)
partial_fixpoint

/-- integer_sort.h 66-71: the loop that finds the maximum and the minimum, from `current`. -/
def intExtremesLoop (key : α → Int) (last current mx mn : Nat) : M α (Nat × Nat) := do
  if current < last then
    let x ← read current
    let y ← read mx
    if key y < key x then intExtremesLoop key last (current + 1) current mn
    else
      let z ← read mn
      if key x < key z then intExtremesLoop key last (current + 1) mx current
      else intExtremesLoop key last (current + 1) mx mn
  else pure (mx, mn)
partial_fixpoint

/-- integer_sort.h 45-73, 111-113: `is_sorted_or_find_extremes`, then the integers of the extremes. -/
def intExtremes (key : α → Int) (first last : Nat) : M α (Option (Int × Int)) := do
  match ← intSortedStart key last first with
  | none => pure none
  | some current =>
    let (mx, mn) ← intExtremesLoop key last (current + 1) current first
    let x ← read mx
    let y ← read mn
    pure (some (key x, key y))

/-- The variant for integers: `Div_type` is the promoted type, line 94 of detail/spreadsort/integer_sort.h, `Size_type` is `std::size_t` (201-215; the overload
of lines 217-232 is for platforms where `std::size_t` is smaller). -/
def intSpread (wrapv : Bool) (t : IntTy) (key : α → Int) (branchless : Bool) : Spread α where
  wrapv := wrapv
  ty := t.promote
  sizeBits := 64
  key := key
  extremes := intExtremes key
  minCount := minCount 2 9 31
  sort := pdqsort (tick fun x y => decide (key x < key y)) branchless

/-- detail/spreadsort/integer_sort.h 82-96 `integer_sort`, integer_spread_sorter.h 33-57. `key` is the projection, to values of the type `t`. -/
def integerSpreadSort (wrapv : Bool) (t : IntTy) (key : α → Int) (branchless : Bool) (first last : Nat) : M α Unit :=
  if last - first < 1000 then pdqsort (tick fun x y => decide (key x < key y)) branchless first last
  else spreadRec (intSpread wrapv t key branchless) false first last

/-! ### Floating point numbers -/

/-- `memcpy_cast` of a floating point number to a signed integer. -/
def Flt.int {ew mw : Nat} (x : Flt ew mw) : Int :=
  if x.bits < 2 ^ (ew + mw) then x.bits else x.bits - 2 ^ (ew + mw + 1)

/-- `x >= y`. -/
def Flt.ge {ew mw : Nat} (x y : Flt ew mw) : Bool := !x.isNaN && !y.isNaN && !x.lt y

/-- float_sort.h 118-126: the loop of `is_sorted_or_find_extremes`, from `current` (already incremented). -/
def fltExtremesLoop {ew mw : Nat} (proj : α → Flt ew mw) (last current prev : Nat) (sorted : Bool) (mx mn : Int) :
    M α (Option (Int × Int)) := do
  if current < last then
    let x ← read current
    let y ← read prev
    let value := (proj x).int
    let sorted := sorted && (proj x).ge (proj y)
    if mx < value then fltExtremesLoop proj last (current + 1) current sorted value mn
    else if value < mn then fltExtremesLoop proj last (current + 1) current sorted mx value
    else fltExtremesLoop proj last (current + 1) current sorted mx mn
  else pure (if sorted then none else some (mx, mn))
partial_fixpoint

/-- float_sort.h 105-128: `is_sorted_or_find_extremes`. -/
def fltExtremes {ew mw : Nat} (proj : α → Flt ew mw) (first last : Nat) : M α (Option (Int × Int)) := do
  let x ← read first
  fltExtremesLoop proj last (first + 1) first true (proj x).int (proj x).int

/-- The variant for floating point numbers: `Div_type` is the signed integer type of their size, `Size_type` the unsigned one. -/
def fltSpread (wrapv : Bool) {ew mw : Nat} (proj : α → Flt ew mw) (branchless : Bool) : Spread α where
  wrapv := wrapv
  ty := ⟨ew + mw + 1, true⟩
  sizeBits := ew + mw + 1
  key := fun x => (proj x).int
  extremes := fltExtremes proj
  minCount := minCount 2 8 4
  sort := pdqsort (tick fun x y => (proj x).lt (proj y)) branchless

/-- float_sort.h 291-296: the number of bins of negative numbers. -/
def firstPositive (wrapv : Bool) (t : IntTy) (divMin : Int) (n : Nat) : M α Nat := do
  if divMin < 0 then
    let m ← opOver wrapv t (-divMin)
    let p := (m % 2 ^ 32).toNat
    if n < p then pure n else pure p
  else pure 0

/-- float_sort.h 297-318: the position of a bin: the bins of negative numbers come first, in reverse order. This is its own inverse. -/
def signRank (p b : Nat) : Nat := if b < p then p - 1 - b else b

/-- float_sort.h 261-362: `float_sort_rec`. In lines 320-326 `bin_sizes` has the ends of the bins: the sums of lines 305, 310 and 317. -/
def floatSortRec (c : Spread α) (first last : Nat) : M α Unit := do
  match ← spreadHead c first last with
  | none => pure ()
  | some (d, divMin, n) =>
    let sizes ← countBins (binOf c d divMin n) last first (fun _ => 0)
    let p ← firstPositive c.wrapv c.ty divMin n
    let bins := binStart (signRank p) sizes first
    let bins ← spreadEnds (spreadSwap (binOf c d divMin n)) (fun u => bins u + sizes u) (List.range n) bins
    if d = 0 then pure ()
    else
      let lastPos ← spreadParts c true (c.minCount d) bins (List.range p).reverse first
      let _ ← spreadParts c false (c.minCount d) bins (List.range' p (n - p)) lastPos
      pure ()

/-- detail/spreadsort/float_sort.h 61-72 `float_sort`, float_sort.h 364-392, float_spread_sorter.h 33-57. -/
def floatSpreadSort (wrapv : Bool) {ew mw : Nat} (proj : α → Flt ew mw) (branchless : Bool) (first last : Nat) : M α Unit :=
  if last - first < 1000 then pdqsort (tick fun x y => (proj x).lt (proj y)) branchless first last
  else floatSortRec (fltSpread wrapv proj branchless) first last

end CppSort
