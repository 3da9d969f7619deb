import Verif.Model.Spread
/-
detail/spreadsort/detail/string_sort.h: spreadsort on strings. A string is the list of its characters, converted to the unsigned type.
`w` is the size of a character: 1 (`std::string`, `std::string_view`) or 2 (`std::wstring`, `std::wstring_view` when `wchar_t` has 2 bytes).
The vector `bin_cache` and the array `bin_sizes` are functions, see Model/Spread.
`rv` is true for `std::greater<>`.
-/
set_option autoImplicit false

namespace CppSort
variable {α : Type}

/-- string_sort.h 110-118: the loop of `offset_less_than`. -/
def offsetLoop (x y : List Nat) (u : Nat) : Bool :=
  if h : u < x.length ∧ u < y.length then
    if x[u] ≠ y[u] then decide (x[u] < y[u]) else offsetLoop x y (u + 1)
  else decide (x.length < y.length)
termination_by x.length - u

/-- string_sort.h 96-123 `offset_less_than`, 127-154 `offset_greater_than` (`rv`), which is the same with the arguments exchanged. -/
def offsetLess (rv : Bool) (offset : Nat) (x y : List Nat) : Bool :=
  if rv then offsetLoop y x offset else offsetLoop x y offset

/-- string_sort.h 63-91: the loops of `update_offset`. `next` is `nextOffset`, `step` is `step_size`: line 71 is a subtraction of natural numbers
here, the result is 0 instead of a negative number. Reading characters after the end of a string is an error. -/
def updateOffsetLoop (proj : α → List Nat) (first finish offset next step current : Nat) : M α Nat := do
  let x ← read current
  if offset < (proj x).length then
    let step' := if (proj x).length ≤ next + step then (proj x).length - next - 1 else step
    if (proj x).length ≤ next + step ∧ step' < 1 then pure next
    else
      let y ← read first
      if next + step' ≤ (proj x).length ∧ next + step' ≤ (proj y).length then
        if ((proj x).drop next).take step' ≠ ((proj y).drop next).take step' then
          if step' = 1 then pure next
          else updateOffsetLoop proj first finish offset next (if 4 < step' then 4 else 1) current
        else if current + 1 = finish then updateOffsetLoop proj first finish offset (next + step') step' first
        else updateOffsetLoop proj first finish offset next step' (current + 1)
      else fail .deref
  else if current + 1 = finish then updateOffsetLoop proj first finish offset (next + step) step first
  else updateOffsetLoop proj first finish offset next step (current + 1)
partial_fixpoint

/-- string_sort.h 51-92: `update_offset`. -/
def updateOffset (w : Nat) (proj : α → List Nat) (first finish offset : Nat) : M α Nat :=
  updateOffsetLoop proj first finish offset offset (64 / w) first

/-- string_sort.h 170-173, 283-286: the loop over the strings at the beginning that have no character at `offset`, `none` when there are only such. -/
def skipEmpty (proj : α → List Nat) (last offset current : Nat) : M α (Option Nat) := do
  let x ← read current
  if (proj x).length ≤ offset then
    if current + 1 = last then pure none else skipEmpty proj last offset (current + 1)
  else pure (some current)
partial_fixpoint

/-- string_sort.h 174-177, 288-289: the end of the last string that has a character at `offset`. -/
def skipEmptyBack (proj : α → List Nat) (offset last : Nat) : M α Nat := do
  if last = 0 then fail .deref
  else
    let x ← read (last - 1)
    if (proj x).length ≤ offset then skipEmptyBack proj offset (last - 1) else pure last
partial_fixpoint

/-- The bin of the strings that have no character at the offset. -/
def emptyBin (rv : Bool) (n : Nat) : Nat := if rv then n else 0

/-- The bin of a character. -/
def charBin (rv : Bool) (n c : Nat) : Nat := if rv then n - 1 - c else c + 1

/-- string_sort.h 192-197, 215-216, 307-312, 329-330: the bin of a string. -/
def strBin (rv : Bool) (n : Nat) (proj : α → List Nat) (offset i : Nat) : M α Nat := do
  let x ← read i
  match (proj x)[offset]? with
  | none => pure (emptyBin rv n)
  | some c => if c < n then pure (charBin rv n c) else fail .deref

/-- string_sort.h 235-238, 350-354: the bin of a string that has a character at the offset. -/
def strCharBin (rv : Bool) (n : Nat) (proj : α → List Nat) (offset i : Nat) : M α Nat := do
  let x ← read i
  match (proj x)[offset]? with
  | none => fail .deref
  | some c => if c < n then pure (charBin rv n c) else fail .deref

/-- string_sort.h 215-220, 235-242, 329-334, 350-358: the swaps for one position of a bin. -/
def spreadSwap2 (bin : Nat → M α Nat) (u current : Nat) (bins : Nat → Nat) : M α (Nat → Nat) := do
  let target ← bin current
  if target = u then pure bins
  else
    swap current (bins target)
    spreadSwap2 bin u current (upd bins target (bins target + 1))
partial_fixpoint

/-- string_sort.h 225-226, 340-341: the last character whose bin is not empty, or the first one. `k` is the index of the bin of the first one. -/
def lastBin (sizes : Nat → Nat) (k : Nat) : Nat → Nat
  | 0 => 0
  | b + 1 => if sizes (b + 1 + k) = 0 then lastBin sizes k b else b + 1

mutual

/-- string_sort.h 157-266 `string_sort_rec`, 269-382 `reverse_string_sort_rec` (`rv`). -/
def strSortRec (rv : Bool) (w : Nat) (proj : α → List Nat) (branchless : Bool) (first last offset : Nat) : M α Unit := do
  match ← skipEmpty proj last offset first with
  | none => pure ()
  | some current =>
    let finish ← skipEmptyBack proj offset last
    let offset ← updateOffset w proj current finish offset
    let first := if rv then first else current
    let last := if rv then finish else last
    let n := 256 ^ w
    let sizes ← countBins (strBin rv n proj offset) last first (fun _ => 0)
    let bins := binStart id sizes first
    let lastFull := if rv then bins n else last
    let e := emptyBin rv n
    let next := if rv then last else first + sizes 0
    let bins ← spreadBin (spreadSwap2 (strBin rv n proj offset)) e next (bins e) bins
    let k := if rv then 0 else 1
    let b := lastBin sizes k (n - 1)
    let bins ← spreadBins (spreadSwap2 (strCharBin rv n proj offset)) sizes (List.range' k b) (if rv then first else next) bins
    let bins := upd bins (b + k) lastFull
    strParts rv w proj branchless offset bins (List.range' k (b + 1)) (if rv then first else bins 0)
partial_fixpoint

/-- string_sort.h 248-265, 364-381: the loop that sorts the bins. -/
def strParts (rv : Bool) (w : Nat) (proj : α → List Nat) (branchless : Bool) (offset : Nat) (bins : Nat → Nat) (order : List Nat)
    (lastPos : Nat) : M α Unit := do
  match order with
  | [] => pure ()
  | u :: us =>
    let count := bins u - lastPos
    if count < 2 then strParts rv w proj branchless offset bins us (bins u)
    else
      if count < 256 ^ w then
        pdqsort (tick fun x y => offsetLess rv (offset + 1) (proj x) (proj y)) branchless lastPos (bins u)
      else strSortRec rv w proj branchless lastPos (bins u) (offset + 1)
      strParts rv w proj branchless offset bins us (bins u)
partial_fixpoint

end

/-- The order of `std::string` and `std::string_view`: `std::less<>` or `std::greater<>` (`rv`). -/
def strLess (rv : Bool) (x y : List Nat) : Bool :=
  if rv then lexLess (fun a b => decide (a < b)) y x else lexLess (fun a b => decide (a < b)) x y

/-- detail/spreadsort/string_sort.h 82-94 `string_sort`, 145-159 `reverse_string_sort`, detail/spreadsort/detail/string_sort.h 385-408,
string_spread_sorter.h 36-210. -/
def stringSpreadSort (rv : Bool) (w : Nat) (proj : α → List Nat) (branchless : Bool) (first last : Nat) : M α Unit :=
  if last - first < 1000 then pdqsort (tick fun x y => strLess rv (proj x) (proj y)) branchless first last
  else strSortRec rv w proj branchless first last 0

end CppSort
