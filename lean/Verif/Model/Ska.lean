import Verif.Base.Wp
import Verif.Model.Pdq
import Verif.Model.Comparators
/-
detail/ska_sort.h, sorters/ska_sorter.h

`sort_data` (lines 433-446) is a chain of `void*` that every call passes on and from which the sub-keys read the current
indices of the lists they are in: a sub-key of the model has these indices built in. A `next_sort` function pointer with
its data is a function, a null pointer is `none`. `std::size_t` and `std::ptrdiff_t` are unbounded.
-/
set_option autoImplicit false

namespace CppSort

/-! ### The types of the keys -/

/-- The types for which `is_ska_sortable` holds, ska_sort.h 913-990.

`uint`, `sint`: unsigned and signed integers of so many bytes; `uint` also for pointers, `char16_t`, `char32_t`
and the elements of a `std::string`, which compares them as unsigned numbers. `char`:
`char` and `wchar_t`, which are signed types on most platforms (elsewhere they are `uint`). `flt`: `float` and `double`, by the numbers
of bits of the exponent and of the mantissa. `pair`: `std::pair`, and `std::tuple` as nested pairs (a tuple has the sub-keys and the comparison
of the nested pair). `list`: random-access containers. -/
inductive KTy where
  | bool
  | uint (bytes : Nat)
  | sint (bytes : Nat)
  | char (bytes : Nat)
  | flt (ew mw : Nat)
  | pair (a b : KTy)
  | list (a : KTy)

/-- The values of these types. NaNs are excluded: they cannot be sorted with `<`. -/
abbrev KTy.Val : KTy → Type
  | .bool => Bool
  | .uint n => { x : Nat // x < 256 ^ n }
  | .sint n => { x : Int // -(256 ^ n : Nat) ≤ 2 * x ∧ 2 * x < (256 ^ n : Nat) }
  | .char n => { x : Int // -(256 ^ n : Nat) ≤ 2 * x ∧ 2 * x < (256 ^ n : Nat) }
  | .flt ew mw => { x : Flt ew mw // x.isNaN = false }
  | .pair a b => a.Val × b.Val
  | .list a => List a.Val

/-- `std::lexicographical_compare`. -/
def lexLess {γ : Type} (lt : γ → γ → Bool) : List γ → List γ → Bool
  | _, [] => false
  | [], _ :: _ => true
  | x :: xs, y :: ys => if lt x y then true else if lt y x then false else lexLess lt xs ys

/-- `operator==` of a container. -/
def lexEq {γ : Type} (eq : γ → γ → Bool) : List γ → List γ → Bool
  | [], [] => true
  | x :: xs, y :: ys => eq x y && lexEq eq xs ys
  | _, _ => false

/-- The built-in or standard `operator<` (`std::less<>`). -/
def KTy.less : (t : KTy) → t.Val → t.Val → Bool
  | .bool, x, y => !x && y
  | .uint _, x, y => decide (x.1 < y.1)
  | .sint _, x, y => decide (x.1 < y.1)
  | .char _, x, y => decide (x.1 < y.1)
  | .flt _ _, x, y => x.1.lt y.1
  | .pair a b, x, y => a.less x.1 y.1 || (!a.less y.1 x.1 && b.less x.2 y.2)
  | .list a, x, y => lexLess a.less x y

/-- The built-in or standard `operator==`. -/
def KTy.equal : (t : KTy) → t.Val → t.Val → Bool
  | .bool, x, y => x == y
  | .uint _, x, y => x.1 == y.1
  | .sint _, x, y => x.1 == y.1
  | .char _, x, y => x.1 == y.1
  | .flt _ _, x, y => !x.1.lt y.1 && !y.1.lt x.1
  | .pair a b, x, y => a.equal x.1 y.1 && b.equal x.2 y.2
  | .list a, x, y => lexEq a.equal x y

/-! ### The sub-keys -/

/-- ska_sort.h 54-58, 77-124: `to_unsigned_or_bool` of a signed integer. -/
def signedKey (n : Nat) (x : Int) : Nat := ((x % (256 ^ n : Nat)).toNat + 256 ^ n / 2) % 256 ^ n

/-- ska_sort.h 60-64, 71-76: `to_unsigned_or_bool` of `char` and `wchar_t`. -/
def charKey (n : Nat) (x : Int) : Nat := (x % (256 ^ n : Nat)).toNat

/-- `memcpy_cast` of a floating point number to an unsigned integer. -/
def Flt.bits {ew mw : Nat} (x : Flt ew mw) : Nat :=
  (if x.sign then 2 ^ (ew + mw) else 0) + x.expo * 2 ^ mw + x.mant

/-- ska_sort.h 126-140: `to_unsigned_or_bool` of `float` and `double`: all the bits are flipped when the sign bit is set,
the sign bit otherwise. -/
def fltKey {ew mw : Nat} (x : Flt ew mw) : Nat :=
  if x.bits / 2 ^ (ew + mw) = 1 then 2 ^ (ew + mw + 1) - 1 - x.bits else x.bits + 2 ^ (ew + mw)

/-- A sub-key of the values of a type, ska_sort.h 227-475: the type of the sub-key selects the sorter, ska_sort.h 802-846. The functions are
partial because an index can be out of the bounds of a list. `word` is an unsigned integer of so many bytes; a list has a size,
the first sub-key of each of its elements and `operator==`. -/
inductive SubKey (β : Type) where
  | bool (key : β → Option Bool)
  | word (bytes : Nat) (key : β → Option Nat)
  | list (size : β → Option Nat) (elt : Nat → SubKey β) (equal : β → β → Option Bool)

/-- ska_sort.h 322-404, 450-461, and the application of the projection: the sub-key of a part of a value. -/
def SubKey.comap {β γ : Type} (g : β → Option γ) : SubKey γ → SubKey β
  | .bool key => .bool fun x => (g x).bind key
  | .word n key => .word n fun x => (g x).bind key
  | .list size elt equal => .list (fun x => (g x).bind size) (fun i => (elt i).comap g)
      (fun x y => (g x).bind fun a => (g y).bind fun b => equal a b)

/-- `operator==` on the sub-keys of two values, ska_sort.h 715, 719. -/
def SubKey.same {β : Type} : SubKey β → β → β → Option Bool
  | .bool key, x, y => (key x).bind fun a => (key y).bind fun b => some (a == b)
  | .word _ key, x, y => (key x).bind fun a => (key y).bind fun b => some (a == b)
  | .list _ _ equal, x, y => equal x y

/-- ska_sort.h 262-475: the first sub-key of a type. That of a list is the list itself, whose elements only have their first sub-key
(`ListElementSubKey` inherits from the first sub-key of the elements and is its own `next`). -/
def KTy.first : (t : KTy) → SubKey t.Val
  | .bool => .bool some
  | .uint n => .word n fun x => some x.1
  | .sint n => .word n fun x => some (signedKey n x.1)
  | .char n => .word n fun x => some (charKey n x.1)
  | .flt ew mw => .word ((ew + mw + 1) / 8) fun x => some (fltKey x.1)
  | .pair a _ => a.first.comap fun x => some x.1
  | .list a => .list (fun x => some x.length) (fun i => a.first.comap fun x => x[i]?)
      (fun x y => some ((KTy.list a).equal x y))

/-- The other sub-keys of a type, in the order of `next`. -/
def KTy.more : (t : KTy) → List (SubKey t.Val)
  | .pair a b => a.more.map (·.comap fun x => some x.1) ++
      (b.first.comap fun x => some x.2) :: b.more.map (·.comap fun x => some x.2)
  | _ => []

/-! ### The algorithms -/

section
variable {α : Type}

/-- A `next_sort` pointer. -/
abbrev SkaNext (α : Type) := Option (Nat → Nat → M α Unit)

/-- The value of a partial function: reading out of the bounds of a list is an error. -/
def orDeref {β : Type} : Option β → M α β
  | some x => pure x
  | none => fail .deref

/-- ska_sort.h 485-499: `StdSortIfLessThanThreshold<128>`; `fb` is `StdSortFallback`. -/
def stdSortIfLess (fb : Nat → Nat → M α Unit) (first last : Nat) : M α Bool := do
  if last - first ≤ 1 then pure true
  else if 128 ≤ last - first then pure false
  else
    fb first last
    pure true

/-- ska_sort.h 511-516: `current_byte` of the element at `it`, `r` being the number of bytes after it. -/
def currentByte (key : α → Option Nat) (r it : Nat) : M α Nat := do
  let k ← orDeref (key (← read it))
  pure (k / 256 ^ r % 256)

/-- ska_sort.h 558-561, 627-630: the numbers of elements with each byte. -/
def countBytes (key : α → Option Nat) (r last it : Nat) (counts : Nat → Nat) : M α (Nat → Nat) := do
  if it ≠ last then
    let b ← currentByte key r it
    countBytes key r last (it + 1) (upd counts b (counts b + 1))
  else pure counts
partial_fixpoint

/-- ska_sort.h 565-573, 634-643: the sums of the numbers of elements. The `offset` of a byte is the sum up to it, its
`next_offset` is the sum up to the next one. The code does not set the `offset` of a byte without elements (and its `next_offset` in the first case),
and does not use it. -/
def byteOffset (counts : Nat → Nat) : Nat → Nat
  | 0 => 0
  | b + 1 => byteOffset counts b + counts b

/-- ska_sort.h 563-573, 631-643: `remaining_partitions`. -/
def usedBytes (counts : Nat → Nat) : List Nat := (List.range 256).filter (fun b => counts b ≠ 0)

/-- ska_sort.h 590-597: the search of the next block, among the ones after the current one. -/
def flagNext (offs ends : Nat → Nat) : List Nat → Option (Nat × List Nat)
  | b :: b' :: rest => if offs b ≠ ends b then some (b, b' :: rest) else flagNext offs ends (b' :: rest)
  | _ => none

/-- ska_sort.h 581-608: the loop of `american_flag_sort`. -/
def flagLoop (key : α → Option Nat) (r first last : Nat) (ends : Nat → Nat) (offs : Nat → Nat) (cur : Nat)
    (rest : List Nat) (it blockEnd : Nat) : M α Unit := do
  let b ← currentByte key r it
  if b = cur then
    if it + 1 = last - 1 then pure ()
    else if it + 1 = blockEnd then
      match flagNext offs ends rest with
      | none => pure ()
      | some (cur, rest) => flagLoop key r first last ends offs cur rest (first + offs cur) (first + ends cur)
    else flagLoop key r first last ends offs cur rest (it + 1) blockEnd
  else
    swap it (first + offs b)
    flagLoop key r first last ends (upd offs b (offs b + 1)) cur rest it blockEnd
partial_fixpoint

/-- ska_sort.h 610-624: the recursion of `american_flag_sort`, `sp` being `sort_partition`. -/
def flagParts (sp : Nat → Nat → M α Unit) (first : Nat) (ends : Nat → Nat) (start : Nat) : List Nat → M α Unit
  | [] => pure ()
  | b :: bs => do
    sp (first + start) (first + ends b)
    flagParts sp first ends (ends b) bs

/-- ska_sort.h 574-608: the permutation of the elements in `american_flag_sort`. -/
def flagPermute (key : α → Option Nat) (r first last : Nat) (counts : Nat → Nat) : M α Unit :=
  match usedBytes counts with
  | cur :: b :: rest =>
    flagLoop key r first last (fun b => byteOffset counts (b + 1)) (byteOffset counts) cur (b :: rest) first
      (first + byteOffset counts (cur + 1))
  | _ => pure ()

/-- ska_sort.h 547-625: `american_flag_sort`; `more` is the condition of line 610. -/
def americanFlagSort (sp : Nat → Nat → M α Unit) (more : Bool) (key : α → Option Nat) (r first last : Nat) :
    M α Unit := do
  let counts ← countBytes key r last first (fun _ => 0)
  flagPermute key r first last counts
  if more then flagParts sp first (fun b => byteOffset counts (b + 1)) 0 (usedBytes counts) else pure ()

/-- ska_sort.h 147-177, 655-661: the elements of a partition are sent to their partitions. -/
def skaScatter (key : α → Option Nat) (r first it : Nat) : Nat → (Nat → Nat) → M α (Nat → Nat)
  | 0, offs => pure offs
  | n + 1, offs => do
    let b ← currentByte key r it
    swap it (first + offs b)
    skaScatter key r first (it + 1) n (upd offs b (offs b + 1))

/-- ska_sort.h 648-663: the predicate given to `partition`, which changes the offsets. -/
def skaPred (key : α → Option Nat) (r first : Nat) (ends offs : Nat → Nat) (b : Nat) : M α (Bool × (Nat → Nat)) := do
  if offs b = ends b then pure (false, offs)
  else
    let offs ← skaScatter key r first (first + offs b) (ends b - offs b) offs
    pure (decide (offs b ≠ ends b), offs)

/-- ska_sort.h 646-663, partition.h 58-65: `partition` on the array of the partitions, going up. -/
def skaUp (key : α → Option Nat) (r first : Nat) (ends parts : Nat → Nat) (i j : Nat) (offs : Nat → Nat) :
    M α (Option Nat × (Nat → Nat)) := do
  if i = j then pure (none, offs)
  else
    let (b, offs) ← skaPred key r first ends offs (parts i)
    if b then skaUp key r first ends parts (i + 1) j offs
    else pure (some i, offs)
partial_fixpoint

/-- ska_sort.h 646-663, partition.h 66-70: going down. -/
def skaDown (key : α → Option Nat) (r first : Nat) (ends parts : Nat → Nat) (i j : Nat) (offs : Nat → Nat) :
    M α (Option Nat × (Nat → Nat)) := do
  if i = j - 1 then pure (none, offs)
  else
    let (b, offs) ← skaPred key r first ends offs (parts (j - 1))
    if b then pure (some (j - 1), offs)
    else skaDown key r first ends parts i (j - 1) offs
partial_fixpoint

/-- ska_sort.h 646-663, partition.h 51-75: `partition` on the array of the partitions. The result is `last_remaining`, the array and the
offsets. -/
def skaPartition (key : α → Option Nat) (r first : Nat) (ends parts : Nat → Nat) (i j : Nat) (offs : Nat → Nat) :
    M α (Nat × (Nat → Nat) × (Nat → Nat)) := do
  match ← skaUp key r first ends parts i j offs with
  | (none, offs) => pure (j, parts, offs)
  | (some i, offs) =>
    match ← skaDown key r first ends parts i j offs with
    | (none, offs) => pure (i, parts, offs)
    | (some j, offs) => skaPartition key r first ends (swp parts i j) (i + 1) j offs
partial_fixpoint

/-- ska_sort.h 644-664: the loop. The result is the array of the partitions. -/
def skaLoop (key : α → Option Nat) (r first : Nat) (ends parts : Nat → Nat) (n : Nat) (offs : Nat → Nat) :
    M α (Nat → Nat) := do
  if 1 < n then
    let (n, parts, offs) ← skaPartition key r first ends parts 0 n offs
    skaLoop key r first ends parts n offs
  else pure parts
partial_fixpoint

/-- ska_sort.h 665-675: the recursion of `ska_byte_sort`, from the last partition of the array to the first one. -/
def skaParts (sp : Nat → Nat → M α Unit) (first : Nat) (counts parts : Nat → Nat) : Nat → M α Unit
  | 0 => pure ()
  | i + 1 => do
    sp (first + byteOffset counts (parts i)) (first + byteOffset counts (parts i + 1))
    skaParts sp first counts parts i

/-- ska_sort.h 627-676: `ska_byte_sort`. The array of the partitions is a function. -/
def skaByteSort (sp : Nat → Nat → M α Unit) (more : Bool) (key : α → Option Nat) (r first last : Nat) : M α Unit := do
  let counts ← countBytes key r last first (fun _ => 0)
  let parts ← skaLoop key r first (fun b => byteOffset counts (b + 1)) ((usedBytes counts).getD · 0)
    (usedBytes counts).length (byteOffset counts)
  if more then skaParts sp first counts parts (usedBytes counts).length else pure ()

/-- ska_sort.h 533-545: `sort_partition`, `deeper` being the sorter of the next byte. Also lines 753-757 and 759-764. -/
def sortPartition (fb deeper : Nat → Nat → M α Unit) (first last : Nat) : M α Unit := do
  if ← stdSortIfLess fb first last then pure () else deeper first last

/-- ska_sort.h 506-691: `UnsignedInplaceSorter`, with `r` bytes left. Calling a null `next_sort` would be an error. -/
def wordSort (fb : Nat → Nat → M α Unit) (next : SkaNext α) (key : α → Option Nat) : Nat → Nat → Nat → M α Unit
  | 0, first, last =>
    match next with
    | some g => g first last
    | none => fail .deref
  | r + 1, first, last =>
    if last - first < 1024 then
      americanFlagSort (sortPartition fb (wordSort fb next key r)) (r != 0 || next.isSome) key r first last
    else
      skaByteSort (sortPartition fb (wordSort fb next key r)) (r != 0 || next.isSome) key r first last

/-- ska_sort.h 718-723: the first index at which the elements of two lists differ. -/
def prefixWith (same : Nat → α → α → Option Bool) (x y : α) (largest i : Nat) : M α Nat := do
  if i < largest then
    if ← orDeref (same i x y) then prefixWith same x y largest (i + 1) else pure i
  else pure largest
partial_fixpoint

/-- ska_sort.h 706-724: the loop of `CommonPrefix`. -/
def prefixLoop (size : α → Option Nat) (same : Nat → α → α → Option Bool) (x : α) (start last it largest : Nat) :
    M α Nat := do
  if it ≠ last then
    let y ← read it
    let n ← orDeref (size y)
    if n < largest ∧ n = start then pure start
    else
      if ← orDeref (same start x y) then
        let largest ← prefixWith same x y (if n < largest then n else largest) (start + 1)
        prefixLoop size same x start last (it + 1) largest
      else pure start
  else pure largest
partial_fixpoint

/-- ska_sort.h 693-726: `CommonPrefix`. -/
def commonPrefix (size : α → Option Nat) (same : Nat → α → α → Option Bool) (start first last : Nat) : M α Nat := do
  let x ← read first
  let n ← orDeref (size x)
  if n = start then pure start else prefixLoop size same x start last (first + 1) n

/-- A predicate for `partition` given by a partial function; its application is counted as a comparison. -/
def skaTest (p : α → Option Bool) (it : Nat) : M α Bool := do
  let x ← read it
  let b ← orDeref (p x)
  tick (fun _ _ => b) x x

/-- ska_sort.h 734-767: `ListInplaceSorter::sort`, from `current_index`. `sortElt i` is the `InplaceSorter` of the elements `i` of the lists
and `deeper i` is `sort_from_recursion` when `current_index` is `i`. -/
def listBody (fb : Nat → Nat → M α Unit) (next : SkaNext α) (size : α → Option Nat) (same : Nat → α → α → Option Bool)
    (sortElt : Nat → SkaNext α → Nat → Nat → M α Unit) (deeper : Nat → Nat → Nat → M α Unit) (index first last : Nat) :
    M α Unit := do
  let index ← commonPrefix size same index first last
  let mid ← partition .random (skaTest fun x => (size x).map fun n => decide (n ≤ index)) first last
  match next with
  | some g => sortPartition fb g first mid
  | none => pure ()
  sortPartition fb (sortElt index (some (deeper index))) mid last

/-- ska_sort.h 728-797: `ListInplaceSorter`, with `recursion_limit` equal to the first number plus one. -/
def listSort (fb : Nat → Nat → M α Unit) (next : SkaNext α) (size : α → Option Nat) (same : Nat → α → α → Option Bool)
    (sortElt : Nat → SkaNext α → Nat → Nat → M α Unit) : Nat → Nat → Nat → Nat → M α Unit
  | 0, index, first, last => listBody fb next size same sortElt (fun _ => fb) index first last
  | k + 1, index, first, last =>
    listBody fb next size same sortElt (fun i => listSort fb next size same sortElt k (i + 1)) index first last

/-- ska_sort.h 799-821: `InplaceSorter` for `bool`. -/
def boolSort (next : SkaNext α) (key : α → Option Bool) (first last : Nat) : M α Unit := do
  let mid ← partition .random (skaTest fun x => (key x).map (!·)) first last
  match next with
  | some g =>
    g first mid
    g mid last
  | none => pure ()

/-- ska_sort.h 501-504, 506-872: `InplaceSorter`. -/
def SubKey.sort (fb : Nat → Nat → M α Unit) (next : SkaNext α) : SubKey α → Nat → Nat → M α Unit
  | .bool key => boolSort next key
  | .word n key => wordSort fb next key n
  | .list size elt _ => listSort fb next size (fun i => (elt i).same) (fun i next => (elt i).sort fb next) 15 0

/-- ska_sort.h 874-913: `SortStarter`. -/
def skaStart (fb : Nat → Nat → M α Unit) : List (SubKey α) → Nat → Nat → M α Unit
  | [], _, _ => pure ()
  | k :: ks, first, last => do
    if ← stdSortIfLess fb first last then pure ()
    else k.sort fb (if ks.isEmpty then none else some (skaStart fb ks)) first last

/-- ska_sort.h 477-483, 915-940, ska_sorter.h: `ska_sort`, the elements being projected to keys of the type `t`. -/
def skaSort (t : KTy) (proj : α → t.Val) (branchless : Bool) (first last : Nat) : M α Unit :=
  skaStart (pdqsort (tick fun x y => t.less (proj x) (proj y)) branchless)
    ((t.first :: t.more).map (·.comap fun x => some (proj x))) first last

end
end CppSort
