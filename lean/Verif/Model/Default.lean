import Verif.Model.Hybrid
import Verif.Model.Quick
import Verif.Model.Pdq
import Verif.Model.FixedSize
/-
sorters/default_sorter.h: the composition of self_sort_adapter, hybrid_adapter and small_array_adapter called by
`cppsort::sort`.
-/
set_option autoImplicit false

namespace CppSort
variable {α : Type}

/-- What is passed to a sorter: a pair of iterators (or a container giving them), a `std::array<T, N>&` or `T (&)[N]`
(whose iterators are random-access), or a container that has the method `sort` or `stable_sort` taking the other
arguments (`std::list`, `std::forward_list`). -/
inductive Arg where
  | range (cat : Cat)
  | array (n : Nat)
  | selfSort (cat : Cat) (stable : Bool)

/-- `iterator_category_t<decltype(std::begin(iterable))>`. -/
def Arg.cat : Arg → Cat
  | .range c => c
  | .array _ => .random
  | .selfSort c _ => c

/-- The sorters given to `hybrid_adapter` in default_sorter.h 46-58. -/
inductive DefaultPart where
  | smallArray | quick | pdq
  deriving DecidableEq

/-- `iterator_category` of low_comparisons_sorter.h 70, quick_sorter.h 86 and pdq_sorter.h 59. -/
def DefaultPart.cat : DefaultPart → Cat
  | .smallArray => .random
  | .quick => .forward
  | .pdq => .random

/-- `is_in_pack<N, Indices...>` with `std::make_index_sequence<14u>` (small_array_adapter.h 70-80, any_all.h). -/
def inIndices (n : Nat) : Bool := (List.range 14).contains n

/-- Whether the `operator()` of the sorter accepts the argument: small_array_adapter.h 70-90 has only overloads for arrays whose size
is one of the indices. -/
def DefaultPart.invocable (a : Arg) : DefaultPart → Bool
  | .smallArray =>
    match a with
    | .array n => inIndices n
    | _ => false
  | .quick => true
  | .pdq => true

/-- What a call of `default_sorter` runs. -/
inductive DefaultCall where
  | method (stable : Bool)
  | part (p : DefaultPart)

/-- self_sort_adapter.h 69-107 around hybrid_adapter (default_sorter.h 46-58); `none` if the call is ill-formed. -/
def defaultCall (a : Arg) : Option DefaultCall :=
  match a with
  | .selfSort _ stable => some (.method stable)
  | a => (hybridAdapterCall DefaultPart.cat (DefaultPart.invocable a) a.cat
      [.sorter .smallArray, .sorter .quick, .sorter .pdq]).map .part

/-- `default_sorter::operator()`. The method of the container is the parameter `method`. -/
def defaultSort (cmp : α → α → M α Bool) (branchless : Bool) (method : Bool → Nat → Nat → M α Unit) (a : Arg)
    (first last : Nat) : M α Unit :=
  match defaultCall a with
  | none => fail .deref
  | some (.method stable) => method stable first last
  | some (.part .quick) => quicksort cmp a.cat first last
  | some (.part .pdq) => pdqsort cmp branchless first last
  | some (.part .smallArray) =>
    match a with
    | .array n => lowComparisonsSort cmp n first last
    | _ => fail .deref

end CppSort
