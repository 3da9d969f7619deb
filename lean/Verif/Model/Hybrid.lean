import Verif.Model.Rotate
/-
adapters/hybrid_adapter.h: choice of a sorter at compile time. A sorter is any object `σ`; its traits
are functions of it.
-/
set_option autoImplicit false

namespace CppSort
variable {σ : Type}

/-- `iterator_category_value` (hybrid_adapter.h 46-59). -/
def Cat.value : Cat → Nat
  | .forward => 0
  | .bidirectional => 1
  | .random => 2

/-- `std::common_type_t` of two of the three iterator tags, which derive from each other. -/
def Cat.common (a b : Cat) : Cat := if a.value ≤ b.value then a else b

/-- The index of the leaf of the `i`th sorter out of `n` (hybrid_adapter.h 141-151). -/
def leafIndex (n : Nat) (cat : Cat) (i : Nat) : Nat := n * cat.value + n - i - 1

/-- The leaves, with their indices (hybrid_adapter.h 141-151); `i` is the position of the first one. -/
def hybridLeaves (cat : σ → Cat) (n : Nat) : Nat → List σ → List (Nat × σ)
  | _, [] => []
  | i, s :: ss => (leafIndex n (cat s) i, s) :: hybridLeaves cat n (i + 1) ss

/-- `choice_for_it` (hybrid_adapter.h 62-67): the rank of the tag object. -/
def choiceForIt (c : Cat) (n : Nat) : Nat := (c.value + 1) * n - 1

/-- Overload resolution between the `operator()` of the leaves (hybrid_adapter.h 95-100, 115-119). A leaf
with index `k` is viable for the tag `choice<m>` if `choice<k>` is `choice<m>` or one of its bases
(hybrid_adapter.h 36-43), that is if `k ≤ m`, and if the sorter can be called with the other arguments.
The conversion to `choice<k>` is better than the one to `choice<k'>` if `k > k'`. The call is ill-formed
when no viable candidate is better than all the other ones. -/
def resolve (invocable : σ → Bool) (m : Nat) (leaves : List (Nat × σ)) : Option σ :=
  let viable := leaves.filter fun l => decide (l.1 ≤ m) && invocable l.2
  match viable.filter fun l => viable.all fun l' => decide (l'.1 ≤ l.1) with
  | [l] => some l.2
  | _ => none

/-- `hybrid_adapter_impl::operator()` (hybrid_adapter.h 248-277) for iterators of category `c`. -/
def hybridCall (cat : σ → Cat) (invocable : σ → Bool) (c : Cat) (sorters : List σ) : Option σ :=
  resolve invocable (choiceForIt c sorters.length) (hybridLeaves cat sorters.length 0 sorters)

/-- The type `hybrid_adapter<...>`, whose arguments may be `hybrid_adapter`s. -/
inductive Nest (σ : Type) where
  | sorter (s : σ)
  | hybrid (args : List (Nest σ))

mutual
/-- A measure for `flattenFold`. -/
def Nest.weight : Nest σ → Nat
  | .sorter _ => 1
  | .hybrid args => 1 + Nest.weights args
/-- A measure for `flattenFold`. -/
def Nest.weights : List (Nest σ) → Nat
  | [] => 0
  | t :: ts => t.weight + Nest.weights ts
end

theorem Nest.weights_append (ts us : List (Nest σ)) :
    Nest.weights (ts ++ us) = Nest.weights ts + Nest.weights us := by
  induction ts with
  | nil => simp [Nest.weights]
  | cons t ts ih => rw [List.cons_append, Nest.weights, Nest.weights, ih]; omega

/-- `flatten_fold` (hybrid_adapter.h 303-338): the list of types, and the accumulator. -/
def flattenFold : List (Nest σ) → List σ → List σ
  | [], acc => acc
  | .hybrid inner :: rest, acc => flattenFold (inner ++ rest) acc
  | .sorter s :: rest, acc => flattenFold rest (acc ++ [s])
termination_by ts _ => Nest.weights ts
decreasing_by
  · rw [Nest.weights_append, Nest.weights, Nest.weight]; omega
  · rw [Nest.weights, Nest.weight]; omega

mutual
/-- The sorters stored in an object of such a type: the constructor concatenates the tuples of the
arguments (hybrid_adapter.h 344-402); a nested `hybrid_adapter` already stores its sorters flat
(`get_flat_tuple`, 375-395). -/
def Nest.flatTuple : Nest σ → List σ
  | .sorter s => [s]
  | .hybrid args => Nest.flatTuples args
/-- `std::tuple_cat` of the tuples of the arguments. -/
def Nest.flatTuples : List (Nest σ) → List σ
  | [] => []
  | t :: ts => t.flatTuple ++ Nest.flatTuples ts
end

/-- A call of `hybrid_adapter<args...>` (hybrid_adapter.h 344-352): its base class is the
implementation for the flattened list. -/
def hybridAdapterCall (cat : σ → Cat) (invocable : σ → Bool) (c : Cat) (args : List (Nest σ)) : Option σ :=
  hybridCall cat invocable c (flattenFold args [])

/-- `check_iterator_category` (checkers.h 21-40): the common type of the categories. -/
def hybridCategory (cat : σ → Cat) : List σ → Option Cat
  | [] => none
  | s :: ss => some (ss.foldl (fun c s => c.common (cat s)) (cat s))

/-- `check_is_always_stable` (checkers.h 42-62). -/
def hybridAlwaysStable (stable : σ → Bool) (sorters : List σ) : Bool := sorters.all stable

/-- `is_stable<hybrid_adapter<...>(Args...)>` (hybrid_adapter.h 102-108, 280-297, 408-412): the stability of
the sorter chosen by the same overload resolution. -/
def hybridIsStable (cat : σ → Cat) (invocable stable : σ → Bool) (c : Cat) (args : List (Nest σ)) :
    Option Bool :=
  (hybridAdapterCall cat invocable c args).map stable

/-- stable_adapter_hybrid_adapter.h 16-45: `stable_adapter<hybrid_adapter<Sorters...>>` is the
`hybrid_adapter` of the stable versions (`stable_t`) of the sorters. -/
def stableHybrid (stableT : σ → σ) (sorters : List σ) : List (Nest σ) :=
  sorters.map fun s => .sorter (stableT s)

end CppSort
