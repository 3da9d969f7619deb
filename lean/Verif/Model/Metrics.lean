/-
metrics/comparisons.h, metrics/projections.h, adapters/counting_adapter.h, detail/comparison_counter.h.

Here the adapted sorter is an arbitrary program, given by its steps: in a state `τ` (the range, the
memory, the local variables) it returns, does something that does not involve the function object it was
given, or calls this object and continues with the result. The function object is an arbitrary function
with a state `ω` (what calling it changes).
-/
set_option autoImplicit false

namespace CppSort
variable {τ ω a b : Type}

/-- One step of a program that was given a function object from `a` to `b`. For a comparison function `a` is
the type of pairs of arguments and `b` is `Bool`. -/
inductive Step (τ a b : Type) where
  | done
  | silent (next : τ)
  | call (x : a) (next : b → τ)

/-- Run a sorter (its steps) with the function object `f`; `none` if it does not terminate. -/
def runSorter (step : τ → Step τ a b) (f : a → ω → b × ω) (t : τ) (w : ω) : Option (τ × ω) :=
  match step t with
  | .done => some (t, w)
  | .silent t' => runSorter step f t' w
  | .call x k => runSorter step f (k (f x w).1) (f x w).2
partial_fixpoint

/-- `comparison_counter::operator()` (comparison_counter.h 29-36), `projection_counter::operator()`
(projections.h 44-51). The counter is an object outside of the function object, which only refers to it;
it counts modulo `m` (`CountType` is an unsigned type with `m` values; `m = 0`: without limit). -/
def counterCall (m : Nat) (f : a → ω → b × ω) (x : a) (w : ω × Nat) : b × (ω × Nat) :=
  let count := (w.2 + 1) % m
  let r := f x w.1
  (r.1, (r.2, count))

/-- `comparisons_impl::operator()` (comparisons.h 47-125), `counting_adapter_impl::operator()`
(counting_adapter.h 41-113), `projections_impl::operator()` (projections.h 108-127): the four overloads
only differ in the arguments passed on. Returns the final state and the count. -/
def metricCall (m : Nat) (step : τ → Step τ a b) (f : a → ω → b × ω) (t : τ) (w : ω) :
    Option ((τ × ω) × Nat) :=
  (runSorter step (counterCall m f) t (w, 0)).map fun r => ((r.1, r.2.1), r.2.2)

end CppSort
