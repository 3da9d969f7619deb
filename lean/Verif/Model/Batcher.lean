import Verif.Model.Network
/-
Model of fixed/merge_exchange_network_sorter.h and fixed/odd_even_merge_network_sorter.h.
Index types are unbounded (the code uses `std::ptrdiff_t`).
-/
set_option autoImplicit false

namespace CppSort
variable {α : Type}

/-- detail/bitops.h 94-102 (`ceil_log2`): the loop. -/
def ceilLog2Loop (n log : Nat) : Nat :=
  if n = 0 then log else ceilLog2Loop (n / 2) (log + 1)
termination_by n

/-- detail/bitops.h 91-103 (`ceil_log2`). -/
def ceilLog2 (n : Nat) : Nat := ceilLog2Loop (n - 1) 0

/-- fixed/merge_exchange_network_sorter.h 85-90: the pairs of one pass. -/
def mePass (n p r d : Nat) : List (Nat × Nat) :=
  ((List.range (n - d)).filter fun i => i &&& p == r).map fun i => (i, i + d)

/-- fixed/merge_exchange_network_sorter.h 84-94: `while (d > 0)`.  `q - p` is negative in the code
when it is truncated here: the loop stops in both cases. -/
def meWhile (n p q r d : Nat) : List (Nat × Nat) :=
  if d = 0 then [] else mePass n p r d ++ meWhile n p (q / 2) p (q - p)
termination_by (q, d)
decreasing_by
  by_cases hq : q = 0
  · subst hq
    simp only [Nat.zero_div, Nat.zero_sub]
    exact Prod.Lex.right _ (by omega)
  · exact Prod.Lex.left _ _ (by omega)

/-- fixed/merge_exchange_network_sorter.h 79-95: the loop on `p`. -/
def meFor (n t p : Nat) : List (Nat × Nat) :=
  if p = 0 then [] else meWhile n p (1 <<< (t - 1)) 0 p ++ meFor n t (p / 2)
termination_by p

/-- fixed/merge_exchange_network_sorter.h 69-98, 119-127 (`index_pairs`; the specializations for 0
and 1 return no pair). -/
def mergeExchangePairs (n : Nat) : List (Nat × Nat) :=
  if n < 2 then [] else meFor n (ceilLog2 n) (1 <<< (ceilLog2 n - 1))

/-- fixed/merge_exchange_network_sorter.h 49-58: the same passes, counted. -/
def meWhileCount (n p q r d nb : Nat) : Nat :=
  if d = 0 then nb
  else meWhileCount n p (q / 2) p (q - p)
    ((List.range (n - d)).foldl (fun nb i => if i &&& p == r then nb + 1 else nb) nb)
termination_by (q, d)
decreasing_by
  by_cases hq : q = 0
  · subst hq
    simp only [Nat.zero_div, Nat.zero_sub]
    exact Prod.Lex.right _ (by omega)
  · exact Prod.Lex.left _ _ (by omega)

/-- fixed/merge_exchange_network_sorter.h 44-59. -/
def meForCount (n t p nb : Nat) : Nat :=
  if p = 0 then nb else meForCount n t (p / 2) (meWhileCount n p (1 <<< (t - 1)) 0 p nb)
termination_by p

/-- fixed/merge_exchange_network_sorter.h 37-62 (`merge_exchange_pairs_number`): the size of the
array in which `index_pairs` stores the pairs. -/
def mergeExchangePairsNumber (n : Nat) : Nat :=
  meForCount n (ceilLog2 n) (1 <<< (ceilLog2 n - 1)) 0

/-- fixed/merge_exchange_network_sorter.h 100-115 (`operator()`). -/
def mergeExchangeSort (cmp : α → α → M α Bool) (n first _last : Nat) : M α Unit :=
  swapIndexPairs cmp first (mergeExchangePairs n)

/-- fixed/odd_even_merge_network_sorter.h 74-81: the loop on `j`; in the code `k > 0` there. -/
def oeJ (n p k j : Nat) : List (Nat × Nat) :=
  if 0 < k ∧ j < n - k then
    ((List.range k).filter fun i => (i + j) / (p * 2) == (i + j + k) / (p * 2)).map
      (fun i => (i + j, i + j + k)) ++ oeJ n p k (j + 2 * k)
  else []
termination_by n - j

/-- fixed/odd_even_merge_network_sorter.h 73-82: the loop on `k`. -/
def oeK (n p k : Nat) : List (Nat × Nat) :=
  if k = 0 then [] else oeJ n p k (k % p) ++ oeK n p (k / 2)
termination_by k

/-- fixed/odd_even_merge_network_sorter.h 72-83: the loop on `p`; it starts at 1. -/
def oeP (n p : Nat) : List (Nat × Nat) :=
  if 0 < p ∧ p < n then oeK n p p ++ oeP n (p * 2) else []
termination_by n - p

/-- fixed/odd_even_merge_network_sorter.h 61-86, 107-115 (`index_pairs`). -/
def oddEvenMergePairs (n : Nat) : List (Nat × Nat) :=
  if n < 2 then [] else oeP n 1

/-- fixed/odd_even_merge_network_sorter.h 45-51. -/
def oeJCount (n p k j nb : Nat) : Nat :=
  if 0 < k ∧ j < n - k then
    oeJCount n p k (j + 2 * k) ((List.range k).foldl
      (fun nb i => if (i + j) / (p * 2) == (i + j + k) / (p * 2) then nb + 1 else nb) nb)
  else nb
termination_by n - j

/-- fixed/odd_even_merge_network_sorter.h 44-52. -/
def oeKCount (n p k nb : Nat) : Nat :=
  if k = 0 then nb else oeKCount n p (k / 2) (oeJCount n p k (k % p) nb)
termination_by k

/-- fixed/odd_even_merge_network_sorter.h 43-53. -/
def oePCount (n p nb : Nat) : Nat :=
  if 0 < p ∧ p < n then oePCount n (p * 2) (oeKCount n p p nb) else nb
termination_by n - p

/-- fixed/odd_even_merge_network_sorter.h 37-56 (`odd_even_merge_pairs_number`). -/
def oddEvenMergePairsNumber (n : Nat) : Nat := oePCount n 1 0

/-- fixed/odd_even_merge_network_sorter.h 88-103 (`operator()`). -/
def oddEvenMergeSort (cmp : α → α → M α Bool) (n first _last : Nat) : M α Unit :=
  swapIndexPairs cmp first (oddEvenMergePairs n)

end CppSort
