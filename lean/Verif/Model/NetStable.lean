import Verif.Model.Network
/-
Model of the stability traits of sorting_network_sorter<N>.
-/
set_option autoImplicit false

namespace CppSort

/-- fixed/sorting_network_sorter.h 54-73, detail/sorting_network/sort2.h 42-47, sort3.h 46-51:
`sorter_traits<sorting_network_sorter<N>>::is_always_stable`, the primary template and its four
specializations. -/
def networkAlwaysStable : Nat → Bool
  | 0 => true
  | 1 => true
  | 2 => true
  | 3 => true
  | _ => false

end CppSort
