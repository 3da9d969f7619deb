import Verif.Model.Rotate
import Verif.Model.NetData1
import Verif.Model.NetData2
import Verif.Model.NetData3
import Verif.Model.NetData4
import Verif.Model.NetData5
import Verif.Model.NetData6
/-
Model of fixed/sorting_network_sorter.h and utility/sorting_networks.h.
-/
set_option autoImplicit false

namespace CppSort
variable {α : Type}

/-- utility/sorting_networks.h 39-54 (`swap_index_pairs`): a compare-exchange per pair, in order.
The unrolled variant (64-125) and the unrolled bodies of `sorting_network_sorter_impl<N>` perform
the same sequence. -/
def swapIndexPairs (cmp : α → α → M α Bool) (first : Nat) : List (Nat × Nat) → M α Unit
  | [] => pure ()
  | p :: ps => do
    iterSwapIf cmp (first + p.1) (first + p.2)
    swapIndexPairs cmp first ps

/-- fixed/sorting_network_sorter.h 27-46, 86-158: the specialization for each size; the sizes 0 and
1 do nothing (detail/empty_sorter.h). -/
def netBody : Nat → List (Nat × Nat)
  | 2 => net2
  | 3 => net3
  | 4 => net4
  | 5 => net5
  | 6 => net6
  | 7 => net7
  | 8 => net8
  | 9 => net9
  | 10 => net10
  | 11 => net11
  | 12 => net12
  | 13 => net13
  | 14 => net14
  | 15 => net15
  | 16 => net16
  | 17 => net17
  | 18 => net18
  | 19 => net19
  | 20 => net20
  | 21 => net21
  | 22 => net22
  | 23 => net23
  | 24 => net24
  | 25 => net25
  | 26 => net26
  | 27 => net27
  | 28 => net28
  | 29 => net29
  | 30 => net30
  | 31 => net31
  | 32 => net32
  | 33 => net33
  | 34 => net34
  | 35 => net35
  | 36 => net36
  | 37 => net37
  | 38 => net38
  | 39 => net39
  | 40 => net40
  | 41 => net41
  | 42 => net42
  | 43 => net43
  | 44 => net44
  | 45 => net45
  | 46 => net46
  | 47 => net47
  | 48 => net48
  | 49 => net49
  | 50 => net50
  | 51 => net51
  | 52 => net52
  | 53 => net53
  | 54 => net54
  | 55 => net55
  | 56 => net56
  | 57 => net57
  | 58 => net58
  | 59 => net59
  | 60 => net60
  | 61 => net61
  | 62 => net62
  | 63 => net63
  | 64 => net64
  | _ => []

/-- The `index_pairs()` of each specialization. -/
def netIndexPairs : Nat → List (Nat × Nat)
  | 2 => netPairs2
  | 3 => netPairs3
  | 4 => netPairs4
  | 5 => netPairs5
  | 6 => netPairs6
  | 7 => netPairs7
  | 8 => netPairs8
  | 9 => netPairs9
  | 10 => netPairs10
  | 11 => netPairs11
  | 12 => netPairs12
  | 13 => netPairs13
  | 14 => netPairs14
  | 15 => netPairs15
  | 16 => netPairs16
  | 17 => netPairs17
  | 18 => netPairs18
  | 19 => netPairs19
  | 20 => netPairs20
  | 21 => netPairs21
  | 22 => netPairs22
  | 23 => netPairs23
  | 24 => netPairs24
  | 25 => netPairs25
  | 26 => netPairs26
  | 27 => netPairs27
  | 28 => netPairs28
  | 29 => netPairs29
  | 30 => netPairs30
  | 31 => netPairs31
  | 32 => netPairs32
  | 33 => netPairs33
  | 34 => netPairs34
  | 35 => netPairs35
  | 36 => netPairs36
  | 37 => netPairs37
  | 38 => netPairs38
  | 39 => netPairs39
  | 40 => netPairs40
  | 41 => netPairs41
  | 42 => netPairs42
  | 43 => netPairs43
  | 44 => netPairs44
  | 45 => netPairs45
  | 46 => netPairs46
  | 47 => netPairs47
  | 48 => netPairs48
  | 49 => netPairs49
  | 50 => netPairs50
  | 51 => netPairs51
  | 52 => netPairs52
  | 53 => netPairs53
  | 54 => netPairs54
  | 55 => netPairs55
  | 56 => netPairs56
  | 57 => netPairs57
  | 58 => netPairs58
  | 59 => netPairs59
  | 60 => netPairs60
  | 61 => netPairs61
  | 62 => netPairs62
  | 63 => netPairs63
  | 64 => netPairs64
  | _ => []

/-- fixed/sorting_network_sorter.h 48-51: `sorting_network_sorter<N>`; `last` is not used. -/
def networkSort (cmp : α → α → M α Bool) (N first _last : Nat) : M α Unit :=
  swapIndexPairs cmp first (netBody N)

end CppSort
