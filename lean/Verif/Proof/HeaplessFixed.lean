import Verif.Proof.Heapless
import Verif.Model.FixedSize
import Verif.Model.Network
import Verif.Model.Batcher
import Verif.Model.MergeInsertion
import Verif.Model.Splay
import Verif.Model.Spin
import Verif.Model.Cartesian
/-
The fixed-size sorters, and the parts of splay_sorter, spin_sorter and cartesian_tree_sorter after their allocation, allocate no memory.
-/
set_option autoImplicit false

namespace CppSort

instance moveChain_noAlloc {α : Type} (x0 : Nat) (x1 : Nat) (x2 : List Nat)  : NoAlloc (moveChain x0 x1 x2 : M α Nat) := by
  induction x2 generalizing x0 x1 <;> unfold moveChain <;> noalloc

instance cycleMoves_noAlloc {α : Type} (x0 : Nat) (x1 : List Nat)  : NoAlloc (cycleMoves x0 x1 : M α Unit) := by
  unfold cycleMoves
  noalloc

instance DP_exec_noAlloc {α : Type} (x0 : α → α → M α Bool) (x1 : DP) (x2 : Nat) [∀ a0 a1, NoAlloc (x0 a0 a1)] : NoAlloc (DP.exec x0 x1 x2 : M α Bool) := by
  induction x1 generalizing x2 <;> unfold DP.exec <;> noalloc
  noalloc

instance frontInsert_noAlloc {α : Type} (x0 : α → α → M α Bool) (x1 : Nat) (x2 : Nat) [∀ a0 a1, NoAlloc (x0 a0 a1)] : NoAlloc (frontInsert x0 x1 x2 : M α Unit) := by
  unfold frontInsert
  noalloc

instance lowComparisonsSort_noAlloc {α : Type} (x0 : α → α → M α Bool) (x1 : Nat) (x2 : Nat) (x3 : Nat) [∀ a0 a1, NoAlloc (x0 a0 a1)] : NoAlloc (lowComparisonsSort x0 x1 x2 x3 : M α Unit) := by
  unfold lowComparisonsSort
  noalloc

instance minmaxLoop_noAlloc {α : Type} (cmp : α → α → M α Bool) (last : Nat) [∀ a0 a1, NoAlloc (cmp a0 a1)] : ∀ b x1 x2, NoAlloc (minmaxLoop cmp b last x1 x2 : M α _) := by
  refine minmaxLoop.fixpoint_induct cmp last (fun f => ∀ x0 x1 x2, NoAlloc (f x0 x1 x2)) NoAlloc.admissible3 ?_
  intro f ih x0 x1 x2
  noalloc

instance swapUnlessSame_noAlloc {α : Type} (x0 : Nat) (x1 : Nat)  : NoAlloc (swapUnlessSame x0 x1 : M α Unit) := by
  unfold swapUnlessSame
  noalloc

instance uncheckedMinmax_noAlloc {α : Type} (x0 : α → α → M α Bool) (x1 : Nat) (x2 : Nat) [∀ a0 a1, NoAlloc (x0 a0 a1)] : NoAlloc (uncheckedMinmax x0 x1 x2 : M α (Nat × Nat)) := by
  unfold uncheckedMinmax
  noalloc

instance lowMovesPlace_noAlloc {α : Type} (x0 : Nat) (x1 : Nat) (x2 : Nat) (x3 : Nat)  : NoAlloc (lowMovesPlace x0 x1 x2 x3 : M α Bool) := by
  unfold lowMovesPlace
  noalloc

instance lowMovesSort_noAlloc {α : Type} (x0 : α → α → M α Bool) (x1 : Nat) (x2 : Nat) (x3 : Nat) [∀ a0 a1, NoAlloc (x0 a0 a1)] : NoAlloc (lowMovesSort x0 x1 x2 x3 : M α Unit) := by
  induction x1 using Nat.strongRecOn generalizing x2 x3 with
  | _ n ih =>
    unfold lowMovesSort
    noalloc
    all_goals exact ih _ (by simp only [Nat.succ_eq_add_one]; omega) _ _

instance swapIndexPairs_noAlloc {α : Type} (x0 : α → α → M α Bool) (x1 : Nat) (x2 : List (Nat × Nat)) [∀ a0 a1, NoAlloc (x0 a0 a1)] : NoAlloc (swapIndexPairs x0 x1 x2 : M α Unit) := by
  induction x2 generalizing x1 <;> unfold swapIndexPairs <;> noalloc

instance networkSort_noAlloc {α : Type} (x0 : α → α → M α Bool) (x1 : Nat) (x2 : Nat) (x3 : Nat) [∀ a0 a1, NoAlloc (x0 a0 a1)] : NoAlloc (networkSort x0 x1 x2 x3 : M α Unit) := by
  unfold networkSort
  noalloc

instance mergeExchangeSort_noAlloc {α : Type} (x0 : α → α → M α Bool) (x1 : Nat) (x2 : Nat) (x3 : Nat) [∀ a0 a1, NoAlloc (x0 a0 a1)] : NoAlloc (mergeExchangeSort x0 x1 x2 x3 : M α Unit) := by
  unfold mergeExchangeSort
  noalloc

instance oddEvenMergeSort_noAlloc {α : Type} (x0 : α → α → M α Bool) (x1 : Nat) (x2 : Nat) (x3 : Nat) [∀ a0 a1, NoAlloc (x0 a0 a1)] : NoAlloc (oddEvenMergeSort x0 x1 x2 x3 : M α Unit) := by
  unfold oddEvenMergeSort
  noalloc

instance splay_noAlloc {α : Type} (node : Option Nat)  : ∀ nd x1, NoAlloc (splay nd node x1 : M α _) := by
  refine splay.fixpoint_induct node (fun f => ∀ x0 x1, NoAlloc (f x0 x1)) NoAlloc.admissible2 ?_
  intro f ih x0 x1
  noalloc

instance splayInsert_noAlloc {α : Type} (cmp : α → α → M α Bool) (base : Nat) (nd : Nodes) (it k : Nat) [∀ a0 a1, NoAlloc (cmp a0 a1)] : ∀ x0, NoAlloc (splayInsert cmp base nd it k x0 : M α _) := by
  refine splayInsert.fixpoint_induct cmp base nd it k (fun f => ∀ x0, NoAlloc (f x0)) NoAlloc.admissible1 ?_
  intro f ih x0
  noalloc

instance splayBuild_noAlloc {α : Type} (cmp : α → α → M α Bool) (base last : Nat) [∀ a0 a1, NoAlloc (cmp a0 a1)] : ∀ nd first x2, NoAlloc (splayBuild cmp base nd first last x2 : M α _) := by
  refine splayBuild.fixpoint_induct cmp base last (fun f => ∀ x0 x1 x2, NoAlloc (f x0 x1 x2)) NoAlloc.admissible3 ?_
  intro f ih x0 x1 x2
  noalloc

instance splayLeftmost_noAlloc {α : Type} (nd : Nodes)  : ∀ x0, NoAlloc (splayLeftmost nd x0 : M α _) := by
  refine splayLeftmost.fixpoint_induct nd (fun f => ∀ x0, NoAlloc (f x0)) NoAlloc.admissible1 ?_
  intro f ih x0
  noalloc

instance splayOut_noAlloc {α : Type} (x0 : Nat) (x1 : Option Nat) (x2 : Nat)  : NoAlloc (splayOut x0 x1 x2 : M α Unit) := by
  unfold splayOut
  noalloc

instance splayMoveLoop_noAlloc {α : Type} (base : Nat)  : ∀ x0 x1 x2, NoAlloc (splayMoveLoop base x0 x1 x2 : M α _) := by
  refine splayMoveLoop.fixpoint_induct base (fun f => ∀ x0 x1 x2, NoAlloc (f x0 x1 x2)) NoAlloc.admissible3 ?_
  intro f ih x0 x1 x2
  noalloc

instance splayMoveTo_noAlloc {α : Type} (x0 : Nat) (x1 : Nodes) (x2 : Option Nat) (x3 : Nat)  : NoAlloc (splayMoveTo x0 x1 x2 x3 : M α Unit) := by
  unfold splayMoveTo
  noalloc

instance isSortedUntilLoop_noAlloc {α : Type} (cmp : α → α → M α Bool) (last : Nat) [∀ a0 a1, NoAlloc (cmp a0 a1)] : ∀ first, NoAlloc (isSortedUntilLoop cmp first last : M α _) := by
  refine isSortedUntilLoop.fixpoint_induct cmp last (fun f => ∀ x0, NoAlloc (f x0)) NoAlloc.admissible1 ?_
  intro f ih x0
  noalloc

instance isSortedUntil_noAlloc {α : Type} (x0 : α → α → M α Bool) (x1 : Nat) (x2 : Nat) [∀ a0 a1, NoAlloc (x0 a0 a1)] : NoAlloc (isSortedUntil x0 x1 x2 : M α Nat) := by
  unfold isSortedUntil
  noalloc

instance spinMerge_noAlloc {α : Type} (x0 : α → α → M α Bool) (x1 : Nat) (x2 : Nat) (x3 : Nat) (x4 : Nat) (x5 : Nat) [∀ a0 a1, NoAlloc (x0 a0 a1)] : NoAlloc (spinMerge x0 x1 x2 x3 x4 x5 : M α Unit) := by
  unfold spinMerge
  noalloc

instance spinMergeHalf_noAlloc {α : Type} (x0 : α → α → M α Bool) (x1 : Nat) (x2 : Nat) (x3 : Nat) (x4 : Nat) (x5 : Nat) [∀ a0 a1, NoAlloc (x0 a0 a1)] : NoAlloc (spinMergeHalf x0 x1 x2 x3 x4 x5 : M α Unit) := by
  unfold spinMergeHalf
  noalloc

instance insertBounds_noAlloc {α : Type} (cmp : α → α → M α Bool) (lsup data ndata : Nat) [∀ a0 a1, NoAlloc (cmp a0 a1)] : ∀ linf i, NoAlloc (insertBounds cmp linf lsup data i ndata : M α _) := by
  refine insertBounds.fixpoint_induct cmp lsup data ndata (fun f => ∀ x0 x1, NoAlloc (f x0 x1)) NoAlloc.admissible2 ?_
  intro f ih x0 x1
  noalloc

instance insertShift_noAlloc {α : Type} (x0 : List Nat) (x1 : Nat) (x2 : Nat)  : NoAlloc (insertShift x0 x1 x2 : M α Unit) := by
  induction x2 generalizing x0 x1 <;> unfold insertShift <;> noalloc

instance insertPartialSort_noAlloc {α : Type} (x0 : α → α → M α Bool) (x1 : Nat) (x2 : Nat) (x3 : Nat) (x4 : Nat) [∀ a0 a1, NoAlloc (x0 a0 a1)] : NoAlloc (insertPartialSort x0 x1 x2 x3 x4 : M α Unit) := by
  unfold insertPartialSort
  noalloc

instance swapRangesRev_noAlloc {α : Type} (last1 : Nat)  : ∀ first1 x1, NoAlloc (swapRangesRev first1 last1 x1 : M α _) := by
  refine swapRangesRev.fixpoint_induct last1 (fun f => ∀ x0 x1, NoAlloc (f x0 x1)) NoAlloc.admissible2 ?_
  intro f ih x0 x1
  noalloc

instance checkStableSort_noAlloc {α : Type} (cmp : α → α → M α Bool) [∀ a0 a1, NoAlloc (cmp a0 a1)] : ∀ x0 x1 x2 x3, NoAlloc (checkStableSort cmp x0 x1 x2 x3 : M α _) := by
  refine checkStableSort.fixpoint_induct cmp
    (fun f => ∀ x0 x1 x2 x3, NoAlloc (f x0 x1 x2 x3))
    (fun f => ∀ x0 x1 x2 x3, NoAlloc (f x0 x1 x2 x3))
    (fun f => ∀ x0 x1 x2 x3 x4, NoAlloc (f x0 x1 x2 x3 x4))
    NoAlloc.admissible4 NoAlloc.admissible4 NoAlloc.admissible5
    ?_ ?_ ?_
  all_goals (intros; noalloc)

instance rangeSort_noAlloc {α : Type} (cmp : α → α → M α Bool) [∀ a0 a1, NoAlloc (cmp a0 a1)] : ∀ x0 x1 x2 x3 x4, NoAlloc (rangeSort cmp x0 x1 x2 x3 x4 : M α _) := by
  refine rangeSort.fixpoint_induct cmp
    (fun f => ∀ x0 x1 x2 x3, NoAlloc (f x0 x1 x2 x3))
    (fun f => ∀ x0 x1 x2 x3, NoAlloc (f x0 x1 x2 x3))
    (fun f => ∀ x0 x1 x2 x3 x4, NoAlloc (f x0 x1 x2 x3 x4))
    NoAlloc.admissible4 NoAlloc.admissible4 NoAlloc.admissible5
    ?_ ?_ ?_
  all_goals (intros; noalloc)

instance sortRangeSort_noAlloc {α : Type} (cmp : α → α → M α Bool) [∀ a0 a1, NoAlloc (cmp a0 a1)] : ∀ x0 x1 x2 x3, NoAlloc (sortRangeSort cmp x0 x1 x2 x3 : M α _) := by
  refine sortRangeSort.fixpoint_induct cmp
    (fun f => ∀ x0 x1 x2 x3, NoAlloc (f x0 x1 x2 x3))
    (fun f => ∀ x0 x1 x2 x3, NoAlloc (f x0 x1 x2 x3))
    (fun f => ∀ x0 x1 x2 x3 x4, NoAlloc (f x0 x1 x2 x3 x4))
    NoAlloc.admissible4 NoAlloc.admissible4 NoAlloc.admissible5
    ?_ ?_ ?_
  all_goals (intros; noalloc)

instance cartFindParent_noAlloc {α : Type} (lt : α → α → Bool) (base : Nat) (nd : Nodes) (root : Option Nat) (it : Nat)  : ∀ x0, NoAlloc (cartFindParent lt base nd root it x0 : M α _) := by
  refine cartFindParent.fixpoint_induct lt base nd root it (fun f => ∀ x0, NoAlloc (f x0)) NoAlloc.admissible1 ?_
  intro f ih x0
  noalloc

instance cartBuild_noAlloc {α : Type} (lt : α → α → Bool) (base last : Nat)  : ∀ nd root first x3, NoAlloc (cartBuild lt base nd root first last x3 : M α _) := by
  refine cartBuild.fixpoint_induct lt base last (fun f => ∀ x0 x1 x2 x3, NoAlloc (f x0 x1 x2 x3)) NoAlloc.admissible4 ?_
  intro f ih x0 x1 x2 x3
  noalloc

instance nodeCmp_noAlloc {α : Type} (x0 : α → α → Bool) (x1 : Nat → Cell α) (x2 : Nat) (x3 : Nat)  : NoAlloc (nodeCmp x0 x1 x2 x3 : M Nat Bool) := by
  unfold nodeCmp
  noalloc

instance embed_noAlloc {α β γ : Type} (xs : List β) (m : M β γ) : NoAlloc (embed xs m : M α (γ × List β)) := by
  refine .of_step fun s => ?_
  unfold embed
  repeat' split
  all_goals (first | trivial | rfl)

instance onNodes_noAlloc {α : Type} (lt : α → α → Bool) (base : Nat) (pq : List Nat) (m : (Nat → Nat → M Nat Bool) → M Nat Unit) :
    NoAlloc (onNodes lt base pq m : M α (List Nat)) := by
  refine .mk fun s r s' h => ?_
  have : NoAlloc (do
    let r ← embed pq (m (nodeCmp lt fun i => s.cell (base + i)))
    pure r.2 : M α (List Nat)) := inferInstance
  exact this.brk s r s' h

instance cartNext_noAlloc {α : Type} (x0 : α → α → Bool) (x1 : Nat) (x2 : Nodes) (x3 : Nat) (x4 : List Nat)  : NoAlloc (cartNext x0 x1 x2 x3 x4 : M α (List Nat)) := by
  unfold cartNext
  noalloc

instance cartExtract_noAlloc {α : Type} (lt : α → α → Bool) (base : Nat) (nd : Nodes)  : ∀ x0 x1, NoAlloc (cartExtract lt base nd x0 x1 : M α _) := by
  refine cartExtract.fixpoint_induct lt base nd (fun f => ∀ x0 x1, NoAlloc (f x0 x1)) NoAlloc.admissible2 ?_
  intro f ih x0 x1
  noalloc

end CppSort
