import Verif.Base.Heap
import Verif.Model.Rotate
import Verif.Model.Insertion
import Verif.Model.Quick
import Verif.Model.Heap
import Verif.Model.Pdq
import Verif.Model.Merge
import Verif.Model.QuickMerge
import Verif.Model.Poplar
import Verif.Model.Smooth
/-
Programs that allocate no memory: one lemma for each definition of the model, proved from those of the definitions it is made of.
-/
set_option autoImplicit false

namespace CppSort

instance moveRange_noAlloc {α : Type} (d1 d2 : Nat → Nat) (last : Nat)  : ∀ first x1, NoAlloc (moveRange d1 d2 first last x1 : M α _) := by
  refine moveRange.fixpoint_induct d1 d2 last (fun f => ∀ x0 x1, NoAlloc (f x0 x1)) NoAlloc.admissible2 ?_
  intro f ih x0 x1
  noalloc

instance moveBackward_noAlloc {α : Type} (first : Nat)  : ∀ x0 x1, NoAlloc (moveBackward first x0 x1 : M α _) := by
  refine moveBackward.fixpoint_induct first (fun f => ∀ x0 x1, NoAlloc (f x0 x1)) NoAlloc.admissible2 ?_
  intro f ih x0 x1
  noalloc

instance uninitMove_noAlloc {α : Type} (last : Nat)  : ∀ first x1, NoAlloc (uninitMove first last x1 : M α _) := by
  refine uninitMove.fixpoint_induct last (fun f => ∀ x0 x1, NoAlloc (f x0 x1)) NoAlloc.admissible2 ?_
  intro f ih x0 x1
  noalloc

instance destroyN_noAlloc {α : Type}  : ∀ x0 x1, NoAlloc (destroyN x0 x1 : M α _) := by
  refine destroyN.fixpoint_induct  (fun f => ∀ x0 x1, NoAlloc (f x0 x1)) NoAlloc.admissible2 ?_
  intro f ih x0 x1
  noalloc

instance swapRanges_noAlloc {α : Type} (last1 : Nat)  : ∀ first1 x1, NoAlloc (swapRanges first1 last1 x1 : M α _) := by
  refine swapRanges.fixpoint_induct last1 (fun f => ∀ x0 x1, NoAlloc (f x0 x1)) NoAlloc.admissible2 ?_
  intro f ih x0 x1
  noalloc

instance reverse_noAlloc {α : Type}  : ∀ x0 x1, NoAlloc (reverse x0 x1 : M α _) := by
  refine reverse.fixpoint_induct  (fun f => ∀ x0 x1, NoAlloc (f x0 x1)) NoAlloc.admissible2 ?_
  intro f ih x0 x1
  noalloc

instance rotateLeft_noAlloc {α : Type} (x0 : Nat) (x1 : Nat)  : NoAlloc (rotateLeft x0 x1 : M α Nat) := by
  unfold rotateLeft
  noalloc

instance rotateRight_noAlloc {α : Type} (x0 : Nat) (x1 : Nat)  : NoAlloc (rotateRight x0 x1 : M α Nat) := by
  unfold rotateRight
  noalloc

instance rotateForward1_noAlloc {α : Type} (last : Nat)  : ∀ first middle x2, NoAlloc (rotateForward1 first middle last x2 : M α _) := by
  refine rotateForward1.fixpoint_induct last (fun f => ∀ x0 x1 x2, NoAlloc (f x0 x1 x2)) NoAlloc.admissible3 ?_
  intro f ih x0 x1 x2
  noalloc

instance rotateForward2_noAlloc {α : Type} (last : Nat)  : ∀ first middle x2, NoAlloc (rotateForward2 first middle last x2 : M α _) := by
  refine rotateForward2.fixpoint_induct last (fun f => ∀ x0 x1 x2, NoAlloc (f x0 x1 x2)) NoAlloc.admissible3 ?_
  intro f ih x0 x1 x2
  noalloc

instance rotateForward_noAlloc {α : Type} (x0 : Nat) (x1 : Nat) (x2 : Nat)  : NoAlloc (rotateForward x0 x1 x2 : M α Nat) := by
  unfold rotateForward
  noalloc

instance gcdLoop_noAlloc {α : Type}  : ∀ x0 x1, NoAlloc (gcdLoop x0 x1 : M α _) := by
  refine gcdLoop.fixpoint_induct  (fun f => ∀ x0 x1, NoAlloc (f x0 x1)) NoAlloc.admissible2 ?_
  intro f ih x0 x1
  noalloc

instance rotateCycle_noAlloc {α : Type} (first last m1 p : Nat)  : ∀ x0 x1, NoAlloc (rotateCycle first last m1 p x0 x1 : M α _) := by
  refine rotateCycle.fixpoint_induct first last m1 p (fun f => ∀ x0 x1, NoAlloc (f x0 x1)) NoAlloc.admissible2 ?_
  intro f ih x0 x1
  noalloc

instance rotateCycles_noAlloc {α : Type} (first last m1 : Nat)  : ∀ x0, NoAlloc (rotateCycles first last m1 x0 : M α _) := by
  refine rotateCycles.fixpoint_induct first last m1 (fun f => ∀ x0, NoAlloc (f x0)) NoAlloc.admissible1 ?_
  intro f ih x0
  noalloc

instance rotateGcd_noAlloc {α : Type} (x0 : Nat) (x1 : Nat) (x2 : Nat)  : NoAlloc (rotateGcd x0 x1 x2 : M α Nat) := by
  unfold rotateGcd
  noalloc

instance rotate_noAlloc {α : Type} (x0 : Cfg) (x1 : Nat) (x2 : Nat) (x3 : Nat)  : NoAlloc (rotate x0 x1 x2 x3 : M α Nat) := by
  unfold rotate
  noalloc

instance iterSwapIf_noAlloc {α : Type} (x0 : α → α → M α Bool) (x1 : Nat) (x2 : Nat) [∀ a0 a1, NoAlloc (x0 a0 a1)] : NoAlloc (iterSwapIf x0 x1 x2 : M α Unit) := by
  unfold iterSwapIf
  noalloc

instance insertionShift_noAlloc {α : Type} (cmp : α → α → M α Bool) (first : Nat) (tmp : α) [∀ a0 a1, NoAlloc (cmp a0 a1)] : ∀ x0, NoAlloc (insertionShift cmp first tmp x0 : M α _) := by
  refine insertionShift.fixpoint_induct cmp first tmp (fun f => ∀ x0, NoAlloc (f x0)) NoAlloc.admissible1 ?_
  intro f ih x0
  noalloc

instance insertOne_noAlloc {α : Type} (x0 : α → α → M α Bool) (x1 : Nat) (x2 : Nat) [∀ a0 a1, NoAlloc (x0 a0 a1)] : NoAlloc (insertOne x0 x1 x2 : M α Unit) := by
  unfold insertOne
  noalloc

instance insertionLoop_noAlloc {α : Type} (cmp : α → α → M α Bool) (first last : Nat) [∀ a0 a1, NoAlloc (cmp a0 a1)] : ∀ x0, NoAlloc (insertionLoop cmp first last x0 : M α _) := by
  refine insertionLoop.fixpoint_induct cmp first last (fun f => ∀ x0, NoAlloc (f x0)) NoAlloc.admissible1 ?_
  intro f ih x0
  noalloc

instance insertionSort_noAlloc {α : Type} (x0 : α → α → M α Bool) (x1 : Nat) (x2 : Nat) [∀ a0 a1, NoAlloc (x0 a0 a1)] : NoAlloc (insertionSort x0 x1 x2 : M α Unit) := by
  unfold insertionSort
  noalloc

instance minElementLoop_noAlloc {α : Type} (cmp : α → α → M α Bool) (last : Nat) [∀ a0 a1, NoAlloc (cmp a0 a1)] : ∀ first x1, NoAlloc (minElementLoop cmp first last x1 : M α _) := by
  refine minElementLoop.fixpoint_induct cmp last (fun f => ∀ x0 x1, NoAlloc (f x0 x1)) NoAlloc.admissible2 ?_
  intro f ih x0 x1
  noalloc

instance uncheckedMinElement_noAlloc {α : Type} (x0 : α → α → M α Bool) (x1 : Nat) (x2 : Nat) [∀ a0 a1, NoAlloc (x0 a0 a1)] : NoAlloc (uncheckedMinElement x0 x1 x2 : M α Nat) := by
  unfold uncheckedMinElement
  noalloc

instance selectionSortLoop_noAlloc {α : Type} (cmp : α → α → M α Bool) (last : Nat) [∀ a0 a1, NoAlloc (cmp a0 a1)] : ∀ x0, NoAlloc (selectionSortLoop cmp last x0 : M α _) := by
  refine selectionSortLoop.fixpoint_induct cmp last (fun f => ∀ x0, NoAlloc (f x0)) NoAlloc.admissible1 ?_
  intro f ih x0
  noalloc

instance selectionSort_noAlloc {α : Type} (x0 : α → α → M α Bool) (x1 : Nat) (x2 : Nat) [∀ a0 a1, NoAlloc (x0 a0 a1)] : NoAlloc (selectionSort x0 x1 x2 : M α Unit) := by
  unfold selectionSort
  noalloc

instance flipC_noAlloc {α : Type} (x0 : α → α → M α Bool) (x1 : α) (x2 : α) [∀ a0 a1, NoAlloc (x0 a0 a1)] : NoAlloc (flipC x0 x1 x2 : M α Bool) := by
  unfold flipC
  noalloc

instance notC_noAlloc {α : Type} (x0 : α → α → M α Bool) (x1 : α) (x2 : α) [∀ a0 a1, NoAlloc (x0 a0 a1)] : NoAlloc (notC x0 x1 x2 : M α Bool) := by
  unfold notC
  noalloc

instance lowerBoundN_noAlloc {α : Type} (cmp : α → α → M α Bool) (value : α) [∀ a0 a1, NoAlloc (cmp a0 a1)] : ∀ first size, NoAlloc (lowerBoundN cmp first size value : M α _) := by
  refine lowerBoundN.fixpoint_induct cmp value (fun f => ∀ x0 x1, NoAlloc (f x0 x1)) NoAlloc.admissible2 ?_
  intro f ih x0 x1
  noalloc

instance upperBoundN_noAlloc {α : Type} (x0 : α → α → M α Bool) (x1 : Nat) (x2 : Nat) (x3 : α) [∀ a0 a1, NoAlloc (x0 a0 a1)] : NoAlloc (upperBoundN x0 x1 x2 x3 : M α Nat) := by
  unfold upperBoundN
  noalloc

instance lowerBound_noAlloc {α : Type} (x0 : α → α → M α Bool) (x1 : Nat) (x2 : Nat) (x3 : α) [∀ a0 a1, NoAlloc (x0 a0 a1)] : NoAlloc (lowerBound x0 x1 x2 x3 : M α Nat) := by
  unfold lowerBound
  noalloc

instance upperBound_noAlloc {α : Type} (x0 : α → α → M α Bool) (x1 : Nat) (x2 : Nat) (x3 : α) [∀ a0 a1, NoAlloc (x0 a0 a1)] : NoAlloc (upperBound x0 x1 x2 x3 : M α Nat) := by
  unfold upperBound
  noalloc

instance lowerMonoboundLoop_noAlloc {α : Type} (cmp : α → α → M α Bool) (value : α) [∀ a0 a1, NoAlloc (cmp a0 a1)] : ∀ first size, NoAlloc (lowerMonoboundLoop cmp first size value : M α _) := by
  refine lowerMonoboundLoop.fixpoint_induct cmp value (fun f => ∀ x0 x1, NoAlloc (f x0 x1)) NoAlloc.admissible2 ?_
  intro f ih x0 x1
  noalloc

instance lowerMonoboundN_noAlloc {α : Type} (x0 : α → α → M α Bool) (x1 : Nat) (x2 : Nat) (x3 : α) [∀ a0 a1, NoAlloc (x0 a0 a1)] : NoAlloc (lowerMonoboundN x0 x1 x2 x3 : M α Nat) := by
  unfold lowerMonoboundN
  noalloc

instance mergeMoveLoop_noAlloc {α : Type} (cmp : α → α → M α Bool) (d1 d2 dr : Nat → Nat) (last1 last2 : Nat) [∀ a0 a1, NoAlloc (cmp a0 a1)] : ∀ first1 first2 x2, NoAlloc (mergeMoveLoop cmp d1 d2 dr first1 last1 first2 last2 x2 : M α _) := by
  refine mergeMoveLoop.fixpoint_induct cmp d1 d2 dr last1 last2 (fun f => ∀ x0 x1 x2, NoAlloc (f x0 x1 x2)) NoAlloc.admissible3 ?_
  intro f ih x0 x1 x2
  noalloc

instance mergeMove_noAlloc {α : Type} (x0 : α → α → M α Bool) (x1 : Nat → Nat) (x2 : Nat → Nat) (x3 : Nat → Nat) (x4 : Nat) (x5 : Nat) (x6 : Nat) (x7 : Nat) (x8 : Nat) [∀ a0 a1, NoAlloc (x0 a0 a1)] : NoAlloc (mergeMove x0 x1 x2 x3 x4 x5 x6 x7 x8 : M α Nat) := by
  unfold mergeMove
  noalloc

instance halfMergeBlind_noAlloc {α : Type} (cmp : α → α → M α Bool) (d1 d : Nat → Nat) [∀ a0 a1, NoAlloc (cmp a0 a1)] : ∀ x0 x1 x2 x3, NoAlloc (halfMergeBlind cmp d1 d x0 x1 x2 x3 : M α _) := by
  refine halfMergeBlind.fixpoint_induct cmp d1 d (fun f => ∀ x0 x1 x2 x3, NoAlloc (f x0 x1 x2 x3)) NoAlloc.admissible4 ?_
  intro f ih x0 x1 x2 x3
  noalloc

instance halfMergeLoop_noAlloc {α : Type} (cmp : α → α → M α Bool) (d1 d : Nat → Nat) (last1 last2 : Nat) [∀ a0 a1, NoAlloc (cmp a0 a1)] : ∀ first1 first2 x2, NoAlloc (halfMergeLoop cmp d1 d first1 last1 first2 last2 x2 : M α _) := by
  refine halfMergeLoop.fixpoint_induct cmp d1 d last1 last2 (fun f => ∀ x0 x1 x2, NoAlloc (f x0 x1 x2)) NoAlloc.admissible3 ?_
  intro f ih x0 x1 x2
  noalloc

instance halfInplaceMerge_noAlloc {α : Type} (x0 : α → α → M α Bool) (x1 : Nat → Nat) (x2 : Nat → Nat) (x3 : Nat) (x4 : Nat) (x5 : Nat) (x6 : Nat) (x7 : Nat) (x8 : Nat) [∀ a0 a1, NoAlloc (x0 a0 a1)] : NoAlloc (halfInplaceMerge x0 x1 x2 x3 x4 x5 x6 x7 x8 : M α Unit) := by
  unfold halfInplaceMerge
  noalloc

instance bufferedInplaceMerge_noAlloc {α : Type} (x0 : α → α → M α Bool) (x1 : Nat) (x2 : Nat) (x3 : Nat) (x4 : Nat) (x5 : Nat) (x6 : Nat) [∀ a0 a1, NoAlloc (x0 a0 a1)] : NoAlloc (bufferedInplaceMerge x0 x1 x2 x3 x4 x5 x6 : M α Unit) := by
  unfold bufferedInplaceMerge
  noalloc

instance recShrink_noAlloc {α : Type} (cmp : α → α → M α Bool) (middle : Nat) [∀ a0 a1, NoAlloc (cmp a0 a1)] : ∀ first x1, NoAlloc (recShrink cmp first middle x1 : M α _) := by
  refine recShrink.fixpoint_induct cmp middle (fun f => ∀ x0 x1, NoAlloc (f x0 x1)) NoAlloc.admissible2 ?_
  intro f ih x0 x1
  noalloc

instance recCut_noAlloc {α : Type} (x0 : α → α → M α Bool) (x1 : Nat) (x2 : Nat) (x3 : Nat) (x4 : Nat) (x5 : Nat) [∀ a0 a1, NoAlloc (x0 a0 a1)] : NoAlloc (recCut x0 x1 x2 x3 x4 x5 : M α (Option (Nat × Nat × Nat × Nat))) := by
  unfold recCut
  noalloc

instance recmergeBi_noAlloc {α : Type} (cmp : α → α → M α Bool) (c : Cfg) (buff buffSize : Nat) [∀ a0 a1, NoAlloc (cmp a0 a1)] : ∀ first middle last len1 len2, NoAlloc (recmergeBi cmp c first middle last len1 len2 buff buffSize : M α _) := by
  refine recmergeBi.fixpoint_induct cmp c buff buffSize (fun f => ∀ x0 x1 x2 x3 x4, NoAlloc (f x0 x1 x2 x3 x4)) NoAlloc.admissible5 ?_
  intro f ih x0 x1 x2 x3 x4
  noalloc

instance mergeStep0_noAlloc {α : Type} (x0 : α → α → M α Bool) (x1 : Cfg) (x2 : Nat) (x3 : Nat) (x4 : Nat) (x5 : Nat) [∀ a0 a1, NoAlloc (x0 a0 a1)] : NoAlloc (mergeStep0 x0 x1 x2 x3 x4 x5 : M α (Nat × Nat × Nat × Nat × Nat × Nat × Nat)) := by
  unfold mergeStep0
  noalloc

instance mergeStep1_noAlloc {α : Type} (x0 : α → α → M α Bool) (x1 : Cfg) (x2 : Nat) (x3 : Nat) (x4 : Nat) (x5 : Nat) [∀ a0 a1, NoAlloc (x0 a0 a1)] : NoAlloc (mergeStep1 x0 x1 x2 x3 x4 x5 : M α (Nat × Nat × Nat × Nat × Nat × Nat × Nat)) := by
  unfold mergeStep1
  noalloc

instance recmergeFwd_noAlloc {α : Type} (cmp : α → α → M α Bool) (c : Cfg) (buff buffSize : Nat) [∀ a0 a1, NoAlloc (cmp a0 a1)] : ∀ f0 n0 f1 n1, NoAlloc (recmergeFwd cmp c f0 n0 f1 n1 buff buffSize : M α _) := by
  refine recmergeFwd.fixpoint_induct cmp c buff buffSize (fun f => ∀ x0 x1 x2 x3, NoAlloc (f x0 x1 x2 x3)) NoAlloc.admissible4 ?_
  intro f ih x0 x1 x2 x3
  noalloc

instance symmergeBsearch_noAlloc {α : Type} (cmp : α → α → M α Bool) (arr p : Nat) [∀ a0 a1, NoAlloc (cmp a0 a1)] : ∀ l r, NoAlloc (symmergeBsearch cmp arr l r p : M α _) := by
  refine symmergeBsearch.fixpoint_induct cmp arr p (fun f => ∀ x0 x1, NoAlloc (f x0 x1)) NoAlloc.admissible2 ?_
  intro f ih x0 x1
  noalloc

instance symmerge_noAlloc {α : Type} (cmp : α → α → M α Bool) (c : Cfg) (arr buff buffSize : Nat) [∀ a0 a1, NoAlloc (cmp a0 a1)] : ∀ first middle last len1 len2, NoAlloc (symmerge cmp c arr first middle last len1 len2 buff buffSize : M α _) := by
  refine symmerge.fixpoint_induct cmp c arr buff buffSize (fun f => ∀ x0 x1 x2 x3 x4, NoAlloc (f x0 x1 x2 x3 x4)) NoAlloc.admissible5 ?_
  intro f ih x0 x1 x2 x3 x4
  noalloc

instance Buf_release_noAlloc {α : Type} (x0 : Buf)  : NoAlloc (Buf.release x0 : M α Unit) := by
  unfold Buf.release
  noalloc

instance inplaceMergeBuf_noAlloc {α : Type} (x0 : α → α → M α Bool) (x1 : Cfg) (x2 : Nat) (x3 : Nat) (x4 : Nat) (x5 : Nat) (x6 : Nat) (x7 : Nat) (x8 : Nat) [∀ a0 a1, NoAlloc (x0 a0 a1)] : NoAlloc (inplaceMergeBuf x0 x1 x2 x3 x4 x5 x6 x7 x8 : M α Unit) := by
  unfold inplaceMergeBuf
  noalloc

instance skipLeft_noAlloc {α : Type} (cmp : α → α → M α Bool) (middle : Nat) [∀ a0 a1, NoAlloc (cmp a0 a1)] : ∀ first, NoAlloc (skipLeft cmp first middle : M α _) := by
  refine skipLeft.fixpoint_induct cmp middle (fun f => ∀ x0, NoAlloc (f x0)) NoAlloc.admissible1 ?_
  intro f ih x0
  noalloc

instance bubblePass_noAlloc {α : Type} (cmp : α → α → M α Bool) (size : Nat) [∀ a0 a1, NoAlloc (cmp a0 a1)] : ∀ current i, NoAlloc (bubblePass cmp current i size : M α _) := by
  refine bubblePass.fixpoint_induct cmp size (fun f => ∀ x0 x1, NoAlloc (f x0 x1)) NoAlloc.admissible2 ?_
  intro f ih x0 x1
  noalloc

instance bubbleLoop_noAlloc {α : Type} (cmp : α → α → M α Bool) (first : Nat) [∀ a0 a1, NoAlloc (cmp a0 a1)] : ∀ x0, NoAlloc (bubbleLoop cmp first x0 : M α _) := by
  refine bubbleLoop.fixpoint_induct cmp first (fun f => ∀ x0, NoAlloc (f x0)) NoAlloc.admissible1 ?_
  intro f ih x0
  noalloc

instance bubbleSort_noAlloc {α : Type} (x0 : α → α → M α Bool) (x1 : Nat) (x2 : Nat) [∀ a0 a1, NoAlloc (x0 a0 a1)] : NoAlloc (bubbleSort x0 x1 x2 : M α Unit) := by
  unfold bubbleSort
  noalloc

instance heapTopChild_noAlloc {α : Type} (x0 : α → α → M α Bool) (x1 : Nat) (x2 : Nat) (x3 : Nat) [∀ a0 a1, NoAlloc (x0 a0 a1)] : NoAlloc (heapTopChild x0 x1 x2 x3 : M α Nat) := by
  unfold heapTopChild
  noalloc

instance siftDownLoop_noAlloc {α : Type} (cmp : α → α → M α Bool) (first len : Nat) (top : α) [∀ a0 a1, NoAlloc (cmp a0 a1)] : ∀ x0 x1, NoAlloc (siftDownLoop cmp first len top x0 x1 : M α _) := by
  refine siftDownLoop.fixpoint_induct cmp first len top (fun f => ∀ x0 x1, NoAlloc (f x0 x1)) NoAlloc.admissible2 ?_
  intro f ih x0 x1
  noalloc

instance siftDown_noAlloc {α : Type} (x0 : α → α → M α Bool) (x1 : Nat) (x2 : Nat) (x3 : Nat) [∀ a0 a1, NoAlloc (x0 a0 a1)] : NoAlloc (siftDown x0 x1 x2 x3 : M α Unit) := by
  unfold siftDown
  noalloc

instance floydLoop_noAlloc {α : Type} (cmp : α → α → M α Bool) (first len : Nat) [∀ a0 a1, NoAlloc (cmp a0 a1)] : ∀ x0 x1, NoAlloc (floydLoop cmp first len x0 x1 : M α _) := by
  refine floydLoop.fixpoint_induct cmp first len (fun f => ∀ x0 x1, NoAlloc (f x0 x1)) NoAlloc.admissible2 ?_
  intro f ih x0 x1
  noalloc

instance floydSiftDown_noAlloc {α : Type} (x0 : α → α → M α Bool) (x1 : Nat) (x2 : Nat) [∀ a0 a1, NoAlloc (x0 a0 a1)] : NoAlloc (floydSiftDown x0 x1 x2 : M α Nat) := by
  unfold floydSiftDown
  noalloc

instance pushHeapLoop_noAlloc {α : Type} (cmp : α → α → M α Bool) (first : Nat) (t : α) [∀ a0 a1, NoAlloc (cmp a0 a1)] : ∀ x0 x1, NoAlloc (pushHeapLoop cmp first t x0 x1 : M α _) := by
  refine pushHeapLoop.fixpoint_induct cmp first t (fun f => ∀ x0 x1, NoAlloc (f x0 x1)) NoAlloc.admissible2 ?_
  intro f ih x0 x1
  noalloc

instance pushHeap_noAlloc {α : Type} (x0 : α → α → M α Bool) (x1 : Nat) (x2 : Nat) (x3 : Nat) [∀ a0 a1, NoAlloc (x0 a0 a1)] : NoAlloc (pushHeap x0 x1 x2 x3 : M α Unit) := by
  unfold pushHeap
  noalloc

instance popHeap_noAlloc {α : Type} (x0 : α → α → M α Bool) (x1 : Nat) (x2 : Nat) (x3 : Nat) [∀ a0 a1, NoAlloc (x0 a0 a1)] : NoAlloc (popHeap x0 x1 x2 x3 : M α Unit) := by
  unfold popHeap
  noalloc

instance makeHeapLoop_noAlloc {α : Type} (x0 : α → α → M α Bool) (x1 : Nat) (x2 : Nat) (x3 : Nat) [∀ a0 a1, NoAlloc (x0 a0 a1)] : NoAlloc (makeHeapLoop x0 x1 x2 x3 : M α Unit) := by
  induction x3 generalizing x1 x2 <;> unfold makeHeapLoop <;> noalloc

instance makeHeap_noAlloc {α : Type} (x0 : α → α → M α Bool) (x1 : Nat) (x2 : Nat) [∀ a0 a1, NoAlloc (x0 a0 a1)] : NoAlloc (makeHeap x0 x1 x2 : M α Unit) := by
  unfold makeHeap
  noalloc

instance sortHeap_noAlloc {α : Type} (cmp : α → α → M α Bool) (first : Nat) [∀ a0 a1, NoAlloc (cmp a0 a1)] : ∀ x0 x1, NoAlloc (sortHeap cmp first x0 x1 : M α _) := by
  refine sortHeap.fixpoint_induct cmp first (fun f => ∀ x0 x1, NoAlloc (f x0 x1)) NoAlloc.admissible2 ?_
  intro f ih x0 x1
  noalloc

instance heapsort_noAlloc {α : Type} (x0 : α → α → M α Bool) (x1 : Nat) (x2 : Nat) [∀ a0 a1, NoAlloc (x0 a0 a1)] : NoAlloc (heapsort x0 x1 x2 : M α Unit) := by
  unfold heapsort
  noalloc

instance minElement_noAlloc {α : Type} (x0 : α → α → M α Bool) (x1 : Nat) (x2 : Nat) [∀ a0 a1, NoAlloc (x0 a0 a1)] : NoAlloc (minElement x0 x1 x2 : M α Nat) := by
  unfold minElement
  noalloc

instance dTopChild_noAlloc {α : Type} (x0 : α → α → M α Bool) (x1 : Nat) (x2 : Nat) (x3 : Nat) (x4 : Nat) [∀ a0 a1, NoAlloc (x0 a0 a1)] : NoAlloc (dTopChild x0 x1 x2 x3 x4 : M α Nat) := by
  unfold dTopChild
  noalloc

instance dSiftDown_noAlloc {α : Type} (cmp : α → α → M α Bool) (D first last : Nat) [∀ a0 a1, NoAlloc (cmp a0 a1)] : ∀ x0, NoAlloc (dSiftDown cmp D first last x0 : M α _) := by
  refine dSiftDown.fixpoint_induct cmp D first last (fun f => ∀ x0, NoAlloc (f x0)) NoAlloc.admissible1 ?_
  intro f ih x0
  noalloc

instance dSiftUp_noAlloc {α : Type} (cmp : α → α → M α Bool) (D first : Nat) [∀ a0 a1, NoAlloc (cmp a0 a1)] : ∀ x0, NoAlloc (dSiftUp cmp D first x0 : M α _) := by
  refine dSiftUp.fixpoint_induct cmp D first (fun f => ∀ x0, NoAlloc (f x0)) NoAlloc.admissible1 ?_
  intro f ih x0
  noalloc

instance pushDAryHeap_noAlloc {α : Type} (x0 : α → α → M α Bool) (x1 : Nat) (x2 : Nat) (x3 : Nat) [∀ a0 a1, NoAlloc (x0 a0 a1)] : NoAlloc (pushDAryHeap x0 x1 x2 x3 : M α Unit) := by
  unfold pushDAryHeap
  noalloc

instance popDAryHeap_noAlloc {α : Type} (x0 : α → α → M α Bool) (x1 : Nat) (x2 : Nat) (x3 : Nat) [∀ a0 a1, NoAlloc (x0 a0 a1)] : NoAlloc (popDAryHeap x0 x1 x2 x3 : M α Unit) := by
  unfold popDAryHeap
  noalloc

instance makeDAryHeapLoop_noAlloc {α : Type} (cmp : α → α → M α Bool) (D first last : Nat) [∀ a0 a1, NoAlloc (cmp a0 a1)] : ∀ x0, NoAlloc (makeDAryHeapLoop cmp D first last x0 : M α _) := by
  refine makeDAryHeapLoop.fixpoint_induct cmp D first last (fun f => ∀ x0, NoAlloc (f x0)) NoAlloc.admissible1 ?_
  intro f ih x0
  noalloc

instance makeDAryHeap_noAlloc {α : Type} (x0 : α → α → M α Bool) (x1 : Nat) (x2 : Nat) (x3 : Nat) [∀ a0 a1, NoAlloc (x0 a0 a1)] : NoAlloc (makeDAryHeap x0 x1 x2 x3 : M α Unit) := by
  unfold makeDAryHeap
  noalloc

instance sortDAryHeap_noAlloc {α : Type} (cmp : α → α → M α Bool) (D first : Nat) [∀ a0 a1, NoAlloc (cmp a0 a1)] : ∀ x0, NoAlloc (sortDAryHeap cmp D first x0 : M α _) := by
  refine sortDAryHeap.fixpoint_induct cmp D first (fun f => ∀ x0, NoAlloc (f x0)) NoAlloc.admissible1 ?_
  intro f ih x0
  noalloc

instance dAryHeapsort_noAlloc {α : Type} (x0 : α → α → M α Bool) (x1 : Nat) (x2 : Nat) (x3 : Nat) [∀ a0 a1, NoAlloc (x0 a0 a1)] : NoAlloc (dAryHeapsort x0 x1 x2 x3 : M α Unit) := by
  unfold dAryHeapsort
  noalloc

instance poplarSiftLoop_noAlloc {α : Type} (cmp : α → α → M α Bool) (value : α) [∀ a0 a1, NoAlloc (cmp a0 a1)] : ∀ x0 x1 x2, NoAlloc (poplarSiftLoop cmp value x0 x1 x2 : M α _) := by
  refine poplarSiftLoop.fixpoint_induct cmp value (fun f => ∀ x0 x1 x2, NoAlloc (f x0 x1 x2)) NoAlloc.admissible3 ?_
  intro f ih x0 x1 x2
  noalloc

instance poplarSift_noAlloc {α : Type} (x0 : α → α → M α Bool) (x1 : Nat) (x2 : Nat) [∀ a0 a1, NoAlloc (x0 a0 a1)] : NoAlloc (poplarSift x0 x1 x2 : M α Unit) := by
  unfold poplarSift
  noalloc

instance poplarBigger_noAlloc {α : Type} (x0 : α → α → M α Bool) (x1 : Poplar) (x2 : Option Poplar) (x3 : List Poplar) [∀ a0 a1, NoAlloc (x0 a0 a1)] : NoAlloc (poplarBigger x0 x1 x2 x3 : M α (Option Poplar)) := by
  induction x3 generalizing x1 x2 <;> unfold poplarBigger <;> noalloc

instance poplarRelocate_noAlloc {α : Type} (x0 : α → α → M α Bool) (x1 : List Poplar) (x2 : Poplar) [∀ a0 a1, NoAlloc (x0 a0 a1)] : NoAlloc (poplarRelocate x0 x1 x2 : M α Unit) := by
  unfold poplarRelocate
  noalloc

instance makePoplar_noAlloc {α : Type} (cmp : α → α → M α Bool) [∀ a0 a1, NoAlloc (cmp a0 a1)] : ∀ x0 x1, NoAlloc (makePoplar cmp x0 x1 : M α _) := by
  refine makePoplar.fixpoint_induct cmp (fun f => ∀ x0 x1, NoAlloc (f x0 x1)) NoAlloc.admissible2 ?_
  intro f ih x0 x1
  noalloc

instance poplarBuild_noAlloc {α : Type} (cmp : α → α → M α Bool) (last : Nat) [∀ a0 a1, NoAlloc (cmp a0 a1)] : ∀ x0 x1 x2, NoAlloc (poplarBuild cmp last x0 x1 x2 : M α _) := by
  refine poplarBuild.fixpoint_induct cmp last (fun f => ∀ x0 x1 x2, NoAlloc (f x0 x1 x2)) NoAlloc.admissible3 ?_
  intro f ih x0 x1 x2
  noalloc

instance poplarLoop_noAlloc {α : Type} (cmp : α → α → M α Bool) [∀ a0 a1, NoAlloc (cmp a0 a1)] : ∀ x0, NoAlloc (poplarLoop cmp x0 : M α _) := by
  refine poplarLoop.fixpoint_induct cmp (fun f => ∀ x0, NoAlloc (f x0)) NoAlloc.admissible1 ?_
  intro f ih x0
  noalloc

instance poplarSort_noAlloc {α : Type} (x0 : α → α → M α Bool) (x1 : Nat) (x2 : Nat) [∀ a0 a1, NoAlloc (x0 a0 a1)] : NoAlloc (poplarSort x0 x1 x2 : M α Unit) := by
  unfold poplarSort
  noalloc

instance leoAt_noAlloc {α : Type} (x0 : Nat)  : NoAlloc (leoAt x0 : M α Nat) := by
  unfold leoAt
  noalloc

instance smoothLarger_noAlloc {α : Type} (x0 : α → α → M α Bool) (x1 : Nat) (x2 : Nat) (x3 : Nat) [∀ a0 a1, NoAlloc (x0 a0 a1)] : NoAlloc (smoothLarger x0 x1 x2 x3 : M α (Nat × Nat)) := by
  unfold smoothLarger
  noalloc

instance smoothRebalance_noAlloc {α : Type} (cmp : α → α → M α Bool) [∀ a0 a1, NoAlloc (cmp a0 a1)] : ∀ x0 x1, NoAlloc (smoothRebalance cmp x0 x1 : M α _) := by
  refine smoothRebalance.fixpoint_induct cmp (fun f => ∀ x0 x1, NoAlloc (f x0 x1)) NoAlloc.admissible2 ?_
  intro f ih x0 x1
  noalloc

instance smoothToCompare_noAlloc {α : Type} (x0 : α → α → M α Bool) (x1 : Nat) (x2 : Nat) [∀ a0 a1, NoAlloc (x0 a0 a1)] : NoAlloc (smoothToCompare x0 x1 x2 : M α Nat) := by
  unfold smoothToCompare
  noalloc

instance smoothScan_noAlloc {α : Type}  : ∀ x0, NoAlloc (smoothScan x0 : M α _) := by
  refine smoothScan.fixpoint_induct  (fun f => ∀ x0, NoAlloc (f x0)) NoAlloc.admissible1 ?_
  intro f ih x0
  noalloc

instance smoothRectify_noAlloc {α : Type} (cmp : α → α → M α Bool) (start : Nat) [∀ a0 a1, NoAlloc (cmp a0 a1)] : ∀ x0 x1, NoAlloc (smoothRectify cmp start x0 x1 : M α _) := by
  refine smoothRectify.fixpoint_induct cmp start (fun f => ∀ x0 x1, NoAlloc (f x0 x1)) NoAlloc.admissible2 ?_
  intro f ih x0 x1
  noalloc

instance smoothIsLast_noAlloc {α : Type} (x0 : Nat) (x1 : Nat) (x2 : HeapShape)  : NoAlloc (smoothIsLast x0 x1 x2 : M α Bool) := by
  unfold smoothIsLast
  noalloc

instance smoothAdd_noAlloc {α : Type} (x0 : α → α → M α Bool) (x1 : Nat) (x2 : Nat) (x3 : Nat) (x4 : HeapShape) [∀ a0 a1, NoAlloc (x0 a0 a1)] : NoAlloc (smoothAdd x0 x1 x2 x3 x4 : M α HeapShape) := by
  unfold smoothAdd
  noalloc

instance smoothDrop_noAlloc {α : Type}  : ∀ x0, NoAlloc (smoothDrop x0 : M α _) := by
  refine smoothDrop.fixpoint_induct  (fun f => ∀ x0, NoAlloc (f x0)) NoAlloc.admissible1 ?_
  intro f ih x0
  noalloc

instance smoothRemove_noAlloc {α : Type} (x0 : α → α → M α Bool) (x1 : Nat) (x2 : Nat) (x3 : HeapShape) [∀ a0 a1, NoAlloc (x0 a0 a1)] : NoAlloc (smoothRemove x0 x1 x2 x3 : M α HeapShape) := by
  unfold smoothRemove
  noalloc

instance smoothAddAll_noAlloc {α : Type} (cmp : α → α → M α Bool) (start last : Nat) [∀ a0 a1, NoAlloc (cmp a0 a1)] : ∀ itr x1, NoAlloc (smoothAddAll cmp start itr last x1 : M α _) := by
  refine smoothAddAll.fixpoint_induct cmp start last (fun f => ∀ x0 x1, NoAlloc (f x0 x1)) NoAlloc.admissible2 ?_
  intro f ih x0 x1
  noalloc

instance smoothRemoveAll_noAlloc {α : Type} (cmp : α → α → M α Bool) (start : Nat) [∀ a0 a1, NoAlloc (cmp a0 a1)] : ∀ x0 x1, NoAlloc (smoothRemoveAll cmp start x0 x1 : M α _) := by
  refine smoothRemoveAll.fixpoint_induct cmp start (fun f => ∀ x0 x1, NoAlloc (f x0 x1)) NoAlloc.admissible2 ?_
  intro f ih x0 x1
  noalloc

instance smoothsort_noAlloc {α : Type} (x0 : α → α → M α Bool) (x1 : Nat) (x2 : Nat) [∀ a0 a1, NoAlloc (x0 a0 a1)] : NoAlloc (smoothsort x0 x1 x2 : M α Unit) := by
  unfold smoothsort
  noalloc

instance partSkip_noAlloc {α : Type} (pred : Nat → M α Bool) (last : Nat) [∀ a0, NoAlloc (pred a0)] : ∀ first, NoAlloc (partSkip pred first last : M α _) := by
  refine partSkip.fixpoint_induct pred last (fun f => ∀ x0, NoAlloc (f x0)) NoAlloc.admissible1 ?_
  intro f ih x0
  noalloc

instance partFwdLoop_noAlloc {α : Type} (pred : Nat → M α Bool) (last : Nat) [∀ a0, NoAlloc (pred a0)] : ∀ first p, NoAlloc (partFwdLoop pred first p last : M α _) := by
  refine partFwdLoop.fixpoint_induct pred last (fun f => ∀ x0 x1, NoAlloc (f x0 x1)) NoAlloc.admissible2 ?_
  intro f ih x0 x1
  noalloc

instance partitionFwd_noAlloc {α : Type} (x0 : Nat → M α Bool) (x1 : Nat) (x2 : Nat) [∀ a0, NoAlloc (x0 a0)] : NoAlloc (partitionFwd x0 x1 x2 : M α Nat) := by
  unfold partitionFwd
  noalloc

instance partBack_noAlloc {α : Type} (pred : Nat → M α Bool) (first : Nat) [∀ a0, NoAlloc (pred a0)] : ∀ x0, NoAlloc (partBack pred first x0 : M α _) := by
  refine partBack.fixpoint_induct pred first (fun f => ∀ x0, NoAlloc (f x0)) NoAlloc.admissible1 ?_
  intro f ih x0
  noalloc

instance partitionBi_noAlloc {α : Type} (pred : Nat → M α Bool) [∀ a0, NoAlloc (pred a0)] : ∀ x0 x1, NoAlloc (partitionBi pred x0 x1 : M α _) := by
  refine partitionBi.fixpoint_induct pred (fun f => ∀ x0 x1, NoAlloc (f x0 x1)) NoAlloc.admissible2 ?_
  intro f ih x0 x1
  noalloc

instance partition_noAlloc {α : Type} (x0 : Cat) (x1 : Nat → M α Bool) (x2 : Nat) (x3 : Nat) [∀ a0, NoAlloc (x1 a0)] : NoAlloc (partition x0 x1 x2 x3 : M α Nat) := by
  unfold partition
  noalloc

instance iterSort3_noAlloc {α : Type} (x0 : α → α → M α Bool) (x1 : Nat) (x2 : Nat) (x3 : Nat) [∀ a0 a1, NoAlloc (x0 a0 a1)] : NoAlloc (iterSort3 x0 x1 x2 x3 : M α Nat) := by
  unfold iterSort3
  noalloc

instance smallSort_noAlloc {α : Type} (x0 : α → α → M α Bool) (x1 : Cat) (x2 : Nat) (x3 : Nat) [∀ a0 a1, NoAlloc (x0 a0 a1)] : NoAlloc (smallSort x0 x1 x2 x3 : M α Unit) := by
  unfold smallSort
  noalloc

instance iterMedian5_noAlloc {α : Type} (x0 : α → α → M α Bool) (x1 : Nat) (x2 : Nat) (x3 : Nat) (x4 : Nat) (x5 : Nat) [∀ a0 a1, NoAlloc (x0 a0 a1)] : NoAlloc (iterMedian5 x0 x1 x2 x3 x4 x5 : M α Nat) := by
  unfold iterMedian5
  noalloc

instance iterMedianRest_noAlloc {α : Type} (x0 : α → α → M α Bool) (x1 : Nat) (x2 : Nat) [∀ a0 a1, NoAlloc (x0 a0 a1)] : NoAlloc (iterMedianRest x0 x1 x2 : M α Nat) := by
  unfold iterMedianRest
  noalloc

instance mediansLoop_noAlloc {α : Type} (x0 : α → α → M α Bool) (x1 : Nat) (x2 : Nat) (x3 : Nat) [∀ a0 a1, NoAlloc (x0 a0 a1)] : NoAlloc (mediansLoop x0 x1 x2 x3 : M α (Nat × Nat)) := by
  induction x1 generalizing x2 x3 <;> unfold mediansLoop <;> noalloc

instance mediansRest_noAlloc {α : Type} (x0 : α → α → M α Bool) (x1 : Nat) (x2 : Nat) (x3 : Nat) (x4 : Nat) [∀ a0 a1, NoAlloc (x0 a0 a1)] : NoAlloc (mediansRest x0 x1 x2 x3 x4 : M α Nat) := by
  unfold mediansRest
  noalloc

instance pickPivotGood_noAlloc {α : Type} (x0 : α → α → M α Bool) (x1 : Nat) (x2 : Nat) (x3 : Nat) [∀ a0 a1, NoAlloc (x0 a0 a1)] : NoAlloc (pickPivotGood x0 x1 x2 x3 : M α (Nat × Nat)) := by
  unfold pickPivotGood
  noalloc

instance threeWay_noAlloc {α : Type} (x0 : α → α → M α Bool) (x1 : Cat) (x2 : Nat) (x3 : Nat) (x4 : Nat) (x5 : Nat) [∀ a0 a1, NoAlloc (x0 a0 a1)] : NoAlloc (threeWay x0 x1 x2 x3 x4 x5 : M α (Nat × Nat)) := by
  unfold threeWay
  noalloc

instance medianOfMedians_noAlloc {α : Type} (cmp : α → α → M α Bool) (cat : Cat) [∀ a0 a1, NoAlloc (cmp a0 a1)] : ∀ x0 x1 x2, NoAlloc (medianOfMedians cmp cat x0 x1 x2 : M α _) := by
  refine medianOfMedians.fixpoint_induct cmp cat
    (fun f => ∀ x0 x1 x2, NoAlloc (f x0 x1 x2))
    (fun f => ∀ x0 x1 x2 x3, NoAlloc (f x0 x1 x2 x3))
    (fun f => ∀ x0 x1 x2 x3 x4, NoAlloc (f x0 x1 x2 x3 x4))
    (fun f => ∀ x0 x1 x2 x3, NoAlloc (f x0 x1 x2 x3))
    NoAlloc.admissible3 NoAlloc.admissible4 NoAlloc.admissible5 NoAlloc.admissible4
    ?_ ?_ ?_ ?_
  all_goals (intros; noalloc)

instance introselect_noAlloc {α : Type} (cmp : α → α → M α Bool) (cat : Cat) [∀ a0 a1, NoAlloc (cmp a0 a1)] : ∀ x0 x1 x2 x3, NoAlloc (introselect cmp cat x0 x1 x2 x3 : M α _) := by
  refine introselect.fixpoint_induct cmp cat
    (fun f => ∀ x0 x1 x2, NoAlloc (f x0 x1 x2))
    (fun f => ∀ x0 x1 x2 x3, NoAlloc (f x0 x1 x2 x3))
    (fun f => ∀ x0 x1 x2 x3 x4, NoAlloc (f x0 x1 x2 x3 x4))
    (fun f => ∀ x0 x1 x2 x3, NoAlloc (f x0 x1 x2 x3))
    NoAlloc.admissible3 NoAlloc.admissible4 NoAlloc.admissible5 NoAlloc.admissible4
    ?_ ?_ ?_ ?_
  all_goals (intros; noalloc)

instance pickPivot_noAlloc {α : Type} (cmp : α → α → M α Bool) (cat : Cat) [∀ a0 a1, NoAlloc (cmp a0 a1)] : ∀ x0 x1 x2 x3, NoAlloc (pickPivot cmp cat x0 x1 x2 x3 : M α _) := by
  refine pickPivot.fixpoint_induct cmp cat
    (fun f => ∀ x0 x1 x2, NoAlloc (f x0 x1 x2))
    (fun f => ∀ x0 x1 x2 x3, NoAlloc (f x0 x1 x2 x3))
    (fun f => ∀ x0 x1 x2 x3 x4, NoAlloc (f x0 x1 x2 x3 x4))
    (fun f => ∀ x0 x1 x2 x3, NoAlloc (f x0 x1 x2 x3))
    NoAlloc.admissible3 NoAlloc.admissible4 NoAlloc.admissible5 NoAlloc.admissible4
    ?_ ?_ ?_ ?_
  all_goals (intros; noalloc)

instance introselectLoop_noAlloc {α : Type} (cmp : α → α → M α Bool) (cat : Cat) [∀ a0 a1, NoAlloc (cmp a0 a1)] : ∀ x0 x1 x2 x3 x4, NoAlloc (introselectLoop cmp cat x0 x1 x2 x3 x4 : M α _) := by
  refine introselectLoop.fixpoint_induct cmp cat
    (fun f => ∀ x0 x1 x2, NoAlloc (f x0 x1 x2))
    (fun f => ∀ x0 x1 x2 x3, NoAlloc (f x0 x1 x2 x3))
    (fun f => ∀ x0 x1 x2 x3 x4, NoAlloc (f x0 x1 x2 x3 x4))
    (fun f => ∀ x0 x1 x2 x3, NoAlloc (f x0 x1 x2 x3))
    NoAlloc.admissible3 NoAlloc.admissible4 NoAlloc.admissible5 NoAlloc.admissible4
    ?_ ?_ ?_ ?_
  all_goals (intros; noalloc)

instance quicksortFallback_noAlloc {α : Type} (x0 : α → α → M α Bool) (x1 : Cat) (x2 : Nat) (x3 : Nat) (x4 : Nat) [∀ a0 a1, NoAlloc (x0 a0 a1)] : NoAlloc (quicksortFallback x0 x1 x2 x3 x4 : M α Bool) := by
  unfold quicksortFallback
  noalloc

instance quicksortLoop_noAlloc {α : Type} (cmp : α → α → M α Bool) (cat : Cat) [∀ a0 a1, NoAlloc (cmp a0 a1)] : ∀ x0 x1 x2 x3, NoAlloc (quicksortLoop cmp cat x0 x1 x2 x3 : M α _) := by
  refine quicksortLoop.fixpoint_induct cmp cat (fun f => ∀ x0 x1 x2 x3, NoAlloc (f x0 x1 x2 x3)) NoAlloc.admissible4 ?_
  intro f ih x0 x1 x2 x3
  noalloc

instance quicksort_noAlloc {α : Type} (x0 : α → α → M α Bool) (x1 : Cat) (x2 : Nat) (x3 : Nat) [∀ a0 a1, NoAlloc (x0 a0 a1)] : NoAlloc (quicksort x0 x1 x2 x3 : M α Unit) := by
  unfold quicksort
  noalloc

instance unguardedShift_noAlloc {α : Type} (cmp : α → α → M α Bool) (tmp : α) [∀ a0 a1, NoAlloc (cmp a0 a1)] : ∀ x0, NoAlloc (unguardedShift cmp tmp x0 : M α _) := by
  refine unguardedShift.fixpoint_induct cmp tmp (fun f => ∀ x0, NoAlloc (f x0)) NoAlloc.admissible1 ?_
  intro f ih x0
  noalloc

instance unguardedLoop_noAlloc {α : Type} (cmp : α → α → M α Bool) (last : Nat) [∀ a0 a1, NoAlloc (cmp a0 a1)] : ∀ cur, NoAlloc (unguardedLoop cmp cur last : M α _) := by
  refine unguardedLoop.fixpoint_induct cmp last (fun f => ∀ x0, NoAlloc (f x0)) NoAlloc.admissible1 ?_
  intro f ih x0
  noalloc

instance unguardedInsertionSort_noAlloc {α : Type} (x0 : α → α → M α Bool) (x1 : Nat) (x2 : Nat) [∀ a0 a1, NoAlloc (x0 a0 a1)] : NoAlloc (unguardedInsertionSort x0 x1 x2 : M α Unit) := by
  unfold unguardedInsertionSort
  noalloc

instance partialLoop_noAlloc {α : Type} (cmp : α → α → M α Bool) (first last : Nat) [∀ a0 a1, NoAlloc (cmp a0 a1)] : ∀ x0 x1, NoAlloc (partialLoop cmp first last x0 x1 : M α _) := by
  refine partialLoop.fixpoint_induct cmp first last (fun f => ∀ x0 x1, NoAlloc (f x0 x1)) NoAlloc.admissible2 ?_
  intro f ih x0 x1
  noalloc

instance partialInsertionSort_noAlloc {α : Type} (x0 : α → α → M α Bool) (x1 : Nat) (x2 : Nat) [∀ a0 a1, NoAlloc (x0 a0 a1)] : NoAlloc (partialInsertionSort x0 x1 x2 : M α Bool) := by
  unfold partialInsertionSort
  noalloc

instance scanUp_noAlloc {α : Type} (test : Nat → M α Bool) [∀ a0, NoAlloc (test a0)] : ∀ x0, NoAlloc (scanUp test x0 : M α _) := by
  refine scanUp.fixpoint_induct test (fun f => ∀ x0, NoAlloc (f x0)) NoAlloc.admissible1 ?_
  intro f ih x0
  noalloc

instance scanDown_noAlloc {α : Type} (test : Nat → M α Bool) [∀ a0, NoAlloc (test a0)] : ∀ x0, NoAlloc (scanDown test x0 : M α _) := by
  refine scanDown.fixpoint_induct test (fun f => ∀ x0, NoAlloc (f x0)) NoAlloc.admissible1 ?_
  intro f ih x0
  noalloc

instance scanDownGuarded_noAlloc {α : Type} (test : Nat → M α Bool) (first : Nat) [∀ a0, NoAlloc (test a0)] : ∀ x0, NoAlloc (scanDownGuarded test first x0 : M α _) := by
  refine scanDownGuarded.fixpoint_induct test first (fun f => ∀ x0, NoAlloc (f x0)) NoAlloc.admissible1 ?_
  intro f ih x0
  noalloc

instance scanUpGuarded_noAlloc {α : Type} (test : Nat → M α Bool) (last : Nat) [∀ a0, NoAlloc (test a0)] : ∀ first, NoAlloc (scanUpGuarded test first last : M α _) := by
  refine scanUpGuarded.fixpoint_induct test last (fun f => ∀ x0, NoAlloc (f x0)) NoAlloc.admissible1 ?_
  intro f ih x0
  noalloc

instance belowPivot_noAlloc {α : Type} (x0 : α → α → M α Bool) (x1 : α) (x2 : Nat) [∀ a0 a1, NoAlloc (x0 a0 a1)] : NoAlloc (belowPivot x0 x1 x2 : M α Bool) := by
  unfold belowPivot
  noalloc

instance notBelowPivot_noAlloc {α : Type} (x0 : α → α → M α Bool) (x1 : α) (x2 : Nat) [∀ a0 a1, NoAlloc (x0 a0 a1)] : NoAlloc (notBelowPivot x0 x1 x2 : M α Bool) := by
  unfold notBelowPivot
  noalloc

instance abovePivot_noAlloc {α : Type} (x0 : α → α → M α Bool) (x1 : α) (x2 : Nat) [∀ a0 a1, NoAlloc (x0 a0 a1)] : NoAlloc (abovePivot x0 x1 x2 : M α Bool) := by
  unfold abovePivot
  noalloc

instance notAbovePivot_noAlloc {α : Type} (x0 : α → α → M α Bool) (x1 : α) (x2 : Nat) [∀ a0 a1, NoAlloc (x0 a0 a1)] : NoAlloc (notAbovePivot x0 x1 x2 : M α Bool) := by
  unfold notAbovePivot
  noalloc

instance prScan_noAlloc {α : Type} (x0 : α → α → M α Bool) (x1 : α) (x2 : Nat) (x3 : Nat) [∀ a0 a1, NoAlloc (x0 a0 a1)] : NoAlloc (prScan x0 x1 x2 x3 : M α (Nat × Nat)) := by
  unfold prScan
  noalloc

instance prLoop_noAlloc {α : Type} (cmp : α → α → M α Bool) (pivot : α) [∀ a0 a1, NoAlloc (cmp a0 a1)] : ∀ x0 x1, NoAlloc (prLoop cmp pivot x0 x1 : M α _) := by
  refine prLoop.fixpoint_induct cmp pivot (fun f => ∀ x0 x1, NoAlloc (f x0 x1)) NoAlloc.admissible2 ?_
  intro f ih x0 x1
  noalloc

instance partitionRight_noAlloc {α : Type} (x0 : α → α → M α Bool) (x1 : Nat) (x2 : Nat) [∀ a0 a1, NoAlloc (x0 a0 a1)] : NoAlloc (partitionRight x0 x1 x2 : M α (Nat × Bool)) := by
  unfold partitionRight
  noalloc

instance setOffset_noAlloc {α : Type} (x0 : Offsets) (x1 : Nat) (x2 : Nat)  : NoAlloc (setOffset x0 x1 x2 : M α Offsets) := by
  unfold setOffset
  noalloc

instance getOffset_noAlloc {α : Type} (x0 : Offsets) (x1 : Nat)  : NoAlloc (getOffset x0 x1 : M α Nat) := by
  unfold getOffset
  noalloc

instance swapOffsetsSwap_noAlloc {α : Type} (x0 : Nat) (x1 : Nat) (x2 : Nat) (x3 : Nat) (x4 : Offsets) (x5 : Offsets) (x6 : Nat) (x7 : Nat)  : NoAlloc (swapOffsetsSwap x0 x1 x2 x3 x4 x5 x6 x7 : M α Unit) := by
  induction x6 generalizing x7 x0 x1 x2 x3 x4 x5 <;> unfold swapOffsetsSwap <;> noalloc

instance swapOffsetsCycle_noAlloc {α : Type} (x0 : Nat) (x1 : Nat) (x2 : Nat) (x3 : Nat) (x4 : Offsets) (x5 : Offsets) (x6 : Nat) (x7 : Nat) (x8 : Nat)  : NoAlloc (swapOffsetsCycle x0 x1 x2 x3 x4 x5 x6 x7 x8 : M α Nat) := by
  induction x6 generalizing x7 x8 x0 x1 x2 x3 x4 x5 <;> unfold swapOffsetsCycle <;> noalloc

instance swapOffsets_noAlloc {α : Type} (x0 : Nat) (x1 : Nat) (x2 : Nat) (x3 : Nat) (x4 : Offsets) (x5 : Offsets) (x6 : Nat) (x7 : Bool)  : NoAlloc (swapOffsets x0 x1 x2 x3 x4 x5 x6 x7 : M α Unit) := by
  unfold swapOffsets
  noalloc

instance fillLeft_noAlloc {α : Type} (x0 : α → α → M α Bool) (x1 : α) (x2 : Nat) (x3 : Nat) (x4 : Offsets) (x5 : Nat) (x6 : Nat) [∀ a0 a1, NoAlloc (x0 a0 a1)] : NoAlloc (fillLeft x0 x1 x2 x3 x4 x5 x6 : M α (Offsets × Nat × Nat)) := by
  induction x2 generalizing x3 x4 x5 x6 x1 <;> unfold fillLeft <;> noalloc

instance fillRight_noAlloc {α : Type} (x0 : α → α → M α Bool) (x1 : α) (x2 : Nat) (x3 : Nat) (x4 : Offsets) (x5 : Nat) (x6 : Nat) [∀ a0 a1, NoAlloc (x0 a0 a1)] : NoAlloc (fillRight x0 x1 x2 x3 x4 x5 x6 : M α (Offsets × Nat × Nat)) := by
  induction x2 generalizing x3 x4 x5 x6 x1 <;> unfold fillRight <;> noalloc

instance blkSwap_noAlloc {α : Type} (x0 : Blk)  : NoAlloc (blkSwap x0 : M α Blk) := by
  unfold blkSwap
  noalloc

instance blkLoop_noAlloc {α : Type} (cmp : α → α → M α Bool) (pivot : α) [∀ a0 a1, NoAlloc (cmp a0 a1)] : ∀ x0, NoAlloc (blkLoop cmp pivot x0 : M α _) := by
  refine blkLoop.fixpoint_induct cmp pivot (fun f => ∀ x0, NoAlloc (f x0)) NoAlloc.admissible1 ?_
  intro f ih x0
  noalloc

instance drainLeft_noAlloc {α : Type} (x0 : Nat) (x1 : Nat) (x2 : Offsets) (x3 : Nat) (x4 : Nat)  : NoAlloc (drainLeft x0 x1 x2 x3 x4 : M α Nat) := by
  induction x3 generalizing x4 x0 x1 x2 <;> unfold drainLeft <;> noalloc

instance drainRight_noAlloc {α : Type} (x0 : Nat) (x1 : Nat) (x2 : Offsets) (x3 : Nat) (x4 : Nat)  : NoAlloc (drainRight x0 x1 x2 x3 x4 : M α Nat) := by
  induction x3 generalizing x4 x0 x1 x2 <;> unfold drainRight <;> noalloc

instance blkDrain_noAlloc {α : Type} (x0 : Blk)  : NoAlloc (blkDrain x0 : M α Nat) := by
  unfold blkDrain
  noalloc

instance branchlessLoop_noAlloc {α : Type} (x0 : α → α → M α Bool) (x1 : α) (x2 : Nat) (x3 : Nat) [∀ a0 a1, NoAlloc (x0 a0 a1)] : NoAlloc (branchlessLoop x0 x1 x2 x3 : M α Nat) := by
  unfold branchlessLoop
  noalloc

instance partitionRightBranchless_noAlloc {α : Type} (x0 : α → α → M α Bool) (x1 : Nat) (x2 : Nat) [∀ a0 a1, NoAlloc (x0 a0 a1)] : NoAlloc (partitionRightBranchless x0 x1 x2 : M α (Nat × Bool)) := by
  unfold partitionRightBranchless
  noalloc

instance plLoop_noAlloc {α : Type} (cmp : α → α → M α Bool) (pivot : α) [∀ a0 a1, NoAlloc (cmp a0 a1)] : ∀ x0 x1, NoAlloc (plLoop cmp pivot x0 x1 : M α _) := by
  refine plLoop.fixpoint_induct cmp pivot (fun f => ∀ x0 x1, NoAlloc (f x0 x1)) NoAlloc.admissible2 ?_
  intro f ih x0 x1
  noalloc

instance plScan_noAlloc {α : Type} (x0 : α → α → M α Bool) (x1 : α) (x2 : Nat) (x3 : Nat) [∀ a0 a1, NoAlloc (x0 a0 a1)] : NoAlloc (plScan x0 x1 x2 x3 : M α (Nat × Nat)) := by
  unfold plScan
  noalloc

instance partitionLeft_noAlloc {α : Type} (x0 : α → α → M α Bool) (x1 : Nat) (x2 : Nat) [∀ a0 a1, NoAlloc (x0 a0 a1)] : NoAlloc (partitionLeft x0 x1 x2 : M α Nat) := by
  unfold partitionLeft
  noalloc

instance pdqPivot_noAlloc {α : Type} (x0 : α → α → M α Bool) (x1 : Nat) (x2 : Nat) [∀ a0 a1, NoAlloc (x0 a0 a1)] : NoAlloc (pdqPivot x0 x1 x2 : M α Unit) := by
  unfold pdqPivot
  noalloc

instance pdqBreakLeft_noAlloc {α : Type} (x0 : Nat) (x1 : Nat)  : NoAlloc (pdqBreakLeft x0 x1 : M α Unit) := by
  unfold pdqBreakLeft
  noalloc

instance pdqBreakRight_noAlloc {α : Type} (x0 : Nat) (x1 : Nat)  : NoAlloc (pdqBreakRight x0 x1 : M α Unit) := by
  unfold pdqBreakRight
  noalloc

instance pdqTryInsertion_noAlloc {α : Type} (x0 : α → α → M α Bool) (x1 : Bool) (x2 : Nat) (x3 : Nat) (x4 : Nat) [∀ a0 a1, NoAlloc (x0 a0 a1)] : NoAlloc (pdqTryInsertion x0 x1 x2 x3 x4 : M α Bool) := by
  unfold pdqTryInsertion
  noalloc

instance pdqPartition_noAlloc {α : Type} (x0 : α → α → M α Bool) (x1 : Bool) (x2 : Nat) (x3 : Nat) [∀ a0 a1, NoAlloc (x0 a0 a1)] : NoAlloc (pdqPartition x0 x1 x2 x3 : M α (Nat × Bool)) := by
  unfold pdqPartition
  noalloc

instance pdqEqualPivot_noAlloc {α : Type} (x0 : α → α → M α Bool) (x1 : Bool) (x2 : Nat) [∀ a0 a1, NoAlloc (x0 a0 a1)] : NoAlloc (pdqEqualPivot x0 x1 x2 : M α Bool) := by
  unfold pdqEqualPivot
  noalloc

instance pdqsortLoop_noAlloc {α : Type} (cmp : α → α → M α Bool) (branchless : Bool) [∀ a0 a1, NoAlloc (cmp a0 a1)] : ∀ x0 x1 x2 x3, NoAlloc (pdqsortLoop cmp branchless x0 x1 x2 x3 : M α _) := by
  refine pdqsortLoop.fixpoint_induct cmp branchless (fun f => ∀ x0 x1 x2 x3, NoAlloc (f x0 x1 x2 x3)) NoAlloc.admissible4 ?_
  intro f ih x0 x1 x2 x3
  noalloc

instance pdqsort_noAlloc {α : Type} (x0 : α → α → M α Bool) (x1 : Bool) (x2 : Nat) (x3 : Nat) [∀ a0 a1, NoAlloc (x0 a0 a1)] : NoAlloc (pdqsort x0 x1 x2 x3 : M α Unit) := by
  unfold pdqsort
  noalloc

instance pivotPartition_noAlloc {α : Type} (x0 : α → α → M α Bool) (x1 : Nat) (x2 : Nat) (x3 : Nat) [∀ a0 a1, NoAlloc (x0 a0 a1)] : NoAlloc (pivotPartition x0 x1 x2 x3 : M α Nat) := by
  unfold pivotPartition
  noalloc

instance medianIndex_noAlloc {α : Type} (x0 : α → α → M α Bool) (x1 : Nat) (x2 : Nat) (x3 : Nat) (x4 : Nat) [∀ a0 a1, NoAlloc (x0 a0 a1)] : NoAlloc (medianIndex x0 x1 x2 x3 x4 : M α Nat) := by
  unfold medianIndex
  noalloc

instance ninther_noAlloc {α : Type} (x0 : α → α → M α Bool) (x1 : Nat) (x2 : Nat) (x3 : Nat) (x4 : Nat) (x5 : Nat) (x6 : Nat) (x7 : Nat) (x8 : Nat) (x9 : Nat) (x10 : Nat) [∀ a0 a1, NoAlloc (x0 a0 a1)] : NoAlloc (ninther x0 x1 x2 x3 x4 x5 x6 x7 x8 x9 x10 : M α Unit) := by
  unfold ninther
  noalloc

instance epLeft1_noAlloc {α : Type} (cmp : α → α → M α Bool) (r lo oldPivot : Nat) [∀ a0 a1, NoAlloc (cmp a0 a1)] : ∀ x0 x1, NoAlloc (epLeft1 cmp r lo oldPivot x0 x1 : M α _) := by
  refine epLeft1.fixpoint_induct cmp r lo oldPivot (fun f => ∀ x0 x1, NoAlloc (f x0 x1)) NoAlloc.admissible2 ?_
  intro f ih x0 x1
  noalloc

instance epLeftScan_noAlloc {α : Type} (cmp : α → α → M α Bool) (r oldPivot left : Nat) [∀ a0 a1, NoAlloc (cmp a0 a1)] : ∀ x0, NoAlloc (epLeftScan cmp r oldPivot left x0 : M α _) := by
  refine epLeftScan.fixpoint_induct cmp r oldPivot left (fun f => ∀ x0, NoAlloc (f x0)) NoAlloc.admissible1 ?_
  intro f ih x0
  noalloc

instance epLeft2_noAlloc {α : Type} (cmp : α → α → M α Bool) (r oldPivot : Nat) [∀ a0 a1, NoAlloc (cmp a0 a1)] : ∀ x0 x1, NoAlloc (epLeft2 cmp r oldPivot x0 x1 : M α _) := by
  refine epLeft2.fixpoint_induct cmp r oldPivot (fun f => ∀ x0 x1, NoAlloc (f x0 x1)) NoAlloc.admissible2 ?_
  intro f ih x0 x1
  noalloc

instance expandPartitionLeft_noAlloc {α : Type} (x0 : α → α → M α Bool) (x1 : Nat) (x2 : Nat) (x3 : Nat) [∀ a0 a1, NoAlloc (x0 a0 a1)] : NoAlloc (expandPartitionLeft x0 x1 x2 x3 : M α Nat) := by
  unfold expandPartitionLeft
  noalloc

instance epRight1_noAlloc {α : Type} (cmp : α → α → M α Bool) (r hi : Nat) [∀ a0 a1, NoAlloc (cmp a0 a1)] : ∀ x0 x1, NoAlloc (epRight1 cmp r hi x0 x1 : M α _) := by
  refine epRight1.fixpoint_induct cmp r hi (fun f => ∀ x0 x1, NoAlloc (f x0 x1)) NoAlloc.admissible2 ?_
  intro f ih x0 x1
  noalloc

instance epRightScan_noAlloc {α : Type} (cmp : α → α → M α Bool) (r rite : Nat) [∀ a0 a1, NoAlloc (cmp a0 a1)] : ∀ pivot, NoAlloc (epRightScan cmp r pivot rite : M α _) := by
  refine epRightScan.fixpoint_induct cmp r rite (fun f => ∀ x0, NoAlloc (f x0)) NoAlloc.admissible1 ?_
  intro f ih x0
  noalloc

instance epRight2_noAlloc {α : Type} (cmp : α → α → M α Bool) (r : Nat) [∀ a0 a1, NoAlloc (cmp a0 a1)] : ∀ x0 x1, NoAlloc (epRight2 cmp r x0 x1 : M α _) := by
  refine epRight2.fixpoint_induct cmp r (fun f => ∀ x0 x1, NoAlloc (f x0 x1)) NoAlloc.admissible2 ?_
  intro f ih x0 x1
  noalloc

instance expandPartitionRight_noAlloc {α : Type} (x0 : α → α → M α Bool) (x1 : Nat) (x2 : Nat) (x3 : Nat) [∀ a0 a1, NoAlloc (x0 a0 a1)] : NoAlloc (expandPartitionRight x0 x1 x2 x3 : M α Nat) := by
  unfold expandPartitionRight
  noalloc

instance epScanLeft_noAlloc {α : Type} (cmp : α → α → M α Bool) (r lo pivot : Nat) [∀ a0 a1, NoAlloc (cmp a0 a1)] : ∀ x0, NoAlloc (epScanLeft cmp r lo pivot x0 : M α _) := by
  refine epScanLeft.fixpoint_induct cmp r lo pivot (fun f => ∀ x0, NoAlloc (f x0)) NoAlloc.admissible1 ?_
  intro f ih x0
  noalloc

instance epScanRight_noAlloc {α : Type} (cmp : α → α → M α Bool) (r hi pivot : Nat) [∀ a0 a1, NoAlloc (cmp a0 a1)] : ∀ x0, NoAlloc (epScanRight cmp r hi pivot x0 : M α _) := by
  refine epScanRight.fixpoint_induct cmp r hi pivot (fun f => ∀ x0, NoAlloc (f x0)) NoAlloc.admissible1 ?_
  intro f ih x0
  noalloc

instance epLoop_noAlloc {α : Type} (cmp : α → α → M α Bool) (r lo pivot hi : Nat) [∀ a0 a1, NoAlloc (cmp a0 a1)] : ∀ x0 x1, NoAlloc (epLoop cmp r lo pivot hi x0 x1 : M α _) := by
  refine epLoop.fixpoint_induct cmp r lo pivot hi (fun f => ∀ x0 x1, NoAlloc (f x0 x1)) NoAlloc.admissible2 ?_
  intro f ih x0 x1
  noalloc

instance expandPartition_noAlloc {α : Type} (x0 : α → α → M α Bool) (x1 : Nat) (x2 : Nat) (x3 : Nat) (x4 : Nat) (x5 : Nat) [∀ a0 a1, NoAlloc (x0 a0 a1)] : NoAlloc (expandPartition x0 x1 x2 x3 x4 x5 : M α Nat) := by
  unfold expandPartition
  noalloc

instance minIndexLoop_noAlloc {α : Type} (cmp : α → α → M α Bool) (r limit : Nat) [∀ a0 a1, NoAlloc (cmp a0 a1)] : ∀ j x1, NoAlloc (minIndexLoop cmp r j limit x1 : M α _) := by
  refine minIndexLoop.fixpoint_induct cmp r limit (fun f => ∀ x0 x1, NoAlloc (f x0 x1)) NoAlloc.admissible2 ?_
  intro f ih x0 x1
  noalloc

instance minimaLoop_noAlloc {α : Type} (cmp : α → α → M α Bool) (r over subset : Nat) [∀ a0 a1, NoAlloc (cmp a0 a1)] : ∀ i j, NoAlloc (minimaLoop cmp r over i j subset : M α _) := by
  refine minimaLoop.fixpoint_induct cmp r over subset (fun f => ∀ x0 x1, NoAlloc (f x0 x1)) NoAlloc.admissible2 ?_
  intro f ih x0 x1
  noalloc

instance maxIndexLoop_noAlloc {α : Type} (cmp : α → α → M α Bool) (r limit : Nat) [∀ a0 a1, NoAlloc (cmp a0 a1)] : ∀ j x1, NoAlloc (maxIndexLoop cmp r j limit x1 : M α _) := by
  refine maxIndexLoop.fixpoint_induct cmp r limit (fun f => ∀ x0 x1, NoAlloc (f x0 x1)) NoAlloc.admissible2 ?_
  intro f ih x0 x1
  noalloc

instance maximaLoop_noAlloc {α : Type} (cmp : α → α → M α Bool) (r over length : Nat) [∀ a0 a1, NoAlloc (cmp a0 a1)] : ∀ i j, NoAlloc (maximaLoop cmp r over i j length : M α _) := by
  refine maximaLoop.fixpoint_induct cmp r over length (fun f => ∀ x0 x1, NoAlloc (f x0 x1)) NoAlloc.admissible2 ?_
  intro f ih x0 x1
  noalloc

instance nintherLoop_noAlloc {α : Type} (cmp : α → α → M α Bool) (r frac hi : Nat) [∀ a0 a1, NoAlloc (cmp a0 a1)] : ∀ i x1 x2, NoAlloc (nintherLoop cmp r frac i hi x1 x2 : M α _) := by
  refine nintherLoop.fixpoint_induct cmp r frac hi (fun f => ∀ x0 x1 x2, NoAlloc (f x0 x1 x2)) NoAlloc.admissible3 ?_
  intro f ih x0 x1 x2
  noalloc

instance medianOfMinima_noAlloc {α : Type} (cmp : α → α → M α Bool) [∀ a0 a1, NoAlloc (cmp a0 a1)] : ∀ x0 x1 x2, NoAlloc (medianOfMinima cmp x0 x1 x2 : M α _) := by
  refine medianOfMinima.fixpoint_induct cmp
    (fun f => ∀ x0 x1 x2, NoAlloc (f x0 x1 x2))
    (fun f => ∀ x0 x1 x2, NoAlloc (f x0 x1 x2))
    (fun f => ∀ x0 x1 x2, NoAlloc (f x0 x1 x2))
    (fun f => ∀ x0 x1, NoAlloc (f x0 x1))
    (fun f => ∀ x0 x1 x2, NoAlloc (f x0 x1 x2))
    NoAlloc.admissible3 NoAlloc.admissible3 NoAlloc.admissible3 NoAlloc.admissible2 NoAlloc.admissible3
    ?_ ?_ ?_ ?_ ?_
  all_goals (intros; noalloc)

instance medianOfMaxima_noAlloc {α : Type} (cmp : α → α → M α Bool) [∀ a0 a1, NoAlloc (cmp a0 a1)] : ∀ x0 x1 x2, NoAlloc (medianOfMaxima cmp x0 x1 x2 : M α _) := by
  refine medianOfMaxima.fixpoint_induct cmp
    (fun f => ∀ x0 x1 x2, NoAlloc (f x0 x1 x2))
    (fun f => ∀ x0 x1 x2, NoAlloc (f x0 x1 x2))
    (fun f => ∀ x0 x1 x2, NoAlloc (f x0 x1 x2))
    (fun f => ∀ x0 x1, NoAlloc (f x0 x1))
    (fun f => ∀ x0 x1 x2, NoAlloc (f x0 x1 x2))
    NoAlloc.admissible3 NoAlloc.admissible3 NoAlloc.admissible3 NoAlloc.admissible2 NoAlloc.admissible3
    ?_ ?_ ?_ ?_ ?_
  all_goals (intros; noalloc)

instance medianOfNinthers_noAlloc {α : Type} (cmp : α → α → M α Bool) [∀ a0 a1, NoAlloc (cmp a0 a1)] : ∀ x0 x1, NoAlloc (medianOfNinthers cmp x0 x1 : M α _) := by
  refine medianOfNinthers.fixpoint_induct cmp
    (fun f => ∀ x0 x1 x2, NoAlloc (f x0 x1 x2))
    (fun f => ∀ x0 x1 x2, NoAlloc (f x0 x1 x2))
    (fun f => ∀ x0 x1 x2, NoAlloc (f x0 x1 x2))
    (fun f => ∀ x0 x1, NoAlloc (f x0 x1))
    (fun f => ∀ x0 x1 x2, NoAlloc (f x0 x1 x2))
    NoAlloc.admissible3 NoAlloc.admissible3 NoAlloc.admissible3 NoAlloc.admissible2 NoAlloc.admissible3
    ?_ ?_ ?_ ?_ ?_
  all_goals (intros; noalloc)

instance adaptiveQuickselect_noAlloc {α : Type} (cmp : α → α → M α Bool) [∀ a0 a1, NoAlloc (cmp a0 a1)] : ∀ x0 x1 x2, NoAlloc (adaptiveQuickselect cmp x0 x1 x2 : M α _) := by
  refine adaptiveQuickselect.fixpoint_induct cmp
    (fun f => ∀ x0 x1 x2, NoAlloc (f x0 x1 x2))
    (fun f => ∀ x0 x1 x2, NoAlloc (f x0 x1 x2))
    (fun f => ∀ x0 x1 x2, NoAlloc (f x0 x1 x2))
    (fun f => ∀ x0 x1, NoAlloc (f x0 x1))
    (fun f => ∀ x0 x1 x2, NoAlloc (f x0 x1 x2))
    NoAlloc.admissible3 NoAlloc.admissible3 NoAlloc.admissible3 NoAlloc.admissible2 NoAlloc.admissible3
    ?_ ?_ ?_ ?_ ?_
  all_goals (intros; noalloc)

instance quickselectPivot_noAlloc {α : Type} (cmp : α → α → M α Bool) [∀ a0 a1, NoAlloc (cmp a0 a1)] : ∀ x0 x1 x2, NoAlloc (quickselectPivot cmp x0 x1 x2 : M α _) := by
  refine quickselectPivot.fixpoint_induct cmp
    (fun f => ∀ x0 x1 x2, NoAlloc (f x0 x1 x2))
    (fun f => ∀ x0 x1 x2, NoAlloc (f x0 x1 x2))
    (fun f => ∀ x0 x1 x2, NoAlloc (f x0 x1 x2))
    (fun f => ∀ x0 x1, NoAlloc (f x0 x1))
    (fun f => ∀ x0 x1 x2, NoAlloc (f x0 x1 x2))
    NoAlloc.admissible3 NoAlloc.admissible3 NoAlloc.admissible3 NoAlloc.admissible2 NoAlloc.admissible3
    ?_ ?_ ?_ ?_ ?_
  all_goals (intros; noalloc)

instance medianOfNinthersSelect_noAlloc {α : Type} (x0 : α → α → M α Bool) (x1 : Nat) (x2 : Nat) (x3 : Nat) [∀ a0 a1, NoAlloc (x0 a0 a1)] : NoAlloc (medianOfNinthersSelect x0 x1 x2 x3 : M α Nat) := by
  unfold medianOfNinthersSelect
  noalloc

instance nthElement_noAlloc {α : Type} (x0 : α → α → M α Bool) (x1 : Cat) (x2 : Nat) (x3 : Nat) (x4 : Nat) (x5 : Nat) [∀ a0 a1, NoAlloc (x0 a0 a1)] : NoAlloc (nthElement x0 x1 x2 x3 x4 x5 : M α Nat) := by
  unfold nthElement
  noalloc

instance ihMerge1_noAlloc {α : Type} (x0 : α → α → M α Bool) (x1 : Nat) (x2 : Nat) (x3 : Nat) (x4 : Nat) [∀ a0 a1, NoAlloc (x0 a0 a1)] : NoAlloc (ihMerge1 x0 x1 x2 x3 x4 : M α (Nat × Nat × Nat)) := by
  induction x1 generalizing x2 x3 x4 <;> unfold ihMerge1 <;> noalloc

instance ihMerge2_noAlloc {α : Type} (cmp : α → α → M α Bool) (last1 last2 : Nat) [∀ a0 a1, NoAlloc (cmp a0 a1)] : ∀ first1 first2 x2, NoAlloc (ihMerge2 cmp first1 last1 first2 last2 x2 : M α _) := by
  refine ihMerge2.fixpoint_induct cmp last1 last2 (fun f => ∀ x0 x1 x2, NoAlloc (f x0 x1 x2)) NoAlloc.admissible3 ?_
  intro f ih x0 x1 x2
  noalloc

instance internalHalfInplaceMerge_noAlloc {α : Type} (x0 : α → α → M α Bool) (x1 : Nat) (x2 : Nat) (x3 : Nat) (x4 : Nat) (x5 : Nat) (x6 : Nat) [∀ a0 a1, NoAlloc (x0 a0 a1)] : NoAlloc (internalHalfInplaceMerge x0 x1 x2 x3 x4 x5 x6 : M α Unit) := by
  unfold internalHalfInplaceMerge
  noalloc

instance internalBufferedInplaceMerge_noAlloc {α : Type} (x0 : α → α → M α Bool) (x1 : Nat) (x2 : Nat) (x3 : Nat) (x4 : Nat) (x5 : Nat) [∀ a0 a1, NoAlloc (x0 a0 a1)] : NoAlloc (internalBufferedInplaceMerge x0 x1 x2 x3 x4 x5 : M α Unit) := by
  unfold internalBufferedInplaceMerge
  noalloc

instance imShrink_noAlloc {α : Type} (cmp : α → α → M α Bool) (middle : Nat) [∀ a0 a1, NoAlloc (cmp a0 a1)] : ∀ x0 x1, NoAlloc (imShrink cmp middle x0 x1 : M α _) := by
  refine imShrink.fixpoint_induct cmp middle (fun f => ∀ x0 x1, NoAlloc (f x0 x1)) NoAlloc.admissible2 ?_
  intro f ih x0 x1
  noalloc

instance internalMergesort_noAlloc {α : Type} (cmp : α → α → M α Bool) (cat : Cat) (buffer : Nat) [∀ a0 a1, NoAlloc (cmp a0 a1)] : ∀ first last size, NoAlloc (internalMergesort cmp cat first last size buffer : M α _) := by
  refine internalMergesort.fixpoint_induct cmp cat buffer (fun f => ∀ x0 x1 x2, NoAlloc (f x0 x1 x2)) NoAlloc.admissible3 ?_
  intro f ih x0 x1 x2
  noalloc

instance quickMergeSortLoop_noAlloc {α : Type} (cmp : α → α → M α Bool) (cat : Cat) (last : Nat) [∀ a0 a1, NoAlloc (cmp a0 a1)] : ∀ first x1, NoAlloc (quickMergeSortLoop cmp cat first last x1 : M α _) := by
  refine quickMergeSortLoop.fixpoint_induct cmp cat last (fun f => ∀ x0 x1, NoAlloc (f x0 x1)) NoAlloc.admissible2 ?_
  intro f ih x0 x1
  noalloc

instance quickMergeSort_noAlloc {α : Type} (x0 : α → α → M α Bool) (x1 : Cat) (x2 : Nat) (x3 : Nat) [∀ a0 a1, NoAlloc (x0 a0 a1)] : NoAlloc (quickMergeSort x0 x1 x2 x3 : M α Unit) := by
  unfold quickMergeSort
  noalloc

end CppSort
