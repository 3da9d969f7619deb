import Verif.Proof.Heapless
import Verif.Model.Grail
import Verif.Model.Wiki
/-
What grail_sorter and wiki_sorter do once they have their buffer allocates no memory.
-/
set_option autoImplicit false

namespace CppSort

instance grailCmp3_noAlloc {α : Type} (x0 : α → α → M α Bool) (x1 : α) (x2 : α) [∀ a0 a1, NoAlloc (x0 a0 a1)] : NoAlloc (grailCmp3 x0 x1 x2 : M α Int) := by
  unfold grailCmp3
  noalloc

instance grailCmp3At_noAlloc {α : Type} (x0 : α → α → M α Bool) (x1 : Nat) (x2 : Nat) [∀ a0 a1, NoAlloc (x0 a0 a1)] : NoAlloc (grailCmp3At x0 x1 x2 : M α Int) := by
  unfold grailCmp3At
  noalloc

instance grailFresh_noAlloc {α : Type} (x0 : α → α → M α Bool) (x1 : Nat) (x2 : Nat) (x3 : Nat) (x4 : Nat) [∀ a0 a1, NoAlloc (x0 a0 a1)] : NoAlloc (grailFresh x0 x1 x2 x3 x4 : M α Bool) := by
  unfold grailFresh
  noalloc

instance findKeysLoop_noAlloc {α : Type} (cmp : α → α → M α Bool) (c : Cfg) (last keyCount : Nat) [∀ a0 a1, NoAlloc (cmp a0 a1)] : ∀ x0 x1 x2, NoAlloc (findKeysLoop cmp c last keyCount x0 x1 x2 : M α _) := by
  refine findKeysLoop.fixpoint_induct cmp c last keyCount (fun f => ∀ x0 x1 x2, NoAlloc (f x0 x1 x2)) NoAlloc.admissible3 ?_
  intro f ih x0 x1 x2
  noalloc

instance findKeys_noAlloc {α : Type} (x0 : α → α → M α Bool) (x1 : Cfg) (x2 : Nat) (x3 : Nat) (x4 : Nat) [∀ a0 a1, NoAlloc (x0 a0 a1)] : NoAlloc (findKeys x0 x1 x2 x3 x4 : M α Nat) := by
  unfold findKeys
  noalloc

instance grailRotate_noAlloc {α : Type} (x0 : Cfg) (x1 : Nat) (x2 : Nat) (x3 : Nat) (x4 : Nat)  : NoAlloc (grailRotate x0 x1 x2 x3 x4 : M α Unit) := by
  unfold grailRotate
  noalloc

instance mergeSkipLeft_noAlloc {α : Type} (cmp : α → α → M α Bool) (middle : Nat) [∀ a0 a1, NoAlloc (cmp a0 a1)] : ∀ first, NoAlloc (mergeSkipLeft cmp first middle : M α _) := by
  refine mergeSkipLeft.fixpoint_induct cmp middle (fun f => ∀ x0, NoAlloc (f x0)) NoAlloc.admissible1 ?_
  intro f ih x0
  noalloc

instance mergeFromLeft_noAlloc {α : Type} (cmp : α → α → M α Bool) (c : Cfg) (last : Nat) [∀ a0 a1, NoAlloc (cmp a0 a1)] : ∀ first middle, NoAlloc (mergeFromLeft cmp c first middle last : M α _) := by
  refine mergeFromLeft.fixpoint_induct cmp c last (fun f => ∀ x0 x1, NoAlloc (f x0 x1)) NoAlloc.admissible2 ?_
  intro f ih x0 x1
  noalloc

instance mergeSkipRight_noAlloc {α : Type} (cmp : α → α → M α Bool) (middle : Nat) [∀ a0 a1, NoAlloc (cmp a0 a1)] : ∀ x0, NoAlloc (mergeSkipRight cmp middle x0 : M α _) := by
  refine mergeSkipRight.fixpoint_induct cmp middle (fun f => ∀ x0, NoAlloc (f x0)) NoAlloc.admissible1 ?_
  intro f ih x0
  noalloc

instance mergeFromRight_noAlloc {α : Type} (cmp : α → α → M α Bool) (c : Cfg) (first : Nat) [∀ a0 a1, NoAlloc (cmp a0 a1)] : ∀ x0 x1, NoAlloc (mergeFromRight cmp c first x0 x1 : M α _) := by
  refine mergeFromRight.fixpoint_induct cmp c first (fun f => ∀ x0 x1, NoAlloc (f x0 x1)) NoAlloc.admissible2 ?_
  intro f ih x0 x1
  noalloc

instance mergeWithoutBuffer_noAlloc {α : Type} (x0 : α → α → M α Bool) (x1 : Cfg) (x2 : Nat) (x3 : Nat) (x4 : Nat) [∀ a0 a1, NoAlloc (x0 a0 a1)] : NoAlloc (mergeWithoutBuffer x0 x1 x2 x3 x4 : M α Unit) := by
  unfold mergeWithoutBuffer
  noalloc

instance putRange_noAlloc {α : Type} (put : Nat → Nat → M α Unit) (last : Nat) [∀ a0 a1, NoAlloc (put a0 a1)] : ∀ first x1, NoAlloc (putRange put first last x1 : M α _) := by
  refine putRange.fixpoint_induct put last (fun f => ∀ x0 x1, NoAlloc (f x0 x1)) NoAlloc.admissible2 ?_
  intro f ih x0 x1
  noalloc

instance putBack_noAlloc {α : Type} (x0 : Nat → Nat → M α Unit) (x1 : Nat) (x2 : Nat) (x3 : Nat) [∀ a0 a1, NoAlloc (x0 a0 a1)] : NoAlloc (putBack x0 x1 x2 x3 : M α Unit) := by
  induction x3 generalizing x1 x2 <;> unfold putBack <;> noalloc

instance orGreater_noAlloc {α : Type} (x0 : α → α → M α Bool) (x1 : Bool) (x2 : Nat) (x3 : Nat) [∀ a0 a1, NoAlloc (x0 a0 a1)] : NoAlloc (orGreater x0 x1 x2 x3 : M α Bool) := by
  unfold orGreater
  noalloc

instance mergeLeftLoop_noAlloc {α : Type} (cmp : α → α → M α Bool) (put : Nat → Nat → M α Unit) (middle last : Nat) [∀ a0 a1, NoAlloc (cmp a0 a1)] [∀ a0 a1, NoAlloc (put a0 a1)] : ∀ x0 x1 x2, NoAlloc (mergeLeftLoop cmp put middle last x0 x1 x2 : M α _) := by
  refine mergeLeftLoop.fixpoint_induct cmp put middle last (fun f => ∀ x0 x1 x2, NoAlloc (f x0 x1 x2)) NoAlloc.admissible3 ?_
  intro f ih x0 x1 x2
  noalloc

instance mergeLeft_noAlloc {α : Type} (x0 : α → α → M α Bool) (x1 : Nat → Nat → M α Unit) (x2 : Nat) (x3 : Nat) (x4 : Nat) (x5 : Nat) [∀ a0 a1, NoAlloc (x0 a0 a1)] [∀ a0 a1, NoAlloc (x1 a0 a1)] : NoAlloc (mergeLeft x0 x1 x2 x3 x4 x5 : M α Unit) := by
  unfold mergeLeft
  noalloc

instance fragLess_noAlloc {α : Type} (x0 : α → α → M α Bool) (x1 : Bool) (x2 : Nat) (x3 : Nat) [∀ a0 a1, NoAlloc (x0 a0 a1)] : NoAlloc (fragLess x0 x1 x2 x3 : M α Bool) := by
  unfold fragLess
  noalloc

instance smartLoop_noAlloc {α : Type} (cmp : α → α → M α Bool) (put : Nat → Nat → M α Unit) (fragType : Bool) (middle last : Nat) [∀ a0 a1, NoAlloc (cmp a0 a1)] [∀ a0 a1, NoAlloc (put a0 a1)] : ∀ x0 x1 x2, NoAlloc (smartLoop cmp put fragType middle last x0 x1 x2 : M α _) := by
  refine smartLoop.fixpoint_induct cmp put fragType middle last (fun f => ∀ x0 x1 x2, NoAlloc (f x0 x1 x2)) NoAlloc.admissible3 ?_
  intro f ih x0 x1 x2
  noalloc

instance smartMerge_noAlloc {α : Type} (x0 : α → α → M α Bool) (x1 : Nat → Nat → M α Unit) (x2 : Nat) (x3 : Nat) (x4 : Nat) (x5 : Nat) (x6 : Bool) [∀ a0 a1, NoAlloc (x0 a0 a1)] [∀ a0 a1, NoAlloc (x1 a0 a1)] : NoAlloc (smartMerge x0 x1 x2 x3 x4 x5 x6 : M α (Nat × Bool)) := by
  unfold smartMerge
  noalloc

instance mergeRightLoop_noAlloc {α : Type} (cmp : α → α → M α Bool) (first middle : Nat) [∀ a0 a1, NoAlloc (cmp a0 a1)] : ∀ x0 x1 x2, NoAlloc (mergeRightLoop cmp first middle x0 x1 x2 : M α _) := by
  refine mergeRightLoop.fixpoint_induct cmp first middle (fun f => ∀ x0 x1 x2, NoAlloc (f x0 x1 x2)) NoAlloc.admissible3 ?_
  intro f ih x0 x1 x2
  noalloc

instance mergeRightLast_noAlloc {α : Type} (cmp : α → α → M α Bool) (middle p1 : Nat) [∀ a0 a1, NoAlloc (cmp a0 a1)] : ∀ p0 x1, NoAlloc (mergeRightLast cmp middle p0 p1 x1 : M α _) := by
  refine mergeRightLast.fixpoint_induct cmp middle p1 (fun f => ∀ x0 x1, NoAlloc (f x0 x1)) NoAlloc.admissible2 ?_
  intro f ih x0 x1
  noalloc

instance mergeRightFirst_noAlloc {α : Type} (x0 : α → α → M α Bool) (x1 : Nat) (x2 : Nat) (x3 : Nat) (x4 : Nat) (x5 : Nat) [∀ a0 a1, NoAlloc (x0 a0 a1)] : NoAlloc (mergeRightFirst x0 x1 x2 x3 x4 x5 : M α (Nat × Nat)) := by
  unfold mergeRightFirst
  noalloc

instance mergeRightRest_noAlloc {α : Type} (middle : Nat)  : ∀ x0 x1, NoAlloc (mergeRightRest middle x0 x1 : M α _) := by
  refine mergeRightRest.fixpoint_induct middle (fun f => ∀ x0 x1, NoAlloc (f x0 x1)) NoAlloc.admissible2 ?_
  intro f ih x0 x1
  noalloc

instance mergeRight_noAlloc {α : Type} (x0 : α → α → M α Bool) (x1 : Nat) (x2 : Nat) (x3 : Nat) (x4 : Nat) [∀ a0 a1, NoAlloc (x0 a0 a1)] : NoAlloc (mergeRight x0 x1 x2 x3 x4 : M α Unit) := by
  unfold mergeRight
  noalloc

instance smartBound_noAlloc {α : Type} (x0 : α → α → M α Bool) (x1 : Bool) (x2 : Nat) (x3 : Nat) (x4 : α) [∀ a0 a1, NoAlloc (x0 a0 a1)] : NoAlloc (smartBound x0 x1 x2 x3 x4 : M α Nat) := by
  unfold smartBound
  noalloc

instance smartSkip_noAlloc {α : Type} (cmp : α → α → M α Bool) (fragType : Bool) (middle : Nat) [∀ a0 a1, NoAlloc (cmp a0 a1)] : ∀ first, NoAlloc (smartSkip cmp fragType first middle : M α _) := by
  refine smartSkip.fixpoint_induct cmp fragType middle (fun f => ∀ x0, NoAlloc (f x0)) NoAlloc.admissible1 ?_
  intro f ih x0
  noalloc

instance smartRotate_noAlloc {α : Type} (cmp : α → α → M α Bool) (c : Cfg) (frag : Bool) (last : Nat) [∀ a0 a1, NoAlloc (cmp a0 a1)] : ∀ first middle, NoAlloc (smartRotate cmp c frag first middle last : M α _) := by
  refine smartRotate.fixpoint_induct cmp c frag last (fun f => ∀ x0 x1, NoAlloc (f x0 x1)) NoAlloc.admissible2 ?_
  intro f ih x0 x1
  noalloc

instance smartMergeWithout_noAlloc {α : Type} (x0 : α → α → M α Bool) (x1 : Cfg) (x2 : Nat) (x3 : Nat) (x4 : Nat) (x5 : Bool) [∀ a0 a1, NoAlloc (x0 a0 a1)] : NoAlloc (smartMergeWithout x0 x1 x2 x3 x4 x5 : M α (Nat × Bool)) := by
  unfold smartMergeWithout
  noalloc

instance GrailBuf_put_noAlloc {α : Type} (x0 : GrailBuf) (x1 : Nat) (x2 : Nat)  : NoAlloc (GrailBuf.put x0 x1 x2 : M α Unit) := by
  unfold GrailBuf.put
  noalloc

instance GrailBuf_emit_noAlloc {α : Type} (x0 : GrailBuf) (x1 : Nat) (x2 : Nat) (x3 : Nat)  : NoAlloc (GrailBuf.emit x0 x1 x2 x3 : M α Unit) := by
  unfold GrailBuf.emit
  noalloc

instance GrailBuf_smart_noAlloc {α : Type} (x0 : α → α → M α Bool) (x1 : Cfg) (x2 : GrailBuf) (x3 : Nat) (x4 : Nat) (x5 : Nat) (x6 : Bool) [∀ a0 a1, NoAlloc (x0 a0 a1)] : NoAlloc (GrailBuf.smart x0 x1 x2 x3 x4 x5 x6 : M α (Nat × Bool)) := by
  unfold GrailBuf.smart
  noalloc

instance GrailBuf_final_noAlloc {α : Type} (x0 : α → α → M α Bool) (x1 : Cfg) (x2 : GrailBuf) (x3 : Nat) (x4 : Nat) (x5 : Nat) (x6 : Nat) [∀ a0 a1, NoAlloc (x0 a0 a1)] : NoAlloc (GrailBuf.final x0 x1 x2 x3 x4 x5 x6 : M α Unit) := by
  unfold GrailBuf.final
  noalloc

instance grailStream_noAlloc {α : Type} (x0 : α → α → M α Bool) (x1 : Nat) (x2 : Nat) (x3 : Nat) [∀ a0 a1, NoAlloc (x0 a0 a1)] : NoAlloc (grailStream x0 x1 x2 x3 : M α Bool) := by
  unfold grailStream
  noalloc

instance mergeBuffersLoop_noAlloc {α : Type} (cmp : α → α → M α Bool) (c : Cfg) (b : GrailBuf) (keys midkey nblock lblock : Nat) [∀ a0 a1, NoAlloc (cmp a0 a1)] : ∀ x0 x1 x2 x3, NoAlloc (mergeBuffersLoop cmp c b keys midkey nblock lblock x0 x1 x2 x3 : M α _) := by
  refine mergeBuffersLoop.fixpoint_induct cmp c b keys midkey nblock lblock (fun f => ∀ x0 x1 x2 x3, NoAlloc (f x0 x1 x2 x3)) NoAlloc.admissible4 ?_
  intro f ih x0 x1 x2 x3
  noalloc

instance mergeBuffersEnd_noAlloc {α : Type} (x0 : α → α → M α Bool) (x1 : Cfg) (x2 : GrailBuf) (x3 : Nat) (x4 : Nat) (x5 : Nat) (x6 : Nat) (x7 : Nat) (x8 : Bool) [∀ a0 a1, NoAlloc (x0 a0 a1)] : NoAlloc (mergeBuffersEnd x0 x1 x2 x3 x4 x5 x6 x7 x8 : M α Unit) := by
  unfold mergeBuffersEnd
  noalloc

instance mergeBuffersLeft_noAlloc {α : Type} (x0 : α → α → M α Bool) (x1 : Cfg) (x2 : GrailBuf) (x3 : Nat) (x4 : Nat) (x5 : Nat) (x6 : Nat) (x7 : Nat) (x8 : Nat) (x9 : Nat) [∀ a0 a1, NoAlloc (x0 a0 a1)] : NoAlloc (mergeBuffersLeft x0 x1 x2 x3 x4 x5 x6 x7 x8 x9 : M α Unit) := by
  unfold mergeBuffersLeft
  noalloc

instance buildPairs_noAlloc {α : Type} (cmp : α → α → M α Bool) (put : Nat → Nat → M α Unit) (first size : Nat) [∀ a0 a1, NoAlloc (cmp a0 a1)] [∀ a0 a1, NoAlloc (put a0 a1)] : ∀ x0, NoAlloc (buildPairs cmp put first size x0 : M α _) := by
  refine buildPairs.fixpoint_induct cmp put first size (fun f => ∀ x0, NoAlloc (f x0)) NoAlloc.admissible1 ?_
  intro f ih x0
  noalloc

instance buildPass_noAlloc {α : Type} (cmp : α → α → M α Bool) (put : Nat → Nat → M α Unit) (tail : Nat → M α Unit) (h last : Nat) [∀ a0 a1, NoAlloc (cmp a0 a1)] [∀ a0 a1, NoAlloc (put a0 a1)] [∀ a0, NoAlloc (tail a0)] : ∀ x0, NoAlloc (buildPass cmp put tail h last x0 : M α _) := by
  refine buildPass.fixpoint_induct cmp put tail h last (fun f => ∀ x0, NoAlloc (f x0)) NoAlloc.admissible1 ?_
  intro f ih x0
  noalloc

instance buildPasses_noAlloc {α : Type} (cmp : α → α → M α Bool) (put : Nat → Nat → M α Unit) (tail : Nat → Nat → Nat → M α Unit) (limit : Nat) [∀ a0 a1, NoAlloc (cmp a0 a1)] [∀ a0 a1, NoAlloc (put a0 a1)] [∀ a0 a1 a2, NoAlloc (tail a0 a1 a2)] : ∀ x0 x1 x2, NoAlloc (buildPasses cmp put tail limit x0 x1 x2 : M α _) := by
  refine buildPasses.fixpoint_induct cmp put tail limit (fun f => ∀ x0 x1 x2, NoAlloc (f x0 x1 x2)) NoAlloc.admissible3 ?_
  intro f ih x0 x1 x2
  noalloc

instance buildRights_noAlloc {α : Type} (cmp : α → α → M α Bool) (K first : Nat) [∀ a0 a1, NoAlloc (cmp a0 a1)] : ∀ x0, NoAlloc (buildRights cmp K first x0 : M α _) := by
  refine buildRights.fixpoint_induct cmp K first (fun f => ∀ x0, NoAlloc (f x0)) NoAlloc.admissible1 ?_
  intro f ih x0
  noalloc

instance buildKbuf_noAlloc {α : Type}  : ∀ x0, NoAlloc (buildKbuf x0 : M α _) := by
  refine buildKbuf.fixpoint_induct  (fun f => ∀ x0, NoAlloc (f x0)) NoAlloc.admissible1 ?_
  intro f ih x0
  noalloc

instance buildStart_noAlloc {α : Type} (x0 : α → α → M α Bool) (x1 : Nat) (x2 : Nat) (x3 : Nat) (x4 : Nat) [∀ a0 a1, NoAlloc (x0 a0 a1)] : NoAlloc (buildStart x0 x1 x2 x3 x4 : M α (Nat × Nat × Nat)) := by
  unfold buildStart
  noalloc

instance buildLast_noAlloc {α : Type} (x0 : α → α → M α Bool) (x1 : Cfg) (x2 : Nat) (x3 : Nat) (x4 : Nat) [∀ a0 a1, NoAlloc (x0 a0 a1)] : NoAlloc (buildLast x0 x1 x2 x3 x4 : M α Unit) := by
  unfold buildLast
  noalloc

instance buildBlocks_noAlloc {α : Type} (x0 : α → α → M α Bool) (x1 : Cfg) (x2 : Nat) (x3 : Nat) (x4 : Nat) (x5 : Nat) (x6 : Nat) [∀ a0 a1, NoAlloc (x0 a0 a1)] : NoAlloc (buildBlocks x0 x1 x2 x3 x4 x5 x6 : M α Unit) := by
  unfold buildBlocks
  noalloc

instance keyGreater_noAlloc {α : Type} (x0 : α → α → M α Bool) (x1 : Int) (x2 : Nat) (x3 : Nat) (x4 : Nat) [∀ a0 a1, NoAlloc (x0 a0 a1)] : NoAlloc (keyGreater x0 x1 x2 x3 x4 : M α Bool) := by
  unfold keyGreater
  noalloc

instance blockGreater_noAlloc {α : Type} (x0 : α → α → M α Bool) (x1 : Nat) (x2 : Nat) (x3 : Nat) (x4 : Nat) (x5 : Nat) [∀ a0 a1, NoAlloc (x0 a0 a1)] : NoAlloc (blockGreater x0 x1 x2 x3 x4 x5 : M α Bool) := by
  unfold blockGreater
  noalloc

instance selectMin_noAlloc {α : Type} (cmp : α → α → M α Bool) (keys arr lblock nblk : Nat) [∀ a0 a1, NoAlloc (cmp a0 a1)] : ∀ x0 x1, NoAlloc (selectMin cmp keys arr lblock nblk x0 x1 : M α _) := by
  refine selectMin.fixpoint_induct cmp keys arr lblock nblk (fun f => ∀ x0 x1, NoAlloc (f x0 x1)) NoAlloc.admissible2 ?_
  intro f ih x0 x1
  noalloc

instance selectBlocks_noAlloc {α : Type} (cmp : α → α → M α Bool) (keys arr lblock nblk : Nat) [∀ a0 a1, NoAlloc (cmp a0 a1)] : ∀ x0 x1, NoAlloc (selectBlocks cmp keys arr lblock nblk x0 x1 : M α _) := by
  refine selectBlocks.fixpoint_induct cmp keys arr lblock nblk (fun f => ∀ x0 x1, NoAlloc (f x0 x1)) NoAlloc.admissible2 ?_
  intro f ih x0 x1
  noalloc

instance countLast_noAlloc {α : Type} (cmp : α → α → M α Bool) (arr lblock nblk : Nat) [∀ a0 a1, NoAlloc (cmp a0 a1)] : ∀ x0, NoAlloc (countLast cmp arr lblock nblk x0 : M α _) := by
  refine countLast.fixpoint_induct cmp arr lblock nblk (fun f => ∀ x0, NoAlloc (f x0)) NoAlloc.admissible1 ?_
  intro f ih x0
  noalloc

instance lastBlocks_noAlloc {α : Type} (x0 : α → α → M α Bool) (x1 : Nat) (x2 : Nat) (x3 : Nat) (x4 : Nat) [∀ a0 a1, NoAlloc (x0 a0 a1)] : NoAlloc (lastBlocks x0 x1 x2 x3 x4 : M α Nat) := by
  unfold lastBlocks
  noalloc

instance combineOne_noAlloc {α : Type} (x0 : α → α → M α Bool) (x1 : Cfg) (x2 : GrailBuf) (x3 : Nat) (x4 : Nat) (x5 : Nat) (x6 : Nat) (x7 : Nat) (x8 : Nat) (x9 : Nat) [∀ a0 a1, NoAlloc (x0 a0 a1)] : NoAlloc (combineOne x0 x1 x2 x3 x4 x5 x6 x7 x8 x9 : M α Unit) := by
  unfold combineOne
  noalloc

instance combineLoop_noAlloc {α : Type} (x0 : α → α → M α Bool) (x1 : Cfg) (x2 : GrailBuf) (x3 : Nat) (x4 : Nat) (x5 : Nat) (x6 : Nat) (x7 : Nat) (x8 : Nat) [∀ a0 a1, NoAlloc (x0 a0 a1)] : NoAlloc (combineLoop x0 x1 x2 x3 x4 x5 x6 x7 x8 : M α Unit) := by
  induction x8 generalizing x1 x2 x3 x4 x5 x6 x7 <;> unfold combineLoop <;> noalloc

instance combineBlocks_noAlloc {α : Type} (x0 : α → α → M α Bool) (x1 : Cfg) (x2 : GrailBuf) (x3 : Nat) (x4 : Nat) (x5 : Nat) (x6 : Nat) (x7 : Nat) (x8 : Nat) [∀ a0 a1, NoAlloc (x0 a0 a1)] : NoAlloc (combineBlocks x0 x1 x2 x3 x4 x5 x6 x7 x8 : M α Unit) := by
  unfold combineBlocks
  noalloc

instance lazyPairs_noAlloc {α : Type} (cmp : α → α → M α Bool) (stop : Nat) [∀ a0 a1, NoAlloc (cmp a0 a1)] : ∀ x0, NoAlloc (lazyPairs cmp stop x0 : M α _) := by
  refine lazyPairs.fixpoint_induct cmp stop (fun f => ∀ x0, NoAlloc (f x0)) NoAlloc.admissible1 ?_
  intro f ih x0
  noalloc

instance lazyPass_noAlloc {α : Type} (cmp : α → α → M α Bool) (c : Cfg) (h last : Nat) [∀ a0 a1, NoAlloc (cmp a0 a1)] : ∀ x0, NoAlloc (lazyPass cmp c h last x0 : M α _) := by
  refine lazyPass.fixpoint_induct cmp c h last (fun f => ∀ x0, NoAlloc (f x0)) NoAlloc.admissible1 ?_
  intro f ih x0
  noalloc

instance lazyPasses_noAlloc {α : Type} (cmp : α → α → M α Bool) (c : Cfg) (first last : Nat) [∀ a0 a1, NoAlloc (cmp a0 a1)] : ∀ x0, NoAlloc (lazyPasses cmp c first last x0 : M α _) := by
  refine lazyPasses.fixpoint_induct cmp c first last (fun f => ∀ x0, NoAlloc (f x0)) NoAlloc.admissible1 ?_
  intro f ih x0
  noalloc

instance lazyStableSort_noAlloc {α : Type} (x0 : α → α → M α Bool) (x1 : Cfg) (x2 : Nat) (x3 : Nat) [∀ a0 a1, NoAlloc (x0 a0 a1)] : NoAlloc (lazyStableSort x0 x1 x2 x3 : M α Unit) := by
  unfold lazyStableSort
  noalloc

instance grailBlockLen_noAlloc {α : Type} (size : Nat)  : ∀ x0, NoAlloc (grailBlockLen size x0 : M α _) := by
  refine grailBlockLen.fixpoint_induct size (fun f => ∀ x0, NoAlloc (f x0)) NoAlloc.admissible1 ?_
  intro f ih x0
  noalloc

instance grailKeyCount_noAlloc {α : Type} (found : Nat)  : ∀ x0, NoAlloc (grailKeyCount found x0 : M α _) := by
  refine grailKeyCount.fixpoint_induct found (fun f => ∀ x0, NoAlloc (f x0)) NoAlloc.admissible1 ?_
  intro f ih x0
  noalloc

instance grailFewKeys_noAlloc {α : Type} (nkeys : Nat)  : ∀ x0 x1, NoAlloc (grailFewKeys nkeys x0 x1 : M α _) := by
  refine grailFewKeys.fixpoint_induct nkeys (fun f => ∀ x0 x1, NoAlloc (f x0 x1)) NoAlloc.admissible2 ?_
  intro f ih x0 x1
  noalloc

instance grailChoose_noAlloc {α : Type} (x0 : Bool) (x1 : Nat) (x2 : Nat) (x3 : Nat) (x4 : Nat)  : NoAlloc (grailChoose x0 x1 x2 x3 x4 : M α (Nat × Bool)) := by
  unfold grailChoose
  noalloc

instance grailCombine_noAlloc {α : Type} (cmp : α → α → M α Bool) (c : Cfg) (havebuf : Bool) (lblock nkeys found first ptr last extbuf LExtBuf : Nat) [∀ a0 a1, NoAlloc (cmp a0 a1)] : ∀ x0, NoAlloc (grailCombine cmp c havebuf lblock nkeys found first ptr last extbuf LExtBuf x0 : M α _) := by
  refine grailCombine.fixpoint_induct cmp c havebuf lblock nkeys found first ptr last extbuf LExtBuf (fun f => ∀ x0, NoAlloc (f x0)) NoAlloc.admissible1 ?_
  intro f ih x0
  noalloc

instance grailWithKeys_noAlloc {α : Type} (x0 : α → α → M α Bool) (x1 : Cfg) (x2 : Bool) (x3 : Nat) (x4 : Nat) (x5 : Nat) (x6 : Nat) (x7 : Nat) (x8 : Nat) (x9 : Nat) [∀ a0 a1, NoAlloc (x0 a0 a1)] : NoAlloc (grailWithKeys x0 x1 x2 x3 x4 x5 x6 x7 x8 x9 : M α Unit) := by
  unfold grailWithKeys
  noalloc

instance commonSort_noAlloc {α : Type} (x0 : α → α → M α Bool) (x1 : Cfg) (x2 : Nat) (x3 : Nat) (x4 : Nat) (x5 : Nat) [∀ a0 a1, NoAlloc (x0 a0 a1)] : NoAlloc (commonSort x0 x1 x2 x3 x4 x5 : M α Unit) := by
  unfold commonSort
  noalloc

instance divC_noAlloc {α : Type} (x0 : Nat) (x1 : Nat)  : NoAlloc (divC x0 x1 : M α Nat) := by
  unfold divC
  noalloc

instance wikiLt_noAlloc {α : Type} (x0 : α → α → M α Bool) (x1 : Nat) (x2 : Nat) [∀ a0 a1, NoAlloc (x0 a0 a1)] : NoAlloc (wikiLt x0 x1 x2 : M α Bool) := by
  unfold wikiLt
  noalloc

instance findFwdLoop_noAlloc {α : Type} (go : α → M α Bool) (bound : Nat → Nat → M α Nat) (skip last : Nat) [∀ a0, NoAlloc (go a0)] [∀ a0 a1, NoAlloc (bound a0 a1)] : ∀ x0, NoAlloc (findFwdLoop go bound skip last x0 : M α _) := by
  refine findFwdLoop.fixpoint_induct go bound skip last (fun f => ∀ x0, NoAlloc (f x0)) NoAlloc.admissible1 ?_
  intro f ih x0
  noalloc

instance findBwdLoop_noAlloc {α : Type} (go : α → M α Bool) (bound : Nat → Nat → M α Nat) (skip first : Nat) [∀ a0, NoAlloc (go a0)] [∀ a0 a1, NoAlloc (bound a0 a1)] : ∀ x0, NoAlloc (findBwdLoop go bound skip first x0 : M α _) := by
  refine findBwdLoop.fixpoint_induct go bound skip first (fun f => ∀ x0, NoAlloc (f x0)) NoAlloc.admissible1 ?_
  intro f ih x0
  noalloc

instance findFirstForward_noAlloc {α : Type} (x0 : α → α → M α Bool) (x1 : Nat) (x2 : Nat) (x3 : α) (x4 : Nat) [∀ a0 a1, NoAlloc (x0 a0 a1)] : NoAlloc (findFirstForward x0 x1 x2 x3 x4 : M α Nat) := by
  unfold findFirstForward
  noalloc

instance findLastForward_noAlloc {α : Type} (x0 : α → α → M α Bool) (x1 : Nat) (x2 : Nat) (x3 : α) (x4 : Nat) [∀ a0 a1, NoAlloc (x0 a0 a1)] : NoAlloc (findLastForward x0 x1 x2 x3 x4 : M α Nat) := by
  unfold findLastForward
  noalloc

instance findFirstBackward_noAlloc {α : Type} (x0 : α → α → M α Bool) (x1 : Nat) (x2 : Nat) (x3 : α) (x4 : Nat) [∀ a0 a1, NoAlloc (x0 a0 a1)] : NoAlloc (findFirstBackward x0 x1 x2 x3 x4 : M α Nat) := by
  unfold findFirstBackward
  noalloc

instance findLastBackward_noAlloc {α : Type} (x0 : α → α → M α Bool) (x1 : Nat) (x2 : Nat) (x3 : α) (x4 : Nat) [∀ a0 a1, NoAlloc (x0 a0 a1)] : NoAlloc (findLastBackward x0 x1 x2 x3 x4 : M α Nat) := by
  unfold findLastBackward
  noalloc

instance mergeInternalLoop_noAlloc {α : Type} (cmp : α → α → M α Bool) (aLast bLast : Nat) [∀ a0 a1, NoAlloc (cmp a0 a1)] : ∀ x0 x1 x2, NoAlloc (mergeInternalLoop cmp aLast bLast x0 x1 x2 : M α _) := by
  refine mergeInternalLoop.fixpoint_induct cmp aLast bLast (fun f => ∀ x0 x1 x2, NoAlloc (f x0 x1 x2)) NoAlloc.admissible3 ?_
  intro f ih x0 x1 x2
  noalloc

instance mergeInternal_noAlloc {α : Type} (x0 : α → α → M α Bool) (x1 : Nat) (x2 : Nat) (x3 : Nat) (x4 : Nat) (x5 : Nat) [∀ a0 a1, NoAlloc (x0 a0 a1)] : NoAlloc (mergeInternal x0 x1 x2 x3 x4 x5 : M α Unit) := by
  unfold mergeInternal
  noalloc

instance mergeInPlaceLoop_noAlloc {α : Type} (cmp : α → α → M α Bool) (c : Cfg) (last : Nat) [∀ a0 a1, NoAlloc (cmp a0 a1)] : ∀ first middle, NoAlloc (mergeInPlaceLoop cmp c first middle last : M α _) := by
  refine mergeInPlaceLoop.fixpoint_induct cmp c last (fun f => ∀ x0 x1, NoAlloc (f x0 x1)) NoAlloc.admissible2 ?_
  intro f ih x0 x1
  noalloc

instance mergeInPlace_noAlloc {α : Type} (x0 : α → α → M α Bool) (x1 : Cfg) (x2 : Nat) (x3 : Nat) (x4 : Nat) [∀ a0 a1, NoAlloc (x0 a0 a1)] : NoAlloc (mergeInPlace x0 x1 x2 x3 x4 : M α Unit) := by
  unfold mergeInPlace
  noalloc

instance wikiOut_noAlloc {α : Type} (x0 : α → α → M α Bool) (x1 : Nat) (x2 : Nat → Nat) (x3 : Nat) (x4 : Nat) [∀ a0 a1, NoAlloc (x0 a0 a1)] : NoAlloc (wikiOut x0 x1 x2 x3 x4 : M α Bool) := by
  unfold wikiOut
  noalloc

instance wikiNetwork_noAlloc {α : Type} (x0 : α → α → M α Bool) (x1 : Nat) (x2 : Nat → Nat) (x3 : List (Nat × Nat)) [∀ a0 a1, NoAlloc (x0 a0 a1)] : NoAlloc (wikiNetwork x0 x1 x2 x3 : M α Unit) := by
  induction x3 generalizing x1 x2 <;> unfold wikiNetwork <;> noalloc

instance wikiGroups_noAlloc {α : Type} (cmp : α → α → M α Bool) (first : Nat) [∀ a0 a1, NoAlloc (cmp a0 a1)] : ∀ x0, NoAlloc (wikiGroups cmp first x0 : M α _) := by
  refine wikiGroups.fixpoint_induct cmp first (fun f => ∀ x0, NoAlloc (f x0)) NoAlloc.admissible1 ?_
  intro f ih x0
  noalloc

instance wikiMergeTo_noAlloc {α : Type} (x0 : α → α → M α Bool) (x1 : M α Bool) (x2 : Nat) (x3 : Nat) (x4 : Nat) (x5 : Nat) [∀ a0 a1, NoAlloc (x0 a0 a1)] [NoAlloc x1] : NoAlloc (wikiMergeTo x0 x1 x2 x3 x4 x5 : M α Bool) := by
  unfold wikiMergeTo
  noalloc

instance wikiInOrder_noAlloc {α : Type} (x0 : α → α → M α Bool) (x1 : Nat) (x2 : Nat) [∀ a0 a1, NoAlloc (x0 a0 a1)] : NoAlloc (wikiInOrder x0 x1 x2 : M α Bool) := by
  unfold wikiInOrder
  noalloc

instance wikiFour_noAlloc {α : Type} (x0 : α → α → M α Bool) (x1 : Nat) (x2 : Nat) (x3 : Nat) (x4 : Nat) (x5 : Nat) (x6 : Nat) [∀ a0 a1, NoAlloc (x0 a0 a1)] : NoAlloc (wikiFour x0 x1 x2 x3 x4 x5 x6 : M α Unit) := by
  unfold wikiFour
  noalloc

instance wikiFours_noAlloc {α : Type} (cmp : α → α → M α Bool) (first cache : Nat) [∀ a0 a1, NoAlloc (cmp a0 a1)] : ∀ x0, NoAlloc (wikiFours cmp first cache x0 : M α _) := by
  refine wikiFours.fixpoint_induct cmp first cache (fun f => ∀ x0, NoAlloc (f x0)) NoAlloc.admissible1 ?_
  intro f ih x0
  noalloc

instance wikiPairs_noAlloc {α : Type} (body : Nat → Nat → Nat → M α Unit) (first : Nat) [∀ a0 a1 a2, NoAlloc (body a0 a1 a2)] : ∀ x0, NoAlloc (wikiPairs body first x0 : M α _) := by
  refine wikiPairs.fixpoint_induct body first (fun f => ∀ x0, NoAlloc (f x0)) NoAlloc.admissible1 ?_
  intro f ih x0
  noalloc

instance placeFrom_noAlloc {α : Type} (x0 : Nat) (x1 : Nat)  : NoAlloc (placeFrom x0 x1 : M α Unit) := by
  refine .of_step fun s => ?_
  unfold placeFrom
  repeat' split
  all_goals rfl

instance placeRange_noAlloc {α : Type} (last : Nat)  : ∀ first x1, NoAlloc (placeRange first last x1 : M α _) := by
  refine placeRange.fixpoint_induct last (fun f => ∀ x0 x1, NoAlloc (f x0 x1)) NoAlloc.admissible2 ?_
  intro f ih x0 x1
  noalloc

instance wikiMoveIn_noAlloc {α : Type} (x0 : TypeTraits) (x1 : Nat) (x2 : Nat) (x3 : Nat)  : NoAlloc (wikiMoveIn x0 x1 x2 x3 : M α Nat) := by
  unfold wikiMoveIn
  noalloc

instance wikiGuard_noAlloc {α : Type} (x0 : TypeTraits) (x1 : Nat) (x2 : Nat)  : NoAlloc (wikiGuard x0 x1 x2 : M α Unit) := by
  unfold wikiGuard
  noalloc

instance wikiBuffered_noAlloc {α : Type} (x0 : α → α → M α Bool) (x1 : TypeTraits) (x2 : Nat) (x3 : Nat) (x4 : Nat) (x5 : Nat) (x6 : Nat) (x7 : Nat) [∀ a0 a1, NoAlloc (x0 a0 a1)] : NoAlloc (wikiBuffered x0 x1 x2 x3 x4 x5 x6 x7 : M α Unit) := by
  unfold wikiBuffered
  noalloc

instance wikiTwo_noAlloc {α : Type} (x0 : α → α → M α Bool) (x1 : Cfg) (x2 : TypeTraits) (x3 : Nat) (x4 : Nat) (x5 : Nat) (x6 : Nat) [∀ a0 a1, NoAlloc (x0 a0 a1)] : NoAlloc (wikiTwo x0 x1 x2 x3 x4 x5 x6 : M α Unit) := by
  unfold wikiTwo
  noalloc

instance wikiCountA_noAlloc {α : Type} (cmp : α → α → M α Bool) (find aEnd : Nat) [∀ a0 a1, NoAlloc (cmp a0 a1)] : ∀ x0 x1, NoAlloc (wikiCountA cmp find aEnd x0 x1 : M α _) := by
  refine wikiCountA.fixpoint_induct cmp find aEnd (fun f => ∀ x0 x1, NoAlloc (f x0 x1)) NoAlloc.admissible2 ?_
  intro f ih x0 x1
  noalloc

instance wikiCountB_noAlloc {α : Type} (cmp : α → α → M α Bool) (find bStart : Nat) [∀ a0 a1, NoAlloc (cmp a0 a1)] : ∀ x0 x1, NoAlloc (wikiCountB cmp find bStart x0 x1 : M α _) := by
  refine wikiCountB.fixpoint_induct cmp find bStart (fun f => ∀ x0 x1, NoAlloc (f x0 x1)) NoAlloc.admissible2 ?_
  intro f ih x0 x1
  noalloc

instance wikiSearch_noAlloc {α : Type} (cmp : α → α → M α Bool) (fit : Bool) (bufSize first : Nat) [∀ a0 a1, NoAlloc (cmp a0 a1)] : ∀ x0 x1, NoAlloc (wikiSearch cmp fit bufSize first x0 x1 : M α _) := by
  refine wikiSearch.fixpoint_induct cmp fit bufSize first (fun f => ∀ x0 x1, NoAlloc (f x0 x1)) NoAlloc.admissible2 ?_
  intro f ih x0 x1
  noalloc

instance wikiPullLeft_noAlloc {α : Type} (cmp : α → α → M α Bool) (c : Cfg) (length dst : Nat) [∀ a0 a1, NoAlloc (cmp a0 a1)] : ∀ x0 x1 x2, NoAlloc (wikiPullLeft cmp c length dst x0 x1 x2 : M α _) := by
  refine wikiPullLeft.fixpoint_induct cmp c length dst (fun f => ∀ x0 x1 x2, NoAlloc (f x0 x1 x2)) NoAlloc.admissible3 ?_
  intro f ih x0 x1 x2
  noalloc

instance wikiPullRight_noAlloc {α : Type} (cmp : α → α → M α Bool) (c : Cfg) (length dst : Nat) [∀ a0 a1, NoAlloc (cmp a0 a1)] : ∀ x0 x1 x2, NoAlloc (wikiPullRight cmp c length dst x0 x1 x2 : M α _) := by
  refine wikiPullRight.fixpoint_induct cmp c length dst (fun f => ∀ x0 x1 x2, NoAlloc (f x0 x1 x2)) NoAlloc.admissible3 ?_
  intro f ih x0 x1 x2
  noalloc

instance wikiPull_noAlloc {α : Type} (x0 : α → α → M α Bool) (x1 : Cfg) (x2 : WPull) [∀ a0 a1, NoAlloc (x0 a0 a1)] : NoAlloc (wikiPull x0 x1 x2 : M α WPull) := by
  unfold wikiPull
  noalloc

instance wikiTag_noAlloc {α : Type} (bs stop : Nat)  : ∀ x0 x1, NoAlloc (wikiTag bs stop x0 x1 : M α _) := by
  refine wikiTag.fixpoint_induct bs stop (fun f => ∀ x0 x1, NoAlloc (f x0 x1)) NoAlloc.admissible2 ?_
  intro f ih x0 x1
  noalloc

instance wikiSave_noAlloc {α : Type} (x0 : WMerge) (x1 : Nat) (x2 : Nat)  : NoAlloc (wikiSave x0 x1 x2 : M α Unit) := by
  unfold wikiSave
  noalloc

instance wikiLocal_noAlloc {α : Type} (x0 : α → α → M α Bool) (x1 : Cfg) (x2 : WMerge) (x3 : Nat) (x4 : Nat) (x5 : Nat) [∀ a0 a1, NoAlloc (x0 a0 a1)] : NoAlloc (wikiLocal x0 x1 x2 x3 x4 x5 : M α Unit) := by
  unfold wikiLocal
  noalloc

instance wikiShift_noAlloc {α : Type} (x0 : Cfg) (x1 : WMerge) (x2 : Nat) (x3 : Nat) (x4 : Nat)  : NoAlloc (wikiShift x0 x1 x2 x3 x4 : M α Unit) := by
  unfold wikiShift
  noalloc

instance wikiDrop_noAlloc {α : Type} (x0 : α → α → M α Bool) (x1 : Nat) (x2 : Nat) (x3 : Nat) (x4 : Nat) (x5 : Nat) [∀ a0 a1, NoAlloc (x0 a0 a1)] : NoAlloc (wikiDrop x0 x1 x2 x3 x4 x5 : M α Bool) := by
  unfold wikiDrop
  noalloc

instance wikiMinBlock_noAlloc {α : Type} (cmp : α → α → M α Bool) (bs stop : Nat) [∀ a0 a1, NoAlloc (cmp a0 a1)] : ∀ x0 x1, NoAlloc (wikiMinBlock cmp bs stop x0 x1 : M α _) := by
  refine wikiMinBlock.fixpoint_induct cmp bs stop (fun f => ∀ x0 x1, NoAlloc (f x0 x1)) NoAlloc.admissible2 ?_
  intro f ih x0 x1
  noalloc

instance wikiRoll_noAlloc {α : Type} (cmp : α → α → M α Bool) (c : Cfg) (w : WMerge) (e : Nat) [∀ a0 a1, NoAlloc (cmp a0 a1)] : ∀ x0 x1 x2 x3 x4 x5 x6 x7 x8, NoAlloc (wikiRoll cmp c w e x0 x1 x2 x3 x4 x5 x6 x7 x8 : M α _) := by
  refine wikiRoll.fixpoint_induct cmp c w e (fun f => ∀ x0 x1 x2 x3 x4 x5 x6 x7 x8, NoAlloc (f x0 x1 x2 x3 x4 x5 x6 x7 x8)) NoAlloc.admissible9 ?_
  intro f ih x0 x1 x2 x3 x4 x5 x6 x7 x8
  noalloc

instance wikiRollAll_noAlloc {α : Type} (x0 : α → α → M α Bool) (x1 : Cfg) (x2 : WMerge) (x3 : Nat) (x4 : Nat) (x5 : Nat) (x6 : Nat) (x7 : Nat) (x8 : Nat) [∀ a0 a1, NoAlloc (x0 a0 a1)] : NoAlloc (wikiRollAll x0 x1 x2 x3 x4 x5 x6 x7 x8 : M α WRange) := by
  unfold wikiRollAll
  noalloc

instance wikiBlocks_noAlloc {α : Type} (x0 : α → α → M α Bool) (x1 : Cfg) (x2 : WMerge) (x3 : Nat) (x4 : Nat) (x5 : Nat) (x6 : Nat) (x7 : Nat) [∀ a0 a1, NoAlloc (x0 a0 a1)] : NoAlloc (wikiBlocks x0 x1 x2 x3 x4 x5 x6 x7 : M α Unit) := by
  unfold wikiBlocks
  noalloc

instance wikiMerge_noAlloc {α : Type} (x0 : α → α → M α Bool) (x1 : Cfg) (x2 : WMerge) (x3 : Nat) (x4 : Nat) (x5 : Nat) (x6 : Nat) (x7 : Nat) [∀ a0 a1, NoAlloc (x0 a0 a1)] : NoAlloc (wikiMerge x0 x1 x2 x3 x4 x5 x6 x7 : M α Unit) := by
  unfold wikiMerge
  noalloc

instance wikiBody_noAlloc {α : Type} (x0 : α → α → M α Bool) (x1 : Cfg) (x2 : WMerge) (x3 : WPull) (x4 : WPull) (x5 : Nat) (x6 : Nat) (x7 : Nat) (x8 : Nat) (x9 : Nat) [∀ a0 a1, NoAlloc (x0 a0 a1)] : NoAlloc (wikiBody x0 x1 x2 x3 x4 x5 x6 x7 x8 x9 : M α Unit) := by
  unfold wikiBody
  noalloc

instance wikiSpreadRight_noAlloc {α : Type} (cmp : α → α → M α Bool) (c : Cfg) (hi : Nat) [∀ a0 a1, NoAlloc (cmp a0 a1)] : ∀ x0 x1 x2, NoAlloc (wikiSpreadRight cmp c hi x0 x1 x2 : M α _) := by
  refine wikiSpreadRight.fixpoint_induct cmp c hi (fun f => ∀ x0 x1 x2, NoAlloc (f x0 x1 x2)) NoAlloc.admissible3 ?_
  intro f ih x0 x1 x2
  noalloc

instance wikiSpreadLeft_noAlloc {α : Type} (cmp : α → α → M α Bool) (c : Cfg) (lo : Nat) [∀ a0 a1, NoAlloc (cmp a0 a1)] : ∀ x0 x1 x2, NoAlloc (wikiSpreadLeft cmp c lo x0 x1 x2 : M α _) := by
  refine wikiSpreadLeft.fixpoint_induct cmp c lo (fun f => ∀ x0 x1 x2, NoAlloc (f x0 x1 x2)) NoAlloc.admissible3 ?_
  intro f ih x0 x1 x2
  noalloc

instance wikiSpread_noAlloc {α : Type} (x0 : α → α → M α Bool) (x1 : Cfg) (x2 : WPull) [∀ a0 a1, NoAlloc (x0 a0 a1)] : NoAlloc (wikiSpread x0 x1 x2 : M α Unit) := by
  unfold wikiSpread
  noalloc

instance wikiInPlace_noAlloc {α : Type} (x0 : α → α → M α Bool) (x1 : Cfg) (x2 : Nat → Nat) (x3 : Nat) (x4 : Nat) (x5 : Nat) (x6 : WIter) [∀ a0 a1, NoAlloc (x0 a0 a1)] : NoAlloc (wikiInPlace x0 x1 x2 x3 x4 x5 x6 : M α Unit) := by
  unfold wikiInPlace
  noalloc

instance wikiLevel_noAlloc {α : Type} (x0 : α → α → M α Bool) (x1 : Cfg) (x2 : TypeTraits) (x3 : Nat → Nat) (x4 : Nat) (x5 : Nat) (x6 : Nat) (x7 : WIter) [∀ a0 a1, NoAlloc (x0 a0 a1)] : NoAlloc (wikiLevel x0 x1 x2 x3 x4 x5 x6 x7 : M α WIter) := by
  unfold wikiLevel
  noalloc

instance wikiLevels_noAlloc {α : Type} (cmp : α → α → M α Bool) (c : Cfg) (t : TypeTraits) (junk : Nat → Nat → Nat) (cache cs first : Nat) [∀ a0 a1, NoAlloc (cmp a0 a1)] : ∀ x0, NoAlloc (wikiLevels cmp c t junk cache cs first x0 : M α _) := by
  refine wikiLevels.fixpoint_induct cmp c t junk cache cs first (fun f => ∀ x0, NoAlloc (f x0)) NoAlloc.admissible1 ?_
  intro f ih x0
  noalloc

instance wikiSortWith_noAlloc {α : Type} (x0 : α → α → M α Bool) (x1 : Cfg) (x2 : TypeTraits) (x3 : Nat → Nat → Nat) (x4 : Nat) (x5 : Nat) (x6 : Nat) (x7 : Nat) [∀ a0 a1, NoAlloc (x0 a0 a1)] : NoAlloc (wikiSortWith x0 x1 x2 x3 x4 x5 x6 x7 : M α Unit) := by
  unfold wikiSortWith
  noalloc

end CppSort
