import Verif.Model.QuickMerge
import Verif.Base.CostFix
import Verif.Proof.SymCost
import Verif.Proof.PdqBlockCost
/-
The least number of comparisons of quick_merge_sorter.
-/
set_option autoImplicit false

namespace CppSort
variable {α β γ : Type} {lt : α → α → Bool}

/-! ### The number of comparisons never decreases -/

/-- `m` does not decrease the number of comparisons. -/
def Grows (m : M α β) : Prop := Cost 0 m fun _ _ => True

theorem Grows.pure {x : β} : Grows (Pure.pure x : M α β) := Cost.pure trivial

theorem Grows.bind {m : M α β} {k : β → M α γ} (h : Grows m) (hk : ∀ r, Grows (k r)) : Grows (m >>= k) :=
  Cost.bind h fun r _ _ => hk r

theorem Silent.grows {m : M α β} (h : Silent m) : Grows m := h.cost fun _ => trivial

theorem grows_tick (x y : α) : Grows (tick lt x y) := Cost.tick trivial

theorem Grows.admissible1 {δ : Type} : Lean.Order.admissible (fun f : δ → M α β => ∀ x, Grows (f x)) :=
  Cost.admissible1

theorem Grows.admissible2 {δ ε : Type} : Lean.Order.admissible (fun f : δ → ε → M α β => ∀ x y, Grows (f x y)) :=
  Cost.admissible2

theorem Grows.admissible3 {δ ε ζ : Type} :
    Lean.Order.admissible (fun f : δ → ε → ζ → M α β => ∀ x y z, Grows (f x y z)) :=
  Cost.admissible3

theorem Grows.admissible4 {δ ε ζ η : Type} :
    Lean.Order.admissible (fun f : δ → ε → ζ → η → M α β => ∀ x y z w, Grows (f x y z w)) :=
  Lean.Order.admissible_pi_apply (fun _ (f : ε → ζ → η → M α β) => ∀ y z w, Grows (f y z w)) fun _ => Cost.admissible3

set_option synthInstance.maxSize 1024 in
set_option synthInstance.maxHeartbeats 400000 in
theorem Grows.admissible5 {δ ε ζ η θ : Type} :
    Lean.Order.admissible (fun f : δ → ε → ζ → η → θ → M α β => ∀ x y z w u, Grows (f x y z w u)) :=
  Lean.Order.admissible_pi_apply (fun _ (f : ε → ζ → η → θ → M α β) => ∀ y z w u, Grows (f y z w u))
    fun _ => Grows.admissible4

syntax "grows1" : tactic
macro_rules | `(tactic| grows1) => `(tactic| with_reducible exact Grows.pure)
macro_rules | `(tactic| grows1) => `(tactic| with_reducible exact (silent_read _).grows)
macro_rules | `(tactic| grows1) => `(tactic| with_reducible exact (silent_swap _ _).grows)
macro_rules | `(tactic| grows1) => `(tactic| with_reducible exact (silent_moveTo _ _).grows)
macro_rules | `(tactic| grows1) => `(tactic| with_reducible exact (silent_moveOut _).grows)
macro_rules | `(tactic| grows1) => `(tactic| with_reducible exact (silent_assign _ _).grows)
macro_rules | `(tactic| grows1) => `(tactic| with_reducible exact (silent_fail _).grows)
macro_rules | `(tactic| grows1) => `(tactic| with_reducible exact grows_tick _ _)

/-- Goes through a program. -/
syntax "grows" "[" term,* "]" : tactic
macro_rules | `(tactic| grows [$ts,*]) => do
  let ts := ts.getElems
  `(tactic| repeat' (first
    | grows1
    | (with_reducible first $[| apply $ts]* | fail)
    | with_reducible refine Grows.bind ?_ fun _ => ?_
    | dsimp only
    | split))

macro_rules | `(tactic| grows1) => `(tactic| with_reducible exact (swapRanges_silent _ _ _).grows)

theorem partSkip_grows {pred : Nat → M α Bool} (h : ∀ i, Grows (pred i)) (last : Nat) :
    ∀ first, Grows (partSkip pred first last) := by
  refine partSkip.fixpoint_induct pred last (fun f => ∀ x, Grows (f x)) Grows.admissible1 ?_
  intro f ih x
  grows [ih, h]

theorem partFwdLoop_grows {pred : Nat → M α Bool} (h : ∀ i, Grows (pred i)) (last : Nat) :
    ∀ first p, Grows (partFwdLoop pred first p last) := by
  refine partFwdLoop.fixpoint_induct pred last (fun f => ∀ x y, Grows (f x y)) Grows.admissible2 ?_
  intro f ih x y
  grows [ih, h]

theorem partBack_grows {pred : Nat → M α Bool} (h : ∀ i, Grows (pred i)) (first : Nat) :
    ∀ last, Grows (partBack pred first last) := by
  refine partBack.fixpoint_induct pred first (fun f => ∀ x, Grows (f x)) Grows.admissible1 ?_
  intro f ih x
  grows [ih, h]

theorem partitionBi_grows {pred : Nat → M α Bool} (h : ∀ i, Grows (pred i)) :
    ∀ first last, Grows (partitionBi pred first last) := by
  refine partitionBi.fixpoint_induct pred (fun f => ∀ x y, Grows (f x y)) Grows.admissible2 ?_
  intro f ih x y
  have h1 := partSkip_grows h
  have h2 := partBack_grows h
  grows [ih, h, h1, h2]

theorem partition_grows {pred : Nat → M α Bool} (h : ∀ i, Grows (pred i)) (cat : Cat) (first last : Nat) :
    Grows (partition cat pred first last) := by
  have h1 := partSkip_grows h
  have h2 := partFwdLoop_grows h
  have h3 := partitionBi_grows h
  unfold partition partitionFwd
  grows [h, h1, h2, h3]

theorem iterSwapIf_grows (i j : Nat) : Grows (iterSwapIf (tick lt) i j) := by
  unfold iterSwapIf
  grows []
macro_rules | `(tactic| grows1) => `(tactic| with_reducible exact iterSwapIf_grows _ _)

theorem iterSort3_grows (a b c : Nat) : Grows (iterSort3 (tick lt) a b c) := by
  unfold iterSort3
  grows []
macro_rules | `(tactic| grows1) => `(tactic| with_reducible exact iterSort3_grows _ _ _)

theorem minElementLoop_grows (last : Nat) : ∀ first min, Grows (minElementLoop (tick lt) first last min) := by
  refine minElementLoop.fixpoint_induct (tick lt) last (fun f => ∀ x y, Grows (f x y)) Grows.admissible2 ?_
  intro f ih x y
  grows [ih]
macro_rules | `(tactic| grows1) => `(tactic| with_reducible exact minElementLoop_grows _ _ _)

theorem selectionSort_grows (first last : Nat) : Grows (selectionSort (tick lt) first last) := by
  have : ∀ it, Grows (selectionSortLoop (tick lt) last it) := by
    refine selectionSortLoop.fixpoint_induct (tick lt) last (fun f => ∀ x, Grows (f x)) Grows.admissible1 ?_
    intro f ih x
    unfold uncheckedMinElement
    grows [ih]
  exact this _

theorem insertionShift_grows (first : Nat) (tmp : α) : ∀ sift, Grows (insertionShift (tick lt) first tmp sift) := by
  refine insertionShift.fixpoint_induct (tick lt) first tmp (fun f => ∀ x, Grows (f x)) Grows.admissible1 ?_
  intro f ih x
  grows [ih]
macro_rules | `(tactic| grows1) => `(tactic| with_reducible exact insertionShift_grows _ _ _)

theorem insertionSort_grows (first last : Nat) : Grows (insertionSort (tick lt) first last) := by
  have : ∀ cur, Grows (insertionLoop (tick lt) first last cur) := by
    refine insertionLoop.fixpoint_induct (tick lt) first last (fun f => ∀ x, Grows (f x)) Grows.admissible1 ?_
    intro f ih x
    unfold insertOne
    grows [ih]
  unfold insertionSort
  grows [this]

theorem smallSort_grows (cat : Cat) (first last : Nat) : Grows (smallSort (tick lt) cat first last) := by
  unfold smallSort
  grows [selectionSort_grows, insertionSort_grows]
macro_rules | `(tactic| grows1) => `(tactic| with_reducible exact smallSort_grows _ _ _)

/-! ### introselect.h -/

theorem iterMedian5_grows (a b c d e : Nat) : Grows (iterMedian5 (tick lt) a b c d e) := by
  unfold iterMedian5
  grows []
macro_rules | `(tactic| grows1) => `(tactic| with_reducible exact iterMedian5_grows _ _ _ _ _)

theorem iterMedianRest_grows (first size : Nat) : Grows (iterMedianRest (tick lt) first size) := by
  unfold iterMedianRest
  grows []
macro_rules | `(tactic| grows1) => `(tactic| with_reducible exact iterMedianRest_grows _ _)

theorem mediansLoop_grows : ∀ (i it m : Nat), Grows (mediansLoop (tick lt) i it m) := by
  intro i
  induction i with
  | zero => intro it m; exact Grows.pure
  | succ i ih =>
    intro it m
    unfold mediansLoop
    grows [ih]
macro_rules | `(tactic| grows1) => `(tactic| with_reducible exact mediansLoop_grows _ _ _)

theorem mediansRest_grows (a b c d : Nat) : Grows (mediansRest (tick lt) a b c d) := by
  unfold mediansRest
  grows []
macro_rules | `(tactic| grows1) => `(tactic| with_reducible exact mediansRest_grows _ _ _ _)

theorem pickPivotGood_grows (a b c : Nat) : Grows (pickPivotGood (tick lt) a b c) := by
  unfold pickPivotGood
  grows []
macro_rules | `(tactic| grows1) => `(tactic| with_reducible exact pickPivotGood_grows _ _ _)

theorem threeWay_grows (cat : Cat) (a b c d : Nat) : Grows (threeWay (tick lt) cat a b c d) := by
  unfold threeWay
  refine Grows.bind (silent_swap _ _).grows fun _ => Grows.bind (partition_grows (fun i => ?_) _ _ _) fun _ =>
    Grows.bind (silent_swap _ _).grows fun _ => Grows.bind (partition_grows (fun i => ?_) _ _ _) fun _ => Grows.pure
  · grows []
  · grows []
macro_rules | `(tactic| grows1) => `(tactic| with_reducible exact threeWay_grows _ _ _ _ _)

theorem introselect_grows (cat : Cat) (first last nthPos size : Nat) :
    Grows (introselect (tick lt) cat first last nthPos size) := by
  have : ∀ a b c d e, Grows (introselectLoop (tick lt) cat a b c d e) := by
    refine introselectLoop.fixpoint_induct (tick lt) cat (fun f => ∀ x y z, Grows (f x y z))
      (fun f => ∀ x y z w, Grows (f x y z w)) (fun f => ∀ x y z w u, Grows (f x y z w u))
      (fun f => ∀ x y z w, Grows (f x y z w)) Grows.admissible3 Grows.admissible4 Grows.admissible5
      Grows.admissible4 ?_ ?_ ?_ ?_
    · intro f ih x y z
      grows [ih]
    · intro f ih x y z w
      grows [ih]
    · intro f g ih ih' x y z w u
      grows [ih, ih']
    · intro f ih x y z w
      grows [ih]
  rw [introselect]
  exact this _ _ _ _ _

/-! ### adaptive_quickselect.h -/

theorem pivotPartition_grows (r k len : Nat) : Grows (pivotPartition (tick lt) r k len) := by
  unfold pivotPartition
  refine Grows.bind (silent_swap _ _).grows fun _ => Grows.bind (partition_grows (fun i => ?_) _ _ _) fun _ =>
    Grows.bind (silent_swap _ _).grows fun _ => Grows.pure
  grows []
macro_rules | `(tactic| grows1) => `(tactic| with_reducible exact pivotPartition_grows _ _ _)

theorem medianIndex_grows (r a b c : Nat) : Grows (medianIndex (tick lt) r a b c) := by
  unfold medianIndex
  grows []
macro_rules | `(tactic| grows1) => `(tactic| with_reducible exact medianIndex_grows _ _ _ _)

theorem nintherTail_grows (r a b c d : Nat) : Grows (ninther.nintherTail (tick lt) r a b c d) := by
  unfold ninther.nintherTail
  grows []
macro_rules | `(tactic| grows1) => `(tactic| with_reducible exact nintherTail_grows _ _ _ _ _)

theorem ninther_grows (r a b c d e f g h i : Nat) : Grows (ninther (tick lt) r a b c d e f g h i) := by
  unfold ninther
  grows []
macro_rules | `(tactic| grows1) => `(tactic| with_reducible exact ninther_grows _ _ _ _ _ _ _ _ _ _)

theorem epLeft1_grows (r lo o : Nat) : ∀ left pivot, Grows (epLeft1 (tick lt) r lo o left pivot) := by
  refine epLeft1.fixpoint_induct (tick lt) r lo o (fun f => ∀ x y, Grows (f x y)) Grows.admissible2 ?_
  intro f ih x y
  grows [ih]
macro_rules | `(tactic| grows1) => `(tactic| with_reducible exact epLeft1_grows _ _ _ _ _)

theorem epLeftScan_grows (r o left : Nat) : ∀ pivot, Grows (epLeftScan (tick lt) r o left pivot) := by
  refine epLeftScan.fixpoint_induct (tick lt) r o left (fun f => ∀ x, Grows (f x)) Grows.admissible1 ?_
  intro f ih x
  grows [ih]
macro_rules | `(tactic| grows1) => `(tactic| with_reducible exact epLeftScan_grows _ _ _ _)

theorem epLeft2_grows (r o : Nat) : ∀ left pivot, Grows (epLeft2 (tick lt) r o left pivot) := by
  refine epLeft2.fixpoint_induct (tick lt) r o (fun f => ∀ x y, Grows (f x y)) Grows.admissible2 ?_
  intro f ih x y
  grows [ih]
macro_rules | `(tactic| grows1) => `(tactic| with_reducible exact epLeft2_grows _ _ _ _)

theorem expandPartitionLeft_grows (r lo pivot : Nat) : Grows (expandPartitionLeft (tick lt) r lo pivot) := by
  unfold expandPartitionLeft
  grows []
macro_rules | `(tactic| grows1) => `(tactic| with_reducible exact expandPartitionLeft_grows _ _ _)

theorem epRight1_grows (r hi : Nat) : ∀ pivot rite, Grows (epRight1 (tick lt) r hi pivot rite) := by
  refine epRight1.fixpoint_induct (tick lt) r hi (fun f => ∀ x y, Grows (f x y)) Grows.admissible2 ?_
  intro f ih x y
  grows [ih]
macro_rules | `(tactic| grows1) => `(tactic| with_reducible exact epRight1_grows _ _ _ _)

theorem epRightScan_grows (r rite : Nat) : ∀ pivot, Grows (epRightScan (tick lt) r pivot rite) := by
  refine epRightScan.fixpoint_induct (tick lt) r rite (fun f => ∀ x, Grows (f x)) Grows.admissible1 ?_
  intro f ih x
  grows [ih]
macro_rules | `(tactic| grows1) => `(tactic| with_reducible exact epRightScan_grows _ _ _)

theorem epRight2_grows (r : Nat) : ∀ pivot rite, Grows (epRight2 (tick lt) r pivot rite) := by
  refine epRight2.fixpoint_induct (tick lt) r (fun f => ∀ x y, Grows (f x y)) Grows.admissible2 ?_
  intro f ih x y
  grows [ih]
macro_rules | `(tactic| grows1) => `(tactic| with_reducible exact epRight2_grows _ _ _)

theorem expandPartitionRight_grows (r hi rite : Nat) : Grows (expandPartitionRight (tick lt) r hi rite) := by
  unfold expandPartitionRight
  grows []
macro_rules | `(tactic| grows1) => `(tactic| with_reducible exact expandPartitionRight_grows _ _ _)

theorem epScanLeft_grows (r lo pivot : Nat) : ∀ left, Grows (epScanLeft (tick lt) r lo pivot left) := by
  refine epScanLeft.fixpoint_induct (tick lt) r lo pivot (fun f => ∀ x, Grows (f x)) Grows.admissible1 ?_
  intro f ih x
  grows [ih]
macro_rules | `(tactic| grows1) => `(tactic| with_reducible exact epScanLeft_grows _ _ _ _)

theorem epScanRight_grows (r hi pivot : Nat) : ∀ len, Grows (epScanRight (tick lt) r hi pivot len) := by
  refine epScanRight.fixpoint_induct (tick lt) r hi pivot (fun f => ∀ x, Grows (f x)) Grows.admissible1 ?_
  intro f ih x
  grows [ih]
macro_rules | `(tactic| grows1) => `(tactic| with_reducible exact epScanRight_grows _ _ _ _)

theorem epLoop_grows (r lo pivot hi : Nat) : ∀ left len, Grows (epLoop (tick lt) r lo pivot hi left len) := by
  refine epLoop.fixpoint_induct (tick lt) r lo pivot hi (fun f => ∀ x y, Grows (f x y)) Grows.admissible2 ?_
  intro f ih x y
  grows [ih]

theorem expandPartition_grows (r lo pivot hi len : Nat) : Grows (expandPartition (tick lt) r lo pivot hi len) :=
  epLoop_grows _ _ _ _ _ _
macro_rules | `(tactic| grows1) => `(tactic| with_reducible exact expandPartition_grows _ _ _ _ _)

theorem minIndexLoop_grows (r limit : Nat) : ∀ j m, Grows (minIndexLoop (tick lt) r j limit m) := by
  refine minIndexLoop.fixpoint_induct (tick lt) r limit (fun f => ∀ x y, Grows (f x y)) Grows.admissible2 ?_
  intro f ih x y
  grows [ih]
macro_rules | `(tactic| grows1) => `(tactic| with_reducible exact minIndexLoop_grows _ _ _ _)

theorem maxIndexLoop_grows (r limit : Nat) : ∀ j m, Grows (maxIndexLoop (tick lt) r j limit m) := by
  refine maxIndexLoop.fixpoint_induct (tick lt) r limit (fun f => ∀ x y, Grows (f x y)) Grows.admissible2 ?_
  intro f ih x y
  grows [ih]
macro_rules | `(tactic| grows1) => `(tactic| with_reducible exact maxIndexLoop_grows _ _ _ _)

theorem minimaLoop_grows (r over subset : Nat) : ∀ i j, Grows (minimaLoop (tick lt) r over i j subset) := by
  refine minimaLoop.fixpoint_induct (tick lt) r over subset (fun f => ∀ x y, Grows (f x y)) Grows.admissible2 ?_
  intro f ih x y
  grows [ih]
macro_rules | `(tactic| grows1) => `(tactic| with_reducible exact minimaLoop_grows _ _ _ _ _)

theorem maximaLoop_grows (r over len : Nat) : ∀ i j, Grows (maximaLoop (tick lt) r over i j len) := by
  refine maximaLoop.fixpoint_induct (tick lt) r over len (fun f => ∀ x y, Grows (f x y)) Grows.admissible2 ?_
  intro f ih x y
  grows [ih]
macro_rules | `(tactic| grows1) => `(tactic| with_reducible exact maximaLoop_grows _ _ _ _ _)

theorem nintherLoop_grows (r frac hi : Nat) : ∀ i a b, Grows (nintherLoop (tick lt) r frac i hi a b) := by
  refine nintherLoop.fixpoint_induct (tick lt) r frac hi (fun f => ∀ x y z, Grows (f x y z)) Grows.admissible3 ?_
  intro f ih x y z
  grows [ih]
macro_rules | `(tactic| grows1) => `(tactic| with_reducible exact nintherLoop_grows _ _ _ _ _ _)

theorem adaptiveQuickselect_grows : ∀ r n len, Grows (adaptiveQuickselect (tick lt) r n len) := by
  refine adaptiveQuickselect.fixpoint_induct (tick lt) (fun f => ∀ x y z, Grows (f x y z))
    (fun f => ∀ x y z, Grows (f x y z)) (fun f => ∀ x y z, Grows (f x y z)) (fun f => ∀ x y, Grows (f x y))
    (fun f => ∀ x y z, Grows (f x y z)) Grows.admissible3 Grows.admissible3 Grows.admissible3 Grows.admissible2
    Grows.admissible3 ?_ ?_ ?_ ?_ ?_
  · intro f ih x y z
    grows [ih]
  · intro f g ih ih' x y z
    grows [ih, ih']
  · intro f g h ih ih' ih'' x y z
    grows [ih, ih', ih'']
  · intro f ih x y
    grows [ih]
  · intro f ih x y z
    grows [ih]

theorem nthElement_grows (cat : Cat) (first last nthPos size : Nat) :
    Grows (nthElement (tick lt) cat first last nthPos size) := by
  unfold nthElement medianOfNinthersSelect
  grows [adaptiveQuickselect_grows, introselect_grows]

/-! ### quick_merge_sort.h: the merges -/

theorem ihMerge1_least : ∀ (n a b c : Nat), Cost 0 (ihMerge1 (tick lt) n a b c) (fun _ k => n ≤ k) := by
  intro n
  induction n with
  | zero => intro a b c; exact Cost.pure (Nat.le_refl _)
  | succ n ih =>
    intro a b c
    unfold ihMerge1
    refine Silent.costBind (silent_read _) fun _ => Silent.costBind (silent_read _) fun _ => ?_
    refine Cost.tickBind fun _ => ?_
    refine Cost.ite (fun _ => ?_) fun _ => ?_
    · exact Silent.costBind (silent_swap _ _) fun _ => (ih _ _ _).mono fun _ k h => by omega
    · exact Silent.costBind (silent_swap _ _) fun _ => (ih _ _ _).mono fun _ k h => by omega

theorem ihMerge2_grows (last1 last2 : Nat) : ∀ a b c, Grows (ihMerge2 (tick lt) a last1 b last2 c) := by
  refine ihMerge2.fixpoint_induct (tick lt) last1 last2 (fun f => ∀ x y z, Grows (f x y z)) Grows.admissible3 ?_
  intro f ih x y z
  grows [ih]

theorem internalBufferedInplaceMerge_least (first middle last sizeLeft buffer : Nat) :
    Cost 0 (internalBufferedInplaceMerge (tick lt) first middle last sizeLeft buffer) (fun _ c => sizeLeft ≤ c) := by
  unfold internalBufferedInplaceMerge internalHalfInplaceMerge
  refine Silent.costBind (swapRanges_silent _ _ _) fun _ => ?_
  refine (ihMerge1_least _ _ _ _).bind fun r c h => ?_
  exact Cost.mono (ihMerge2_grows _ _ _ _ _) fun _ k _ => by omega

theorem imShrink_least (middle : Nat) : ∀ first sizeLeft, Cost 0 (imShrink (tick lt) middle first sizeLeft)
    (fun r c => (r.1 = middle → sizeLeft + first = middle → sizeLeft ≤ c) ∧ sizeLeft ≤ r.2 + c) := by
  refine imShrink.fixpoint_induct (tick lt) middle (fun f => ∀ x y, Cost 0 (f x y)
    (fun r c => (r.1 = middle → y + x = middle → y ≤ c) ∧ y ≤ r.2 + c)) Cost.admissible2 ?_
  intro f ih x y
  dsimp only
  refine Cost.ite (fun h => ?_) fun h => Cost.pure ⟨fun _ _ => by omega, by simp⟩
  refine Silent.costBind (silent_read _) fun _ => Silent.costBind (silent_read _) fun _ => ?_
  refine Cost.tickBind fun _ => ?_
  refine Cost.ite (fun _ => Cost.pure ⟨fun e => absurd e h, by simp⟩) fun _ => ?_
  exact (ih _ _).mono fun r k h => ⟨fun e e' => by have := h.1 e (by omega); omega, by have := h.2; omega⟩

theorem internalMergesort_grows (cat : Cat) (buffer : Nat) : ∀ first last size,
    Grows (internalMergesort (tick lt) cat first last size buffer) := by
  refine internalMergesort.fixpoint_induct (tick lt) cat buffer (fun f => ∀ x y z, Grows (f x y z))
    Grows.admissible3 ?_
  intro f ih x y z
  have h1 : ∀ a b c, Grows (imShrink (tick lt) a b c) := fun a b c => (imShrink_least a b c).mono fun _ _ _ => trivial
  have h2 : ∀ a b c d e, Grows (internalBufferedInplaceMerge (tick lt) a b c d e) := fun a b c d e =>
    (internalBufferedInplaceMerge_least a b c d e).mono fun _ _ _ => trivial
  grows [ih, h1, h2]

/-- Every level of the merge sort compares at least half of the elements. -/
theorem internalMergesort_least (cat : Cat) (buffer : Nat) : ∀ k first last size, 33 * 2 ^ k ≤ size →
    Cost 0 (internalMergesort (tick lt) cat first last size buffer) (fun _ c => 16 * (k + 1) * 2 ^ k ≤ c) := by
  intro k
  induction k with
  | zero =>
    intro first last size h
    rw [internalMergesort, if_neg (by omega)]
    dsimp only
    refine Cost.bind (internalMergesort_grows _ _ _ _ _) fun _ c1 _ => ?_
    refine Cost.bind (internalMergesort_grows _ _ _ _ _) fun _ c2 _ => ?_
    refine (imShrink_least _ _ _).bind fun r c3 h3 => ?_
    obtain ⟨a, b⟩ := r
    dsimp only at h3 ⊢
    refine Cost.ite (fun e => Cost.pure ?_) fun e => ?_
    · have := h3.1 e (by omega)
      omega
    · exact (internalBufferedInplaceMerge_least _ _ _ _ _).mono fun _ c4 h4 => by have := h3.2; omega
  | succ k ih =>
    intro first last size h
    have hp := Nat.two_pow_pos k
    rw [Nat.pow_succ] at h
    rw [internalMergesort, if_neg (by omega)]
    dsimp only
    refine (ih _ _ _ (by omega)).bind fun _ c1 h1 => ?_
    refine (ih _ _ _ (by omega)).bind fun _ c2 h2 => ?_
    refine (imShrink_least _ _ _).bind fun r c3 h3 => ?_
    obtain ⟨a, b⟩ := r
    have e1 : 16 * (k + 1 + 1) * 2 ^ (k + 1) = 2 * (16 * (k + 1) * 2 ^ k) + 32 * 2 ^ k := by
      rw [Nat.pow_succ]; ring
    rw [e1]
    dsimp only at h3 ⊢
    refine Cost.ite (fun e => Cost.pure ?_) fun e => ?_
    · have := h3.1 e (by omega)
      omega
    · exact (internalBufferedInplaceMerge_least _ _ _ _ _).mono fun _ c4 h4 => by have := h3.2; omega

theorem quickMergeSortLoop_grows (cat : Cat) (last : Nat) : ∀ first size,
    Grows (quickMergeSortLoop (tick lt) cat first last size) := by
  refine quickMergeSortLoop.fixpoint_induct (tick lt) cat last (fun f => ∀ x y, Grows (f x y)) Grows.admissible2 ?_
  intro f ih x y
  grows [ih, nthElement_grows, internalMergesort_grows]

theorem quickMergeSort_least (cat : Cat) (k first last : Nat) (h : 66 * 2 ^ k ≤ last - first) :
    Cost 0 (quickMergeSort (tick lt) cat first last) (fun _ c => 16 * (k + 1) * 2 ^ k ≤ c) := by
  have hp := Nat.two_pow_pos k
  unfold quickMergeSort
  rw [quickMergeSortLoop, if_pos (by omega)]
  dsimp only
  refine Cost.bind (nthElement_grows _ _ _ _ _) fun pivot c1 _ => ?_
  refine (internalMergesort_least _ _ k _ _ _ (by omega)).bind fun _ c2 h2 => ?_
  exact Cost.mono (quickMergeSortLoop_grows _ _ _ _) fun _ c3 _ => by omega

end CppSort
