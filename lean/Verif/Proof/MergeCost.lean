import Verif.Proof.HeapCost
import Verif.Model.Merge
import Mathlib.Tactic.Ring
set_option autoImplicit false

namespace CppSort
variable {α : Type} {lt : α → α → Bool} {N : Nat}

/-! ### insertion_sort, bubble_sort -/

theorem insertionShift_cost {first : Nat} {tmp : α} : ∀ (m sift : Nat), sift = first + m + 1 →
    Cost N (insertionShift (tick lt) first tmp sift) (fun _ c => c ≤ m) := by
  intro m
  induction m with
  | zero =>
    intro sift h
    rw [insertionShift]
    refine (silent_moveTo _ _).costBind fun _ => ?_
    dsimp only
    rw [if_neg (by omega)]
    exact Cost.pure (by omega)
  | succ m ih =>
    intro sift h
    rw [insertionShift]
    refine (silent_moveTo _ _).costBind fun _ => ?_
    dsimp only
    rw [if_pos (by omega)]
    refine (silent_read _).costBind fun _ => Cost.tickBind fun b => ?_
    exact Cost.ite (fun _ => (ih _ (by omega)).mono (by omega)) fun _ => Cost.pure (by omega)

theorem insertOne_cost {first cur : Nat} (h : first < cur) :
    Cost N (insertOne (tick lt) first cur) (fun _ c => c ≤ cur - first) := by
  unfold insertOne
  refine (silent_read _).costBind fun _ => (silent_read _).costBind fun _ => Cost.tickBind fun b => ?_
  refine Cost.ite (fun _ => ?_) fun _ => Cost.pure (by omega)
  refine (silent_moveOut _).costBind fun _ => ?_
  exact (insertionShift_cost (cur - first - 1) cur (by omega)).bind fun _ c hc =>
    (silent_assign _ _).cost (by omega)

theorem insertionLoop_cost {first last : Nat} : ∀ (m cur : Nat), cur + m = last → first < cur →
    Cost N (insertionLoop (tick lt) first last cur)
      (fun _ c => 2 * c + (cur - first) * (cur - first - 1) ≤ (last - first) * (last - first - 1)) := by
  intro m
  induction m with
  | zero =>
    intro cur h h1
    rw [insertionLoop, if_neg (by omega)]
    obtain rfl : cur = last := by omega
    exact Cost.pure (by omega)
  | succ m ih =>
    intro cur h h1
    rw [insertionLoop, if_pos (by omega)]
    refine (insertOne_cost h1).bind fun _ c hc => (ih _ (by omega) (by omega)).mono fun _ c' hc' => ?_
    rw [show cur + 1 - first = cur - first - 1 + 2 by omega, show cur - first - 1 + 2 - 1 = cur - first - 1 + 1 by omega] at hc'
    obtain ⟨k, hk⟩ : ∃ k, cur - first = k + 1 := ⟨cur - first - 1, by omega⟩
    rw [hk, Nat.add_sub_cancel] at hc' ⊢
    have e : (k + 2) * (k + 1) = (k + 1) * k + 2 * (k + 1) := by ring
    omega

theorem insertionSort_cost {first last : Nat} (h : first ≤ last) : Cost N (insertionSort (tick lt) first last)
    (fun _ c => 2 * c ≤ (last - first) * (last - first - 1)) := by
  unfold insertionSort
  refine Cost.ite (fun _ => Cost.pure (by omega)) fun hc => ?_
  exact (insertionLoop_cost (last - first - 1) (first + 1) (by omega) (by omega)).mono (by omega)

theorem bubblePass_cost {size : Nat} : ∀ (m current i : Nat), i + m = size →
    Cost N (bubblePass (tick lt) current i size) (fun _ c => c ≤ m) := by
  intro m
  induction m with
  | zero =>
    intro current i h
    rw [bubblePass, if_neg (by omega)]
    exact Cost.pure (by omega)
  | succ m ih =>
    intro current i h
    rw [bubblePass, if_pos (by omega)]
    have g : Cost N (iterSwapIf (tick lt) current (current + 1)) (fun _ c => c = 1) := by
      unfold iterSwapIf
      refine (silent_read _).costBind fun _ => (silent_read _).costBind fun _ => Cost.tickBind fun b => ?_
      exact Cost.ite (fun _ => (silent_swap _ _).cost (by omega)) fun _ => Cost.pure (by omega)
    exact g.bind fun _ c hc => (ih _ _ (by omega)).mono (by omega)

theorem bubbleLoop_cost {first : Nat} : ∀ size, 1 ≤ size → Cost N (bubbleLoop (tick lt) first size)
    (fun _ c => 2 * c ≤ size * (size - 1)) := by
  intro size
  induction size with
  | zero => intro h; omega
  | succ n ih =>
    intro _
    rw [bubbleLoop, Nat.add_sub_cancel]
    refine Cost.ite (fun h => ?_) fun _ => Cost.pure (by omega)
    refine (bubblePass_cost n _ _ (by omega)).bind fun _ c hc => (ih (by omega)).mono fun _ c' hc' => ?_
    obtain ⟨k, rfl⟩ : ∃ k, n = k + 1 := ⟨n - 1, by omega⟩
    rw [Nat.add_sub_cancel] at hc'
    have e : (k + 1 + 1) * (k + 1) = (k + 1) * k + 2 * (k + 1) := by ring
    omega

theorem bubbleSort_cost {first size : Nat} : Cost N (bubbleSort (tick lt) first size)
    (fun _ c => 2 * c ≤ size * (size - 1)) := by
  unfold bubbleSort
  refine Cost.ite (fun h => Cost.pure (by omega)) fun h => bubbleLoop_cost _ (by omega)

/-! ### merging with a buffer -/

theorem moveRange_silent {d1 d2 : Nat → Nat} {last : Nat} : ∀ (m first result : Nat), first + m = last →
    Silent (moveRange d1 d2 first last result : M α Nat) := by
  intro m
  induction m with
  | zero =>
    intro first result h
    rw [moveRange, if_neg (by omega)]
    exact Silent.pure
  | succ m ih =>
    intro first result h
    rw [moveRange, if_pos (by omega)]
    exact (silent_moveTo _ _).bind fun _ => ih _ _ (by omega)

theorem destroyN_silent : ∀ (n p : Nat), Silent (destroyN p n : M α Unit) := by
  intro n
  induction n with
  | zero =>
    intro p
    rw [destroyN, if_neg (by omega)]
    exact Silent.pure
  | succ n ih =>
    intro p
    rw [destroyN, if_pos (by omega)]
    exact (silent_destroy _).bind fun _ => ih _

theorem uninitMove_cost {last : Nat} : ∀ (m first result : Nat), first + m = last →
    Cost N (uninitMove first last result : M α Nat) (fun r c => r = result + m ∧ c = 0) := by
  intro m
  induction m with
  | zero =>
    intro first result h
    rw [uninitMove, if_neg (by omega)]
    exact Cost.pure (by omega)
  | succ m ih =>
    intro first result h
    rw [uninitMove, if_pos (by omega)]
    exact (silent_constructFrom _ _).costBind fun _ => (ih _ _ (by omega)).mono (by omega)

theorem unit1_flip {cmp : α → α → M α Bool} (h : Unit1 N cmp) : Unit1 N (flipC cmp) := fun x y => h y x

theorem halfMergeBlind_cost {cmp : α → α → M α Bool} (hc : Unit1 N cmp) {d1 d : Nat → Nat} :
    ∀ (minLen first1 first2 result : Nat),
    Cost N (halfMergeBlind cmp d1 d first1 first2 result minLen)
      (fun r c => c = minLen ∧ first1 ≤ r.1 ∧ first2 ≤ r.2.1 ∧ r.1 + r.2.1 = first1 + first2 + minLen) := by
  intro minLen
  induction minLen with
  | zero =>
    intro first1 first2 result
    rw [halfMergeBlind, if_neg (by omega)]
    exact Cost.pure (by dsimp only; omega)
  | succ n ih =>
    intro first1 first2 result
    rw [halfMergeBlind, if_pos (by omega)]
    refine (silent_read _).costBind fun _ => (silent_read _).costBind fun _ => (hc _ _).bind fun b c e => ?_
    subst e
    refine Cost.ite (fun _ => (silent_moveTo _ _).costBind fun _ => (ih _ _ _).mono ?_)
      fun _ => (silent_moveTo _ _).costBind fun _ => (ih _ _ _).mono ?_ <;>
    · intro r c h
      omega

theorem halfMergeLoop_cost {cmp : α → α → M α Bool} (hc : Unit1 N cmp) {d1 d : Nat → Nat} {last1 last2 : Nat} :
    ∀ (m first1 first2 result : Nat), (last1 - first1) + (last2 - first2) ≤ m + 1 → first1 < last1 →
    first2 < last2 → Cost N (halfMergeLoop cmp d1 d first1 last1 first2 last2 result) (fun _ c => c ≤ m) := by
  intro m
  induction m with
  | zero => intro first1 first2 result h h1 h2; omega
  | succ m ih =>
    intro first1 first2 result h h1 h2
    rw [halfMergeLoop]
    refine (silent_read _).costBind fun _ => (silent_read _).costBind fun _ => (hc _ _).bind fun b c e => ?_
    subst e
    refine Cost.ite (fun _ => (silent_moveTo _ _).costBind fun _ => ?_)
      fun _ => (silent_moveTo _ _).costBind fun _ => ?_
    · refine Cost.ite (fun _ => ?_) fun _ => (ih _ _ _ (by omega) (by omega) (by omega)).mono (by omega)
      exact ((moveRange_silent (last1 - first1) _ _ (by omega)).bind fun _ => Silent.pure).cost (by omega)
    · exact Cost.ite (fun _ => Cost.pure (by omega))
        fun _ => (ih _ _ _ (by omega) (by omega) (by omega)).mono (by omega)

theorem halfInplaceMerge_cost {cmp : α → α → M α Bool} (hc : Unit1 N cmp) {d1 d : Nat → Nat}
    {first1 last1 first2 last2 result minLen : Nat} (h1 : first1 + minLen ≤ last1) (h2 : first2 + minLen ≤ last2)
    (h3 : 1 ≤ minLen) : Cost N (halfInplaceMerge cmp d1 d first1 last1 first2 last2 result minLen)
      (fun _ c => c + 1 ≤ (last1 - first1) + (last2 - first2)) := by
  unfold halfInplaceMerge
  refine (halfMergeBlind_cost hc _ _ _ _).bind fun r c hr => ?_
  obtain ⟨f1, f2, res⟩ := r
  dsimp only at hr ⊢
  refine Cost.ite (fun _ => Cost.pure (by omega)) fun _ => Cost.ite (fun _ => ?_) fun _ => ?_
  · exact ((moveRange_silent (last1 - f1) _ _ (by omega)).bind fun _ => Silent.pure).cost (by omega)
  · exact (halfMergeLoop_cost hc ((last1 - f1) + (last2 - f2) - 1) _ _ _ (by omega) (by omega) (by omega)).mono
      (by omega)

theorem bufferedInplaceMerge_cost {first middle last len1 len2 buff : Nat} (h1 : first + len1 = middle)
    (h2 : middle + len2 = last) (h3 : 1 ≤ len1) (h4 : 1 ≤ len2) :
    Cost N (bufferedInplaceMerge (tick lt) first middle last len1 len2 buff)
      (fun _ c => c + 1 ≤ len1 + len2) := by
  unfold bufferedInplaceMerge
  refine Cost.ite (fun h => ?_) fun h => ?_
  · refine (uninitMove_cost len1 _ _ h1).bind fun r c hr => ?_
    refine (halfInplaceMerge_cost unit1_tick (by omega) (by omega) h3).bind fun _ c' hc => ?_
    exact (destroyN_silent _ _).cost (by omega)
  · refine (uninitMove_cost len2 _ _ h2).bind fun r c hr => ?_
    refine (halfInplaceMerge_cost (unit1_flip unit1_tick) (by omega) (by omega) h4).bind fun _ c' hc => ?_
    exact (destroyN_silent _ _).cost (by omega)

theorem skipLeft_cost {middle : Nat} : ∀ (m first : Nat), first + m = middle →
    Cost N (skipLeft (tick lt) first middle)
      (fun r c => first ≤ r ∧ r ≤ middle ∧ c ≤ r - first + 1 ∧ (r = middle → c ≤ middle - first)) := by
  intro m
  induction m with
  | zero =>
    intro first h
    rw [skipLeft, if_neg (by omega)]
    exact Cost.pure (by omega)
  | succ m ih =>
    intro first h
    rw [skipLeft, if_pos (by omega)]
    refine (silent_read _).costBind fun _ => (silent_read _).costBind fun _ => Cost.tickBind fun b => ?_
    exact Cost.ite (fun _ => (ih _ (by omega)).mono (by omega)) fun _ => Cost.pure (by omega)

theorem tryGrow_cost {b : Buf} {count : Nat} (h : count ≤ N) :
    Cost N (b.tryGrow count : M α Buf) (fun r c => c = 0 ∧ count ≤ r.size) := by
  unfold Buf.tryGrow
  have g : Cost N (getTemporaryBuffer count b.size : M α (Option Buf))
      (fun r c => c = 0 ∧ ((r = none ∧ count ≤ b.size) ∨ ∃ nb, r = some nb ∧ nb.size = count)) := by
    rw [getTemporaryBuffer]
    refine Cost.ite (fun hc => ?_) fun hc => Cost.pure ⟨rfl, .inl ⟨rfl, by omega⟩⟩
    refine (Cost.askGrant (R := fun g c => c = 0 ∧ N ≤ g) fun g hg => ⟨rfl, hg⟩).bind fun g c hg => ?_
    rw [if_pos (by omega)]
    refine (silent_alloc _).costBind fun p => Cost.pure ⟨by omega, .inr ⟨_, rfl, rfl⟩⟩
  refine g.bind fun r c hr => ?_
  obtain ⟨rfl, ⟨rfl, h2⟩ | ⟨nb, rfl, h2⟩⟩ := hr
  · exact Cost.pure (by omega)
  · exact (silent_free _ _).costBind fun _ => Cost.pure (by omega)

/-! ### merge_sort -/

theorem recmergeFwd_cost {c : Cfg} {f0 n0 f1 n1 buff buffSize : Nat} (h : n0 ≤ buffSize) (h1 : f0 + n0 = f1)
    (h2 : n0 ≤ n1) (h3 : 1 ≤ n0) : Cost N (recmergeFwd (tick lt) c f0 n0 f1 n1 buff buffSize)
      (fun _ c => c + 1 ≤ n0 + n1) := by
  rw [recmergeFwd, if_neg (by omega), if_pos h]
  refine (uninitMove_cost n0 _ _ h1).bind fun r c hr => ?_
  refine (halfInplaceMerge_cost unit1_tick (by omega) (by omega) h3).bind fun _ c' hc => ?_
  exact (destroyN_silent _ _).cost (by omega)

theorem inplaceMergeBuf_cost {c : Cfg} {first middle last len1 len2 buff buffSize : Nat} (h : len1 ≤ buffSize)
    (hf : c.cat ≠ .forward) (h1 : first + len1 = middle) (h2 : middle + len2 = last) (h3 : 1 ≤ len1)
    (h4 : 1 ≤ len2) : Cost N (inplaceMergeBuf (tick lt) c first middle last len1 len2 buff buffSize)
      (fun _ c => c + 1 ≤ len1 + len2) := by
  unfold inplaceMergeBuf
  split
  · exact absurd ‹_› hf
  · rw [recmergeBi, if_neg (by omega), if_pos (.inl h)]
    exact bufferedInplaceMerge_cost h1 h2 h3 h4
  · rw [symmerge, if_pos (by omega), if_pos (.inl h)]
    exact bufferedInplaceMerge_cost (by omega) (by omega) h3 h4

theorem mergeSortBi_cost {c : Cfg} (hf : c.cat ≠ .forward) : ∀ (k size first last : Nat) (b : Buf),
    first + size = last → size ≤ 39 * 2 ^ k → size / 2 ≤ N →
    Cost N (mergeSortBi (tick lt) c first last size b) (fun _ c => c ≤ size * (k + 19)) := by
  have hbase : ∀ (k size first last : Nat) (b : Buf), first + size = last → size < 40 →
      Cost N (mergeSortBi (tick lt) c first last size b) (fun _ c => c ≤ size * (k + 19)) := by
    intro k size first last b h1 h2
    rw [mergeSortBi, if_pos h2]
    refine (insertionSort_cost (by omega)).bind fun _ c hc => Cost.pure ?_
    rw [show last - first = size by omega] at hc
    have e1 : size * (size - 1) ≤ size * 38 := Nat.mul_le_mul_left _ (by omega)
    have e2 : size * (k + 19) = size * k + size * 19 := by ring
    omega
  intro k
  induction k with
  | zero => intro size first last b h1 h2 h3; exact hbase _ _ _ _ _ h1 (by omega)
  | succ k ih =>
    intro size first last b h1 h2 h3
    by_cases hs : size < 40
    · exact hbase _ _ _ _ _ h1 hs
    have hp : 39 * 2 ^ (k + 1) = 2 * (39 * 2 ^ k) := by ring
    rw [mergeSortBi, if_neg hs]
    refine (ih _ _ _ _ rfl (by omega) (by omega)).bind fun b1 c1 hc1 => ?_
    refine (ih _ _ _ _ (by omega) (by omega) (by omega)).bind fun b2 c2 hc2 => ?_
    refine (skipLeft_cost (size / 2) _ rfl).bind fun f' c3 hc3 => ?_
    have e : size / 2 * (k + 19) + (size - size / 2) * (k + 19) = size * (k + 19) := by
      rw [← Nat.add_mul]; congr 1; omega
    have e' : size * (k + 1 + 19) = size * (k + 19) + size := by ring
    refine Cost.ite (fun h => Cost.pure (by omega)) fun h => ?_
    refine (tryGrow_cost (by omega)).bind fun b3 c4 hc4 => ?_
    refine (inplaceMergeBuf_cost hc4.2 hf (by omega) (by omega) (by omega) (by omega)).bind fun _ c5 hc5 =>
      Cost.pure ?_
    omega

theorem mergeSortFwd_cost {c : Cfg} : ∀ (k size first : Nat) (b : Buf),
    size ≤ 13 * 2 ^ k → size - size / 2 ≤ N →
    Cost N (mergeSortFwd (tick lt) c first size b) (fun _ c => c ≤ size * (k + 6)) := by
  have hbase : ∀ (k size first : Nat) (b : Buf), size < 14 →
      Cost N (mergeSortFwd (tick lt) c first size b) (fun _ c => c ≤ size * (k + 6)) := by
    intro k size first b h2
    rw [mergeSortFwd, if_pos h2]
    refine bubbleSort_cost.bind fun _ c hc => Cost.pure ?_
    have e1 : size * (size - 1) ≤ size * 12 := Nat.mul_le_mul_left _ (by omega)
    have e2 : size * (k + 6) = size * k + size * 6 := by ring
    omega
  intro k
  induction k with
  | zero => intro size first b h2 h3; exact hbase _ _ _ _ (by omega)
  | succ k ih =>
    intro size first b h2 h3
    by_cases hs : size < 14
    · exact hbase _ _ _ _ hs
    have hp : 13 * 2 ^ (k + 1) = 2 * (13 * 2 ^ k) := by ring
    rw [mergeSortFwd, if_neg hs]
    refine (ih _ _ _ (by omega) (by omega)).bind fun b1 c1 hc1 => ?_
    refine (ih _ _ _ (by omega) (by omega)).bind fun b2 c2 hc2 => ?_
    refine (skipLeft_cost (size / 2) _ rfl).bind fun f' c3 hc3 => ?_
    have e : size / 2 * (k + 6) + (size - size / 2) * (k + 6) = size * (k + 6) := by
      rw [← Nat.add_mul]; congr 1; omega
    have e' : size * (k + 1 + 6) = size * (k + 6) + size := by ring
    refine Cost.ite (fun h => Cost.pure (by omega)) fun h => ?_
    refine (tryGrow_cost (by omega)).bind fun b3 c4 hc4 => ?_
    refine (recmergeFwd_cost (by omega) (by omega) (by omega) (by omega)).bind fun _ c5 hc5 =>
      Cost.pure ?_
    omega

end CppSort
