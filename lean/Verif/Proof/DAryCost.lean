import Verif.Proof.SymCost
import Verif.Model.Heap
set_option autoImplicit false

namespace CppSort
variable {α : Type} {lt : α → α → Bool} {N : Nat}

theorem minElementLoop_cost {cmp : α → α → M α Bool} (hc : Unit1 N cmp) {last : Nat} : ∀ (m first min : Nat), first + m = last →
    Cost N (minElementLoop cmp first last min) (fun r c => c = m ∧ (r = min ∨ first ≤ r ∧ r < last)) := by
  intro m
  induction m with
  | zero =>
    intro first min h
    rw [minElementLoop, if_neg (by omega)]
    exact Cost.pure ⟨rfl, .inl rfl⟩
  | succ m ih =>
    intro first min h
    rw [minElementLoop, if_pos (by omega)]
    refine (silent_read _).costBind fun _ => (silent_read _).costBind fun _ => (hc _ _).bind fun b c e => ?_
    subst e
    refine Cost.ite (fun _ => (ih _ _ (by omega)).mono fun r c h => ?_) fun _ => (ih _ _ (by omega)).mono fun r c h => ?_
    · omega
    · omega

theorem dTopChild_cost {D first last it : Nat} (hD : 2 ≤ D) (h1 : first ≤ it) (h2 : first + (it - first) * D + 1 < last) :
    Cost N (dTopChild (tick lt) D first last it) (fun r c => c + 1 ≤ D ∧ first + (it - first) * D + 1 ≤ r ∧ r < last) := by
  unfold dTopChild minElement
  dsimp only
  have hc : Unit1 N (fun x y => tick lt y x) := fun x y => unit1_tick y x
  obtain ⟨lc, hlc, g1, g2⟩ : ∃ lc, (if last - (first + (it - first) * D + 1) > D then first + (it - first) * D + 1 + D else last) =
      first + (it - first) * D + 1 + lc ∧ 1 ≤ lc ∧ lc ≤ D ∧ first + (it - first) * D + 1 + lc ≤ last := by
    split
    · exact ⟨D, rfl, by omega, by omega, by omega⟩
    · exact ⟨last - (first + (it - first) * D + 1), by omega, by omega, by omega, by omega⟩
  rw [hlc, if_neg (by omega)]
  unfold uncheckedMinElement
  exact (minElementLoop_cost hc (lc - 1) _ _ (by omega)).mono fun r c h => by omega

theorem dSiftDown_cost {D first last : Nat} (hD : 2 ≤ D) : ∀ (k it : Nat), first ≤ it → it < last → last - first < (it - first + 1) * 2 ^ (k + 1) →
    Cost N (dSiftDown (tick lt) D first last it) (fun _ c => c ≤ D * k) := by
  intro k
  induction k with
  | zero =>
    intro it h1 h2 h3
    rw [dSiftDown, if_neg ?_]
    · exact Cost.pure (by omega)
    · have : (it - first) * 1 ≤ (it - first) * (D - 1) := Nat.mul_le_mul_left _ (by omega)
      omega
  | succ k ih =>
    intro it h1 h2 h3
    rw [dSiftDown]
    refine Cost.ite (fun h => ?_) fun _ => Cost.pure (by omega)
    obtain ⟨d, rfl⟩ : ∃ d, D = d + 1 := ⟨D - 1, by omega⟩
    rw [Nat.add_sub_cancel] at h
    have e : (it - first) * (d + 1) = (it - first) * d + (it - first) := by ring
    have e1 : (it - first) * 1 ≤ (it - first) * d := Nat.mul_le_mul_left _ (by omega)
    refine (dTopChild_cost hD h1 (by omega)).bind fun r c hr => ?_
    refine (silent_read _).costBind fun _ => (silent_read _).costBind fun _ => Cost.tickBind fun b => ?_
    have e2 : (d + 1) * (k + 1) = (d + 1) * k + (d + 1) := by ring
    refine Cost.ite (fun _ => Cost.pure (by omega)) fun _ => (silent_swap _ _).costBind fun _ => ?_
    refine (ih r (by omega) (by omega) ?_).mono fun _ c' hc => by omega
    refine Nat.lt_of_lt_of_le h3 ?_
    have e3 : (it - first + 1) * 2 ^ (k + 1 + 1) = (2 * (it - first + 1)) * 2 ^ (k + 1) := by ring
    rw [e3]
    exact Nat.mul_le_mul_right _ (by omega)

theorem dSiftUp_cost {D first : Nat} (hD : 2 ≤ D) : ∀ (k it : Nat), first ≤ it → it - first + 1 < 2 ^ (k + 1) →
    Cost N (dSiftUp (tick lt) D first it) (fun _ c => c ≤ k) := by
  intro k
  induction k with
  | zero =>
    intro it h1 h2
    rw [dSiftUp, if_neg (by simp at h2; omega)]
    exact Cost.pure (by omega)
  | succ k ih =>
    intro it h1 h2
    rw [dSiftUp]
    refine Cost.ite (fun h => ?_) fun _ => Cost.pure (by omega)
    refine (silent_read _).costBind fun _ => (silent_read _).costBind fun _ => Cost.tickBind fun b => ?_
    refine Cost.ite (fun _ => (silent_swap _ _).costBind fun _ => ?_) fun _ => Cost.pure (by omega)
    refine (ih _ (Nat.le_add_right _ _) ?_).mono fun _ c' hc => by omega
    have : (it - first - 1) / D ≤ (it - first - 1) / 2 := Nat.div_le_div_left hD (by omega)
    rw [Nat.pow_succ] at h2
    omega

theorem makeDAryHeapLoop_cost {D first last k : Nat} (hD : 2 ≤ D) (hk : last - first < 2 ^ (k + 1)) : ∀ (m it : Nat),
    it + m = last → first < it →
    Cost N (makeDAryHeapLoop (tick lt) D first last it) (fun _ c => c ≤ m * k) := by
  intro m
  induction m with
  | zero =>
    intro it h h1
    rw [makeDAryHeapLoop, if_neg (by omega)]
    exact Cost.pure (by omega)
  | succ m ih =>
    intro it h h1
    rw [makeDAryHeapLoop, if_pos (by omega)]
    refine (dSiftUp_cost hD k _ (by omega) (by omega)).bind fun _ c hc => ?_
    refine (ih _ (by omega) (by omega)).mono fun _ c' hc' => ?_
    have : (m + 1) * k = m * k + k := by ring
    omega

theorem sortDAryHeap_cost {D first k : Nat} (hD : 2 ≤ D) : ∀ (m it : Nat), it = first + m → m < 2 ^ (k + 1) →
    Cost N (sortDAryHeap (tick lt) D first it) (fun _ c => c ≤ m * (D * k)) := by
  intro m
  induction m with
  | zero =>
    intro it h h1
    rw [sortDAryHeap, if_neg (by omega)]
    exact Cost.pure (by omega)
  | succ m ih =>
    intro it h h1
    rw [sortDAryHeap, if_pos (by omega)]
    unfold popDAryHeap
    have e : (m + 1) * (D * k) = m * (D * k) + D * k := by ring
    have : Cost N (do
        let last := it - 1
        swap first last
        if first = last then pure () else dSiftDown (tick lt) D first last first) (fun _ c => c ≤ D * k) := by
      refine (silent_swap _ _).costBind fun _ => ?_
      refine Cost.ite (fun _ => Cost.pure (by omega)) fun _ => ?_
      exact (dSiftDown_cost hD k first (by omega) (by omega) (by rw [Nat.sub_self, Nat.zero_add, Nat.one_mul]; omega)).mono
        fun _ c hc => by omega
    exact this.bind fun _ c hc => (ih _ (by omega) (by omega)).mono fun _ c' hc' => by omega

theorem dAryHeapsort_cost {D first last k : Nat} (hD : 2 ≤ D) (h : first ≤ last) (hk : last - first < 2 ^ (k + 1)) :
    Cost N (dAryHeapsort (tick lt) D first last) (fun _ c => c ≤ (last - first) * ((D + 1) * k)) := by
  unfold dAryHeapsort makeDAryHeap
  have e : (last - first) * ((D + 1) * k) = (last - first) * (D * k) + (last - first) * k := by ring
  have : Cost N (if first = last then pure () else do
      makeDAryHeapLoop (tick lt) D first last (first + 1)
      pushDAryHeap (tick lt) D first last) (fun _ c => c ≤ (last - first) * k) := by
    refine Cost.ite (fun _ => Cost.pure (by omega)) fun hne => ?_
    refine (makeDAryHeapLoop_cost hD hk (last - first - 1) _ (by omega) (by omega)).bind fun _ c hc => ?_
    refine (dSiftUp_cost hD k _ (by omega) (by omega)).mono fun _ c' hc' => ?_
    obtain ⟨n, hn⟩ : ∃ n, last - first = n + 1 := ⟨last - first - 1, by omega⟩
    rw [hn, Nat.add_sub_cancel] at hc
    rw [hn]
    have : (n + 1) * k = n * k + k := by ring
    omega
  refine this.bind fun _ c hc => ?_
  exact (sortDAryHeap_cost hD (last - first) _ (by omega) hk).mono fun _ c' hc' => by omega

end CppSort
