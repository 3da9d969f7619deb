import Verif.Base.Network
import Verif.Model.Network
/-
Running a list of compare-exchanges on memory.
-/
set_option autoImplicit false

namespace CppSort
variable {α : Type} {lt : α → α → Bool}

theorem iterSwapIf_ce (hlt : StrictWeak lt) {f l i j : Nat} {s : St α} {v : Nat → α}
    (hh : Holds s.cell f l v) (hi : f ≤ i ∧ i < l) (hj : f ≤ j ∧ j < l) :
    wp (iterSwapIf (tick lt) i j) (fun _ s' => Upd f l s s' v (ce lt (i, j) v) ∧
      s'.cmps = s.cmps + 1 ∧ s'.movs ≤ s.movs + 3) s := by
  unfold iterSwapIf
  wread hh
  wread hh
  wtick
  unfold ce
  split
  · refine wp_swap_c hh hi hj fun s' hu hc hm => ?_
    exact ⟨hu.tick, hc, by simp only at hm; omega⟩
  · exact wp_pure ⟨(Upd.refl hh).tickr, rfl, by simp⟩

/-- `swap_index_pairs` runs the network. -/
theorem swapIndexPairs_spec (hlt : StrictWeak lt) {f n : Nat} : ∀ (ps : List (Nat × Nat)),
    (∀ p ∈ ps, p.1 < n ∧ p.2 < n) → ∀ (s : St α) (v : Nat → α), Holds s.cell f (f + n) v →
    wp (swapIndexPairs (tick lt) f ps) (fun _ s' => ∃ v', Upd f (f + n) s s' v v' ∧
      (fun k => v' (f + k)) = runNet lt ps (fun k => v (f + k)) ∧
      s'.cmps = s.cmps + ps.length ∧ s'.movs ≤ s.movs + 3 * ps.length) s := by
  intro ps
  induction ps with
  | nil =>
    intro _ s v hh
    exact wp_pure ⟨v, Upd.refl hh, rfl, by simp, by simp⟩
  | cons p ps ih =>
    intro hp s v hh
    have h1 := hp p (by simp)
    unfold swapIndexPairs
    apply wp_bind
    refine wp_mono (iterSwapIf_ce hlt hh (i := f + p.1) (j := f + p.2) (by omega) (by omega)) ?_
    rintro _ s1 ⟨hu, hc, hm⟩
    refine wp_mono (ih (fun q hq => hp q (List.mem_cons_of_mem _ hq)) s1 _ hu.holds) ?_
    rintro _ s2 ⟨v', hu2, he, hc2, hm2⟩
    refine ⟨v', hu.trans hu2, ?_, ?_, ?_⟩
    · rw [he]
      show _ = runNet lt ps (ce lt p fun k => v (f + k))
      congr 1
      funext k
      unfold ce
      simp only
      split
      · unfold swp
        simp only [Nat.add_left_cancel_iff]
      · rfl
    · rw [hc2, hc, List.length_cons]; omega
    · rw [List.length_cons]; omega

/-- A network that sorts 0-1 inputs, run on memory, sorts the range. -/
theorem swapIndexPairs_sorts (hlt : StrictWeak lt) {f n : Nat} {ps : List (Nat × Nat)}
    (hr : ∀ p ∈ ps, p.1 < p.2 ∧ p.2 < n) (h01 : Sorts01 n ps) {s : St α} {v : Nat → α}
    (hh : Holds s.cell f (f + n) v) :
    wp (swapIndexPairs (tick lt) f ps) (fun _ s' => ∃ v', Upd f (f + n) s s' v v' ∧
      SortedOn lt f (f + n) v' ∧ s'.cmps = s.cmps + ps.length ∧
      s'.movs ≤ s.movs + 3 * ps.length) s := by
  refine wp_mono (swapIndexPairs_spec hlt ps (fun p hp => by have := hr p hp; omega)
    s v hh) ?_
  rintro _ s' ⟨v', hu, he, hc, hm⟩
  refine ⟨v', hu, ?_, hc, hm⟩
  have hs := zero_one hlt (fun p hp => by have := hr p hp; omega) h01 (fun k => v (f + k))
  rw [← he] at hs
  intro i j h1 h2 h3
  have := hs (i - f) (j - f) (by omega) (by omega) (by omega)
  simp only at this
  rwa [show f + (i - f) = i by omega, show f + (j - f) = j by omega] at this

end CppSort
