import Verif.Proof.Network
import Verif.Proof.Lists
import Verif.Base.Segs
import Verif.Model.NetStable
/-
The stability of sequences of compare-exchanges.
-/
set_option autoImplicit false

namespace CppSort
variable {α : Type} {lt : α → α → Bool}

/-- A comparator on a list. -/
def ceList (lt : α → α → Bool) (p : Nat × Nat) (xs : List α) : List α :=
  match xs[p.1]?, xs[p.2]? with
  | some a, some b => if lt b a then (xs.set p.1 b).set p.2 a else xs
  | _, _ => xs

/-- A network on a list. -/
def runList (lt : α → α → Bool) (ps : List (Nat × Nat)) (xs : List α) : List α :=
  ps.foldl (fun xs p => ceList lt p xs) xs

theorem map_ce {n : Nat} {p : Nat × Nat} (h : p.1 < p.2 ∧ p.2 < n) (v : Nat → α) :
    (List.range n).map (ce lt p v) = ceList lt p ((List.range n).map v) := by
  obtain ⟨h1, h2⟩ := h
  have e1 : ((List.range n).map v)[p.1]? = some (v p.1) := by
    simp [List.getElem?_range (show p.1 < n by omega)]
  have e2 : ((List.range n).map v)[p.2]? = some (v p.2) := by
    simp [List.getElem?_range h2]
  unfold ceList ce
  rw [e1, e2]
  dsimp only
  split
  · apply List.ext_getElem
    · simp
    · intro i a b
      simp only [List.getElem_map, List.getElem_range, List.getElem_set, swp]
      by_cases c2 : i = p.2
      · rw [if_neg (by omega), if_pos c2, if_pos c2.symm]
      · by_cases c1 : i = p.1
        · rw [if_pos c1, if_neg (by omega), if_pos c1.symm]
        · rw [if_neg c1, if_neg c2, if_neg (by omega), if_neg (by omega)]
  · rfl

theorem map_runNet {n : Nat} : ∀ (ps : List (Nat × Nat)), (∀ p ∈ ps, p.1 < p.2 ∧ p.2 < n) →
    ∀ (v : Nat → α), (List.range n).map (runNet lt ps v) = runList lt ps ((List.range n).map v)
  | [], _, _ => rfl
  | p :: ps, h, v => by
    show (List.range n).map (runNet lt ps (ce lt p v)) = runList lt ps (ceList lt p _)
    rw [← map_ce (h p (by simp)), map_runNet ps fun q hq => h q (List.mem_cons_of_mem _ hq)]

/-- A comparator of neighbours keeps equivalent elements in order. -/
theorem ceList_sameOrder (hlt : StrictWeak lt) {p : Nat × Nat} (hp : p.2 = p.1 + 1)
    (xs : List α) : SameOrder lt xs (ceList lt p xs) := by
  unfold ceList
  split
  · rename_i a b ea eb
    split
    · rename_i hab
      rw [hp] at eb ⊢
      obtain ⟨ha, ea⟩ := List.getElem?_eq_some_iff.1 ea
      obtain ⟨hb, eb⟩ := List.getElem?_eq_some_iff.1 eb
      have e : xs = xs.take p.1 ++ ([a] ++ b :: xs.drop (p.1 + 2)) := by
        conv_lhs => rw [← List.take_append_drop p.1 xs, List.drop_eq_getElem_cons ha,
          List.drop_eq_getElem_cons hb, ea, eb]
        rfl
      have e' : (xs.set p.1 b).set (p.1 + 1) a = xs.take p.1 ++ b :: ([a] ++ xs.drop (p.1 + 2)) := by
        have hl : (xs.take p.1).length = p.1 := by simp; omega
        generalize hA : xs.take p.1 = A at e hl ⊢
        generalize hB : xs.drop (p.1 + 2) = B at e ⊢
        rw [e, ← hl]
        simp
      rw [e', show xs = _ from e]
      have := sameOrder_hop hlt (xs.take p.1) [a] (xs.drop (p.1 + 2)) b (by simpa using hab)
      rwa [← e] at this ⊢
    · exact SameOrder.refl _
  · exact SameOrder.refl _

theorem runList_sameOrder (hlt : StrictWeak lt) : ∀ (ps : List (Nat × Nat)),
    (∀ p ∈ ps, p.2 = p.1 + 1) → ∀ (xs : List α), SameOrder lt xs (runList lt ps xs)
  | [], _, xs => SameOrder.refl xs
  | p :: ps, h, xs => (ceList_sameOrder hlt (h p (by simp)) xs).trans
      (runList_sameOrder hlt ps (fun q hq => h q (List.mem_cons_of_mem _ hq)) (ceList lt p xs))

theorem lst_range (v : Nat → α) (f n : Nat) :
    lst v f (f + n) = (List.range n).map fun k => v (f + k) := by
  unfold lst
  rw [show f + n - f = n by omega, List.range'_eq_map_range, List.map_map]
  rfl

/-- What `sorting_network_sorter<N>` leaves in memory. -/
theorem networkSort_list [Inhabited α] (hlt : StrictWeak lt) {n : Nat} (hn : n ≤ 64) {s : St α} {f : Nat}
    {xs : List α} (hl : xs.length = n) (hw : s.WF) (hs : Seg s.cell f xs) :
    Transforms (networkSort (tick lt) n f (f + n)) s f xs
      (fun ys => ys.Perm xs ∧ SortedList lt ys ∧ ys = runList lt (netBody n) xs) := by
  obtain ⟨v, hv, he⟩ := hs.holds
  subst hl
  have hr := netBody_range hn
  obtain ⟨_, s', hrun, v', hu, hnet, -, -⟩ := swapIndexPairs_spec hlt (netBody xs.length)
    (fun p hp => by have := hr p hp; omega) s v hv
  obtain ⟨_, s'', hrun', v'', hu', hso, -, -⟩ := swapIndexPairs_sorts hlt hr (netBody_sorts01 _ hn) hv
  rw [hrun] at hrun'
  injection hrun' with e; injection e with _ e; subst e
  have e1 : lst v' f (f + xs.length) = lst v'' f (f + xs.length) :=
    Seg.inj hu.holds.seg hu'.holds.seg (by simp)
  refine hu.transforms hw hv he hrun ⟨?_, ?_, ?_⟩
  · have := hu.perm.2
    rwa [he] at this
  · rw [e1]; exact sortedOn_iff.1 hso
  · rw [lst_range, hnet, map_runNet _ hr, ← lst_range, he]

end CppSort
