import Verif.Proof.NetCheck1
import Verif.Proof.NetCheck2
import Verif.Proof.NetCheck3
import Verif.Proof.NetCheck4
import Verif.Proof.NetCheck5
import Verif.Proof.NetCheck6
import Verif.Proof.NetExec
import Verif.Proof.MergeSort
/-
sorting_network_sorter: the model runs the network, the network sorts.
-/
set_option autoImplicit false

namespace CppSort
variable {α : Type} {lt : α → α → Bool}

theorem netBody_sorts01 : ∀ n, n ≤ 64 → Sorts01 n (netBody n)
  | 0, _ => fun _ i j _ h => absurd h (Nat.not_lt_zero _)
  | 1, _ => fun _ i j h1 h2 => by omega
  | 2, _ => net2_sorts01
  | 3, _ => net3_sorts01
  | 4, _ => net4_sorts01
  | 5, _ => net5_sorts01
  | 6, _ => net6_sorts01
  | 7, _ => net7_sorts01
  | 8, _ => net8_sorts01
  | 9, _ => net9_sorts01
  | 10, _ => net10_sorts01
  | 11, _ => net11_sorts01
  | 12, _ => net12_sorts01
  | 13, _ => net13_sorts01
  | 14, _ => net14_sorts01
  | 15, _ => net15_sorts01
  | 16, _ => net16_sorts01
  | 17, _ => net17_sorts01
  | 18, _ => net18_sorts01
  | 19, _ => net19_sorts01
  | 20, _ => net20_sorts01
  | 21, _ => net21_sorts01
  | 22, _ => net22_sorts01
  | 23, _ => net23_sorts01
  | 24, _ => net24_sorts01
  | 25, _ => net25_sorts01
  | 26, _ => net26_sorts01
  | 27, _ => net27_sorts01
  | 28, _ => net28_sorts01
  | 29, _ => net29_sorts01
  | 30, _ => net30_sorts01
  | 31, _ => net31_sorts01
  | 32, _ => net32_sorts01
  | 33, _ => net33_sorts01
  | 34, _ => net34_sorts01
  | 35, _ => net35_sorts01
  | 36, _ => net36_sorts01
  | 37, _ => net37_sorts01
  | 38, _ => net38_sorts01
  | 39, _ => net39_sorts01
  | 40, _ => net40_sorts01
  | 41, _ => net41_sorts01
  | 42, _ => net42_sorts01
  | 43, _ => net43_sorts01
  | 44, _ => net44_sorts01
  | 45, _ => net45_sorts01
  | 46, _ => net46_sorts01
  | 47, _ => net47_sorts01
  | 48, _ => net48_sorts01
  | 49, _ => net49_sorts01
  | 50, _ => net50_sorts01
  | 51, _ => net51_sorts01
  | 52, _ => net52_sorts01
  | 53, _ => net53_sorts01
  | 54, _ => net54_sorts01
  | 55, _ => net55_sorts01
  | 56, _ => net56_sorts01
  | 57, _ => net57_sorts01
  | 58, _ => net58_sorts01
  | 59, _ => net59_sorts01
  | 60, _ => net60_sorts01
  | 61, _ => net61_sorts01
  | 62, _ => net62_sorts01
  | 63, _ => net63_sorts01
  | 64, _ => net64_sorts01
  | n + 65, h => by omega

/-- Every comparator of every network stays in range, smaller index first. -/
theorem netBody_range {n : Nat} (hn : n ≤ 64) : ∀ p ∈ netBody n, p.1 < p.2 ∧ p.2 < n := by
  have h : ∀ n : Fin 65, (netBody n).all (fun p => Nat.blt p.1 p.2 && Nat.blt p.2 n) = true := by
    decide +kernel
  intro p hp
  have := List.all_eq_true.1 (h ⟨n, by omega⟩) p hp
  simpa only [Bool.and_eq_true, Nat.blt_eq] using this

/-- The tables returned by `index_pairs()` are the sequences executed by `operator()`. -/
theorem netIndexPairs_eq {n : Nat} (hn : n ≤ 64) : netIndexPairs n = netBody n := by
  have h : ∀ n : Fin 65, netIndexPairs n = netBody n := by decide +kernel
  exact h ⟨n, by omega⟩

theorem networkSort_spec (hlt : StrictWeak lt) {f n : Nat} (hn : n ≤ 64) {s : St α} {v : Nat → α}
    (hh : Holds s.cell f (f + n) v) :
    wp (networkSort (tick lt) n f (f + n)) (fun _ s' => ∃ v', Upd f (f + n) s s' v v' ∧
      SortedOn lt f (f + n) v' ∧ s'.cmps = s.cmps + (netBody n).length ∧
      s'.movs ≤ s.movs + 3 * (netBody n).length) s :=
  swapIndexPairs_sorts hlt (netBody_range hn) (netBody_sorts01 n hn) hh

end CppSort
