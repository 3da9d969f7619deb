import Verif.Proof.SortedCost
/-
split_adapter on sorted ranges.
-/
set_option autoImplicit false

namespace CppSort
variable {α : Type} {lt : α → α → Bool}

theorem swap_self_looks {c : Nat → Cell α} {i : Nat} {a : α} (h : c i = .val a) : Looks c (swap i i) 0 () := by
  rintro s rfl
  refine ⟨{ s with cell := setCell (setCell s.cell i (.val a)) i (.val a), movs := s.movs + 3 }, ?_, ?_, rfl⟩
  · simp only [swap, h]
  · funext j
    simp only [setCell]
    by_cases e : j = i
    · subst e; simp [h]
    · simp [e]

theorem splitLoop_looks {f l : Nat} {v : Nat → α} {c : Nat → Cell α} (hh : Holds c f l v) (hn : Neigh lt f l v) :
    ∀ n m, f ≤ m → m + 1 + n = l → Looks c (splitLoop (tick lt) f l m (m + 1)) n (l - 1) := by
  intro n
  induction n with
  | zero =>
    intro m h1 h2
    rw [splitLoop, if_neg (by omega), show m = l - 1 by omega]
    exact Looks.pure _
  | succ n ih =>
    intro m h1 h2
    rw [splitLoop, if_pos (by omega)]
    refine looks_cmp (hh (m + 1) (by omega) (by omega)) (hh m (by omega) (by omega)) ?_
    rw [hn m h1 (by omega), if_neg (by simp)]
    exact ((swap_self_looks (hh (m + 1) (by omega) (by omega))).bind (ih (m + 1) (by omega) (by omega))).cast (by omega) rfl

theorem skipLeft_looks {f l m : Nat} {v : Nat → α} {c : Nat → Cell α} (hh : Holds c f l v) (hm : m < l)
    (hv : ∀ i, f ≤ i → i < m → lt (v m) (v i) = false) :
    ∀ n i, f ≤ i → i + n = m → Looks c (skipLeft (tick lt) i m) n m := by
  intro n
  induction n with
  | zero =>
    intro i h1 h2
    rw [skipLeft, if_neg (by omega), show i = m by omega]
    exact Looks.pure _
  | succ n ih =>
    intro i h1 h2
    rw [skipLeft, if_pos (by omega)]
    refine looks_cmp (hh m (by omega) (by omega)) (hh i (by omega) (by omega)) ?_
    rw [hv i h1 (by omega), if_pos (by rfl)]
    exact ih (i + 1) (by omega) (by omega)

theorem splitSort_looks {f l : Nat} {v : Nat → α} {c : Nat → Cell α} (cfg : Cfg) {sorter : Nat → Nat → M α Unit}
    (h1 : ∀ f (a : α), c f = .val a → Looks c (sorter f (f + 1)) 0 ()) (hfl : f ≤ l) (hh : Holds c f l v)
    (hv : SortedOn lt f l v) : Looks c (splitSort (tick lt) cfg sorter f l) (2 * (l - f - 1)) () := by
  unfold splitSort
  split
  · exact (Looks.pure ()).cast (by omega) rfl
  · refine (((splitLoop_looks hh (fun i a b => hv i (i + 1) a (by omega) b) (l - f - 1) f (Nat.le_refl _) (by omega)).bind
      (k' := l - f - 1) (r' := ()) ?_)).cast (by omega) rfl
    have := h1 (l - 1) _ (hh (l - 1) (by omega) (by omega))
    rw [show l - 1 + 1 = l by omega] at this
    refine (this.bind (k' := l - f - 1) (r' := ()) ?_).cast (by omega) rfl
    unfold inplaceMerge
    refine ((skipLeft_looks hh (m := l - 1) (by omega) (fun i a b => hv i (l - 1) a b (by omega)) (l - f - 1) f
      (Nat.le_refl _) (by omega)).bind (k' := 0) (r' := ()) ?_).cast (by omega) rfl
    rw [if_pos rfl]
    exact Looks.pure _

end CppSort
