import Verif.Model.Metrics
import Verif.Base.Order
/-
C60: metrics::comparisons, metrics::projections and counting_adapter.
-/
set_option autoImplicit false

namespace CppSort
variable {τ ω a b : Type}

/-- `Execution step f t w n t' w'`: the program with these steps, started in the states `t` and `w`, returns in
the states `t'` and `w'` after calling `f` exactly `n` times. -/
inductive Execution (step : τ → Step τ a b) (f : a → ω → b × ω) : τ → ω → Nat → τ → ω → Prop
  | done {t w} : step t = .done → Execution step f t w 0 t w
  | silent {t t1 w n t' w'} : step t = .silent t1 → Execution step f t1 w n t' w' →
      Execution step f t w n t' w'
  | call {t x k w n t' w'} : step t = .call x k → Execution step f (k (f x w).1) (f x w).2 n t' w' →
      Execution step f t w (n + 1) t' w'

theorem runSorter_of_execution {step : τ → Step τ a b} {f : a → ω → b × ω} {t w n t' w'}
    (h : Execution step f t w n t' w') : runSorter step f t w = some (t', w') := by
  induction h with
  | done h => rw [runSorter, h]
  | silent h _ ih => rw [runSorter, h]; exact ih
  | call h _ ih => rw [runSorter, h]; exact ih

theorem execution_of_runSorter {step : τ → Step τ a b} {f : a → ω → b × ω} {t w} {r : τ × ω}
    (h : runSorter step f t w = some r) : ∃ n, Execution step f t w n r.1 r.2 := by
  refine runSorter.partial_correctness step f (fun t w r => ∃ n, Execution step f t w n r.1 r.2) ?_ t w r h
  intro F ih t w r hr
  split at hr
  · injection hr with hr
    subst hr
    exact ⟨0, .done ‹_›⟩
  · obtain ⟨n, hn⟩ := ih _ _ _ hr
    exact ⟨n, .silent ‹_› hn⟩
  · obtain ⟨n, hn⟩ := ih _ _ _ hr
    exact ⟨n + 1, .call ‹_› hn⟩

/-- The number of calls is determined. -/
theorem Execution.unique {step : τ → Step τ a b} {f : a → ω → b × ω} {t w n t' w'}
    (h : Execution step f t w n t' w') : ∀ {n' t'' w''}, Execution step f t w n' t'' w'' →
      n' = n ∧ t'' = t' ∧ w'' = w' := by
  induction h with
  | done h =>
    intro n' t'' w'' h'
    cases h' with
    | done => exact ⟨rfl, rfl, rfl⟩
    | silent e => rw [h] at e; cases e
    | call e => rw [h] at e; cases e
  | silent h _ ih =>
    intro n' t'' w'' h'
    cases h' with
    | done e => rw [h] at e; cases e
    | silent e h' => rw [h] at e; injection e with e; subst e; exact ih h'
    | call e => rw [h] at e; cases e
  | call h _ ih =>
    intro n' t'' w'' h'
    cases h' with
    | done e => rw [h] at e; cases e
    | silent e => rw [h] at e; cases e
    | call e h' =>
      rw [h] at e; injection e with e1 e2; subst e1; subst e2
      obtain ⟨e, h⟩ := ih h'
      exact ⟨by rw [e], h⟩

theorem counter_execution {m : Nat} {step : τ → Step τ a b} {f : a → ω → b × ω} {t w n t' w'}
    (h : Execution step f t w n t' w') : ∀ c, ∃ c', Execution step (counterCall m f) t (w, c) n t' (w', c') ∧
      c' % m = (c + n) % m ∧ (c % m = c → c' % m = c') := by
  induction h with
  | done h => intro c; exact ⟨c, .done h, rfl, id⟩
  | silent h _ ih =>
    intro c
    obtain ⟨c', h1, h2⟩ := ih c
    exact ⟨c', .silent h h1, h2⟩
  | @call t x k w n t' w' h _ ih =>
    intro c
    obtain ⟨c', h1, h2, h3⟩ := ih ((c + 1) % m)
    refine ⟨c', .call h h1, ?_, fun _ => h3 (Nat.mod_mod _ _)⟩
    rw [h2, Nat.mod_add_mod]
    congr 1
    omega

/-- C60: the metric terminates if and only if the sorter does, has the same effect on everything the sorter
or the function object change, and returns the number of calls of the function object made by the sorter
itself, modulo the number of values of the counter. -/
theorem C60_metric (m : Nat) (step : τ → Step τ a b) (f : a → ω → b × ω) (t : τ) (w : ω) :
    (runSorter step f t w = none ∧ metricCall m step f t w = none) ∨
    ∃ n t' w', Execution step f t w n t' w' ∧ runSorter step f t w = some (t', w') ∧
      metricCall m step f t w = some ((t', w'), n % m) := by
  cases hr : runSorter step f t w with
  | some r =>
    right
    obtain ⟨n, hn⟩ := execution_of_runSorter hr
    obtain ⟨c', h1, h2, h3⟩ := counter_execution (m := m) hn 0
    refine ⟨n, r.1, r.2, hn, rfl, ?_⟩
    unfold metricCall
    rw [runSorter_of_execution h1, Option.map_some, ← h3 (Nat.zero_mod m), h2, Nat.zero_add]
  | none =>
    left
    refine ⟨rfl, ?_⟩
    unfold metricCall
    cases hc : runSorter step (counterCall m f) t (w, 0) with
    | none => rfl
    | some r =>
      exfalso
      obtain ⟨n, hn⟩ := execution_of_runSorter hc
      have key : ∀ {t wc n t' wc'}, Execution step (counterCall m f) t wc n t' wc' →
          Execution step f t wc.1 n t' wc'.1 := by
        intro t wc n t' wc' h
        induction h with
        | done h => exact .done h
        | silent h _ ih => exact .silent h ih
        | call h _ ih => exact .call h ih
      have := runSorter_of_execution (key hn)
      rw [hr] at this
      cases this

/-- C60: in particular the exact number, when it can be represented. -/
theorem C60_metric_exact (m : Nat) (step : τ → Step τ a b) (f : a → ω → b × ω) {t : τ} {w : ω} {n : Nat} {t' : τ}
    {w' : ω} (h : Execution step f t w n t' w') (hn : n < m) :
    metricCall m step f t w = some ((t', w'), n) := by
  rcases C60_metric m step f t w with ⟨h1, -⟩ | ⟨n', t'', w'', h1, h2, h3⟩
  · rw [runSorter_of_execution h] at h1
    cases h1
  · obtain ⟨rfl, rfl, rfl⟩ := h.unique h1
    rw [h3, Nat.mod_eq_of_lt hn]

/-! An insertion sort on lists as a program: the elements in hand of the sorted part that were passed, the
element to insert, the rest of the sorted part, the elements to do. The comparison function logs its
arguments. -/

def Demo.insStep : List Nat × Option Nat × List Nat × List Nat →
    Step (List Nat × Option Nat × List Nat × List Nat) (Nat × Nat) Bool
  | ([], none, _, []) => .done
  | ([], none, ss, x :: todo) => .silent ([], some x, ss, todo)
  | (p :: ps, none, ss, todo) => .silent (ps, none, p :: ss, todo)
  | (ps, some x, [], todo) => .silent (ps, none, [x], todo)
  | (ps, some x, y :: ss, todo) =>
    .call (x, y) fun r => if r then (ps, none, x :: y :: ss, todo) else (y :: ps, some x, ss, todo)

def Demo.logLt (x : Nat × Nat) (w : List (Nat × Nat)) : Bool × List (Nat × Nat) :=
  (decide (x.1 < x.2), x :: w)

example : metricCall (2 ^ 64) Demo.insStep Demo.logLt ([], none, [], [3, 1, 2]) [] =
    some ((([], none, [1, 2, 3], []), [(2, 3), (2, 1), (1, 3)]), 3) := by
  refine C60_metric_exact _ _ _ ?_ (by decide)
  repeat first
    | exact .done rfl
    | refine .silent rfl ?_
    | refine .call (x := (_, _)) rfl ?_

end CppSort
