import Verif.Proof.AnyCmp
/-
insertion_sort.h when the comparison throws while an element is held in a variable.
-/
set_option autoImplicit false

namespace CppSort
variable {α β γ : Type}

/-- The program lets an exception through, in a state satisfying `Q`. -/
def Raises (m : M α β) (Q : St α → Prop) (s : St α) : Prop := ∃ s', m s = some (.error .exn, s') ∧ Q s'

theorem Raises.here {m : M α β} {k : β → M α γ} {Q : St α → Prop} {s : St α} (h : Raises m Q s) : Raises (m >>= k) Q s := by
  obtain ⟨s', h, hq⟩ := h
  refine ⟨s', ?_, hq⟩
  show ExceptT.bind m k s = _
  simp only [ExceptT.bind, ExceptT.mk, bind, StateT.bind, h]
  rfl

theorem Raises.after {m : M α β} {k : β → M α γ} {Q : St α → Prop} {s : St α} (h : wp m (fun r s' => Raises (k r) Q s') s) :
    Raises (m >>= k) Q s := by
  obtain ⟨r, s1, e, s2, h, hq⟩ := h
  refine ⟨s2, ?_, hq⟩
  show ExceptT.bind m k s = _
  simp only [ExceptT.bind, ExceptT.mk, bind, StateT.bind, e]
  exact h

/-- A comparison function which answers twice that the first element is before the second, then throws. -/
def throwThird : α → α → M α Bool := fun _ _ s =>
  if s.cmps < 2 then some (.ok true, { s with cmps := s.cmps + 1 }) else some (.error .exn, s)

theorem wp_throwThird {x y : α} {Q : Bool → St α → Prop} {s : St α} (h : s.cmps < 2)
    (hq : Q true { s with cmps := s.cmps + 1 }) : wp (throwThird x y) Q s :=
  ⟨true, _, if_pos h, hq⟩

theorem Frame.wf_range {f l : Nat} {s s' : St α} {v : Nat → α} (h : Frame f l s s') (hh : Holds s.cell f l v) (hw : s.WF) :
    s'.WF := by
  intro i hi
  have hb := h.brk.1
  by_cases hc : f ≤ i ∧ i < l
  · have h1 := hh i hc.1 hc.2
    rw [hw i (by omega)] at h1
    cases h1
  · rw [h.cell i (by omega)]
    exact hw i (by omega)

theorem insertionSort_loses [Inhabited α] {s : St α} {first : Nat} {xs : List α} (hs : Seg s.cell first xs)
    (hn : 3 ≤ xs.length) (h0 : s.cmps = 0) :
    ∃ s', insertionSort throwThird first (first + xs.length) s = some (.error .exn, s') ∧ s'.cell (first + 1) = .moved := by
  obtain ⟨v, hv, -⟩ := hs.holds
  obtain ⟨l, hl, hfl⟩ : ∃ l, first + xs.length = l ∧ first + 3 ≤ l := ⟨_, rfl, by omega⟩
  rw [hl] at hv ⊢
  show Raises (insertionSort throwThird first l) (fun s' => s'.cell (first + 1) = .moved) s
  unfold insertionSort
  rw [if_neg (by omega), insertionLoop, if_pos (by omega)]
  refine Raises.after ?_
  -- the first insertion
  unfold insertOne
  apply wp_bind
  refine wp_read hv (by omega) (by omega) ?_
  apply wp_bind
  refine wp_read hv (by omega) (by omega) ?_
  apply wp_bind
  refine wp_throwThird (by omega) ?_
  rw [if_pos rfl]
  apply wp_bind
  refine wp_moveOut (s := { s with cmps := s.cmps + 1 }) hv (by omega) (by omega) fun s1 h1 _ c1 _ => ?_
  apply wp_bind
  rw [insertionShift]
  apply wp_bind
  refine wp_moveTo h1 (by omega) (by omega) (by omega) fun s2 h2 _ c2 _ => ?_
  rw [if_neg (by omega)]
  refine wp_pure ?_
  refine wp_assign h2 (by simp [swp]) fun s3 h3 _ c3 _ => ?_
  have hc3 : s3.cmps = 1 := by rw [c3, c2, c1]; simp [h0]
  -- the second insertion
  rw [insertionLoop, if_pos (by omega)]
  refine Raises.here ?_
  unfold insertOne
  refine Raises.after (wp_read h3 (by omega) (by omega) ?_)
  refine Raises.after (wp_read h3 (by omega) (by omega) ?_)
  refine Raises.after (wp_throwThird (by omega) ?_)
  rw [if_pos rfl]
  refine Raises.after (wp_moveOut (s := { s3 with cmps := s3.cmps + 1 }) h3 (by omega) (by omega) fun s4 h4 _ c4 _ => ?_)
  refine Raises.here ?_
  rw [insertionShift]
  refine Raises.after (wp_moveTo h4 (by omega) (by omega) (by omega) fun s5 h5 _ c5 _ => ?_)
  rw [if_pos (by omega)]
  refine Raises.after (wp_readX h5 (by omega) (by omega) (by omega) ?_)
  refine Raises.here ⟨s5, if_neg (by rw [c5, c4]; simp [hc3]), ?_⟩
  exact h5.2.1

end CppSort
