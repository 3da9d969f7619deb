import Verif.Base.Runs
/-
Algorithms over a local container: the elements of a vector or array owned by the algorithm live in a
memory of their own, of another element type.
-/
set_option autoImplicit false

namespace CppSort
variable {α β γ δ : Type}

/-- The values held by the first `n` cells, if all of them are live and not moved from. -/
def readBack (c : Nat → Cell β) : Nat → Option (List β)
  | 0 => some []
  | n + 1 => match readBack c n, c n with
    | some xs, .val x => some (xs ++ [x])
    | _, _ => none

/-- A memory holding only `xs`, at address 0. -/
def localMem (xs : List β) (s : St α) : St β where
  cell i := match xs[i]? with
    | some x => .val x
    | none => .unalloc
  brk := xs.length
  grant := s.grant
  cmps := s.cmps
  movs := 0

/-- Run an algorithm on a local container holding `xs` (at the addresses from 0 on): its result, and
what the container holds afterwards. Comparisons count as comparisons of the caller; the moves of the
elements of the container are not moves of the elements of the caller. A container with a moved-from
element afterwards is an error of the model. -/
def embed (xs : List β) (m : M β γ) : M α (γ × List β) := fun s =>
  match m (localMem xs s) with
  | none => none
  | some (.error e, s') => some (.error e, { s with cmps := s'.cmps, grant := s'.grant })
  | some (.ok r, s') =>
    match readBack s'.cell xs.length with
    | some ys => some (.ok (r, ys), { s with cmps := s'.cmps, grant := s'.grant })
    | none => some (.error .deref, { s with cmps := s'.cmps, grant := s'.grant })

/-- `m` returns normally from every state, leaves the memory alone, moves nothing, and the result
satisfies `R`. -/
def Keeps (m : M α β) (R : β → Prop) : Prop :=
  ∀ s : St α, ∃ r k g, m s = some (.ok r, { s with cmps := k, grant := g }) ∧ R r

theorem Keeps.wp {m : M α β} {R : β → Prop} (h : Keeps m R) (s : St α) :
    wp m (fun r s' => (∃ k g, s' = { s with cmps := k, grant := g }) ∧ R r) s := by
  obtain ⟨r, k, g, h1, h2⟩ := h s
  exact ⟨r, _, h1, ⟨k, g, rfl⟩, h2⟩

theorem Keeps.of_wp {m : M α β} {R : β → Prop}
    (h : ∀ s, CppSort.wp m (fun r s' => (∃ k g, s' = { s with cmps := k, grant := g }) ∧ R r) s) :
    Keeps m R := by
  intro s
  obtain ⟨r, s', h1, ⟨k, g, rfl⟩, h2⟩ := h s
  exact ⟨r, k, g, h1, h2⟩

theorem Runs.keeps {m : M α β} {R : β → Prop} (h : Runs m R) : Keeps m R := fun s =>
  let ⟨r, k, h1, h2⟩ := h s
  ⟨r, k, s.grant, h1, h2⟩

theorem Keeps.pure {x : β} {R : β → Prop} (h : R x) : Keeps (α := α) (pure x) R :=
  (Runs.pure h).keeps

theorem Keeps.bind {m : M α β} {k : β → M α γ} {R : β → Prop} {R' : γ → Prop}
    (h : Keeps m R) (hk : ∀ r, R r → Keeps (k r) R') : Keeps (m >>= k) R' := by
  refine Keeps.of_wp fun s => ?_
  apply wp_bind
  refine wp_mono (h.wp s) ?_
  rintro r _ ⟨⟨c, g, rfl⟩, hr⟩
  refine wp_mono ((hk r hr).wp _) ?_
  rintro r2 _ ⟨⟨c2, g2, rfl⟩, hr2⟩
  exact ⟨⟨c2, g2, rfl⟩, hr2⟩

theorem Keeps.mono {m : M α β} {R R' : β → Prop} (h : Keeps m R) (hR : ∀ r, R r → R' r) :
    Keeps m R' := fun s =>
  let ⟨r, k, g, h1, h2⟩ := h s
  ⟨r, k, g, h1, hR r h2⟩

theorem Keeps.ite {c : Prop} [Decidable c] {m m' : M α β} {R : β → Prop}
    (h : c → Keeps m R) (h' : ¬ c → Keeps m' R) : Keeps (if c then m else m') R := by
  split
  · exact h ‹_›
  · exact h' ‹_›

theorem readBack_seg {c : Nat → Cell β} {ys : List β} (h : Seg c 0 ys) :
    readBack c ys.length = some ys := by
  have key : ∀ n, n ≤ ys.length → readBack c n = some (ys.take n) := by
    intro n
    induction n with
    | zero => intro _; rfl
    | succ n ih =>
      intro hn
      have h1 := h n (by omega)
      rw [Nat.zero_add] at h1
      rw [readBack, ih (by omega), h1, List.take_succ_eq_append_getElem (by omega)]
  rw [key _ (le_refl _), List.take_length]

theorem localMem_wf (xs : List β) (s : St α) : (localMem xs s).WF := by
  intro i hi
  show (match xs[i]? with | some x => Cell.val x | none => .unalloc) = .unalloc
  rw [List.getElem?_eq_none hi]

theorem localMem_seg (xs : List β) (s : St α) : Seg (localMem xs s).cell 0 xs := by
  intro i hi
  show (match xs[0 + i]? with | some x => Cell.val x | none => .unalloc) = _
  rw [Nat.zero_add, List.getElem?_eq_getElem hi]

/-- Running a sorter on a local container. -/
theorem embed_transforms {xs : List β} {m : M β Unit} {R : List β → Prop}
    (h : ∀ s : St β, s.WF → Seg s.cell 0 xs → Transforms m s 0 xs R) :
    Keeps (α := α) (embed xs m) (fun r => r.2.length = xs.length ∧ R r.2) := by
  intro s
  obtain ⟨s', ys, h1, h2, h3, h4, -, -⟩ := h _ (localMem_wf xs s) (localMem_seg xs s)
  refine ⟨((), ys), s'.cmps, s'.grant, ?_, h2, h4⟩
  unfold embed
  rw [h1]
  dsimp only
  rw [← h2, readBack_seg h3]

theorem embed_sorts {lt : β → β → Bool} {sort : Nat → Nat → M β Unit} (h : Sorts lt sort)
    (xs : List β) : Keeps (α := α) (embed xs (sort 0 xs.length))
      (fun r => r.2.Perm xs ∧ SortedList lt r.2) := by
  refine (embed_transforms (R := fun ys => ys.Perm xs ∧ SortedList lt ys) fun s h1 h2 => ?_).mono
    fun r h => h.2
  have := h s 0 xs h1 h2
  rwa [Nat.zero_add] at this

end CppSort
