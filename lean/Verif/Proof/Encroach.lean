import Verif.Proof.ListsMel
import Verif.Model.Mel
import Verif.Base.Segs
/-
The encroaching lists of melsort and slabsort.
-/
set_option autoImplicit false

namespace CppSort
variable {α β γ : Type} {lt : α → α → Bool}

/-- `Runs` in the memory of one state, whatever the number of comparisons already made. -/
def RunsAt (s : St α) (m : M α β) (R : β → Prop) : Prop :=
  ∀ k, ∃ r k', m { s with cmps := k } = some (.ok r, { s with cmps := k' }) ∧ R r

theorem RunsAt.wp {s : St α} {m : M α β} {R : β → Prop} (h : RunsAt s m R) :
    wp m (fun r s' => (∃ k, s' = { s with cmps := k }) ∧ R r) s := by
  obtain ⟨r, k, h1, h2⟩ := h s.cmps
  exact ⟨r, _, h1, ⟨k, rfl⟩, h2⟩

theorem Runs.at {m : M α β} {R : β → Prop} (h : Runs m R) (s : St α) : RunsAt s m R := fun k => by
  obtain ⟨r, k', h1, h2⟩ := h { s with cmps := k }
  exact ⟨r, k', h1, h2⟩

theorem RunsAt.pure {s : St α} {x : β} {R : β → Prop} (h : R x) : RunsAt s (pure x) R :=
  (Runs.pure h).at s

theorem RunsAt.bind {s : St α} {m : M α β} {k : β → M α γ} {R : β → Prop} {R' : γ → Prop}
    (h : RunsAt s m R) (hk : ∀ r, R r → RunsAt s (k r) R') : RunsAt s (m >>= k) R' := by
  intro c
  obtain ⟨r, c1, h1, h2⟩ := h c
  obtain ⟨r', c2, h3, h4⟩ := hk r h2 c1
  exact ⟨r', c2, by rw [bind_ok h1, h3], h4⟩

theorem RunsAt.mono {s : St α} {m : M α β} {R R' : β → Prop} (h : RunsAt s m R)
    (hR : ∀ r, R r → R' r) : RunsAt s m R' := fun c =>
  let ⟨r, k, h1, h2⟩ := h c
  ⟨r, k, h1, hR r h2⟩

theorem RunsAt.tickBind {s : St α} {x y : α} {k : Bool → M α γ} {R' : γ → Prop}
    (hk : RunsAt s (k (lt x y)) R') : RunsAt s (CppSort.tick lt x y >>= k) R' :=
  (Runs.tick.at s).bind fun _ h => h ▸ hk

theorem RunsAt.nthBind {s : St α} {xs : List β} {i : Nat} {x : β} {k : β → M α γ} {R : γ → Prop}
    (h : xs[i]? = some x) (hk : RunsAt s (k x) R) : RunsAt s (CppSort.nth xs i >>= k) R :=
  ((Runs.nth h).at s).bind fun _ e => e ▸ hk

theorem RunsAt.read {s : St α} {i : Nat} {x : α} (h : s.cell i = .val x) :
    RunsAt s (read i) (fun r => r = x) := fun k =>
  ⟨x, k, by simp [CppSort.read, h], rfl⟩

theorem lowerBoundBy_at {s : St α} {test : Nat → M α Bool} {P : Nat → Bool} :
    ∀ (n first size : Nat), size = n →
    (∀ i, first ≤ i → i < first + size → RunsAt s (test i) (fun r => r = P i)) →
    RunsAt s (lowerBoundBy test first size) (fun r => first ≤ r ∧ r ≤ first + size ∧
      (r < first + size → P r = false) ∧ (first < r → P (r - 1) = true)) := by
  intro n
  induction n using Nat.strongRecOn with
  | _ n ih =>
    intro first size hn ht
    rw [lowerBoundBy]
    split
    · simp only
      refine (ht (first + size / 2) (by omega) (by omega)).bind fun r hr => ?_
      subst hr
      split
      · rename_i hp
        refine (ih _ (by omega) (first + size / 2 + 1) _ rfl fun i a c => ht i (by omega) (by omega)).mono ?_
        rintro r ⟨h1, h2, h3, h4⟩
        refine ⟨by omega, by omega, fun h => h3 (by omega), fun h => ?_⟩
        by_cases e : first + size / 2 + 1 < r
        · exact h4 e
        · rw [show r - 1 = first + size / 2 by omega]; exact hp
      · rename_i hp
        refine (ih _ (by omega) first _ rfl fun i a c => ht i (by omega) (by omega)).mono ?_
        rintro r ⟨h1, h2, h3, h4⟩
        refine ⟨h1, by omega, fun h => ?_, h4⟩
        by_cases e : r < first + size / 2
        · exact h3 e
        · rw [show r = first + size / 2 by omega]; simpa using hp
    · exact RunsAt.pure ⟨by omega, by omega, fun h => by omega, fun h => by omega⟩

theorem StrictWeak.comap (h : StrictWeak lt) (f : β → α) : StrictWeak (fun a b => lt (f a) (f b)) :=
  ⟨fun _ => h.irrefl _, fun _ _ _ => h.trans _ _ _, fun _ _ _ => h.equiv_trans _ _ _⟩

/-- The lists `a` and `b`, in this order: `b` lies within the bounds of `a`. -/
def Within (lt : α → α → Bool) (a b : List α) : Prop :=
  2 ≤ a.length ∧ (∀ x y, a.head? = some x → b.head? = some y → lt y x = false) ∧
  (∀ x y, a.getLast? = some x → b.getLast? = some y → lt x y = false)

/-- Encroaching lists: melsort.h 138-149 (comment). -/
structure Enc (lt : α → α → Bool) (L : List (List α)) : Prop where
  ne : L ≠ []
  all : ∀ l ∈ L, l ≠ [] ∧ SortedList lt l
  nested : L.Pairwise (Within lt)

theorem Enc.get {L : List (List α)} (h : Enc lt L) {i j : Nat} (hij : i < j) (hj : j < L.length) :
    Within lt (L[i]'(by omega)) L[j] := List.pairwise_iff_getElem.1 h.nested i j (by omega) hj hij

theorem Enc.one {x : α} : Enc lt [[x]] :=
  ⟨by simp, fun l hl => by rw [List.mem_singleton.1 hl]; exact ⟨by simp, List.pairwise_singleton _ _⟩,
    List.pairwise_singleton _ _⟩

theorem Enc.inv {L : List (List α)} (h : Enc lt L) {i : Nat} (hi : i < L.length) :
    L[i] ≠ [] ∧ SortedList lt L[i] := h.all _ (List.getElem_mem hi)

theorem Enc.set {L : List (List α)} (h : Enc lt L) {i : Nat} (hi : i < L.length) {m : List α}
    (hm : m ≠ [] ∧ SortedList lt m) (h1 : ∀ j (hj : j < i), Within lt (L[j]'(by omega)) m)
    (h2 : ∀ j (hj : j < L.length), i < j → Within lt m L[j]) : Enc lt (L.set i m) := by
  refine ⟨by simpa using h.ne, fun l hl => ?_, ?_⟩
  · rcases List.mem_or_eq_of_mem_set hl with e | e
    · exact h.all l e
    · rw [e]; exact hm
  · rw [List.pairwise_iff_getElem]
    intro a b ha hb hab
    simp only [List.length_set] at ha hb
    rw [List.getElem_set, List.getElem_set]
    split
    · rw [if_neg (by omega)]
      exact h2 b hb (by omega)
    · split
      · exact h1 a (by omega)
      · exact h.get hab hb

/-- The place found for an element. -/
def PlaceOk (lt : α → α → Bool) (val : β → α) (L : List (List β)) (x : α) : Place → Prop
  | .back i => ∃ h : i < L.length, (∀ t, (L[i]'h).getLast? = some t → lt x (val t) = false) ∧
      ∀ j (hj : j < i), ∀ t, (L[j]'(by omega)).getLast? = some t → lt x (val t) = true
  | .front i => ∃ h : i < L.length, (∀ t, (L[i]'h).head? = some t → lt (val t) x = false) ∧
      ∀ j (hj : j < i), ∀ t, (L[j]'(by omega)).head? = some t → lt (val t) x = true
  | .fresh => ∃ h : 0 < L.length,
      (∀ t, (L[L.length - 1]'(by omega)).head? = some t → lt (val t) x = true) ∧
      (∀ t, (L[L.length - 1]'(by omega)).getLast? = some t → lt x (val t) = true)

theorem tail_nth {l : List β} {t : β} (h : l.getLast? = some t) : l[l.length - 1]? = some t := by
  rwa [← List.getLast?_eq_getElem?]

theorem front_nth {l : List β} {t : β} (h : l.head? = some t) : l[0]? = some t := by
  rwa [← List.head?_eq_getElem?]

theorem exists_last {l : List β} (h : l ≠ []) : ∃ t, l.getLast? = some t :=
  ⟨l.getLast h, List.getLast?_eq_some_getLast h⟩

theorem exists_head {l : List β} (h : l ≠ []) : ∃ t, l.head? = some t :=
  ⟨l.head h, List.head?_eq_some_head h⟩

theorem encroachPlace_at (hlt : StrictWeak lt) {s : St α} {get : β → M α α} {val : β → α}
    {L : List (List β)} (he : Enc (fun a b => lt (val a) (val b)) L)
    (hg : ∀ b ∈ L.flatten, RunsAt s (get b) (fun r => r = val b)) (x : α) :
    RunsAt s (encroachPlace (tick lt) get L x) (PlaceOk lt val L x) := by
  have h0 : 0 < L.length := List.length_pos_iff.2 he.ne
  have hm : ∀ {i} (hi : i < L.length) {b : β}, b ∈ L[i] → RunsAt s (get b) (fun r => r = val b) :=
    fun hi b hb => hg b (List.mem_flatten.2 ⟨_, List.getElem_mem hi, hb⟩)
  unfold encroachPlace
  refine RunsAt.nthBind (List.getElem?_eq_getElem (show L.length - 1 < L.length by omega)) ?_
  obtain ⟨t, ht⟩ := exists_last (he.inv (show L.length - 1 < L.length by omega)).1
  obtain ⟨u, hu⟩ := exists_head (he.inv (show L.length - 1 < L.length by omega)).1
  refine RunsAt.nthBind (tail_nth ht) ?_
  refine (hm _ (List.mem_of_getLast? ht)).bind fun r hr => ?_
  subst hr
  refine RunsAt.tickBind ?_
  split
  · rename_i hx
    have hx : lt x (val t) = false := by simpa using hx
    let P : Nat → Bool := fun i => ((L.getD i []).getLast?).elim false (fun b => lt x (val b))
    have hP : ∀ {i t} (hi : i < L.length), L[i].getLast? = some t → P i = lt x (val t) := by
      intro i t hi h
      simp only [P]
      rw [List.getD_eq_getElem?_getD, List.getElem?_eq_getElem hi, Option.getD_some, h]
      rfl
    refine (lowerBoundBy_at (P := P) _ 0 (L.length - 1) rfl fun i _ hi => ?_).bind fun r hr => ?_
    · obtain ⟨t', ht'⟩ := exists_last (he.inv (show i < L.length by omega)).1
      refine RunsAt.nthBind (List.getElem?_eq_getElem (show i < L.length by omega)) ?_
      refine RunsAt.nthBind (tail_nth ht') ?_
      refine (hm _ (List.mem_of_getLast? ht')).bind fun r hr => ?_
      subst hr
      refine (Runs.tick.at s).mono ?_
      rintro _ rfl
      exact (hP (by omega) ht').symm
    · obtain ⟨-, r2, r3, r4⟩ := hr
      refine RunsAt.pure ⟨by omega, fun t' ht' => ?_, fun j hj t' ht' => ?_⟩
      · by_cases e : r < L.length - 1
        · rw [← hP (by omega) ht']; exact r3 (by omega)
        · obtain rfl : r = L.length - 1 := by omega
          rw [ht] at ht'; injection ht' with ht'; rw [← ht']; exact hx
      · obtain ⟨t2, ht2⟩ := exists_last (he.inv (show r - 1 < L.length by omega)).1
        have a := r4 (by omega)
        rw [hP (by omega) ht2] at a
        by_cases e : j = r - 1
        · subst e; rw [ht'] at ht2; injection ht2 with ht2; rw [ht2]; exact a
        · exact hlt.lt_of_lt_of_le a ((he.get (show j < r - 1 by omega) (by omega)).2.2 _ _ ht' ht2)
  · rename_i hx
    have hx : lt x (val t) = true := by simpa using hx
    refine RunsAt.nthBind (front_nth hu) ?_
    refine (hm _ (List.mem_of_head? hu)).bind fun r hr => ?_
    subst hr
    refine RunsAt.tickBind ?_
    split
    · rename_i hx
      have hx : lt (val u) x = false := by simpa using hx
      let P : Nat → Bool := fun i => ((L.getD i []).head?).elim false (fun b => lt (val b) x)
      have hP : ∀ {i t} (hi : i < L.length), L[i].head? = some t → P i = lt (val t) x := by
        intro i t hi h
        simp only [P]
        rw [List.getD_eq_getElem?_getD, List.getElem?_eq_getElem hi, Option.getD_some, h]
        rfl
      refine (lowerBoundBy_at (P := P) _ 0 (L.length - 1) rfl fun i _ hi => ?_).bind fun r hr => ?_
      · obtain ⟨t', ht'⟩ := exists_head (he.inv (show i < L.length by omega)).1
        refine RunsAt.nthBind (List.getElem?_eq_getElem (show i < L.length by omega)) ?_
        refine RunsAt.nthBind (front_nth ht') ?_
        refine (hm _ (List.mem_of_head? ht')).bind fun r hr => ?_
        subst hr
        refine (Runs.tick.at s).mono ?_
        rintro _ rfl
        exact (hP (by omega) ht').symm
      · obtain ⟨-, r2, r3, r4⟩ := hr
        refine RunsAt.pure ⟨by omega, fun t' ht' => ?_, fun j hj t' ht' => ?_⟩
        · by_cases e : r < L.length - 1
          · rw [← hP (by omega) ht']; exact r3 (by omega)
          · obtain rfl : r = L.length - 1 := by omega
            rw [hu] at ht'; injection ht' with ht'; rw [← ht']; exact hx
        · obtain ⟨t2, ht2⟩ := exists_head (he.inv (show r - 1 < L.length by omega)).1
          have a := r4 (by omega)
          rw [hP (by omega) ht2] at a
          by_cases e : j = r - 1
          · subst e; rw [ht'] at ht2; injection ht2 with ht2; rw [ht2]; exact a
          · exact hlt.lt_of_le_of_lt ((he.get (show j < r - 1 by omega) (by omega)).2.1 _ _ ht' ht2) a
    · rename_i hx'
      have hx' : lt (val u) x = true := by simpa using hx'
      refine RunsAt.pure ⟨h0, fun t' ht' => ?_, fun t' ht' => ?_⟩
      · rw [hu] at ht'; injection ht' with ht'; rw [← ht']; exact hx'
      · rw [ht] at ht'; injection ht' with ht'; rw [← ht']; exact hx

theorem sorted_last {l : List β} {lt : β → β → Bool} (hlt : StrictWeak lt) (h : SortedList lt l)
    {t y : β} (ht : l.getLast? = some t) (hy : y ∈ l) : lt t y = false := by
  have hne : l ≠ [] := by rintro rfl; cases ht
  rw [List.getLast?_eq_some_getLast hne] at ht
  injection ht with ht
  rw [← ht]; exact h.le_last hlt hne hy

theorem sorted_first {l : List β} {lt : β → β → Bool} (hlt : StrictWeak lt) (h : SortedList lt l)
    {t y : β} (ht : l.head? = some t) (hy : y ∈ l) : lt y t = false := by
  have hne : l ≠ [] := by rintro rfl; cases ht
  rw [List.head?_eq_some_head hne] at ht
  injection ht with ht
  rw [← ht]; exact h.head_le hlt hne hy

theorem encroachPut_runs (hlt : StrictWeak lt) {val : β → α} {L : List (List β)}
    (he : Enc (fun a b => lt (val a) (val b)) L) {b : β} {p : Place}
    (hp : PlaceOk lt val L (val b) p) :
    Runs (α := α) (encroachPut L b p) (fun L' => Enc (fun a b => lt (val a) (val b)) L' ∧
      L'.flatten.Perm (L.flatten ++ [b]) ∧ L'.length ≤ L.length + 1) := by
  have hlv := hlt.comap val
  have h0 : 0 < L.length := List.length_pos_iff.2 he.ne
  cases p with
  | back i =>
    obtain ⟨hi, p1, p2⟩ := hp
    unfold encroachPut
    refine Runs.nthBind (List.getElem?_eq_getElem hi) (Runs.pure ⟨?_, ?_, by simp⟩)
    · obtain ⟨hne, hs⟩ := he.inv hi
      obtain ⟨t, ht⟩ := exists_last hne
      have e1 : L[i].getLast hne = t := by
        rw [List.getLast?_eq_some_getLast hne] at ht; injection ht
      refine he.set hi ⟨by simp, sorted_push hlv hs hne (by rw [e1]; exact p1 t ht)⟩ ?_ ?_
      · intro j hj
        have w := he.get hj hi
        refine ⟨w.1, fun x y hx hy => w.2.1 x y hx ?_, fun x y hx hy => ?_⟩
        · rwa [List.head?_append_of_ne_nil _ hne] at hy
        · rw [List.getLast?_append] at hy
          simp only [List.getLast?_singleton, Option.some_or, Option.some.injEq] at hy
          rw [← hy]
          exact hlt.le_of_lt (p2 j hj x hx)
      · intro j hj hij
        have w := he.get hij hj
        refine ⟨?_, fun x y hx hy => w.2.1 x y ?_ hy, fun x y hx hy => ?_⟩
        · have := List.length_pos_iff.2 hne
          simp only [List.length_append, List.length_cons, List.length_nil]; omega
        · rwa [List.head?_append_of_ne_nil _ hne] at hx
        · rw [List.getLast?_append] at hx
          simp only [List.getLast?_singleton, Option.some_or, Option.some.injEq] at hx
          rw [← hx]
          exact hlt.le_trans (w.2.2 t y ht hy) (p1 t ht)
    · exact set_grow (List.getElem?_eq_getElem hi) (List.Perm.refl _)
  | front i =>
    obtain ⟨hi, p1, p2⟩ := hp
    unfold encroachPut
    refine Runs.nthBind (List.getElem?_eq_getElem hi) (Runs.pure ⟨?_, ?_, by simp⟩)
    · obtain ⟨hne, hs⟩ := he.inv hi
      obtain ⟨t, ht⟩ := exists_head hne
      have e1 : L[i].head hne = t := by
        rw [List.head?_eq_some_head hne] at ht; injection ht
      have e2 : (b :: L[i]).getLast? = L[i].getLast? := by
        rw [List.getLast?_cons_of_ne_nil hne]
      refine he.set hi ⟨by simp, sorted_cons hlv hs hne (by rw [e1]; exact p1 t ht)⟩ ?_ ?_
      · intro j hj
        have w := he.get hj hi
        refine ⟨w.1, fun x y hx hy => ?_, fun x y hx hy => w.2.2 x y hx (by rwa [e2] at hy)⟩
        simp only [List.head?_cons, Option.some.injEq] at hy
        rw [← hy]
        exact hlt.le_of_lt (p2 j hj x hx)
      · intro j hj hij
        have w := he.get hij hj
        refine ⟨?_, fun x y hx hy => ?_, fun x y hx hy => w.2.2 x y (by rwa [e2] at hx) hy⟩
        · have := List.length_pos_iff.2 hne
          simp only [List.length_cons]; omega
        · simp only [List.head?_cons, Option.some.injEq] at hx
          rw [← hx]
          exact hlt.le_trans (p1 t ht) (w.2.1 t y ht hy)
    · exact set_grow (List.getElem?_eq_getElem hi) (by simpa using (List.perm_append_comm (l₁ := [b])))
  | fresh =>
    obtain ⟨_, p1, p2⟩ := hp
    unfold encroachPut
    refine Runs.pure ⟨⟨by simp, fun l hl => ?_, ?_⟩, by simp, by simp⟩
    · rcases List.mem_append.1 hl with e | e
      · exact he.all l e
      · rw [List.mem_singleton.1 e]; exact ⟨by simp, List.pairwise_singleton _ _⟩
    · rw [List.pairwise_append]
      refine ⟨he.nested, List.pairwise_singleton _ _, fun a ha l hl => ?_⟩
      rw [List.mem_singleton.1 hl]
      obtain ⟨j, hj, rfl⟩ := List.getElem_of_mem ha
      obtain ⟨t, ht⟩ := exists_last (he.inv (show L.length - 1 < L.length by omega)).1
      obtain ⟨u, hu⟩ := exists_head (he.inv (show L.length - 1 < L.length by omega)).1
      have q1 := p1 u hu
      have q2 := p2 t ht
      refine ⟨?_, fun x y hx hy => ?_, fun x y hx hy => ?_⟩
      · by_cases e : j = L.length - 1
        · subst e
          have := List.length_pos_iff.2 (he.inv hj).1
          by_cases e : L[L.length - 1].length = 1
          · obtain ⟨z, hz⟩ := List.length_eq_one_iff.1 e
            rw [hz] at ht hu
            simp only [List.getLast?_singleton, List.head?_cons, Option.some.injEq] at ht hu
            subst ht; subst hu
            rw [hlt.asymm q1] at q2; cases q2
          · omega
        · exact (he.get (show j < L.length - 1 by omega) (by omega)).1
      · simp only [List.head?_cons, Option.some.injEq] at hy
        rw [← hy]
        by_cases e : j = L.length - 1
        · subst e
          exact hlt.le_of_lt (p1 x hx)
        · exact hlt.le_of_lt (hlt.lt_of_le_of_lt
            ((he.get (show j < L.length - 1 by omega) (by omega)).2.1 x u hx hu) q1)
      · simp only [List.getLast?_singleton, Option.some.injEq] at hy
        rw [← hy]
        by_cases e : j = L.length - 1
        · subst e
          exact hlt.le_of_lt (p2 x hx)
        · exact hlt.le_of_lt (hlt.lt_of_lt_of_le q2
            ((he.get (show j < L.length - 1 by omega) (by omega)).2.2 x t hx ht))

end CppSort
