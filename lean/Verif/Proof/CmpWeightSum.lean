import Verif.Proof.CmpWeight
/-
Comparison weights: sums over the orders of different elements.
-/
set_option autoImplicit false

namespace CppSort
variable {α : Type} {lt : α → α → Bool}

/-- The order of the natural numbers. -/
def natB (a b : Nat) : Bool := decide (a < b)

theorem natB_sw : StrictWeak natB := by
  constructor
  · simp [natB]
  · intro x y z; simp only [natB, decide_eq_true_eq]; omega
  · intro x y z; simp only [natB, decide_eq_false_iff_not]; omega

/-- Comparisons made by a body on a list of values. -/
def cmpCost (p : DP) (xs : List Nat) : Nat := (p.ev natB 0 (valAt xs)).1

/-- Comparisons made by a body on all the orders of some values. -/
def cmpSum (p : DP) (zs : List Nat) : Nat := (zs.permutations.map (cmpCost p)).sum

/-! ### Orders, by their first or their last element -/

theorem sum_flatMap_map {β γ : Type} (l : List β) (f : β → List γ) (G : γ → Nat) :
    ((l.flatMap f).map G).sum = (l.map fun k => ((f k).map G).sum).sum := by
  induction l with
  | nil => rfl
  | cons a l ih => simp [List.flatMap_cons, ih]

theorem permSum_cons {zs : List Nat} (hn : zs.Nodup) (h0 : zs ≠ []) (G : List Nat → Nat) :
    (zs.permutations.map G).sum =
      (zs.map fun k => ((zs.erase k).permutations.map fun ys => G (k :: ys)).sum).sum := by
  have hp : zs.permutations.Perm (zs.flatMap fun k => (zs.erase k).permutations.map (k :: ·)) := by
    refine (List.perm_ext_iff_of_nodup (List.nodup_permutations _ hn) ?_).2 fun xs => ?_
    · refine List.nodup_flatMap.2 ⟨fun k _ => ?_, ?_⟩
      · exact (List.nodup_permutations _ (hn.erase k)).map fun a b h => (List.cons.inj h).2
      · refine hn.imp fun {a b} hab => ?_
        intro xs h1 h2
        obtain ⟨y1, -, rfl⟩ := List.mem_map.1 h1
        obtain ⟨y2, -, e⟩ := List.mem_map.1 h2
        exact hab (List.cons.inj e).1.symm
    · rw [List.mem_permutations, List.mem_flatMap]
      constructor
      · intro h
        cases xs with
        | nil => exact absurd (List.nil_perm.1 h) h0
        | cons k ys =>
          obtain ⟨h1, h2⟩ := List.cons_perm_iff_perm_erase.1 h
          exact ⟨k, h1, List.mem_map.2 ⟨ys, List.mem_permutations.2 h2, rfl⟩⟩
      · rintro ⟨k, h1, h2⟩
        obtain ⟨ys, h3, rfl⟩ := List.mem_map.1 h2
        exact List.cons_perm_iff_perm_erase.2 ⟨h1, List.mem_permutations.1 h3⟩
  rw [(hp.map G).sum_eq, sum_flatMap_map]
  simp only [List.map_map]
  rfl

theorem permSum_snoc {zs : List Nat} (hn : zs.Nodup) (h0 : zs ≠ []) (G : List Nat → Nat) :
    (zs.permutations.map G).sum =
      (zs.map fun k => ((zs.erase k).permutations.map fun ys => G (ys ++ [k])).sum).sum := by
  have hr : ∀ zs : List Nat, zs.Nodup →
      ∀ G : List Nat → Nat, (zs.permutations.map G).sum =
      (zs.permutations.map fun xs => G xs.reverse).sum := by
    intro zs hn G
    have hp : zs.permutations.Perm (zs.permutations.map List.reverse) := by
      refine (List.perm_ext_iff_of_nodup (List.nodup_permutations _ hn)
        ((List.nodup_permutations _ hn).map List.reverse_injective)).2 fun xs => ?_
      rw [List.mem_permutations, List.mem_map]
      constructor
      · exact fun h => ⟨xs.reverse, List.mem_permutations.2 ((List.reverse_perm xs).trans h),
          List.reverse_reverse xs⟩
      · rintro ⟨ys, h, rfl⟩
        exact (List.reverse_perm ys).trans (List.mem_permutations.1 h)
    rw [(hp.map G).sum_eq, List.map_map]
    rfl
  rw [hr zs hn, permSum_cons hn h0]
  congr 1
  refine List.map_congr_left fun k _ => ?_
  rw [hr _ (hn.erase k) fun ys => G (ys ++ [k])]
  congr 1
  refine List.map_congr_left fun ys _ => ?_
  rw [List.reverse_cons]

/-! ### Only the order of the elements matters -/

theorem valAt_map {g : Nat → α} [Inhabited α] {xs : List Nat} {k : Nat} (hk : k < xs.length) :
    valAt (xs.map g) k = g (valAt xs k) := by
  unfold valAt
  rw [List.getD_eq_getElem _ _ (by simpa using hk), List.getD_eq_getElem _ _ hk, List.getElem_map]

theorem valAt_mem [Inhabited α] {xs : List α} {k : Nat} (hk : k < xs.length) : valAt xs k ∈ xs := by
  unfold valAt
  rw [List.getD_eq_getElem _ _ hk]
  exact List.getElem_mem hk

theorem map_valAt_range [Inhabited α] (zs : List α) : (List.range zs.length).map (valAt zs) = zs := by
  have h := lst_valAt zs rfl
  rw [← h]
  simp only [lst_length, Nat.sub_zero, h]
  rw [List.range_eq_range']
  exact h

/-- Comparisons on an order of strictly increasing elements: those on the ranks. -/
theorem ev_rank [Inhabited α] {p : DP} {n : Nat} (hp : p.inb n 0 = true) {zs : List α} (hz : Inc lt zs)
    (hlt : StrictWeak lt) (hl : zs.length = n) {xs : List Nat} (hx : xs.Perm (List.range n)) :
    (p.ev lt 0 (valAt (xs.map (valAt zs)))).1 = cmpCost p xs := by
  have hxl : xs.length = n := by rw [hx.length_eq, List.length_range]
  have hg : ∀ x y, x < n → y < n → lt (valAt zs x) (valAt zs y) = natB x y := by
    intro x y hx hy
    have key : ∀ x y, x < y → y < n → lt (valAt zs x) (valAt zs y) = true := by
      intro x y hxy hy
      have := List.pairwise_iff_getElem.1 hz x y (by omega) (by omega) hxy
      unfold valAt
      rwa [List.getD_eq_getElem _ _ (by omega), List.getD_eq_getElem _ _ (by omega)]
    rcases Nat.lt_trichotomy x y with h | h | h
    · rw [key x y h hy]; simp [natB, h]
    · rw [h, hlt.irrefl]; simp [natB]
    · rw [hlt.asymm (key y x h hx)]; simp [natB]; omega
  have := DP.ev_shift (lt := lt) (lt' := natB) (g := valAt zs) (d := 0) (n := n) (D := (· < n)) hg p 0
    (v := valAt (xs.map (valAt zs))) (w := valAt xs) hp (fun k hk => ?_)
  · exact this.1
  · rw [Nat.zero_add]
    exact ⟨valAt_map (by omega), List.mem_range.1 (hx.mem_iff.1 (valAt_mem (by omega)))⟩

/-- The sum over the orders of strictly increasing elements only depends on their number. -/
theorem sum_rank [Inhabited α] {p : DP} {n : Nat} (hp : p.inb n 0 = true) {zs : List α} (hz : Inc lt zs)
    (hlt : StrictWeak lt) (hl : zs.length = n) :
    (zs.permutations.map fun xs => (p.ev lt 0 (valAt xs)).1).sum = cmpSum p (List.range n) := by
  have e : zs.permutations = (List.range n).permutations.map (List.map (valAt zs)) := by
    rw [List.map_permutations]
    rw [← hl, map_valAt_range]
  rw [e, List.map_map]
  congr 1
  exact List.map_congr_left fun xs hx => ev_rank hp hz hlt hl (List.mem_permutations.1 hx)

theorem cmpSum_rank {p : DP} {n : Nat} (hp : p.inb n 0 = true) {zs : List Nat} (hz : Inc natB zs)
    (hl : zs.length = n) : cmpSum p zs = cmpSum p (List.range n) :=
  sum_rank hp hz natB_sw hl

/-! ### Sorting and then inserting -/

theorem inc_range (n : Nat) : Inc natB (List.range n) := by
  refine (List.pairwise_lt_range (n := n)).imp ?_
  intro a b h
  simpa [natB] using h

theorem Inc.erase' {zs : List Nat} (h : Inc natB zs) (k : Nat) : Inc natB (zs.erase k) :=
  h.sublist List.erase_sublist

/-- A body that sorts leaves the increasing order. -/
theorem ev_sorted {p : DP} {n c : Nat} (hp : p.inb n 0 = true) (hc : p.check n c = true)
    {zs : List Nat} (hz : Inc natB zs) (hl : zs.length = n) {ys : List Nat} (hy : ys.Perm zs) :
    ∀ k, k < n → (p.ev natB 0 (valAt ys)).2.1 k = valAt zs k := by
  let s : St Nat := { cell := fun i => .val (valAt ys i), brk := 0, grant := fun _ => 0, cmps := 0,
                      movs := 0 }
  have hh : Holds s.cell 0 (0 + n) (valAt ys) := fun i _ _ => rfl
  obtain ⟨r1, s1, e1, v1, hu1, hv1, -, -⟩ := DP.exec_ev (lt := natB) p 0 hp hh
  obtain ⟨r2, s2, e2, v2, hu2, hs2, -⟩ := DP.check_spec natB_sw hc hh
  rw [Nat.add_zero, e2] at e1
  obtain rfl : s2 = s1 := by
    injection e1 with e1
    exact (Prod.mk.inj e1).2
  have hv : ∀ k, k < n → v1 k = v2 k := by
    intro k hk
    have a := hu1.holds k (by omega) (by omega)
    rw [hu2.holds k (by omega) (by omega)] at a
    exact (Cell.val.inj a).symm
  have hyl : ys.length = n := hy.length_eq.trans hl
  have hperm : (lst v2 0 n).Perm zs := by
    have := hu2.perm.2
    rw [Nat.zero_add, lst_valAt ys hyl] at this
    exact this.trans hy
  have hsorted : (lst v2 0 n).Pairwise (· ≤ ·) := by
    rw [List.pairwise_iff_getElem]
    intro i j hi hj hij
    rw [lst_length] at hi hj
    have := hs2 i j (by omega) (by omega) (by omega)
    simp only [lst, List.getElem_map, List.getElem_range', Nat.zero_add, Nat.one_mul]
    simpa [natB] using this
  have hzs : zs.Pairwise (· ≤ ·) := hz.imp fun {a b} h => by
    have : a < b := by simpa [natB] using h
    omega
  have e := List.Perm.eq_of_pairwise (fun a b _ _ h1 h2 => Nat.le_antisymm h1 h2) hsorted hzs hperm
  intro k hk
  have := hv1 k
  simp only [Nat.zero_add] at this
  rw [← this, hv k hk, ← e, valAt_lst hk]

/-- `p` on the elements after the first one, and then `q`. -/
theorem cmpCost_insert {p q : DP} {n c : Nat} (hp : p.inb n 0 = true) (hc : p.check n c = true)
    {zs : List Nat} (hz : Inc natB zs) (hl : zs.length = n) {ys : List Nat} (hy : ys.Perm zs) (i : Nat)
    (post : List Nat) : cmpCost (.seq (.call 1 p) q) (i :: (ys ++ post)) =
      cmpCost p ys + cmpCost q (i :: (zs ++ post)) := by
  have hyl : ys.length = n := hy.length_eq.trans hl
  have hsh := DP.ev_shift (lt := natB) (lt' := natB) (g := id) (d := 1) (n := n) (D := fun _ => True)
    (fun _ _ _ _ => rfl) p 0 (v := valAt (i :: (ys ++ post))) (w := valAt ys) hp (fun k hk => by
      refine ⟨?_, trivial⟩
      unfold valAt
      rw [Nat.add_comm, List.getD_cons_succ, List.getD_append _ _ _ _ (by omega)]
      rfl)
  obtain ⟨r1, -, r3, r4⟩ := hsh
  have hv : (p.ev natB (1 + 0) (valAt (i :: (ys ++ post)))).2.1 = valAt (i :: (zs ++ post)) := by
    funext k
    rcases Nat.eq_zero_or_pos k with rfl | hk
    · rw [r4 0 (by omega)]; rfl
    · obtain ⟨m, rfl⟩ : ∃ m, k = 1 + m := ⟨k - 1, by omega⟩
      by_cases hm : m < n
      · rw [(r3 m hm).1, ev_sorted hp hc hz hl hy m hm]
        unfold valAt
        rw [Nat.add_comm, List.getD_cons_succ, List.getD_append _ _ _ _ (by omega)]
        rfl
      · rw [r4 _ (by omega)]
        unfold valAt
        rw [Nat.add_comm, List.getD_cons_succ, List.getD_cons_succ,
          List.getD_append_right _ _ _ _ (by omega), List.getD_append_right _ _ _ _ (by omega), hyl, hl]
  have e : (DP.ev natB (.seq (.call 1 p) q) 0 (valAt (i :: (ys ++ post)))).1 =
      (p.ev natB (1 + 0) (valAt (i :: (ys ++ post)))).1 +
        (q.ev natB 0 (p.ev natB (1 + 0) (valAt (i :: (ys ++ post)))).2.1).1 := rfl
  unfold cmpCost
  rw [e, hv, r1]

/-- What inserting the first of `n + 1` elements takes, for all its ranks. -/
def insertSum (q : DP) (n : Nat) : Nat :=
  ((List.range (n + 1)).map fun k => cmpCost q (k :: ((List.range (n + 1)).erase k ++ []))).sum

/-- What inserting the first and the last of `n + 2` elements takes, for all their ranks. -/
def insertSum2 (q : DP) (n : Nat) : Nat :=
  ((List.range (n + 2)).map fun i => (((List.range (n + 2)).erase i).map fun j =>
    cmpCost q (i :: (((List.range (n + 2)).erase i).erase j ++ [j]))).sum).sum

theorem cmpSum_insert_aux {p q : DP} {n c : Nat} (hp : p.inb n 0 = true) (hc : p.check n c = true)
    {zs : List Nat} (hz : Inc natB zs) (hl : zs.length = n) (i : Nat) (post : List Nat) :
    (zs.permutations.map fun ys => cmpCost (.seq (.call 1 p) q) (i :: (ys ++ post))).sum =
      cmpSum p (List.range n) + n.factorial * cmpCost q (i :: (zs ++ post)) := by
  rw [List.map_congr_left fun ys hy =>
    cmpCost_insert hp hc hz hl (List.mem_permutations.1 hy) (q := q) i post]
  rw [List.sum_map_add, List.map_const', List.sum_replicate, List.length_permutations, hl,
    ← cmpSum_rank hp hz hl, nsmul_eq_mul, Nat.cast_id]
  rfl

theorem sum_map_affine {β : Type} (l : List β) (a b : Nat) (f : β → Nat) :
    (l.map fun x => a + b * f x).sum = l.length * a + b * (l.map f).sum := by
  induction l with
  | nil => simp
  | cons x l ih =>
    simp only [List.map_cons, List.sum_cons, List.length_cons, ih]
    ring

theorem cmpSum_insert {p q : DP} {n c : Nat} (hp : p.inb n 0 = true) (hc : p.check n c = true) :
    cmpSum (.seq (.call 1 p) q) (List.range (n + 1)) =
      (n + 1) * cmpSum p (List.range n) + n.factorial * insertSum q n := by
  unfold cmpSum
  rw [permSum_cons List.nodup_range (by simp)]
  have h : ∀ k ∈ List.range (n + 1), (((List.range (n + 1)).erase k).permutations.map fun ys =>
      cmpCost (.seq (.call 1 p) q) (k :: ys)).sum = cmpSum p (List.range n) + n.factorial *
      cmpCost q (k :: ((List.range (n + 1)).erase k ++ [])) := by
    intro k hk
    rw [← cmpSum_insert_aux hp hc ((inc_range _).erase' k)
      (by rw [List.length_erase_of_mem hk, List.length_range]; rfl)]
    simp only [List.append_nil]
  rw [List.map_congr_left h, sum_map_affine, List.length_range]
  rfl

theorem cmpSum_insert2 {p q : DP} {n c : Nat} (hp : p.inb n 0 = true) (hc : p.check n c = true) :
    cmpSum (.seq (.call 1 p) q) (List.range (n + 2)) =
      (n + 2) * (n + 1) * cmpSum p (List.range n) + n.factorial * insertSum2 q n := by
  unfold cmpSum
  rw [permSum_cons List.nodup_range (by simp)]
  have h : ∀ i ∈ List.range (n + 2), (((List.range (n + 2)).erase i).permutations.map fun ys =>
      cmpCost (.seq (.call 1 p) q) (i :: ys)).sum = (n + 1) * cmpSum p (List.range n) + n.factorial *
      (((List.range (n + 2)).erase i).map fun j =>
        cmpCost q (i :: (((List.range (n + 2)).erase i).erase j ++ [j]))).sum := by
    intro i hi
    have hl : ((List.range (n + 2)).erase i).length = n + 1 := by
      rw [List.length_erase_of_mem hi, List.length_range]; rfl
    rw [permSum_snoc (List.nodup_range.erase i) (by intro e; rw [e] at hl; cases hl)]
    have h2 : ∀ j ∈ (List.range (n + 2)).erase i,
        ((((List.range (n + 2)).erase i).erase j).permutations.map fun ys =>
        cmpCost (.seq (.call 1 p) q) (i :: (ys ++ [j]))).sum = cmpSum p (List.range n) + n.factorial *
        cmpCost q (i :: (((List.range (n + 2)).erase i).erase j ++ [j])) := by
      intro j hj
      exact cmpSum_insert_aux hp hc (((inc_range _).erase' i).erase' j)
        (by rw [List.length_erase_of_mem hj, hl]; rfl) i [j]
    rw [List.map_congr_left h2, sum_map_affine, hl]
  rw [List.map_congr_left h, sum_map_affine, List.length_range]
  unfold cmpSum insertSum2
  ring

/-! ### Enumerating orders -/

/-- Sum over the orders of `rem`, after the elements `acc` (last one first), of which all the prefixes
satisfy `ok`. -/
def backSum (ok : List Nat → Bool) (F : List Nat → Nat) : Nat → List Nat → List Nat → Nat
  | 0, acc, _ => F acc.reverse
  | m + 1, acc, rem =>
    (rem.map fun k => if ok (k :: acc) then backSum ok F m (k :: acc) (rem.erase k) else 0).sum

/-- Do all the prefixes satisfy `ok`? -/
def allOk (ok : List Nat → Bool) : List Nat → List Nat → Bool
  | _, [] => true
  | acc, k :: ys => ok (k :: acc) && allOk ok (k :: acc) ys

theorem backSum_eq (ok : List Nat → Bool) (F : List Nat → Nat) : ∀ (m : Nat) (acc rem : List Nat),
    rem.Nodup → rem.length = m → backSum ok F m acc rem =
      (rem.permutations.map fun ys => if allOk ok acc ys then F (acc.reverse ++ ys) else 0).sum := by
  intro m
  induction m with
  | zero =>
    intro acc rem _ hl
    rw [List.length_eq_zero_iff.1 hl]
    simp [backSum, allOk]
  | succ m ih =>
    intro acc rem hn hl
    rw [backSum, permSum_cons hn (by intro e; rw [e] at hl; cases hl)]
    congr 1
    refine List.map_congr_left fun k hk => ?_
    by_cases ho : ok (k :: acc) = true
    · rw [if_pos ho, ih _ _ (hn.erase k) (by rw [List.length_erase_of_mem hk]; omega)]
      congr 1
      refine List.map_congr_left fun ys _ => ?_
      simp [allOk, ho]
    · rw [if_neg ho]
      symm
      simp [allOk, ho]

theorem cmpSum_enum (p : DP) (n : Nat) :
    cmpSum p (List.range n) = backSum (fun _ => true) (cmpCost p) n [] (List.range n) := by
  rw [backSum_eq _ _ _ _ _ List.nodup_range List.length_range]
  unfold cmpSum
  congr 1
  refine List.map_congr_left fun ys _ => ?_
  have : ∀ (ys acc : List Nat), allOk (fun _ => true) acc ys = true := by
    intro ys
    induction ys with
    | nil => intro acc; rfl
    | cons k ys ih => intro acc; simp [allOk, ih]
  simp [this]

end CppSort
