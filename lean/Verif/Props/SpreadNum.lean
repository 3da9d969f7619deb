import Verif.Props.Demo
import Verif.Props.Counting
import Verif.Proof.SpreadFlt
/-
C70: integer_spread_sorter, for every integer type and every projection to it.
C71: float_spread_sorter, for `float` and `double` and every projection to them.
-/
set_option autoImplicit false

namespace CppSort
variable {α : Type}

/-! ### Integers -/

/-- Partial form of C70. `integer_spread_sorter` sorts every range of fewer than 1000 elements, and every range where the differences
of two keys are values of the type they are computed in (for unsigned types and types smaller than `int` they always are). With
operations that wrap around (`-fwrapv`) it sorts also every range of a 64-bit type. See below for the other ranges. -/
theorem C70_integer_spread_sorter_partial [Inhabited α] (wrapv : Bool) {t : IntTy} (ht : t.bits ≤ 64) (key : α → Int) (branchless : Bool)
    (s : St α) (first : Nat) (xs : List α) (hw : s.WF) (hs : Seg s.cell first xs) (hx : ∀ x ∈ xs, t.Has (key x))
    (hspan : xs.length < 1000 ∨ (∀ x ∈ xs, ∀ y ∈ xs, key x - key y ≤ t.promote.hi) ∨ wrapv = true ∧ t.bits = 64) :
    Transforms (integerSpreadSort wrapv t key branchless first (first + xs.length)) s first xs
      (fun ys => ys.Perm xs ∧ SortedList (fun x y => decide (key x < key y)) ys) := by
  obtain ⟨v, hv, he⟩ := hs.holds
  have hm : ∀ i, first ≤ i → i < first + xs.length → v i ∈ xs := fun i a b => he ▸ mem_lst.2 ⟨i, a, b, rfl⟩
  obtain ⟨_, s', hr, v', hu, hso⟩ := integerSpreadSort_spec (wrapv := wrapv) (bl := branchless) ht (show first ≤ first + xs.length by omega) hv
    (fun i a b => hx _ (hm i a b)) (by
      rcases hspan with h | h | h
      · left; omega
      · exact .inr fun i j a b a' b' => .inl (h _ (hm i a b) _ (hm j a' b'))
      · exact .inr fun _ _ _ _ _ _ => .inr h)
  refine hu.transforms hw hv he hr ⟨?_, sortedOn_iff.1 hso⟩
  have := hu.perm.2
  rwa [he] at this

/-- C70 for the unsigned types and the types smaller than `int`: `integer_spread_sorter` sorts every range. -/
theorem C70_integer_spread_sorter_small [Inhabited α] (wrapv : Bool) {t : IntTy} (ht : t.bits ≤ 64)
    (hsm : t.signed = false ∨ t.bits < 32) (key : α → Int) (branchless : Bool)
    (s : St α) (first : Nat) (xs : List α) (hw : s.WF) (hs : Seg s.cell first xs) (hx : ∀ x ∈ xs, t.Has (key x)) :
    Transforms (integerSpreadSort wrapv t key branchless first (first + xs.length)) s first xs
      (fun ys => ys.Perm xs ∧ SortedList (fun x y => decide (key x < key y)) ys) := by
  refine C70_integer_spread_sorter_partial wrapv ht key branchless s first xs hw hs hx (.inr (.inl fun x mx y my => ?_))
  obtain ⟨a1, a2⟩ := hx x mx
  obtain ⟨b1, b2⟩ := hx y my
  by_cases hb : t.bits < 32
  · have e : t.promote.hi = 2147483647 := by unfold IntTy.promote; rw [if_pos hb]; rfl
    have h3 : (2 : Int) ^ (t.bits - 1) ≤ 2 ^ 30 := by exact_mod_cast Nat.pow_le_pow_right (by omega : 0 < 2) (show t.bits - 1 ≤ 30 by omega)
    have h4 : (2 : Int) ^ t.bits ≤ 2 ^ 31 := by exact_mod_cast Nat.pow_le_pow_right (by omega : 0 < 2) (show t.bits ≤ 31 by omega)
    unfold IntTy.hi at a2
    unfold IntTy.lo at b1
    norm_num at h3 h4
    cases hsg : t.signed <;> rw [hsg] at a2 b1 <;> simp only [Bool.false_eq_true, if_false, if_true] at a2 b1 <;> omega
  · have hsg := hsm.resolve_right hb
    have e : t.promote = t := by unfold IntTy.promote; rw [if_neg hb]
    rw [e]
    have : t.lo = 0 := by unfold IntTy.lo; rw [hsg]; rfl
    omega

namespace Demo

/-- `n` times each of two elements. -/
def twice (n : Nat) (x y : α) : List α := List.replicate n x ++ List.replicate n y

theorem twice_length (n : Nat) (x y : α) : (twice n x y).length = n + n := by simp [twice]

theorem mem_twice {n : Nat} {x y z : α} (h : z ∈ twice n x y) : z = x ∨ z = y := by
  rw [twice, List.mem_append, List.mem_replicate, List.mem_replicate] at h
  exact h.imp And.right And.right

theorem twice_mem {n : Nat} (h : n ≠ 0) (x y : α) : x ∈ twice n x y ∧ y ∈ twice n x y := by
  rw [twice, List.mem_append, List.mem_append, List.mem_replicate, List.mem_replicate, List.mem_replicate, List.mem_replicate]
  exact ⟨.inl ⟨h, rfl⟩, .inr ⟨h, rfl⟩⟩

theorem twice_unsorted {n : Nat} (h : n ≠ 0) {lt : α → α → Bool} {x y : α} (hxy : lt y x = true) : ¬ SortedList lt (twice n x y) := by
  intro hs
  have := (List.pairwise_append.1 hs).2.2 x (List.mem_replicate.2 ⟨h, rfl⟩) y (List.mem_replicate.2 ⟨h, rfl⟩)
  rw [hxy] at this
  cases this

end Demo

/-- Any number of elements. -/
example (n : Nat) : Transforms (integerSpreadSort false int32 id true 7 (7 + (Demo.twice n (2000000000 : Int) (-5)).length))
    (Demo.mem 7 (Demo.twice n 2000000000 (-5))) 7 (Demo.twice n 2000000000 (-5))
    (fun ys => ys.Perm (Demo.twice n 2000000000 (-5)) ∧ SortedList (fun x y => decide (x < y)) ys) := by
  refine C70_integer_spread_sorter_partial false (t := int32) (by decide) id true _ 7 _ (Demo.mem_wf _ _) (Demo.mem_seg _ _) (fun x h => ?_)
    (.inr (.inl fun x h y h' => ?_))
  · unfold IntTy.Has
    rcases Demo.mem_twice h with rfl | rfl <;> decide
  · rcases Demo.mem_twice h with rfl | rfl <;> rcases Demo.mem_twice h' with rfl | rfl <;> decide

example (n : Nat) : Transforms (integerSpreadSort false uint64 id true 7 (7 + (Demo.twice n (18446744073709551615 : Int) 0).length))
    (Demo.mem 7 (Demo.twice n 18446744073709551615 0)) 7 (Demo.twice n 18446744073709551615 0)
    (fun ys => ys.Perm (Demo.twice n 18446744073709551615 0) ∧ SortedList (fun x y => decide (x < y)) ys) := by
  refine C70_integer_spread_sorter_small false (t := uint64) (by decide) (.inl rfl) id true _ 7 _ (Demo.mem_wf _ _) (Demo.mem_seg _ _) (fun x h => ?_)
  unfold IntTy.Has
  rcases Demo.mem_twice h with rfl | rfl <;> decide

/-- Signed types at least as wide as `int`: with 1000 elements or more that are not sorted, if the difference of two keys is not a value
of the type, the subtraction `*max - *min` overflows. -/
theorem C70_overflow [Inhabited α] {t : IntTy} (hsg : t.signed = true) (hb : 32 ≤ t.bits) (key : α → Int) (branchless : Bool) (s : St α)
    (first : Nat) (xs : List α) (hs : Seg s.cell first xs) (hn : 1000 ≤ xs.length)
    (hns : ¬ SortedList (fun x y => decide (key x < key y)) xs) (hbig : ∃ x ∈ xs, ∃ y ∈ xs, t.hi < key x - key y) :
    integerSpreadSort false t key branchless first (first + xs.length) s = some (.error .overflow, s) := by
  obtain ⟨v, hv, he⟩ := hs.holds
  have e : t.promote = t := by unfold IntTy.promote; rw [if_neg (by omega)]
  refine integerSpreadSort_overflow (by rw [e]; exact hsg) (by omega) hv (fun h => hns ?_) ?_
  · have := sortedOn_iff.1 h
    rwa [he] at this
  · obtain ⟨x, hx, y, hy, hxy⟩ := hbig
    rw [← he] at hx hy
    obtain ⟨i, i1, i2, rfl⟩ := mem_lst.1 hx
    obtain ⟨j, j1, j2, rfl⟩ := mem_lst.1 hy
    exact ⟨i, j, i1, i2, j1, j2, by rw [e]; exact hxy⟩

/-- With operations that wrap around the 32-bit types have the problem all the same: the negative difference is converted to `std::size_t`, its
logarithm is 64, and the keys are shifted by more than 32 bits. -/
theorem C70_wrap_overflow [Inhabited α] {t : IntTy} (hsg : t.signed = true) (hb : t.bits = 32) (key : α → Int) (branchless : Bool) (s : St α)
    (first : Nat) (xs : List α) (hs : Seg s.cell first xs) (hn : 1000 ≤ xs.length) (hx : ∀ x ∈ xs, t.Has (key x))
    (hns : ¬ SortedList (fun x y => decide (key x < key y)) xs) (hbig : ∃ x ∈ xs, ∃ y ∈ xs, t.hi < key x - key y) :
    integerSpreadSort true t key branchless first (first + xs.length) s = some (.error .overflow, s) := by
  obtain ⟨v, hv, he⟩ := hs.holds
  refine integerSpreadSort_wrap_overflow hb hsg (by omega) hv (fun h => hns ?_) (fun i a b => hx _ (he ▸ mem_lst.2 ⟨i, a, b, rfl⟩)) ?_
  · have := sortedOn_iff.1 h
    rwa [he] at this
  · obtain ⟨x, hx, y, hy, hxy⟩ := hbig
    rw [← he] at hx hy
    obtain ⟨i, i1, i2, rfl⟩ := mem_lst.1 hx
    obtain ⟨j, j1, j2, rfl⟩ := mem_lst.1 hy
    exact ⟨i, j, i1, i2, j1, j2, hxy⟩

/-- The greatest `int` and the number -1, 500 times each. -/
example : integerSpreadSort false int32 id true 7 (7 + (Demo.twice 500 (2147483647 : Int) (-1)).length) (Demo.mem 7 (Demo.twice 500 2147483647 (-1))) =
    some (.error .overflow, Demo.mem 7 (Demo.twice 500 2147483647 (-1))) :=
  C70_overflow (t := int32) rfl (by decide) id true _ 7 _ (Demo.mem_seg _ _) (by rw [Demo.twice_length])
    (Demo.twice_unsorted (by decide) rfl) ⟨_, (Demo.twice_mem (by decide) _ _).1, _, (Demo.twice_mem (by decide) _ _).2, by decide⟩

/-- C70 is false, whether signed operations wrap around or not. -/
theorem C70_integer_spread_sorter_false (wrapv : Bool) : ¬ ∀ (t : IntTy), t.Builtin → ∀ (s : St Int) (first : Nat) (xs : List Int), s.WF →
    Seg s.cell first xs → (∀ x ∈ xs, t.Has x) →
    Transforms (integerSpreadSort wrapv t id true first (first + xs.length)) s first xs
      (fun ys => ys.Perm xs ∧ SortedList (fun x y => decide (x < y)) ys) := by
  intro h
  have hx : ∀ x ∈ Demo.twice 500 (2147483647 : Int) (-1), int32.Has x := by
    intro x h
    unfold IntTy.Has
    rcases Demo.mem_twice h with rfl | rfl <;> decide
  obtain ⟨s', ys, h1, -⟩ := h int32 (by simp [IntTy.Builtin, int32]) (Demo.mem 0 (Demo.twice 500 2147483647 (-1))) 0 _ (Demo.mem_wf _ _)
    (Demo.mem_seg _ _) hx
  have h2 : integerSpreadSort wrapv int32 id true 0 (0 + (Demo.twice 500 (2147483647 : Int) (-1)).length) (Demo.mem 0 (Demo.twice 500 2147483647 (-1))) =
      some (.error .overflow, Demo.mem 0 (Demo.twice 500 2147483647 (-1))) := by
    cases wrapv
    · exact C70_overflow (t := int32) rfl (by decide) id true _ 0 _ (Demo.mem_seg _ _) (by rw [Demo.twice_length])
        (Demo.twice_unsorted (by decide) rfl) ⟨_, (Demo.twice_mem (by decide) _ _).1, _, (Demo.twice_mem (by decide) _ _).2, by decide⟩
    · exact C70_wrap_overflow (t := int32) rfl rfl id true _ 0 _ (Demo.mem_seg _ _) (by rw [Demo.twice_length]) hx
        (Demo.twice_unsorted (by decide) rfl) ⟨_, (Demo.twice_mem (by decide) _ _).1, _, (Demo.twice_mem (by decide) _ _).2, by decide⟩
  rw [h2] at h1
  cases h1

/-! ### Floating point numbers -/

/-- Partial form of C71. `float_spread_sorter` sorts every range of fewer than 1000 numbers. It sorts every range of `float` and `double`, if
1. the differences of their bits taken as signed integers do not overflow and there is no `-0.0`, or operations wrap around;
2. for `double`, one number is not negative, or two have bits that differ by at least 2^43.
See below for the other ranges. NaN is excluded: then `<` is not a strict weak order. -/
theorem C71_float_spread_sorter_partial [Inhabited α] (wrapv : Bool) {ew mw : Nat} (hew : 0 < ew) (hwd : ew + mw + 1 = 32 ∨ ew + mw + 1 = 64)
    (proj : α → Flt ew mw) (hnan : ∀ a, (proj a).isNaN = false) (branchless : Bool)
    (s : St α) (first : Nat) (xs : List α) (hw : s.WF) (hs : Seg s.cell first xs)
    (hok : xs.length < 1000 ∨
      (wrapv = true ∨ (∀ x ∈ xs, (proj x).int ≠ -2 ^ (ew + mw)) ∧ ∀ x ∈ xs, ∀ y ∈ xs, (proj x).int - (proj y).int < 2 ^ (ew + mw)) ∧
      (ew + mw + 1 = 32 ∨ (∃ x ∈ xs, (proj x).sign = false) ∨ ∃ x ∈ xs, ∃ y ∈ xs, 2 ^ 43 ≤ (proj x).int - (proj y).int)) :
    Transforms (floatSpreadSort wrapv proj branchless first (first + xs.length)) s first xs
      (fun ys => ys.Perm xs ∧ SortedList (fun x y => (proj x).lt (proj y)) ys) := by
  obtain ⟨v, hv, he⟩ := hs.holds
  have hm : ∀ i, first ≤ i → i < first + xs.length → v i ∈ xs := fun i a b => he ▸ mem_lst.2 ⟨i, a, b, rfl⟩
  have hm' : ∀ x ∈ xs, ∃ i, first ≤ i ∧ i < first + xs.length ∧ x = v i := fun x hx => by
    rw [← he] at hx
    obtain ⟨i, a, b, e⟩ := mem_lst.1 hx
    exact ⟨i, a, b, e.symm⟩
  obtain ⟨_, s', hr, v', hu, hso⟩ := floatSpreadSort_spec (wrapv := wrapv) (bl := branchless) hew hwd hnan
    (show first ≤ first + xs.length by omega) hv (by
      rcases hok with h | ⟨h1, h2⟩
      · left; omega
      · refine .inr ⟨h1.imp_right fun g => ⟨fun i a b => g.1 _ (hm i a b), fun i j a b a' b' => g.2 _ (hm i a b) _ (hm j a' b')⟩, ?_⟩
        refine h2.imp_right (Or.imp ?_ ?_)
        · rintro ⟨x, hx, g⟩
          obtain ⟨i, a, b, rfl⟩ := hm' x hx
          refine ⟨i, a, b, ?_⟩
          by_contra hc
          have := (proj (v i)).int_bounds.2.2.1 (by omega)
          rw [g] at this
          cases this
        · rintro ⟨x, hx, y, hy, g⟩
          obtain ⟨i, a, b, rfl⟩ := hm' x hx
          obtain ⟨j, a', b', rfl⟩ := hm' y hy
          exact ⟨i, j, a, b, a', b', g⟩)
  refine hu.transforms hw hv he hr ⟨?_, sortedOn_iff.1 hso⟩
  have := hu.perm.2
  rwa [he] at this

namespace Demo

/-- The `double` numbers, without NaN. -/
abbrev Dbl := { x : Flt 11 52 // x.isNaN = false }

/-- A number with a given sign, exponent 2^10 - 1 and mantissa: 1.0 when it is 0. -/
def dbl (sign : Bool) (m : Nat) (h : m < 2 ^ 52) : Dbl := ⟨⟨sign, 1023, m, by decide, h⟩, by simp [Flt.isNaN]⟩

instance : Inhabited Dbl := ⟨dbl false 0 (by decide)⟩

end Demo

/-- Numbers of both signs, any number of them. -/
example (n : Nat) (hn : n ≠ 0) :
    Transforms (floatSpreadSort true (fun x : Demo.Dbl => x.1) true 7 (7 + (Demo.twice n (Demo.dbl false 7 (by decide)) (Demo.dbl true 3 (by decide))).length))
    (Demo.mem 7 (Demo.twice n (Demo.dbl false 7 (by decide)) (Demo.dbl true 3 (by decide)))) 7
    (Demo.twice n (Demo.dbl false 7 (by decide)) (Demo.dbl true 3 (by decide)))
    (fun ys => ys.Perm (Demo.twice n (Demo.dbl false 7 (by decide)) (Demo.dbl true 3 (by decide))) ∧ SortedList (fun x y => x.1.lt y.1) ys) :=
  C71_float_spread_sorter_partial true (by decide) (.inr rfl) _ (fun a => a.2) true _ 7 _ (Demo.mem_wf _ _) (Demo.mem_seg _ _)
    (.inr ⟨.inl rfl, .inr (.inl ⟨_, (Demo.twice_mem hn _ _).1, rfl⟩)⟩)

/-- The same with two positive numbers, and no assumption on signed operations. -/
example (n : Nat) (hn : n ≠ 0) :
    Transforms (floatSpreadSort false (fun x : Demo.Dbl => x.1) true 7 (7 + (Demo.twice n (Demo.dbl false 7 (by decide)) (Demo.dbl false 3 (by decide))).length))
    (Demo.mem 7 (Demo.twice n (Demo.dbl false 7 (by decide)) (Demo.dbl false 3 (by decide)))) 7
    (Demo.twice n (Demo.dbl false 7 (by decide)) (Demo.dbl false 3 (by decide)))
    (fun ys => ys.Perm (Demo.twice n (Demo.dbl false 7 (by decide)) (Demo.dbl false 3 (by decide))) ∧ SortedList (fun x y => x.1.lt y.1) ys) := by
  refine C71_float_spread_sorter_partial false (by decide) (.inr rfl) _ (fun a => a.2) true _ 7 _ (Demo.mem_wf _ _) (Demo.mem_seg _ _)
    (.inr ⟨.inr ⟨fun x hx => ?_, fun x hx y hy => ?_⟩, .inr (.inl ⟨_, (Demo.twice_mem hn _ _).1, rfl⟩)⟩)
  · rcases Demo.mem_twice hx with rfl | rfl <;> decide +kernel
  · rcases Demo.mem_twice hx with rfl | rfl <;> rcases Demo.mem_twice hy with rfl | rfl <;> decide +kernel

/-- Without operations that wrap around: with 1000 numbers or more that are not sorted, if the difference of the bits of two of them
is not a value of the signed type of their size, its computation overflows. -/
theorem C71_overflow [Inhabited α] {ew mw : Nat} (hew : 0 < ew)
    (proj : α → Flt ew mw) (hnan : ∀ a, (proj a).isNaN = false) (branchless : Bool)
    (s : St α) (first : Nat) (xs : List α) (hs : Seg s.cell first xs) (hn : 1000 ≤ xs.length)
    (hns : ¬ SortedList (fun x y => (proj x).lt (proj y)) xs)
    (hbig : ∃ x ∈ xs, ∃ y ∈ xs, 2 ^ (ew + mw) ≤ (proj x).int - (proj y).int) :
    floatSpreadSort false proj branchless first (first + xs.length) s = some (.error .overflow, s) := by
  obtain ⟨v, hv, he⟩ := hs.holds
  refine floatSpreadSort_overflow hew hnan (by omega) hv (fun h => hns ?_) ?_
  · have := sortedOn_iff.1 h
    rwa [he] at this
  · obtain ⟨x, hx, y, hy, hxy⟩ := hbig
    rw [← he] at hx hy
    obtain ⟨i, i1, i2, rfl⟩ := mem_lst.1 hx
    obtain ⟨j, j1, j2, rfl⟩ := mem_lst.1 hy
    exact ⟨i, j, i1, i2, j1, j2, hxy⟩

/-- Two numbers of different signs are enough. -/
example : floatSpreadSort false (fun x : Demo.Dbl => x.1) true 7
      (7 + (Demo.twice 500 (Demo.dbl false 7 (by decide)) (Demo.dbl true 3 (by decide))).length)
      (Demo.mem 7 (Demo.twice 500 (Demo.dbl false 7 (by decide)) (Demo.dbl true 3 (by decide)))) =
    some (.error .overflow, Demo.mem 7 (Demo.twice 500 (Demo.dbl false 7 (by decide)) (Demo.dbl true 3 (by decide)))) :=
  C71_overflow (by decide) _ (fun a => a.2) true _ 7 _ (Demo.mem_seg _ _) (by rw [Demo.twice_length])
    (Demo.twice_unsorted (by decide) (by decide +kernel))
    ⟨_, (Demo.twice_mem (by decide) _ _).1, _, (Demo.twice_mem (by decide) _ _).2, by decide +kernel⟩

/-- `double`, without any overflow: 1000 negative numbers with two neighbouring values, where the last 32 bits of the first one are 0, are
sorted in the reverse order. The number of bins of negative numbers is converted to `unsigned`, which gives 0. -/
theorem C71_reversed [Inhabited α] (wrapv : Bool) (proj : α → Flt 11 52) (hnan : ∀ a, (proj a).isNaN = false) (branchless : Bool)
    (s : St α) (first : Nat) (xs : List α) (hw : s.WF) (hs : Seg s.cell first xs) (hn : 1000 ≤ xs.length)
    (hns : ¬ SortedList (fun x y => (proj x).lt (proj y)) xs) {m : Int} (hm0 : m < 0) (hm1 : -2 ^ 63 < m) (hm : m % 2 ^ 32 = 0)
    (hxm : ∀ x ∈ xs, (proj x).int = m ∨ (proj x).int = m + 1) (hex : ∃ x ∈ xs, (proj x).int = m) :
    Transforms (floatSpreadSort wrapv proj branchless first (first + xs.length)) s first xs
      (fun ys => ys.Perm xs ∧ ys.Pairwise fun x y => (proj x).int ≤ (proj y).int) := by
  obtain ⟨v, hv, he⟩ := hs.holds
  have hmv : ∀ i, first ≤ i → i < first + xs.length → v i ∈ xs := fun i a b => he ▸ mem_lst.2 ⟨i, a, b, rfl⟩
  have hwp : wp (floatSpreadSort wrapv proj branchless first (first + xs.length)) (fun _ s' => ∃ v', Upd first (first + xs.length) s s' v v' ∧
      SortedOn (keyLt fun x => (proj x).int) first (first + xs.length) v') s := by
    unfold floatSpreadSort
    rw [if_neg (by omega)]
    refine floatSortRec_truncated (c := fltSpread wrapv proj branchless) (P := fun x => x ∈ xs) (lt := fltLt proj)
      (fltSpread_ok (by decide) (by decide) (by decide) hnan (.inr fun x y hx hy => ?_)) (by omega) hv hmv (fun h => hns ?_) hm0 hm1 ?_ ?_
      (fun i a b => hxm _ (hmv i a b)) ?_
    · have h1 := hxm x hx
      have h2 := hxm y hy
      norm_num
      omega
    · have := sortedOn_iff.1 h
      rwa [he] at this
    · show -m ≤ 2 ^ 63 - 1
      omega
    · omega
    · obtain ⟨x, hx, e⟩ := hex
      rw [← he] at hx
      obtain ⟨i, a, b, rfl⟩ := mem_lst.1 hx
      exact ⟨i, a, b, e⟩
  obtain ⟨_, s', hr, v', hu, hso⟩ := hwp
  refine hu.transforms hw hv he hr ⟨?_, (sortedOn_iff.1 hso).imp fun h => ?_⟩
  · have := hu.perm.2
    rwa [he] at this
  · simp only [keyLt, decide_eq_false_iff_not] at h
    omega

/-- -1.0 and the number before it. -/
theorem Demo.neg_reversed (wrapv : Bool) (n : Nat) (hn : 500 ≤ n) :
    Transforms (floatSpreadSort wrapv (fun x : Demo.Dbl => x.1) true 0 (0 + (Demo.twice n (Demo.dbl true 0 (by decide)) (Demo.dbl true 1 (by decide))).length))
    (Demo.mem 0 (Demo.twice n (Demo.dbl true 0 (by decide)) (Demo.dbl true 1 (by decide)))) 0
    (Demo.twice n (Demo.dbl true 0 (by decide)) (Demo.dbl true 1 (by decide)))
    (fun ys => ys.Perm (Demo.twice n (Demo.dbl true 0 (by decide)) (Demo.dbl true 1 (by decide))) ∧ ys.Pairwise fun x y => x.1.int ≤ y.1.int) := by
  refine C71_reversed wrapv _ (fun a => a.2) true _ 0 _ (Demo.mem_wf _ _) (Demo.mem_seg _ _) (by rw [Demo.twice_length]; omega)
    (Demo.twice_unsorted (by omega) (by decide +kernel))
    (m := -4616189618054758400) (by decide) (by decide) (by decide) (fun x hx => ?_) ⟨_, (Demo.twice_mem (by omega) _ _).1, by decide +kernel⟩
  rcases Demo.mem_twice hx with rfl | rfl
  · exact .inl (by decide +kernel)
  · exact .inr (by decide +kernel)

/-- C71 is false for `double`, whether signed operations wrap around or not: 1000 negative numbers are left in the wrong order. -/
theorem C71_float_spread_sorter_false (wrapv : Bool) : ¬ ∀ (s : St Demo.Dbl) (first : Nat) (xs : List Demo.Dbl), s.WF → Seg s.cell first xs →
    Transforms (floatSpreadSort wrapv (fun x : Demo.Dbl => x.1) true first (first + xs.length)) s first xs
      (fun ys => ys.Perm xs ∧ SortedList (fun x y => x.1.lt y.1) ys) := by
  intro h
  obtain ⟨n, hn⟩ : ∃ n, 500 ≤ n := ⟨500, Nat.le_refl _⟩
  obtain ⟨s1, ys, e, hl, hs, ⟨hR, hR'⟩, -⟩ := h (Demo.mem 0 (Demo.twice n (Demo.dbl true 0 (by decide)) (Demo.dbl true 1 (by decide)))) 0
    _ (Demo.mem_wf _ _) (Demo.mem_seg _ _)
  obtain ⟨s2, zs, e', hl', hs', ⟨-, hS'⟩, -⟩ := Demo.neg_reversed wrapv n hn
  rw [e] at e'
  obtain rfl : s1 = s2 := by injection e' with e'; injection e' with _ e'
  obtain rfl := hs.inj hs' (by omega)
  have m0 := hR.mem_iff.2 (Demo.twice_mem (n := n) (by omega) (Demo.dbl true 0 (by decide)) (Demo.dbl true 1 (by decide))).1
  have m1 := hR.mem_iff.2 (Demo.twice_mem (n := n) (by omega) (Demo.dbl true 0 (by decide)) (Demo.dbl true 1 (by decide))).2
  have hboth := hR'.and hS'
  have : ∀ l : List Demo.Dbl, l.Pairwise (fun x y => y.1.lt x.1 = false ∧ x.1.int ≤ y.1.int) → Demo.dbl true 0 (by decide) ∈ l →
      Demo.dbl true 1 (by decide) ∈ l → False := by
    intro l
    induction l with
    | nil => intro _ h; simp at h
    | cons z zs ih =>
      intro hp a b
      rw [List.pairwise_cons] at hp
      rcases List.mem_cons.1 a with rfl | a'
      · rcases List.mem_cons.1 b with b' | b'
        · exact absurd (congrArg (fun d : Demo.Dbl => d.1.mant) b') (by decide)
        · have := (hp.1 _ b').1
          revert this
          decide +kernel
      · rcases List.mem_cons.1 b with rfl | b'
        · have := (hp.1 _ a').2
          revert this
          decide +kernel
        · exact ih hp.2 a' b'
  exact this ys hboth m0 m1

end CppSort
