import Verif.Props.Demo
import Verif.Base.Segs
import Verif.Proof.SkaBad
/-
C63: ska_sorter, for every supported type of keys.
-/
set_option autoImplicit false

namespace CppSort
variable {α : Type}

/-- The order in which `ska_sorter` has to leave the elements. -/
abbrev KTy.by (t : KTy) (proj : α → t.Val) (x y : α) : Bool := t.less (proj x) (proj y)

/-- The order of the keys is a strict weak order: the property is not about an unusable comparison. -/
theorem C63_order (t : KTy) (proj : α → t.Val) : StrictWeak (t.by proj) :=
  ⟨fun _ => (less_sw t).irrefl _, fun _ _ _ => (less_sw t).trans _ _ _, fun _ _ _ => (less_sw t).equiv_trans _ _ _⟩

/-- Partial form of C63. `ska_sorter` sorts every range of fewer than 128 elements, and every range of elements whose keys
are made of booleans, integers of any size, floating point numbers, and pairs, tuples and lists of them, except (all these
exceptions are real, see below): negative `char` and `wchar_t`; `-0.0` unless it is in the last part of the key; lists of
booleans, of pairs and of tuples. -/
theorem C63_ska_sorter_partial [Inhabited α] (t : KTy) (proj : α → t.Val) (branchless : Bool) (s : St α) (first : Nat)
    (xs : List α) (hw : s.WF) (hs : Seg s.cell first xs)
    (hfit : xs.length < 128 ∨ t.Plain ∧ ∀ x ∈ xs, t.Fit false (proj x)) :
    Transforms (skaSort t proj branchless first (first + xs.length)) s first xs
      (fun ys => ys.Perm xs ∧ SortedList (t.by proj) ys) := by
  obtain ⟨v, hv, he⟩ := hs.holds
  have h : wp (skaSort t proj branchless first (first + xs.length))
      (fun _ s' => ∃ v', Upd first (first + xs.length) s s' v v' ∧
        SortedOn (t.by proj) first (first + xs.length) v') s := by
    rcases hfit with h | ⟨hp, h⟩
    · exact skaSort_small t proj branchless (by omega) (by omega) hv
    · refine skaSort_fit t hp proj branchless s first _ v (by omega) hv fun i j h1 h2 _ _ => h _ ?_
      rw [← he]
      exact mem_lst.2 ⟨i, h1, h2, rfl⟩
  obtain ⟨_, s', hr, v', hu, hso⟩ := h
  refine hu.transforms hw hv he hr ⟨?_, sortedOn_iff.1 hso⟩
  have := hu.perm.2
  rwa [he] at this

/-- C63: unless its keys have lists of booleans, `ska_sorter` terminates on every range without any error, and the result is a
permutation. -/
theorem C63_ska_sorter_permutes [Inhabited α] (t : KTy) (ht : t.Safe) (proj : α → t.Val) (branchless : Bool) (s : St α)
    (first : Nat) (xs : List α) (hw : s.WF) (hs : Seg s.cell first xs) :
    Transforms (skaSort t proj branchless first (first + xs.length)) s first xs (fun ys => ys.Perm xs) := by
  obtain ⟨v, hv, he⟩ := hs.holds
  obtain ⟨_, s', hr, v', hu, -⟩ := skaSort_permutes t ht proj branchless s first _ v (by omega) hv fun _ _ _ _ _ _ => trivial
  refine hu.transforms hw hv he hr ?_
  have := hu.perm.2
  rwa [he] at this

/-! A key made of a string, a signed integer and a `double`, the last part being any number. -/

namespace Demo

/-- `std::tuple<std::string, short, double>`. -/
def skaKey : KTy := .pair (.list (.uint 1)) (.pair (.sint 2) (.flt 11 52))

/-- `+0.0` and `-0.0`. -/
def zero (ew mw : Nat) (sign : Bool) : (KTy.flt ew mw).Val :=
  ⟨⟨sign, 0, 0, Nat.pow_pos (by omega), Nat.pow_pos (by omega)⟩, by simp [Flt.isNaN]⟩

/-- An element. -/
def skaElt (b : { x : Nat // x < 256 ^ 1 }) (i : { x : Int // -(256 ^ 2 : Nat) ≤ 2 * x ∧ 2 * x < (256 ^ 2 : Nat) }) (sign : Bool) :
    skaKey.Val := ([b, b], i, zero 11 52 sign)

instance : Inhabited skaKey.Val := ⟨skaElt ⟨98, by decide⟩ ⟨-5, by decide⟩ true⟩

/-- Two hundred elements. -/
def skaElts : List skaKey.Val :=
  List.replicate 100 (skaElt ⟨98, by decide⟩ ⟨-5, by decide⟩ true) ++ List.replicate 100 (skaElt ⟨97, by decide⟩ ⟨7, by decide⟩ false)

end Demo

example : Transforms (skaSort Demo.skaKey id true 7 (7 + Demo.skaElts.length)) (Demo.mem 7 Demo.skaElts) 7 Demo.skaElts
    (fun ys => ys.Perm Demo.skaElts ∧ SortedList (Demo.skaKey.by id) ys) := by
  refine C63_ska_sorter_partial Demo.skaKey id true _ 7 _ (Demo.mem_wf _ _) (Demo.mem_seg _ _) (.inr ⟨?_, fun x hx => ?_⟩)
  · simp [Demo.skaKey, KTy.Plain, KTy.Elt]
  · simp only [Demo.skaElts, List.mem_append, List.mem_replicate] at hx
    rcases hx with ⟨-, rfl⟩ | ⟨-, rfl⟩ <;> simp [Demo.skaElt, Demo.skaKey, KTy.Fit]

example : Transforms (skaSort Demo.skaKey id true 7 (7 + Demo.skaElts.length)) (Demo.mem 7 Demo.skaElts) 7 Demo.skaElts
    (fun ys => ys.Perm Demo.skaElts) :=
  C63_ska_sorter_permutes Demo.skaKey (by simp [Demo.skaKey, KTy.Safe, KTy.first, SubKey.isBool]) id true _ 7 _
    (Demo.mem_wf _ _) (Demo.mem_seg _ _)

/-! ### Characters -/

/-- The range of `char` is left in the order of the unsigned values, although `char` is a signed type. -/
theorem C63_char_order [Inhabited α] (proj : α → (KTy.char 1).Val) (branchless : Bool) (s : St α) (first : Nat)
    (xs : List α) (hw : s.WF) (hs : Seg s.cell first xs) (hn : 128 ≤ xs.length) :
    Transforms (skaSort (.char 1) proj branchless first (first + xs.length)) s first xs
      (fun ys => ys.Perm xs ∧ ys.Pairwise fun x y => (proj x).1 % 256 ≤ (proj y).1 % 256) := by
  obtain ⟨v, hv, he⟩ := hs.holds
  obtain ⟨_, s', hr, v', hu, hso⟩ :=
    skaSort_char proj branchless s first (first + xs.length) v (by omega) hv fun _ _ _ _ _ _ => trivial
  refine hu.transforms hw hv he hr ⟨?_, ?_⟩
  · have := hu.perm.2
    rwa [he] at this
  · refine List.Pairwise.imp ?_ (sortedOn_iff.1 hso)
    intro x y h
    simp only [charKeyLess, charKey, decide_eq_false_iff_not] at h
    have h1 := Int.emod_nonneg (proj x).1 (show (256 : Int) ≠ 0 by omega)
    have h2 := Int.emod_nonneg (proj y).1 (show (256 : Int) ≠ 0 by omega)
    norm_num at h
    omega

/-- Two orders on the result of one run. -/
theorem Transforms.both {m : M α Unit} {s : St α} {first : Nat} {xs : List α} {R R' : List α → Prop}
    (h : Transforms m s first xs R) (h' : Transforms m s first xs R') : ∃ ys, R ys ∧ R' ys := by
  obtain ⟨s1, ys, e, hl, hs, hR, -⟩ := h
  obtain ⟨s2, zs, e', hl', hs', hR', -⟩ := h'
  rw [e] at e'
  obtain rfl : s1 = s2 := by injection e' with e'; injection e' with _ e'
  obtain rfl := hs.inj hs' (by omega)
  exact ⟨ys, hR, hR'⟩

/-- Two different elements of a list are in one order or in the other. -/
theorem pairwise_two {R : α → α → Prop} {ys : List α} (h : ys.Pairwise R) {x y : α} (hx : x ∈ ys) (hy : y ∈ ys) (hne : x ≠ y) :
    [x, y].Sublist ys ∨ [y, x].Sublist ys := by
  induction ys with
  | nil => simp at hx
  | cons z zs ih =>
    rw [List.pairwise_cons] at h
    rcases List.mem_cons.1 hx with rfl | hx'
    · rcases List.mem_cons.1 hy with rfl | hy'
      · exact absurd rfl hne
      · exact .inl (by simpa using hy')
    · rcases List.mem_cons.1 hy with rfl | hy'
      · exact .inr (by simpa using hx')
      · exact (ih h.2 hx' hy').imp (·.cons _) (·.cons _)

/-- C63 is false: with 128 characters or more of which some are negative and some are not, the result is not sorted. -/
theorem C63_char_false [Inhabited α] (proj : α → (KTy.char 1).Val) (branchless : Bool) (s : St α) (first : Nat)
    (xs : List α) (hw : s.WF) (hs : Seg s.cell first xs) (hn : 128 ≤ xs.length) (x y : α) (hx : x ∈ xs) (hy : y ∈ xs)
    (hneg : (proj x).1 < 0) (hpos : 0 ≤ (proj y).1) :
    ¬ Transforms (skaSort (.char 1) proj branchless first (first + xs.length)) s first xs
      (fun ys => ys.Perm xs ∧ SortedList ((KTy.char 1).by proj) ys) := by
  intro h
  obtain ⟨ys, ⟨hp, h1⟩, -, h2⟩ := h.both (C63_char_order proj branchless s first xs hw hs hn)
  have b1 := (proj x).2.1
  have b2 := (proj y).2.2
  norm_num at b1 b2
  rcases pairwise_two h1 (hp.mem_iff.2 hx) (hp.mem_iff.2 hy) (by rintro rfl; omega) with hsub | hsub
  · have := h2.sublist hsub
    simp at this
    omega
  · have := List.Pairwise.sublist hsub h1
    simp [KTy.less] at this
    have : (proj y).1 ≤ (proj x).1 := this
    omega

/-- Sixty-four times `'\x80'` and sixty-four times `'a'`. -/
def Demo.chars : List (KTy.char 1).Val :=
  List.replicate 64 ⟨-128, by decide⟩ ++ List.replicate 64 ⟨97, by decide⟩

/-- The property fails: `ska_sorter` does not sort every range of every supported key type. -/
theorem C63_ska_sorter_false : ¬ ∀ (α : Type) (t : KTy) (proj : α → t.Val) (branchless : Bool),
    Sorts (t.by proj) (skaSort t proj branchless) := by
  intro h
  haveI : Inhabited (KTy.char 1).Val := ⟨⟨97, by decide⟩⟩
  refine C63_char_false id true (Demo.mem 7 Demo.chars) 7 Demo.chars (Demo.mem_wf _ _) (Demo.mem_seg _ _) (by simp [Demo.chars])
    ⟨-128, by decide⟩ ⟨97, by decide⟩ (by simp [Demo.chars]) (by simp [Demo.chars]) (by decide) (by decide) ?_
  exact h _ (.char 1) id true _ 7 _ (Demo.mem_wf _ _) (Demo.mem_seg _ _)

/-! ### Zeros -/

/-- Keys starting with a floating point number, followed by others: the negative ones, `-0.0` included, come first. -/
theorem C63_zero_order [Inhabited α] {ew mw : Nat} (hf : (ew + mw + 1) % 8 = 0) (b : KTy) (hb : b.Safe)
    (proj : α → (KTy.pair (.flt ew mw) b).Val) (branchless : Bool) (s : St α) (first : Nat)
    (xs : List α) (hw : s.WF) (hs : Seg s.cell first xs) (hn : 128 ≤ xs.length) :
    Transforms (skaSort (.pair (.flt ew mw) b) proj branchless first (first + xs.length)) s first xs
      (fun ys => ys.Perm xs ∧ ys.Pairwise fun x y => (proj y).1.1.sign = true → (proj x).1.1.sign = true) := by
  obtain ⟨v, hv, he⟩ := hs.holds
  obtain ⟨_, s', hr, v', hu, hso⟩ :=
    skaSort_zeros hf b hb proj branchless s first (first + xs.length) v (by omega) hv fun _ _ _ _ _ _ => trivial
  refine hu.transforms hw hv he hr ⟨?_, ?_⟩
  · have := hu.perm.2
    rwa [he] at this
  · refine List.Pairwise.imp ?_ (sortedOn_iff.1 hso)
    intro x y h
    simp only [signLess] at h
    cases e : (proj x).1.1.sign <;> cases e' : (proj y).1.1.sign <;> simp_all

/-- C63 is false: an element with the key `(-0.0, b)` and an element with the key `(+0.0, a)`, where `a < b`, are left in the wrong
order. -/
theorem C63_zero_false [Inhabited α] {ew mw : Nat} (hf : (ew + mw + 1) % 8 = 0) (b : KTy) (hb : b.Safe)
    (proj : α → (KTy.pair (.flt ew mw) b).Val) (branchless : Bool) (s : St α) (first : Nat)
    (xs : List α) (hw : s.WF) (hs : Seg s.cell first xs) (hn : 128 ≤ xs.length) (x y : α) (hx : x ∈ xs) (hy : y ∈ xs)
    (hneg : (proj x).1.1.sign = true) (hpos : (proj y).1.1.sign = false) (hxy : (proj x).1.1.lt (proj y).1.1 = false)
    (hlt : b.less (proj y).2 (proj x).2 = true) :
    ¬ Transforms (skaSort (.pair (.flt ew mw) b) proj branchless first (first + xs.length)) s first xs
      (fun ys => ys.Perm xs ∧ SortedList ((KTy.pair (.flt ew mw) b).by proj) ys) := by
  intro h
  obtain ⟨ys, ⟨hp, h1⟩, -, h2⟩ := h.both (C63_zero_order hf b hb proj branchless s first xs hw hs hn)
  rcases pairwise_two h1 (hp.mem_iff.2 hx) (hp.mem_iff.2 hy) (by rintro rfl; simp_all) with hsub | hsub
  · have := List.Pairwise.sublist hsub h1
    simp [KTy.by, KTy.less, hxy, hlt] at this
  · have := h2.sublist hsub
    simp [hneg, hpos] at this

/-- Sixty-four times `(-0.0f, true)` and sixty-four times `(+0.0f, false)`. -/
def Demo.zeros : List (KTy.pair (.flt 8 23) .bool).Val :=
  List.replicate 64 (Demo.zero 8 23 true, true) ++ List.replicate 64 (Demo.zero 8 23 false, false)

example : ¬ Transforms (skaSort (.pair (.flt 8 23) .bool) id true 7 (7 + Demo.zeros.length)) (Demo.mem 7 Demo.zeros) 7 Demo.zeros
    (fun ys => ys.Perm Demo.zeros ∧ SortedList ((KTy.pair (.flt 8 23) .bool).by id) ys) :=
  haveI : Inhabited (KTy.pair (.flt 8 23) .bool).Val := ⟨(Demo.zero 8 23 true, true)⟩
  C63_zero_false (by decide) .bool trivial id true _ 7 _ (Demo.mem_wf _ _) (Demo.mem_seg _ _) (by simp [Demo.zeros])
    (Demo.zero 8 23 true, true) (Demo.zero 8 23 false, false) (by simp [Demo.zeros]) (by simp [Demo.zeros]) rfl rfl
    (by decide) rfl

/-! ### Lists of pairs -/

/-- When the keys are lists of one pair each, and the pairs have the same first part, the range is left as it was. -/
theorem C63_list_pairs [Inhabited α] (n : Nat) (b : KTy) (proj : α → (KTy.list (.pair (.uint n) b)).Val) (branchless : Bool)
    (s : St α) (first : Nat) (xs : List α) (hw : s.WF) (hs : Seg s.cell first xs) (hn : 128 ≤ xs.length)
    (c : (KTy.uint n).Val) (hx : ∀ x ∈ xs, ∃ d, proj x = [(c, d)]) :
    Transforms (skaSort (.list (.pair (.uint n) b)) proj branchless first (first + xs.length)) s first xs
      (fun ys => ys = xs) := by
  obtain ⟨v, hv, he⟩ := hs.holds
  obtain ⟨_, s', hr, k, rfl⟩ := skaSort_pairs (.uint n) b proj branchless (s := s) (f := first) (l := first + xs.length) (v := v)
    (by omega) hv c (fun i h1 h2 => hx _ (by rw [← he]; exact mem_lst.2 ⟨i, h1, h2, rfl⟩)) (by simp [KTy.first, SubKey.same])
  exact ⟨_, xs, hr, rfl, hs, rfl, fun _ _ => rfl, hw⟩

/-- One hundred and twenty-eight lists of one pair, in the wrong order. -/
def Demo.listPairs : List (KTy.list (.pair (.uint 4) .bool)).Val :=
  List.replicate 64 [(⟨5, by decide⟩, true)] ++ List.replicate 64 [(⟨5, by decide⟩, false)]

/-- C63 is false: the lists of pairs are not sorted by the second parts of the pairs. -/
theorem C63_list_pairs_false :
    ¬ Transforms (skaSort (.list (.pair (.uint 4) .bool)) id true 7 (7 + Demo.listPairs.length)) (Demo.mem 7 Demo.listPairs) 7
      Demo.listPairs (fun ys => ys.Perm Demo.listPairs ∧ SortedList ((KTy.list (.pair (.uint 4) .bool)).by id) ys) := by
  intro h
  obtain ⟨ys, ⟨-, h1⟩, rfl⟩ := h.both (C63_list_pairs 4 .bool id true (Demo.mem 7 Demo.listPairs) 7 Demo.listPairs (Demo.mem_wf _ _)
    (Demo.mem_seg _ _) (by simp [Demo.listPairs]) ⟨5, by decide⟩ (fun x hx => by
      simp only [Demo.listPairs, List.mem_append, List.mem_replicate] at hx
      rcases hx with ⟨-, rfl⟩ | ⟨-, rfl⟩ <;> exact ⟨_, rfl⟩))
  rw [Demo.listPairs, SortedList, List.pairwise_append] at h1
  have := h1.2.2 [(⟨5, by decide⟩, true)] (by simp) [(⟨5, by decide⟩, false)] (by simp)
  simp [KTy.by, KTy.less, lexLess] at this

/-! ### Lists of booleans -/

/-- C63 is false: when the first key is an empty list and the others are lists of `false`, the algorithm reads the element
after the last one. -/
theorem C63_list_bools [Inhabited α] (proj : α → (KTy.list .bool).Val) (branchless : Bool) (s : St α) (first : Nat) (x : α)
    (xs : List α) (hs : Seg s.cell first (x :: xs)) (hn : 128 ≤ xs.length) (hx : proj x = []) (hxs : ∀ y ∈ xs, proj y = [false])
    (hend : s.cell (first + (x :: xs).length) = .unalloc) :
    ∃ s', skaSort (.list .bool) proj branchless first (first + (x :: xs).length) s = some (.error .deref, s') := by
  obtain ⟨v, hv, he⟩ := hs.holds
  rw [lst_cons (by simp)] at he
  injection he with e1 e2
  refine skaSort_bools proj branchless (by simp; omega) hv (by rw [e1, hx]) (fun i h1 h2 => hxs _ ?_) (by rw [hend]; simp)
  rw [← e2]
  exact mem_lst.2 ⟨i, by omega, h2, rfl⟩

/-- An empty list and `n` lists of one boolean. -/
def Demo.listBools (n : Nat) : List (KTy.list .bool).Val := [] :: List.replicate n [false]

example (n : Nat) (hn : 128 ≤ n) : ∃ s', skaSort (.list .bool) id true 7 (7 + (Demo.listBools n).length)
    (Demo.mem 7 (Demo.listBools n)) = some (.error .deref, s') :=
  C63_list_bools id true (Demo.mem 7 (Demo.listBools n)) 7 [] (List.replicate n [false]) (Demo.mem_seg _ _)
    (by rw [List.length_replicate]; exact hn) rfl (fun y hy => List.eq_of_mem_replicate hy)
    (Demo.mem_wf 7 (Demo.listBools n) _ (Nat.le_refl _))

end CppSort
