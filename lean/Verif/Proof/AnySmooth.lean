import Verif.Proof.AnyPoplar
import Verif.Proof.Smooth
/-
smoothsort.h with any comparison function: the shape of the heap does not depend on the comparisons.
-/
set_option autoImplicit false

namespace CppSort
variable {α : Type} {T : Shape α → Prop} {cmp : α → α → M α Bool}

theorem keep_leoAt {β : Type} {f l k : Nat} {P : Shape α} {g : Nat → M α β} {R : β → Shape α → Prop} (h : k < 92)
    (hk : Keep T f l P (g (leo k)) R) : Keep T f l P (leoAt k >>= g) R := by
  refine Keep.bind (R := fun r P' => r = leo k ∧ P' = P) (.of_wp fun s v hv => wp_leoAt h
    ⟨P, ⟨rfl, rfl⟩, v, hv, PermOn.refl _ _ _, Frame.refl _ _ _⟩) ?_
  rintro _ _ ⟨rfl, rfl⟩
  exact hk

theorem smoothLarger_any (hc : AnswersW T cmp) {f l first second size : Nat} (h1 : f ≤ first ∧ first < l)
    (h2 : f ≤ second ∧ second < l) :
    Intact T f l (smoothLarger cmp first second size) fun c => c = (second, size - 2) ∨ c = (first, size - 1) := by
  unfold smoothLarger
  keep1
  keep1
  keep1
  exact Keep.ite (fun _ => Keep.pure ⟨rfl, .inl rfl⟩) fun _ => Keep.pure ⟨rfl, .inr rfl⟩

theorem smoothRebalance_any (hc : AnswersW T cmp) {f l : Nat} : ∀ (n k : Nat), k ≤ n → k < 92 → ∀ a : Nat, f ≤ a →
    a + leo k ≤ l → Intact T f l (smoothRebalance cmp (a + leo k - 1) k) fun _ => True := by
  intro n
  induction n with
  | zero =>
    intro k hk _ a hf hl
    rw [smoothRebalance, if_neg (by omega)]
    keep
  | succ n ih =>
    intro k hk hb a hf hl
    rw [smoothRebalance]
    refine Keep.ite (fun h1 => ?_) fun _ => by keep
    obtain ⟨k, rfl⟩ : ∃ j, k = j + 2 := ⟨k - 2, by omega⟩
    have el : leo (k + 2) = leo (k + 1) + leo k + 1 := by rw [leo]
    have p0 := leo_pos k
    have p1 := leo_pos (k + 1)
    refine keep_leoAt (by omega) ?_
    rw [Nat.add_sub_cancel, show a + leo (k + 2) - 1 - 1 - leo k = a + leo (k + 1) - 1 by omega,
      show a + leo (k + 2) - 1 - 1 = a + leo (k + 1) + leo k - 1 by omega]
    refine (smoothLarger_any hc (by omega) (by omega)).bind ?_
    rintro c _ ⟨rfl, rfl | rfl⟩
    · simp only []
      keep
      rw [Nat.add_sub_cancel]
      exact ih k (by omega) (by omega) (a + leo (k + 1)) (by omega) (by omega)
    · simp only []
      keep
      rw [show k + 2 - 1 = k + 1 by omega]
      exact ih (k + 1) (by omega) (by omega) a (by omega) (by omega)

theorem smoothToCompare_any (hc : AnswersW T cmp) {f l k a : Nat} (hk : k < 92) (hf : f ≤ a) (hl : a + leo k ≤ l) :
    Intact T f l (smoothToCompare cmp (a + leo k - 1) k) fun c => a ≤ c ∧ c < a + leo k := by
  have := leo_pos k
  unfold smoothToCompare
  refine Keep.ite (fun h1 => ?_) fun _ => by keep
  obtain ⟨k, rfl⟩ : ∃ j, k = j + 2 := ⟨k - 2, by omega⟩
  have el : leo (k + 2) = leo (k + 1) + leo k + 1 := by rw [leo]
  have p0 := leo_pos k
  have p1 := leo_pos (k + 1)
  refine keep_leoAt (by omega) ?_
  rw [Nat.add_sub_cancel]
  refine (smoothLarger_any hc (by omega) (by omega)).bind ?_
  rintro c _ ⟨rfl, rfl | rfl⟩ <;> simp only [] <;> keep

/-- The trees of the given orders, nothing being said of their elements. -/
abbrev SLay (f : Nat) (os : List Nat) (e : Nat) : Prop :=
  LRow (fun _ _ : Unit => false) (fun _ => ()) f os e

theorem lpop_trivial : ∀ (k a : Nat), LPop (fun _ _ : Unit => false) (fun _ => ()) k a
  | 0, _ => trivial
  | 1, _ => trivial
  | k + 2, a => ⟨lpop_trivial (k + 1) a, lpop_trivial k _, fun _ _ _ => rfl⟩

theorem asc_trivial (f : Nat) : ∀ (os : List Nat) (e : Nat), Asc (fun _ _ : Unit => false) (fun _ => ()) f os e
  | [], _ => trivial
  | _ :: os, _ => ⟨fun _ _ _ => rfl, asc_trivial f os _⟩

theorem built_trivial (f l : Nat) : ∀ (os : List Nat) (e : Nat),
    Built (fun _ _ : Unit => false) (fun _ => ()) f l os e
  | [], _ => trivial
  | o :: os, e => ⟨fun _ => asc_trivial f (o :: os) e, built_trivial f l os _⟩

theorem shp_rest {o : Nat} {os : List Nat} {sh : HeapShape} (hsh : Shp (o :: os) sh) (i : Nat) (i1 : 1 ≤ i) (i2 : i < 92) :
    sh.trees.getLsbD i = decide (sh.smallest + i ∈ os) := by
  have hsm : sh.smallest = o := hsh.2 o rfl
  rw [hsh.1 i i2]
  congr 1
  rw [List.mem_cons]
  simp only [eq_iff_iff]
  exact ⟨fun h => h.resolve_left (by omega), Or.inr⟩

theorem smoothRectify_any (hc : AnswersW T cmp) {f l : Nat} : ∀ (os : List Nat) (o a : Nat) (sh : HeapShape),
    a + leo o ≤ l → SLay f os a → Shp (o :: os) sh → (o :: os).Pairwise (· < ·) → (∀ p ∈ o :: os, p < 92) →
    Intact T f l (smoothRectify cmp f (a + leo o - 1) sh) fun _ => True := by
  intro os
  induction os with
  | nil =>
    intro o a sh hl hr hsh _ hb
    have hr : f = a := hr
    subst hr
    have hsm : sh.smallest = o := hsh.2 o rfl
    have ho := hb o List.mem_cons_self
    have p := leo_pos o
    rw [smoothRectify]
    simp only []
    rw [hsm]
    refine keep_leoAt ho ?_
    rw [if_pos (by omega)]
    exact smoothRebalance_any hc o o (Nat.le_refl _) ho f (Nat.le_refl _) hl
  | cons o1 os ih =>
    intro o a sh hl hr hsh hsort hb
    have hsm : sh.smallest = o := hsh.2 o rfl
    have ho := hb o List.mem_cons_self
    have p := leo_pos o
    have p1 := leo_pos o1
    have hr1 := hr.1
    obtain ⟨b, rfl⟩ : ∃ b, a = b + leo o1 := ⟨a - leo o1, by omega⟩
    have hr2 := hr.2.2
    rw [Nat.add_sub_cancel] at hr2
    have hfb := LRow.le hr2
    have hs1 := List.pairwise_cons.1 hsort
    have hs2 := List.pairwise_cons.1 hs1.2
    rw [smoothRectify]
    simp only []
    rw [hsm]
    refine keep_leoAt ho ?_
    rw [if_neg (by omega)]
    refine (smoothToCompare_any hc ho (by omega) hl).bind ?_
    rintro c _ ⟨rfl, hc1⟩
    rw [show b + leo o1 + leo o - 1 - leo o = b + leo o1 - 1 by omega]
    keep
    · refine Keep.bind (R := fun sh' P => P = .whole ∧ Shp (o1 :: os) sh') ?_ ?_
      · refine .of_wp fun s v hv => ?_
        refine wp_mono (smoothScan_spec (o1 := o1) (os := os) (fun q hq => hb q (List.mem_cons_of_mem _ hq)) hs2.1 92 sh s
          (by have := hb o1 (by simp); omega) (by rw [hsm]; exact hs1.1 o1 List.mem_cons_self) (shp_rest hsh)) ?_
        rintro sh' _ ⟨rfl, h⟩
        exact ⟨_, ⟨rfl, h⟩, v, hv, PermOn.refl _ _ _, Frame.refl _ _ _⟩
      · rintro sh' _ ⟨rfl, hsh'⟩
        exact ih o1 b sh' (by omega) hr2 hsh' hs1.2 fun q hq => hb q (List.mem_cons_of_mem _ hq)
    · exact smoothRebalance_any hc o o (Nat.le_refl _) ho _ (by omega) hl

theorem smoothAdd_any (hc : AnswersW T cmp) {f l e : Nat} {os : List Nat} {sh : HeapShape} (hn : l - f < 2 ^ 63)
    (hel : e < l) (hsh : Shp os sh) (hok : ShapeOk os) (hr : SLay f os e) :
    Intact T f l (smoothAdd cmp f e l sh) fun sh' => ∃ os', Shp os' sh' ∧ ShapeOk os' ∧ SLay f os' (e + 1) := by
  obtain ⟨o, os', a, ha, hsh', hok', hr', -, -⟩ := shape_add hn hel hsh hok hr (built_trivial f l os e)
  have hfa := LRow.le hr'
  have hp := leo_pos o
  have ho : o < 90 := leo_bound (by omega)
  have hsm : sh.add.smallest = o := hsh'.2 o rfl
  have hlay : SLay f (o :: os') (e + 1) := by
    refine ⟨by omega, lpop_trivial _ _, ?_⟩
    rw [show e + 1 - leo o = a by omega]
    exact hr'
  unfold smoothAdd
  simp only []
  refine Keep.bind (R := fun _ P => P = .whole) ?_ ?_
  · refine .of_wp fun s v hv => ?_
    refine wp_mono (smoothIsLast_spec (by omega) hel hsh') ?_
    rintro r _ ⟨rfl, -⟩
    exact ⟨_, rfl, v, hv, PermOn.refl _ _ _, Frame.refl _ _ _⟩
  · rintro r _ rfl
    rw [hsm, show e = a + leo o - 1 by omega]
    have fin : Keep (α := α) T f l .whole (pure sh.add) fun sh' P => P = .whole ∧
        ∃ os', Shp os' sh' ∧ ShapeOk os' ∧ SLay f os' (a + leo o - 1 + 1) :=
      Keep.pure ⟨rfl, o :: os', hsh', hok', by rw [show a + leo o - 1 + 1 = e + 1 by omega]; exact hlay⟩
    refine Keep.ite (fun _ => ?_) fun _ => ?_
    · refine (smoothRebalance_any hc o o (Nat.le_refl _) (by omega) a hfa (by omega)).bind ?_
      rintro _ _ ⟨rfl, -⟩
      exact fin
    · refine (smoothRectify_any hc os' o a sh.add (by omega) hr' hsh' hok'.sorted ?_).bind ?_
      · intro p hp
        rcases List.mem_cons.1 hp with rfl | hp
        · omega
        · have := hr'.bound hn (by omega) p hp; omega
      · rintro _ _ ⟨rfl, -⟩
        exact fin

theorem smoothAddAll_any (hc : AnswersW T cmp) {f l : Nat} (hn : l - f < 2 ^ 63) : ∀ (d e : Nat) (os : List Nat)
    (sh : HeapShape), l - e ≤ d → e ≤ l → Shp os sh → ShapeOk os → SLay f os e →
    Intact T f l (smoothAddAll cmp f e l sh) fun sh' => ∃ os', Shp os' sh' ∧ ShapeOk os' ∧ SLay f os' l := by
  intro d
  induction d with
  | zero =>
    intro e os sh hd hel hsh hok hr
    obtain rfl : e = l := by omega
    rw [smoothAddAll, if_neg (by simp)]
    exact Keep.pure ⟨rfl, os, hsh, hok, hr⟩
  | succ d ih =>
    intro e os sh hd hel hsh hok hr
    rw [smoothAddAll]
    refine Keep.ite (fun hne => ?_) fun hne => ?_
    · refine (smoothAdd_any hc hn (by omega) hsh hok hr).bind ?_
      rintro sh1 _ ⟨rfl, os1, hsh1, hok1, hr1⟩
      exact ih (e + 1) os1 sh1 (by omega) (by omega) hsh1 hok1 hr1
    · obtain rfl : e = l := by simpa using hne
      exact Keep.pure ⟨rfl, os, hsh, hok, hr⟩

theorem smoothRemove_any (hc : AnswersW T cmp) {f l e o : Nat} {os : List Nat} {sh : HeapShape} (hn : l - f < 2 ^ 63)
    (hel : e ≤ l) (hsh : Shp (o :: os) sh) (hso : (o :: os).Pairwise (· < ·)) (hr : SLay f (o :: os) e) :
    Intact T f l (smoothRemove cmp f e sh) fun sh' => ∃ os', Shp os' sh' ∧ os'.Pairwise (· < ·) ∧ SLay f os' (e - 1) := by
  have hb := LRow.bound hn hr hel
  have hsm : sh.smallest = o := hsh.2 _ rfl
  have r1 := hr.1
  obtain ⟨hs1, hs2⟩ := List.pairwise_cons.1 hso
  unfold smoothRemove
  rw [hsm]
  refine Keep.ite (fun ho => ?_) fun ho => ?_
  · have hl1 : leo o = 1 := by
      rcases (show o = 0 ∨ o = 1 by omega) with rfl | rfl <;> rfl
    refine .of_wp fun s v hv => ?_
    refine wp_mono (smoothDrop_spec (fun p hp => by have := hb p (List.mem_cons_of_mem _ hp); omega) hs2 92 sh s (by omega)
      (fun p hp => by rw [hsm]; exact hs1 p hp) (shp_rest hsh)) ?_
    rintro sh' _ ⟨rfl, hsh'⟩
    have hr2 := hr.2.2
    rw [hl1] at hr2
    exact ⟨_, ⟨rfl, os, hsh', hs2, hr2⟩, v, hv, PermOn.refl _ _ _, Frame.refl _ _ _⟩
  · obtain ⟨k, rfl⟩ : ∃ k, o = k + 2 := ⟨o - 2, by omega⟩
    have hk := hb _ List.mem_cons_self
    have el : leo (k + 2) = leo (k + 1) + leo k + 1 := by rw [leo]
    have p0 := leo_pos k
    have p1 := leo_pos (k + 1)
    obtain ⟨a, rfl⟩ : ∃ a, e = a + leo (k + 2) := ⟨e - leo (k + 2), by omega⟩
    have hr2 := hr.2.2
    rw [Nat.add_sub_cancel] at hr2
    have hfa := LRow.le hr2
    have hbr := shape_break hsh hs1
    have hbsm : sh.break.smallest = k := hbr.2 _ rfl
    refine keep_leoAt (by omega) ?_
    rw [show k + 2 - 2 = k by omega]
    simp only []
    rw [show a + leo (k + 2) - 1 - 1 - leo k = a + leo (k + 1) - 1 by omega,
      show a + leo (k + 2) - 1 - 1 = a + leo (k + 1) + leo k - 1 by omega,
      show a + leo (k + 2) - 1 = a + leo (k + 1) + leo k by omega]
    have hb1 : ∀ p ∈ (k + 1) :: os, p < 92 := by
      intro p hp
      rcases List.mem_cons.1 hp with rfl | hp
      · omega
      · have := hb p (List.mem_cons_of_mem _ hp); omega
    have hso1 : ((k + 1) :: os).Pairwise (· < ·) :=
      List.pairwise_cons.2 ⟨fun p hp => by have := hs1 p hp; omega, hs2⟩
    have hso2 : (k :: (k + 1) :: os).Pairwise (· < ·) := by
      refine List.pairwise_cons.2 ⟨fun p hp => ?_, hso1⟩
      rcases List.mem_cons.1 hp with rfl | hp
      · omega
      · have := hs1 p hp; omega
    have hsh1 : Shp ((k + 1) :: os) ⟨sh.break.trees >>> 1, sh.break.smallest + 1⟩ :=
      ⟨bits_shift hb1 (shp_rest hbr), by simp [hbsm]⟩
    have hlay1 : SLay f ((k + 1) :: os) (a + leo (k + 1)) :=
      ⟨by omega, lpop_trivial _ _, by rw [Nat.add_sub_cancel]; exact hr2⟩
    refine (smoothRectify_any hc os (k + 1) a _ (by omega) hr2 hsh1 hso1 hb1).bind ?_
    rintro _ _ ⟨rfl, -⟩
    refine (smoothRectify_any hc ((k + 1) :: os) k (a + leo (k + 1)) _ (by omega) hlay1 hbr hso2 ?_).bind ?_
    · intro p hp
      rcases List.mem_cons.1 hp with rfl | hp
      · omega
      · exact hb1 p hp
    · rintro _ _ ⟨rfl, -⟩
      exact Keep.pure ⟨rfl, _, hbr, hso2, by omega, lpop_trivial _ _, by rw [Nat.add_sub_cancel]; exact hlay1⟩

theorem smoothRemoveAll_any (hc : AnswersW T cmp) {f l : Nat} (hn : l - f < 2 ^ 63) : ∀ (d e : Nat) (os : List Nat)
    (sh : HeapShape), e - f ≤ d → f ≤ e → e ≤ l → Shp os sh → os.Pairwise (· < ·) → SLay f os e →
    Intact T f l (smoothRemoveAll cmp f e sh) fun _ => True := by
  intro d
  induction d with
  | zero =>
    intro e os sh hd hf hel _ _ _
    obtain rfl : e = f := by omega
    rw [smoothRemoveAll, if_neg (by simp)]
    keep
  | succ d ih =>
    intro e os sh hd hf hel hsh hso hr
    rw [smoothRemoveAll]
    refine Keep.ite (fun hne => ?_) fun _ => by keep
    cases os with
    | nil => have hr : f = e := hr; omega
    | cons o os =>
      refine (smoothRemove_any hc hn hel hsh hso hr).bind ?_
      rintro sh1 _ ⟨rfl, os1, hsh1, hso1, hr1⟩
      exact ih (e - 1) os1 sh1 (by omega) (by omega) (by omega) hsh1 hso1 hr1

theorem smoothsort_any (hc : AnswersW T cmp) {f l : Nat} (hf : f ≤ l) (hn : l - f < 2 ^ 63) :
    Intact T f l (smoothsort cmp f l) fun _ => True := by
  unfold smoothsort
  refine Keep.ite (fun _ => by keep) fun _ => ?_
  refine (smoothAddAll_any hc hn (l - f) f [] ⟨0, 0⟩ (Nat.le_refl _) hf ⟨fun i hi => by simp, by simp⟩ trivial rfl).bind ?_
  rintro sh _ ⟨rfl, os, hsh, hok, hr⟩
  exact smoothRemoveAll_any hc hn (l - f) l os sh (Nat.le_refl _) hf (Nat.le_refl _) hsh hok.sorted hr

end CppSort
