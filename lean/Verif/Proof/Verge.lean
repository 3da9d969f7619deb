import Verif.Proof.VergeMerge
import Mathlib.Data.List.Chain
/-
Vergesort: finding the runs.
-/
set_option autoImplicit false

namespace CppSort
variable {α : Type} {lt : α → α → Bool}

/-- `y` after `x` goes on with a run: non-descending, or (with `desc`) non-ascending, strictly descending when sorting
stably. -/
def goes (lt : α → α → Bool) (stable desc : Bool) (x y : α) : Bool :=
  if desc then (if stable then lt y x else !lt x y) else !lt y x

/-- The run in the direction `desc`. -/
def IsRun (lt : α → α → Bool) (stable desc : Bool) (xs : List α) : Prop := xs.IsChain (fun x y => goes lt stable desc x y = true)

/-- Sorted, and stably when asked to. -/
def VSorted (lt : α → α → Bool) (stable : Bool) (xs ys : List α) : Prop :=
  ys.Perm xs ∧ SortedList lt ys ∧ (stable = true → SameOrder lt xs ys)

/-- The fallback sorts, and stably when asked to. -/
def FbOk (lt : α → α → Bool) (stable : Bool) (fb : Nat → Nat → M α Unit) : Prop :=
  ∀ (s : St α) (f : Nat) (xs : List α), s.WF → Seg s.cell f xs →
    Transforms (fb f (f + xs.length)) s f xs (VSorted lt stable xs)

theorem FbOk.seg {stable : Bool} {fb : Nat → Nat → M α Unit} (h : FbOk lt stable fb) {f l : Nat} {xs : List α} {s : St α}
    (hw : s.WF) (hs : Seg s.cell f xs) (hl : l = f + xs.length) :
    wp (fb f l) (fun _ s' => ∃ ys, VSorted lt stable xs ys ∧ VTo f xs.length ys s s') s := by
  subst hl
  obtain ⟨s', ys, h1, h2, h3, h4, h5, h6⟩ := h s f xs hw hs
  exact ⟨(), s', h1, ys, h4, h2, h3, h5, h6⟩

theorem goes_other (hlt : StrictWeak lt) {st d : Bool} {x y : α} (h : goes lt st d x y = false) :
    goes lt st (!d) x y = true := by
  cases st <;> cases d <;> simp [goes] at h ⊢ <;> first | exact h | exact hlt.asymm h

theorem IsRun.vsorted (hlt : StrictWeak lt) {st d : Bool} {xs : List α} (h : IsRun lt st d xs) :
    VSorted lt st xs (if d then xs.reverse else xs) := by
  cases d with
  | false => exact ⟨.refl _, sorted_of_chain hlt (h.imp fun x y h => by simpa [goes] using h), fun _ _ => rfl⟩
  | true =>
    cases st with
    | true =>
      obtain ⟨h1, h2, h3⟩ := ssorted_reverse hlt (strict_of_chain hlt (us := xs) (h.imp fun x y h => by simpa [goes] using h))
      exact ⟨h1, h2, fun _ => h3⟩
    | false =>
      refine ⟨List.reverse_perm _, ?_, by simp⟩
      have : SortedList (fun x y => lt y x) xs := sorted_of_chain hlt.flip (h.imp fun x y h => by simpa [goes] using h)
      show List.Pairwise _ (List.reverse xs)
      rw [List.pairwise_reverse]
      exact this

theorem wp_vergeStop {Q : Bool → St α → Prop} {st d : Bool} {x y : α} {s : St α}
    (h : Q (!goes lt st d x y) { s with cmps := s.cmps + 1 }) : wp (vergeStop (tick lt) st d x y) Q s := by
  unfold vergeStop
  unfold goes at h
  cases d with
  | false =>
    exact wp_tick (by simpa using h)
  | true =>
    cases st with
    | false => exact wp_tick (by simpa using h)
    | true =>
      simp only [if_true] at h ⊢
      unfold notC
      apply wp_bind
      apply wp_tick
      exact wp_pure h

/-- To the left: `as` is what is left of the run. -/
theorem vergeLeftLoop_seg {st d : Bool} (n : Nat) : ∀ (ws : List α) (y : α) (b cur : Nat) (s : St α), ws.length = n →
    ws ≠ [] → cur = b + ws.length → Seg s.cell b (ws ++ [y]) →
    wp (vergeLeftLoop (tick lt) st d b cur) (fun r s' => (∃ k, s' = { s with cmps := k }) ∧
      ∃ as c bs, ws ++ [y] = as ++ c :: bs ∧ r = b + as.length ∧ bs ≠ [] ∧ IsRun lt st d bs ∧
        (goes lt st d c (bs.head?.getD c) = true → as = [] ∧ IsRun lt st d (c :: bs))) s := by
  induction n with
  | zero => intro ws y b cur s hn hne; exact absurd (List.length_eq_zero_iff.1 hn) hne
  | succ n ih =>
    intro ws y b cur s hn hne hc hs
    obtain ⟨ws, w, rfl⟩ := exists_snoc hne
    simp only [List.length_append, List.length_cons, List.length_nil] at hn hc
    obtain ⟨s1, s2⟩ := seg_snoc.1 hs
    obtain ⟨-, s3⟩ := seg_snoc.1 s1
    simp only [List.length_append, List.length_cons, List.length_nil] at s2
    rw [vergeLeftLoop]
    apply wp_bind
    refine wp_read' (x := w) (by rw [show cur - 1 = b + ws.length by omega]; exact s3) ?_
    apply wp_bind
    refine wp_read' (x := y) (by rw [show cur - 1 + 1 = b + (ws.length + (0 + 1)) by omega]; exact s2) ?_
    apply wp_bind
    apply wp_vergeStop
    split
    · rename_i hg
      refine wp_pure ⟨⟨_, rfl⟩, ws, w, [y], by simp, by omega, by simp, List.isChain_singleton _, ?_⟩
      intro h
      simp at hg h; rw [hg] at h; cases h
    · rename_i hg
      have hg : goes lt st d w y = true := by simpa using hg
      split
      · rename_i hb
        have hw0 : ws ≠ [] := by intro e; subst e; simp at hc; omega
        refine wp_mono (ih ws w b (cur - 1) _ (by omega) hw0 (by omega) s1) ?_
        rintro r s' ⟨⟨k, rfl⟩, as, c, bs, e, rfl, k1, k2, k3⟩
        have hrun : ∀ zs : List α, zs ≠ [] → (∃ q, zs = q ++ [w]) → IsRun lt st d zs → IsRun lt st d (zs ++ [y]) := by
          rintro _ - ⟨q, rfl⟩ hz
          refine List.IsChain.append hz (List.isChain_singleton _) ?_
          intro a ha b hb'
          simp at ha hb'; subst ha hb'; exact hg
        obtain ⟨q, z, rfl⟩ := exists_snoc k1
        have e2 : ws ++ [w] = (as ++ c :: q) ++ [z] := by simpa using e
        obtain ⟨-, e3⟩ := List.append_inj' e2 rfl
        obtain rfl : w = z := by simpa using e3
        refine ⟨⟨k, rfl⟩, as, c, (q ++ [w]) ++ [y], by rw [e]; simp, rfl, by simp,
          hrun _ (by simp) ⟨q, rfl⟩ k2, ?_⟩
        intro h
        obtain ⟨h1, h2⟩ := k3 (by cases q <;> simpa using h)
        exact ⟨h1, hrun (c :: (q ++ [w])) (by simp) ⟨c :: q, by simp⟩ h2⟩
      · rename_i hb
        have hw0 : ws = [] := List.length_eq_zero_iff.1 (by omega)
        subst hw0
        refine wp_pure ⟨⟨_, rfl⟩, [], w, [y], by simp, by simp at hc ⊢; omega, by simp, List.isChain_singleton _, ?_⟩
        intro h
        exact ⟨rfl, by simpa [IsRun] using hg⟩

theorem vergeLeft_seg {st d : Bool} {ws : List α} {y : α} {b cur : Nat} {s : St α}
    (hne : ws ≠ []) (hc : cur = b + ws.length) (hs : Seg s.cell b (ws ++ [y])) :
    wp (vergeLeft (tick lt) st d b cur) (fun r s' => (∃ k, s' = { s with cmps := k }) ∧
      ∃ as bs, ws = as ++ bs ∧ r = b + as.length ∧ IsRun lt st d (bs ++ [y]) ∧
        (∀ a ∈ as.getLast?, ∀ c ∈ (bs ++ [y]).head?, goes lt st d a c = false)) s := by
  unfold vergeLeft
  apply wp_bind
  refine wp_mono (vergeLeftLoop_seg _ ws y b cur s rfl hne hc hs) ?_
  rintro _ _ ⟨⟨k, rfl⟩, as, c, bs, e, rfl, k1, k2, k3⟩
  obtain ⟨z, zs, rfl⟩ := List.exists_cons_of_ne_nil k1
  rw [e] at hs
  obtain ⟨-, s1⟩ := seg_append.1 hs
  obtain ⟨s2, s3⟩ := seg_cons.1 s1
  obtain ⟨s3, -⟩ := seg_cons.1 s3
  obtain ⟨q, y', e'⟩ := exists_snoc (xs := z :: zs) (by simp)
  have e2 : ws ++ [y] = (as ++ c :: q) ++ [y'] := by rw [e, e']; simp
  obtain ⟨e3, e4⟩ := List.append_inj' e2 rfl
  obtain rfl : y = y' := by simpa using e4
  apply wp_bind
  refine wp_read' (x := c) s2 ?_
  apply wp_bind
  refine wp_read' (x := z) s3 ?_
  apply wp_bind
  apply wp_vergeStop
  split
  · rename_i hg
    refine wp_pure ⟨⟨_, rfl⟩, as ++ [c], q, by rw [e3]; simp, by simp; omega, by rw [← e']; exact k2, ?_⟩
    rw [← e']
    intro a ha b' hb
    simp at ha hb; subst ha hb; simpa using hg
  · rename_i hg
    obtain ⟨rfl, h2⟩ := k3 (by simpa using hg)
    exact wp_pure ⟨⟨_, rfl⟩, [], c :: q, by simpa using e3, rfl, by rw [e'] at h2; simpa using h2, by simp⟩

theorem vergeRight_seg {st d : Bool} : ∀ (zs : List α) (y : α) (last next : Nat) (s : St α), last = next + zs.length →
    1 ≤ next → Seg s.cell (next - 1) (y :: zs) →
    wp (vergeRight (tick lt) st d last next) (fun r s' => (∃ k, s' = { s with cmps := k }) ∧
      ∃ us vs, zs = us ++ vs ∧ r = next + us.length ∧ IsRun lt st d (y :: us) ∧
        (∀ a ∈ (y :: us).getLast?, ∀ v ∈ vs.head?, goes lt st d a v = false)) s := by
  intro zs
  induction zs with
  | nil =>
    intro y last next s hl h1 hs
    rw [vergeRight, if_neg (by simp at hl; omega)]
    exact wp_pure ⟨⟨_, rfl⟩, [], [], rfl, rfl, List.isChain_singleton _, by simp⟩
  | cons z zs ih =>
    intro y last next s hl h1 hs
    simp only [List.length_cons] at hl
    obtain ⟨s1, s2⟩ := seg_cons.1 hs
    rw [show next - 1 + 1 = next by omega] at s2
    obtain ⟨s3, s4⟩ := seg_cons.1 s2
    rw [vergeRight, if_pos (by omega)]
    apply wp_bind
    refine wp_read' (x := y) s1 ?_
    apply wp_bind
    refine wp_read' (x := z) s3 ?_
    apply wp_bind
    apply wp_vergeStop
    split
    · rename_i hg
      refine wp_pure ⟨⟨_, rfl⟩, [], z :: zs, rfl, rfl, List.isChain_singleton _, ?_⟩
      intro a ha v hv
      simp at ha hv; subst ha hv; simpa using hg
    · rename_i hg
      refine wp_mono (ih z last (next + 1) _ (by omega) (by omega) (by rw [Nat.add_sub_cancel]; exact s2)) ?_
      rintro _ _ ⟨⟨k, rfl⟩, us, vs, rfl, rfl, k2, k3⟩
      refine ⟨⟨k, rfl⟩, z :: us, vs, rfl, by simp; omega, List.isChain_cons_cons.2 ⟨by simpa using hg, k2⟩, ?_⟩
      intro a ha v hv
      exact k3 a (by simpa using ha) v hv

/-! ### The runs found -/

theorem split_at' {β : Type} {Zs : List β} {i : Nat} (h : i + 1 < Zs.length) :
    ∃ P z1 z2 S, Zs = P ++ z1 :: z2 :: S ∧ P.length = i := by
  refine ⟨Zs.take i, Zs[i], Zs[i + 1], Zs.drop (i + 2), ?_, by rw [List.length_take]; omega⟩
  rw [← List.drop_eq_getElem_cons, ← List.drop_eq_getElem_cons, List.take_append_drop]

/-- The runs found in `P`. -/
structure VRuns (lt : α → α → Bool) (st : Bool) (f : Nat) (P : List α) (Zs : List (List α)) (runs : List VRun) : Prop where
  run : runs = vrunsOf f Zs
  perm : Zs.flatten.Perm P
  order : st = true → SameOrder lt P Zs.flatten
  sorted : ∀ z ∈ Zs, z ≠ [] ∧ SortedList lt z

theorem VRuns.push {st : Bool} {f e n : Nat} {P B B' : List α} {Zs : List (List α)} {runs : List VRun}
    (h : VRuns lt st f P Zs runs) (hB : VSorted lt st B B') (h0 : B ≠ []) (he : e = f + P.length + B.length)
    (hn : n = B.length) : VRuns lt st f (P ++ B) (Zs ++ [B']) (runs ++ [⟨e, n⟩]) := by
  have l1 := h.perm.length_eq
  have l2 := hB.1.length_eq
  refine ⟨?_, ?_, ?_, ?_⟩
  · rw [vrunsOf_append, h.run, l1]
    simp only [vrunsOf]
    rw [he, hn, l2]
  · simp only [List.flatten_append, List.flatten_cons, List.flatten_nil, List.append_nil]
    exact h.perm.append hB.1
  · intro hs x
    simp only [List.flatten_append, List.flatten_cons, List.flatten_nil, List.append_nil, List.filter_append]
    rw [h.order hs x, hB.2.2 hs x]
  · intro z hz
    rcases List.mem_append.1 hz with hz | hz
    · exact h.sorted z hz
    · simp at hz; subst hz
      exact ⟨by intro e; subst e; simp at l2; exact h0 (List.length_eq_zero_iff.1 l2.symm), hB.2.1⟩

/-- No run but the first one has a single element. -/
def NoOne (Zs : List (List α)) : Prop := ∀ z ∈ Zs.tail, z.length ≠ 1

theorem NoOne.push {Zs : List (List α)} {z : List α} (h : NoOne Zs) (hz : Zs ≠ [] → z.length ≠ 1) : NoOne (Zs ++ [z]) := by
  intro w hw
  match Zs with
  | [] => simp at hw
  | a :: Zs =>
    simp only [List.cons_append, List.tail_cons, List.mem_append, List.mem_singleton] at hw
    rcases hw with hw | rfl
    · exact h w hw
    · exact hz (by simp)

theorem NoOne.pushed {Zs : List (List α)} {z : List α} (h : NoOne Zs) :
    ∀ w ∈ (Zs ++ [z]).tail.dropLast, w.length ≠ 1 := by
  intro w hw
  match Zs with
  | [] => simp at hw
  | a :: Zs =>
    simp only [List.cons_append, List.tail_cons, List.dropLast_concat] at hw
    exact h w hw

theorem NoOne.drop {Zs : List (List α)} (h : NoOne Zs) : ∀ w ∈ Zs.tail.dropLast, w.length ≠ 1 :=
  fun w hw => h w (List.dropLast_subset _ hw)

theorem VRuns.nil_iff {st : Bool} {f : Nat} {P : List α} {Zs : List (List α)} {runs : List VRun}
    (h : VRuns lt st f P Zs runs) (hz : Zs ≠ []) : P ≠ [] := by
  obtain ⟨z, Zs, rfl⟩ := List.exists_cons_of_ne_nil hz
  intro e
  have := h.perm.length_eq
  rw [e] at this
  have h1 := List.length_pos_iff.2 (h.sorted z (by simp)).1
  simp only [List.flatten_cons, List.length_append, List.length_nil] at this; omega

/-- `P` ends with a big run that does not go on with what follows. -/
def Ended (lt : α → α → Bool) (st : Bool) (m : Nat) (P vs : List α) : Prop :=
  P = [] ∨ ∃ A B b d, P = A ++ (B ++ [b]) ∧ m ≤ B.length + 1 ∧ IsRun lt st d (B ++ [b]) ∧ ∀ v ∈ vs.head?, goes lt st d b v = false

/-- An element stands alone between two big runs: it does not go on with the one before, and is not part of the one
after. -/
def Lone (lt : α → α → Bool) (st : Bool) (m : Nat) (out : Bool → α → α → Bool) (xs : List α) : Prop :=
  ∃ A B b x c C D d e, xs = A ++ (B ++ [b]) ++ x :: (c :: C) ++ D ∧ m ≤ (B ++ [b]).length ∧ m ≤ (c :: C).length ∧
    IsRun lt st d (B ++ [b]) ∧ goes lt st d b x = false ∧ out e x c = true ∧ IsRun lt st e (c :: C)

theorem Ended.lone {st : Bool} {m : Nat} {out : Bool → α → α → Bool} {P bs cs : List α} {x : α} {e : Bool}
    (h : Ended lt st m P (x :: (bs ++ cs))) (hP : P ≠ []) (hr : IsRun lt st e bs) (hm : m ≤ bs.length) (hb : bs ≠ [])
    (ho : ∀ c ∈ bs.head?, out e x c = true) : Lone lt st m out (P ++ x :: (bs ++ cs)) := by
  rcases h with h | ⟨A, B, b, d, h1, h2, h3, h4⟩
  · exact absurd h hP
  obtain ⟨c, C, rfl⟩ := List.exists_cons_of_ne_nil hb
  exact ⟨A, B, b, x, c, C, cs, d, e, by rw [h1]; simp, by simpa using h2, hm, h3, h4 x (by simp), ho c (by simp), hr⟩

/-- The run just found ends `P`. -/
theorem ended_run {st d : Bool} {m : Nat} {P bs cs : List α} (hr : IsRun lt st d bs) (hm : m ≤ bs.length) (hb : bs ≠ [])
    (hg : ∀ a ∈ bs.getLast?, ∀ v ∈ cs.head?, goes lt st d a v = false) : Ended lt st m (P ++ bs) cs := by
  obtain ⟨B, b, rfl⟩ := exists_snoc hb
  refine .inr ⟨P, B, b, d, rfl, by simpa using hm, hr, fun v hv => hg b (by simp) v hv⟩

theorem vergeReverse_seg {d : Bool} {rs : List α} {a l : Nat} {s : St α} (hw : s.WF) (hl : l = a + rs.length)
    (hs : Seg s.cell a rs) :
    wp (vergeReverse d a l) (fun _ s' => VTo a rs.length (if d then rs.reverse else rs) s s') s := by
  unfold vergeReverse
  cases d with
  | false => exact wp_pure (.refl hw hs rfl)
  | true =>
    refine wp_mono (reverse_seg _ rs a l s rfl hl hs) ?_
    intro _ s' h
    exact h.vto hw hs rfl (by simp)

theorem vergeFound_seg (hlt : StrictWeak lt) {st d : Bool} {fb : Nat → Nat → M α Unit} (hfb : FbOk lt st fb) {s0 s : St α}
    {f N last b cur nxt un : Nat} {runs : List VRun} {P U rs cs : List α} {Zs : List (List α)}
    (R : VRuns lt st f P Zs runs) (hno : NoOne Zs) (V : VTo f N (Zs.flatten ++ (U ++ (rs ++ cs))) s0 s)
    (hc : cur = f + P.length + U.length) (hn : nxt = cur + rs.length)
    (hun : (if cur - b ≠ 0 ∧ un = last then b else un) = (if U = [] then last else f + P.length))
    (hlast : f + P.length + U.length + rs.length ≤ last) (hrun : IsRun lt st d rs) (hr0 : rs ≠ [])
    (hone : P ≠ [] → U.length ≠ 1) (hr2 : 2 ≤ rs.length) :
    wp (vergeFound fb d last b cur nxt un runs) (fun r s' => r.1 = last ∧ ∃ Zs', VRuns lt st f (P ++ (U ++ rs)) Zs' r.2 ∧
      NoOne Zs' ∧ VTo f N (Zs'.flatten ++ cs) s0 s') s := by
  have lz := R.perm.length_eq
  have V1 : VTo f N ((Zs.flatten ++ U) ++ (rs ++ cs)) s0 s := by simpa using V
  have hp := V1.part
  rw [show f + (Zs.flatten ++ U).length = cur by rw [List.length_append]; omega] at hp
  unfold vergeFound
  apply wp_bind
  refine wp_mono (vergeReverse_seg V.wf hn hp) ?_
  intro _ s1 V2
  have V3 := V1.step V2 (by rw [List.length_append]; omega) rfl
  have hvs := hrun.vsorted hlt
  generalize (if d then rs.reverse else rs) = rs' at V3 hvs
  have lr := hvs.1.length_eq
  dsimp only
  rw [hun]
  by_cases hU : U = []
  · subst hU
    rw [if_pos rfl, if_neg (by simp)]
    refine wp_pure ⟨rfl, Zs ++ [rs'], ?_, hno.push fun _ => by omega, by simpa using V3⟩
    simp only [List.length_nil] at hc
    rw [List.nil_append]
    exact R.push hvs hr0 (by omega) (by omega)
  · rw [if_neg hU]
    have pU := List.length_pos_iff.2 hU
    rw [if_pos (by have := List.length_pos_iff.2 hr0; omega)]
    have V4 : VTo f N (Zs.flatten ++ (U ++ (rs' ++ cs))) s0 s1 := by simpa using V3
    apply wp_bind
    refine wp_mono (hfb.seg (f := f + P.length) (l := cur) V4.wf (by rw [← lz]; exact V4.part) hc) ?_
    rintro _ s2 ⟨U', k1, k2⟩
    have V5 := V4.step k2 (by omega) rfl
    have lu := k1.1.length_eq
    have R1 := R.push (e := cur) (n := cur - (f + P.length)) k1 hU (by omega) (by omega)
    have hno1 : NoOne (Zs ++ [U']) := hno.push fun h => by rw [lu]; exact hone (R.nil_iff h)
    refine wp_pure ⟨rfl, Zs ++ [U'] ++ [rs'], ?_, hno1.push fun _ => by omega, by simpa using V5⟩
    have := R1.push (e := nxt) (n := nxt - cur) hvs hr0 (by rw [List.length_append]; omega) (by omega)
    simpa using this

theorem vergeLoop_seg (hlt : StrictWeak lt) {st : Bool} {fb : Nat → Nat → M α Unit} (hfb : FbOk lt st fb) {s0 : St α}
    {f last m : Nat} {xs : List α} (hlast : last = f + xs.length) (hm : 2 ≤ m)
    (hlone : ¬ Lone lt st m (fun e x c => !goes lt st e x c) xs) (n : Nat) :
    ∀ (cur un : Nat) (runs : List VRun) (P U vs : List α) (Zs : List (List α)) (s : St α), vs.length = n → vs ≠ [] →
    cur = f + P.length + U.length → xs = P ++ (U ++ vs) → un = (if U = [] then last else f + P.length) → U.length ≠ 1 →
    VRuns lt st f P Zs runs → NoOne Zs → Ended lt st m P (U ++ vs) → VTo f xs.length (Zs.flatten ++ (U ++ vs)) s0 s →
    wp (vergeLoop (tick lt) fb st last m cur un runs) (fun r s' => ∃ P' U' Zs', xs = P' ++ U' ∧
      r.1 = (if U' = [] then last else f + P'.length) ∧ VRuns lt st f P' Zs' r.2 ∧ NoOne Zs' ∧
      VTo f xs.length (Zs'.flatten ++ U') s0 s') s := by
  induction n using Nat.strongRecOn with
  | _ n ih =>
    intro cur un runs P U vs Zs s hn hv hc hx hu hU R hno hend V
    have lx := congrArg List.length hx
    simp only [List.length_append] at lx
    have pv := List.length_pos_iff.2 hv
    have lz := R.perm.length_eq
    have hun : (if un = last then cur else un) = f + P.length := by
      by_cases h : U = []
      · subst h; rw [hu]; simp at hc ⊢; exact hc
      · rw [hu, if_neg h]
        rw [if_neg]; have := List.length_pos_iff.2 h; omega
    rw [vergeLoop]
    dsimp only
    split
    · refine wp_pure ⟨P, U ++ vs, Zs, hx, ?_, R, hno, V⟩
      dsimp only
      rw [hun, if_neg (by simp [hv])]
    rename_i hbig
    -- the two elements compared first
    obtain ⟨ws, y, z, zs, rfl, hws⟩ : ∃ ws y z zs, vs = ws ++ y :: z :: zs ∧ ws.length = m := by
      have : m + 1 < vs.length := by omega
      obtain ⟨P, z1, z2, S, e, h⟩ := split_at' this
      exact ⟨P, z1, z2, S, e, h⟩
    simp only [List.length_append, List.length_cons] at lx hn
    have sv : Seg s.cell cur (ws ++ y :: z :: zs) := by
      have := V.out
      obtain ⟨-, h1⟩ := seg_append.1 this
      obtain ⟨-, h2⟩ := seg_append.1 h1
      rw [lz, ← hc] at h2
      exact h2
    obtain ⟨sw, sy⟩ := seg_append.1 sv
    rw [hws] at sy
    obtain ⟨sy1, sz⟩ := seg_cons.1 sy
    obtain ⟨sz1, sz2⟩ := seg_cons.1 sz
    apply wp_bind
    refine wp_read' (x := z) (by rw [show cur + 1 + m = cur + m + 1 by omega]; exact sz1) ?_
    apply wp_bind
    refine wp_read' (x := y) sy1 ?_
    apply wp_bind
    apply wp_tick
    generalize hd : lt z y = d
    have hyz : goes lt st d y z = true := by
      cases d with
      | false => simp [goes, hd]
      | true => cases st <;> simp [goes, hd, hlt.asymm hd]
    apply wp_bind
    refine wp_mono (vergeLeft_seg (s := { s with cmps := s.cmps + 1 }) (ws := ws) (y := y)
      (by intro e; subst e; simp at hws; omega) (by omega) (seg_snoc.2 ⟨sw, by rw [hws]; exact sy1⟩)) ?_
    rintro _ _ ⟨⟨k, rfl⟩, as, bs, rfl, rfl, g1, g2⟩
    apply wp_bind
    refine wp_mono (vergeRight_seg zs z last (cur + 1 + m + 1) { s with cmps := k } (by omega) (by omega)
      (by rw [show cur + 1 + m + 1 - 1 = cur + m + 1 by omega]; exact sz)) ?_
    rintro _ _ ⟨⟨k', rfl⟩, us, cs, rfl, rfl, g3, g4⟩
    -- the run
    have hrun : IsRun lt st d (bs ++ y :: z :: us) := by
      have h1 : IsRun lt st d ([y] ++ (z :: us)) := List.isChain_cons_cons.2 ⟨hyz, g3⟩
      have := List.IsChain.append_overlap g1 h1 (by simp)
      simpa [IsRun] using this
    generalize hrs : bs ++ y :: z :: us = rs at hrun
    have hrs0 : rs ≠ [] := by rw [← hrs]; simp
    have lrs : rs.length = bs.length + us.length + 2 := by rw [← hrs]; simp; omega
    simp only [List.length_append] at lx hn hws
    have hvs : as ++ bs ++ y :: z :: (us ++ cs) = as ++ (rs ++ cs) := by rw [← hrs]; simp
    rw [hvs] at hx V hend
    have hout : ∀ a ∈ as.getLast?, ∀ c ∈ rs.head?, goes lt st d a c = false := by
      intro a ha c hc'
      refine g2 a ha c ?_
      rw [← hrs] at hc'
      cases bs <;> simpa using hc'
    have hstop : ∀ a ∈ rs.getLast?, ∀ v ∈ cs.head?, goes lt st d a v = false := by
      intro a ha v hv'
      refine g4 a ?_ v hv'
      rw [← hrs, List.getLast?_append_of_ne_nil _ (by simp)] at ha
      simpa using ha
    have hnx : cur + 1 + m + 1 + us.length = cur + as.length + rs.length := by omega
    rw [hnx]
    have V1 : VTo f xs.length (Zs.flatten ++ (U ++ (as ++ (rs ++ cs)))) s0 { s with cmps := k' } := V.cmpsr
    have hloop : ∀ un' runs' P' U' Zs' s', xs = P' ++ (U' ++ cs) → cur + as.length + rs.length = f + P'.length + U'.length →
        un' = (if U' = [] then last else f + P'.length) → U'.length ≠ 1 → VRuns lt st f P' Zs' runs' → NoOne Zs' →
        Ended lt st m P' (U' ++ cs) → VTo f xs.length (Zs'.flatten ++ (U' ++ cs)) s0 s' →
        wp (if cur + as.length + rs.length = last then pure (un', runs')
          else vergeLoop (tick lt) fb st last m (cur + as.length + rs.length) un' runs') (fun r s' => ∃ P' U' Zs', xs = P' ++ U' ∧
          r.1 = (if U' = [] then last else f + P'.length) ∧ VRuns lt st f P' Zs' r.2 ∧ NoOne Zs' ∧
          VTo f xs.length (Zs'.flatten ++ U') s0 s') s' := by
      intro un' runs' P' U' Zs' s' q1 q2 q3 q4 q5 q6 q7 q8
      have l' := congrArg List.length q1
      simp only [List.length_append] at l'
      split
      · have : cs = [] := List.length_eq_zero_iff.1 (by omega)
        subst this
        rw [List.append_nil] at q1 q8
        exact wp_pure ⟨P', U', Zs', q1, q3, q5, q6, q8⟩
      · exact ih cs.length (by omega) _ un' runs' P' U' cs Zs' s' rfl
          (by intro e; subst e; simp at l'; omega) q2 q1 q3 q4 q5 q6 q7 q8
    split
    · rename_i hmr
      have hmr' : m ≤ rs.length := by omega
      apply wp_bind
      have V2 : VTo f xs.length (Zs.flatten ++ ((U ++ as) ++ (rs ++ cs))) s0 { s with cmps := k' } := by simpa using V1
      have hone : P ≠ [] → (U ++ as).length ≠ 1 := by
        intro hP h1
        have : U = [] := by
          match U, hU with
          | [], _ => rfl
          | [_], h => simp at h
          | _ :: _ :: _, _ => simp at h1
        subst this
        obtain ⟨x, rfl⟩ : ∃ x, as = [x] := List.length_eq_one_iff.1 (by simpa using h1)
        refine hlone ?_
        rw [hx]
        refine Ended.lone (bs := rs) (cs := cs) (e := d) (by simpa using hend) hP hrun hmr' hrs0 ?_
        intro c hc'
        simpa using hout x (by simp) c hc'
      have hun2 : (if cur + as.length - cur ≠ 0 ∧ un = last then cur else un) =
          (if U ++ as = [] then last else f + P.length) := by
        by_cases hUe : U = []
        · subst hUe
          rw [hu]
          by_cases hae : as = []
          · subst hae; simp
          · have := List.length_pos_iff.2 hae
            simp [hae]; simpa using hc
        · rw [if_neg (c := U ++ as = []) (by simp [hUe]), hu, if_neg hUe, if_neg]
          omega
      refine wp_mono (vergeFound_seg hlt hfb R hno V2 (by simp; omega) rfl hun2
        (by rw [List.length_append]; omega) hrun hrs0 hone (by omega)) ?_
      rintro ⟨un', runs'⟩ s' ⟨rfl, Zs', k1, k2, k3⟩
      refine hloop _ _ _ [] Zs' s' (by rw [hx]; simp) (by simp; omega) (by simp) (by simp) k1 k2 ?_ (by simpa using k3)
      rw [← List.append_assoc]
      exact ended_run hrun hmr' hrs0 hstop
    · rename_i hmr
      rw [hun]
      refine hloop _ _ P (U ++ (as ++ rs)) Zs _ (by rw [hx]; simp) (by simp; omega) ?_ (by simp; omega) R hno
        (by simpa using hend) (by simpa using V1)
      rw [if_neg (by simp [hrs0])]

/-- All runs found: what is left is sorted by the fallback, then the runs are merged. -/
theorem vergeEnd (hlt : StrictWeak lt) (c : Cfg) (hc : c.cat ≠ .forward) {st : Bool} {f N : Nat} {s0 s : St α}
    {xs : List α} {Zs : List (List α)} {runs : List VRun} (R : VRuns lt st f xs Zs runs)
    (hno : ∀ w ∈ Zs.tail.dropLast, w.length ≠ 1) (V : VTo f N Zs.flatten s0 s) :
    wp (vergeMergeRuns (tick lt) c f runs) (fun _ s' => ∃ ys, VSorted lt st xs ys ∧ VTo f N ys s0 s') s := by
  rw [R.run]
  refine wp_mono (vergeMergeRuns_seg hlt c hc V R.sorted hno) ?_
  rintro _ s' ⟨zs, h1, h2⟩
  exact ⟨zs, ⟨h1.1.trans R.perm, h1.2.1, fun h x => (h1.2.2 x).trans (R.order h x)⟩, h2⟩

theorem minrun_two {n : Nat} (h : 128 ≤ n) : 2 ≤ n / Nat.log2 n := by
  have h1 : 0 < Nat.log2 n := (Nat.le_log2 (by omega)).2 (by omega)
  rw [Nat.le_div_iff_mul_le h1]
  have h2 : 2 ^ Nat.log2 n ≤ n := Nat.log2_self_le (by omega)
  have h3 : ∀ k, 7 ≤ k → 2 * k ≤ 2 ^ k := by
    intro k hk
    induction k, hk using Nat.le_induction with
    | base => decide
    | succ k _ ih => rw [Nat.pow_succ]; omega
  have h4 : 7 ≤ Nat.log2 n := (Nat.le_log2 (by omega)).2 (by omega)
  exact (h3 _ h4).trans h2

theorem vergesortRandom_seg (hlt : StrictWeak lt) (c : Cfg) (hc : c.cat ≠ .forward) {st : Bool} {fb : Nat → Nat → M α Unit}
    (hfb : FbOk lt st fb) {s : St α} {f : Nat} {xs : List α} (hw : s.WF) (hs : Seg s.cell f xs)
    (hlone : 128 ≤ xs.length → ¬ Lone lt st (xs.length / Nat.log2 xs.length) (fun e x c => !goes lt st e x c) xs) :
    wp (vergesortRandom (tick lt) c fb st f (f + xs.length)) (fun _ s' => ∃ ys, VSorted lt st xs ys ∧
      VTo f xs.length ys s s') s := by
  unfold vergesortRandom
  rw [Nat.add_sub_cancel_left]
  dsimp only
  split
  · exact hfb.seg hw hs rfl
  have hx : xs ≠ [] := by intro e; subst e; simp at *
  apply wp_bind
  refine wp_mono (vergeLoop_seg hlt hfb (s0 := s) rfl (minrun_two (by omega)) (hlone (by omega)) _ f (f + xs.length) [] [] [] xs []
    s rfl hx rfl rfl (by simp) (by simp) ⟨rfl, .refl _, fun _ _ => rfl, by simp⟩ (by intro z hz; simp at hz) (.inl rfl)
    (.refl hw hs rfl)) ?_
  rintro ⟨un, runs⟩ s1 ⟨P, U, Zs, e, k1, k2, k3, k4⟩
  dsimp only at k1 k2 ⊢
  have le := congrArg List.length e
  rw [List.length_append] at le
  have lz := k2.perm.length_eq
  by_cases hU : U = []
  · subst hU
    rw [if_pos rfl] at k1
    rw [if_neg (by omega)]
    rw [List.append_nil] at e k4
    subst e
    exact vergeEnd hlt c hc k2 k3.drop k4
  · rw [if_neg hU] at k1
    have pU := List.length_pos_iff.2 hU
    rw [if_pos (by omega)]
    have V1 : VTo f xs.length (Zs.flatten ++ (U ++ [])) s s1 := by simpa using k4
    have hp := V1.part
    rw [lz, ← k1] at hp
    apply wp_bind
    refine wp_mono (hfb.seg (l := f + xs.length) V1.wf hp (by omega)) ?_
    rintro _ s2 ⟨U', m1, m2⟩
    have V2 := V1.step m2 (by omega) rfl
    have R2 := k2.push (e := f + xs.length) (n := f + xs.length - un) m1 hU (by omega) (by omega)
    rw [← e] at R2
    exact vergeEnd hlt c hc R2 k3.pushed (by simpa using V2)

/-! ### Bidirectional iterators -/

/-- The fallback given the size of its range. -/
def FbOkN (lt : α → α → Bool) (stable : Bool) (fb : Nat → Nat → Nat → M α Unit) : Prop :=
  ∀ (s : St α) (f : Nat) (xs : List α), s.WF → Seg s.cell f xs →
    Transforms (fb f (f + xs.length) xs.length) s f xs (VSorted lt stable xs)

theorem FbOkN.seg {stable : Bool} {fb : Nat → Nat → Nat → M α Unit} (h : FbOkN lt stable fb) {f l n : Nat} {xs : List α}
    {s : St α} (hw : s.WF) (hs : Seg s.cell f xs) (hl : l = f + xs.length) (hn : n = xs.length) :
    wp (fb f l n) (fun _ s' => ∃ ys, VSorted lt stable xs ys ∧ VTo f xs.length ys s s') s := by
  subst hl hn
  obtain ⟨s', ys, h1, h2, h3, h4, h5, h6⟩ := h s f xs hw hs
  exact ⟨(), s', h1, ys, h4, h2, h3, h5, h6⟩

theorem vergeScan_seg {st d : Bool} : ∀ (zs : List α) (y : α) (last next k0 : Nat) (s : St α), last = next + zs.length →
    1 ≤ next → Seg s.cell (next - 1) (y :: zs) →
    wp (vergeScan (tick lt) st d last next k0) (fun r s' => (∃ k, s' = { s with cmps := k }) ∧
      ∃ us vs, zs = us ++ vs ∧ r.1 = next + us.length ∧ r.2 = k0 + us.length ∧ IsRun lt st d (y :: us) ∧
        (∀ a ∈ (y :: us).getLast?, ∀ v ∈ vs.head?, goes lt st d a v = false)) s := by
  intro zs
  induction zs with
  | nil =>
    intro y last next k0 s hl h1 hs
    rw [vergeScan, if_neg (by simp at hl; omega)]
    exact wp_pure ⟨⟨_, rfl⟩, [], [], rfl, rfl, rfl, List.isChain_singleton _, by simp⟩
  | cons z zs ih =>
    intro y last next k0 s hl h1 hs
    simp only [List.length_cons] at hl
    obtain ⟨s1, s2⟩ := seg_cons.1 hs
    rw [show next - 1 + 1 = next by omega] at s2
    obtain ⟨s3, s4⟩ := seg_cons.1 s2
    rw [vergeScan, if_pos (by omega)]
    apply wp_bind
    refine wp_read' (x := y) s1 ?_
    apply wp_bind
    refine wp_read' (x := z) s3 ?_
    apply wp_bind
    apply wp_vergeStop
    split
    · rename_i hg
      refine wp_pure ⟨⟨_, rfl⟩, [], z :: zs, rfl, rfl, rfl, List.isChain_singleton _, ?_⟩
      intro a ha v hv
      simp at ha hv; subst ha hv; simpa using hg
    · rename_i hg
      refine wp_mono (ih z last (next + 1) (k0 + 1) _ (by omega) (by omega) (by rw [Nat.add_sub_cancel]; exact s2)) ?_
      rintro ⟨_, _⟩ _ ⟨⟨k, rfl⟩, us, vs, rfl, rfl, rfl, k2, k3⟩
      refine ⟨⟨k, rfl⟩, z :: us, vs, rfl, by simp; omega, by simp; omega,
        List.isChain_cons_cons.2 ⟨by simpa using hg, k2⟩, ?_⟩
      intro a ha v hv
      exact k3 a (by simpa using ha) v hv

theorem vergeFoundBi_seg (hlt : StrictWeak lt) {st d : Bool} {fb : Nat → Nat → Nat → M α Unit} (hfb : FbOkN lt st fb)
    {s0 s : St α} {f N last cur nxt un size rsize : Nat} {runs : List VRun} {P U rs cs : List α} {Zs : List (List α)}
    (R : VRuns lt st f P Zs runs) (hno : NoOne Zs) (V : VTo f N (Zs.flatten ++ (U ++ (rs ++ cs))) s0 s)
    (hc : cur = f + P.length + U.length) (hn : nxt = cur + rs.length) (hsz : size = U.length) (hrs : rsize = rs.length)
    (hun : un = (if U = [] then last else f + P.length))
    (hlast : f + P.length + U.length + rs.length ≤ last) (hrun : IsRun lt st d rs) (hr0 : rs ≠ [])
    (hone : P ≠ [] → U.length ≠ 1) (hr2 : 2 ≤ rs.length) :
    wp (vergeFoundBi fb d last cur nxt rsize un size runs) (fun r s' => ∃ Zs', VRuns lt st f (P ++ (U ++ rs)) Zs' r ∧
      NoOne Zs' ∧ VTo f N (Zs'.flatten ++ cs) s0 s') s := by
  have lz := R.perm.length_eq
  have hvs := hrun.vsorted hlt
  have hrev : ∀ (U' : List α) (s1 : St α), U'.length = U.length → VTo f N (Zs.flatten ++ (U' ++ (rs ++ cs))) s0 s1 →
      wp (vergeReverse d cur nxt) (fun _ s' => VTo f N (Zs.flatten ++ (U' ++ ((if d then rs.reverse else rs) ++ cs))) s0 s') s1 := by
    intro U' s1 hl V1
    have V1' : VTo f N ((Zs.flatten ++ U') ++ (rs ++ cs)) s0 s1 := by simpa using V1
    have hp := V1'.part
    rw [show f + (Zs.flatten ++ U').length = cur by rw [List.length_append]; omega] at hp
    refine wp_mono (vergeReverse_seg V1.wf hn hp) ?_
    intro _ s' V2
    simpa using V1'.step V2 (by rw [List.length_append]; omega) rfl
  generalize (if d then rs.reverse else rs) = rs' at hrev hvs
  have lr := hvs.1.length_eq
  unfold vergeFoundBi
  by_cases hU : U = []
  · subst hU
    rw [if_pos rfl] at hun
    rw [if_neg (by simp [hun])]
    apply wp_bind
    refine wp_mono (hrev [] s rfl V) ?_
    intro _ s1 V3
    refine wp_pure ⟨Zs ++ [rs'], ?_, hno.push fun _ => by omega, by simpa using V3⟩
    simp only [List.length_nil] at hc
    rw [List.nil_append]
    exact R.push hvs hr0 (by omega) (by omega)
  · rw [if_neg hU] at hun
    have pU := List.length_pos_iff.2 hU
    rw [if_pos (by have := List.length_pos_iff.2 hr0; omega)]
    apply wp_bind
    refine wp_mono (hfb.seg (f := un) (l := cur) V.wf (by rw [hun, ← lz]; exact V.part) (by omega) hsz) ?_
    rintro _ s2 ⟨U', k1, k2⟩
    have V5 := V.step k2 (by omega) rfl
    have lu := k1.1.length_eq
    have R1 := R.push (e := cur) (n := size) k1 hU (by omega) (by omega)
    have hno1 : NoOne (Zs ++ [U']) := hno.push fun h => by rw [lu]; exact hone (R.nil_iff h)
    apply wp_bind
    refine wp_mono (hrev U' s2 lu V5) ?_
    intro _ s3 V6
    refine wp_pure ⟨Zs ++ [U'] ++ [rs'], ?_, hno1.push fun _ => by omega, by simpa using V6⟩
    have := R1.push (e := nxt) (n := rsize) hvs hr0 (by rw [List.length_append]; omega) (by omega)
    simpa using this

theorem vergeLoopBi_seg (hlt : StrictWeak lt) {st : Bool} {fb : Nat → Nat → Nat → M α Unit} (hfb : FbOkN lt st fb) {s0 : St α}
    {f last m : Nat} {xs : List α} (hlast : last = f + xs.length) (hm : 2 ≤ m)
    (hlone : ¬ Lone lt st (m + 1) (fun e x c => goes lt st (!e) x c) xs) (n : Nat) :
    ∀ (d : Bool) (cur un size : Nat) (runs : List VRun) (P U vs : List α) (y z : α) (Zs : List (List α)) (s : St α),
    vs.length = n → cur = f + P.length + U.length → xs = P ++ (U ++ y :: z :: vs) → goes lt st d y z = true →
    un = (if U = [] then last else f + P.length) → size = U.length → (∀ x, U = [x] → goes lt st (!d) x y = true) →
    VRuns lt st f P Zs runs → NoOne Zs → Ended lt st (m + 1) P (U ++ y :: z :: vs) →
    VTo f xs.length (Zs.flatten ++ (U ++ y :: z :: vs)) s0 s →
    wp (vergeLoopBi (tick lt) fb st last m d cur un size runs) (fun r s' => ∃ P' U' Zs', xs = P' ++ U' ∧
      r.1 = (if U' = [] then last else f + P'.length) ∧ (U' ≠ [] → r.2.1 + 1 = U'.length) ∧ VRuns lt st f P' Zs' r.2.2 ∧ NoOne Zs' ∧
      VTo f xs.length (Zs'.flatten ++ U') s0 s') s := by
  induction n using Nat.strongRecOn with
  | _ n ih =>
    intro d cur un size runs P U vs y z Zs s hn hc hx hyz hu hsz hU R hno hend V
    have lx := congrArg List.length hx
    simp only [List.length_append, List.length_cons] at lx
    have lz := R.perm.length_eq
    have sv : Seg s.cell cur (y :: z :: vs) := by
      obtain ⟨-, h1⟩ := seg_append.1 V.out
      obtain ⟨-, h2⟩ := seg_append.1 h1
      rw [lz, ← hc] at h2
      exact h2
    rw [vergeLoopBi]
    apply wp_bind
    refine wp_mono (vergeScan_seg vs z last (cur + 2) 2 s (by omega) (by omega) (seg_cons.1 sv).2) ?_
    rintro ⟨_, _⟩ _ ⟨⟨k, rfl⟩, us, cs, rfl, rfl, rfl, g3, g4⟩
    simp only [List.length_append] at lx hn
    dsimp only
    have hrun : IsRun lt st d (y :: z :: us) := List.isChain_cons_cons.2 ⟨hyz, g3⟩
    have hvs : y :: z :: (us ++ cs) = (y :: z :: us) ++ cs := by simp
    have hstop : ∀ a ∈ (y :: z :: us).getLast?, ∀ v ∈ cs.head?, goes lt st d a v = false := by
      intro a ha v hv'
      exact g4 a (by simpa using ha) v hv'
    have V1 : VTo f xs.length (Zs.flatten ++ (U ++ ((y :: z :: us) ++ cs))) s0 { s with cmps := k } := V.cmpsr
    split
    · rename_i hmr
      have hmr' : m + 1 ≤ (y :: z :: us).length := by simp; omega
      apply wp_bind
      have hone : P ≠ [] → U.length ≠ 1 := by
        intro hP h1
        obtain ⟨x, rfl⟩ : ∃ x, U = [x] := List.length_eq_one_iff.1 h1
        refine hlone ?_
        rw [hx]
        refine Ended.lone (bs := y :: z :: us) (cs := cs) (e := d) (by simpa using hend) hP hrun hmr' (by simp) ?_
        intro c hc'
        simp at hc'; subst hc'
        exact hU x rfl
      refine wp_mono (vergeFoundBi_seg hlt hfb R hno V1 hc (by simp; omega) hsz (by simp; omega) hu (by simp; omega) hrun
        (by simp) hone (by simp)) ?_
      rintro runs' s2 ⟨Zs', k1, k2, k3⟩
      have hend' : Ended lt st (m + 1) (P ++ (U ++ y :: z :: us)) cs := by
        rw [← List.append_assoc]
        exact ended_run hrun hmr' (by simp) hstop
      have hxe : xs = (P ++ (U ++ y :: z :: us)) ++ cs := by rw [hx]; simp
      generalize hP' : P ++ (U ++ y :: z :: us) = P' at k1 hend' hxe
      have lP' : P'.length = P.length + (U.length + (us.length + 2)) := by rw [← hP']; simp
      split
      · have : cs = [] := List.length_eq_zero_iff.1 (by omega)
        subst this
        exact wp_pure ⟨P', [], Zs', hxe, rfl, by simp, k1, k2, k3⟩
      · rename_i hne
        obtain ⟨y', cs, rfl⟩ := List.exists_cons_of_ne_nil (l := cs) (by intro e; subst e; simp at lx; omega)
        simp only [List.length_cons] at lx hn
        split
        · have : cs = [] := List.length_eq_zero_iff.1 (by omega)
          subst this
          exact wp_pure ⟨P', [y'], Zs', hxe, by simp; omega, by simp, k1, k2, k3⟩
        · obtain ⟨z', cs, rfl⟩ := List.exists_cons_of_ne_nil (l := cs) (by intro e; subst e; simp at lx; omega)
          simp only [List.length_cons] at lx hn
          have sv' := (seg_append.1 k3.out).2
          rw [show f + Zs'.flatten.length = cur + 2 + us.length by rw [k1.perm.length_eq]; omega] at sv'
          obtain ⟨q1, sv'⟩ := seg_cons.1 sv'
          obtain ⟨q2, -⟩ := seg_cons.1 sv'
          apply wp_bind
          refine wp_read' (x := z') q2 ?_
          apply wp_bind
          refine wp_read' (x := y') q1 ?_
          apply wp_bind
          apply wp_tick
          generalize hd : lt z' y' = d'
          have hyz' : goes lt st d' y' z' = true := by
            cases d' with
            | false => simp [goes, hd]
            | true => cases st <;> simp [goes, hd, hlt.asymm hd]
          exact ih cs.length (by omega) d' _ last 0 runs' P' [] cs y' z' Zs' _ rfl (by simp; omega) hxe hyz' rfl rfl
            (by simp) k1 k2 hend' k3.cmpsr
    · rename_i hmr
      have hun : (if un = last then cur else un) = f + P.length := by
        by_cases h : U = []
        · subst h; rw [hu]; simp at hc ⊢; exact hc
        · rw [hu, if_neg h]
          rw [if_neg]; have := List.length_pos_iff.2 h; omega
      rw [hun]
      split
      · have : cs = [] := List.length_eq_zero_iff.1 (by omega)
        subst this
        refine wp_pure ⟨P, U ++ y :: z :: us, Zs, by rw [hx]; simp, by simp, by simp; omega, R, hno, ?_⟩
        simpa using V1
      · rename_i hne
        obtain ⟨w, cs, rfl⟩ := List.exists_cons_of_ne_nil (l := cs) (by intro e; subst e; simp at lx; omega)
        simp only [List.length_cons] at lx hn
        obtain ⟨rs, q, e⟩ := exists_snoc (xs := z :: us) (by simp)
        have le := congrArg List.length e
        simp at le
        have hg := goes_other hlt (hstop q (by rw [e, show y :: (rs ++ [q]) = (y :: rs) ++ [q] from rfl, List.getLast?_append]; simp) w (by simp))
        have hrest : U ++ y :: z :: (us ++ w :: cs) = (U ++ y :: rs) ++ q :: w :: cs := by
          rw [show y :: z :: (us ++ w :: cs) = y :: ((z :: us) ++ w :: cs) by simp, e]; simp
        refine ih cs.length (by omega) (!d) _ _ _ runs P (U ++ y :: rs) cs q w Zs _ rfl (by simp; omega)
          (by rw [hx, hrest]) hg (by simp) (by simp; omega) ?_ R hno (by rw [← hrest]; exact hend)
          (by rw [← hrest]; exact V.cmpsr)
        intro x hx'
        have l1 := congrArg List.length hx'
        simp at l1
        have e1 : rs = [] := List.length_eq_zero_iff.1 (by omega)
        have e2 : U = [] := List.length_eq_zero_iff.1 (by omega)
        subst e1 e2
        simp at hx' e
        obtain ⟨e, -⟩ := e
        subst hx' e
        rw [Bool.not_not]; exact hyz

theorem vergesortBi_seg (hlt : StrictWeak lt) (c : Cfg) (hc : c.cat ≠ .forward) {st : Bool} {fb : Nat → Nat → Nat → M α Unit}
    (hfb : FbOkN lt st fb) {s : St α} {f : Nat} {xs : List α} (hw : s.WF) (hs : Seg s.cell f xs)
    (hlone : 128 ≤ xs.length → ¬ Lone lt st (xs.length / Nat.log2 xs.length + 1) (fun e x c => goes lt st (!e) x c) xs) :
    wp (vergesortBi (tick lt) c fb st f (f + xs.length) xs.length) (fun _ s' => ∃ ys, VSorted lt st xs ys ∧
      VTo f xs.length ys s s') s := by
  unfold vergesortBi
  split
  · exact hfb.seg hw hs rfl rfl
  obtain ⟨y, z, vs, rfl⟩ : ∃ y z vs, xs = y :: z :: vs := by
    match xs with
    | y :: z :: vs => exact ⟨y, z, vs, rfl⟩
    | [] => simp at *
    | [_] => simp at *
  generalize hxs : y :: z :: vs = xs at *
  have hs' := hs
  rw [← hxs] at hs'
  obtain ⟨q1, q2⟩ := seg_cons.1 hs'
  obtain ⟨q2, -⟩ := seg_cons.1 q2
  apply wp_bind
  refine wp_read' (x := z) q2 ?_
  apply wp_bind
  refine wp_read' (x := y) q1 ?_
  apply wp_bind
  apply wp_tick
  generalize hd : lt z y = d
  have hyz : goes lt st d y z = true := by
    cases d with
    | false => simp [goes, hd]
    | true => cases st <;> simp [goes, hd, hlt.asymm hd]
  apply wp_bind
  refine wp_mono (vergeLoopBi_seg hlt hfb (s0 := s) (xs := xs) rfl (minrun_two (by omega)) (hlone (by omega)) _ d f
    (f + xs.length) 0 [] [] [] vs y z [] { s with cmps := s.cmps + 1 } rfl rfl (by rw [← hxs]; rfl) hyz (by simp) rfl (by simp)
    ⟨rfl, .refl _, fun _ _ => rfl, by simp⟩ (by intro z hz; simp at hz) (.inl rfl)
    (VTo.refl hw (by rw [← hxs] at hs; exact hs) (by rw [← hxs]; rfl)).cmpsr) ?_
  rintro ⟨un, size, runs⟩ s1 ⟨P, U, Zs, e, k1, k0, k2, k3, k4⟩
  dsimp only at k0 k1 k2 ⊢
  have le := congrArg List.length e
  rw [List.length_append] at le
  have lz := k2.perm.length_eq
  by_cases hU : U = []
  · subst hU
    rw [if_pos rfl] at k1
    rw [if_neg (by omega)]
    rw [List.append_nil] at e k4
    rw [← e] at k2
    exact vergeEnd hlt c hc k2 k3.drop k4
  · rw [if_neg hU] at k1
    have pU := List.length_pos_iff.2 hU
    have hsz := k0 hU
    rw [if_pos (by omega)]
    have V1 : VTo f xs.length (Zs.flatten ++ (U ++ [])) s s1 := by simpa using k4
    have hp := V1.part
    rw [lz, ← k1] at hp
    have hfin : ∀ (U' : List α) (s2 : St α), VSorted lt st U U' → VTo un U.length U' s1 s2 →
        wp (vergeMergeRuns (tick lt) c f (runs ++ [⟨f + xs.length, size + 1⟩])) (fun _ s' => ∃ ys, VSorted lt st xs ys ∧
          VTo f xs.length ys s s') s2 := by
      intro U' s2 m1 m2
      have V2 := V1.step m2 (by omega) rfl
      have R2 := k2.push (e := f + xs.length) (n := size + 1) m1 hU (by omega) (by omega)
      rw [← e] at R2
      exact vergeEnd hlt c hc R2 k3.pushed (by simpa using V2)
    split
    · apply wp_bind
      refine wp_mono (hfb.seg (l := f + xs.length) V1.wf hp (by omega) (by omega)) ?_
      rintro _ s2 ⟨U', m1, m2⟩
      exact hfin U' s2 m1 m2
    · obtain ⟨x, rfl⟩ : ∃ x, U = [x] := List.length_eq_one_iff.1 (by omega)
      exact hfin [x] s1 ⟨.refl _, List.pairwise_singleton _ _, fun _ _ => rfl⟩ (.refl V1.wf hp rfl)

end CppSort
