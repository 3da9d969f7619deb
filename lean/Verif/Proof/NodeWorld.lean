import Verif.Proof.NodeList
/-
A pool, the lists that share it, and the operations of detail/fixed_size_list.h on them.
-/
set_option autoImplicit false

namespace CppSort
namespace NodeList
variable {α : Type}

/-- The list of the free nodes. -/
def FreeChain (h : Nodes α) : Nat → List Nat → Prop
  | p, [] => p = 0
  | p, x :: l => p = x ∧ FreeChain h (h.next x) l

theorem FreeChain.congr {h h' : Nodes α} : ∀ {p : Nat} {l : List Nat}, FreeChain h p l →
    (∀ i ∈ l, h'.next i = h.next i) → FreeChain h' p l
  | _, [], hf, _ => hf
  | _, x :: l, ⟨e, hf⟩, hn => ⟨e, by
      rw [hn x (by simp)]
      exact hf.congr fun i hi => hn i (List.mem_cons_of_mem _ hi)⟩

/-- A pool of `cap` nodes at `base`, and the lists that use it: each list is a pair of a sentinel
and of the nodes in order.  The free nodes are `fr`; the nodes `loose` have been extracted from a
list.  Every node of the pool is in exactly one place, and exactly the nodes which are not free hold
a value. -/
structure World (h : Nodes α) (base cap : Nat) (ls : List (Nat × List Nat)) (fr loose : List Nat) :
    Prop where
  base0 : base ≠ 0
  lists : ∀ p ∈ ls, Links h p.1 p.2 p.1
  free : FreeChain h h.free fr
  part : (fr ++ (loose ++ ls.flatMap Prod.snd)).Perm (List.range' base cap)
  sents : (ls.map Prod.fst).Nodup
  sentOut : ∀ p ∈ ls, p.1 ≠ 0 ∧ p.1 ∉ List.range' base cap
  alive : ∀ i ∈ List.range' base cap, (h.val i).isSome ↔ i ∈ loose ++ ls.flatMap Prod.snd

namespace World
variable {h h' : Nodes α} {base cap : Nat} {ls ps ps' : List (Nat × List Nat)}
  {fr loose fr' loose' : List Nat}

theorem nodup (w : World h base cap ls fr loose) : (fr ++ (loose ++ ls.flatMap Prod.snd)).Nodup :=
  w.part.nodup_iff.2 List.nodup_range'

theorem mem_range (w : World h base cap ls fr loose) {i : Nat}
    (hi : i ∈ fr ++ (loose ++ ls.flatMap Prod.snd)) : i ∈ List.range' base cap :=
  w.part.mem_iff.1 hi

theorem ne_zero (w : World h base cap ls fr loose) {i : Nat} (hi : i ∈ List.range' base cap) :
    i ≠ 0 := by
  have := (List.mem_range'_1.1 hi).1
  have := w.base0
  omega

theorem perm (w : World h base cap ls fr loose) {ls' : List (Nat × List Nat)} (hp : ls.Perm ls') :
    World h base cap ls' fr loose where
  base0 := w.base0
  lists p hm := w.lists p (hp.mem_iff.2 hm)
  free := w.free
  part := (List.Perm.append_left _ (List.Perm.append_left _ (hp.symm.flatMap_right _))).trans w.part
  sents := (hp.map _).nodup_iff.1 w.sents
  sentOut p hm := w.sentOut p (hp.mem_iff.2 hm)
  alive i hi := (w.alive i hi).trans (by
    rw [List.mem_append, List.mem_append, (hp.flatMap_right Prod.snd).mem_iff])

/-- A change of the lists `ps`, of the free nodes and of the loose nodes. -/
theorem step (w : World h base cap (ps ++ ls) fr loose) (S : List Nat)
    (hS : ∀ p ∈ ls, p.1 ∉ S) (hS' : ∀ i ∈ S, i ∉ List.range' base cap)
    (hs : ((ps' ++ ls).map Prod.fst).Nodup)
    (hs0 : ∀ p ∈ ps', p.1 ≠ 0 ∧ p.1 ∉ List.range' base cap)
    (hl : ∀ p ∈ ps', Links h' p.1 p.2 p.1) (hf : FreeChain h' h'.free fr')
    (hperm : (fr' ++ (loose' ++ ps'.flatMap Prod.snd)).Perm
      (fr ++ (loose ++ ps.flatMap Prod.snd)))
    (hoff : SameOff h h' (S ++ (fr ++ (loose ++ ps.flatMap Prod.snd))))
    (hval : ∀ i, i ∉ fr ++ (loose ++ ps.flatMap Prod.snd) → h'.val i = h.val i)
    (halive : ∀ i ∈ fr ++ (loose ++ ps.flatMap Prod.snd),
      (h'.val i).isSome ↔ i ∈ loose' ++ ps'.flatMap Prod.snd) :
    World h' base cap (ps' ++ ls) fr' loose' := by
  have hnd := w.nodup
  rw [List.flatMap_append, ← List.append_assoc loose, ← List.append_assoc fr] at hnd
  have hdis := (List.nodup_append.1 hnd).2.2
  have hmem : ∀ {i}, i ∈ ls.flatMap Prod.snd → i ∈ List.range' base cap := fun {i} hi =>
    w.mem_range (by simp only [List.flatMap_append, List.mem_append]; exact .inr (.inr (.inr hi)))
  have hmem' : ∀ {i}, i ∈ fr ++ (loose ++ ps.flatMap Prod.snd) → i ∈ List.range' base cap :=
    fun {i} hi => w.mem_range (by
      simp only [List.flatMap_append, List.mem_append] at hi ⊢
      rcases hi with hi | hi | hi
      · exact .inl hi
      · exact .inr (.inl hi)
      · exact .inr (.inr (.inl hi)))
  have hnode : ∀ p ∈ ls, ∀ i ∈ p.2, i ∉ S ++ (fr ++ (loose ++ ps.flatMap Prod.snd)) := by
    intro p hp i hi hm
    have hi' : i ∈ ls.flatMap Prod.snd := List.mem_flatMap.2 ⟨p, hp, hi⟩
    rcases List.mem_append.1 hm with hm | hm
    · exact hS' i hm (hmem hi')
    · exact hdis i hm i hi' rfl
  have hsent : ∀ p ∈ ls, p.1 ∉ S ++ (fr ++ (loose ++ ps.flatMap Prod.snd)) := by
    intro p hp hm
    rcases List.mem_append.1 hm with hm | hm
    · exact hS p hp hm
    · exact (w.sentOut p (List.mem_append_right _ hp)).2 (hmem' hm)
  refine ⟨w.base0, ?_, hf, ?_, hs, ?_, ?_⟩
  · intro p hp
    rcases List.mem_append.1 hp with hp | hp
    · exact hl p hp
    · refine (w.lists p (List.mem_append_right _ hp)).off hoff fun i hi => ?_
      simp only [List.mem_append, List.mem_cons, List.not_mem_nil, or_false] at hi
      rcases hi with (rfl | hi) | rfl
      · exact hsent p hp
      · exact hnode p hp i hi
      · exact hsent p hp
  · refine List.Perm.trans ?_ w.part
    rw [List.flatMap_append, List.flatMap_append, ← List.append_assoc loose', ← List.append_assoc fr',
      ← List.append_assoc loose, ← List.append_assoc fr]
    exact hperm.append_right _
  · intro p hp
    rcases List.mem_append.1 hp with hp | hp
    · exact hs0 p hp
    · exact w.sentOut p (List.mem_append_right _ hp)
  · intro i hi
    by_cases hm : i ∈ fr ++ (loose ++ ps.flatMap Prod.snd)
    · rw [halive i hm, List.flatMap_append, ← List.append_assoc, List.mem_append (t := ls.flatMap _)]
      exact ⟨.inl, fun h => h.elim id fun h => absurd rfl (hdis i hm i h)⟩
    · rw [hval i hm, w.alive i hi, List.flatMap_append, List.flatMap_append, ← List.append_assoc,
        ← List.append_assoc, List.mem_append (t := ls.flatMap _), List.mem_append (t := ls.flatMap _)]
      constructor
      · rintro (h | h)
        · exact absurd (List.mem_append_right _ h) hm
        · exact .inr h
      · rintro (h | h)
        · exact absurd (hperm.mem_iff.1 (List.mem_append_right _ h)) hm
        · exact .inr h

/-- A change of the links of the lists `ps` and of the loose nodes. -/
theorem relink (w : World h base cap (ps ++ ls) fr loose) (S : List Nat)
    (hS : ∀ p ∈ ls, p.1 ∉ S) (hS' : ∀ i ∈ S, i ∉ List.range' base cap)
    (hs : ((ps' ++ ls).map Prod.fst).Nodup)
    (hs0 : ∀ p ∈ ps', p.1 ≠ 0 ∧ p.1 ∉ List.range' base cap)
    (hl : ∀ p ∈ ps', Links h' p.1 p.2 p.1) (hf : h'.free = h.free)
    (hperm : (loose' ++ ps'.flatMap Prod.snd).Perm (loose ++ ps.flatMap Prod.snd))
    (hoff : SameOff h h' (S ++ (loose ++ ps.flatMap Prod.snd)))
    (hval : h'.val = h.val) :
    World h' base cap (ps' ++ ls) fr loose' := by
  have hnd := w.nodup
  have hdis := (List.nodup_append.1 hnd).2.2
  have hsub : ∀ {i}, i ∈ loose ++ ps.flatMap Prod.snd → i ∈ loose ++ (ps ++ ls).flatMap Prod.snd := by
    intro i hi
    rw [List.flatMap_append, ← List.append_assoc]
    exact List.mem_append_left _ hi
  have hmem : ∀ {i}, i ∈ fr ++ (loose ++ ps.flatMap Prod.snd) →
      i ∈ fr ++ (loose ++ (ps ++ ls).flatMap Prod.snd) := by
    intro i hi
    rcases List.mem_append.1 hi with hi | hi
    · exact List.mem_append_left _ hi
    · exact List.mem_append_right _ (hsub hi)
  refine w.step S hS hS' hs hs0 hl ?_ (List.Perm.append_left _ hperm) ?_ (fun i _ => by rw [hval]) ?_
  · rw [hf]
    refine w.free.congr fun i hi => (hoff i fun hm => ?_).1
    rcases List.mem_append.1 hm with hm | hm
    · exact hS' i hm (w.mem_range (List.mem_append_left _ hi))
    · exact hdis i hi i (hsub hm) rfl
  · refine hoff.mono fun i hi => ?_
    simp only [List.mem_append] at hi ⊢
    rcases hi with hi | hi
    · exact .inl hi
    · exact .inr (.inr hi)
  · intro i hi
    rw [hval, w.alive i (w.mem_range (hmem hi)), hperm.mem_iff]
    refine ⟨fun hm => ?_, hsub⟩
    rcases List.mem_append.1 hi with hi | hi
    · exact absurd rfl (hdis i hi i hm)
    · exact hi

end World

/-! ### Changing a segment -/

theorem insert_seg {h h' : Nodes α} {s x : Nat} {d r c : List Nat} (hl : Links h s (d ++ r) s)
    (hA : (s :: (d ++ r)).Nodup) (hx : Links h' x c (headOr r s))
    (hn : ∀ i ∈ s :: (d ++ r), i ≠ lastOf s d → h'.next i = h.next i)
    (hp : ∀ i ∈ s :: (d ++ r), i ≠ headOr r s → h'.prev i = h.prev i)
    (e1 : h'.next (lastOf s d) = x) (e2 : h'.prev x = lastOf s d) :
    Links h' s (d ++ x :: (c ++ r)) s := by
  rw [links_append]
  constructor
  · refine (links_cut hl).relink (hA.sublist (by simp)) (fun i hi => hn i ?_) (fun i hi => hp i ?_ ?_)
      e1 e2
    · rw [← List.cons_append]
      exact List.mem_append_left _ hi
    · exact List.mem_cons_of_mem _ (List.mem_append_left _ hi)
    · intro e
      have h1 := headOr_mem r s
      rw [← e, List.mem_append, List.mem_singleton] at h1
      rcases h1 with h1 | h1
      · exact (List.nodup_append.1 (List.nodup_cons.1 hA).2).2.2 i hi i h1 rfl
      · exact (List.nodup_cons.1 hA).1 (by rw [← h1]; exact List.mem_append_left _ hi)
  · cases r with
    | nil => rw [List.append_nil]; exact hx
    | cons f r =>
      rw [links_append]
      refine ⟨hx, (links_append.1 hl).2.congr (fun i hi => hn i ?_ ?_) fun i hi => hp i ?_ ?_⟩
      · exact List.mem_cons_of_mem _ (List.mem_append_right _ hi)
      · rintro rfl
        rcases List.mem_cons.1 (lastOf_mem s d) with h1 | h1
        · exact (List.nodup_cons.1 hA).1 (by rw [← h1]; exact List.mem_append_right _ hi)
        · exact (List.nodup_append.1 (List.nodup_cons.1 hA).2).2.2 _ h1 _ hi rfl
      · simp only [List.mem_cons, List.mem_append, List.not_mem_nil, or_false] at hi ⊢
        rcases hi with h | h
        · exact .inr (.inr (.inr h))
        · exact .inl h
      · rintro rfl
        simp only [headOr, List.mem_append, List.mem_singleton] at hi
        rcases hi with h1 | h1
        · exact (List.nodup_cons.1 (List.nodup_append.1 (List.nodup_cons.1 hA).2).2.1).1 h1
        · exact (List.nodup_cons.1 hA).1 (by rw [← h1]; simp)

theorem remove_seg {h h' : Nodes α} {s : Nat} {d r m : List Nat} (hl : Links h s (d ++ (m ++ r)) s)
    (hA : (s :: (d ++ r)).Nodup)
    (hn : ∀ i ∈ s :: (d ++ r), i ≠ lastOf s d → h'.next i = h.next i)
    (hp : ∀ i ∈ s :: (d ++ r), i ≠ headOr r s → h'.prev i = h.prev i)
    (e1 : h'.next (lastOf s d) = headOr r s) (e2 : h'.prev (headOr r s) = lastOf s d) :
    Links h' s (d ++ r) s := by
  have h1 : Links h' s d (headOr r s) := by
    refine (links_cut hl).relink (hA.sublist (by simp)) (fun i hi => hn i ?_) (fun i hi => hp i ?_ ?_)
      e1 e2
    · rw [← List.cons_append]
      exact List.mem_append_left _ hi
    · exact List.mem_cons_of_mem _ (List.mem_append_left _ hi)
    · intro e
      have h1 := headOr_mem r s
      rw [← e, List.mem_append, List.mem_singleton] at h1
      rcases h1 with h1 | h1
      · exact (List.nodup_append.1 (List.nodup_cons.1 hA).2).2.2 i hi i h1 rfl
      · exact (List.nodup_cons.1 hA).1 (by rw [← h1]; exact List.mem_append_left _ hi)
  cases r with
  | nil => rw [List.append_nil]; exact h1
  | cons f r =>
    rw [links_append]
    rw [← List.append_assoc] at hl
    refine ⟨h1, (links_append.1 hl).2.congr (fun i hi => hn i ?_ ?_) fun i hi => hp i ?_ ?_⟩
    · exact List.mem_cons_of_mem _ (List.mem_append_right _ hi)
    · rintro rfl
      rcases List.mem_cons.1 (lastOf_mem s d) with h1 | h1
      · exact (List.nodup_cons.1 hA).1 (by rw [← h1]; exact List.mem_append_right _ hi)
      · exact (List.nodup_append.1 (List.nodup_cons.1 hA).2).2.2 _ h1 _ hi rfl
    · simp only [List.mem_cons, List.mem_append, List.not_mem_nil, or_false] at hi ⊢
      rcases hi with h | h
      · exact .inr (.inr (.inr h))
      · exact .inl h
    · rintro rfl
      simp only [headOr, List.mem_append, List.mem_singleton] at hi
      rcases hi with h1 | h1
      · exact (List.nodup_cons.1 (List.nodup_append.1 (List.nodup_cons.1 hA).2).2.1).1 h1
      · exact (List.nodup_cons.1 hA).1 (by rw [← h1]; simp)

/-! ### The lists of a world -/

namespace World
variable {h : Nodes α} {base cap s t : Nat} {ls : List (Nat × List Nat)} {fr loose l o : List Nat}

theorem links1 (w : World h base cap ((s, l) :: ls) fr loose) : Links h s l s := w.lists (s, l) (by simp)

theorem links2 (w : World h base cap ((s, l) :: (t, o) :: ls) fr loose) : Links h t o t :=
  w.lists (t, o) (by simp)

theorem nodes1 (w : World h base cap ((s, l) :: ls) fr loose) {i : Nat} (hi : i ∈ l) :
    i ∈ List.range' base cap :=
  w.mem_range (by simp only [List.flatMap_cons, List.mem_append]; exact .inr (.inr (.inl hi)))

theorem nodes2 (w : World h base cap ((s, l) :: (t, o) :: ls) fr loose) {i : Nat} (hi : i ∈ o) :
    i ∈ List.range' base cap :=
  w.mem_range (by
    simp only [List.flatMap_cons, List.mem_append]; exact .inr (.inr (.inr (.inl hi))))

theorem nodup1 (w : World h base cap ((s, l) :: ls) fr loose) : (s :: l).Nodup := by
  have h1 := w.nodup
  rw [List.flatMap_cons] at h1
  have h2 := (List.nodup_append.1 (List.nodup_append.1 (List.nodup_append.1 h1).2.1).2.1).1
  exact List.nodup_cons.2 ⟨fun hm => (w.sentOut (s, l) (by simp)).2 (w.nodes1 hm), h2⟩

theorem nodup2 (w : World h base cap ((s, l) :: (t, o) :: ls) fr loose) :
    ((s :: l) ++ (t :: o)).Nodup := by
  have h1 := w.nodup
  rw [List.flatMap_cons, List.flatMap_cons] at h1
  have h2 := (List.nodup_append.1 (List.nodup_append.1 (List.nodup_append.1 h1).2.1).2.1).2.2
  have h3 : (t :: o).Nodup := (w.perm (List.Perm.swap _ _ _)).nodup1
  refine List.nodup_append.2 ⟨w.nodup1, h3, ?_⟩
  have hst : s ≠ t := fun e => by
    have := w.sents
    simp [e] at this
  intro a ha b hb e
  subst e
  rcases List.mem_cons.1 ha with ha | ha <;> rcases List.mem_cons.1 hb with hb | hb
  · exact hst (ha.symm.trans hb)
  · rw [ha] at hb
    exact (w.sentOut (s, l) (by simp)).2 (w.nodes2 hb)
  · rw [hb] at ha
    exact (w.sentOut (t, o) (by simp)).2 (w.nodes1 ha)
  · exact h2 a ha a (List.mem_append_left _ hb) rfl

theorem zero1 (w : World h base cap ((s, l) :: ls) fr loose) : 0 ∉ s :: l := by
  intro e
  rcases List.mem_cons.1 e with e | e
  · exact (w.sentOut (s, l) (by simp)).1 e.symm
  · exact w.ne_zero (w.nodes1 e) rfl

theorem zero2 (w : World h base cap ((s, l) :: (t, o) :: ls) fr loose) :
    0 ∉ (s :: l) ++ (t :: o) := by
  intro e
  rcases List.mem_append.1 e with e | e
  · exact w.zero1 e
  · exact (w.perm (List.Perm.swap _ _ _)).zero1 e

theorem alive1 (w : World h base cap ((s, l) :: ls) fr loose) {i : Nat} (hi : i ∈ l) :
    (h.val i).isSome :=
  (w.alive i (w.nodes1 hi)).2 (by
    simp only [List.flatMap_cons, List.mem_append]; exact .inr (.inl hi))

theorem alive2 (w : World h base cap ((s, l) :: (t, o) :: ls) fr loose) {i : Nat} (hi : i ∈ o) :
    (h.val i).isSome := (w.perm (List.Perm.swap _ _ _)).alive1 hi

end World

/-! ### Runs of the operations -/

theorem linkNodeBefore_run {h : Nodes α} {node pos : Nat} (h1 : node ≠ 0) (h2 : pos ≠ 0)
    (h3 : h.prev pos ≠ 0) (h4 : node ≠ h.prev pos) :
    linkNodeBefore node pos h = some ((),
      (((h.sp node (h.prev pos)).sn node pos).sn (h.prev pos) node).sp pos node) := by
  rw [linkNodeBefore, bind_run (getPrev_run h2 h), bind_run (setPrev_run h1 _ _),
    bind_run (setNext_run h1 _ _), bind_run (getPrev_run h1 _)]
  have e1 : ((h.sp node (h.prev pos)).sn node pos).prev node = h.prev pos := by simp
  rw [e1, bind_run (setNext_run h3 _ _), bind_run (getNext_run h1 _)]
  have e2 : (((h.sp node (h.prev pos)).sn node pos).sn (h.prev pos) node).next node = pos := by
    simp [h4]
  rw [e2, setPrev_run h2]

theorem nextFreeNode_run {h : Nodes α} (h0 : h.free ≠ 0) :
    nextFreeNode h = some (h.free, h.sf (h.next h.free)) := by
  rw [nextFreeNode, bind_run (getFree_run h), bind_run (assert_run (by simpa using h0) h),
    bind_run (getNext_run h0 h), bind_run (setFree_run _ _)]
  rfl

theorem extract_run {h : Nodes α} {s node : Nat} (hs : s ≠ 0) (h1 : node ≠ 0) (h2 : node ≠ s)
    (h3 : h.next s ≠ s) (h4 : h.prev node ≠ 0) (h5 : h.next node ≠ 0) (h6 : node ≠ h.prev node) :
    extract s node h = some (node, (h.sn (h.prev node) (h.next node)).sp (h.next node) (h.prev node)) := by
  rw [extract, bind_run (assert_run (by simpa using h2) h), bind_run (getNext_run hs h),
    bind_run (assert_run (by simpa using h3) h), bind_run (getPrev_run h1 h),
    bind_run (getNext_run h1 h), bind_run (setNext_run h4 _ _), bind_run (getNext_run h1 _),
    bind_run (getPrev_run h1 _)]
  have e : (h.sn (h.prev node) (h.next node)).next node = h.next node := by simp [h6]
  rw [e, bind_run (setPrev_run h5 _ _)]
  rfl

theorem spliceRange_run {h : Nodes α} {pos first last : Nat} (h1 : pos ≠ 0) (h2 : first ≠ 0)
    (h3 : last ≠ 0) (h4 : h.prev pos ≠ 0) (h5 : h.prev last ≠ 0) (h6 : h.prev first ≠ 0)
    (hne : first ≠ last) (hpl : pos ≠ last) :
    spliceRange pos first last h = some ((),
      (((((h.sn (h.prev first) last).sp last (h.prev first)).sn (h.prev pos) first).sp first
        (h.prev pos)).sp pos (h.prev last)).sn (h.prev last) pos) := by
  rw [spliceRange, bind_run (assert_run (by simpa using hne) h), bind_run (getPrev_run h3 h),
    bind_run (getPrev_run h2 h), bind_run (setNext_run h6 _ _), bind_run (getPrev_run h2 _),
    bind_run (setPrev_run h3 _ _), bind_run (getPrev_run h1 _)]
  have e1 : ((h.sn (h.prev first) last).sp last ((h.sn (h.prev first) last).prev first)).prev pos
      = h.prev pos := by simp [hpl]
  rw [e1, bind_run (setNext_run h4 _ _), bind_run (getPrev_run h1 _)]
  have e2 : (((h.sn (h.prev first) last).sp last ((h.sn (h.prev first) last).prev first)).sn
      (h.prev pos) first).prev pos = h.prev pos := by simp [hpl]
  rw [e2, bind_run (setPrev_run h2 _ _), bind_run (setPrev_run h1 _ _), setNext_run h5]
  rfl

theorem lastOf_ne {x : Nat} {d : List Nat} {s : Nat} (h : x ∉ s :: d) : x ≠ lastOf s d := fun e =>
  h (by rw [e]; exact lastOf_mem s d)

theorem headOr_ne {x : Nat} {r : List Nat} {s : Nat} (h : x ∉ s :: r) : x ≠ headOr r s := fun e =>
  h (by
    have := headOr_mem r s
    rw [← e, List.mem_append, List.mem_singleton] at this
    rcases this with h | h
    · exact List.mem_cons_of_mem _ h
    · rw [h]; simp)

theorem lastOf_mem' (s : Nat) (d r : List Nat) : lastOf s d ∈ s :: (d ++ r) := by
  rw [← List.cons_append]
  exact List.mem_append_left _ (lastOf_mem s d)

theorem headOr_mem' (s : Nat) (d r : List Nat) : headOr r s ∈ s :: (d ++ r) := by
  have := headOr_mem r s
  simp only [List.mem_cons, List.mem_append, List.not_mem_nil, or_false] at this ⊢
  rcases this with h | h
  · exact .inr (.inr h)
  · exact .inl h

/-- Linking a node in a list. -/
theorem linkNodeBefore_links {h : Nodes α} {s x : Nat} {d r : List Nat} (hl : Links h s (d ++ r) s)
    (hA : (s :: (d ++ r)).Nodup) (h0 : 0 ∉ s :: (d ++ r)) (hx : x ∉ s :: (d ++ r)) (hx0 : x ≠ 0) :
    ∃ h', linkNodeBefore x (headOr r s) h = some ((), h') ∧ Links h' s (d ++ x :: r) s ∧
      h'.val = h.val ∧ h'.free = h.free ∧ SameOff h h' (x :: s :: (d ++ r)) := by
  have hp := (links_cut hl).last
  have hpm := lastOf_mem' s d r
  have hqm := headOr_mem' s d r
  have nz : ∀ i ∈ s :: (d ++ r), i ≠ 0 := fun i hi e => h0 (by rwa [← e])
  have hxp : x ≠ lastOf s d := fun e => hx (by rw [e]; exact hpm)
  have hxq : x ≠ headOr r s := fun e => hx (by rw [e]; exact hqm)
  refine ⟨_, linkNodeBefore_run hx0 (nz _ hqm) (by rw [hp.1]; exact nz _ hpm) (by rw [hp.1]; exact hxp),
    ?_, rfl, rfl, ?_⟩
  · rw [hp.1]
    refine insert_seg (c := []) hl hA ?_ ?_ ?_ ?_ ?_
    · simp [Links, hxp]
    · intro i hi hne
      have : i ≠ x := fun e => hx (by rwa [← e])
      simp [hne, this]
    · intro i hi hne
      have : i ≠ x := fun e => hx (by rwa [← e])
      simp [hne, this]
    · simp
    · simp [hxq]
  · intro i hi
    have h1 : i ≠ x := fun e => hi (by simp [e])
    have h2 : i ≠ lastOf s d := fun e => hi (List.mem_cons_of_mem _ (by rw [e]; exact hpm))
    have h3 : i ≠ headOr r s := fun e => hi (List.mem_cons_of_mem _ (by rw [e]; exact hqm))
    simp [h1, h2, h3, hp.1]

/-- Unlinking a node. -/
theorem extract_links {h : Nodes α} {s x : Nat} {d r : List Nat} (hl : Links h s (d ++ x :: r) s)
    (hA : (s :: (d ++ x :: r)).Nodup) (h0 : 0 ∉ s :: (d ++ x :: r)) :
    ∃ h', extract s x h = some (x, h') ∧ Links h' s (d ++ r) s ∧
      h'.val = h.val ∧ h'.free = h.free ∧ SameOff h h' (s :: (d ++ r)) := by
  obtain ⟨hl1, hl2⟩ := links_append.1 hl
  have hp := hl1.last
  have hq := hl2.next_head
  have hpm : lastOf s d ∈ s :: (d ++ r) := lastOf_mem' s d r
  have hqm : headOr r s ∈ s :: (d ++ r) := headOr_mem' s d r
  have hperm : (s :: (d ++ x :: r)).Perm (x :: s :: (d ++ r)) :=
    (List.Perm.cons _ List.perm_middle).trans (List.Perm.swap _ _ _)
  have hA' := List.nodup_cons.1 (hperm.nodup_iff.1 hA)
  have nz : ∀ i ∈ x :: s :: (d ++ r), i ≠ 0 := fun i hi e => h0 (by
    rw [← e]; exact hperm.mem_iff.2 hi)
  have hxp : x ≠ lastOf s d := fun e => hA'.1 (by rw [e]; exact hpm)
  have hxq : x ≠ headOr r s := fun e => hA'.1 (by rw [e]; exact hqm)
  have hsx : x ≠ s := fun e => hA'.1 (by simp [e])
  have hns : h.next s ≠ s := by
    rw [hl.next_head]
    intro e
    cases d with
    | nil => exact hsx e
    | cons y d => exact (List.nodup_cons.1 hA'.2).1 (by simp [headOr] at e; simp [e])
  refine ⟨_, extract_run (nz s (by simp)) (nz x (by simp)) hsx hns
    (by rw [hp.1]; exact nz _ (List.mem_cons_of_mem _ hpm))
    (by rw [hq]; exact nz _ (List.mem_cons_of_mem _ hqm)) (by rw [hp.1]; exact hxp), ?_, rfl, rfl, ?_⟩
  · rw [hp.1, hq]
    refine remove_seg (m := [x]) (by simpa using hl) hA'.2 ?_ ?_ ?_ ?_
    · intro i hi hne
      simp [hne]
    · intro i hi hne
      simp [hne]
    · simp
    · simp
  · intro i hi
    have h2 : i ≠ lastOf s d := fun e => hi (by rw [e]; exact hpm)
    have h3 : i ≠ headOr r s := fun e => hi (by rw [e]; exact hqm)
    simp [h2, h3, hp.1, hq]

/-- Moving a segment of a list to another list. -/
theorem spliceRange_links {h : Nodes α} {s t x : Nat} {d r d2 c r2 : List Nat}
    (hl : Links h s (d ++ r) s) (hx : Links h t (d2 ++ x :: (c ++ r2)) t)
    (hd : ((s :: (d ++ r)) ++ (t :: (d2 ++ x :: (c ++ r2)))).Nodup)
    (h0 : 0 ∉ (s :: (d ++ r)) ++ (t :: (d2 ++ x :: (c ++ r2)))) :
    ∃ h', spliceRange (headOr r s) x (headOr r2 t) h = some ((), h') ∧
      Links h' s (d ++ x :: (c ++ r)) s ∧ Links h' t (d2 ++ r2) t ∧
      h'.val = h.val ∧ h'.free = h.free ∧
      SameOff h h' ((s :: (d ++ r)) ++ (t :: (d2 ++ x :: (c ++ r2)))) := by
  obtain ⟨hA, hB, hAB⟩ := List.nodup_append.1 hd
  obtain ⟨hx1, hx2⟩ := links_append.1 hx
  have hp := (links_cut hl).last
  have hp2 := hx1.last
  have hq := (links_cut hx2).last
  have nz : ∀ i ∈ s :: (d ++ r), i ≠ 0 := fun i hi e => h0 (by
    rw [← e]; exact List.mem_append_left _ hi)
  have nz' : ∀ i ∈ t :: (d2 ++ x :: (c ++ r2)), i ≠ 0 := fun i hi e => h0 (by
    rw [← e]; exact List.mem_append_right _ hi)
  have hpm := lastOf_mem' s d r
  have hposm := headOr_mem' s d r
  have hp2m : lastOf t d2 ∈ t :: (d2 ++ r2) := lastOf_mem' t d2 r2
  have hlastm : headOr r2 t ∈ t :: (d2 ++ r2) := headOr_mem' t d2 r2
  have hqm : lastOf x c ∈ x :: c := lastOf_mem x c
  -- the part which moves and the part which stays
  have hperm : (t :: (d2 ++ x :: (c ++ r2))).Perm ((t :: (d2 ++ r2)) ++ (x :: c)) := by
    show ([t] ++ (d2 ++ ((x :: c) ++ r2))).Perm (([t] ++ (d2 ++ r2)) ++ (x :: c))
    rw [List.append_assoc, List.append_assoc]
    exact List.Perm.append_left _ (List.Perm.append_left _ List.perm_append_comm)
  have hB' := hperm.nodup_iff.1 hB
  obtain ⟨hS, hM, hSM⟩ := List.nodup_append.1 hB'
  have inS : ∀ i ∈ t :: (d2 ++ r2), i ∈ t :: (d2 ++ x :: (c ++ r2)) := fun i hi =>
    hperm.mem_iff.2 (List.mem_append_left _ hi)
  have inM : ∀ i ∈ x :: c, i ∈ t :: (d2 ++ x :: (c ++ r2)) := fun i hi =>
    hperm.mem_iff.2 (List.mem_append_right _ hi)
  have hxm : x ∈ x :: c := by simp
  have e1 : x ≠ headOr r2 t := Ne.symm (hSM _ hlastm _ hxm)
  have e2 : headOr r s ≠ headOr r2 t := hAB _ hposm _ (inS _ hlastm)
  have a1 : lastOf s d ≠ lastOf t d2 := hAB _ hpm _ (inS _ hp2m)
  have a2 : lastOf s d ≠ lastOf x c := hAB _ hpm _ (inM _ hqm)
  have a3 : lastOf t d2 ≠ lastOf x c := hSM _ hp2m _ hqm
  have b1 : headOr r s ≠ x := hAB _ hposm _ (inM _ hxm)
  refine ⟨_, spliceRange_run (nz _ hposm) (nz' _ (inM _ hxm)) (nz' _ (inS _ hlastm))
    (by rw [hp.1]; exact nz _ hpm) (by rw [hq.1]; exact nz' _ (inM _ hqm))
    (by rw [hp2.1]; exact nz' _ (inS _ hp2m)) e1 e2, ?_, ?_, rfl, rfl, ?_⟩
  · rw [hp.1, hq.1, hp2.1]
    refine insert_seg hl hA ?_ ?_ ?_ ?_ ?_
    · refine (links_cut hx2).relink hM ?_ ?_ ?_ ?_
      · intro i hi hne
        have i1 : i ≠ lastOf s d := Ne.symm (hAB _ hpm _ (inM _ hi))
        have i2 : i ≠ lastOf t d2 := Ne.symm (hSM _ hp2m _ hi)
        simp [hne, i1, i2]
      · intro i hi
        have i1 : i ≠ headOr r s := Ne.symm (hAB _ hposm _ (inM _ (List.mem_cons_of_mem _ hi)))
        have i2 : i ≠ headOr r2 t := Ne.symm (hSM _ hlastm _ (List.mem_cons_of_mem _ hi))
        have i3 : i ≠ x := fun e => (List.nodup_cons.1 hM).1 (by rwa [← e])
        simp [i1, i2, i3]
      · simp
      · simp
    · intro i hi hne
      have i1 : i ≠ lastOf x c := hAB _ hi _ (inM _ hqm)
      have i2 : i ≠ lastOf t d2 := hAB _ hi _ (inS _ hp2m)
      simp [hne, i1, i2]
    · intro i hi hne
      have i1 : i ≠ x := hAB _ hi _ (inM _ hxm)
      have i2 : i ≠ headOr r2 t := hAB _ hi _ (inS _ hlastm)
      simp [hne, i1, i2]
    · simp [a2]
    · simp [Ne.symm b1]
  · rw [hp.1, hq.1, hp2.1]
    refine remove_seg (m := x :: c) (by simpa using hx) hS ?_ ?_ ?_ ?_
    · intro i hi hne
      have i1 : i ≠ lastOf x c := hSM _ hi _ hqm
      have i2 : i ≠ lastOf s d := Ne.symm (hAB _ hpm _ (inS _ hi))
      simp [hne, i1, i2]
    · intro i hi hne
      have i1 : i ≠ x := hSM _ hi _ hxm
      have i2 : i ≠ headOr r s := Ne.symm (hAB _ hposm _ (inS _ hi))
      simp [hne, i1, i2]
    · simp [a3, Ne.symm a1]
    · simp [Ne.symm e1, Ne.symm e2]
  · intro i hi
    have hiA : i ∉ s :: (d ++ r) := fun h => hi (List.mem_append_left _ h)
    have hiB : ∀ j ∈ t :: (d2 ++ x :: (c ++ r2)), i ≠ j := fun j hj e =>
      hi (List.mem_append_right _ (by rw [e]; exact hj))
    have i1 : i ≠ lastOf s d := fun e => hiA (by rw [e]; exact hpm)
    have i2 : i ≠ headOr r s := fun e => hiA (by rw [e]; exact hposm)
    simp [hp.1, hq.1, hp2.1, i1, i2, hiB _ (inM _ hqm), hiB _ (inS _ hp2m), hiB _ (inM _ hxm),
      hiB _ (inS _ hlastm)]

end NodeList
end CppSort
