import Verif.Proof.NodeUnsafe
/-
C87, C88: the doubly linked lists and the node pool of detail/fixed_size_list.h.
-/
set_option autoImplicit false

namespace CppSort
namespace NodeList
variable {α : Type} {h : Nodes α} {base cap s t : Nat} {ls : List (Nat × List Nat)}
  {fr loose l o : List Nat}

theorem linkRun_run : ∀ (n ptr : Nat) (h : Nodes α), ptr ≠ 0 →
    ∃ h', linkRun n ptr h = some ((), h') ∧ h'.val = h.val ∧ h'.free = h.free ∧ h'.prev = h.prev ∧
      (∀ i, ptr ≤ i → i < ptr + n → h'.next i = i + 1) ∧
      ∀ i, i < ptr ∨ ptr + n ≤ i → h'.next i = h.next i
  | 0, ptr, h, h0 => ⟨h, rfl, rfl, rfl, rfl, fun i h1 h2 => absurd h2 (by omega), fun _ _ => rfl⟩
  | n + 1, ptr, h, h0 => by
      obtain ⟨h', e, h1, h2, h3, h4, h5⟩ := linkRun_run n (ptr + 1) (h.sn ptr (ptr + 1)) (by omega)
      refine ⟨h', by rw [linkRun, bind_run (setNext_run h0 _ _)]; exact e, h1, h2, h3, ?_, ?_⟩
      · intro i hi hi'
        by_cases he : i = ptr
        · rw [h5 i (by omega), he]
          simp
        · exact h4 i (by omega) (by omega)
      · intro i hi
        rw [h5 i (by omega)]
        simp only [sn_next]
        rw [if_neg (by omega)]

/-- Consecutive nodes, the last of which ends the chain. -/
theorem freeChain_range {h : Nodes α} : ∀ (n base : Nat), 0 < n →
    (∀ i, base ≤ i → i + 1 < base + n → h.next i = i + 1) → h.next (base + n - 1) = 0 →
    FreeChain h base (List.range' base n)
  | 0, _, h0, _, _ => absurd h0 (by omega)
  | 1, base, _, _, hl => ⟨rfl, by
      rw [show base + 1 - 1 = base by omega] at hl
      exact hl⟩
  | n + 2, base, _, hn, hl => ⟨rfl, by
      rw [hn base (by omega) (by omega)]
      refine freeChain_range (n + 1) (base + 1) (by omega) (fun i h1 h2 => hn i (by omega) (by omega)) ?_
      rw [← hl]
      congr 1
      omega⟩

/-- C88: the constructor of the pool makes every node free, in order. -/
theorem C88_pool_init (h : Nodes α) (hb : base ≠ 0) (hc : 0 < cap)
    (hv : ∀ i ∈ List.range' base cap, h.val i = none) :
    ∃ h', poolInit base cap h = some ((), h') ∧
      World h' base cap [] (List.range' base cap) [] := by
  obtain ⟨h1, e, e1, e2, e3, e4, e5⟩ := linkRun_run (cap - 1) base h hb
  refine ⟨_, by
    rw [poolInit, bind_run (assert_run (by simpa using hc) h), bind_run e,
      bind_run (setNext_run (by omega) _ _), setFree_run], ?_⟩
  refine ⟨hb, by simp, ?_, by simp, by simp, by simp, ?_⟩
  · refine freeChain_range cap base hc (fun i hi hi' => ?_) ?_
    · simp only [sf_next, sn_next]
      rw [if_neg (by omega), e4 i hi (by omega)]
    · simp only [sf_next, sn_next]
      rw [if_pos (by omega)]
  · intro i hi
    simp [e1, hv i hi]

example : ∃ h', poolInit 10 5 (⟨fun _ => 0, fun _ => 0, fun _ => none, 0⟩ : Nodes Nat) = some ((), h') ∧
    World h' 10 5 [] (List.range' 10 5) [] :=
  C88_pool_init _ (by omega) (by omega) fun _ _ => rfl

/-- C87: a new list is empty. -/
theorem C87_list_init (w : World h base cap ls fr loose) (hs : s ≠ 0 ∧ s ∉ List.range' base cap)
    (hnew : s ∉ ls.map Prod.fst) :
    ∃ h', listInit s h = some ((), h') ∧ World h' base cap ((s, []) :: ls) fr loose ∧
      h'.val = h.val := by
  refine ⟨(h.sp s s).sn s s, by rw [listInit, bind_run (setPrev_run hs.1 _ _), setNext_run hs.1],
    ?_, rfl⟩
  refine World.step (ps := []) (ps' := [(s, [])]) w [s] ?_ ?_ ?_ ?_ ?_ ?_ ?_ ?_ ?_ ?_
  · intro p hp e
    exact hnew (by
      have : p.1 = s := by simpa using e
      rw [← this]
      exact List.mem_map_of_mem hp)
  · intro i hi
    rw [List.mem_singleton.1 hi]
    exact hs.2
  · exact List.nodup_cons.2 ⟨hnew, w.sents⟩
  · intro p hp
    rw [List.mem_singleton.1 hp]
    exact hs
  · intro p hp
    rw [List.mem_singleton.1 hp]
    simp [Links]
  · refine w.free.congr fun i hi => ?_
    have : i ≠ s := fun e => hs.2 (by rw [← e]; exact w.mem_range (List.mem_append_left _ hi))
    simp [this]
  · simp
  · intro i hi
    have : i ≠ s := fun e => hi (by simp [e])
    simp [this]
  · intro i _
    rfl
  · intro i hi
    have := w.alive i (w.mem_range (by
      simp only [List.flatMap_nil, List.append_nil, List.mem_append] at hi ⊢
      exact hi.elim .inl fun h => .inr (.inl h)))
    have hnd := w.nodup
    simp only [List.flatMap_nil, List.append_nil] at hi
    show (h.val i).isSome ↔ _
    rw [this]
    simp only [List.flatMap_cons, List.flatMap_nil, List.append_nil, List.mem_append] at hi ⊢
    refine ⟨fun hm => ?_, .inl⟩
    rcases hi with hi | hi
    · exact absurd rfl ((List.nodup_append.1 hnd).2.2 i hi i (List.mem_append.2 hm))
    · exact hi

/-- C88: a node is available as long as fewer than `cap` nodes are in use; the pool hands out a node
which nothing else uses.  C87: `insert` links it before the given position, with its value. -/
theorem C87_insert {d r : List Nat} (w : World h base cap ((s, d ++ r) :: ls) fr loose) (v : α)
    (hroom : (loose ++ (d ++ r) ++ ls.flatMap Prod.snd).length < cap) :
    ∃ x fr' h', fr = x :: fr' ∧ insertNode (headOr r s) v h = some (x, h') ∧
      World h' base cap ((s, d ++ x :: r) :: ls) fr' loose ∧
      h'.val x = some v ∧ ∀ i, i ≠ x → h'.val i = h.val i := by
  cases fr with
  | nil =>
    have := w.part.length_eq
    simp only [List.nil_append, List.flatMap_cons, List.length_append, List.length_range'] at this hroom
    omega
  | cons x fr =>
    obtain ⟨hfx, hfr⟩ := w.free
    have hxr : x ∈ List.range' base cap := w.mem_range (by simp)
    have hx0 := w.ne_zero hxr
    have hnd := w.nodup
    rw [List.cons_append] at hnd
    obtain ⟨hxn, hnd'⟩ := List.nodup_cons.1 hnd
    have hval : h.val x = none := by
      have := w.alive x hxr
      rw [← Option.not_isSome_iff_eq_none, this]
      exact fun e => hxn (List.mem_append_right _ e)
    have hxs : x ∉ s :: (d ++ r) := by
      intro e
      rcases List.mem_cons.1 e with e | e
      · exact (w.sentOut (s, d ++ r) (by simp)).2 (by rwa [← e])
      · exact hxn (by
          rw [List.flatMap_cons]
          exact List.mem_append_right _ (List.mem_append_right _ (List.mem_append_left _ e)))
    have hl0 : Links ((h.sf (h.next x)).sv x (some v)) s (d ++ r) s :=
      w.links1.congr (fun _ _ => rfl) fun _ _ => rfl
    obtain ⟨h', e1, e2, e3, e4, e5⟩ := linkNodeBefore_links hl0 w.nodup1 w.zero1 hxs hx0
    refine ⟨x, fr, h', rfl, ?_, ?_, ?_, ?_⟩
    · rw [insertNode, bind_run (nextFreeNode_run (by rw [hfx]; exact hx0)), hfx,
        bind_run (construct_run hx0 (show (h.sf (h.next x)).val x = none from hval) v), bind_run e1]
      rfl
    · refine World.step (ps := [(s, d ++ r)]) (ps' := [(s, d ++ x :: r)]) w [s] ?_ ?_ ?_ ?_ ?_ ?_ ?_
        ?_ ?_ ?_
      · intro p hp e
        have h1 := w.sents
        rw [List.map_cons, List.nodup_cons] at h1
        exact h1.1 (by
          have : p.1 = s := by simpa using e
          show s ∈ _
          rw [← this]
          exact List.mem_map_of_mem hp)
      · intro i hi
        rw [List.mem_singleton.1 hi]
        exact (w.sentOut (s, d ++ r) (by simp)).2
      · exact w.sents
      · intro p hp
        rw [List.mem_singleton.1 hp]
        exact w.sentOut (s, d ++ r) (by simp)
      · intro p hp
        rw [List.mem_singleton.1 hp]
        exact e2
      · rw [e4]
        show FreeChain h' (h.next x) fr
        refine hfr.congr fun i hi => ?_
        rw [(e5 i fun hm => ?_).1]
        · rfl
        · rcases List.mem_cons.1 hm with hm | hm
          · exact hxn (by rw [← hm]; exact List.mem_append_left _ hi)
          · rcases List.mem_cons.1 hm with hm | hm
            · exact (w.sentOut (s, d ++ r) (by simp)).2 (by
                rw [← hm]; exact w.mem_range (by simp [hi]))
            · exact (List.nodup_append.1 hnd').2.2 i hi i (by
                rw [List.flatMap_cons]
                exact List.mem_append_right _ (List.mem_append_left _ hm)) rfl
      · simp only [List.flatMap_cons, List.flatMap_nil, List.append_nil]
        rw [← List.append_assoc loose, ← List.append_assoc fr]
        refine List.perm_middle.trans ?_
        simp
      · refine SameOff.trans (h' := (h.sf (h.next x)).sv x (some v)) (fun _ _ => ⟨rfl, rfl⟩)
          (e5.mono fun i hi => ?_)
        simp only [List.mem_cons, List.mem_append, List.flatMap_cons, List.flatMap_nil,
          List.append_nil, List.not_mem_nil, or_false] at hi ⊢
        rcases hi with hi | hi | hi | hi
        · exact .inr (.inl (.inl hi))
        · exact .inl hi
        · exact .inr (.inr (.inr (.inl hi)))
        · exact .inr (.inr (.inr (.inr hi)))
      · intro i hi
        rw [e3]
        have : i ≠ x := fun e => hi (by simp [e])
        simp [this]
      · intro i hi
        rw [e3]
        by_cases hix : i = x
        · subst hix
          simp
        · have hir : i ∈ List.range' base cap := w.mem_range (by
            simp only [List.flatMap_cons, List.flatMap_nil, List.append_nil, List.mem_append] at hi ⊢
            rcases hi with hi | hi | hi | hi
            · exact .inl hi
            · exact .inr (.inl hi)
            · exact .inr (.inr (.inl (.inl hi)))
            · exact .inr (.inr (.inl (.inr hi))))
          have h1 := w.alive i hir
          have h2 : ((h.sf (h.next x)).sv x (some v)).val i = h.val i := by simp [hix]
          rw [h2, h1]
          simp only [List.flatMap_cons, List.flatMap_nil, List.append_nil, List.mem_append,
            List.mem_cons, hix, false_or] at hi ⊢
          constructor
          · rintro (h | h | h)
            · exact .inl h
            · exact .inr h
            · exfalso
              have hmem : i ∈ ls.flatMap Prod.snd := h
              rcases hi with hi | hi | hi
              · exact (List.nodup_append.1 hnd').2.2 i hi i (by
                  rw [List.flatMap_cons]
                  exact List.mem_append_right _ (List.mem_append_right _ hmem)) rfl
              · exact (List.nodup_append.1 (List.nodup_append.1 hnd').2.1).2.2 i hi i (by
                  rw [List.flatMap_cons]
                  exact List.mem_append_right _ hmem) rfl
              · have h3 := (List.nodup_append.1 (List.nodup_append.1 hnd').2.1).2.1
                rw [List.flatMap_cons] at h3
                exact (List.nodup_append.1 h3).2.2 i (List.mem_append.2 hi) i hmem rfl
          · rintro (h | h)
            · exact .inl h
            · exact .inr (.inl h)
    · rw [e3]
      simp
    · intro i hi
      rw [e3]
      simp [hi]

/-- Lists that stay in place. -/
theorem sent_notin1 (w : World h base cap ((s, l) :: ls) fr loose) : ∀ p ∈ ls, p.1 ∉ [s] := by
  intro p hp e
  have h1 := w.sents
  rw [List.map_cons, List.nodup_cons] at h1
  exact h1.1 (by
    have : p.1 = s := by simpa using e
    show s ∈ _
    rw [← this]
    exact List.mem_map_of_mem hp)

theorem sent_out1 (w : World h base cap ((s, l) :: ls) fr loose) :
    ∀ i ∈ [s], i ∉ List.range' base cap := by
  intro i hi
  rw [List.mem_singleton.1 hi]
  exact (w.sentOut (s, l) (by simp)).2

theorem sent_notin2 (w : World h base cap ((s, l) :: (t, o) :: ls) fr loose) :
    ∀ p ∈ ls, p.1 ∉ [s, t] := by
  intro p hp e
  rcases List.mem_cons.1 e with e | e
  · exact sent_notin1 w p (List.mem_cons_of_mem _ hp) (by simp [e])
  · exact sent_notin1 (w.perm (List.Perm.swap _ _ _)) p (List.mem_cons_of_mem _ hp) e

theorem sent_out2 (w : World h base cap ((s, l) :: (t, o) :: ls) fr loose) :
    ∀ i ∈ [s, t], i ∉ List.range' base cap := by
  intro i hi
  rcases List.mem_cons.1 hi with rfl | hi
  · exact sent_out1 w i (by simp)
  · exact sent_out1 (w.perm (List.Perm.swap _ _ _)) i hi

/-- A change of two lists that keeps their nodes. -/
theorem World.two {h' : Nodes α} {l' o' : List Nat} (w : World h base cap ((s, l) :: (t, o) :: ls) fr loose)
    (h1 : Links h' s l' s) (h2 : Links h' t o' t) (hp : (l' ++ o').Perm (l ++ o))
    (hf : h'.free = h.free) (hv : h'.val = h.val) (hoff : SameOff h h' ((s :: l) ++ (t :: o))) :
    World h' base cap ((s, l') :: (t, o') :: ls) fr loose := by
  refine World.relink (ps := [(s, l), (t, o)]) (ps' := [(s, l'), (t, o')]) w [s, t] (sent_notin2 w)
    (sent_out2 w) w.sents ?_ ?_ hf ?_ ?_ hv
  · intro p hp
    rcases List.mem_cons.1 hp with rfl | hp
    · exact w.sentOut (s, l) (by simp)
    · rw [List.mem_singleton.1 hp]
      exact w.sentOut (t, o) (by simp)
  · intro p hp
    rcases List.mem_cons.1 hp with rfl | hp
    · exact h1
    · rw [List.mem_singleton.1 hp]
      exact h2
  · simpa using List.Perm.append_left loose hp
  · refine hoff.mono fun i hi => ?_
    simp only [List.mem_append, List.mem_cons, List.flatMap_cons, List.flatMap_nil, List.append_nil,
      List.not_mem_nil, or_false] at hi ⊢
    rcases hi with (hi | hi) | hi | hi
    · exact .inl (.inl hi)
    · exact .inr (.inr (.inl hi))
    · exact .inl (.inr hi)
    · exact .inr (.inr (.inr hi))

/-- C87: `extract` takes a node out of its list. -/
theorem C87_extract {x : Nat} {d r : List Nat}
    (w : World h base cap ((s, d ++ x :: r) :: ls) fr loose) :
    ∃ h', extract s x h = some (x, h') ∧
      World h' base cap ((s, d ++ r) :: ls) fr (x :: loose) ∧ h'.val = h.val := by
  obtain ⟨h', e1, e2, e3, e4, e5⟩ := extract_links w.links1 w.nodup1 w.zero1
  refine ⟨h', e1, ?_, e3⟩
  refine World.relink (ps := [(s, d ++ x :: r)]) (ps' := [(s, d ++ r)]) w [s] (sent_notin1 w)
    (sent_out1 w) w.sents ?_ ?_ e4 ?_ ?_ e3
  · intro p hp
    rw [List.mem_singleton.1 hp]
    exact w.sentOut (s, d ++ x :: r) (by simp)
  · intro p hp
    rw [List.mem_singleton.1 hp]
    exact e2
  · simp only [List.flatMap_cons, List.flatMap_nil, List.append_nil, List.cons_append]
    rw [← List.append_assoc, ← List.append_assoc]
    exact List.perm_middle.symm
  · refine e5.mono fun i hi => ?_
    simp only [List.mem_append, List.mem_cons, List.flatMap_cons, List.flatMap_nil, List.append_nil,
      List.not_mem_nil, or_false] at hi ⊢
    rcases hi with hi | hi | hi
    · exact .inl hi
    · exact .inr (.inr (.inl hi))
    · exact .inr (.inr (.inr (.inr hi)))

/-- C87: `splice` moves a range of nodes of a list before a position of another list. -/
theorem C87_splice_range {x : Nat} {d r d2 c r2 : List Nat}
    (w : World h base cap ((s, d ++ r) :: (t, d2 ++ x :: (c ++ r2)) :: ls) fr loose) :
    ∃ h', spliceRange (headOr r s) x (headOr r2 t) h = some ((), h') ∧
      World h' base cap ((s, d ++ x :: (c ++ r)) :: (t, d2 ++ r2) :: ls) fr loose ∧ h'.val = h.val := by
  obtain ⟨h', e1, e2, e3, e4, e5, e6⟩ := spliceRange_links w.links1 w.links2 w.nodup2 w.zero2
  refine ⟨h', e1, w.two e2 e3 ?_ e5 e4 e6, e4⟩
  show (d ++ ((x :: c) ++ r) ++ (d2 ++ r2)).Perm (d ++ r ++ (d2 ++ ((x :: c) ++ r2)))
  rw [List.append_assoc, List.append_assoc, List.append_assoc]
  refine List.Perm.append_left _ ?_
  refine (List.perm_append_comm_assoc _ _ _).trans (List.Perm.append_left _ ?_)
  exact List.perm_append_comm_assoc _ _ _

/-- C87: `splice` of a whole list empties it. -/
theorem C87_splice {d r : List Nat} (w : World h base cap ((s, d ++ r) :: (t, o) :: ls) fr loose) :
    ∃ h', splice (headOr r s) t h = some ((), h') ∧
      World h' base cap ((s, d ++ (o ++ r)) :: (t, []) :: ls) fr loose ∧ h'.val = h.val := by
  have ht0 : t ≠ 0 := (w.sentOut (t, o) (by simp)).1
  rw [splice, bind_run (getNext_run ht0 h), w.links2.next_head]
  cases o with
  | nil => exact ⟨h, by rw [headOr, if_pos rfl]; rfl, w, rfl⟩
  | cons x c =>
    have hx : x ≠ t := by
      have := (w.perm (List.Perm.swap _ _ _)).nodup1
      rintro rfl
      simp at this
    rw [headOr, if_neg hx]
    have := C87_splice_range (d := d) (r := r) (d2 := []) (x := x) (c := c) (r2 := []) (by simpa using w)
    simpa [headOr] using this

/-- C87: `merge` merges stably the nodes of the other list, which it empties.  `List.merge` takes a
node of the other list only when its value is smaller. -/
theorem C87_merge (lt : α → α → Bool) (w : World h base cap ((s, l) :: (t, o) :: ls) fr loose) :
    ∃ h', merge lt s t h = some ((), h') ∧
      World h' base cap ((s, List.merge l o (nodeLe lt h)) :: (t, []) :: ls) fr loose ∧
      h'.val = h.val := by
  have hs0 : s ≠ 0 := (w.sentOut (s, l) (by simp)).1
  have ht0 : t ≠ 0 := (w.sentOut (t, o) (by simp)).1
  rw [merge, bind_run (getNext_run hs0 h), w.links1.next_head]
  cases l with
  | nil =>
    rw [headOr, if_pos rfl, List.nil_merge]
    have := C87_splice (d := []) (r := []) (by simpa using w)
    simpa [headOr] using this
  | cons f r =>
    have hf : f ≠ s := by
      have := w.nodup1
      rintro rfl
      simp at this
    rw [headOr, if_neg hf, bind_run (getNext_run ht0 h), w.links2.next_head]
    cases o with
    | nil =>
      rw [headOr, if_pos rfl, List.merge_right]
      exact ⟨h, rfl, w, rfl⟩
    | cons y o =>
      have hy : y ≠ t := by
        have := (w.perm (List.Perm.swap _ _ _)).nodup1
        rintro rfl
        simp at this
      rw [headOr, if_neg hy]
      obtain ⟨h', e1, e2, e3, e4, e5, e6⟩ := mergeLoop_run lt (r.length + o.length + 1) (d := [])
        (by omega) w.links1 w.links2.2.2 w.nodup2 w.zero2 (by
          intro i hi
          rcases List.mem_append.1 hi with hi | hi
          · exact w.alive1 hi
          · exact w.alive2 hi)
      refine ⟨h', e1, w.two e2 e3 ?_ e5 e4 e6, e4⟩
      rw [List.append_nil]
      exact List.merge_perm_append _

theorem moved_links {h' : Nodes α} {x : Nat} {c : List Nat} (hl : Links h t (x :: c) t)
    (hA : (x :: c).Nodup) (e1 : h'.next s = x) (e2 : h'.prev x = s) (e3 : h'.next (lastOf x c) = s)
    (e4 : h'.prev s = lastOf x c) (hn : ∀ i ∈ x :: c, i ≠ lastOf x c → h'.next i = h.next i)
    (hp : ∀ i ∈ c, h'.prev i = h.prev i) : Links h' s (x :: c) s :=
  ⟨e1, e2, hl.2.2.relink hA hn hp e3 e4⟩

/-- C87: the move constructor gives the nodes to the new list and leaves the other one empty. -/
theorem C87_move_ctor (w : World h base cap ((t, l) :: ls) fr loose)
    (hs : s ≠ 0 ∧ s ∉ List.range' base cap) (hnew : s ∉ ((t, l) :: ls).map Prod.fst) :
    ∃ h', moveCtor s t h = some ((), h') ∧
      World h' base cap ((s, l) :: (t, []) :: ls) fr loose ∧ h'.val = h.val := by
  have ht0 : t ≠ 0 := (w.sentOut (t, l) (by simp)).1
  have hst : s ≠ t := fun e => hnew (by simp [e])
  have hsents : (((s, l) :: (t, ([] : List Nat)) :: ls).map Prod.fst).Nodup :=
    List.nodup_cons.2 ⟨hnew, w.sents⟩
  have hS : ∀ p ∈ ls, p.1 ∉ [s, t] := by
    intro p hp e
    rcases List.mem_cons.1 e with e | e
    · exact hnew (by
        rw [← e]
        exact List.mem_map_of_mem (List.mem_cons_of_mem _ hp))
    · exact sent_notin1 w p hp e
  have hS' : ∀ i ∈ [s, t], i ∉ List.range' base cap := by
    intro i hi
    rcases List.mem_cons.1 hi with rfl | hi
    · exact hs.2
    · exact sent_out1 w i hi
  have fin : ∀ h' : Nodes α, Links h' s l s → Links h' t [] t → h'.free = h.free → h'.val = h.val →
      SameOff h h' ([s, t] ++ l) → World h' base cap ((s, l) :: (t, []) :: ls) fr loose := by
    intro h' h1 h2 hf hv hoff
    refine World.relink (ps := [(t, l)]) (ps' := [(s, l), (t, [])]) w [s, t] hS hS' hsents ?_ ?_ hf
      ?_ ?_ hv
    · intro p hp
      rcases List.mem_cons.1 hp with rfl | hp
      · exact hs
      · rw [List.mem_singleton.1 hp]
        exact w.sentOut (t, l) (by simp)
    · intro p hp
      rcases List.mem_cons.1 hp with rfl | hp
      · exact h1
      · rw [List.mem_singleton.1 hp]
        exact h2
    · simp
    · refine hoff.mono fun i hi => ?_
      simp only [List.mem_append, List.flatMap_cons, List.flatMap_nil, List.append_nil] at hi ⊢
      exact hi.elim .inl fun h => .inr (.inr h)
  have hl := w.links1
  rw [moveCtor, bind_run (getPrev_run ht0 h), bind_run (setPrev_run ht0 _ _),
    bind_run (getNext_run ht0 _), bind_run (setNext_run ht0 _ _), bind_run (setPrev_run hs.1 _ _),
    bind_run (setNext_run hs.1 _ _)]
  cases l with
  | nil =>
    have e1 : h.next t = t := hl.1
    have e2 : h.prev t = t := hl.2
    rw [show (h.sp t t).next t = t from e1, e2, if_pos rfl]
    rw [bind_run (setPrev_run hs.1 _ _), if_pos rfl]
    dsimp only
    rw [setNext_run hs.1]
    refine ⟨_, rfl, fin _ (by simp [Links]) (by simp [Links, Ne.symm hst]) rfl rfl ?_, rfl⟩
    intro i hi
    have i1 : i ≠ s := fun e => hi (by simp [e])
    have i2 : i ≠ t := fun e => hi (by simp [e])
    simp [i1, i2]
  | cons x c =>
    have e1 : h.next t = x := hl.1
    have e2 : h.prev t = lastOf x c := hl.last.1
    have hA := w.nodup1
    have hpm := lastOf_mem x c
    have hpt : lastOf x c ≠ t := fun e => (List.nodup_cons.1 hA).1 (by rw [← e]; exact hpm)
    have hxt : x ≠ t := fun e => (List.nodup_cons.1 hA).1 (by simp [e])
    have hsm : ∀ i ∈ x :: c, i ≠ s := fun i hi e => hs.2 (by rw [← e]; exact w.nodes1 hi)
    have htm : ∀ i ∈ x :: c, i ≠ t := fun i hi e => (List.nodup_cons.1 hA).1 (by rwa [← e])
    have hp0 : lastOf x c ≠ 0 := fun e => w.zero1 (by rw [← e]; exact List.mem_cons_of_mem _ hpm)
    have hx0 : x ≠ 0 := fun e => w.zero1 (by simp [e])
    rw [show (h.sp t t).next t = x from e1, e2, if_neg hpt, bind_run (setNext_run hp0 _ _),
      if_neg hxt]
    dsimp only
    rw [setPrev_run hx0]
    refine ⟨_, rfl, fin _ ?_ ?_ rfl rfl ?_, rfl⟩
    · refine moved_links hl (List.nodup_cons.1 hA).2 ?_ ?_ ?_ ?_ ?_ ?_
      · simp [Ne.symm (hsm _ hpm)]
      · simp
      · simp
      · simp [Ne.symm (hsm x (by simp))]
      · intro i hi hne
        simp [hne, hsm i hi, htm i hi]
      · intro i hi
        have : i ≠ x := fun e => (List.nodup_cons.1 (List.nodup_cons.1 hA).2).1 (by rwa [← e])
        simp [this, hsm i (List.mem_cons_of_mem _ hi), htm i (List.mem_cons_of_mem _ hi)]
    · simp [Links, Ne.symm hpt, Ne.symm hxt, Ne.symm hst]
    · intro i hi
      have i1 : i ≠ s := fun e => hi (by simp [e])
      have i2 : i ≠ t := fun e => hi (by simp [e])
      have i3 : i ≠ x := fun e => hi (by simp [e])
      have i4 : i ≠ lastOf x c := fun e => hi (List.mem_append_right _ (by rw [e]; exact hpm))
      simp [i1, i2, i3, i4]

/-- C87: the move assignment to an empty list does the same. -/
theorem C87_move_assign (w : World h base cap ((s, []) :: (t, l) :: ls) fr loose) :
    ∃ h', moveAssign s t h = some ((), h') ∧
      World h' base cap ((s, l) :: (t, []) :: ls) fr loose ∧ h'.val = h.val := by
  have hs0 : s ≠ 0 := (w.sentOut (s, []) (by simp)).1
  have ht0 : t ≠ 0 := (w.sentOut (t, l) (by simp)).1
  have hst : s ≠ t := fun e => by
    have := w.sents
    simp [e] at this
  have hl := w.links2
  rw [moveAssign, bind_run (getPrev_run ht0 h)]
  cases l with
  | nil =>
    have e1 : h.next t = t := hl.1
    have e2 : h.prev t = t := hl.2
    rw [e2, if_neg (by simp), bind_run (setPrev_run hs0 _ _)]
    dsimp only
    rw [bind_run (getNext_run ht0 _), show (h.sp s s).next t = t from e1, if_neg (by simp),
      setNext_run hs0]
    refine ⟨_, rfl, w.two ?_ ?_ (by simp) rfl rfl ?_, rfl⟩
    · simp [Links]
    · simp [Links, Ne.symm hst, e1, e2]
    · intro i hi
      have i1 : i ≠ s := fun e => hi (by simp [e])
      simp [i1]
  | cons x c =>
    have w' := w.perm (List.Perm.swap _ _ _)
    have e1 : h.next t = x := hl.1
    have e2 : h.prev t = lastOf x c := hl.last.1
    have hA := w'.nodup1
    have hpm := lastOf_mem x c
    have hpt : lastOf x c ≠ t := fun e => (List.nodup_cons.1 hA).1 (by rw [← e]; exact hpm)
    have hxt : x ≠ t := fun e => (List.nodup_cons.1 hA).1 (by simp [e])
    have hsm : ∀ i ∈ x :: c, i ≠ s := fun i hi e =>
      (w.sentOut (s, []) (by simp)).2 (by rw [← e]; exact w.nodes2 hi)
    have htm : ∀ i ∈ x :: c, i ≠ t := fun i hi e => (List.nodup_cons.1 hA).1 (by rwa [← e])
    have hp0 : lastOf x c ≠ 0 := fun e => w'.zero1 (by rw [← e]; exact List.mem_cons_of_mem _ hpm)
    have hx0 : x ≠ 0 := fun e => w'.zero1 (by simp [e])
    rw [e2, if_pos hpt]
    rw [bind_run (setPrev_run ht0 _ _), bind_run (setPrev_run hs0 _ _),
      bind_run (setNext_run hp0 _ _)]
    dsimp only
    rw [bind_run (getNext_run ht0 _)]
    have e3 : (((h.sp t t).sp s (lastOf x c)).sn (lastOf x c) s).next t = x := by
      simp [Ne.symm hpt, e1]
    rw [e3, if_pos hxt, bind_run (setNext_run ht0 _ _), bind_run (setNext_run hs0 _ _),
      setPrev_run hx0]
    refine ⟨_, rfl, w.two ?_ ?_ (by simp) rfl rfl ?_, rfl⟩
    · refine moved_links hl (List.nodup_cons.1 hA).2 ?_ ?_ ?_ ?_ ?_ ?_
      · simp
      · simp
      · simp [hsm _ hpm, htm _ hpm]
      · simp [Ne.symm (hsm x (by simp))]
      · intro i hi hne
        simp [hne, hsm i hi, htm i hi]
      · intro i hi
        have : i ≠ x := fun e => (List.nodup_cons.1 (List.nodup_cons.1 hA).2).1 (by rwa [← e])
        simp [this, hsm i (List.mem_cons_of_mem _ hi), htm i (List.mem_cons_of_mem _ hi)]
    · simp [Links, Ne.symm hxt, Ne.symm hst]
    · intro i hi
      have i1 : i ≠ s := fun e => hi (by simp [e])
      have i2 : i ≠ t := fun e => hi (by simp [e])
      have i3 : i ≠ x := fun e => hi (by simp [e])
      have i4 : i ≠ lastOf x c := fun e => hi (List.mem_append_right _ (List.mem_cons_of_mem _ (by
        rw [e]; exact hpm)))
      simp [i1, i2, i3, i4]

theorem destroyLoop_run : ∀ {c : List Nat} {x : Nat} {h : Nodes α}, Links h x c s → (x :: c).Nodup →
    s ∉ x :: c → 0 ∉ x :: c → (∀ i ∈ x :: c, (h.val i).isSome) →
    ∃ h', destroyLoop s x h = some ((), h') ∧ h'.next = h.next ∧ h'.prev = h.prev ∧
      h'.free = h.free ∧ (∀ i ∈ x :: c, h'.val i = none) ∧ ∀ i, i ∉ x :: c → h'.val i = h.val i
  | c, x, h, hl, hd, hs, h0, hv => by
      obtain ⟨v, hvx⟩ := Option.isSome_iff_exists.1 (hv x (by simp))
      rw [destroyLoop, bind_run (getNext_run (fun e => h0 (by simp [e])) h),
        bind_run (destroy_run hvx), hl.next_head]
      cases c with
      | nil =>
        rw [headOr, if_neg (by simp)]
        refine ⟨_, rfl, rfl, rfl, rfl, ?_, ?_⟩
        · intro i hi
          rw [List.mem_singleton.1 hi]
          simp
        · intro i hi
          have : i ≠ x := fun e => hi (by simp [e])
          simp [this]
      | cons y c =>
        have hys : y ≠ s := fun e => hs (by simp [e])
        rw [headOr, if_pos hys]
        obtain ⟨h', e1, e2, e3, e4, e5, e6⟩ := destroyLoop_run (c := c) (x := y) (h := h.sv x none)
          (hl.2.2.congr (fun _ _ => rfl) fun _ _ => rfl) (List.nodup_cons.1 hd).2
          (fun e => hs (List.mem_cons_of_mem _ e)) (fun e => h0 (List.mem_cons_of_mem _ e)) (by
            intro i hi
            have : i ≠ x := fun e => (List.nodup_cons.1 hd).1 (by rwa [← e])
            simp only [sv_val]
            rw [if_neg this]
            exact hv i (List.mem_cons_of_mem _ hi))
        refine ⟨h', e1, e2, e3, e4, ?_, ?_⟩
        · intro i hi
          rcases List.mem_cons.1 hi with rfl | hi
          · rw [e6 i (List.nodup_cons.1 hd).1]
            simp
          · exact e5 i hi
        · intro i hi
          have : i ≠ x := fun e => hi (by simp [e])
          rw [e6 i fun e => hi (List.mem_cons_of_mem _ e)]
          simp [this]

theorem freeChain_append {h h' : Nodes α} {p : Nat} {fr : List Nat} : ∀ {c : List Nat} {x t : Nat},
    Links h x c t → (x :: c).Nodup → (∀ i ∈ x :: c, i ≠ lastOf x c → h'.next i = h.next i) →
    h'.next (lastOf x c) = p → FreeChain h' p fr → FreeChain h' x (x :: c ++ fr)
  | [], x, t, hl, _, _, e, hf => ⟨rfl, by
      show FreeChain h' (h'.next x) ([] ++ fr)
      rw [show h'.next x = p from e]
      exact hf⟩
  | y :: c, x, t, hl, hd, hn, e, hf => ⟨rfl, by
      have hne : x ≠ lastOf y c := fun e => (List.nodup_cons.1 hd).1 (by
        rw [e]; exact lastOf_mem y c)
      rw [hn x (by simp) hne, hl.1]
      exact freeChain_append hl.2.2 (List.nodup_cons.1 hd).2
        (fun i hi => hn i (List.mem_cons_of_mem _ hi)) e hf⟩

/-- C88: the destructor of a list destroys its values and gives all its nodes back to the pool. -/
theorem C88_destroy (w : World h base cap ((s, l) :: ls) fr loose) :
    ∃ h', listDestroy s h = some ((), h') ∧ World h' base cap ls (l ++ fr) loose ∧
      (∀ i ∈ l, h'.val i = none) ∧ ∀ i, i ∉ l → h'.val i = h.val i := by
  have hs0 : s ≠ 0 := (w.sentOut (s, l) (by simp)).1
  have hl := w.links1
  have hA := w.nodup1
  have hsents := (List.nodup_cons.1 w.sents).2
  rw [listDestroy, bind_run (getNext_run hs0 h), hl.next_head]
  cases l with
  | nil =>
    rw [headOr, if_neg (by simp)]
    refine ⟨h, rfl, ?_, by simp, fun _ _ => rfl⟩
    exact ⟨w.base0, fun p hp => w.lists p (List.mem_cons_of_mem _ hp), w.free, by simpa using w.part,
      hsents, fun p hp => w.sentOut p (List.mem_cons_of_mem _ hp), by simpa using w.alive⟩
  | cons x c =>
    have hxs : x ≠ s := fun e => (List.nodup_cons.1 hA).1 (by simp [e])
    have hpm := lastOf_mem x c
    have hp0 : lastOf x c ≠ 0 := fun e => w.zero1 (by rw [← e]; exact List.mem_cons_of_mem _ hpm)
    rw [headOr, if_pos hxs]
    obtain ⟨h1, e1, e2, e3, e4, e5, e6⟩ := destroyLoop_run (s := s) hl.2.2 (List.nodup_cons.1 hA).2
      (List.nodup_cons.1 hA).1 (fun e => w.zero1 (List.mem_cons_of_mem _ e)) fun i hi => w.alive1 hi
    have hnd := w.nodup
    rw [List.flatMap_cons] at hnd
    have run : (do
        destroyLoop s x
        let a ← getNext s
        let b ← getPrev s
        retrieveNodes a b : NodeM α Unit) h = some ((), (h1.sn (lastOf x c) h.free).sf x) := by
      rw [bind_run e1, bind_run (getNext_run hs0 _), bind_run (getPrev_run hs0 _), e2, e3,
        hl.next_head, hl.last.1, retrieveNodes, bind_run (getFree_run _), e4,
        show lastOf s (x :: c) = lastOf x c from rfl, bind_run (setNext_run hp0 _ _), setFree_run]
      rfl
    refine ⟨_, run, ?_, e5, e6⟩
    refine World.step (ps := [(s, x :: c)]) (ps' := []) w [s] (sent_notin1 w) (sent_out1 w) hsents
      (by simp) (by simp) ?_ ?_ ?_ ?_ ?_
    · show FreeChain _ x (x :: c ++ fr)
      refine freeChain_append hl.2.2 (List.nodup_cons.1 hA).2 (fun i hi hne => ?_) ?_
        (w.free.congr fun i hi => ?_)
      · simp [hne, e2]
      · simp
      · have : i ≠ lastOf x c := by
          rintro rfl
          exact (List.nodup_append.1 hnd).2.2 _ hi _ (List.mem_append_right _
            (List.mem_append_left _ hpm)) rfl
        simp [this, e2]
    · simp only [List.flatMap_cons, List.flatMap_nil, List.append_nil]
      rw [List.append_assoc]
      refine List.perm_append_comm.trans ?_
      rw [List.append_assoc]
    · intro i hi
      have : i ≠ lastOf x c := fun e => hi (by
        simp only [List.mem_append, List.flatMap_cons, List.flatMap_nil, List.append_nil]
        exact .inr (.inr (.inr (by rw [e]; exact hpm))))
      simp [this, e2, e3]
    · intro i hi
      refine e6 i fun hm => hi ?_
      simp only [List.mem_append, List.flatMap_cons, List.flatMap_nil, List.append_nil]
      exact .inr (.inr hm)
    · intro i hi
      simp only [List.flatMap_cons, List.flatMap_nil, List.append_nil] at hi ⊢
      show (h1.val i).isSome ↔ i ∈ loose
      by_cases hm : i ∈ x :: c
      · rw [e5 i hm]
        refine ⟨fun h => by simp at h, fun h => ?_⟩
        exact absurd rfl ((List.nodup_append.1 (List.nodup_append.1 hnd).2.1).2.2 i h i
          (List.mem_append_left _ hm))
      · rw [e6 i hm, w.alive i (w.mem_range (by
          rw [List.flatMap_cons]
          simp only [List.mem_append] at hi ⊢
          rcases hi with hi | hi | hi
          · exact .inl hi
          · exact .inr (.inl hi)
          · exact .inr (.inr (.inl hi))))]
        rw [List.flatMap_cons]
        refine ⟨fun h => ?_, fun h => List.mem_append_left _ h⟩
        rcases List.mem_append.1 hi with hi | hi
        · exact absurd rfl ((List.nodup_append.1 hnd).2.2 i hi i h)
        · exact (List.mem_append.1 hi).elim id fun h => absurd h hm

/-- C88: when no list is left, `reset_nodes` puts the nodes back in order, provided the nodes after
the first `n` have never left theirs. -/
theorem C88_reset {n : Nat} (w : World h base cap [] fr []) (hn : 0 < n) (hc : n ≤ cap)
    (hrest : ∀ i, base + n ≤ i → i < base + cap → h.next i = if i + 1 < base + cap then i + 1 else 0) :
    ∃ h', resetNodes base cap n h = some ((), h') ∧
      World h' base cap [] (List.range' base cap) [] ∧ h'.val = h.val := by
  have hb := w.base0
  obtain ⟨h1, e, e1, e2, e3, e4, e5⟩ := linkRun_run (n - 1) base h hb
  have key : ∀ h2 : Nodes α, h2.val = h.val →
      (∀ i, base ≤ i → i + 1 < base + cap → h2.next i = i + 1) → h2.next (base + cap - 1) = 0 →
      World (h2.sf base) base cap [] (List.range' base cap) [] := by
    intro h2 hv h3 h4
    refine ⟨hb, by simp, ?_, by simp, by simp, by simp, ?_⟩
    · exact freeChain_range cap base (by omega) (fun i h5 h6 => h3 i h5 h6) h4
    · intro i hi
      show (h2.val i).isSome ↔ _
      rw [hv]
      exact w.alive i hi
  rw [resetNodes, bind_run e]
  dsimp only
  by_cases hnc : n = cap
  · rw [if_pos hnc, bind_run (setNext_run (by omega) _ _), setFree_run]
    refine ⟨_, rfl, key _ e1 (fun i h3 h4 => ?_) ?_, e1⟩
    · simp only [sn_next]
      rw [if_neg (by omega), e4 i h3 (by omega)]
    · simp only [sn_next]
      rw [if_pos (by omega)]
  · rw [if_neg hnc, bind_run (setNext_run (by omega) _ _), setFree_run]
    refine ⟨_, rfl, key _ e1 (fun i h3 h4 => ?_) ?_, e1⟩
    · simp only [sn_next]
      split
      · omega
      · by_cases h5 : i < base + (n - 1)
        · exact e4 i h3 h5
        · rw [e5 i (by omega), hrest i (by omega) (by omega), if_pos h4]
    · simp only [sn_next]
      rw [if_neg (by omega), e5 _ (by omega), hrest _ (by omega) (by omega), if_neg (by omega)]

/-- C87: `push_back` and `push_front` add a node with the value at the ends of the list. -/
theorem C87_push_back (w : World h base cap ((s, l) :: ls) fr loose) (v : α)
    (hroom : (loose ++ l ++ ls.flatMap Prod.snd).length < cap) :
    ∃ x fr' h', fr = x :: fr' ∧ pushBack s v h = some ((), h') ∧
      World h' base cap ((s, l ++ [x]) :: ls) fr' loose ∧
      h'.val x = some v ∧ ∀ i, i ≠ x → h'.val i = h.val i := by
  obtain ⟨x, fr', h', e1, e2, e3, e4⟩ := C87_insert (d := l) (r := []) (by simpa using w) v
    (by simpa using hroom)
  exact ⟨x, fr', h', e1, by rw [pushBack, bind_run (show insertNode s v h = _ from e2)]; rfl, e3, e4⟩

theorem C87_push_front (w : World h base cap ((s, l) :: ls) fr loose) (v : α)
    (hroom : (loose ++ l ++ ls.flatMap Prod.snd).length < cap) :
    ∃ x fr' h', fr = x :: fr' ∧ pushFront s v h = some ((), h') ∧
      World h' base cap ((s, x :: l) :: ls) fr' loose ∧
      h'.val x = some v ∧ ∀ i, i ≠ x → h'.val i = h.val i := by
  obtain ⟨x, fr', h', e1, e2, e3, e4⟩ := C87_insert (d := []) (r := l) (by simpa using w) v
    (by simpa using hroom)
  refine ⟨x, fr', h', e1, ?_, e3, e4⟩
  rw [pushFront, bind_run (getNext_run (w.sentOut (s, l) (by simp)).1 h), w.links1.next_head,
    bind_run e2]
  rfl

/-- C87: `extract_front` and `extract_back` remove the node at the end of a list which is not empty,
and return it; its value stays alive. -/
theorem C87_extract_front {x : Nat} (w : World h base cap ((s, x :: l) :: ls) fr loose) :
    ∃ h', extractFront s h = some (x, h') ∧
      World h' base cap ((s, l) :: ls) fr (x :: loose) ∧ h'.val = h.val := by
  obtain ⟨h', e1, e2⟩ := C87_extract (d := []) (r := l) w
  refine ⟨h', ?_, e2⟩
  rw [extractFront, bind_run (getNext_run (w.sentOut (s, x :: l) (by simp)).1 h),
    w.links1.next_head]
  exact e1

theorem C87_extract_back {x : Nat} (w : World h base cap ((s, l ++ [x]) :: ls) fr loose) :
    ∃ h', extractBack s h = some (x, h') ∧
      World h' base cap ((s, l) :: ls) fr (x :: loose) ∧ h'.val = h.val := by
  obtain ⟨h', e1, e2⟩ := C87_extract (d := l) (r := []) w
  refine ⟨h', ?_, by simpa using e2⟩
  rw [extractBack, bind_run (getPrev_run (w.sentOut (s, l ++ [x]) (by simp)).1 h), w.links1.last.1,
    lastOf_append]
  exact e1

/-- C87: `merge_unsafe` merges in a list another one of which only the forward links and the backward
link of the sentinel are right: the result is linked forwards in the merged order, and the other list
is empty. -/
theorem C87_merge_unsafe (lt : α → α → Bool) {f y : Nat} {r : List Nat}
    (hl : Links h s (f :: r) s) (ho : Chain h t (y :: o) t) (hpt : h.prev t = lastOf y o)
    (hd : ((s :: f :: r) ++ (t :: y :: o)).Nodup) (h0 : 0 ∉ (s :: f :: r) ++ (t :: y :: o))
    (hv : ∀ i ∈ f :: r ++ y :: o, (h.val i).isSome) :
    ∃ h', mergeUnsafe lt s t h = some ((), h') ∧
      Chain h' s (List.merge (f :: r) (y :: o) (nodeLe lt h)) s ∧
      h'.next t = t ∧ h'.prev t = t ∧ h'.val = h.val ∧ h'.free = h.free ∧
      ∀ i, i ∉ (s :: f :: r) ++ (t :: y :: o) → h'.next i = h.next i := by
  have hs0 : s ≠ 0 := fun e => h0 (by simp [e])
  have ht0 : t ≠ 0 := fun e => h0 (by simp [e])
  have hfs : f ≠ s := fun e => (List.nodup_cons.1 (List.nodup_append.1 hd).1).1 (by simp [e])
  have hyt : y ≠ t := fun e => (List.nodup_cons.1 (List.nodup_append.1 hd).2.1).1 (by simp [e])
  obtain ⟨h', e1, e2, e3⟩ := mergeUnsafeLoop_run lt (s := s) (t := t) (r.length + o.length + 1)
    (h := h) (d := []) (r := r) (o := o) (f := f) (y := y) (by omega) hl.1 hl.2.2 ho.2 hpt
    (.inl hl.2.1) hd h0 hv
  refine ⟨h', ?_, e2, e3.1, e3.2.1, e3.2.2.1, e3.2.2.2.1, e3.2.2.2.2.2⟩
  rw [mergeUnsafe, bind_run (getNext_run hs0 h), show h.next s = f from hl.1, if_neg hfs,
    bind_run (getNext_run ht0 h), show h.next t = y from ho.1, if_neg hyt, e1]

/-- C87: but the result of `merge_unsafe` is not linked backwards in general, even when both lists
were: the sentinel still points to the former last node, so that the destructor of the list then only
gives back the nodes up to that one. -/
theorem C87_merge_unsafe_false (lt : α → α → Bool) {f y : Nat} {a b : α}
    (hl : Links h s [f] s) (ho : Links h t [y] t) (hd : [s, f, t, y].Nodup) (h0 : 0 ∉ [s, f, t, y])
    (ha : h.val f = some a) (hb : h.val y = some b) (hlt : lt b a = false) :
    ∃ h', mergeUnsafe lt s t h = some ((), h') ∧ Chain h' s [f, y] s ∧ ¬ Links h' s [f, y] s ∧
      ∃ h'', listDestroy s h' = some ((), h'') ∧ h''.free = f ∧ h''.next f = h.free := by
  have hs0 : s ≠ 0 := fun e => h0 (by simp [e])
  have ht0 : t ≠ 0 := fun e => h0 (by simp [e])
  have hf0 : f ≠ 0 := fun e => h0 (by simp [e])
  have hy0 : y ≠ 0 := fun e => h0 (by simp [e])
  simp only [List.nodup_cons, List.mem_cons, List.not_mem_nil, or_false, not_or] at hd
  obtain ⟨⟨d1, d2, d3⟩, ⟨d4, d5⟩, d6, -⟩ := hd
  obtain ⟨h', e1, e2, e3⟩ := mergeUnsafeLoop_run lt (s := s) (t := t) 1
    (h := h) (d := []) (r := []) (o := []) (f := f) (y := y) (by simp) hl.1 hl.2.2 ho.2.2.1
    ho.2.2.2 (.inl hl.2.1) (by simp [d1, d2, d3, d4, d5, d6])
    (by simp [Ne.symm hs0, Ne.symm ht0, Ne.symm hf0, Ne.symm hy0]) (by simp [ha, hb])
  have hm : List.merge [f] [y] (nodeLe lt h) = [f, y] := by
    rw [List.cons_merge_cons, if_pos (by rw [nodeLe_eq ha hb, hlt]; rfl), List.nil_merge]
  rw [hm] at e2
  refine ⟨h', ?_, e2, fun hc => ?_, ?_⟩
  · rw [mergeUnsafe, bind_run (getNext_run hs0 h), show h.next s = f from hl.1, if_neg (Ne.symm d1),
      bind_run (getNext_run ht0 h), show h.next t = y from ho.1, if_neg (Ne.symm d6), e1]
  · have p1 : h'.prev s = y := hc.2.2.2.2.2
    rw [e3.2.2.2.2.1 s d2, show h.prev s = f from hl.2.2.2] at p1
    exact d5 p1
  · have n1 : h'.next s = f := e2.1
    have n2 : h'.next f = y := e2.2.1
    have n3 : h'.next y = s := e2.2.2
    have v1 : h'.val f = some a := by rw [e3.2.2.1]; exact ha
    have v2 : (h'.sv f none).val y = some b := by
      simp only [sv_val]
      rw [if_neg (Ne.symm d5), e3.2.2.1]
      exact hb
    have run : destroyLoop s f h' = some ((), (h'.sv f none).sv y none) := by
      rw [destroyLoop, bind_run (getNext_run hf0 h'), bind_run (destroy_run v1), n2,
        if_pos (Ne.symm d3), destroyLoop, bind_run (getNext_run hy0 _), bind_run (destroy_run v2),
        show (h'.sv f none).next y = s from n3, if_neg (by simp)]
      rfl
    rw [listDestroy, bind_run (getNext_run hs0 h'), n1, if_pos (Ne.symm d1), bind_run run,
      bind_run (getNext_run hs0 _), bind_run (getPrev_run hs0 _)]
    simp only [sv_next, sv_prev]
    rw [n1, e3.2.2.2.2.1 s d2, show h.prev s = f from hl.2.2.2, retrieveNodes,
      bind_run (getFree_run _), bind_run (setNext_run hf0 _ _), setFree_run]
    exact ⟨_, rfl, rfl, by
      show (if f = f then _ else _) = _
      rw [if_pos rfl]
      exact e3.2.2.2.1⟩

/-- The values of a list, as they are seen by the iterators. -/
def values (h : Nodes α) (l : List Nat) : List α := l.filterMap h.val

theorem values_merge (lt : α → α → Bool) : ∀ (l o : List Nat), (∀ i ∈ l ++ o, (h.val i).isSome) →
    values h (List.merge l o (nodeLe lt h))
      = List.merge (values h l) (values h o) (fun a b => !lt b a)
  | [], o, _ => by rw [List.nil_merge]; exact (List.nil_merge _).symm
  | x :: l, [], _ => by rw [List.merge_right]; exact (List.merge_right _).symm
  | x :: l, y :: o, hv => by
      obtain ⟨a, ha⟩ := Option.isSome_iff_exists.1 (hv x (by simp))
      obtain ⟨b, hb⟩ := Option.isSome_iff_exists.1 (hv y (by simp))
      have e1 : values h (x :: l) = a :: values h l := by rw [values, List.filterMap_cons, ha]; rfl
      have e2 : values h (y :: o) = b :: values h o := by rw [values, List.filterMap_cons, hb]; rfl
      rw [List.cons_merge_cons, nodeLe_eq ha hb]
      by_cases hlt : lt b a = true
      · rw [if_neg (by rw [hlt]; simp)]
        have := values_merge lt (x :: l) o fun i hi => hv i (by
          simp only [List.mem_append, List.mem_cons] at hi ⊢
          rcases hi with hi | hi
          · exact .inl hi
          · exact .inr (.inr hi))
        rw [values, List.filterMap_cons, hb]
        show b :: values h _ = _
        rw [this, e1, e2, List.cons_merge_cons, if_neg (by rw [hlt]; simp)]
      · rw [if_pos (by simpa using hlt)]
        have := values_merge lt l (y :: o) fun i hi => hv i (by
          rw [List.cons_append]
          exact List.mem_cons_of_mem _ hi)
        rw [values, List.filterMap_cons, ha]
        show a :: values h _ = _
        rw [this, e1, e2, List.cons_merge_cons, if_pos (by simpa using hlt)]
  termination_by l o => l.length + o.length

/-- C87: the values of the list after `merge` are the stable merge of the values of the two lists,
which is what the models of melsort and slabsort use. -/
theorem C87_merge_values (lt : α → α → Bool) (w : World h base cap ((s, l) :: (t, o) :: ls) fr loose) :
    ∃ h' m, merge lt s t h = some ((), h') ∧ World h' base cap ((s, m) :: (t, []) :: ls) fr loose ∧
      values h' m = List.merge (values h l) (values h o) (fun a b => !lt b a) ∧
      ∀ p ∈ ls, values h' p.2 = values h p.2 := by
  obtain ⟨h', e1, e2, e3⟩ := C87_merge lt w
  refine ⟨h', _, e1, e2, ?_, fun p _ => by rw [values, e3]; rfl⟩
  rw [values, e3]
  exact values_merge lt l o fun i hi => (List.mem_append.1 hi).elim
    (fun h => w.alive1 h) fun h => (w.perm (List.Perm.swap _ _ _)).alive1 h

/-! ### A concrete state -/

/-- Two lists, with sentinels 1 and 2, in a pool of six nodes at 10. -/
def demo : Nodes Nat where
  next i := match i with
    | 1 => 10 | 10 => 12 | 12 => 1 | 2 => 11 | 11 => 13 | 13 => 2 | 14 => 15 | _ => 0
  prev i := match i with
    | 1 => 12 | 12 => 10 | 10 => 1 | 2 => 13 | 13 => 11 | 11 => 2 | _ => 0
  val i := match i with
    | 10 => some 3 | 12 => some 8 | 11 => some 5 | 13 => some 8 | _ => none
  free := 14

theorem demo_world : World demo 10 6 [(1, [10, 12]), (2, [11, 13])] [14, 15] [] where
  base0 := by omega
  lists := by simp [Links, demo]
  free := by simp [FreeChain, demo]
  part := by decide
  sents := by decide
  sentOut := by decide
  alive := by decide

theorem demo_world' : World demo 10 6 [(2, [11, 13]), (1, [10, 12])] [14, 15] [] :=
  demo_world.perm (List.Perm.swap _ _ _)

example : ∃ h', listInit 3 demo = some ((), h') ∧
    World h' 10 6 [(3, []), (1, [10, 12]), (2, [11, 13])] [14, 15] [] ∧ h'.val = demo.val :=
  C87_list_init demo_world (by decide) (by decide)

example : ∃ x fr' h', [14, 15] = x :: fr' ∧ insertNode 12 7 demo = some (x, h') ∧
    World h' 10 6 [(1, [10, x, 12]), (2, [11, 13])] fr' [] ∧
    h'.val x = some 7 ∧ ∀ i, i ≠ x → h'.val i = demo.val i :=
  C87_insert (d := [10]) (r := [12]) demo_world 7 (by decide)

example := C87_push_back demo_world 7 (by decide)
example := C87_push_front demo_world 7 (by decide)
example := C87_extract (d := [10]) (r := []) demo_world
example := C87_extract_front demo_world
example := C87_extract_back (l := [10]) demo_world

example : ∃ h', spliceRange 12 13 2 demo = some ((), h') ∧
    World h' 10 6 [(1, [10, 13, 12]), (2, [11])] [14, 15] [] ∧ h'.val = demo.val :=
  C87_splice_range (d := [10]) (r := [12]) (d2 := [11]) (c := []) (r2 := []) demo_world

example : ∃ h', splice 12 2 demo = some ((), h') ∧
    World h' 10 6 [(1, [10, 11, 13, 12]), (2, [])] [14, 15] [] ∧ h'.val = demo.val :=
  C87_splice (d := [10]) (r := [12]) demo_world

theorem demo_merge : List.merge [10, 12] [11, 13] (nodeLe (fun a b => decide (a < b)) demo)
    = [10, 11, 12, 13] := by
  simp [List.cons_merge_cons, nodeLe, demo]

/-- The node of this list comes first among equivalent values. -/
example : ∃ h', merge (fun a b => decide (a < b)) 1 2 demo = some ((), h') ∧
    World h' 10 6 [(1, [10, 11, 12, 13]), (2, [])] [14, 15] [] ∧ h'.val = demo.val := by
  rw [← demo_merge]
  exact C87_merge (fun a b => decide (a < b)) demo_world

example := C87_merge_values (fun a b => decide (a < b)) demo_world

example := C87_move_ctor (s := 3) demo_world (by decide) (by decide)

example : ∃ h1 h2, listInit 3 demo = some ((), h1) ∧ moveAssign 3 1 h1 = some ((), h2) ∧
    World h2 10 6 [(3, [10, 12]), (1, []), (2, [11, 13])] [14, 15] [] := by
  obtain ⟨h1, e1, w1, -⟩ := C87_list_init (s := 3) demo_world (by decide) (by decide)
  obtain ⟨h2, e2, w2, -⟩ := C87_move_assign w1
  exact ⟨h1, h2, e1, e2, w2⟩

example : ∃ h', listDestroy 1 demo = some ((), h') ∧
    World h' 10 6 [(2, [11, 13])] [10, 12, 14, 15] [] ∧
    (∀ i ∈ [10, 12], h'.val i = none) ∧ ∀ i, i ∉ [10, 12] → h'.val i = demo.val i :=
  C88_destroy demo_world

/-- Both lists are destroyed, then all the nodes are put back in order. -/
example : ∃ h1 h2 h3, listDestroy 1 demo = some ((), h1) ∧ listDestroy 2 h1 = some ((), h2) ∧
    resetNodes 10 6 6 h2 = some ((), h3) ∧ World h3 10 6 [] [10, 11, 12, 13, 14, 15] [] := by
  obtain ⟨h1, e1, w1, -⟩ := C88_destroy demo_world
  obtain ⟨h2, e2, w2, -⟩ := C88_destroy w1
  obtain ⟨h3, e3, w3, -⟩ := C88_reset (n := 6) w2 (by omega) (by omega) (by omega)
  exact ⟨h1, h2, h3, e1, e2, e3, w3⟩

example : ∃ h', mergeUnsafe (fun a b => decide (a < b)) 1 2 demo = some ((), h') ∧
    Chain h' 1 [10, 11, 12, 13] 1 ∧ h'.next 2 = 2 := by
  obtain ⟨h', e1, e2, e3, -⟩ := C87_merge_unsafe (fun a b => decide (a < b)) (h := demo) (s := 1) (t := 2)
    (f := 10) (r := [12]) (y := 11) (o := [13]) (by simp [Links, demo]) (by simp [Chain, demo]) rfl
    (by decide) (by decide) (by decide)
  exact ⟨h', e1, demo_merge ▸ e2, e3⟩

example : ∃ (h : Nodes Nat) (s t f y a b : Nat), Links h s [f] s ∧ Links h t [y] t ∧
    [s, f, t, y].Nodup ∧ 0 ∉ [s, f, t, y] ∧ h.val f = some a ∧ h.val y = some b ∧
    decide (b < a) = false :=
  ⟨⟨fun i => if i = 1 then 3 else if i = 3 then 1 else if i = 2 then 4 else 2,
    fun i => if i = 1 then 3 else if i = 3 then 1 else if i = 2 then 4 else 2,
    fun i => some i, 0⟩, 1, 2, 3, 4, 3, 4, by simp [Links], by simp [Links], by decide, by decide, rfl,
    rfl, rfl⟩

end NodeList
end CppSort
