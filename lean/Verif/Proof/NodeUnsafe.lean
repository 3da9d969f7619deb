import Verif.Proof.NodeWorld
/-
`merge_unsafe` of detail/fixed_size_list.h, whose argument is only linked forwards.
-/
set_option autoImplicit false

namespace CppSort
namespace NodeList
variable {α : Type}

/-- The nodes of `l` are linked forwards between `a` and `b`. -/
def Chain (h : Nodes α) : Nat → List Nat → Nat → Prop
  | a, [], b => h.next a = b
  | a, x :: l, b => h.next a = x ∧ Chain h x l b

theorem Links.chain {h : Nodes α} {b : Nat} : ∀ {a : Nat} {l : List Nat}, Links h a l b → Chain h a l b
  | _, [], hl => hl.1
  | _, _ :: _, ⟨h1, _, h3⟩ => ⟨h1, h3.chain⟩

theorem chain_append {h : Nodes α} {x b : Nat} {l2 : List Nat} : ∀ {a : Nat} {l1 : List Nat},
    Chain h a (l1 ++ x :: l2) b ↔ Chain h a l1 x ∧ Chain h x l2 b
  | a, [] => Iff.rfl
  | a, y :: l1 => by
      show _ ∧ Chain h y (l1 ++ x :: l2) b ↔ (_ ∧ Chain h y l1 x) ∧ _
      rw [chain_append, and_assoc]

theorem Chain.congr {h h' : Nodes α} {b : Nat} : ∀ {a : Nat} {l : List Nat}, Chain h a l b →
    (∀ i ∈ a :: l, h'.next i = h.next i) → Chain h' a l b
  | a, [], hl, hn => (hn a (by simp)).trans hl
  | a, x :: l, ⟨h1, h2⟩, hn => ⟨(hn a (by simp)).trans h1,
      h2.congr fun i hi => hn i (List.mem_cons_of_mem _ hi)⟩

theorem Chain.next_head {h : Nodes α} {a b : Nat} : ∀ {l : List Nat}, Chain h a l b →
    h.next a = headOr l b
  | [], hl => hl
  | _ :: _, hl => hl.1

theorem Chain.relink {h h' : Nodes α} {b x : Nat} : ∀ {a : Nat} {l : List Nat}, Chain h a l b →
    (a :: l).Nodup → (∀ i ∈ a :: l, i ≠ lastOf a l → h'.next i = h.next i) →
    h'.next (lastOf a l) = x → Chain h' a l x
  | a, [], _, _, _, h1 => h1
  | a, y :: l, ⟨h1, h2⟩, hd, hn, e1 => by
      have hne : a ≠ lastOf y l := fun e => (List.nodup_cons.1 hd).1 (by rw [e]; exact lastOf_mem y l)
      exact ⟨(hn a (by simp) hne).trans h1, h2.relink (List.nodup_cons.1 hd).2
        (fun i hi => hn i (List.mem_cons_of_mem _ hi)) e1⟩

theorem scanUnsafe_run {lt : α → α → Bool} {h : Nodes α} {f t : Nat} (hf : (h.val f).isSome) :
    ∀ {x : Nat} {o : List Nat}, Chain h x o t → t ∉ o → 0 ∉ o → (∀ n ∈ o, (h.val n).isSome) →
    ∃ c o', o = c ++ o' ∧ scanUnsafe lt (headOr o t) t f x h = some ((headOr o' t, lastOf x c), h) ∧
      (∀ z ∈ c, nodeLe lt h f z = false) ∧ ∀ z o3, o' = z :: o3 → nodeLe lt h f z = true
  | x, [], _, _, _, _ => ⟨[], [], rfl, by rw [headOr, scanUnsafe, if_pos rfl]; rfl, by simp, by simp⟩
  | x, y :: o, ⟨h1, h3⟩, ht, h0, hv => by
      obtain ⟨a, ha⟩ := Option.isSome_iff_exists.1 hf
      obtain ⟨b, hb⟩ := Option.isSome_iff_exists.1 (hv y (by simp))
      have hle := nodeLe_eq (lt := lt) ha hb
      have hy0 : y ≠ 0 := fun e => h0 (by simp [e])
      rw [headOr, scanUnsafe, if_neg fun e => ht (by simp [e]), bind_run (getVal_run hb),
        bind_run (getVal_run ha)]
      by_cases hlt : lt b a = true
      · rw [if_pos hlt, bind_run (getNext_run hy0 h), h3.next_head]
        obtain ⟨c, o', e1, e2, e3, e4⟩ := scanUnsafe_run hf h3 (fun e => ht (List.mem_cons_of_mem _ e))
          (fun e => h0 (List.mem_cons_of_mem _ e)) fun n hn => hv n (List.mem_cons_of_mem _ hn)
        refine ⟨y :: c, o', by rw [e1]; rfl, e2, fun z hz => ?_, e4⟩
        rcases List.mem_cons.1 hz with rfl | hz
        · rw [hle, hlt]; rfl
        · exact e3 z hz
      · rw [if_neg hlt]
        refine ⟨[], y :: o, rfl, rfl, by simp, fun z o3 e => ?_⟩
        cases e
        rw [hle]
        simpa using hlt

/-- What `merge_unsafe` does to the links. -/
def Unsafe (h h' : Nodes α) (t : Nat) (ns : List Nat) : Prop :=
  h'.next t = t ∧ h'.prev t = t ∧ h'.val = h.val ∧ h'.free = h.free ∧
    (∀ i, i ≠ t → h'.prev i = h.prev i) ∧ ∀ i, i ∉ ns → h'.next i = h.next i

theorem mergeUnsafeLoop_run (lt : α → α → Bool) {s t : Nat} : ∀ (n : Nat) {h : Nodes α}
    {d r o : List Nat} {f y : Nat}, r.length + o.length < n →
    Chain h s d f → Links h f r s → Chain h y o t → h.prev t = lastOf y o →
    h.prev f = lastOf s d ∨ nodeLe lt h f y = true →
    ((s :: (d ++ f :: r)) ++ (t :: y :: o)).Nodup → 0 ∉ (s :: (d ++ f :: r)) ++ (t :: y :: o) →
    (∀ i ∈ f :: r ++ y :: o, (h.val i).isSome) →
    ∃ h', mergeUnsafeLoop lt f s y t h = some ((), h') ∧
      Chain h' s (d ++ List.merge (f :: r) (y :: o) (nodeLe lt h)) s ∧
      Unsafe h h' t ((s :: (d ++ f :: r)) ++ (t :: y :: o)) := by
  intro n
  induction n with
  | zero => intro h d r o f y hn; omega
  | succ n ih =>
    intro h d r o f y hn hl hf hx hpt hpf hd h0 hv
    have hA : (s :: (d ++ f :: r)).Nodup := (List.nodup_append.1 hd).1
    have hB : (t :: y :: o).Nodup := (List.nodup_append.1 hd).2.1
    have hAB := (List.nodup_append.1 hd).2.2
    have hmA : ∀ i ∈ s :: d, i ∈ s :: (d ++ f :: r) := by
      intro i hi
      simp only [List.mem_cons, List.mem_append] at hi ⊢
      exact hi.elim .inl fun h => .inr (.inl h)
    have hmR : ∀ i ∈ f :: r, i ∈ s :: (d ++ f :: r) := fun i hi =>
      List.mem_cons_of_mem _ (List.mem_append_right _ hi)
    have hmO : ∀ i ∈ y :: o, i ∈ t :: y :: o := fun i hi => List.mem_cons_of_mem _ hi
    have hdR : ∀ i ∈ s :: d, ∀ j ∈ f :: r, i ≠ j := by
      have : ((s :: d) ++ f :: r).Nodup := hA
      exact (List.nodup_append.1 this).2.2
    have hfs : f ≠ s := fun e => hdR s (by simp) f (by simp) e.symm
    have hyt : y ≠ t := fun e => (List.nodup_cons.1 hB).1 (by simp [e])
    have hto : t ∉ o := fun e => (List.nodup_cons.1 hB).1 (List.mem_cons_of_mem _ e)
    have nz : ∀ i ∈ s :: (d ++ f :: r), i ≠ 0 := fun i hi e => h0 (by
      rw [← e]; exact List.mem_append_left _ hi)
    have nz' : ∀ i ∈ t :: y :: o, i ≠ 0 := fun i hi e => h0 (by
      rw [← e]; exact List.mem_append_right _ hi)
    have hf0 : f ≠ 0 := nz _ (hmR _ (by simp))
    have hy0 : y ≠ 0 := nz' _ (by simp)
    have ht0 : t ≠ 0 := nz' _ (by simp)
    have hs0 : s ≠ 0 := nz _ (by simp)
    obtain ⟨a, ha⟩ := Option.isSome_iff_exists.1 (hv f (by simp))
    obtain ⟨b, hb⟩ := Option.isSome_iff_exists.1 (hv y (by simp))
    have hle := nodeLe_eq (lt := lt) ha hb
    rw [mergeUnsafeLoop, if_neg hyt, bind_run (getVal_run hb), bind_run (getVal_run ha)]
    by_cases hlt : lt b a = true
    · have hpf' : h.prev f = lastOf s d := hpf.resolve_right fun e => by
        rw [hle, hlt] at e
        cases e
      obtain ⟨c, o', e1, e2, e3, e4⟩ := scanUnsafe_run (lt := lt) (f := f) (by rw [ha]; rfl) hx hto
        (fun e => nz' 0 (by simp [e]) rfl)
        fun i hi => hv i (List.mem_append_right _ (List.mem_cons_of_mem _ hi))
      subst e1
      have hpm : lastOf s d ∈ s :: (d ++ f :: r) := hmA _ (lastOf_mem s d)
      have hqm : lastOf y c ∈ t :: y :: (c ++ o') := by
        have := lastOf_mem y c
        simp only [List.mem_cons, List.mem_append] at this ⊢
        rcases this with h | h
        · exact .inr (.inl h)
        · exact .inr (.inr (.inl h))
      have run : (do
          let n ← getNext y
          let (it, insertLast) ← scanUnsafe lt n t f y
          let p ← getPrev f
          setNext p y
          setNext insertLast f
          pure (f, it) : NodeM α (Nat × Nat)) h
            = some ((f, headOr o' t), (h.sn (lastOf s d) y).sn (lastOf y c) f) := by
        rw [bind_run (getNext_run hy0 h), hx.next_head, bind_run e2]
        dsimp only
        rw [bind_run (getPrev_run hf0 h), hpf', bind_run (setNext_run (nz _ hpm) _ _),
          bind_run (setNext_run (nz' _ hqm) _ _)]
        rfl
      rw [if_pos hlt, bind_run run]
      dsimp only
      rw [if_neg hfs]
      have hc : List.merge (f :: r) (y :: (c ++ o')) (nodeLe lt h)
          = (y :: c) ++ List.merge (f :: r) o' (nodeLe lt h) := by
        rw [← List.cons_append]
        refine merge_prefix fun z hz => ?_
        rcases List.mem_cons.1 hz with rfl | hz
        · rw [hle, hlt]; rfl
        · exact e3 z hz
      have hB' := (List.nodup_cons.1 hB).2
      have hcN : (y :: c).Nodup := hB'.sublist (by simp)
      have hxc : ∃ b, Chain h y c b := by
        cases o' with
        | nil => exact ⟨t, by simpa using hx⟩
        | cons z o3 => exact ⟨z, (chain_append.1 hx).1⟩
      have hcm : ∀ i ∈ y :: c, i ∈ t :: y :: (c ++ o') := by
        intro i hi
        simp only [List.mem_cons, List.mem_append] at hi ⊢
        rcases hi with h | h
        · exact .inr (.inl h)
        · exact .inr (.inr (.inl h))
      have n1 : Chain ((h.sn (lastOf s d) y).sn (lastOf y c) f) s (d ++ (y :: c)) f := by
        rw [chain_append]
        constructor
        · refine hl.relink (hA.sublist (by simp)) (fun i hi hne => ?_) ?_
          · simp only [sn_next]
            rw [if_neg (hAB _ (hmA _ hi) _ hqm), if_neg hne]
          · simp only [sn_next]
            rw [if_neg (hAB _ hpm _ hqm), if_pos trivial]
        · obtain ⟨b', hb'⟩ := hxc
          refine hb'.relink hcN (fun i hi hne => ?_) ?_
          · simp only [sn_next]
            rw [if_neg hne, if_neg (Ne.symm (hAB _ hpm _ (hcm i hi)))]
          · simp only [sn_next]
            rw [if_pos trivial]
      have n2 : Links ((h.sn (lastOf s d) y).sn (lastOf y c) f) f r s := by
        refine hf.congr (fun i hi => ?_) fun _ _ => rfl
        simp only [sn_next]
        rw [if_neg (hAB _ (hmR _ hi) _ hqm), if_neg (Ne.symm (hdR _ (lastOf_mem s d) i hi))]
      cases o' with
      | nil =>
        rw [headOr, mergeUnsafeLoop, if_pos rfl, resetSentinel_run ht0]
        refine ⟨_, rfl, ?_, ?_⟩
        · rw [hc, List.merge_right, ← List.append_assoc, chain_append]
          have hts : ∀ i ∈ s :: (d ++ f :: r), i ≠ t := fun i hi => hAB i hi t (by simp)
          constructor
          · refine n1.congr fun i hi => ?_
            have : i ≠ t := by
              rcases List.mem_append.1 (show i ∈ (s :: d) ++ (y :: c) from hi) with hi | hi
              · exact hts i (hmA i hi)
              · rintro rfl
                exact (List.nodup_cons.1 hB).1 (by simpa using hi)
            simp [this]
          · refine n2.chain.congr fun i hi => ?_
            simp [hts i (hmR i hi)]
        · refine ⟨by simp, by simp, rfl, rfl, fun i hi => by simp [hi], fun i hi => ?_⟩
          have i1 : i ≠ t := fun e => hi (by simp [e])
          have i2 : i ≠ lastOf s d := fun e => hi (List.mem_append_left _ (by rw [e]; exact hpm))
          have i3 : i ≠ lastOf y c := fun e => hi (List.mem_append_right _ (by rw [e]; exact hqm))
          simp [i1, i2, i3]
      | cons z o3 =>
        have hperm : ((s :: (d ++ (y :: c) ++ f :: r)) ++ (t :: z :: o3)).Perm
            ((s :: (d ++ f :: r)) ++ (t :: y :: (c ++ z :: o3))) := by
          simp only [List.cons_append, List.append_assoc]
          refine List.Perm.cons _ (List.Perm.append_left _ ?_)
          refine (List.perm_append_comm_assoc (y :: c) (f :: r) (t :: z :: o3)).trans ?_
          refine List.Perm.cons _ (List.Perm.append_left _ ?_)
          exact List.perm_middle
        have hzq : ∀ i ∈ z :: o3, i ≠ lastOf y c := by
          intro i hi e
          have hh : ((y :: c) ++ z :: o3).Nodup := hB'
          exact (List.nodup_append.1 hh).2.2 _ (lastOf_mem y c) i hi e.symm
        have hzm : ∀ i ∈ z :: o3, i ∈ t :: y :: (c ++ z :: o3) := fun i hi =>
          List.mem_cons_of_mem _ (List.mem_cons_of_mem _ (List.mem_append_right _ hi))
        obtain ⟨h', i1, i2, i3⟩ := ih (h := (h.sn (lastOf s d) y).sn (lastOf y c) f)
          (d := d ++ (y :: c)) (r := r) (o := o3) (f := f) (y := z)
          (by simp only [List.length_append, List.length_cons] at hn; omega) n1 n2
          ((chain_append.1 hx).2.congr fun i hi => by
            simp only [sn_next]
            rw [if_neg (hzq i hi), if_neg (Ne.symm (hAB _ hpm _ (hzm i hi)))])
          (by
            show h.prev t = _
            rw [hpt, lastOf_append])
          (.inr (e4 z o3 rfl)) (hperm.nodup_iff.2 hd) (fun e => h0 (hperm.mem_iff.1 e))
          (fun i hi => hv i (by
            rcases List.mem_append.1 hi with hi | hi
            · exact List.mem_append_left _ hi
            · exact List.mem_append_right _ (List.mem_cons_of_mem _ (List.mem_append_right _ hi))))
        refine ⟨h', i1, ?_, i3.1, i3.2.1, i3.2.2.1, i3.2.2.2.1, i3.2.2.2.2.1, fun i hi => ?_⟩
        · rw [hc, ← List.append_assoc]
          exact i2
        · rw [i3.2.2.2.2.2 i fun e => hi (hperm.mem_iff.1 e)]
          have i2 : i ≠ lastOf s d := fun e => hi (List.mem_append_left _ (by rw [e]; exact hpm))
          have i3 : i ≠ lastOf y c := fun e => hi (List.mem_append_right _ (by rw [e]; exact hqm))
          simp [i2, i3]
    · have hlef : nodeLe lt h f y = true := by
        rw [hle]
        simpa using hlt
      have hc : List.merge (f :: r) (y :: o) (nodeLe lt h)
          = f :: List.merge r (y :: o) (nodeLe lt h) := by
        rw [List.cons_merge_cons, if_pos hlef]
      have run : (do
          let n ← getNext f
          pure (n, y) : NodeM α (Nat × Nat)) h = some ((headOr r s, y), h) := by
        rw [bind_run (getNext_run hf0 h), hf.next_head]
        rfl
      rw [if_neg hlt, bind_run run]
      dsimp only
      cases r with
      | nil =>
        have hqm : lastOf y o ∈ t :: y :: o := List.mem_cons_of_mem _ (lastOf_mem y o)
        have hfm : f ∈ s :: (d ++ [f]) := by simp
        rw [headOr, if_pos rfl, bind_run (getPrev_run hs0 h), show h.prev s = f from hf.2,
          bind_run (setNext_run hf0 _ _), bind_run (getPrev_run ht0 _),
          show (h.sn f y).prev t = lastOf y o from hpt, bind_run (setNext_run (nz' _ hqm) _ _),
          resetSentinel_run ht0]
        refine ⟨_, rfl, ?_, ?_⟩
        · rw [hc, List.nil_merge, chain_append]
          have hts : ∀ i ∈ s :: (d ++ [f]), i ≠ t := fun i hi => hAB i hi t (by simp)
          refine ⟨hl.congr fun i hi => ?_, ?_, ?_⟩
          · simp [hts i (hmA i hi), hdR i hi f (by simp), hAB i (hmA i hi) _ hqm]
          · simp [hts f hfm, hAB f hfm _ hqm]
          · refine hx.relink (List.nodup_cons.1 hB).2 (fun i hi hne => ?_) ?_
            · have : i ≠ t := by rintro rfl; exact (List.nodup_cons.1 hB).1 hi
              simp [this, hne, Ne.symm (hAB f hfm i (hmO i hi))]
            · have : lastOf y o ≠ t := fun e => (List.nodup_cons.1 hB).1 (by
                rw [← e]; exact lastOf_mem y o)
              simp [this]
        · refine ⟨by simp, by simp, rfl, rfl, fun i hi => by simp [hi], fun i hi => ?_⟩
          have i1 : i ≠ t := fun e => hi (by simp [e])
          have i2 : i ≠ f := fun e => hi (by simp [e])
          have i3 : i ≠ lastOf y o := fun e => hi (List.mem_append_right _ (by rw [e]; exact hqm))
          simp [i1, i2, i3]
      | cons g r =>
        have hgs : g ≠ s := by
          rintro rfl
          exact hdR g (by simp) g (by simp) rfl
        have e : d ++ f :: g :: r = (d ++ [f]) ++ g :: r := by simp
        rw [headOr, if_neg hgs]
        obtain ⟨h', i1, i2, i3⟩ := ih (h := h) (d := d ++ [f]) (r := r) (o := o) (f := g) (y := y)
          (by simp only [List.length_cons] at hn; omega) (chain_append.2 ⟨hl, hf.1⟩) hf.2.2 hx hpt
          (.inl (by rw [hf.2.1, lastOf_append]; rfl)) (by rwa [← e]) (by rwa [← e])
          (fun i hi => hv i (by
            rw [List.cons_append]
            exact List.mem_cons_of_mem _ hi))
        refine ⟨h', i1, ?_, ?_⟩
        · rw [hc]
          simpa using i2
        · rw [e]
          exact i3

end NodeList
end CppSort
