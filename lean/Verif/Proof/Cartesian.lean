import Verif.Model.Cartesian
import Verif.Proof.HeapOn
import Verif.Proof.Splay
import Verif.Proof.HeapCost
import Verif.Base.CostFix
import Verif.Proof.DropCost
set_option autoImplicit false

namespace CppSort
variable {α : Type} {lt : α → α → Bool}

/-! ### The priority queue -/

/-- The order of the nodes in the priority queue: greater values are first. -/
def nodeLt (lt : α → α → Bool) (v : Nat → α) (i j : Nat) : Bool := lt (v j) (v i)

theorem nodeLt_sw (hlt : StrictWeak lt) (v : Nat → α) : StrictWeak (nodeLt lt v) where
  irrefl x := hlt.irrefl _
  trans x y z h1 h2 := hlt.trans _ _ _ h2 h1
  equiv_trans x y z h1 h2 := by
    have := hlt.flip.equiv_trans (v x) (v y) (v z) h1 h2
    exact this

theorem nodeCmp_good {v : Nat → α} {c : Nat → Cell α} :
    OnGood (nodeCmp lt c) (nodeLt lt v) (fun i => c i = .val (v i)) := by
  intro i j hi hj
  unfold nodeCmp
  rw [hi, hj]
  rfl

/-- A queue which is a heap. -/
def HeapL (lt : α → α → Bool) (v : Nat → α) (q : List Nat) : Prop :=
  HeapFrom (nodeLt lt v) par2 0 0 q.length (fun i => q.getD i 0)

theorem lst_getD (q : List Nat) : lst (fun i => q.getD i 0) 0 q.length = q := by
  apply List.ext_getElem
  · simp [lst]
  · intro i h1 h2
    simp [lst, h2]

theorem lst_length' (w : Nat → Nat) (n : Nat) : (lst w 0 n).length = n := by simp [lst]

theorem HeapFrom.lst {lt' : Nat → Nat → Bool} {w : Nat → Nat} {n : Nat} (h : HeapFrom lt' par2 0 0 n w) :
    HeapFrom lt' par2 0 0 (CppSort.lst w 0 n).length (fun i => (CppSort.lst w 0 n).getD i 0) := by
  rw [lst_length']
  refine HeapFrom.congr par2_lt h ?_
  intro i _ hi
  simp [CppSort.lst, show i < n by omega]

/-- An operation on the queue. -/
theorem onNodes_upd {base : Nat} {q : List Nat} {m : (Nat → Nat → M Nat Bool) → M Nat Unit} {s : St α}
    {P : (Nat → Nat) → Prop}
    (h : ∀ t : St Nat, Holds t.cell 0 (0 + q.length) (fun i => q.getD i 0) →
      wp (m (nodeCmp lt fun i => s.cell (base + i))) (fun _ t' => ∃ w,
        Upd 0 (0 + q.length) t t' (fun i => q.getD i 0) w ∧ P w) t) :
    wp (onNodes lt base q m) (fun q' s' => (∃ k g, s' = { s with cmps := k, grant := g }) ∧
      q'.Perm q ∧ ∃ w, q' = lst w 0 q.length ∧ P w) s := by
  have hs := localMem_seg q s
  have hh : Holds (localMem q s).cell 0 (0 + q.length) (fun i => q.getD i 0) := by
    intro i h1 h2
    have := hs i (by omega)
    rw [Nat.zero_add] at this
    rw [this]
    simp [show i < q.length by omega]
  obtain ⟨_, t', h1, w, h2, h3⟩ := h _ hh
  have h4 := h2.holds
  have hseg : Seg t'.cell 0 (lst w 0 q.length) := by
    have := h4.seg
    rwa [Nat.zero_add] at this
  have hl : (lst w 0 q.length).length = q.length := lst_length' _ _
  refine ⟨lst w 0 q.length, { s with cmps := t'.cmps, grant := t'.grant }, ?_, ⟨_, _, rfl⟩, ?_, w, rfl, h3⟩
  · unfold onNodes
    have : embed (α := α) q (m (nodeCmp lt fun i => s.cell (base + i))) s =
        some (.ok ((), lst w 0 q.length), { s with cmps := t'.cmps, grant := t'.grant }) := by
      unfold embed
      rw [h1]
      dsimp only
      rw [← hl, readBack_seg hseg, hl]
    exact bind_ok this
  · have := h2.perm.2
    rw [Nat.zero_add, lst_getD] at this
    exact this

/-- The values of the nodes `i` of a queue. -/
def GoodL (v : Nat → α) (base : Nat) (s : St α) (q : List Nat) : Prop := ∀ i ∈ q, s.cell (base + i) = .val (v i)

theorem getD_mem {q : List Nat} {i : Nat} (h : i < q.length) : q.getD i 0 ∈ q := by
  simp [h]

theorem queue_sift (hlt : StrictWeak lt) {v : Nat → α} {base x y : Nat} {tl : List Nat} {s : St α}
    (hp : HeapL lt v (y :: tl)) (hg : GoodL v base s (x :: tl)) :
    wp (onNodes lt base (x :: tl) fun cmp => siftDown cmp 0 (tl.length + 1) 0) (fun q' s' =>
      (∃ k g, s' = { s with cmps := k, grant := g }) ∧ q'.Perm (x :: tl) ∧ HeapL lt v q') s := by
  refine wp_mono (onNodes_upd (P := fun w => HeapFrom (nodeLt lt v) par2 0 0 (tl.length + 1) w) fun t ht => ?_) ?_
  · have hp' : HeapFrom (nodeLt lt v) par2 0 (0 + 1) (tl.length + 1) (fun i => (x :: tl).getD i 0) := by
      intro i h0 h1 h2
      have h3 := hp i h0 h1 (by omega)
      simp only [Nat.zero_add] at h3 ⊢
      obtain ⟨j, rfl⟩ : ∃ j, i = j + 1 := ⟨i - 1, by omega⟩
      obtain ⟨m, hm⟩ : ∃ m, par2 (j + 1) = m + 1 := ⟨par2 (j + 1) - 1, by omega⟩
      rw [hm] at h3 ⊢
      exact h3
    have := siftDown_on (nodeLt_sw hlt v) (nodeCmp_good (c := fun i => s.cell (base + i)))
      (first := 0) (len := tl.length + 1) (k := 0) (l := 0 + (x :: tl).length) (by simp) (s := t)
      (v := fun i => (x :: tl).getD i 0) (by omega) ht hp' ?_
    · refine wp_mono this ?_
      rintro _ t' ⟨w, h1, h2⟩
      refine ⟨w, ?_, h2⟩
      simpa using h1
    · intro i hi
      rw [Nat.zero_add]
      exact hg _ (getD_mem (by simpa using hi))
  · rintro q' s' ⟨h1, h2, w, rfl, h3⟩
    exact ⟨h1, h2, h3.lst⟩

theorem queue_push (hlt : StrictWeak lt) {v : Nat → α} {base x : Nat} {q : List Nat} {s : St α}
    (hp : HeapL lt v q) (hg : GoodL v base s (q ++ [x])) :
    wp (onNodes lt base (q ++ [x]) fun cmp => pushHeap cmp 0 (q.length + 1) (q.length + 1)) (fun q' s' =>
      (∃ k g, s' = { s with cmps := k, grant := g }) ∧ q'.Perm (q ++ [x]) ∧ HeapL lt v q') s := by
  refine wp_mono (onNodes_upd (P := fun w => HeapFrom (nodeLt lt v) par2 0 0 (q.length + 1) w) fun t ht => ?_) ?_
  · have hl : (q ++ [x]).length = q.length + 1 := by simp
    rw [hl] at ht ⊢
    have := pushHeap_on (nodeLt_sw hlt v) (nodeCmp_good (c := fun i => s.cell (base + i)))
      (first := 0) (len := q.length + 1) (p := q.length) (s := t)
      (v := fun i => (q ++ [x]).getD i 0) (by omega) ht ?_ ?_
    · rw [show 0 + q.length + 1 - 0 = q.length + 1 by omega, show 0 + q.length + 1 = q.length + 1 by omega] at this
      exact this
    · constructor
      · intro i h0 h1 h2
        have h3 := hp i h0 (by omega) (by omega)
        have := par2_lt i h0
        simp only [Nat.zero_add] at h3 ⊢
        have e : ∀ k, k < q.length → (q ++ [x]).getD k 0 = q.getD k 0 := fun k hk => by
          rw [List.getD_eq_getElem?_getD, List.getD_eq_getElem?_getD, List.getElem?_append_left hk]
        rw [e _ (by omega), e _ (by omega)]
        exact h3
      · intro _ j j0 jl jp
        have := par2_lt j j0
        omega
    · intro i hi
      rw [Nat.zero_add]
      exact hg _ (getD_mem (by omega))
  · rintro q' s' ⟨h1, h2, w, rfl, h3⟩
    refine ⟨h1, h2, ?_⟩
    have := h3.lst
    rw [← List.length_singleton (a := x), ← List.length_append] at this
    exact this

theorem lst_dropLast (w : Nat → Nat) (n : Nat) : lst w 0 (n + 1) = lst w 0 n ++ [w n] := by
  simp [lst, List.range'_concat]

theorem queue_pop (hlt : StrictWeak lt) {v : Nat → α} {base x : Nat} {tl : List Nat} {s : St α}
    (hp : HeapL lt v (x :: tl)) (hg : GoodL v base s tl) :
    wp (onNodes lt base (x :: tl) fun cmp => popHeap cmp 0 (tl.length + 1) (tl.length + 1)) (fun q' s' =>
      (∃ k g, s' = { s with cmps := k, grant := g }) ∧ q'.dropLast.Perm tl ∧ HeapL lt v q'.dropLast) s := by
  refine wp_mono (onNodes_upd (P := fun w => HeapFrom (nodeLt lt v) par2 0 0 tl.length w ∧ w tl.length = x)
    fun t ht => ?_) ?_
  · have hl : (x :: tl).length = tl.length + 1 := by simp
    rw [hl] at ht ⊢
    by_cases h0 : tl = []
    · subst h0
      unfold popHeap
      rw [if_neg (by simp)]
      exact wp_pure ⟨_, Upd.refl ht, fun i h0 h1 => by simp at h1, rfl⟩
    · have hpos := List.length_pos_of_ne_nil h0
      have := popHeap_on (nodeLt_sw hlt v) (nodeCmp_good (c := fun i => s.cell (base + i)))
        (first := 0) (n := tl.length + 1) (s := t) (v := fun i => (x :: tl).getD i 0) ht hp (by omega) ?_
      · rw [show 0 + (tl.length + 1) = tl.length + 1 by omega] at this ⊢
        refine wp_mono this ?_
        rintro _ t' ⟨w, h1, h2, h3⟩
        refine ⟨w, h1, h2, ?_⟩
        simpa using h3
      · intro i hi hne
        obtain ⟨j, rfl⟩ : ∃ j, i = j + 1 := ⟨i - 1, by omega⟩
        rw [Nat.zero_add]
        exact hg _ (by simp [show j < tl.length by omega])
  · rintro q' s' ⟨h1, h2, w, rfl, h3, h4⟩
    have e : (lst w 0 (x :: tl).length) = lst w 0 tl.length ++ [x] := by
      rw [List.length_cons, lst_dropLast, h4]
    rw [e] at h2 ⊢
    rw [List.dropLast_concat]
    refine ⟨h1, ?_, h3.lst⟩
    exact List.Perm.cons_inv ((List.perm_append_singleton _ _).symm.trans h2)

theorem HeapL.top (hlt : StrictWeak lt) {v : Nat → α} {x : Nat} {tl : List Nat} (h : HeapL lt v (x :: tl)) :
    ∀ y ∈ tl, lt (v y) (v x) = false := by
  intro y hy
  obtain ⟨i, hi, rfl⟩ := List.getElem_of_mem hy
  have := HeapFrom.top par2_lt (nodeLt_sw hlt v) h (i + 1) (by simpa using hi)
  simpa [nodeLt, hi] using this

/-! ### Trees whose nodes are not less than their ancestors -/

/-- The tree `t` hangs at the pointer `p` (links to the children only). -/
def RepD (nd : Nodes) : Option Nat → BT → Prop
  | p, .leaf => p = none
  | p, .node l k r => p = some k ∧ RepD nd (nd (some k)).left l ∧ RepD nd (nd (some k)).right r

theorem RepD.ptr_eq {nd : Nodes} {p : Option Nat} {t : BT} (h : RepD nd p t) : p = t.ptr := by
  cases t with
  | leaf => exact h
  | node l k r => exact h.1

theorem RepD.congr {nd nd' : Nodes} {t : BT} : ∀ {p : Option Nat}, RepD nd p t →
    (∀ k ∈ t.inord, nd' (some k) = nd (some k)) → RepD nd' p t := by
  induction t with
  | leaf => intro p h _; exact h
  | node l k r ihl ihr =>
    intro p h e
    obtain ⟨h1, h3, h4⟩ := h
    have ek := e k (by simp [BT.inord])
    refine ⟨h1, ?_, ?_⟩
    · rw [ek]; exact ihl h3 fun j hj => e j (by simp [BT.inord, hj])
    · rw [ek]; exact ihr h4 fun j hj => e j (by simp [BT.inord, hj])

/-- Every node is not less than its ancestors. -/
def HO (lt : α → α → Bool) (v : Nat → α) : BT → Prop
  | .leaf => True
  | .node l k r => HO lt v l ∧ HO lt v r ∧ (∀ i ∈ l.inord, lt (v i) (v k) = false) ∧
      ∀ i ∈ r.inord, lt (v i) (v k) = false

theorem HO.top (hlt : StrictWeak lt) {v : Nat → α} {l r : BT} {k : Nat} (h : HO lt v (.node l k r)) :
    ∀ i ∈ (BT.node l k r).inord, lt (v i) (v k) = false := by
  intro i hi
  simp only [BT.inord, List.mem_append, List.mem_cons] at hi
  rcases hi with e | rfl | e
  · exact h.2.2.1 i e
  · exact hlt.irrefl _
  · exact h.2.2.2 i e

/-! ### Extraction -/

/-- The root of a tree. -/
def BT.key : BT → Nat
  | .leaf => 0
  | .node _ k _ => k

theorem perm_map_lift {β γ : Type} {f : β → γ} {q l : List γ} (h : q.Perm l) : ∀ ts : List β, l = ts.map f →
    ∃ ts' : List β, ts'.Perm ts ∧ q = ts'.map f := by
  induction h with
  | nil => intro ts h; exact ⟨[], by cases ts <;> simp_all, rfl⟩
  | cons x _ ih =>
    intro ts h
    cases ts with
    | nil => cases h
    | cons t ts =>
      simp only [List.map_cons, List.cons.injEq] at h
      obtain ⟨ts', h1, h2⟩ := ih ts h.2
      exact ⟨t :: ts', h1.cons t, by rw [h2, h.1, List.map_cons]⟩
  | swap x y l =>
    intro ts h
    match ts, h with
    | a :: b :: ts, h =>
      simp only [List.map_cons, List.cons.injEq] at h
      exact ⟨b :: a :: ts, List.Perm.swap _ _ _, by simp [h]⟩
  | trans _ _ ih1 ih2 =>
    intro ts h
    obtain ⟨t1, h1, h2⟩ := ih2 ts h
    obtain ⟨t2, h3, h4⟩ := ih1 t1 h2
    exact ⟨t2, h3.trans h1, h4⟩

/-- The trees of the priority queue. -/
structure Forest (lt : α → α → Bool) (v : Nat → α) (nd : Nodes) (ts : List BT) : Prop where
  rep : ∀ t ∈ ts, RepD nd (some t.key) t
  ho : ∀ t ∈ ts, HO lt v t

/-- All the nodes of the trees. -/
def forestNodes (ts : List BT) : List Nat := ts.flatMap BT.inord

theorem forestNodes_perm {ts ts' : List BT} (h : ts'.Perm ts) : (forestNodes ts').Perm (forestNodes ts) :=
  h.flatMap_right _

theorem Forest.perm {v : Nat → α} {nd : Nodes} {ts ts' : List BT} (h : Forest lt v nd ts) (hp : ts'.Perm ts) :
    Forest lt v nd ts' :=
  ⟨fun t ht => h.rep t (hp.mem_iff.1 ht), fun t ht => h.ho t (hp.mem_iff.1 ht)⟩

theorem Forest.key_mem {v : Nat → α} {nd : Nodes} {ts : List BT} (h : Forest lt v nd ts) {t : BT} (ht : t ∈ ts) :
    t.key ∈ t.inord := by
  have := h.rep t ht
  cases t with
  | leaf => cases this
  | node l k r => simp [BT.key, BT.inord]

theorem OutMem.perm' {v : Nat → α} {f n base : Nat} {s0 s : St α} {O L L' : List Nat}
    (h : OutMem v f n base s0 s O L) (hp : L'.Perm L) : OutMem v f n base s0 s O L' :=
  { h with
    nodes := fun i hi => h.nodes i (hp.mem_iff.1 hi)
    perm := (List.Perm.append_left _ hp).trans h.perm }

/-- Only counters change. -/
theorem OutMem.counts {v : Nat → α} {f n base : Nat} {s0 s : St α} {O L : List Nat}
    (h : OutMem v f n base s0 s O L) {s' : St α} (e : ∃ k g, s' = { s with cmps := k, grant := g }) :
    OutMem v f n base s0 s' O L := by
  obtain ⟨k, g, rfl⟩ := e
  obtain ⟨h1, h2, h3, h4, h5, h6, h7⟩ := h
  exact ⟨h1, h2, h3, h4, h5, h6, h7⟩

theorem counts_trans {s s' s'' : St α} (e : ∃ k g, s' = { s with cmps := k, grant := g })
    (e' : ∃ k g, s'' = { s' with cmps := k, grant := g }) : ∃ k g, s'' = { s with cmps := k, grant := g } := by
  obtain ⟨k, g, rfl⟩ := e
  obtain ⟨k', g', rfl⟩ := e'
  exact ⟨k', g', rfl⟩

theorem GoodL.counts {v : Nat → α} {base : Nat} {s s' : St α} {q : List Nat} (h : GoodL v base s q)
    (e : ∃ k g, s' = { s with cmps := k, grant := g }) : GoodL v base s' q := by
  obtain ⟨k, g, rfl⟩ := e
  exact h

theorem cartNext_spec (hlt : StrictWeak lt) {v : Nat → α} {base : Nat} {nd : Nodes} {l r : BT} {k : Nat}
    {ts : List BT} {s : St α} (hf : Forest lt v nd (.node l k r :: ts)) (hp : HeapL lt v (k :: ts.map BT.key))
    (hg : GoodL v base s (l.inord ++ (r.inord ++ forestNodes ts))) :
    wp (cartNext lt base nd k (ts.map BT.key)) (fun q s' => (∃ k g, s' = { s with cmps := k, grant := g }) ∧
      ∃ ts', Forest lt v nd ts' ∧ q = ts'.map BT.key ∧ HeapL lt v q ∧
        (forestNodes ts').Perm (l.inord ++ (r.inord ++ forestNodes ts))) s := by
  have h1 := hf.rep _ (List.mem_cons_self ..)
  have h2 := hf.ho _ (List.mem_cons_self ..)
  have hts : Forest lt v nd ts := ⟨fun t ht => hf.rep t (by simp [ht]), fun t ht => hf.ho t (by simp [ht])⟩
  have hgt : GoodL v base s (ts.map BT.key) := by
    intro i hi
    obtain ⟨t, ht, rfl⟩ := List.mem_map.1 hi
    refine hg _ ?_
    simp only [List.mem_append, forestNodes, List.mem_flatMap]
    exact .inr (.inr ⟨t, ht, hts.key_mem ht⟩)
  obtain ⟨-, h3, h4⟩ := h1
  change RepD nd (nd (some k)).left l at h3
  change RepD nd (nd (some k)).right r at h4
  have fin : ∀ {q : List Nat} {ts0 : List BT}, Forest lt v nd ts0 → q.Perm (ts0.map BT.key) →
      (forestNodes ts0).Perm (l.inord ++ (r.inord ++ forestNodes ts)) → HeapL lt v q →
      ∃ ts', Forest lt v nd ts' ∧ q = ts'.map BT.key ∧ HeapL lt v q ∧
        (forestNodes ts').Perm (l.inord ++ (r.inord ++ forestNodes ts)) := by
    intro q ts0 a b c d
    obtain ⟨ts', e1, e2⟩ := perm_map_lift b ts0 rfl
    exact ⟨ts', a.perm e1, e2, d, (forestNodes_perm e1).trans c⟩
  have hlen : (ts.map BT.key).length = ts.length := by simp
  unfold cartNext
  cases l with
  | node la i lb =>
    have h3p : (nd (some k)).left = some i := h3.1
    have hfl : Forest lt v nd (.node la i lb :: ts) := by
      constructor
      · intro t ht
        rcases List.mem_cons.1 ht with rfl | ht
        · have := h3; rw [h3p] at this; exact this
        · exact hts.rep t ht
      · intro t ht
        rcases List.mem_cons.1 ht with rfl | ht
        · exact h2.1
        · exact hts.ho t ht
    rw [h3p]
    dsimp only
    apply wp_bind
    refine wp_mono (queue_sift hlt hp ?_) ?_
    · intro j hj
      rcases List.mem_cons.1 hj with rfl | hj
      · exact hg _ (by simp [BT.inord])
      · exact hgt j hj
    rintro q s1 ⟨c1, q1, q2⟩
    cases r with
    | leaf =>
      have h4p : (nd (some k)).right = none := h4
      rw [h4p]
      refine wp_pure ⟨c1, fin hfl q1 ?_ q2⟩
      simp [forestNodes, BT.inord]
    | node ra j rb =>
      have h4p : (nd (some k)).right = some j := h4.1
      rw [h4p]
      dsimp only
      refine wp_mono (queue_push hlt q2 (GoodL.counts ?_ c1)) ?_
      · intro m hm
        rw [List.mem_append, q1.mem_iff, List.mem_cons, List.mem_singleton] at hm
        rcases hm with (rfl | hm) | rfl
        · exact hg _ (by simp [BT.inord])
        · exact hgt m hm
        · exact hg _ (by simp [BT.inord])
      · rintro q' s2 ⟨c2, q3, q4⟩
        refine ⟨counts_trans c1 c2, fin (ts0 := (.node la i lb :: ts) ++ [.node ra j rb]) ?_ ?_ ?_ q4⟩
        · constructor
          · intro t ht
            rcases List.mem_append.1 ht with ht | ht
            · exact hfl.rep t ht
            · rw [List.mem_singleton.1 ht]
              have := h4; rw [h4p] at this; exact this
          · intro t ht
            rcases List.mem_append.1 ht with ht | ht
            · exact hfl.ho t ht
            · rw [List.mem_singleton.1 ht]; exact h2.2.1
        · refine q3.trans ?_
          rw [List.map_append]
          exact q1.append_right _
        · simp only [forestNodes, List.flatMap_append, List.flatMap_cons, List.flatMap_nil, List.append_nil,
            List.append_assoc]
          exact List.Perm.append_left _ List.perm_append_comm
  | leaf =>
    have h3p : (nd (some k)).left = none := h3
    rw [h3p]
    dsimp only
    cases r with
    | node ra j rb =>
      have h4p : (nd (some k)).right = some j := h4.1
      rw [h4p]
      dsimp only
      refine wp_mono (queue_sift hlt hp ?_) ?_
      · intro m hm
        rcases List.mem_cons.1 hm with rfl | hm
        · exact hg _ (by simp [BT.inord])
        · exact hgt m hm
      rintro q s1 ⟨c1, q1, q2⟩
      refine ⟨c1, fin (ts0 := .node ra j rb :: ts) ?_ q1 ?_ q2⟩
      · constructor
        · intro t ht
          rcases List.mem_cons.1 ht with rfl | ht
          · have := h4; rw [h4p] at this; exact this
          · exact hts.rep t ht
        · intro t ht
          rcases List.mem_cons.1 ht with rfl | ht
          · exact h2.2.1
          · exact hts.ho t ht
      · simp [forestNodes, BT.inord]
    | leaf =>
      have h4p : (nd (some k)).right = none := h4
      rw [h4p]
      dsimp only
      apply wp_bind
      refine wp_mono (queue_pop hlt hp hgt) ?_
      rintro q s1 ⟨c1, q1, q2⟩
      refine wp_pure ⟨c1, fin hts q1 ?_ q2⟩
      simp [BT.inord]

theorem readBack_length {β : Type} {c : Nat → Cell β} : ∀ {n : Nat} {ys : List β}, readBack c n = some ys → ys.length = n := by
  intro n
  induction n with
  | zero => intro ys h; cases h; rfl
  | succ n ih =>
    intro ys h
    unfold readBack at h
    split at h
    · rename_i h1 _
      cases h
      rw [List.length_append, ih h1]
      rfl
    · cases h

theorem nodeCmp_unit {N : Nat} (val : Nat → Cell α) : Unit1 N (nodeCmp lt val) := by
  intro i j
  unfold nodeCmp
  split
  · exact Cost.tick rfl
  · intro s r s' _ h; cases h

theorem onNodes_cost {N base : Nat} {q : List Nat} {m : (Nat → Nat → M Nat Bool) → M Nat Unit} {k : Nat}
    (h : ∀ cmp, Unit1 N cmp → Cost N (m cmp) (fun _ c => c ≤ k)) :
    Cost N (onNodes (α := α) lt base q m) (fun r c => r.length = q.length ∧ c ≤ k) := by
  intro s r s' hs hr
  obtain ⟨x, s1, h1, h2⟩ := bind_inv (m := embed q (m (nodeCmp lt fun i => s.cell (base + i)))) hr
  have e : (pure x.2 : M α (List Nat)) s1 = some (.ok x.2, s1) := rfl
  rw [e] at h2
  cases h2
  unfold embed at h1
  split at h1
  · cases h1
  · cases h1
  · rename_i r1 s2 hm
    split at h1
    · rename_i ys hy
      cases h1
      obtain ⟨g, c, g1, g2⟩ := h _ (nodeCmp_unit _) (localMem q s) r1 s2 hs hm
      exact ⟨g, c, g1, readBack_length hy, g2⟩
    · cases h1

theorem cartNext_cost {N base node k : Nat} {nd : Nodes} {rest : List Nat} (h1 : rest.length + 1 < 2 ^ (k + 1))
    (h2 : (nd (some node)).left ≠ none → (nd (some node)).right ≠ none → rest.length + 2 < 2 ^ (k + 1)) :
    Cost N (cartNext (α := α) lt base nd node rest) (fun _ c => c ≤ 3 * k) := by
  unfold cartNext
  split
  · rename_i l hl
    refine (onNodes_cost fun cmp hu => siftDown_cost hu h1).bind fun q c hq => ?_
    split
    · rename_i r hr
      refine (onNodes_cost fun cmp hu => pushHeap_cost (k := k) hu ?_).mono fun _ c' h' => by omega
      have := h2 (by simp [hl]) (by simp [hr])
      simp only [List.length_cons] at hq
      omega
    · exact Cost.pure (by omega)
  · split
    · exact (onNodes_cost fun cmp hu => siftDown_cost hu h1).mono fun _ c' h' => by omega
    · exact (onNodes_cost fun cmp hu => popHeap_cost hu h1).bind fun q c hq => Cost.pure (by omega)

theorem RepD.inord_pos {nd : Nodes} {p : Option Nat} {t : BT} (h : RepD nd p t) (hp : p ≠ none) : 0 < t.inord.length := by
  cases t with
  | leaf => exact absurd h hp
  | node l k r => simp [BT.inord]

theorem Forest.length_le {v : Nat → α} {nd : Nodes} : ∀ {ts : List BT}, Forest lt v nd ts →
    ts.length ≤ (forestNodes ts).length := by
  intro ts
  induction ts with
  | nil => intro _; simp
  | cons t ts ih =>
    intro h
    have h1 := ih ⟨fun t ht => h.rep t (by simp [ht]), fun t ht => h.ho t (by simp [ht])⟩
    have h2 := (h.rep t (by simp)).inord_pos (by simp)
    simp only [forestNodes, List.flatMap_cons, List.length_append, List.length_cons] at h1 ⊢
    omega

theorem cartExtract_spec (hlt : StrictWeak lt) {v : Nat → α} {f n base : Nat} {s0 : St α} (hfb : f + n ≤ base)
    {nd : Nodes} : ∀ (m : Nat) {ts : List BT} {O : List Nat} {s : St α}, (forestNodes ts).length < m →
    Forest lt v nd ts → HeapL lt v (ts.map BT.key) → OutMem v f n base s0 s O (forestNodes ts) →
    SortedBy lt v O → (∀ o ∈ O, ∀ i ∈ forestNodes ts, lt (v i) (v o) = false) →
    wp (cartExtract lt base nd (f + O.length) (ts.map BT.key)) (fun _ s' => (∃ O',
      OutMem v f n base s0 s' O' [] ∧ SortedBy lt v O') ∧
      s'.cmps ≤ s.cmps + (forestNodes ts).length * (3 * n.log2)) s := by
  intro m
  induction m with
  | zero => intro ts O s h; omega
  | succ m ih =>
    intro ts O s hm hf hp ho hso hle
    rw [cartExtract.eq_def]
    cases ts with
    | nil => exact wp_pure ⟨⟨O, ho, hso⟩, by simp⟩
    | cons t ts =>
      cases t with
      | leaf => exact absurd (hf.rep _ (List.mem_cons_self ..)) (by intro h; cases h)
      | node l k r =>
        have hnodes : (k :: (l.inord ++ (r.inord ++ forestNodes ts))).Perm (forestNodes (.node l k r :: ts)) := by
          simp only [forestNodes, List.flatMap_cons, BT.inord, List.append_assoc, List.cons_append]
          exact List.perm_middle.symm
        have hmin : ∀ i ∈ forestNodes (.node l k r :: ts), lt (v i) (v k) = false := by
          intro i hi
          simp only [forestNodes, List.mem_flatMap, List.mem_cons] at hi
          obtain ⟨t, ht, hi⟩ := hi
          rcases ht with rfl | ht
          · exact HO.top hlt (hf.ho _ (List.mem_cons_self ..)) i hi
          · have h1 := hp.top hlt t.key (List.mem_map.2 ⟨t, ht, rfl⟩)
            have h2 := hf.ho t (by simp [ht])
            have h3 := hf.rep t (by simp [ht])
            cases t with
            | leaf => cases hi
            | node a j b => exact hlt.le_trans h1 (HO.top hlt h2 i hi)
        simp only [List.map_cons]
        apply wp_bind
        have ho1 := ho.perm' hnodes
        have hl := hnodes.length_eq
        have hn := ho.perm.length_eq
        rw [List.length_append, List.length_range] at hn
        have hts : Forest lt v nd ts := ⟨fun t ht => hf.rep t (by simp [ht]), fun t ht => hf.ho t (by simp [ht])⟩
        have hll := hts.length_le
        have hcost : Cost 0 (cartNext (α := α) lt base nd k (ts.map BT.key)) (fun _ c => c ≤ 3 * n.log2) := by
          have hlog := @Nat.lt_log2_self n
          simp only [List.length_cons, List.length_append] at hl
          obtain ⟨-, r1, r2⟩ := hf.rep _ (List.mem_cons_self ..)
          refine cartNext_cost (by rw [List.length_map]; omega) fun q1 q2 => ?_
          have := r1.inord_pos q1
          have := r2.inord_pos q2
          rw [List.length_map]
          omega
        refine wp_mono ((splayOut_spec hfb ho1).cost (R := fun _ c => c = 0) ((silent_moveTo _ _).cost fun _ => rfl)) ?_
        rintro _ s1 ⟨ho2, z, hz, rfl⟩
        apply wp_bind
        refine wp_mono ((cartNext_spec hlt hf hp fun i hi => ho2.nodes i hi).cost hcost) ?_
        rintro q s2 ⟨⟨c1, ts', g1, rfl, g3, g4⟩, z, hz', hz''⟩
        have hl' := g4.length_eq
        simp only [List.length_cons] at hl
        have := ih (ts := ts') (O := O ++ [k]) (s := s2) (by omega) g1 g3 ((ho2.counts c1).perm' g4) ?_ ?_
        · rw [List.length_append, List.length_singleton, ← Nat.add_assoc] at this
          refine wp_mono this fun _ s' h => ⟨h.1, ?_⟩
          rw [← hl, Nat.succ_mul, ← hl']
          omega
        · unfold SortedBy
          rw [List.pairwise_append]
          refine ⟨hso, List.pairwise_singleton _ _, fun o h1 i h2 => ?_⟩
          rw [List.mem_singleton.1 h2]
          exact hle o h1 k (hnodes.mem_iff.1 (by simp))
        · intro o h1 i h2
          have h3 : i ∈ forestNodes (.node l k r :: ts) := hnodes.mem_iff.1 (by
            rw [List.mem_cons]; exact .inr (g4.mem_iff.1 h2))
          rcases List.mem_append.1 h1 with h1 | h1
          · exact hle o h1 i h3
          · rw [List.mem_singleton.1 h1]; exact hmin i h3

/-! ### Construction -/

/-- The tree along the right spine, from the bottom (`t`) to the root. -/
def spineTree : List (Nat × BT) → BT → BT
  | [], t => t
  | (j, l) :: sp, t => spineTree sp (.node l j t)

/-- The links along the right spine: `p` is the last node of the spine, `c` its right child. -/
def Spine (nd : Nodes) : Option Nat → Option Nat → List (Nat × BT) → Prop
  | p, _, [] => p = none
  | p, c, (j, l) :: sp => p = some j ∧ RepD nd (nd p).left l ∧ (nd p).right = c ∧ Spine nd (nd p).parent p sp

/-- The nodes of the spine and of the left subtrees. -/
def spineNodes (sp : List (Nat × BT)) : List Nat := sp.flatMap fun x => x.1 :: x.2.inord

/-- The root. -/
def spineRoot : List (Nat × BT) → Option Nat → Option Nat
  | [], p => p
  | (j, _) :: sp, _ => spineRoot sp (some j)

theorem spineTree_nodes : ∀ (sp : List (Nat × BT)) (t : BT),
    (spineTree sp t).inord.Perm (spineNodes sp ++ t.inord) := by
  intro sp
  induction sp with
  | nil => intro t; exact List.Perm.refl _
  | cons x sp ih =>
    intro t
    obtain ⟨j, l⟩ := x
    refine (ih _).trans ?_
    simp only [spineNodes, List.flatMap_cons, BT.inord]
    refine List.perm_append_comm.trans ?_
    rw [List.append_assoc, List.cons_append]
    refine List.perm_middle.trans ?_
    refine List.Perm.cons _ ?_
    refine List.Perm.trans (List.Perm.append_left _ List.perm_append_comm) ?_
    rw [← List.append_assoc]
    exact List.Perm.refl _

theorem spineRoot_mem : ∀ {sp : List (Nat × BT)} {p : Option Nat} {r : Nat}, spineRoot sp p = some r →
    p = some r ∨ r ∈ spineNodes sp := by
  intro sp
  induction sp with
  | nil => intro p r h; exact .inl h
  | cons x sp ih =>
    intro p r h
    rcases ih h with e | e
    · cases e; exact .inr (by simp [spineNodes])
    · refine .inr ?_
      simp only [spineNodes, List.flatMap_cons, List.mem_append] at e ⊢
      exact .inr e

theorem spineRoot_cons (sp : List (Nat × BT)) (x : Nat × BT) (p q : Option Nat) :
    spineRoot (x :: sp) p = spineRoot (x :: sp) q := rfl

theorem RepD.spine {nd : Nodes} : ∀ {sp : List (Nat × BT)} {p c : Option Nat} {t : BT}, Spine nd p c sp →
    RepD nd c t → RepD nd (spineRoot sp c) (spineTree sp t) := by
  intro sp
  induction sp with
  | nil => intro p c t _ h; exact h
  | cons x sp ih =>
    intro p c t h ht
    obtain ⟨j, l⟩ := x
    obtain ⟨rfl, h2, h3, h4⟩ := h
    exact ih h4 ⟨rfl, h2, by rw [h3]; exact ht⟩

theorem Spine.congr {nd nd' : Nodes} : ∀ {sp : List (Nat × BT)} {p c : Option Nat}, Spine nd p c sp →
    (∀ i ∈ spineNodes sp, nd' (some i) = nd (some i)) → Spine nd' p c sp := by
  intro sp
  induction sp with
  | nil => intro p c h _; exact h
  | cons x sp ih =>
    intro p c h e
    obtain ⟨j, l⟩ := x
    obtain ⟨rfl, h2, h3, h4⟩ := h
    have ej := e j (by simp [spineNodes])
    refine ⟨rfl, ?_, by rw [ej]; exact h3, ?_⟩
    · rw [ej]; exact h2.congr fun i hi => e i (by simp [spineNodes, hi])
    · rw [ej]; exact ih h4 fun i hi => e i (by
        simp only [spineNodes, List.flatMap_cons, List.mem_append] at hi ⊢; exact .inr hi)

theorem HO.spine_bottom {v : Nat → α} : ∀ {sp : List (Nat × BT)} {t : BT}, HO lt v (spineTree sp t) →
    HO lt v t ∧ ∀ i ∈ t.inord, ∀ x ∈ sp, lt (v i) (v x.1) = false := by
  intro sp
  induction sp with
  | nil => intro t h; exact ⟨h, fun _ _ _ hx => by cases hx⟩
  | cons x sp ih =>
    intro t h
    obtain ⟨j, l⟩ := x
    obtain ⟨h1, h2⟩ := ih h
    refine ⟨h1.2.1, fun i hi y hy => ?_⟩
    rcases List.mem_cons.1 hy with rfl | hy
    · exact h1.2.2.2 i hi
    · exact h2 i (by simp [BT.inord, hi]) y hy

theorem HO.spine_replace {v : Nat → α} : ∀ {sp : List (Nat × BT)} {t t' : BT}, HO lt v (spineTree sp t) →
    HO lt v t' → (∀ i ∈ t'.inord, i ∈ t.inord ∨ ∀ x ∈ sp, lt (v i) (v x.1) = false) →
    HO lt v (spineTree sp t') := by
  intro sp
  induction sp with
  | nil => intro t t' _ h _; exact h
  | cons x sp ih =>
    intro t t' h ht hi
    obtain ⟨j, l⟩ := x
    obtain ⟨h1, h2⟩ := HO.spine_bottom (sp := sp) h
    refine ih h ⟨h1.1, ht, h1.2.2.1, fun i hi' => ?_⟩ fun i hi' => ?_
    · rcases hi i hi' with e | e
      · exact h1.2.2.2 i e
      · exact e (j, l) (by simp)
    · simp only [BT.inord, List.mem_append, List.mem_cons] at hi' ⊢
      rcases hi' with e | e | e
      · exact .inl (.inl e)
      · exact .inl (.inr (.inl e))
      · rcases hi i e with e | e
        · exact .inl (.inr (.inr e))
        · exact .inr fun x hx => e x (by simp [hx])

theorem cartFindParent_spec (hlt : StrictWeak lt) {v : Nat → α} {base it : Nat} {nd : Nodes} {root : Option Nat}
    {x : α} : ∀ (sp : List (Nat × BT)) {p c : Option Nat} {t : BT} {s : St α}, sp ≠ [] → Spine nd p c sp →
    RepD nd c t → root = spineRoot sp c → (spineNodes sp).Nodup → s.cell it = .val x →
    (∀ i ∈ spineNodes sp, s.cell (base + i) = .val (v i)) → HO lt v (spineTree sp t) →
    (∀ i ∈ t.inord, lt (v i) x = false) →
    wp (cartFindParent lt base nd root it p) (fun q s' => (s'.cell = s.cell ∧ s'.env = s.env) ∧ ∃ sp' t' c',
      s'.cmps + sp'.length ≤ s.cmps + sp.length + 1 ∧ Spine nd q c' sp' ∧ RepD nd c' t' ∧ spineTree sp t = spineTree sp' t' ∧ root = spineRoot sp' c' ∧
      (∀ i ∈ t'.inord, lt (v i) x = false) ∧ (∀ y ∈ sp', lt x (v y.1) = false) ∧
      (spineNodes sp' ++ t'.inord).Perm (spineNodes sp ++ t.inord)) s := by
  intro sp
  induction sp with
  | nil => intro p c t s h; exact absurd rfl h
  | cons y sp ih =>
    intro p c t s _ hsp ht hroot hn hx hv hho hle
    obtain ⟨j, l⟩ := y
    obtain ⟨rfl, h2, h3, h4⟩ := hsp
    have hb := HO.spine_bottom (sp := sp) hho
    rw [cartFindParent.eq_def]
    apply wp_bind
    refine wp_read' hx ?_
    apply wp_bind
    refine wp_read' (hv j (by simp [spineNodes])) ?_
    wtick
    have hrep : RepD nd (some j) (.node l j t) := ⟨rfl, h2, by rw [h3]; exact ht⟩
    have hperm : (spineNodes sp ++ (BT.node l j t).inord).Perm (spineNodes ((j, l) :: sp) ++ t.inord) :=
      (spineTree_nodes sp _).symm.trans (spineTree_nodes ((j, l) :: sp) t)
    split
    · rename_i hc
      have hle' : ∀ i ∈ (BT.node l j t).inord, lt (v i) x = false := by
        intro i hi
        have := HO.top hlt hb.1 i hi
        exact hlt.le_trans (hlt.asymm hc) this
      split
      · rename_i hr
        have hsp0 : sp = [] := by
          cases sp with
          | nil => rfl
          | cons z sp =>
            exfalso
            rw [← hr] at hroot
            have := spineRoot_mem (sp := z :: sp) (p := none) (r := j) hroot.symm
            rcases this with e | e
            · cases e
            · simp only [spineNodes, List.flatMap_cons, List.cons_append, List.nodup_cons] at hn e
              exact hn.1 (by simp only [List.mem_append] at e ⊢; exact .inr e)
        subst hsp0
        refine wp_pure ⟨⟨rfl, rfl⟩, [], .node l j t, some j, by simp, rfl, hrep, rfl, hr.symm, hle', ?_, hperm⟩
        intro y hy; cases hy
      · rename_i hr
        have hsp0 : sp ≠ [] := by
          rintro rfl
          exact hr hroot.symm
        have hn' : (spineNodes sp).Nodup := by
          simp only [spineNodes, List.flatMap_cons] at hn ⊢
          exact (List.nodup_append.1 hn).2.1
        have := ih (p := (nd (some j)).parent) (c := some j) (t := .node l j t)
          (s := { s with cmps := s.cmps + 1 }) hsp0 h4 hrep hroot hn' hx (fun i hi => hv i (by
          simp only [spineNodes, List.flatMap_cons, List.mem_append] at hi ⊢; exact .inr hi)) hho hle'
        refine wp_mono this ?_
        rintro q s' ⟨⟨a1, a2⟩, sp', t', c', b0, b1, b2, b3, b4, b5, b6, b7⟩
        exact ⟨⟨a1, a2⟩, sp', t', c', by simp only [List.length_cons] at b0 ⊢; omega, b1, b2, b3, b4, b5, b6, b7.trans hperm⟩
    · rename_i hc
      have hc : lt x (v j) = false := by simpa using hc
      refine wp_pure ⟨⟨rfl, rfl⟩, (j, l) :: sp, t, c, by dsimp only; omega, ⟨rfl, h2, h3, h4⟩, ht, rfl, hroot, hle, ?_, List.Perm.refl _⟩
      intro y hy
      rcases List.mem_cons.1 hy with rfl | hy
      · exact hc
      · exact hlt.le_trans (hb.2 j (by simp [BT.inord]) y hy) hc

/-- The tree of the first `k` elements. -/
structure CartTree (lt : α → α → Bool) (v : Nat → α) (nd : Nodes) (root : Option Nat) (k : Nat)
    (sp : List (Nat × BT)) : Prop where
  ne : sp ≠ []
  spine : Spine nd (some (k - 1)) none sp
  root : root = spineRoot sp none
  perm : (spineNodes sp).Perm (List.range k)
  ho : HO lt v (spineTree sp .leaf)

theorem cartBuild_spec (hlt : StrictWeak lt) {v : Nat → α} {f n base : Nat} {s0 : St α} (hfb : f + n ≤ base) :
    ∀ (m k : Nat) (nd : Nodes) (root : Option Nat) (s : St α) (sp : List (Nat × BT)), k + m = n → 0 < k →
    CartTree lt v nd root k sp → SplayMem v f n base k s0 s →
    wp (cartBuild lt base nd root (f + k) (f + n) k) (fun r s' => ∃ sp', CartTree lt v r.1 r.2 n sp' ∧
      SplayMem v f n base n s0 s' ∧ s'.cmps + sp'.length ≤ s.cmps + sp.length + 2 * m) s := by
  intro m
  induction m with
  | zero =>
    intro k nd root s sp hk h0 ht hm
    rw [cartBuild, if_neg (by omega)]
    obtain rfl : k = n := by omega
    exact wp_pure ⟨sp, ht, hm, by omega⟩
  | succ m ih =>
    intro k nd root s sp hk h0 ht hm
    rw [cartBuild, if_pos (by omega)]
    apply wp_bind
    have hlt_k : ∀ i ∈ spineNodes sp, i < k := fun i hi => List.mem_range.1 (ht.perm.mem_iff.1 hi)
    refine wp_mono (cartFindParent_spec hlt (v := v) (x := v k) (t := .leaf) sp ht.ne ht.spine rfl ht.root
      (ht.perm.nodup_iff.2 List.nodup_range) (hm.rest k (Nat.le_refl _) (by omega))
      (fun i hi => hm.nodes i (hlt_k i hi)) ht.ho (fun i hi => by cases hi)) ?_
    rintro q s1 ⟨⟨a1, a2⟩, sp', t', c', b0, b1, b2, b3, b4, b5, b6, b7⟩
    apply wp_bind
    refine wp_constructFrom (a := v k) (by rw [a1]; exact hm.rest k (Nat.le_refl _) (by omega))
      (by rw [a1]; exact hm.raw k (Nat.le_refl _) (by omega)) fun s2 d1 d2 d3 _ => ?_
    have hm2 : SplayMem v f n base (k + 1) s0 s2 := by
      obtain ⟨m1, m2, m3, m4, m5, m6⟩ := hm
      constructor
      · intro i hi
        rw [d1]
        by_cases e : i = k
        · rw [e, sc_eq rfl]
        · rw [sc_ne (by omega), sc_ne (by omega), a1]; exact m1 i (by omega)
      · intro i h1 h2; rw [d1, sc_ne (by omega), sc_ne (by omega), a1]; exact m2 i (by omega) h2
      · intro i hi
        rw [d1]
        by_cases e : i = k
        · rw [e, sc_ne (by omega), sc_eq rfl]
        · rw [sc_ne (by omega), sc_ne (by omega), a1]; exact m3 i (by omega)
      · intro i h1 h2; rw [d1, sc_ne (by omega), sc_ne (by omega), a1]; exact m4 i (by omega) h2
      · intro i h1 h2; rw [d1, sc_ne (by omega), sc_ne (by omega), a1]; exact m5 i h1 h2
      · exact (d2.trans a2).trans m6
    simp only [BT.inord, List.append_nil] at b7
    have hk' : ∀ i, i ∈ spineNodes sp' ∨ i ∈ t'.inord → i < k := by
      intro i hi
      exact hlt_k i (b7.mem_iff.1 (List.mem_append.2 hi))
    have hnd : (spineNodes sp' ++ t'.inord).Nodup := b7.nodup_iff.2 (ht.perm.nodup_iff.2 List.nodup_range)
    have hho : HO lt v (spineTree sp' (.node t' k .leaf)) := by
      have h1 := ht.ho
      rw [b3] at h1
      have h2 := HO.spine_bottom h1
      refine HO.spine_replace h1 ⟨h2.1, trivial, b5, fun i hi => by cases hi⟩ fun i hi => ?_
      simp only [BT.inord, List.mem_append, List.mem_cons, List.not_mem_nil, or_false] at hi
      rcases hi with e | rfl
      · exact .inl e
      · exact .inr b6
    have hpm : (spineNodes ((k, t') :: sp')).Perm (List.range (k + 1)) := by
      rw [List.range_succ]
      refine List.Perm.trans ?_ (List.Perm.append_right _ (b7.trans ht.perm))
      simp only [spineNodes, List.flatMap_cons, List.cons_append]
      refine List.Perm.trans ?_ (List.perm_append_singleton _ _).symm
      exact List.Perm.cons _ List.perm_append_comm
    have hkq : q ≠ some k := by
      intro e
      cases sp' with
      | nil => have h : q = none := b1; rw [h] at e; cases e
      | cons y sp' =>
        obtain ⟨rfl, -⟩ := b1
        have hy := Option.some.inj e
        have := hk' y.1 (.inl (by simp [spineNodes]))
        omega
    split
    · rename_i hq
      subst hq
      have hsp0 : sp' = [] := by
        cases sp' with
        | nil => rfl
        | cons y sp' => obtain ⟨h, -⟩ := b1; cases h
      subst hsp0
      have hc : root = c' := b4
      refine wp_mono (ih (k + 1) _ _ s2 [(k, t')] (by omega) (by omega) ⟨by simp, ?_, rfl, hpm, hho⟩ hm2)
        fun r s' ⟨x, y1, y2, y3⟩ => ⟨x, y1, y2, by simp only [List.length_cons] at y3 b0; omega⟩
      rw [Nat.add_sub_cancel]
      refine ⟨rfl, ?_, ?_, ?_⟩
      · rw [Nodes.set_eq]
        dsimp only
        have b2' := b2
        rw [← hc] at b2'
        refine b2'.congr fun i hi => Nodes.set_ne ?_
        have := hk' i (.inr hi)
        intro e; cases e; omega
      · rw [Nodes.set_eq]
      · rw [Nodes.set_eq]; rfl
    · rename_i hq
      cases sp' with
      | nil => exact absurd b1 hq
      | cons y sp' =>
        obtain ⟨j, l⟩ := y
        obtain ⟨rfl, e2, e3, e4⟩ := b1
        have hjk : (some j : Option Nat) ≠ some k := hkq
        have hne : ∀ i, i < k → i ≠ j → ((nd.set (some k) ⟨some j, (nd (some j)).right, none⟩).setRight (some j)
            (some k)) (some i) = nd (some i) := by
          intro i h1 h2
          unfold Nodes.setRight
          rw [Nodes.set_ne (by intro e; cases e; exact h2 rfl), Nodes.set_ne (by intro e; cases e; omega)]
        have hj : ((nd.set (some k) ⟨some j, (nd (some j)).right, none⟩).setRight (some j)
            (some k)) (some j) = ⟨(nd (some j)).parent, (nd (some j)).left, some k⟩ := by
          unfold Nodes.setRight
          rw [Nodes.set_eq, Nodes.set_ne hjk]
        have hkk : ((nd.set (some k) ⟨some j, (nd (some j)).right, none⟩).setRight (some j)
            (some k)) (some k) = ⟨some j, (nd (some j)).right, none⟩ := by
          unfold Nodes.setRight
          rw [Nodes.set_ne hjk.symm, Nodes.set_eq]
        simp only [spineNodes, List.flatMap_cons, List.cons_append, List.nodup_cons, List.append_assoc,
          List.mem_append, not_or] at hnd
        refine wp_mono (ih (k + 1) _ _ s2 ((k, t') :: (j, l) :: sp') (by omega) (by omega)
          ⟨by simp, ?_, b4, hpm, hho⟩ hm2)
          fun r s' ⟨x, y1, y2, y3⟩ => ⟨x, y1, y2, by simp only [List.length_cons] at y3 b0; omega⟩
        refine ⟨rfl, ?_, ?_, ?_⟩
        · change RepD _ (Nodes.setRight _ _ _ (some k)).left _
          rw [hkk]
          dsimp only
          have b2' := b2
          rw [← e3] at b2'
          refine b2'.congr fun i hi => hne i (hk' i (.inr hi)) ?_
          rintro rfl
          exact hnd.1.2.2 hi
        · change (Nodes.setRight _ _ _ (some k)).right = _
          rw [hkk]
        · change Spine _ (Nodes.setRight _ _ _ (some k)).parent _ _
          rw [hkk]
          refine ⟨rfl, ?_, ?_, ?_⟩
          · rw [hj]
            refine e2.congr fun i hi => hne i (hk' i (.inl (by simp [spineNodes, hi]))) ?_
            rintro rfl
            exact hnd.1.1 hi
          · rw [hj]; rfl
          · rw [hj]
            refine e4.congr fun i hi => hne i (hk' i (.inl ?_)) ?_
            · simp only [spineNodes, List.flatMap_cons, List.mem_append] at hi ⊢
              exact .inr hi
            · rintro rfl
              exact hnd.1.2.1 hi

/-! ### The sort -/

theorem cartesianTreeSort_run (hlt : StrictWeak lt) [Inhabited α] (s : St α) (f : Nat) (xs : List α) (hw : s.WF)
    (hs : Seg s.cell f xs) : ∃ s' ys, cartesianTreeSort lt f (f + xs.length) s = some (.ok (), s') ∧
      ys.length = xs.length ∧ Seg s'.cell f ys ∧ (ys.Perm xs ∧ SortedList lt ys) ∧
      (∀ i, i < f ∨ f + xs.length ≤ i → s'.cell i = s.cell i) ∧ s'.WF ∧
      s'.cmps ≤ s.cmps + xs.length * (3 * xs.length.log2 + 2) := by
  by_cases hlen : xs.length < 2
  · refine ⟨s, xs, ?_, rfl, hs, ⟨List.Perm.refl _, ?_⟩, fun _ _ => rfl, hw, by omega⟩
    · simp only [cartesianTreeSort, Nat.add_sub_cancel_left, if_pos hlen]; rfl
    · match xs, hlen with
      | [], _ => exact List.Pairwise.nil
      | [x], _ => exact List.pairwise_singleton _ _
  have hbrk := hs.below hw (by omega)
  obtain ⟨v, hv⟩ : ∃ v : Nat → α, ∀ i (h : i < xs.length), xs[i] = v i :=
    ⟨fun i => xs.getD i default, fun i h => by simp [h]⟩
  have hxs : xs = (List.range xs.length).map v := by
    apply List.ext_getElem (by simp)
    intro i h1 h2
    simp [hv i h1]
  have main : wp (cartesianTreeSort lt f (f + xs.length)) (fun _ s' => ∃ ys, ys.length = xs.length ∧
      Seg s'.cell f ys ∧ (ys.Perm xs ∧ SortedList lt ys) ∧
        (∀ i, i < f ∨ f + xs.length ≤ i → s'.cell i = s.cell i) ∧ s'.WF ∧
        s'.cmps ≤ s.cmps + xs.length * (3 * xs.length.log2 + 2)) s := by
    simp only [cartesianTreeSort, Nat.add_sub_cancel_left, if_neg hlen]
    apply wp_bind
    refine wp_alloc fun s1 b1 b2 b3 _ b5 _ => ?_
    apply wp_bind
    have hcell : ∀ i, i < xs.length → s1.cell (f + i) = .val (v i) := fun i hi => by
      rw [b2 _ (by omega), hs i hi, hv i hi]
    refine wp_constructFrom (a := v 0) (hcell 0 (by omega)) (b1 _ (by omega) (by omega)) fun s2 d1 d2 d3 _ => ?_
    apply wp_bind
    have hmem : SplayMem v f xs.length s.brk 1 s1 s2 := by
      constructor
      · intro i hi
        obtain rfl : i = 0 := by omega
        rw [d1, Nat.add_zero, sc_eq rfl]
      · intro i h1 h2; rw [d1, sc_ne (by omega), sc_ne (by omega)]; exact b1 _ (by omega) (by omega)
      · intro i hi
        obtain rfl : i = 0 := by omega
        rw [d1, Nat.add_zero, sc_ne (by omega), sc_eq rfl]
      · intro i h1 h2; rw [d1, sc_ne (by omega), sc_ne (by omega)]; exact hcell i h2
      · intro i h1 h2; rw [d1, sc_ne (by omega), sc_ne (by omega)]
      · exact d2
    have htree : CartTree lt v (Nodes.empty.set (some 0) ⟨none, none, none⟩) (some 0) 1 [(0, .leaf)] := by
      refine ⟨by simp, ⟨rfl, rfl, rfl, rfl⟩, rfl, List.Perm.refl _, trivial, trivial, ?_, ?_⟩
      · intro i hi; cases hi
      · intro i hi; cases hi
    refine wp_mono (cartBuild_spec hlt hbrk (xs.length - 1) 1 _ _ s2 _ (by omega) (by omega) htree hmem) ?_
    rintro ⟨nd, root⟩ s3 ⟨sp, ht, hm, hcb⟩
    dsimp only at ht ⊢
    have hrep := RepD.spine ht.spine (t := .leaf) rfl
    have hroot := ht.root
    rw [← hroot] at hrep
    have hnodes : (spineTree sp .leaf).inord.Perm (List.range xs.length) := by
      refine (spineTree_nodes sp .leaf).trans ?_
      rw [BT.inord, List.append_nil]
      exact ht.perm
    have hho := ht.ho
    generalize spineTree sp .leaf = t at hrep hnodes hho
    cases t with
    | leaf =>
      have := hnodes.length_eq
      simp [BT.inord] at this
      omega
    | node l r0 r =>
      have e := hrep.1
      subst e
      dsimp only
      apply wp_bind
      have := cartExtract_spec hlt (v := v) (f := f) (n := xs.length) (base := s.brk) (s0 := s1) (s := s3) hbrk (nd := nd)
        _ (ts := [.node l r0 r]) (O := []) (Nat.lt_succ_self _) ⟨?_, ?_⟩ ?_ ?_ List.Pairwise.nil ?_
      · refine wp_mono this ?_
        rintro _ s4 ⟨⟨I, ho, hso⟩, hce⟩
        apply wp_bind
        refine wp_mono (destroyN_spec xs.length s.brk s4 fun k h1 h2 => ?_) ?_
        · have := ho.nlive (k - s.brk) (by omega)
          rwa [show s.brk + (k - s.brk) = k by omega] at this
        · rintro _ s5 ⟨e1, e2, e3, e4, _⟩
          refine wp_free e1 fun s6 c1 c2 c3 c4 _ => ?_
          have t3 := ho.perm
          rw [List.append_nil] at t3
          have hlI : I.length = xs.length := by rw [t3.length_eq, List.length_range]
          refine ⟨I.map v, by rw [List.length_map, hlI], ?_, ⟨?_, ?_⟩, fun i hi => ?_, fun i hi => ?_, ?_⟩
          · refine ho.seg.congr fun i h1 h2 => ?_
            rw [List.length_map, hlI] at h2
            rw [c2 i (by omega), e2 i (by omega)]
          · rw [hxs]; simpa using t3.map v
          · exact List.pairwise_map.2 hso
          · by_cases hb : s.brk ≤ i ∧ i < s.brk + xs.length
            · rw [c1 i hb.1 hb.2, hw i hb.1]
            · rw [c2 i (by omega), e2 i (by omega), ho.out i hi (by omega), b2 i (by omega)]
          · have hb : s6.brk = s.brk + xs.length := by
              rw [← b3]
              exact (St.env_brk (c3.trans e3)).trans ho.brk
            rw [hb] at hi
            rw [c2 i (by omega), e2 i (by omega), ho.out i (by omega) (by omega), b2 i (by omega)]
            exact hw i (by omega)
          · have hfn : (forestNodes [.node l r0 r]).length = xs.length := by
              have e : forestNodes [.node l r0 r] = (BT.node l r0 r).inord := by simp [forestNodes]
              rw [e, hnodes.length_eq, List.length_range]
            rw [hfn] at hce
            simp only [List.length_cons, List.length_nil] at hcb
            rw [Nat.mul_add]
            omega
      · intro t ht
        rw [List.mem_singleton.1 ht]; exact hrep
      · intro t ht
        rw [List.mem_singleton.1 ht]; exact hho
      · intro i h0 h1
        simp at h1
        omega
      · have e : forestNodes [.node l r0 r] = (BT.node l r0 r).inord := by simp [forestNodes]
        rw [e]
        refine ⟨Seg.nil, fun i hi => .inl (hm.moved i hi), fun i hi => ?_, fun i hi => .of_val (hm.nodes i hi),
          hm.out, St.env_brk hm.env, hnodes⟩
        exact hm.nodes i (List.mem_range.1 (hnodes.mem_iff.1 hi))
      · intro o ho; cases ho
  obtain ⟨_, s', h1, ys, h2, h3, h4, h5, h6⟩ := main
  exact ⟨s', ys, h1, h2, h3, h4, h5, h6⟩

theorem cartesianTreeSort_sorts (hlt : StrictWeak lt) [Inhabited α] : Sorts lt (cartesianTreeSort lt) := by
  intro s f xs hw hs
  obtain ⟨s', ys, h1, h2, h3, h4, h5, h6, -⟩ := cartesianTreeSort_run hlt s f xs hw hs
  exact ⟨s', ys, h1, h2, h3, h4, h5, h6⟩

end CppSort
