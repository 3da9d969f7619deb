import Verif.Model.NodeList
/-
Invariants of the doubly linked lists of detail/fixed_size_list.h.
-/
set_option autoImplicit false

namespace CppSort
namespace NodeList
variable {α : Type}

/-! ### Running programs -/

def Nodes.sn (h : Nodes α) (p q : Nat) : Nodes α :=
  { h with next := fun i => if i = p then q else h.next i }

def Nodes.sp (h : Nodes α) (p q : Nat) : Nodes α :=
  { h with prev := fun i => if i = p then q else h.prev i }

def Nodes.sf (h : Nodes α) (p : Nat) : Nodes α := { h with free := p }

def Nodes.sv (h : Nodes α) (p : Nat) (v : Option α) : Nodes α :=
  { h with val := fun i => if i = p then v else h.val i }

@[simp] theorem sn_next (h : Nodes α) (p q i : Nat) :
    (h.sn p q).next i = if i = p then q else h.next i := rfl
@[simp] theorem sn_prev (h : Nodes α) (p q : Nat) : (h.sn p q).prev = h.prev := rfl
@[simp] theorem sn_val (h : Nodes α) (p q : Nat) : (h.sn p q).val = h.val := rfl
@[simp] theorem sn_free (h : Nodes α) (p q : Nat) : (h.sn p q).free = h.free := rfl
@[simp] theorem sp_next (h : Nodes α) (p q : Nat) : (h.sp p q).next = h.next := rfl
@[simp] theorem sp_prev (h : Nodes α) (p q i : Nat) :
    (h.sp p q).prev i = if i = p then q else h.prev i := rfl
@[simp] theorem sp_val (h : Nodes α) (p q : Nat) : (h.sp p q).val = h.val := rfl
@[simp] theorem sp_free (h : Nodes α) (p q : Nat) : (h.sp p q).free = h.free := rfl
@[simp] theorem sf_next (h : Nodes α) (p : Nat) : (h.sf p).next = h.next := rfl
@[simp] theorem sf_prev (h : Nodes α) (p : Nat) : (h.sf p).prev = h.prev := rfl
@[simp] theorem sf_val (h : Nodes α) (p : Nat) : (h.sf p).val = h.val := rfl
@[simp] theorem sf_free (h : Nodes α) (p : Nat) : (h.sf p).free = p := rfl
@[simp] theorem sv_next (h : Nodes α) (p : Nat) (v : Option α) : (h.sv p v).next = h.next := rfl
@[simp] theorem sv_prev (h : Nodes α) (p : Nat) (v : Option α) : (h.sv p v).prev = h.prev := rfl
@[simp] theorem sv_val (h : Nodes α) (p : Nat) (v : Option α) (i : Nat) :
    (h.sv p v).val i = if i = p then v else h.val i := rfl
@[simp] theorem sv_free (h : Nodes α) (p : Nat) (v : Option α) : (h.sv p v).free = h.free := rfl

theorem bind_run {β γ : Type} {m : NodeM α β} {k : β → NodeM α γ} {h h' : Nodes α} {x : β}
    (e : m h = some (x, h')) : (m >>= k) h = k x h' := by
  show (m h).bind (fun p => k p.1 p.2) = _
  rw [e]
  rfl

theorem pure_run {β : Type} (x : β) (h : Nodes α) : (pure x : NodeM α β) h = some (x, h) := rfl

theorem getNext_run {p : Nat} (h0 : p ≠ 0) (h : Nodes α) : getNext p h = some (h.next p, h) :=
  if_neg h0
theorem getPrev_run {p : Nat} (h0 : p ≠ 0) (h : Nodes α) : getPrev p h = some (h.prev p, h) :=
  if_neg h0
theorem setNext_run {p : Nat} (h0 : p ≠ 0) (q : Nat) (h : Nodes α) :
    setNext p q h = some ((), h.sn p q) := if_neg h0
theorem setPrev_run {p : Nat} (h0 : p ≠ 0) (q : Nat) (h : Nodes α) :
    setPrev p q h = some ((), h.sp p q) := if_neg h0
theorem getFree_run (h : Nodes α) : getFree h = some (h.free, h) := rfl
theorem setFree_run (p : Nat) (h : Nodes α) : setFree p h = some ((), h.sf p) := rfl
theorem assert_run {b : Bool} (hb : b = true) (h : Nodes α) : assert b h = some ((), h) := if_pos hb
theorem getVal_run {h : Nodes α} {p : Nat} {v : α} (e : h.val p = some v) :
    getVal p h = some (v, h) := by
  rw [getVal, e]
  rfl
theorem construct_run {h : Nodes α} {p : Nat} (h0 : p ≠ 0) (e : h.val p = none) (v : α) :
    construct p v h = some ((), h.sv p (some v)) := by
  rw [construct, if_neg (by rw [e]; simp [h0])]
  rfl
theorem destroy_run {h : Nodes α} {p : Nat} {v : α} (e : h.val p = some v) :
    destroy p h = some ((), h.sv p none) := by
  rw [destroy, e]
  rfl

/-! ### Linked segments -/

/-- The nodes of `l` are linked both ways between `a` and `b`. -/
def Links (h : Nodes α) : Nat → List Nat → Nat → Prop
  | a, [], b => h.next a = b ∧ h.prev b = a
  | a, x :: l, b => h.next a = x ∧ h.prev x = a ∧ Links h x l b

/-- The last node of `a :: l`. -/
def lastOf : Nat → List Nat → Nat
  | a, [] => a
  | _, x :: l => lastOf x l

theorem lastOf_mem : ∀ (a : Nat) (l : List Nat), lastOf a l ∈ a :: l
  | a, [] => by simp [lastOf]
  | a, x :: l => List.mem_cons_of_mem _ (lastOf_mem x l)

theorem lastOf_append (a : Nat) (m : List Nat) : ∀ (b : Nat) (l : List Nat),
    lastOf b (l ++ a :: m) = lastOf a m
  | _, [] => rfl
  | _, y :: l => lastOf_append a m y l

theorem links_append {h : Nodes α} {x b : Nat} {l2 : List Nat} : ∀ {a : Nat} {l1 : List Nat},
    Links h a (l1 ++ x :: l2) b ↔ Links h a l1 x ∧ Links h x l2 b
  | a, [] => by simp [Links, and_assoc]
  | a, y :: l1 => by
      show _ ∧ _ ∧ Links h y (l1 ++ x :: l2) b ↔ (_ ∧ _ ∧ Links h y l1 x) ∧ _
      rw [links_append]
      exact ⟨fun ⟨a, b, c, d⟩ => ⟨⟨a, b, c⟩, d⟩, fun ⟨⟨a, b, c⟩, d⟩ => ⟨a, b, c, d⟩⟩

theorem Links.congr {h h' : Nodes α} {b : Nat} : ∀ {a : Nat} {l : List Nat}, Links h a l b →
    (∀ i ∈ a :: l, h'.next i = h.next i) → (∀ i ∈ l ++ [b], h'.prev i = h.prev i) → Links h' a l b
  | a, [], hl, hn, hp => ⟨by rw [hn a (by simp)]; exact hl.1, by rw [hp b (by simp)]; exact hl.2⟩
  | a, x :: l, ⟨h1, h2, h3⟩, hn, hp =>
      ⟨by rw [hn a (by simp)]; exact h1, by rw [hp x (by simp)]; exact h2,
        h3.congr (fun i hi => hn i (List.mem_cons_of_mem _ hi))
          (fun i hi => hp i (by rw [List.cons_append]; exact List.mem_cons_of_mem _ hi))⟩

/-- The two ends of the last link. -/
theorem Links.last {h : Nodes α} {b : Nat} : ∀ {a : Nat} {l : List Nat}, Links h a l b →
    h.prev b = lastOf a l ∧ h.next (lastOf a l) = b
  | _, [], hl => ⟨hl.2, hl.1⟩
  | _, _ :: _, ⟨_, _, h3⟩ => h3.last

/-- The last link of a segment is replaced. -/
theorem Links.relink {h h' : Nodes α} {b x : Nat} : ∀ {a : Nat} {l : List Nat}, Links h a l b →
    (a :: l).Nodup →
    (∀ i ∈ a :: l, i ≠ lastOf a l → h'.next i = h.next i) → (∀ i ∈ l, h'.prev i = h.prev i) →
    h'.next (lastOf a l) = x → h'.prev x = lastOf a l → Links h' a l x
  | a, [], _, _, _, _, h1, h2 => ⟨h1, h2⟩
  | a, y :: l, ⟨h1, h2, h3⟩, hd, hn, hp, e1, e2 => by
      have hne : a ≠ lastOf y l := fun e => by
        have := lastOf_mem y l
        rw [← e] at this
        exact (List.nodup_cons.1 hd).1 this
      refine ⟨by rw [hn a (by simp) hne]; exact h1, by rw [hp y (by simp)]; exact h2, ?_⟩
      exact h3.relink (List.nodup_cons.1 hd).2 (fun i hi => hn i (List.mem_cons_of_mem _ hi))
        (fun i hi => hp i (List.mem_cons_of_mem _ hi)) e1 e2

/-- The first node of `l`, or `s`. -/
def headOr : List Nat → Nat → Nat
  | [], s => s
  | x :: _, _ => x

theorem Links.next_head {h : Nodes α} {a b : Nat} : ∀ {l : List Nat}, Links h a l b →
    h.next a = headOr l b
  | [], hl => hl.1
  | _ :: _, hl => hl.1

/-- A segment starting at a node. -/
theorem links_cut {h : Nodes α} {s : Nat} {a : Nat} {l1 l2 : List Nat} :
    Links h a (l1 ++ l2) s → Links h a l1 (headOr l2 s) := by
  cases l2 with
  | nil => rw [List.append_nil]; exact id
  | cons x l2 => exact fun hl => (links_append.1 hl).1

/-- Agreement of two states outside of a list of addresses. -/
def SameOff (h h' : Nodes α) (ns : List Nat) : Prop :=
  ∀ i, i ∉ ns → h'.next i = h.next i ∧ h'.prev i = h.prev i

theorem SameOff.refl (h : Nodes α) (ns : List Nat) : SameOff h h ns := fun _ _ => ⟨rfl, rfl⟩

theorem SameOff.trans {h h' h'' : Nodes α} {ns : List Nat} (h1 : SameOff h h' ns)
    (h2 : SameOff h' h'' ns) : SameOff h h'' ns := fun i hi =>
  ⟨(h2 i hi).1.trans (h1 i hi).1, (h2 i hi).2.trans (h1 i hi).2⟩

theorem SameOff.mono {h h' : Nodes α} {ns ms : List Nat} (h1 : SameOff h h' ns)
    (hm : ∀ i ∈ ns, i ∈ ms) : SameOff h h' ms := fun i hi => h1 i fun hi' => hi (hm i hi')

theorem Links.off {h h' : Nodes α} {ns : List Nat} (ho : SameOff h h' ns) {a b : Nat} {l : List Nat}
    (hl : Links h a l b) (hd : ∀ i ∈ a :: l ++ [b], i ∉ ns) : Links h' a l b :=
  hl.congr (fun i hi => (ho i (hd i (by simp only [List.mem_append]; exact .inl hi))).1)
    fun i hi => (ho i (hd i (by
      simp only [List.mem_append, List.mem_cons] at hi ⊢
      rcases hi with hi | hi
      · exact .inl (.inr hi)
      · exact .inr hi))).2

/-! ### fast_splice_ -/

theorem fastSplice_run {h : Nodes α} {pos first last : Nat} (h1 : pos ≠ 0) (h2 : first ≠ 0)
    (h3 : last ≠ 0) (h4 : h.prev pos ≠ 0) (h5 : h.prev last ≠ 0) (hne : first ≠ last) :
    fastSplice pos first last h = some ((), (((h.sn (h.prev pos) first).sp first (h.prev pos)).sp pos
      (h.prev last)).sn (h.prev last) pos) := by
  have e : ((((h.sn (h.prev pos) first).sp first (h.prev pos)).sp pos (h.prev last)).prev last)
      = h.prev last := by
    simp only [sp_prev, sn_prev]
    split
    · rfl
    · rw [if_neg (Ne.symm hne)]
  have e2 : ((h.sn (h.prev pos) first).sp first (h.prev pos)).prev last = h.prev last := by
    simp only [sp_prev, sn_prev]
    rw [if_neg (Ne.symm hne)]
  rw [fastSplice, bind_run (assert_run (by simpa using hne) h), bind_run (getPrev_run h1 h),
    bind_run (setNext_run h4 first h), bind_run (getPrev_run h1 _), bind_run (setPrev_run h2 _ _),
    bind_run (getPrev_run h3 _)]
  show (setPrev pos (((h.sn (h.prev pos) first).sp first (h.prev pos)).prev last) >>= _) _ = _
  rw [e2, bind_run (setPrev_run h1 _ _), bind_run (getPrev_run h3 _)]
  show setNext ((((h.sn (h.prev pos) first).sp first (h.prev pos)).sp pos (h.prev last)).prev last)
    pos _ = _
  rw [e, setNext_run h5]
  rfl

theorem headOr_mem (l : List Nat) (s : Nat) : headOr l s ∈ l ++ [s] := by
  cases l <;> simp [headOr]

/-- `fast_splice_` moves the segment `x :: c` of a list before the node at the head of `r`. -/
theorem fastSplice_links {h : Nodes α} {s t x : Nat} {d r c o : List Nat}
    (hl : Links h s (d ++ r) s) (hx : Links h x (c ++ o) t)
    (hd : ((s :: (d ++ r)) ++ (t :: x :: (c ++ o))).Nodup)
    (h0 : 0 ∉ (s :: (d ++ r)) ++ (t :: x :: (c ++ o))) :
    ∃ h', fastSplice (headOr r s) x (headOr o t) h = some ((), h') ∧
      Links h' s (d ++ (x :: c) ++ r) s ∧ (∀ y o', o = y :: o' → Links h' y o' t) ∧
      h'.val = h.val ∧ h'.free = h.free ∧ SameOff h h' ((s :: (d ++ r)) ++ (x :: c)) := by
  have hA : (s :: (d ++ r)).Nodup := (List.nodup_append.1 hd).1
  have hB : (t :: x :: (c ++ o)).Nodup := (List.nodup_append.1 hd).2.1
  have hAB := (List.nodup_append.1 hd).2.2
  have hB' := (List.nodup_cons.1 hB).2
  have hcut := links_cut hl
  have hcutx := links_cut hx
  have hp := hcut.last
  have hq := hcutx.last
  have hpm : lastOf s d ∈ s :: (d ++ r) := by
    have := lastOf_mem s d
    simp only [List.mem_cons, List.mem_append] at this ⊢
    rcases this with h | h
    · exact .inl h
    · exact .inr (.inl h)
  have hqm : lastOf x c ∈ t :: x :: (c ++ o) := by
    have := lastOf_mem x c
    simp only [List.mem_cons, List.mem_append] at this ⊢
    rcases this with h | h
    · exact .inr (.inl h)
    · exact .inr (.inr (.inl h))
  have hposm : headOr r s ∈ s :: (d ++ r) := by
    have := headOr_mem r s
    simp only [List.mem_cons, List.mem_append, List.not_mem_nil, or_false] at this ⊢
    rcases this with h | h
    · exact .inr (.inr h)
    · exact .inl h
  have hlastm : headOr o t ∈ t :: (c ++ o) := by
    have := headOr_mem o t
    simp only [List.mem_cons, List.mem_append, List.not_mem_nil, or_false] at this ⊢
    rcases this with h | h
    · exact .inr (.inr h)
    · exact .inl h
  have hxlast : x ≠ headOr o t := by
    intro e
    rw [← e] at hlastm
    rcases List.mem_cons.1 hlastm with h1 | h1
    · exact (List.nodup_cons.1 hB).1 (by rw [← h1]; simp)
    · exact (List.nodup_cons.1 hB').1 h1
  have nz : ∀ i ∈ s :: (d ++ r), i ≠ 0 := fun i hi e => h0 (by
    rw [← e]; exact List.mem_append_left _ hi)
  have nz' : ∀ i ∈ t :: x :: (c ++ o), i ≠ 0 := fun i hi e => h0 (by
    rw [← e]; exact List.mem_append_right _ hi)
  have hxm : x ∈ t :: x :: (c ++ o) := by simp
  have hpq : lastOf s d ≠ lastOf x c := hAB _ hpm _ hqm
  have hposx : headOr r s ≠ x := hAB _ hposm _ hxm
  refine ⟨_, fastSplice_run (nz _ hposm) (nz' _ hxm) (nz' _ (by
      rcases List.mem_cons.1 hlastm with h1 | h1
      · rw [h1]; simp
      · exact List.mem_cons_of_mem _ (List.mem_cons_of_mem _ h1)))
    (by rw [hp.1]; exact nz _ hpm) (by rw [hq.1]; exact nz' _ hqm) hxlast, ?_, ?_, rfl, rfl, ?_⟩
  · rw [hp.1, hq.1]
    rw [List.append_assoc, List.cons_append, links_append]
    constructor
    · refine hcut.relink ?_ ?_ ?_ ?_ ?_
      · exact hA.sublist (by simp)
      · intro i hi hne
        have hi' : i ∈ s :: (d ++ r) := by
          simp only [List.mem_cons, List.mem_append] at hi ⊢
          rcases hi with h | h
          · exact .inl h
          · exact .inr (.inl h)
        simp only [sn_next, sp_next]
        rw [if_neg (hAB _ hi' _ hqm), if_neg hne]
      · intro i hi
        have hi' : i ∈ s :: (d ++ r) := by
          simp only [List.mem_cons, List.mem_append]; exact .inr (.inl hi)
        simp only [sn_prev, sp_prev]
        rw [if_neg, if_neg (hAB _ hi' _ hxm)]
        intro e
        have h1 := headOr_mem r s
        rw [← e, List.mem_append, List.mem_singleton] at h1
        rcases h1 with h1 | h1
        · exact (List.nodup_append.1 (List.nodup_cons.1 hA).2).2.2 i hi i h1 rfl
        · exact (List.nodup_cons.1 hA).1 (by rw [← h1]; exact List.mem_append_left _ hi)
      · simp only [sn_next, sp_next]
        rw [if_neg hpq, if_pos trivial]
      · simp only [sn_prev, sp_prev]
        rw [if_neg (Ne.symm hposx), if_pos trivial]
    · have hmid : ∀ b, b = headOr r s → Links (((((h.sn (lastOf s d) x).sp x (lastOf s d)).sp
          (headOr r s) (lastOf x c)).sn (lastOf x c) (headOr r s))) x c b := by
        rintro b rfl
        refine hcutx.relink ?_ ?_ ?_ ?_ ?_
        · exact hB'.sublist (by simp)
        · intro i hi hne
          have hi' : i ∈ t :: x :: (c ++ o) := by
            simp only [List.mem_cons, List.mem_append] at hi ⊢
            rcases hi with h | h
            · exact .inr (.inl h)
            · exact .inr (.inr (.inl h))
          simp only [sn_next, sp_next]
          rw [if_neg hne, if_neg (Ne.symm (hAB _ hpm _ hi'))]
        · intro i hi
          have hi' : i ∈ t :: x :: (c ++ o) := by
            simp only [List.mem_cons, List.mem_append]; exact .inr (.inr (.inl hi))
          simp only [sn_prev, sp_prev]
          rw [if_neg (Ne.symm (hAB _ hposm _ hi')), if_neg]
          rintro rfl
          exact (List.nodup_cons.1 hB').1 (List.mem_append_left _ hi)
        · simp only [sn_next, if_pos]
        · simp only [sn_prev, sp_prev, if_pos]
      cases r with
      | nil => rw [List.append_nil]; exact hmid _ rfl
      | cons f r =>
        rw [links_append]
        refine ⟨hmid _ rfl, (links_append.1 hl).2.congr ?_ ?_⟩
        · intro i hi
          have hi' : i ∈ s :: (d ++ f :: r) := by
            exact List.mem_cons_of_mem _ (List.mem_append_right _ hi)
          simp only [sn_next, sp_next]
          rw [if_neg (hAB _ hi' _ hqm), if_neg]
          rintro rfl
          have h1 := lastOf_mem s d
          rcases List.mem_cons.1 h1 with h1 | h1
          · exact (List.nodup_cons.1 hA).1 (by rw [← h1]; exact List.mem_append_right _ hi)
          · exact (List.nodup_append.1 (List.nodup_cons.1 hA).2).2.2 _ h1 _ hi rfl
        · intro i hi
          have hi' : i ∈ s :: (d ++ f :: r) := by
            simp only [List.mem_cons, List.mem_append, List.not_mem_nil, or_false] at hi ⊢
            rcases hi with h | h
            · exact .inr (.inr (.inr h))
            · exact .inl h
          simp only [sn_prev, sp_prev, headOr]
          rw [if_neg, if_neg (hAB _ hi' _ hxm)]
          rintro rfl
          simp only [List.mem_append, List.mem_singleton] at hi
          rcases hi with h1 | h1
          · exact (List.nodup_cons.1 (List.nodup_append.1 (List.nodup_cons.1 hA).2).2.1).1 h1
          · exact (List.nodup_cons.1 hA).1 (by rw [← h1]; simp)
  · rintro y o' rfl
    refine (links_append.1 hx).2.congr ?_ ?_
    · intro i hi
      have hi' : i ∈ t :: x :: (c ++ y :: o') :=
        List.mem_cons_of_mem _ (List.mem_cons_of_mem _ (List.mem_append_right _ hi))
      simp only [sn_next, sp_next]
      rw [hp.1, hq.1, if_neg, if_neg (Ne.symm (hAB _ hpm _ hi'))]
      intro e
      have h1 := lastOf_mem x c
      rw [← e] at h1
      rcases List.mem_cons.1 h1 with h1 | h1
      · exact (List.nodup_cons.1 hB').1 (by rw [← h1]; exact List.mem_append_right _ hi)
      · exact (List.nodup_append.1 (List.nodup_cons.1 hB').2).2.2 _ h1 _ hi rfl
    · intro i hi
      have hi' : i ∈ t :: x :: (c ++ y :: o') := by
        simp only [List.mem_cons, List.mem_append, List.not_mem_nil, or_false] at hi ⊢
        rcases hi with h | h
        · exact .inr (.inr (.inr (.inr h)))
        · exact .inl h
      simp only [sn_prev, sp_prev]
      rw [if_neg (Ne.symm (hAB _ hposm _ hi')), if_neg]
      rintro rfl
      simp only [List.mem_append, List.mem_singleton] at hi
      rcases hi with h1 | h1
      · exact (List.nodup_cons.1 hB').1 (List.mem_append_right _ (List.mem_cons_of_mem _ h1))
      · exact (List.nodup_cons.1 hB).1 (by rw [← h1]; simp)
  · intro i hi
    have hiA : i ∉ s :: (d ++ r) := fun h => hi (List.mem_append_left _ h)
    have hiB : i ∉ x :: c := fun h => hi (List.mem_append_right _ h)
    simp only [sn_next, sp_next, sn_prev, sp_prev]
    rw [hp.1, hq.1, if_neg, if_neg, if_neg, if_neg]
    · exact ⟨rfl, rfl⟩
    · rintro rfl; exact hiB (by simp)
    · rintro rfl; exact hiA hposm
    · rintro rfl; exact hiA hpm
    · rintro rfl; exact hiB (lastOf_mem _ _)

/-! ### merge -/

/-- The order in which `merge` leaves two nodes, the first from the list itself. -/
def nodeLe (lt : α → α → Bool) (h : Nodes α) (n m : Nat) : Bool :=
  match h.val n, h.val m with
  | some a, some b => !lt b a
  | _, _ => false

theorem nodeLe_eq {lt : α → α → Bool} {h : Nodes α} {n m : Nat} {a b : α} (ha : h.val n = some a)
    (hb : h.val m = some b) : nodeLe lt h n m = !lt b a := by
  rw [nodeLe, ha, hb]

theorem nodeLe_congr {lt : α → α → Bool} {h h' : Nodes α} (e : h'.val = h.val) :
    nodeLe lt h' = nodeLe lt h := by
  funext n m
  rw [nodeLe, nodeLe, e]

theorem merge_prefix {β : Type} {le : β → β → Bool} {f : β} {r o : List β} : ∀ {c : List β},
    (∀ z ∈ c, le f z = false) →
    List.merge (f :: r) (c ++ o) le = c ++ List.merge (f :: r) o le
  | [], _ => rfl
  | z :: c, hc => by
      rw [List.cons_append, List.cons_merge_cons, if_neg (by rw [hc z (by simp)]; simp),
        merge_prefix fun y hy => hc y (List.mem_cons_of_mem _ hy), List.cons_append]

theorem scan_run {lt : α → α → Bool} {h : Nodes α} {f t : Nat} (hf : (h.val f).isSome) :
    ∀ {x : Nat} {o : List Nat}, Links h x o t → t ∉ o → 0 ∉ o → (∀ n ∈ o, (h.val n).isSome) →
    ∃ c o', o = c ++ o' ∧ scan lt (headOr o t) t f h = some (headOr o' t, h) ∧
      (∀ z ∈ c, nodeLe lt h f z = false) ∧ ∀ z o3, o' = z :: o3 → nodeLe lt h f z = true
  | x, [], _, _, _, _ => ⟨[], [], rfl, by rw [headOr, scan, if_pos rfl]; rfl, by simp, by simp⟩
  | x, y :: o, ⟨h1, h2, h3⟩, ht, h0, hv => by
      obtain ⟨a, ha⟩ := Option.isSome_iff_exists.1 hf
      obtain ⟨b, hb⟩ := Option.isSome_iff_exists.1 (hv y (by simp))
      have hle := nodeLe_eq (lt := lt) ha hb
      have hy0 : y ≠ 0 := fun e => h0 (by simp [e])
      rw [headOr, scan, if_neg fun e => ht (by simp [e]), bind_run (getVal_run hb),
        bind_run (getVal_run ha)]
      by_cases hlt : lt b a = true
      · rw [if_pos hlt, bind_run (getNext_run hy0 h), h3.next_head]
        obtain ⟨c, o', e1, e2, e3, e4⟩ := scan_run hf h3 (fun e => ht (List.mem_cons_of_mem _ e))
          (fun e => h0 (List.mem_cons_of_mem _ e)) fun n hn => hv n (List.mem_cons_of_mem _ hn)
        refine ⟨y :: c, o', by rw [e1]; rfl, e2, fun z hz => ?_, e4⟩
        rcases List.mem_cons.1 hz with rfl | hz
        · rw [hle, hlt]; rfl
        · exact e3 z hz
      · rw [if_neg hlt]
        refine ⟨[], y :: o, rfl, rfl, by simp, fun z o3 e => ?_⟩
        cases e
        rw [hle]
        simpa using hlt

theorem resetSentinel_run {h : Nodes α} {t : Nat} (h0 : t ≠ 0) :
    resetSentinel t h = some ((), (h.sn t t).sp t t) := by
  rw [resetSentinel, bind_run (setNext_run h0 _ _), setPrev_run h0]

/-- The result of resetting the sentinel of another list. -/
theorem reset_links {h : Nodes α} {s t : Nat} {l : List Nat} (hl : Links h s l s) (ht : t ∉ s :: l) :
    Links ((h.sn t t).sp t t) s l s ∧ Links ((h.sn t t).sp t t) t [] t := by
  refine ⟨hl.congr (fun i hi => ?_) fun i hi => ?_, by simp [Links]⟩
  · simp only [sp_next, sn_next]
    rw [if_neg]
    rintro rfl
    exact ht hi
  · simp only [sp_prev, sn_prev]
    rw [if_neg]
    rintro rfl
    simp only [List.mem_append, List.mem_singleton] at hi
    rcases hi with hi | hi
    · exact ht (List.mem_cons_of_mem _ hi)
    · exact ht (by simp [hi])

theorem reset_off (h : Nodes α) (t : Nat) : SameOff h ((h.sn t t).sp t t) [t] := by
  intro i hi
  have : i ≠ t := by simpa using hi
  simp [this]

theorem mergeLoop_run (lt : α → α → Bool) {s t : Nat} : ∀ (n : Nat) {h : Nodes α}
    {d r o : List Nat} {f y : Nat}, r.length + o.length < n →
    Links h s (d ++ f :: r) s → Links h y o t →
    ((s :: (d ++ f :: r)) ++ (t :: y :: o)).Nodup → 0 ∉ (s :: (d ++ f :: r)) ++ (t :: y :: o) →
    (∀ i ∈ f :: r ++ y :: o, (h.val i).isSome) →
    ∃ h', mergeLoop lt f s y t h = some ((), h') ∧
      Links h' s (d ++ List.merge (f :: r) (y :: o) (nodeLe lt h)) s ∧ Links h' t [] t ∧
      h'.val = h.val ∧ h'.free = h.free ∧
      SameOff h h' ((s :: (d ++ f :: r)) ++ (t :: y :: o)) := by
  intro n
  induction n with
  | zero => intro h d r o f y hn; omega
  | succ n ih =>
    intro h d r o f y hn hl hx hd h0 hv
    have hA : (s :: (d ++ f :: r)).Nodup := (List.nodup_append.1 hd).1
    have hB : (t :: y :: o).Nodup := (List.nodup_append.1 hd).2.1
    have hAB := (List.nodup_append.1 hd).2.2
    have hfs : f ≠ s := by
      rintro rfl
      exact (List.nodup_cons.1 hA).1 (by simp)
    have hyt : y ≠ t := by
      rintro rfl
      exact (List.nodup_cons.1 hB).1 (by simp)
    have hto : t ∉ o := fun e => (List.nodup_cons.1 hB).1 (List.mem_cons_of_mem _ e)
    have h0o : 0 ∉ o := fun e => h0 (List.mem_append_right _ (List.mem_cons_of_mem _
      (List.mem_cons_of_mem _ e)))
    have hy0 : y ≠ 0 := fun e => h0 (by simp [e])
    have hf0 : f ≠ 0 := fun e => h0 (by simp [e])
    have ht0 : t ≠ 0 := fun e => h0 (by simp [e])
    have htA : t ∉ s :: (d ++ f :: r) := fun e => hAB _ e t (by simp) rfl
    obtain ⟨a, ha⟩ := Option.isSome_iff_exists.1 (hv f (by simp))
    obtain ⟨b, hb⟩ := Option.isSome_iff_exists.1 (hv y (by simp))
    have hle := nodeLe_eq (lt := lt) ha hb
    rw [mergeLoop, bind_run (getVal_run hb), bind_run (getVal_run ha)]
    by_cases hlt : lt b a = true
    · obtain ⟨c, o', e1, e2, e3, e4⟩ := scan_run (lt := lt) (f := f) (by rw [ha]; rfl) hx hto h0o
        fun i hi => hv i (List.mem_append_right _ (List.mem_cons_of_mem _ hi))
      subst e1
      obtain ⟨h1, f1, f2, f3, f4, f5, f6⟩ := fastSplice_links hl hx hd h0
      have run : (do
          let n ← getNext y
          let it ← scan lt n t f
          fastSplice f y it
          pure (f, it) : NodeM α (Nat × Nat)) h = some ((f, headOr o' t), h1) := by
        rw [bind_run (getNext_run hy0 h), hx.next_head, bind_run e2]
        exact bind_run f1
      rw [if_pos hlt, bind_run run]
      dsimp only
      rw [if_neg hfs]
      have hc : List.merge (f :: r) (y :: (c ++ o')) (nodeLe lt h)
          = (y :: c) ++ List.merge (f :: r) o' (nodeLe lt h) := by
        rw [← List.cons_append]
        refine merge_prefix fun z hz => ?_
        rcases List.mem_cons.1 hz with rfl | hz
        · rw [hle, hlt]; rfl
        · exact e3 z hz
      cases o' with
      | nil =>
        rw [headOr, if_neg (by simp), resetSentinel_run ht0]
        rw [hc, List.merge_right]
        have htm : t ∉ s :: (d ++ (y :: c) ++ f :: r) := by
          intro e
          simp only [List.mem_cons, List.mem_append] at e htA
          rcases e with e | (e | e | e) | e | e
          · exact htA (.inl e)
          · exact htA (.inr (.inl e))
          · exact hyt e.symm
          · exact hto (List.mem_append_left _ e)
          · exact htA (.inr (.inr (.inl e)))
          · exact htA (.inr (.inr (.inr e)))
        obtain ⟨g1, g2⟩ := reset_links f2 htm
        refine ⟨_, rfl, by rw [← List.append_assoc]; exact g1, g2, f4, f5, ?_⟩
        refine (f6.mono fun i hi => ?_).trans ((reset_off h1 t).mono fun i hi => ?_)
        · simp only [List.mem_cons, List.mem_append] at hi ⊢
          rcases hi with hi | hi | hi
          · exact .inl hi
          · exact .inr (.inr (.inl hi))
          · exact .inr (.inr (.inr (.inl hi)))
        · simp only [List.mem_singleton] at hi
          subst hi
          simp
      | cons z o3 =>
        have hzt : z ≠ t := fun e => hto (by simp [e])
        rw [headOr, if_pos hzt]
        have hperm : ((s :: ((d ++ (y :: c)) ++ f :: r)) ++ (t :: z :: o3)).Perm
            ((s :: (d ++ f :: r)) ++ (t :: y :: (c ++ z :: o3))) := by
          simp only [List.cons_append, List.append_assoc]
          refine List.Perm.cons _ (List.Perm.append_left d ?_)
          show ((y :: c) ++ ((f :: r) ++ ([t] ++ (z :: o3)))).Perm
            ((f :: r) ++ ([t] ++ ((y :: c) ++ (z :: o3))))
          exact (List.perm_append_comm_assoc _ _ _).trans (List.Perm.append_left _
            (List.perm_append_comm_assoc (y :: c) [t] (z :: o3)))
        obtain ⟨h2, i1, i2, i3, i4, i5, i6⟩ := ih (h := h1) (d := d ++ (y :: c)) (r := r) (o := o3)
          (f := f) (y := z) (by simp only [List.length_append, List.length_cons] at hn; omega)
          f2 (f3 z o3 rfl) (hperm.nodup_iff.2 hd) (fun e => h0 (hperm.mem_iff.1 e)) (by
            intro i hi
            rw [f4]
            refine hv i ?_
            simp only [List.mem_append, List.mem_cons] at hi ⊢
            rcases hi with hi | hi | hi
            · exact .inl hi
            · exact .inr (.inr (.inr (.inl hi)))
            · exact .inr (.inr (.inr (.inr hi))))
        refine ⟨h2, i1, ?_, i3, i4.trans f4, i5.trans f5, ?_⟩
        · rw [nodeLe_congr f4, List.append_assoc] at i2
          rw [hc]
          exact i2
        · refine (f6.mono fun i hi => ?_).trans (i6.mono fun i hi => hperm.mem_iff.1 hi)
          simp only [List.mem_cons, List.mem_append] at hi ⊢
          rcases hi with hi | hi | hi
          · exact .inl hi
          · exact .inr (.inr (.inl hi))
          · exact .inr (.inr (.inr (.inl hi)))
    · have hnext : h.next f = headOr r s := (links_append.1 hl).2.next_head
      have hlef : nodeLe lt h f y = true := by
        rw [hle]
        simpa using hlt
      have run : (do
          let n ← getNext f
          pure (n, y) : NodeM α (Nat × Nat)) h = some ((headOr r s, y), h) := by
        rw [bind_run (getNext_run hf0 h), hnext]
        rfl
      rw [if_neg hlt, bind_run run]
      dsimp only
      have hc : List.merge (f :: r) (y :: o) (nodeLe lt h)
          = f :: List.merge r (y :: o) (nodeLe lt h) := by
        rw [List.cons_merge_cons, if_pos hlef]
      cases r with
      | nil =>
        obtain ⟨h1, f1, f2, f3, f4, f5, f6⟩ := fastSplice_links (d := d ++ [f]) (r := []) (c := o)
          (o := []) (by simpa using hl) (by simpa using hx) (by simpa using hd) (by simpa using h0)
        rw [headOr, if_pos rfl, bind_run (show fastSplice s y t h = _ from f1), resetSentinel_run ht0]
        have htm : t ∉ s :: ((d ++ [f]) ++ (y :: o) ++ []) := by
          intro e
          simp only [List.mem_cons, List.mem_append, List.not_mem_nil, or_false] at e htA
          rcases e with e | (e | e) | e | e
          · exact htA (.inl e)
          · exact htA (.inr (.inl e))
          · exact htA (.inr (.inr e))
          · exact hyt e.symm
          · exact hto e
        obtain ⟨g1, g2⟩ := reset_links f2 htm
        refine ⟨_, rfl, ?_, g2, f4, f5, ?_⟩
        · rw [hc, List.nil_merge]
          simpa using g1
        · refine (f6.mono fun i hi => ?_).trans ((reset_off h1 t).mono fun i hi => ?_)
          · simp only [List.mem_cons, List.mem_append, List.not_mem_nil, or_false] at hi ⊢
            rcases hi with (hi | hi | hi) | hi | hi
            · exact .inl (.inl hi)
            · exact .inl (.inr (.inl hi))
            · exact .inl (.inr (.inr hi))
            · exact .inr (.inr (.inl hi))
            · exact .inr (.inr (.inr hi))
          · simp only [List.mem_singleton] at hi
            subst hi
            simp
      | cons g r =>
        have hgs : g ≠ s := by
          rintro rfl
          exact (List.nodup_cons.1 hA).1 (by simp)
        rw [headOr, if_neg hgs, if_pos hyt]
        have heq : (d ++ [f]) ++ g :: r = d ++ f :: g :: r := by simp
        obtain ⟨h2, i1, i2, i3, i4, i5, i6⟩ := ih (h := h) (d := d ++ [f]) (r := r) (o := o)
          (f := g) (y := y) (by simp only [List.length_cons] at hn; omega)
          (by rw [heq]; exact hl) hx (by rw [heq]; exact hd) (by rw [heq]; exact h0) (by
            intro i hi
            exact hv i (List.mem_cons_of_mem _ hi))
        rw [heq] at i6
        refine ⟨h2, i1, ?_, i3, i4, i5, i6⟩
        rw [hc]
        simpa using i2

end NodeList
end CppSort
