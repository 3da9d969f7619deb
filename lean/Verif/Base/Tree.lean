import Verif.Model.Splay
/-
Binary trees made of linked nodes: representation of a tree, of a tree with a hole, and how the changes
of some links affect them.
-/
set_option autoImplicit false

namespace CppSort

/-- A binary tree of node numbers. -/
inductive BT where
  | leaf
  | node (l : BT) (k : Nat) (r : BT)

/-- The nodes from left to right. -/
def BT.inord : BT → List Nat
  | leaf => []
  | node l k r => l.inord ++ k :: r.inord

/-- The pointer to the root. -/
def BT.ptr : BT → Option Nat
  | leaf => none
  | node _ k _ => some k

/-- The node `pp` has a link to the tree `t`. -/
def Rep (nd : Nodes) : Option Nat → Option Nat → BT → Prop
  | _, p, .leaf => p = none
  | pp, p, .node l k r => p = some k ∧ (nd (some k)).parent = pp ∧
      Rep nd (some k) (nd (some k)).left l ∧ Rep nd (some k) (nd (some k)).right r

/-- A tree with a hole, from the hole to the root: `left = true` if the hole is on the left of the node
`k`. -/
structure Fr where
  left : Bool
  k : Nat
  t : BT

/-- The node `pp` is the parent of the hole, which is filled by `c`. -/
def RepC (nd : Nodes) : Option Nat → Option Nat → List Fr → Prop
  | pp, _, [] => pp = none
  | pp, c, f :: fs => pp = some f.k ∧
      (if f.left then (nd pp).left = c ∧ Rep nd (some f.k) (nd pp).right f.t
        else (nd pp).right = c ∧ Rep nd (some f.k) (nd pp).left f.t) ∧
      RepC nd (nd pp).parent pp fs

/-- The nodes on the left of the hole. -/
def pre : List Fr → List Nat
  | [] => []
  | f :: fs => if f.left then pre fs else pre fs ++ (f.t.inord ++ [f.k])

/-- The nodes on the right of the hole. -/
def post : List Fr → List Nat
  | [] => []
  | f :: fs => if f.left then f.k :: (f.t.inord ++ post fs) else post fs

/-- All the nodes. -/
def whole (t : BT) (fs : List Fr) : List Nat := pre fs ++ (t.inord ++ post fs)

theorem Rep.ptr_eq {nd : Nodes} {pp p : Option Nat} {t : BT} (h : Rep nd pp p t) : p = t.ptr := by
  cases t with
  | leaf => exact h
  | node l k r => exact h.1

theorem BT.ptr_mem {t : BT} {k : Nat} (h : t.ptr = some k) : k ∈ t.inord := by
  cases t with
  | leaf => cases h
  | node l j r => cases h; simp [BT.inord]

/-- A tree does not change if its nodes do not change. -/
theorem Rep.congr {nd nd' : Nodes} {t : BT} : ∀ {pp p : Option Nat}, Rep nd pp p t →
    (∀ k ∈ t.inord, nd' (some k) = nd (some k)) → Rep nd' pp p t := by
  induction t with
  | leaf => intro pp p h _; exact h
  | node l k r ihl ihr =>
    intro pp p h e
    obtain ⟨h1, h2, h3, h4⟩ := h
    have ek := e k (by simp [BT.inord])
    refine ⟨h1, by rw [ek]; exact h2, ?_, ?_⟩
    · rw [ek]; exact ihl h3 fun j hj => e j (by simp [BT.inord, hj])
    · rw [ek]; exact ihr h4 fun j hj => e j (by simp [BT.inord, hj])

/-- The same, with a new parent. -/
theorem Rep.reparent {nd nd' : Nodes} {t : BT} {pp pp' p : Option Nat} (h : Rep nd pp p t)
    (hn : t.inord.Nodup)
    (e : ∀ k ∈ t.inord, some k ≠ p → nd' (some k) = nd (some k))
    (er : ∀ k, p = some k → nd' p = { nd p with parent := pp' }) : Rep nd' pp' p t := by
  cases t with
  | leaf => exact h
  | node l k r =>
    obtain ⟨h1, h2, h3, h4⟩ := h
    subst h1
    have ek := er k rfl
    rw [BT.inord, List.nodup_append] at hn
    obtain ⟨_, n2, n3⟩ := hn
    rw [List.nodup_cons] at n2
    refine ⟨rfl, by rw [ek], ?_, ?_⟩
    · rw [ek]
      refine h3.congr fun j hj => e j (by simp [BT.inord, hj]) ?_
      intro e'; cases e'; exact n3 _ hj _ (by simp) rfl
    · rw [ek]
      refine h4.congr fun j hj => e j (by simp [BT.inord, hj]) ?_
      intro e'; cases e'; exact n2.1 hj

theorem RepC.congr {nd nd' : Nodes} : ∀ {fs : List Fr} {pp c : Option Nat}, RepC nd pp c fs →
    (∀ k, k ∈ pre fs ∨ k ∈ post fs → nd' (some k) = nd (some k)) → RepC nd' pp c fs := by
  intro fs
  induction fs with
  | nil => intro pp c h _; exact h
  | cons f fs ih =>
    intro pp c h e
    obtain ⟨h1, h2, h3⟩ := h
    subst h1
    have ek : nd' (some f.k) = nd (some f.k) := e f.k (by by_cases hf : f.left <;> simp [pre, post, hf])
    have e' : ∀ k, k ∈ pre fs ∨ k ∈ post fs → nd' (some k) = nd (some k) := fun k hk => e k (by
      by_cases hf : f.left <;> simp only [pre, post, hf] <;>
        rcases hk with hk | hk <;> simp [hk])
    have e2 : ∀ k ∈ f.t.inord, nd' (some k) = nd (some k) := fun k hk => e k (by
      by_cases hf : f.left <;> simp [pre, post, hf, hk])
    refine ⟨rfl, ?_, ?_⟩
    · rw [ek]
      split
      · rename_i hf; rw [if_pos hf] at h2; exact ⟨h2.1, h2.2.congr e2⟩
      · rename_i hf; rw [if_neg hf] at h2; exact ⟨h2.1, h2.2.congr e2⟩
    · rw [ek]; exact ih h3 e'

/-- The node `k`, root of `t`, is in the hole of `fs`. -/
structure At (nd : Nodes) (k : Nat) (t : BT) (fs : List Fr) : Prop where
  rep : Rep nd (nd (some k)).parent (some k) t
  ctx : RepC nd (nd (some k)).parent (some k) fs
  nodup : (whole t fs).Nodup
  sent : (nd none).left = none

theorem At.goLeft {nd : Nodes} {k j : Nat} {a b r : BT} {fs : List Fr} (h : At nd k (.node (.node a j b) k r) fs) :
    (nd (some k)).left = some j ∧ At nd j (.node a j b) (⟨true, k, r⟩ :: fs) := by
  obtain ⟨⟨-, h1, h2, h3⟩, hc, hn, hs⟩ := h
  have hj := h2.1
  have hp := h2.2.1
  rw [hj] at h2
  refine ⟨hj, ?_, ?_, ?_, hs⟩
  · rw [hp]; exact h2
  · rw [hp]; exact ⟨rfl, by rw [if_pos rfl]; exact ⟨hj, h3⟩, hc⟩
  · simpa [whole, pre, post, BT.inord] using hn

theorem At.goRight {nd : Nodes} {k j : Nat} {l a b : BT} {fs : List Fr} (h : At nd k (.node l k (.node a j b)) fs) :
    (nd (some k)).right = some j ∧ At nd j (.node a j b) (⟨false, k, l⟩ :: fs) := by
  obtain ⟨⟨-, h1, h2, h3⟩, hc, hn, hs⟩ := h
  have hj := h3.1
  have hp := h3.2.1
  rw [hj] at h3
  refine ⟨hj, ?_, ?_, ?_, hs⟩
  · rw [hp]; exact h3
  · rw [hp]; exact ⟨rfl, by rw [if_neg (by simp)]; exact ⟨hj, h2⟩, hc⟩
  · simpa [whole, pre, post, BT.inord] using hn

theorem At.up {nd : Nodes} {k : Nat} {t : BT} {f : Fr} {fs : List Fr} (h : At nd k t (f :: fs)) :
    (nd (some k)).parent = some f.k ∧
      At nd f.k (if f.left then .node t f.k f.t else .node f.t f.k t) fs := by
  obtain ⟨h1, ⟨h2, h3, h4⟩, hn, hs⟩ := h
  rw [h2] at h1 h3 h4
  refine ⟨h2, ?_, h4, ?_, hs⟩
  · split at h3
    · rename_i hf
      rw [if_pos hf]
      exact ⟨rfl, rfl, by rw [h3.1]; exact h1, h3.2⟩
    · rename_i hf
      rw [if_neg hf]
      exact ⟨rfl, rfl, h3.2, by rw [h3.1]; exact h1⟩
  · by_cases hf : f.left <;> simpa [whole, pre, post, BT.inord, hf] using hn

end CppSort
