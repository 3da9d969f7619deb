import Verif.Base.Tree
import Verif.Proof.Lists
import Verif.Proof.HalfMerge
import Verif.Base.Segs
/-
splaysort.h: proofs.
-/
set_option autoImplicit false

namespace CppSort
variable {α : Type} {lt : α → α → Bool}

theorem Nodes.set_eq {nd : Nodes} {p : Option Nat} {x : TNode} : nd.set p x p = x := by simp [Nodes.set]

theorem Nodes.set_ne {nd : Nodes} {p q : Option Nat} {x : TNode} (h : q ≠ p) : nd.set p x q = nd q := by
  simp [Nodes.set, h]

/-- What a rotation does to the links, apart from those of the grand-parent. -/
theorem splayRelink_other {nd : Nodes} {g p n q : Option Nat} (h : q ≠ g) : splayRelink nd g p n q = nd q := by
  unfold splayRelink Nodes.setLeft Nodes.setRight
  split <;> rw [Nodes.set_ne h]

theorem splayRelink_self {nd : Nodes} {g p n : Option Nat} : splayRelink nd g p n g =
    if (nd g).left = p then { nd g with left := n } else { nd g with right := n } := by
  unfold splayRelink Nodes.setLeft Nodes.setRight
  split <;> rw [Nodes.set_eq]

theorem rotRight_eval {nd : Nodes} {K P B G : Option Nat} (hP : (nd K).parent = P) (hB : (nd K).right = B)
    (hG : (nd P).parent = G) (h1 : K ≠ P) (h2 : B ≠ K) (h3 : B ≠ P) (h4 : G ≠ K) (h5 : G ≠ P) :
    splayRotateRight nd K K = ⟨G, (nd K).left, P⟩ ∧
    splayRotateRight nd K P = ⟨K, B, (nd P).right⟩ ∧
    (∀ x, x ≠ K → x ≠ P → x ≠ G → x ≠ B → splayRotateRight nd K x = nd x) ∧
    (B ≠ G → splayRotateRight nd K B = { nd B with parent := P }) ∧
    (splayRotateRight nd K G).left = (if (nd G).left = P then K else (nd G).left) ∧
    (splayRotateRight nd K G).right = (if (nd G).left = P then (nd G).right else K) ∧
    (B ≠ G → (splayRotateRight nd K G).parent = (nd G).parent) := by
  have e : ∀ x, x ≠ G → splayRotateRight nd K x =
      if x = K then ⟨G, (nd K).left, P⟩ else if x = P then ⟨K, B, (nd P).right⟩ else
      if x = B then { nd B with parent := P } else nd x := by
    intro x hx
    unfold splayRotateRight
    dsimp only
    rw [hP, hG, splayRelink_other hx, hB]
    unfold Nodes.setParent Nodes.setLeft Nodes.setRight
    simp only [Nodes.set]
    simp [h1, h1.symm, h2.symm, h3.symm, h2, h3, h4, h5, hG, hP, hB]
    by_cases a : x = K <;> by_cases b : x = P <;> by_cases c : x = B <;> simp_all
  have g : (splayRotateRight nd K G).left = (if (nd G).left = P then K else (nd G).left) ∧
    (splayRotateRight nd K G).right = (if (nd G).left = P then (nd G).right else K) ∧
    (B ≠ G → (splayRotateRight nd K G).parent = (nd G).parent) := by
    simp only [splayRotateRight]
    rw [hP, hG, splayRelink_self, hB]
    unfold Nodes.setParent Nodes.setLeft Nodes.setRight
    simp only [Nodes.set]
    simp [h1, h1.symm, h2.symm, h3.symm, h2, h3, h4, h5, hG, hP, hB]
    by_cases c : G = B
    · subst c; by_cases d : (nd G).left = P <;> simp [d]
    · simp only [c]; by_cases d : (nd G).left = P <;> simp [d]
  refine ⟨?_, ?_, ?_, ?_, g⟩
  · rw [e K h4.symm, if_pos rfl]
  · rw [e P h5.symm, if_neg h1.symm, if_pos rfl]
  · intro x a1 a2 a3 a4; rw [e x a3, if_neg a1, if_neg a2, if_neg a4]
  · intro hb; rw [e B hb, if_neg h2, if_neg h3, if_pos rfl]

theorem rotLeft_eval {nd : Nodes} {K P B G : Option Nat} (hP : (nd K).parent = P) (hB : (nd K).left = B)
    (hG : (nd P).parent = G) (h1 : K ≠ P) (h2 : B ≠ K) (h3 : B ≠ P) (h4 : G ≠ K) (h5 : G ≠ P) :
    splayRotateLeft nd K K = ⟨G, P, (nd K).right⟩ ∧
    splayRotateLeft nd K P = ⟨K, (nd P).left, B⟩ ∧
    (∀ x, x ≠ K → x ≠ P → x ≠ G → x ≠ B → splayRotateLeft nd K x = nd x) ∧
    (B ≠ G → splayRotateLeft nd K B = { nd B with parent := P }) ∧
    (splayRotateLeft nd K G).left = (if (nd G).left = P then K else (nd G).left) ∧
    (splayRotateLeft nd K G).right = (if (nd G).left = P then (nd G).right else K) ∧
    (B ≠ G → (splayRotateLeft nd K G).parent = (nd G).parent) := by
  have e : ∀ x, x ≠ G → splayRotateLeft nd K x =
      if x = K then ⟨G, P, (nd K).right⟩ else if x = P then ⟨K, (nd P).left, B⟩ else
      if x = B then { nd B with parent := P } else nd x := by
    intro x hx
    unfold splayRotateLeft
    dsimp only
    rw [hP, hG, splayRelink_other hx, hB]
    unfold Nodes.setParent Nodes.setLeft Nodes.setRight
    simp only [Nodes.set]
    simp [h1, h1.symm, h2.symm, h3.symm, h2, h3, h4, h5, hG, hP, hB]
    by_cases a : x = K <;> by_cases b : x = P <;> by_cases c : x = B <;> simp_all
  have g : (splayRotateLeft nd K G).left = (if (nd G).left = P then K else (nd G).left) ∧
    (splayRotateLeft nd K G).right = (if (nd G).left = P then (nd G).right else K) ∧
    (B ≠ G → (splayRotateLeft nd K G).parent = (nd G).parent) := by
    simp only [splayRotateLeft]
    rw [hP, hG, splayRelink_self, hB]
    unfold Nodes.setParent Nodes.setLeft Nodes.setRight
    simp only [Nodes.set]
    simp [h1, h1.symm, h2.symm, h3.symm, h2, h3, h4, h5, hG, hP, hB]
    by_cases c : G = B
    · subst c; by_cases d : (nd G).left = P <;> simp [d]
    · simp only [c]; by_cases d : (nd G).left = P <;> simp [d]
  refine ⟨?_, ?_, ?_, ?_, g⟩
  · rw [e K h4.symm, if_pos rfl]
  · rw [e P h5.symm, if_neg h1.symm, if_pos rfl]
  · intro x a1 a2 a3 a4; rw [e x a3, if_neg a1, if_neg a2, if_neg a4]
  · intro hb; rw [e B hb, if_neg h2, if_neg h3, if_pos rfl]

/-- The parts of a list without duplicates are disjoint. -/
structure Parts (P a b c Q : List Nat) (k p : Nat) : Prop where
  kp : k ≠ p
  ka : k ∉ a
  kb : k ∉ b
  kc : k ∉ c
  kP : k ∉ P
  kQ : k ∉ Q
  pa : p ∉ a
  pb : p ∉ b
  pc : p ∉ c
  pP : p ∉ P
  pQ : p ∉ Q
  ab : ∀ x ∈ a, x ∉ b
  bc : ∀ x ∈ b, x ∉ c
  aP : ∀ x ∈ a, x ∉ P
  aQ : ∀ x ∈ a, x ∉ Q
  bP : ∀ x ∈ b, x ∉ P
  bQ : ∀ x ∈ b, x ∉ Q
  cP : ∀ x ∈ c, x ∉ P
  cQ : ∀ x ∈ c, x ∉ Q

theorem nodup_parts {P a b c Q : List Nat} {k p : Nat}
    (h : (P ++ (a ++ k :: (b ++ p :: (c ++ Q)))).Nodup) : Parts P a b c Q k p := by
  constructor <;> grind

theorem mem_frame {f : Fr} {fs : List Fr} {x : Nat} (h : x = f.k ∨ x ∈ f.t.inord ∨ x ∈ pre fs ∨ x ∈ post fs) :
    x ∈ pre (f :: fs) ∨ x ∈ post (f :: fs) := by
  by_cases hf : f.left <;> simp only [pre, post, hf] <;> rcases h with h | h | h | h <;> simp [h]

/-- The links to a hole, when another node is put in the hole. -/
theorem RepC.plug {nd nd' : Nodes} {G P K : Option Nat} {fs : List Fr} (h : RepC nd G P fs)
    (hn : ∀ f fs', fs = f :: fs' → f.k ∉ f.t.inord ∧ f.k ∉ pre fs' ∧ f.k ∉ post fs')
    (hp : ∃ p, P = some p ∧ p ∉ pre fs ∧ p ∉ post fs)
    (he : ∀ x, x ∈ pre fs ∨ x ∈ post fs → some x ≠ G → nd' (some x) = nd (some x))
    (h1 : (nd' G).left = if (nd G).left = P then K else (nd G).left)
    (h2 : (nd' G).right = if (nd G).left = P then (nd G).right else K)
    (h3 : G ≠ none → (nd' G).parent = (nd G).parent) : RepC nd' G K fs := by
  cases fs with
  | nil => exact h
  | cons f fs =>
    obtain ⟨rfl, c2, c3⟩ := h
    obtain ⟨p, rfl, p1, p2⟩ := hp
    obtain ⟨n1, n2, n3⟩ := hn f fs rfl
    have ht : ∀ x ∈ f.t.inord, nd' (some x) = nd (some x) := fun x hx =>
      he x (mem_frame (by simp [hx])) (by intro e; cases e; exact n1 hx)
    have hf' : ∀ x, x ∈ pre fs ∨ x ∈ post fs → nd' (some x) = nd (some x) := fun x hx =>
      he x (mem_frame (by rcases hx with hx | hx <;> simp [hx])) (by
        intro e; cases e
        rcases hx with hx | hx
        · exact n2 hx
        · exact n3 hx)
    refine ⟨rfl, ?_, ?_⟩
    · split
      · rename_i hf
        rw [if_pos hf] at c2
        rw [if_pos c2.1] at h1 h2
        rw [h1, h2]
        exact ⟨rfl, c2.2.congr ht⟩
      · rename_i hf
        rw [if_neg hf] at c2
        have hne : (nd (some f.k)).left ≠ some p := by
          intro e
          have h5 := c2.2.ptr_eq
          rw [e] at h5
          have h6 := BT.ptr_mem h5.symm
          rcases mem_frame (fs := fs) (f := f) (x := p) (by simp [h6]) with h7 | h7
          · exact p1 h7
          · exact p2 h7
        rw [if_neg hne] at h1 h2
        rw [h1, h2]
        exact ⟨rfl, c2.2.congr ht⟩
    · rw [h3 (by simp)]
      exact c3.congr hf'

theorem nodup_frame {P : List Nat} {fs : List Fr} (h : (pre fs ++ (P ++ post fs)).Nodup) :
    ∀ f fs', fs = f :: fs' → f.k ∉ f.t.inord ∧ f.k ∉ pre fs' ∧ f.k ∉ post fs' := by
  rintro f fs' rfl
  by_cases hf : f.left <;> simp only [pre, post, hf] at h <;> grind

theorem RepC.mem {nd : Nodes} {G P : Option Nat} {fs : List Fr} (h : RepC nd G P fs) {g : Nat} (hg : G = some g) :
    g ∈ pre fs ∨ g ∈ post fs := by
  cases fs with
  | nil => rw [hg] at h; cases h
  | cons f fs =>
    rw [hg] at h
    cases h.1
    exact mem_frame (.inl rfl)

theorem At.rotRight {nd : Nodes} {k p : Nat} {a b c : BT} {fs : List Fr}
    (h : At nd k (.node a k b) (⟨true, p, c⟩ :: fs)) :
    At (splayRotateRight nd (some k)) k (.node a k (.node b p c)) fs := by
  obtain ⟨hr, hc, hn, hs⟩ := h
  obtain ⟨hP, hc2, hc3⟩ := hc
  rw [if_pos rfl] at hc2
  obtain ⟨-, -, ra, rb⟩ := hr
  rw [hP] at hc2 hc3
  obtain ⟨pl, rc⟩ := hc2
  dsimp only at *
  have hn' : (pre fs ++ (a.inord ++ k :: (b.inord ++ p :: (c.inord ++ post fs)))).Nodup := by
    simpa [whole, pre, post, BT.inord] using hn
  have D := nodup_parts hn'
  obtain ⟨B, hB⟩ : ∃ B, (nd (some k)).right = B := ⟨_, rfl⟩
  obtain ⟨G, hG⟩ : ∃ G, (nd (some p)).parent = G := ⟨_, rfl⟩
  rw [hB] at rb
  rw [hG] at hc3
  have memB : ∀ x, B = some x → x ∈ b.inord := fun x e => BT.ptr_mem (by rw [← rb.ptr_eq, e])
  have memG : ∀ x, G = some x → x ∈ pre fs ∨ x ∈ post fs := fun x e => hc3.mem e
  have BG : B ≠ none → B ≠ G := by
    intro e1 e2
    obtain ⟨x, hx⟩ := Option.ne_none_iff_exists'.1 e1
    rcases memG x (e2 ▸ hx) with h | h
    · exact D.bP x (memB x hx) h
    · exact D.bQ x (memB x hx) h
  have hBk : B ≠ some k := fun e => D.kb (memB k e)
  have hBp : B ≠ some p := fun e => D.pb (memB p e)
  have hGk : G ≠ some k := fun e => (memG k e).elim D.kP D.kQ
  have hGp : G ≠ some p := fun e => (memG p e).elim D.pP D.pQ
  have hkp : (some k : Option Nat) ≠ some p := fun e => D.kp (Option.some.inj e)
  obtain ⟨e1, e2, e3, e4, e5, e6, e7⟩ := rotRight_eval hP hB hG hkp hBk hBp hGk hGp
  have other : ∀ x, x ≠ k → x ≠ p → x ∉ pre fs → x ∉ post fs → x ∉ b.inord →
      splayRotateRight nd (some k) (some x) = nd (some x) := by
    intro x x1 x2 x3 x4 x5
    refine e3 _ (fun e => x1 (Option.some.inj e)) (fun e => x2 (Option.some.inj e)) (fun e => ?_)
      (fun e => x5 (memB x e.symm))
    exact (memG x e.symm).elim x3 x4
  refine ⟨⟨rfl, rfl, ?_, ?_⟩, ?_, ?_, ?_⟩
  · rw [e1]
    refine ra.congr fun x hx => other x ?_ ?_ (D.aP x hx) (D.aQ x hx) (D.ab x hx)
    · rintro rfl; exact D.ka hx
    · rintro rfl; exact D.pa hx
  · rw [e1]
    refine ⟨rfl, by rw [e2], ?_, ?_⟩
    · rw [e2]
      refine rb.reparent ?_ ?_ ?_
      · rw [List.nodup_append, List.nodup_append, List.nodup_cons, List.nodup_append] at hn'
        exact hn'.2.1.2.1.2.1
      · intro x hx hne
        refine e3 _ ?_ ?_ ?_ hne
        · intro e; cases e; exact D.kb hx
        · intro e; cases e; exact D.pb hx
        · intro e; exact (memG x e.symm).elim (D.bP x hx) (D.bQ x hx)
      · intro x hx
        exact e4 (BG (by rw [hx]; simp))
    · rw [e2]
      refine rc.congr fun x hx => other x ?_ ?_ (D.cP x hx) (D.cQ x hx) (fun h => D.bc x h hx)
      · rintro rfl; exact D.kc hx
      · rintro rfl; exact D.pc hx
  · rw [e1]
    refine hc3.plug ?_ ⟨p, rfl, D.pP, D.pQ⟩ ?_ e5 e6 fun hg => ?_
    · exact nodup_frame (P := a.inord ++ k :: (b.inord ++ p :: c.inord)) (by simpa using hn')
    · intro x hx hne
      refine e3 _ ?_ ?_ hne ?_
      · intro e; cases e; exact hx.elim D.kP D.kQ
      · intro e; cases e; exact hx.elim D.pP D.pQ
      · intro e; exact hx.elim (D.bP x (memB x e.symm)) (D.bQ x (memB x e.symm))
    · refine e7 fun e => ?_
      by_cases hb : B = none
      · exact hg (e ▸ hb)
      · exact BG hb e
  · simpa [whole, BT.inord] using hn'
  · by_cases hg : G = none
    · rw [← hg, e5]
      rw [hg, hs]; simp
    · by_cases hb : B = none
      · have := e4 (by rw [hb]; exact Ne.symm hg)
        rw [hb] at this
        rw [this]; exact hs
      · rw [e3 none (by simp) (by simp) (Ne.symm hg) (Ne.symm hb)]; exact hs

theorem nodup_parts' {P a b c Q : List Nat} {k p : Nat}
    (h : (P ++ (c ++ p :: (b ++ k :: (a ++ Q)))).Nodup) : Parts P a b c Q k p := by
  constructor <;> grind

theorem At.rotLeft {nd : Nodes} {k p : Nat} {a b c : BT} {fs : List Fr}
    (h : At nd k (.node b k a) (⟨false, p, c⟩ :: fs)) :
    At (splayRotateLeft nd (some k)) k (.node (.node c p b) k a) fs := by
  obtain ⟨hr, hc, hn, hs⟩ := h
  obtain ⟨hP, hc2, hc3⟩ := hc
  rw [if_neg (by simp)] at hc2
  obtain ⟨-, -, rb, ra⟩ := hr
  rw [hP] at hc2 hc3
  obtain ⟨pl, rc⟩ := hc2
  dsimp only at *
  have hn' : (pre fs ++ (c.inord ++ p :: (b.inord ++ k :: (a.inord ++ post fs)))).Nodup := by
    simpa [whole, pre, post, BT.inord] using hn
  have D := nodup_parts' hn'
  obtain ⟨B, hB⟩ : ∃ B, (nd (some k)).left = B := ⟨_, rfl⟩
  obtain ⟨G, hG⟩ : ∃ G, (nd (some p)).parent = G := ⟨_, rfl⟩
  rw [hB] at rb
  rw [hG] at hc3
  have memB : ∀ x, B = some x → x ∈ b.inord := fun x e => BT.ptr_mem (by rw [← rb.ptr_eq, e])
  have memG : ∀ x, G = some x → x ∈ pre fs ∨ x ∈ post fs := fun x e => hc3.mem e
  have BG : B ≠ none → B ≠ G := by
    intro e1 e2
    obtain ⟨x, hx⟩ := Option.ne_none_iff_exists'.1 e1
    rcases memG x (e2 ▸ hx) with h | h
    · exact D.bP x (memB x hx) h
    · exact D.bQ x (memB x hx) h
  have hBk : B ≠ some k := fun e => D.kb (memB k e)
  have hBp : B ≠ some p := fun e => D.pb (memB p e)
  have hGk : G ≠ some k := fun e => (memG k e).elim D.kP D.kQ
  have hGp : G ≠ some p := fun e => (memG p e).elim D.pP D.pQ
  have hkp : (some k : Option Nat) ≠ some p := fun e => D.kp (Option.some.inj e)
  obtain ⟨e1, e2, e3, e4, e5, e6, e7⟩ := rotLeft_eval hP hB hG hkp hBk hBp hGk hGp
  have other : ∀ x, x ≠ k → x ≠ p → x ∉ pre fs → x ∉ post fs → x ∉ b.inord →
      splayRotateLeft nd (some k) (some x) = nd (some x) := by
    intro x x1 x2 x3 x4 x5
    refine e3 _ (fun e => x1 (Option.some.inj e)) (fun e => x2 (Option.some.inj e)) (fun e => ?_)
      (fun e => x5 (memB x e.symm))
    exact (memG x e.symm).elim x3 x4
  refine ⟨⟨rfl, rfl, ?_, ?_⟩, ?_, ?_, ?_⟩
  · rw [e1]
    refine ⟨rfl, by rw [e2], ?_, ?_⟩
    · rw [e2]
      refine rc.congr fun x hx => other x ?_ ?_ (D.cP x hx) (D.cQ x hx) (fun h => D.bc x h hx)
      · rintro rfl; exact D.kc hx
      · rintro rfl; exact D.pc hx
    · rw [e2]
      refine rb.reparent ?_ ?_ ?_
      · rw [List.nodup_append, List.nodup_append, List.nodup_cons, List.nodup_append] at hn'
        exact hn'.2.1.2.1.2.1
      · intro x hx hne
        refine e3 _ ?_ ?_ ?_ hne
        · intro e; cases e; exact D.kb hx
        · intro e; cases e; exact D.pb hx
        · intro e; exact (memG x e.symm).elim (D.bP x hx) (D.bQ x hx)
      · intro x hx
        exact e4 (BG (by rw [hx]; simp))
  · rw [e1]
    refine ra.congr fun x hx => other x ?_ ?_ (D.aP x hx) (D.aQ x hx) (D.ab x hx)
    · rintro rfl; exact D.ka hx
    · rintro rfl; exact D.pa hx
  · rw [e1]
    refine hc3.plug ?_ ⟨p, rfl, D.pP, D.pQ⟩ ?_ e5 e6 fun hg => ?_
    · exact nodup_frame (P := c.inord ++ p :: (b.inord ++ k :: a.inord)) (by simpa using hn')
    · intro x hx hne
      refine e3 _ ?_ ?_ hne ?_
      · intro e; cases e; exact hx.elim D.kP D.kQ
      · intro e; cases e; exact hx.elim D.pP D.pQ
      · intro e; exact hx.elim (D.bP x (memB x e.symm)) (D.bQ x (memB x e.symm))
    · refine e7 fun e => ?_
      by_cases hb : B = none
      · exact hg (e ▸ hb)
      · exact BG hb e
  · simpa [whole, BT.inord] using hn'
  · by_cases hg : G = none
    · rw [← hg, e5]
      rw [hg, hs]; simp
    · by_cases hb : B = none
      · have := e4 (by rw [hb]; exact Ne.symm hg)
        rw [hb] at this
        rw [this]; exact hs
      · rw [e3 none (by simp) (by simp) (Ne.symm hg) (Ne.symm hb)]; exact hs

/-! ### splay -/

theorem At.leftChild {nd : Nodes} {k : Nat} {t : BT} {f : Fr} {fs : List Fr} (h : At nd k t (f :: fs))
    (hk : t.ptr = some k) : (some k = (nd (some f.k)).left) ↔ f.left = true := by
  obtain ⟨-, ⟨h2, h3, -⟩, hn, -⟩ := h
  rw [h2] at h3
  constructor
  · intro e
    by_contra hf
    rw [if_neg hf] at h3
    have h5 := h3.2.ptr_eq
    rw [← e] at h5
    have h6 := BT.ptr_mem h5.symm
    have h7 := BT.ptr_mem hk
    simp only [whole, pre, hf, Bool.false_eq_true, if_false] at hn
    grind
  · intro hf
    rw [if_pos hf] at h3
    exact h3.1.symm

theorem splayStep_spec {nd : Nodes} {k : Nat} {a b : BT} {f : Fr} {fs : List Fr}
    (h : At nd k (.node a k b) (f :: fs)) :
    ∃ a' b' fs', At (splayStep nd (some k) (nd (some k)).parent) k (.node a' k b') fs' ∧
      whole (.node a' k b') fs' = whole (.node a k b) (f :: fs) ∧ fs'.length < (f :: fs).length := by
  obtain ⟨hp, hup⟩ := h.up
  have hl := h.leftChild rfl
  obtain ⟨fl, p, c⟩ := f
  dsimp only at *
  unfold splayStep
  rw [hp]
  dsimp only
  cases fs with
  | nil =>
    have hg : (nd (some p)).parent = none := hup.ctx
    rw [if_pos hg]
    split
    · rename_i e
      have := hl.1 e
      subst this
      exact ⟨_, _, _, h.rotRight, by simp [whole, pre, post, BT.inord], by simp⟩
    · rename_i e
      have : fl = false := by
        cases fl
        · rfl
        · exact absurd (hl.2 rfl) e
      subst this
      exact ⟨_, _, _, h.rotLeft, by simp [whole, pre, post, BT.inord], by simp⟩
  | cons g fs =>
    obtain ⟨hg, -⟩ := hup.up
    have hl2 := hup.leftChild (by cases fl <;> rfl)
    rw [hg, if_neg (by simp)]
    obtain ⟨gl, g, d⟩ := g
    dsimp only at *
    cases gl <;> cases fl
    · rw [if_neg (by rw [hl2]; simp), if_neg (by rw [hl]; simp)]
      have h1 := At.rotLeft (nd := nd) (k := p) (p := g) (b := c) (a := .node a k b) (c := d) hup
      have h2 := (At.goRight h1).2
      exact ⟨_, _, _, h2.rotLeft, by simp [whole, pre, post, BT.inord], by simp only [List.length_cons]; omega⟩
    · rw [if_neg (by rw [hl2]; simp), if_pos (by rw [hl])]
      exact ⟨_, _, _, h.rotRight.rotLeft, by simp [whole, pre, post, BT.inord], by simp only [List.length_cons]; omega⟩
    · rw [if_pos (by rw [hl2]), if_neg (by rw [hl]; simp)]
      exact ⟨_, _, _, h.rotLeft.rotRight, by simp [whole, pre, post, BT.inord], by simp only [List.length_cons]; omega⟩
    · rw [if_pos (by rw [hl2]), if_pos (by rw [hl])]
      have h1 := At.rotRight (nd := nd) (k := p) (p := g) (a := .node a k b) (b := c) (c := d) hup
      have h2 := (At.goLeft h1).2
      exact ⟨_, _, _, h2.rotRight, by simp [whole, pre, post, BT.inord], by simp only [List.length_cons]; omega⟩

theorem splay_spec {s : St α} : ∀ (m : Nat) {nd : Nodes} {k : Nat} {a b : BT} {f : Fr} {fs : List Fr}, fs.length < m →
    At nd k (.node a k b) (f :: fs) →
    wp (splay nd (some k) (nd (some k)).parent) (fun nd' s' => s' = s ∧ ∃ a' b',
      At nd' k (.node a' k b') [] ∧ (BT.node a' k b').inord = whole (.node a k b) (f :: fs)) s := by
  intro m
  induction m with
  | zero => intro nd k a b f fs h; omega
  | succ m ih =>
    intro nd k a b f fs hm h
    rw [splay]
    obtain ⟨a', b', fs', h1, h2, h3⟩ := splayStep_spec h
    split
    · rename_i hne
      cases fs' with
      | nil => exact absurd h1.ctx hne
      | cons f' fs' =>
        simp only [List.length_cons] at h3
        refine wp_mono (ih (by omega) h1) ?_
        rintro nd' s' ⟨rfl, a2, b2, h4, h5⟩
        exact ⟨rfl, a2, b2, h4, h5.trans h2⟩
    · rename_i hne
      cases fs' with
      | nil => exact wp_pure ⟨rfl, a', b', h1, by rw [← h2]; simp [whole, pre, post]⟩
      | cons f' fs' =>
        have := h1.ctx.1
        rw [this] at hne
        simp at hne

/-! ### insert -/

theorem At.newLeft {nd : Nodes} {j k : Nat} {r : BT} {fs : List Fr} (h : At nd j (.node .leaf j r) fs)
    (hk : k ∉ whole (.node .leaf j r) fs) :
    At ((nd.set (some k) ⟨some j, none, none⟩).setLeft (some j) (some k)) k (.node .leaf k .leaf)
      (⟨true, j, r⟩ :: fs) := by
  obtain ⟨⟨-, -, -, rr⟩, hc, hn, hs⟩ := h
  have hkj : (some k : Option Nat) ≠ some j := by
    intro e; cases e; exact hk (by simp [whole, BT.inord])
  have ek : ((nd.set (some k) ⟨some j, none, none⟩).setLeft (some j) (some k)) (some k) = ⟨some j, none, none⟩ := by
    unfold Nodes.setLeft
    rw [Nodes.set_ne hkj, Nodes.set_eq]
  have ej : ((nd.set (some k) ⟨some j, none, none⟩).setLeft (some j) (some k)) (some j) =
      { nd (some j) with left := some k } := by
    unfold Nodes.setLeft
    rw [Nodes.set_eq, Nodes.set_ne hkj.symm]
  have eo : ∀ x, x ≠ some k → x ≠ some j →
      ((nd.set (some k) ⟨some j, none, none⟩).setLeft (some j) (some k)) x = nd x := by
    intro x h1 h2
    unfold Nodes.setLeft
    rw [Nodes.set_ne h2, Nodes.set_ne h1]
  have hn' : (pre fs ++ (j :: (r.inord ++ post fs))).Nodup := by simpa [whole, BT.inord] using hn
  have hk' : k ∉ pre fs ++ (j :: (r.inord ++ post fs)) := by simpa [whole, BT.inord] using hk
  have ne : ∀ x, x ∈ pre fs ∨ x ∈ r.inord ∨ x ∈ post fs →
      ((nd.set (some k) ⟨some j, none, none⟩).setLeft (some j) (some k)) (some x) = nd (some x) := by
    intro x hx
    apply eo
    · intro e; cases e; apply hk'
      rcases hx with h | h | h <;> simp [h]
    · intro e; cases e
      grind
  refine ⟨⟨rfl, rfl, by rw [ek]; rfl, by rw [ek]; rfl⟩, ?_, ?_, ?_⟩
  · rw [ek]
    refine ⟨rfl, ?_, ?_⟩
    · rw [if_pos rfl]
      dsimp only
      rw [ej]
      exact ⟨rfl, rr.congr fun x hx => ne x (.inr (.inl hx))⟩
    · rw [ej]
      exact hc.congr fun x hx => ne x (by rcases hx with h | h <;> simp [h])
  · simp only [whole, pre, post, BT.inord, if_true, List.nil_append, List.singleton_append]
    have : (k :: (pre fs ++ (j :: (r.inord ++ post fs)))).Nodup := List.nodup_cons.2 ⟨hk', hn'⟩
    exact (List.perm_middle.nodup_iff).2 this
  · rw [eo none (by simp) (by simp)]; exact hs

theorem At.newRight {nd : Nodes} {j k : Nat} {r : BT} {fs : List Fr} (h : At nd j (.node r j .leaf) fs)
    (hk : k ∉ whole (.node r j .leaf) fs) :
    At ((nd.set (some k) ⟨some j, none, none⟩).setRight (some j) (some k)) k (.node .leaf k .leaf)
      (⟨false, j, r⟩ :: fs) := by
  obtain ⟨⟨-, -, rr, -⟩, hc, hn, hs⟩ := h
  have hkj : (some k : Option Nat) ≠ some j := by
    intro e; cases e; exact hk (by simp [whole, BT.inord])
  have ek : ((nd.set (some k) ⟨some j, none, none⟩).setRight (some j) (some k)) (some k) = ⟨some j, none, none⟩ := by
    unfold Nodes.setRight
    rw [Nodes.set_ne hkj, Nodes.set_eq]
  have ej : ((nd.set (some k) ⟨some j, none, none⟩).setRight (some j) (some k)) (some j) =
      { nd (some j) with right := some k } := by
    unfold Nodes.setRight
    rw [Nodes.set_eq, Nodes.set_ne hkj.symm]
  have eo : ∀ x, x ≠ some k → x ≠ some j →
      ((nd.set (some k) ⟨some j, none, none⟩).setRight (some j) (some k)) x = nd x := by
    intro x h1 h2
    unfold Nodes.setRight
    rw [Nodes.set_ne h2, Nodes.set_ne h1]
  have hn' : (pre fs ++ (r.inord ++ j :: post fs)).Nodup := by simpa [whole, BT.inord] using hn
  have hk' : k ∉ pre fs ++ (r.inord ++ j :: post fs) := by simpa [whole, BT.inord] using hk
  have ne : ∀ x, x ∈ pre fs ∨ x ∈ r.inord ∨ x ∈ post fs →
      ((nd.set (some k) ⟨some j, none, none⟩).setRight (some j) (some k)) (some x) = nd (some x) := by
    intro x hx
    apply eo
    · intro e; cases e; apply hk'
      rcases hx with h | h | h <;> simp [h]
    · intro e; cases e
      grind
  refine ⟨⟨rfl, rfl, by rw [ek]; rfl, by rw [ek]; rfl⟩, ?_, ?_, ?_⟩
  · rw [ek]
    refine ⟨rfl, ?_, ?_⟩
    · rw [if_neg (by simp)]
      dsimp only
      rw [ej]
      exact ⟨rfl, rr.congr fun x hx => ne x (.inr (.inl hx))⟩
    · rw [ej]
      exact hc.congr fun x hx => ne x (by rcases hx with h | h <;> simp [h])
  · have h1 : whole (.node .leaf k .leaf) (⟨false, j, r⟩ :: fs) = (pre fs ++ (r.inord ++ [j])) ++ k :: post fs := by
      simp [whole, pre, post, BT.inord]
    rw [h1, List.perm_middle.nodup_iff, List.nodup_cons]
    simpa using And.intro hk' hn'
  · rw [eo none (by simp) (by simp)]; exact hs

/-- The values of the nodes are in order. -/
def SortedBy (lt : α → α → Bool) (v : Nat → α) (I : List Nat) : Prop := I.Pairwise fun i j => lt (v j) (v i) = false

theorem splayInsert_spec (hlt : StrictWeak lt) {v : Nat → α} {nd : Nodes} {base it k : Nat} {s0 : St α}
    (hit : it < base ∨ base + k < it) : ∀ (t : BT) {l r : BT} {j : Nat} {fs : List Fr} {s : St α}, t = .node l j r →
    s.cell = s0.cell → s.env = s0.env →
    At nd j t fs → (∀ i ∈ whole t fs, i < k) → (∀ i, i < k → s0.cell (base + i) = .val (v i)) →
    s0.cell it = .val (v k) → s0.cell (base + k) = .raw → SortedBy lt v (whole t fs) →
    (∀ i ∈ pre fs, lt (v k) (v i) = false) → (∀ i ∈ post fs, lt (v k) (v i) = true) →
    wp (splayInsert (tick lt) base nd it k (some j)) (fun nd' s' => ∃ a b A B, At nd' k (.node a k b) [] ∧
      (BT.node a k b).inord = A ++ k :: B ∧ whole t fs = A ++ B ∧ (∀ i ∈ A, lt (v k) (v i) = false) ∧
      (∀ i ∈ B, lt (v k) (v i) = true) ∧ s'.cell (base + k) = .val (v k) ∧ s'.cell it = .moved ∧
      (∀ i, i ≠ base + k → i ≠ it → s'.cell i = s0.cell i) ∧ s'.env = s0.env) s := by
  intro t
  induction t with
  | leaf => intro l r j fs s h; cases h
  | node l j r ihl ihr =>
    intro l' r' j' fs s ht hc he ha hb hv hi hr hso hpre hpost
    cases ht
    rw [splayInsert]
    have hj : j < k := hb j (by simp [whole, BT.inord])
    apply wp_bind
    refine wp_read' (by rw [hc]; exact hi) ?_
    apply wp_bind
    refine wp_read' (by rw [hc]; exact hv j hj) ?_
    wtick
    dsimp only
    have hso' : SortedBy lt v (pre fs ++ (l.inord ++ j :: (r.inord ++ post fs))) := by
      simpa [whole, BT.inord] using hso
    unfold SortedBy at hso'
    rw [List.pairwise_append, List.pairwise_append, List.pairwise_cons] at hso'
    have hkw : k ∉ whole (.node l j r) fs := fun h => Nat.lt_irrefl _ (hb k h)
    have fin : ∀ {nd1 : Nodes} {f : Fr} {s1 : St α} {A B : List Nat}, s1.cell = s0.cell → s1.env = s0.env →
        At nd1 k (.node .leaf k .leaf) (f :: fs) → whole (.node .leaf k .leaf) (f :: fs) = A ++ k :: B →
        whole (.node l j r) fs = A ++ B → (∀ i ∈ A, lt (v k) (v i) = false) →
        (∀ i ∈ B, lt (v k) (v i) = true) →
        wp (do
          constructFrom (base + k) it
          splay nd1 (some k) (nd1 (some k)).parent) (fun nd' s' => ∃ a b A B, At nd' k (.node a k b) [] ∧
          (BT.node a k b).inord = A ++ k :: B ∧ whole (.node l j r) fs = A ++ B ∧ (∀ i ∈ A, lt (v k) (v i) = false) ∧
          (∀ i ∈ B, lt (v k) (v i) = true) ∧ s'.cell (base + k) = .val (v k) ∧ s'.cell it = .moved ∧
          (∀ i, i ≠ base + k → i ≠ it → s'.cell i = s0.cell i) ∧ s'.env = s0.env) s1 := by
      intro nd1 f s1 A B c1 c2 c3 c4 c5 c6 c7
      apply wp_bind
      refine wp_constructFrom (by rw [c1]; exact hi) (by rw [c1]; exact hr) fun s2 d1 d2 _ _ => ?_
      refine wp_mono (splay_spec (s := s2) _ (Nat.lt_succ_self _) c3) ?_
      rintro nd' s' ⟨rfl, a, b, g1, g2⟩
      refine ⟨a, b, A, B, g1, g2.trans c4, c5, c6, c7, ?_, ?_, fun i e1 e2 => ?_, d2.trans c2⟩
      · rw [d1, sc_eq rfl]
      · rw [d1, sc_ne (by omega), sc_eq rfl]
      · rw [d1, sc_ne e1, sc_ne e2, c1]
    have hright : lt (v k) (v j) = true → ∀ i ∈ j :: (r.inord ++ post fs), lt (v k) (v i) = true := by
      intro h i hi
      rcases List.mem_cons.1 hi with e | e
      · rw [e]; exact h
      · exact hlt.lt_of_lt_of_le h (hso'.2.1.2.1.1 i e)
    have hleft : lt (v k) (v j) = false → ∀ i ∈ pre fs ++ (l.inord ++ [j]), lt (v k) (v i) = false := by
      intro h i hi
      simp only [List.mem_append, List.mem_singleton] at hi
      rcases hi with e | e | e
      · exact hpre i e
      · exact hlt.le_trans (hso'.2.1.2.2 i e j (by simp)) h
      · rw [e]; exact h
    split
    · rename_i hl
      split
      · rename_i hn
        cases l with
        | node a i b =>
          have := (ha.goLeft).1
          rw [this] at hn; cases hn
        | leaf =>
          refine fin (A := pre fs) (B := j :: (r.inord ++ post fs)) hc he (At.newLeft ha hkw) ?_ ?_ hpre (hright hl)
          · simp [whole, pre, post, BT.inord]
          · simp [whole, BT.inord]
      · rename_i hn
        cases l with
        | leaf =>
          have := ha.rep.2.2.1
          exact absurd this hn
        | node a i b =>
          have hg := ha.goLeft
          rw [hg.1]
          have hw : whole (.node a i b) (⟨true, j, r⟩ :: fs) = whole (.node (.node a i b) j r) fs := by
            simp [whole, pre, post, BT.inord]
          rw [← hw] at hb hso ⊢
          refine ihl rfl ?_ ?_ hg.2 hb hv hi hr hso hpre ?_
          · exact hc
          · exact he
          · simpa [post] using hright hl
    · rename_i hl
      have hl : lt (v k) (v j) = false := by simpa using hl
      split
      · rename_i hn
        cases r with
        | node a i b =>
          have := (ha.goRight).1
          rw [this] at hn; cases hn
        | leaf =>
          refine fin (A := pre fs ++ (l.inord ++ [j])) (B := post fs) hc he (At.newRight ha hkw) ?_ ?_ (hleft hl) hpost
          · simp [whole, pre, post, BT.inord]
          · simp [whole, BT.inord]
      · rename_i hn
        cases r with
        | leaf =>
          have := ha.rep.2.2.2
          exact absurd this hn
        | node a i b =>
          have hg := ha.goRight
          rw [hg.1]
          have hw : whole (.node a i b) (⟨false, j, l⟩ :: fs) = whole (.node l j (.node a i b)) fs := by
            simp [whole, pre, post, BT.inord]
          rw [← hw] at hb hso ⊢
          refine ihr rfl ?_ ?_ hg.2 hb hv hi hr hso ?_ hpost
          · exact hc
          · exact he
          · simpa [pre] using hleft hl

/-! ### The construction of the tree -/

/-- The tree of the first `k` elements. -/
structure SplayTree (lt : α → α → Bool) (v : Nat → α) (nd : Nodes) (k : Nat) (I : List Nat) : Prop where
  tree : ∃ a b, At nd (k - 1) (.node a (k - 1) b) [] ∧ (BT.node a (k - 1) b).inord = I
  perm : I.Perm (List.range k)
  sorted : SortedBy lt v I
  order : SameOrder lt ((List.range k).map v) (I.map v)

/-- The memory when `k` elements were moved to the nodes. -/
structure SplayMem (v : Nat → α) (f n base k : Nat) (s0 s : St α) : Prop where
  nodes : ∀ i, i < k → s.cell (base + i) = .val (v i)
  raw : ∀ i, k ≤ i → i < n → s.cell (base + i) = .raw
  moved : ∀ i, i < k → s.cell (f + i) = .moved
  rest : ∀ i, k ≤ i → i < n → s.cell (f + i) = .val (v i)
  out : ∀ i, (i < f ∨ f + n ≤ i) → (i < base ∨ base + n ≤ i) → s.cell i = s0.cell i
  env : s.env = s0.env

theorem sameOrder_insert (hlt : StrictWeak lt) {xs A B : List α} {x : α} (h : SameOrder lt xs (A ++ B))
    (hB : ∀ y ∈ B, lt x y = true) : SameOrder lt (xs ++ [x]) (A ++ x :: B) := by
  have h1 : SameOrder lt (xs ++ [x]) (A ++ B ++ [x]) := fun z => by
    have := h z
    simp only [List.filter_append] at this ⊢
    rw [this]
  have h2 := sameOrder_hop hlt A B [] x hB
  rw [List.append_nil] at h2
  rw [List.append_assoc] at h1
  exact h1.trans h2

theorem splayBuild_spec (hlt : StrictWeak lt) {v : Nat → α} {f n base : Nat} {s0 : St α}
    (hfb : f + n ≤ base) :
    ∀ (m k : Nat) (nd : Nodes) (s : St α) (I : List Nat), k + m = n → 0 < k → SplayTree lt v nd k I →
    SplayMem v f n base k s0 s →
    wp (splayBuild (tick lt) base nd (f + k) (f + n) k) (fun nd' s' => ∃ I', SplayTree lt v nd' n I' ∧
      SplayMem v f n base n s0 s') s := by
  intro m
  induction m with
  | zero =>
    intro k nd s I hk h0 ht hm
    rw [splayBuild, if_neg (by omega)]
    obtain rfl : k = n := by omega
    exact wp_pure ⟨I, ht, hm⟩
  | succ m ih =>
    intro k nd s I hk h0 ht hm
    rw [splayBuild, if_pos (by omega)]
    apply wp_bind
    obtain ⟨⟨a, b, t1, t2⟩, t3, t4, t5⟩ := ht
    have hw : whole (.node a (k - 1) b) [] = I := by simp [whole, pre, post, t2]
    refine wp_mono (splayInsert_spec hlt (v := v) (k := k) (it := f + k) (s0 := s) (by omega) _ rfl rfl rfl t1 ?_
      hm.nodes (hm.rest k (by omega) (by omega)) (hm.raw k (by omega) (by omega)) ?_ ?_ ?_) ?_
    · rw [hw]; intro i hi; exact List.mem_range.1 (t3.mem_iff.1 hi)
    · rw [hw]; exact t4
    · intro i hi; cases hi
    · intro i hi; cases hi
    · rintro nd' s' ⟨a', b', A, B, g1, g2, g3, g4, g5, g6, g7, g8, g9⟩
      rw [hw] at g3
      refine ih (k + 1) nd' s' (A ++ k :: B) (by omega) (by omega) ⟨⟨a', b', g1, g2⟩, ?_, ?_, ?_⟩ ?_
      · rw [List.range_succ]
        refine List.perm_middle.trans ?_
        rw [← g3]
        exact (List.perm_append_comm (l₁ := [k])).trans (t3.append_right _)
      · have := t4
        rw [g3] at this
        unfold SortedBy at this ⊢
        rw [List.pairwise_append] at this ⊢
        refine ⟨this.1, List.pairwise_cons.2 ⟨fun i hi => hlt.asymm (g5 i hi), this.2.1⟩, fun i hi j hj => ?_⟩
        rcases List.mem_cons.1 hj with e | e
        · rw [e]; exact g4 i hi
        · exact this.2.2 i hi j e
      · rw [List.range_succ, List.map_append, List.map_append, List.map_cons]
        refine sameOrder_insert hlt ?_ ?_
        · rw [← List.map_append, ← g3]; exact t5
        · intro y hy
          obtain ⟨i, hi, rfl⟩ := List.mem_map.1 hy
          exact g5 i hi
      · obtain ⟨m1, m2, m3, m4, m5, m6⟩ := hm
        constructor
        · intro i hi
          by_cases e : i = k
          · rw [e]; exact g6
          · rw [g8 _ (by omega) (by omega)]; exact m1 i (by omega)
        · intro i h1 h2; rw [g8 _ (by omega) (by omega)]; exact m2 i (by omega) h2
        · intro i hi
          by_cases e : i = k
          · rw [e]; exact g7
          · rw [g8 _ (by omega) (by omega)]; exact m3 i (by omega)
        · intro i h1 h2; rw [g8 _ (by omega) (by omega)]; exact m4 i (by omega) h2
        · intro i h1 h2; rw [g8 _ (by omega) (by omega)]; exact m5 i h1 h2
        · exact g9.trans m6

/-! ### The destroying move -/

/-- The chain of the parents whose turn is still to come, with their right subtrees. -/
def Todo (nd : Nodes) : Option Nat → List (Nat × BT) → Prop
  | p, [] => p = none
  | p, (j, t) :: js => p = some j ∧ Rep nd p (nd p).right t ∧ Todo nd (nd p).parent js

/-- The nodes of such a chain in order. -/
def todoList : List (Nat × BT) → List Nat
  | [] => []
  | (j, t) :: js => j :: (t.inord ++ todoList js)

theorem Todo.congr {nd nd' : Nodes} : ∀ {js : List (Nat × BT)} {p : Option Nat}, Todo nd p js →
    (∀ i ∈ todoList js, nd' (some i) = nd (some i)) → Todo nd' p js := by
  intro js
  induction js with
  | nil => intro p h _; exact h
  | cons jt js ih =>
    intro p h e
    obtain ⟨j, t⟩ := jt
    obtain ⟨rfl, h2, h3⟩ := h
    have ej := e j (by simp [todoList])
    refine ⟨rfl, ?_, ?_⟩
    · rw [ej]; exact h2.congr fun i hi => e i (by simp [todoList, hi])
    · rw [ej]; exact ih h3 fun i hi => e i (by simp [todoList, hi])

theorem splayLeftmost_spec {nd : Nodes} {s : St α} : ∀ (a : BT) {j : Nat} {b : BT} {pp : Option Nat}
    {js : List (Nat × BT)}, Rep nd pp (some j) (.node a j b) → Todo nd pp js →
    wp (splayLeftmost nd (some j)) (fun c s' => s' = s ∧ ∃ m t' js', c = some m ∧ Rep nd c (nd c).right t' ∧
      Todo nd (nd c).parent js' ∧ (BT.node a j b).inord ++ todoList js = m :: (t'.inord ++ todoList js')) s := by
  intro a
  induction a with
  | leaf =>
    intro j b pp js h ht
    obtain ⟨-, h2, h3, h4⟩ := h
    have h3 : (nd (some j)).left = none := h3
    rw [splayLeftmost, if_neg (by simp [h3])]
    refine wp_pure ⟨rfl, j, b, js, rfl, h4, ?_, by simp [BT.inord]⟩
    rw [h2]; exact ht
  | node a i c iha ihc =>
    intro j b pp js h ht
    obtain ⟨-, h2, h3, h4⟩ := h
    have h5 := h3.1
    rw [splayLeftmost, if_pos (by simp [h5]), h5]
    rw [h5] at h3
    refine wp_mono (iha h3 (js := (j, b) :: js) ⟨rfl, h4, by rw [h2]; exact ht⟩) ?_
    rintro _ s' ⟨rfl, m, t', js', e1, e2, e3, e4⟩
    refine ⟨rfl, m, t', js', e1, e2, e3, ?_⟩
    rw [← e4]; simp [todoList, BT.inord]

/-- The memory during the destroying move: `O` was output, `L` is to be output. -/
structure OutMem (v : Nat → α) (f n base : Nat) (s0 s : St α) (O L : List Nat) : Prop where
  seg : Seg s.cell f (O.map v)
  live : ∀ i, i < n → Live s.cell (f + i)
  nodes : ∀ i ∈ L, s.cell (base + i) = .val (v i)
  nlive : ∀ i, i < n → Live s.cell (base + i)
  out : ∀ i, (i < f ∨ f + n ≤ i) → (i < base ∨ base + n ≤ i) → s.cell i = s0.cell i
  brk : s.brk = s0.brk
  perm : (O ++ L).Perm (List.range n)

theorem splayOut_spec {v : Nat → α} {f n base : Nat} {s0 s : St α} {O L : List Nat} {k : Nat} (hfb : f + n ≤ base)
    (h : OutMem v f n base s0 s O (k :: L)) :
    wp (splayOut base (some k) (f + O.length)) (fun _ s' => OutMem v f n base s0 s' (O ++ [k]) L) s := by
  obtain ⟨h1, h2, h3, h4, h5, h6, h7⟩ := h
  have hl := h7.length_eq
  simp only [List.length_append, List.length_cons, List.length_range] at hl
  have hk : k < n := List.mem_range.1 (h7.mem_iff.1 (by simp))
  have hnd : (O ++ k :: L).Nodup := h7.nodup_iff.2 List.nodup_range
  unfold splayOut
  refine wp_moveTo' (by omega) (h3 k (by simp)) (h2 _ (by omega)) fun s1 d1 d2 _ _ => ?_
  constructor
  · rw [List.map_append, List.map_singleton, seg_snoc, List.length_map, d1]
    refine ⟨h1.congr fun i e1 e2 => ?_, ?_⟩
    · rw [List.length_map] at e2
      first | rw [sc_ne (by omega), sc_ne (by omega)] | skip
    · first | rw [sc_eq rfl] | rw [sc_ne (by omega), sc_eq rfl]
  · intro i hi
    rw [d1]
    by_cases e : i = O.length
    · subst e
      first | exact Live.val rfl | exact (Live.val rfl).out (by omega)
    · exact ((h2 i hi).out (by omega)).out (by omega)
  · intro i hi
    have hik : i ≠ k := by
      rintro rfl
      rw [List.nodup_append, List.nodup_cons] at hnd
      exact hnd.2.1.1 hi
    have hin : i < n := List.mem_range.1 (h7.mem_iff.1 (by simp [hi]))
    rw [d1, sc_ne (by omega), sc_ne (by omega)]
    exact h3 i (by simp [hi])
  · intro i hi
    rw [d1]
    by_cases e : i = k
    · subst e
      first | exact Live.moved rfl | exact (Live.moved rfl).out (by omega)
    · exact ((h4 i hi).out (by omega)).out (by omega)
  · intro i e1 e2
    rw [d1, sc_ne (by omega), sc_ne (by omega)]
    exact h5 i e1 e2
  · exact (St.env_brk d2).trans h6
  · simpa using h7

theorem splayMoveLoop_spec {v : Nat → α} {f n base : Nat} {s0 : St α} (hfb : f + n ≤ base) :
    ∀ (m : Nat) {nd : Nodes} {k : Nat} {t : BT} {js : List (Nat × BT)} {s : St α} {O : List Nat},
    (t.inord ++ todoList js).length < m → Rep nd (some k) (nd (some k)).right t →
    Todo nd (nd (some k)).parent js → (k :: (t.inord ++ todoList js)).Nodup →
    OutMem v f n base s0 s O (t.inord ++ todoList js) →
    wp (splayMoveLoop base nd (some k) (f + O.length)) (fun _ s' =>
      OutMem v f n base s0 s' (O ++ (t.inord ++ todoList js)) []) s := by
  intro m
  induction m with
  | zero => intro nd k t js s O h; omega
  | succ m ih =>
    intro nd k t js s O hm hr ht hn ho
    rw [splayMoveLoop]
    -- the next node, once it is known
    have next : ∀ {nd' : Nodes} {c : Option Nat} {j : Nat} {t' : BT} {js' : List (Nat × BT)}, c = some j →
        Rep nd' c (nd' c).right t' → Todo nd' (nd' c).parent js' →
        t.inord ++ todoList js = j :: (t'.inord ++ todoList js') →
        wp (do
          splayOut base c (f + O.length)
          splayMoveLoop base nd' c (f + O.length + 1)) (fun _ s' =>
            OutMem v f n base s0 s' (O ++ (t.inord ++ todoList js)) []) s := by
      intro nd' c j t' js' hc h1 h2 h3
      subst hc
      rw [h3] at ho hm hn ⊢
      apply wp_bind
      refine wp_mono (splayOut_spec hfb ho) ?_
      intro _ s1 ho1
      simp only [List.length_cons] at hm
      have := ih (by omega) h1 h2 (List.nodup_cons.1 hn).2 ho1
      rw [List.length_append, List.length_singleton, ← Nat.add_assoc] at this
      refine wp_mono this fun _ s2 h => ?_
      simpa using h
    cases t with
    | node a j b =>
      have hj := hr.1
      rw [if_pos (by simp [hj])]
      dsimp only
      rw [hj] at hr ⊢
      have hkj : (some k : Option Nat) ≠ some j := by
        intro e; cases e
        exact (List.nodup_cons.1 hn).1 (by simp [BT.inord])
      have e1 : ∀ i, some i ≠ (some k : Option Nat) → some i ≠ (some j : Option Nat) →
          ((nd.setParent (some j) (nd (some k)).parent).setRight (some k) none) (some i) = nd (some i) := by
        intro i h1 h2
        unfold Nodes.setRight Nodes.setParent
        rw [Nodes.set_ne h1, Nodes.set_ne h2]
      have e2 : ((nd.setParent (some j) (nd (some k)).parent).setRight (some k) none) (some j) =
          { nd (some j) with parent := (nd (some k)).parent } := by
        unfold Nodes.setRight Nodes.setParent
        rw [Nodes.set_ne hkj.symm, Nodes.set_eq]
      have hn2 := List.nodup_cons.1 hn
      have hn3 := List.nodup_append.1 hn2.2
      have hrep : Rep ((nd.setParent (some j) (nd (some k)).parent).setRight (some k) none)
          (nd (some k)).parent (some j) (.node a j b) := by
        refine hr.reparent hn3.1 ?_ ?_
        · intro i hi hne
          refine e1 i ?_ hne
          intro e; cases e; exact hn2.1 (by simp [hi])
        · intro i hi; exact e2
      have htodo : Todo ((nd.setParent (some j) (nd (some k)).parent).setRight (some k) none)
          (nd (some k)).parent js := by
        refine ht.congr fun i hi => e1 i ?_ ?_
        · intro e; cases e; exact hn2.1 (by simp [hi])
        · intro e; cases e; exact hn3.2.2 _ (by simp [BT.inord]) _ hi rfl
      apply wp_bind
      refine wp_mono (splayLeftmost_spec (s := s) a hrep htodo) ?_
      rintro c s' ⟨rfl, i, t', js', h1, h2, h3, h4⟩
      exact next h1 h2 h3 h4
    | leaf =>
      have hr : (nd (some k)).right = none := hr
      rw [if_neg (by simp [hr])]
      cases js with
      | nil =>
        have ht : (nd (some k)).parent = none := ht
        rw [if_neg (by simp [ht])]
        refine wp_pure ?_
        simpa [BT.inord, todoList] using ho
      | cons jt js =>
        obtain ⟨j, t'⟩ := jt
        obtain ⟨h1, h2, h3⟩ := ht
        rw [if_pos (by rw [h1]; simp)]
        exact next h1 h2 h3 (by simp [BT.inord, todoList])

theorem splayMoveTo_spec {v : Nat → α} {f n base : Nat} {s0 s : St α} (hfb : f + n ≤ base) {nd : Nodes} {k : Nat}
    {a b : BT} (h : At nd k (.node a k b) []) (ho : OutMem v f n base s0 s [] (BT.node a k b).inord) :
    wp (splayMoveTo base nd (some k) f) (fun _ s' =>
      OutMem v f n base s0 s' (BT.node a k b).inord []) s := by
  unfold splayMoveTo
  apply wp_bind
  have hp : (nd (some k)).parent = none := h.ctx
  have hr := h.rep
  rw [hp] at hr
  refine wp_mono (splayLeftmost_spec (s := s) (js := []) a hr rfl) ?_
  rintro c s' ⟨rfl, m, t', js', rfl, h2, h3, h4⟩
  simp only [todoList, List.append_nil] at h4
  have hnd := h.nodup
  simp only [whole, pre, post, List.append_nil, List.nil_append] at hnd
  rw [h4] at ho hnd ⊢
  apply wp_bind
  refine wp_mono (splayOut_spec hfb ho) ?_
  intro _ s1 ho1
  exact splayMoveLoop_spec hfb _ (Nat.lt_succ_self _) h2 h3 hnd ho1

/-! ### The sort -/

theorem splaysort_stable (hlt : StrictWeak lt) [Inhabited α] : SortsStably lt (splaysort (tick lt)) := by
  intro s f xs hw hs
  by_cases hlen : xs.length < 2
  · refine ⟨s, xs, ?_, rfl, hs, ⟨List.Perm.refl _, ?_, fun _ => rfl⟩, fun _ _ => rfl, hw⟩
    · simp only [splaysort, Nat.add_sub_cancel_left, if_pos hlen]; rfl
    · match xs, hlen with
      | [], _ => exact List.Pairwise.nil
      | [x], _ => exact List.pairwise_singleton _ _
  have hbrk := hs.below hw (by omega)
  obtain ⟨v, hv⟩ : ∃ v : Nat → α, ∀ i (h : i < xs.length), xs[i] = v i :=
    ⟨fun i => xs.getD i default, fun i h => by simp [h]⟩
  have hxs : xs = (List.range xs.length).map v := by
    apply List.ext_getElem (by simp)
    intro i h1 h2
    simp [hv i h1]
  have main : wp (splaysort (tick lt) f (f + xs.length)) (fun _ s' => ∃ ys, ys.length = xs.length ∧
      Seg s'.cell f ys ∧ (ys.Perm xs ∧ SortedList lt ys ∧ SameOrder lt xs ys) ∧
        (∀ i, i < f ∨ f + xs.length ≤ i → s'.cell i = s.cell i) ∧ s'.WF) s := by
    simp only [splaysort, Nat.add_sub_cancel_left, if_neg hlen]
    apply wp_bind
    refine wp_alloc fun s1 b1 b2 b3 _ _ _ => ?_
    apply wp_bind
    have hcell : ∀ i, i < xs.length → s1.cell (f + i) = .val (v i) := fun i hi => by
      rw [b2 _ (by omega), hs i hi, hv i hi]
    refine wp_constructFrom (a := v 0) (hcell 0 (by omega)) (b1 _ (by omega) (by omega)) fun s2 d1 d2 _ _ => ?_
    apply wp_bind
    have hmem : SplayMem v f xs.length s.brk 1 s1 s2 := by
      constructor
      · intro i hi
        obtain rfl : i = 0 := by omega
        rw [d1, Nat.add_zero, sc_eq rfl]
      · intro i h1 h2; rw [d1, sc_ne (by omega), sc_ne (by omega)]; exact b1 _ (by omega) (by omega)
      · intro i hi
        obtain rfl : i = 0 := by omega
        rw [d1, Nat.add_zero, sc_ne (by omega), sc_eq rfl]
      · intro i h1 h2; rw [d1, sc_ne (by omega), sc_ne (by omega)]; exact hcell i h2
      · intro i h1 h2; rw [d1, sc_ne (by omega), sc_ne (by omega)]
      · exact d2
    have htree : SplayTree lt v (Nodes.empty.set (some 0) ⟨none, none, none⟩) 1 [0] := by
      refine ⟨⟨.leaf, .leaf, ⟨⟨rfl, rfl, rfl, rfl⟩, rfl, by simp [whole, pre, post, BT.inord], rfl⟩, rfl⟩,
        List.Perm.refl _, List.pairwise_singleton _ _, fun _ => rfl⟩
    refine wp_mono (splayBuild_spec hlt hbrk (xs.length - 1) 1 _ s2 [0] (by omega) (by omega) htree hmem) ?_
    rintro nd s3 ⟨I, ⟨⟨a, b, t1, t2⟩, t3, t4, t5⟩, hm⟩
    apply wp_bind
    refine wp_mono (splayMoveTo_spec (v := v) (s0 := s1) hbrk t1 ?_) ?_
    · rw [t2]
      refine ⟨Seg.nil, fun i hi => .inl (hm.moved i hi), fun i hi => ?_, fun i hi => .of_val (hm.nodes i hi),
        hm.out, St.env_brk hm.env, t3⟩
      exact hm.nodes i (List.mem_range.1 (t3.mem_iff.1 hi))
    · intro _ s4 ho
      rw [t2] at ho
      apply wp_bind
      refine wp_mono (destroyN_spec xs.length s.brk s4 fun k h1 h2 => ?_) ?_
      · have := ho.nlive (k - s.brk) (by omega)
        rwa [show s.brk + (k - s.brk) = k by omega] at this
      · rintro _ s5 ⟨e1, e2, e3, _, _⟩
        refine wp_free e1 fun s6 c1 c2 c3 _ _ => ?_
        have hlI : I.length = xs.length := by rw [t3.length_eq, List.length_range]
        refine ⟨I.map v, by rw [List.length_map, hlI], ?_, ⟨?_, ?_, ?_⟩, fun i hi => ?_, fun i hi => ?_⟩
        · refine ho.seg.congr fun i h1 h2 => ?_
          rw [List.length_map, hlI] at h2
          rw [c2 i (by omega), e2 i (by omega)]
        · rw [hxs]; simpa using t3.map v
        · exact List.pairwise_map.2 t4
        · rw [hxs]; simpa using t5
        · by_cases hb : s.brk ≤ i ∧ i < s.brk + xs.length
          · rw [c1 i hb.1 hb.2, hw i hb.1]
          · rw [c2 i (by omega), e2 i (by omega), ho.out i hi (by omega), b2 i (by omega)]
        · have hb : s6.brk = s.brk + xs.length := by
            rw [← b3]
            exact (St.env_brk (c3.trans e3)).trans ho.brk
          rw [hb] at hi
          rw [c2 i (by omega), e2 i (by omega), ho.out i (by omega) (by omega), b2 i (by omega)]
          exact hw i (by omega)
  obtain ⟨_, s', h1, ys, h2, h3, h4, h5, h6⟩ := main
  exact ⟨s', ys, h1, h2, h3, h4, h5, h6⟩

end CppSort
