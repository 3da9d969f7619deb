import Verif.Model.Slab
import Verif.Proof.RotateGcd
import Verif.Proof.MergeSort
import Verif.Proof.Encroach
/-
stable_partition.h.
-/
set_option autoImplicit false

namespace CppSort
variable {α : Type} {lt : α → α → Bool}

theorem Frame.sub {f l f' l' : Nat} {s s' : St α} (h : Frame f' l' s s') (h1 : f ≤ f') (h2 : l' ≤ l) :
    Frame f l s s' := ⟨fun i hi => h.cell i (by omega), h.brk⟩

theorem Frame.of_env {f l : Nat} {s s' : St α} (h : s'.env = s.env)
    (hc : ∀ i, i < f ∨ l ≤ i → s'.cell i = s.cell i) : Frame f l s s' := ⟨hc, EnvLe.of_env h⟩

theorem Frame.wf {f l : Nat} {s s' : St α} (h : Frame f l s s') (hw : s.WF) (hl : f < l → l ≤ s.brk) :
    s'.WF := by
  intro i hi
  have := h.brk.1
  rw [h.cell i (by omega)]
  exact hw i (by omega)

theorem rotate_seg [Inhabited α] (c : Cfg) {f m l : Nat} {a b : List α} {s : St α}
    (h : Seg s.cell f (a ++ b)) (hm : m = f + a.length) (hl : l = m + b.length) :
    wp (rotate c f m l) (fun r s' => r = f + b.length ∧ Seg s'.cell f (b ++ a) ∧ Frame f l s s') s := by
  obtain ⟨v, hv, he⟩ := h.holds
  rw [List.length_append, show f + (a.length + b.length) = l by omega] at hv he
  refine wp_mono (rotate_spec c (f := f) (m := m) (l := l) (by omega) (by omega) hv) ?_
  rintro r s' ⟨h1, v', h2⟩
  refine ⟨by omega, ?_, h2.frame⟩
  have e := h2.rot.lst (by omega) (by omega)
  rw [lst_append (m := m) (by omega) (by omega)] at he
  have hi := List.append_inj he (by rw [lst_length]; omega)
  rw [hi.1, hi.2] at e
  rw [← e]
  exact h2.holds.seg

/-- `pred` computes `P` on the elements, as long as the cell `piv` holds `a` if it depends on it. -/
def PredOk (pred : Nat → M α Bool) (P : α → Bool) (dep : Bool) (piv : Nat) (a : α) : Prop :=
  ∀ (s : St α) (i : Nat) (x : α), (dep = true → s.cell piv = .val a) → s.cell i = .val x →
    RunsAt s (pred i) (fun r => r = P x)

section
variable {pred : Nat → M α Bool} {P : α → Bool} {dep : Bool} {piv : Nat} {a : α}

theorem filter_all_false {xs : List α} (h : ∀ x ∈ xs, P x = false) :
    xs.filter P = [] ∧ xs.filter (!P ·) = xs :=
  ⟨List.filter_eq_nil_iff.2 fun x hx => by rw [h x hx]; simp,
    List.filter_eq_self.2 fun x hx => by rw [h x hx]; rfl⟩

theorem filter_all_true {xs : List α} (h : ∀ x ∈ xs, P x = true) :
    xs.filter P = xs ∧ xs.filter (!P ·) = [] :=
  ⟨List.filter_eq_self.2 fun x hx => h x hx,
    List.filter_eq_nil_iff.2 fun x hx => by rw [h x hx]; simp⟩

/-- State of the pass that distributes the elements between the front of the range and the buffer. -/
structure SpInv (f it last buf bn : Nat) (T F zs : List α) (z : α) (s0 s : St α) : Prop where
  segT : Seg s.cell f T
  gap : ∀ i, f + T.length ≤ i → i < it → Live s.cell i
  segZ : Seg s.cell it zs
  lastv : s.cell last = .val z
  segF : Seg s.cell buf F
  raw : ∀ i, buf + F.length ≤ i → i < buf + bn → s.cell i = .raw
  len : it = f + T.length + F.length
  lenZ : it + zs.length = last
  out : ∀ i, (i < f ∨ last < i) → (i < buf ∨ buf + bn ≤ i) → s.cell i = s0.cell i
  env : s.env = s0.env

theorem spMoveLoop_spec (hP : PredOk pred P dep piv a) {f last buf bn : Nat} {z : α} {s0 : St α}
    (hd : buf + bn ≤ f ∨ last < buf) (hn : last + 1 ≤ f + bn) (hpv : dep = true → s0.cell piv = .val a)
    (hp1 : piv < f ∨ last < piv) (hp2 : dep = true → piv < buf ∨ buf + bn ≤ piv) :
    ∀ (zs : List α) (it : Nat) (T F : List α) (s : St α), 0 < F.length →
    SpInv f it last buf bn T F zs z s0 s →
    wp (spMoveLoop pred (f + T.length) it last (buf + F.length)) (fun r s' =>
      r = (f + (T ++ zs.filter P).length, buf + (F ++ zs.filter (!P ·)).length) ∧
      SpInv f last last buf bn (T ++ zs.filter P) (F ++ zs.filter (!P ·)) [] z s0 s') s := by
  intro zs
  induction zs with
  | nil =>
    intro it T F s hF h
    have := h.lenZ
    simp only [List.length_nil] at this
    obtain rfl : it = last := by omega
    rw [spMoveLoop, if_neg (by simp)]
    refine wp_pure ⟨by simp, ?_⟩
    simpa using h
  | cons x zs ih =>
    intro it T F s hF h
    have hl := h.len
    have hz := h.lenZ
    simp only [List.length_cons] at hz
    obtain ⟨hx, hzs⟩ := seg_cons.1 h.segZ
    rw [spMoveLoop, if_pos (by omega)]
    apply wp_bind
    refine wp_mono ((hP s it x (fun hd => (h.out _ hp1 (hp2 hd)).trans (hpv hd)) hx).wp) ?_
    rintro _ _ ⟨⟨k, rfl⟩, rfl⟩
    split
    · rename_i hp
      apply wp_bind
      refine wp_moveTo' (a := x) (by omega) hx (h.gap _ (by omega) (by omega)) fun s1 e1 e2 _ _ => ?_
      have e1 : s1.cell = setCell (setCell s.cell it .moved) (f + T.length) (.val x) := e1
      have hh : SpInv f (it + 1) last buf bn (T ++ [x]) F zs z s0 s1 := by
        refine ⟨?_, fun i h1 h2 => ?_, ?_, ?_, ?_, fun i h1 h2 => ?_, ?_, by omega, fun i h1 h2 => ?_,
          e2.trans h.env⟩
        · rw [e1]
          refine seg_snoc.2 ⟨(h.segT.out (by omega)).out (by omega), sc_eq rfl⟩
        · rw [e1]
          simp only [List.length_append, List.length_cons, List.length_nil] at h1
          by_cases e : i = it
          · exact (Live.moved e).out (by omega)
          · exact ((h.gap i (by omega) (by omega)).out (by omega)).out (by omega)
        · rw [e1]; exact (hzs.out (by omega)).out (by omega)
        · rw [e1, sc_ne (by omega), sc_ne (by omega)]; exact h.lastv
        · rw [e1]; exact (h.segF.out (by omega)).out (by omega)
        · rw [e1, sc_ne (by omega), sc_ne (by omega)]; exact h.raw i h1 h2
        · simp only [List.length_append, List.length_cons, List.length_nil]; omega
        · rw [e1, sc_ne (by omega), sc_ne (by omega)]; exact h.out i h1 h2
      have g := ih (it + 1) (T ++ [x]) F s1 hF hh
      rw [List.filter_cons_of_pos hp, List.filter_cons_of_neg (by simp [hp])]
      rw [show f + (T ++ [x]).length = f + T.length + 1 by simp; omega] at g
      rw [List.append_assoc] at g
      exact g
    · rename_i hp
      apply wp_bind
      refine wp_constructFrom (a := x) hx (h.raw _ (by omega) (by omega)) fun s1 e1 e2 _ _ => ?_
      have e1 : s1.cell = setCell (setCell s.cell it .moved) (buf + F.length) (.val x) := e1
      have hh : SpInv f (it + 1) last buf bn T (F ++ [x]) zs z s0 s1 := by
        refine ⟨?_, fun i h1 h2 => ?_, ?_, ?_, ?_, fun i h1 h2 => ?_, ?_, by omega, fun i h1 h2 => ?_,
          e2.trans h.env⟩
        · rw [e1]
          exact (h.segT.out (by omega)).out (by omega)
        · rw [e1]
          by_cases e : i = it
          · exact (Live.moved e).out (by omega)
          · exact ((h.gap i (by omega) (by omega)).out (by omega)).out (by omega)
        · rw [e1]; exact (hzs.out (by omega)).out (by omega)
        · rw [e1, sc_ne (by omega), sc_ne (by omega)]; exact h.lastv
        · rw [e1]
          refine seg_snoc.2 ⟨(h.segF.out (by omega)).out (by omega), sc_eq rfl⟩
        · simp only [List.length_append, List.length_cons, List.length_nil] at h1
          rw [e1, sc_ne (by omega), sc_ne (by omega)]; exact h.raw i (by omega) h2
        · simp only [List.length_append, List.length_cons, List.length_nil]; omega
        · rw [e1, sc_ne (by omega), sc_ne (by omega)]; exact h.out i h1 h2
      have g := ih (it + 1) T (F ++ [x]) s1 (by simp) hh
      rw [List.filter_cons_of_neg hp, List.filter_cons_of_pos (by simpa using hp)]
      rw [show buf + (F ++ [x]).length = buf + F.length + 1 by simp; omega] at g
      rw [List.append_assoc F] at g
      exact g

theorem spMoveBack_spec : ∀ (zs : List α) (t2 it : Nat) (s : St α), Seg s.cell t2 zs →
    (∀ i, it ≤ i → i < it + zs.length → Live s.cell i) →
    (t2 + zs.length ≤ it ∨ it + zs.length ≤ t2) →
    wp (spMoveBack t2 (t2 + zs.length) it) (fun _ s' => Seg s'.cell it zs ∧
      (∀ i, t2 ≤ i → i < t2 + zs.length → Live s'.cell i) ∧
      (∀ i, (i < it ∨ it + zs.length ≤ i) → (i < t2 ∨ t2 + zs.length ≤ i) → s'.cell i = s.cell i) ∧
      s'.env = s.env) s := by
  intro zs
  induction zs with
  | nil =>
    intro t2 it s _ _ _
    rw [spMoveBack, if_neg (by simp)]
    exact wp_pure ⟨Seg.nil, fun i h1 h2 => by simp at h2; omega, fun _ _ _ => rfl, rfl⟩
  | cons z zs ih =>
    intro t2 it s hs hl hd
    simp only [List.length_cons] at hl hd ⊢
    obtain ⟨hz, hs⟩ := seg_cons.1 hs
    rw [spMoveBack, if_pos (by omega)]
    apply wp_bind
    refine wp_moveTo' (by omega) hz (hl it (by omega) (by omega)) fun s1 e1 e2 _ _ => ?_
    have g := ih (t2 + 1) (it + 1) s1 ?_ ?_ (by omega)
    · rw [show t2 + 1 + zs.length = t2 + (zs.length + 1) by omega] at g
      refine wp_mono g ?_
      rintro _ s' ⟨g1, g2, g3, g4⟩
      refine ⟨seg_cons.2 ⟨?_, g1⟩, fun i h1 h2 => ?_, fun i h1 h2 => ?_, g4.trans e2⟩
      · rw [g3 it (by omega) (by omega), e1]; exact sc_eq rfl
      · by_cases e : i = t2
        · unfold Live
          rw [g3 i (by omega) (by omega), e1]
          exact (Live.moved e).out (by omega)
        · exact g2 i (by omega) (by omega)
      · rw [g3 i (by omega) (by omega), e1, sc_ne (by omega), sc_ne (by omega)]
    · rw [e1]; exact (hs.out (by omega)).out (by omega)
    · intro i h1 h2
      rw [e1]; exact ((hl i (by omega) (by omega)).out (by omega)).out (by omega)

theorem raw_disj {c : Nat → Cell α} {f buf bn : Nat} {xs : List α} (hr : RawBuf c buf bn)
    (h : Seg c f xs) (hb : 0 < bn) : buf + bn ≤ f ∨ f + xs.length ≤ buf ∨ xs.length = 0 := by
  by_contra hc
  have h1 := h (max buf f - f) (by omega)
  rw [hr _ (by omega) (by omega)] at h1
  cases h1

theorem spBuffered_spec (hP : PredOk pred P dep piv a) {f buf bn : Nat} {x z : α} {zs : List α} {s : St α}
    (hx : P x = false) (hz : P z = true) (hs : Seg s.cell f (x :: zs ++ [z])) (hr : RawBuf s.cell buf bn)
    (hn : zs.length + 2 ≤ bn) (hpv : dep = true → s.cell piv = .val a) (hp1 : piv < f ∨ f + zs.length + 1 < piv) :
    wp (spBuffered pred f (f + zs.length + 1) buf) (fun r s' =>
      r = f + ((x :: zs ++ [z]).filter P).length ∧
      Seg s'.cell f ((x :: zs ++ [z]).filter P ++ (x :: zs ++ [z]).filter (!P ·)) ∧
      s'.env = s.env ∧ (∀ i, i < f ∨ f + (zs.length + 2) ≤ i → s'.cell i = s.cell i)) s := by
  have hd := raw_disj hr hs (by omega)
  simp only [List.length_append, List.length_cons, List.length_nil] at hd
  have hp2 : dep = true → piv < buf ∨ buf + bn ≤ piv := by
    intro hd
    by_contra hc
    have := hpv hd
    rw [hr piv (by omega) (by omega)] at this
    cases this
  rw [List.cons_append, seg_cons, seg_snoc] at hs
  obtain ⟨h1, h2, h3⟩ := hs
  have e1 : (x :: zs ++ [z]).filter P = zs.filter P ++ [z] := by
    rw [List.filter_append, List.filter_cons_of_neg (by simp [hx]), List.filter_cons_of_pos hz]; rfl
  have e2 : (x :: zs ++ [z]).filter (!P ·) = x :: zs.filter (!P ·) := by
    rw [List.filter_append, List.filter_cons_of_pos (by simp [hx]),
      List.filter_cons_of_neg (a := z) (by simp [hz])]; simp
  rw [e1, e2]
  have hlen : (zs.filter P).length + (zs.filter (!P ·)).length = zs.length := by
    have := (List.filter_append_perm P zs).length_eq
    rwa [List.length_append] at this
  unfold spBuffered
  apply wp_bind
  refine wp_constructFrom h1 (hr buf (by omega) (by omega)) fun s1 c1 c2 _ _ => ?_
  have hi : SpInv f (f + 1) (f + zs.length + 1) buf bn [] [x] zs z s s1 := by
    refine ⟨Seg.nil, fun i g1 g2 => ?_, ?_, ?_, ?_, fun i g1 g2 => ?_, by simp, by omega,
      fun i g1 g2 => ?_, c2⟩
    · rw [c1]
      exact (Live.moved (by simp at g1; omega)).out (by omega)
    · rw [c1]; exact (h2.out (by omega)).out (by omega)
    · rw [c1, sc_ne (by omega), sc_ne (by omega), ← h3]; congr 1; omega
    · rw [c1]; exact seg_one.2 (sc_eq rfl)
    · simp only [List.length_cons, List.length_nil] at g1
      rw [c1, sc_ne (by omega), sc_ne (by omega)]; exact hr i (by omega) g2
    · rw [c1, sc_ne (by omega), sc_ne (by omega)]
  apply wp_bind
  have g := spMoveLoop_spec hP (bn := bn) (by omega) (by omega) hpv (by omega) hp2 zs (f + 1) [] [x] s1
    (by simp) hi
  refine wp_mono g ?_
  rintro _ s2 ⟨rfl, q⟩
  dsimp only
  rw [List.nil_append, List.cons_append, List.nil_append] at q ⊢
  simp only [List.length_cons] 
  have ql := q.len
  simp only [List.length_cons] at ql
  apply wp_bind
  refine wp_moveTo' (by omega) q.lastv (q.gap _ (by omega) (by omega)) fun s3 d1 d2 _ _ => ?_
  apply wp_bind
  have qF := q.segF
  have g2 := spMoveBack_spec (x :: zs.filter (!P ·)) buf (f + (zs.filter P).length + 1) s3 ?_ ?_ ?_
  · simp only [List.length_cons] at g2
    refine wp_mono g2 ?_
    rintro _ s4 ⟨w1, w2, w3, w4⟩
    apply wp_bind
    have g3 := destroyN_spec ((zs.filter (!P ·)).length + 1) buf s4 w2
    rw [show buf + ((zs.filter (!P ·)).length + 1) - buf = (zs.filter (!P ·)).length + 1 by omega]
    refine wp_mono g3 ?_
    rintro _ s5 ⟨u1, u2, u3, -, -⟩
    refine wp_pure ⟨by simp only [List.length_append, List.length_cons, List.length_nil]; omega, ?_, ?_, ?_⟩
    · rw [seg_append]
      refine ⟨seg_snoc.2 ⟨?_, ?_⟩, ?_⟩
      · refine q.segT.congr fun i y1 y2 => ?_
        rw [u2 i (by omega), w3 i (by omega) (by omega), d1, sc_ne (by omega), sc_ne (by omega)]
      · rw [u2 _ (by omega), w3 _ (by omega) (by omega), d1]; exact sc_eq rfl
      · rw [List.length_append, List.length_cons, List.length_nil, Nat.zero_add, ← Nat.add_assoc]
        refine w1.congr fun i y1 y2 => ?_
        simp only [List.length_cons] at y2
        exact u2 i (by omega)
    · exact u3.trans (w4.trans (d2.trans q.env))
    · intro i hi
      by_cases hb : buf ≤ i ∧ i < buf + bn
      · rw [hr i hb.1 hb.2]
        by_cases hb2 : i < buf + ((zs.filter (!P ·)).length + 1)
        · exact u1 i hb.1 hb2
        · rw [u2 i (by omega), w3 i (by omega) (by omega), d1, sc_ne (by omega), sc_ne (by omega)]
          exact q.raw i (by simp only [List.length_cons]; omega) hb.2
      · rw [u2 i (by omega), w3 i (by omega) (by omega), d1, sc_ne (by omega), sc_ne (by omega)]
        exact q.out i (by omega) (by omega)
  · rw [d1]; 
    refine (qF.out ?_).out ?_ <;> simp only [List.length_cons] <;> omega
  · intro i y1 y2
    simp only [List.length_cons] at y2
    rw [d1]
    by_cases e : i = f + zs.length + 1
    · exact (Live.moved e).out (by omega)
    · exact ((q.gap i (by omega) (by omega)).out e).out (by omega)
  · simp only [List.length_cons]; omega

theorem spScanLeft_at (hP : PredOk pred P dep piv a) {f : Nat} {s : St α} (hpv : dep = true → s.cell piv = .val a) :
    ∀ (n : Nat) (pre suf : List α), pre.length = n → 0 < n → Seg s.cell f pre → (∀ x ∈ suf, P x = false) →
    RunsAt s (spScanLeft pred f (f + pre.length) pre.length) (fun r => match r with
      | none => ∀ x ∈ pre ++ suf, P x = false
      | some (m1, lh) => ∃ A1 y A2, pre ++ suf = A1 ++ [y] ++ A2 ∧ P y = true ∧ (∀ x ∈ A2, P x = false) ∧
          m1 = f + A1.length ∧ lh = A1.length + 1 ∧ A1.length < pre.length) := by
  intro n
  induction n with
  | zero => intro pre suf _ h; omega
  | succ n ih =>
    intro pre suf hn _ hs hf
    obtain ⟨pre, y, rfl⟩ : ∃ p y, pre = p ++ [y] := by
      rcases List.eq_nil_or_concat pre with h | ⟨p, y, h⟩
      · subst h; simp at hn
      · exact ⟨p, y, by rw [h, List.concat_eq_append]⟩
    rw [spScanLeft]
    simp only [List.length_append, List.length_cons, List.length_nil, Nat.zero_add] at hn ⊢
    obtain ⟨hs1, hs2⟩ := seg_snoc.1 hs
    rw [show f + (pre.length + 1) - 1 = f + pre.length by omega]
    refine (hP s _ y hpv hs2).bind fun r hr => ?_
    subst hr
    split
    · rename_i hy
      have hy : P y = false := by simpa using hy
      have hf' : ∀ x ∈ y :: suf, P x = false := by
        intro x hx
        rcases List.mem_cons.1 hx with e | e
        · rw [e]; exact hy
        · exact hf x e
      split
      · rename_i h0
        have : pre = [] := List.length_eq_zero_iff.1 (by omega)
        subst this
        exact RunsAt.pure (by simpa using hf')
      · have := ih pre (y :: suf) (by omega) (by omega) hs1 hf'
        rw [show pre.length + 1 - 1 = pre.length by omega]
        refine this.mono ?_
        intro r hr
        rw [show pre ++ [y] ++ suf = pre ++ y :: suf by simp]
        match r, hr with
        | none, hr => exact hr
        | some (m1, lh), ⟨A1, y', A2, t1, t2, t3, t4, t5, t6⟩ => exact ⟨A1, y', A2, t1, t2, t3, t4, t5, by omega⟩
    · rename_i hy
      exact RunsAt.pure ⟨pre, y, suf, rfl, by simpa using hy, hf, rfl, rfl, by omega⟩

theorem spScanRight_at (hP : PredOk pred P dep piv a) {m last : Nat} {s : St α} (hpv : dep = true → s.cell piv = .val a) {z : α}
    (hz : P z = true) :
    ∀ (n : Nat) (pre suf : List α), suf.length = n → 0 < n → Seg s.cell m (pre ++ suf ++ [z]) →
    last = m + pre.length + suf.length → (∀ x ∈ pre, P x = true) →
    RunsAt s (spScanRight pred (m + pre.length) last (suf.length + 1)) (fun r => match r with
      | none => ∀ x ∈ pre ++ suf ++ [z], P x = true
      | some (m1, lh) => ∃ B1 y B2, pre ++ suf = B1 ++ y :: B2 ∧ P y = false ∧ (∀ x ∈ B1, P x = true) ∧
          m1 = m + B1.length ∧ lh = B2.length + 2) := by
  intro n
  induction n with
  | zero => intro pre suf _ h; omega
  | succ n ih =>
    intro pre suf hn _ hs hl hf
    match suf, hn with
    | y :: suf, hn =>
      simp only [List.length_cons] at hn hl ⊢
      rw [spScanRight]
      have hy : s.cell (m + pre.length) = .val y := by
        rw [List.append_assoc, seg_append, List.cons_append, seg_cons] at hs
        exact hs.2.1
      refine (hP s _ y hpv hy).bind fun r hr => ?_
      subst hr
      split
      · rename_i hy
        have hf' : ∀ x ∈ pre ++ [y], P x = true := by
          intro x hx
          rcases List.mem_append.1 hx with e | e
          · exact hf x e
          · rw [List.mem_singleton.1 e]; exact hy
        dsimp only
        split
        · have : suf = [] := List.length_eq_zero_iff.1 (by omega)
          subst this
          refine RunsAt.pure ?_
          intro x hx
          rcases List.mem_append.1 hx with e | e
          · exact hf' x e
          · rw [List.mem_singleton.1 e]; exact hz
        · have := ih (pre ++ [y]) suf (by omega) (by omega) (by simpa using hs) (by simp; omega) hf'
          rw [show suf.length + 1 + 1 - 1 = suf.length + 1 by omega]
          rw [show m + (pre ++ [y]).length = m + pre.length + 1 by simp; omega] at this
          refine this.mono ?_
          intro r hr
          rw [show pre ++ y :: suf = pre ++ [y] ++ suf by simp]
          exact hr
      · rename_i hy
        exact RunsAt.pure ⟨pre, y, suf, rfl, by simpa using hy, hf, rfl, by omega⟩

theorem Frame.raw {f l buf bn : Nat} {s s' : St α} {xs : List α} (h : Frame f l s s')
    (hr : RawBuf s.cell buf bn) (hs : Seg s.cell f xs) (hl : l = f + xs.length) :
    RawBuf s'.cell buf bn := by
  intro k h1 h2
  have := raw_disj hr hs (by omega)
  rw [h.cell k (by omega)]
  exact hr k h1 h2

theorem stablePartitionBuf_spec [Inhabited α] (c : Cfg) (hP : PredOk pred P dep piv a) (b : Buf) :
    ∀ (n : Nat) (f : Nat) (x z : α) (zs : List α) (s : St α), zs.length = n →
    P x = false → P z = true → Seg s.cell f (x :: zs ++ [z]) → RawBuf s.cell b.ptr b.size →
    (dep = true → s.cell piv = .val a) → (piv < f ∨ f + zs.length + 1 < piv) →
    wp (stablePartitionBuf c pred f (f + zs.length + 1) (zs.length + 2) b) (fun r s' =>
      r = f + ((x :: zs ++ [z]).filter P).length ∧
      Seg s'.cell f ((x :: zs ++ [z]).filter P ++ (x :: zs ++ [z]).filter (!P ·)) ∧
      Frame f (f + (zs.length + 2)) s s') s := by
  intro n
  induction n using Nat.strongRecOn with
  | _ n ih =>
    intro f x z zs s hn hx hz hs hr hpv hp1
    have fx : ∀ ys : List α, (x :: ys).filter P = ys.filter P := fun ys =>
      List.filter_cons_of_neg (by simp [hx])
    have fx' : ∀ ys : List α, (x :: ys).filter (!P ·) = x :: ys.filter (!P ·) := fun ys =>
      List.filter_cons_of_pos (by simp [hx])
    have fz : [z].filter P = [z] := List.filter_cons_of_pos hz
    have fz' : [z].filter (!P ·) = [] := List.filter_cons_of_neg (by simp [hz])
    rw [stablePartitionBuf]
    split
    · rename_i h2
      have : zs = [] := List.length_eq_zero_iff.1 (by omega)
      subst this
      obtain ⟨g1, g2⟩ := seg_cons.1 hs
      have g2 := seg_one.1 g2
      apply wp_bind
      refine wp_swap' g1 g2 fun s1 c1 c2 _ _ => ?_
      refine wp_pure ⟨?_, ?_, Frame.of_env c2 fun i hi => ?_⟩
      · rw [List.cons_append, fx, List.nil_append, fz]; rfl
      · rw [List.cons_append, fx, fx', List.nil_append, fz, fz', c1]
        exact seg_cons.2 ⟨by rw [sc_ne (by simp), sc_eq rfl], seg_one.2 (sc_eq rfl)⟩
      · simp only [List.length_nil] at hi
        rw [c1, sc_ne (by simp; omega), sc_ne (by omega)]
    split
    · rename_i h2 h3
      obtain ⟨y, rfl⟩ := List.length_eq_one_iff.1 (show zs.length = 1 by omega)
      obtain ⟨g1, g2⟩ := seg_cons.1 hs
      obtain ⟨g2, g3⟩ := seg_cons.1 g2
      have g3 := seg_one.1 g3
      apply wp_bind
      refine wp_mono ((hP s (f + 1) y hpv g2).wp) ?_
      rintro _ _ ⟨⟨k, rfl⟩, rfl⟩
      split
      · rename_i hy
        apply wp_bind
        refine wp_swap' (a := x) (b := y) g1 g2 fun s1 c1 c2 _ _ => ?_
        have c1 : s1.cell = setCell (setCell s.cell f (.val y)) (f + 1) (.val x) := c1
        apply wp_bind
        refine wp_swap' (a := x) (b := z) (by rw [c1]; exact sc_eq rfl)
          (by rw [c1, sc_ne (by simp), sc_ne (by simp; omega)]; exact g3) fun s2 d1 d2 _ _ => ?_
        have fl : (x :: [y] ++ [z]).filter P = [y, z] := by
          rw [List.cons_append, fx, List.filter_append, fz, List.filter_cons_of_pos hy]; rfl
        have fl' : (x :: [y] ++ [z]).filter (!P ·) = [x] := by
          rw [List.cons_append, fx', List.filter_append, fz', List.filter_cons_of_neg (by simp [hy])]; rfl
        refine wp_pure ⟨by rw [fl]; rfl, ?_, Frame.of_env (d2.trans c2) fun i hi => ?_⟩
        · rw [fl, fl', d1, c1]
          refine seg_cons.2 ⟨?_, seg_cons.2 ⟨?_, seg_one.2 (sc_eq rfl)⟩⟩
          · rw [sc_ne (by simp; omega), sc_ne (by simp), sc_ne (by simp), sc_eq rfl]
          · rw [sc_ne (by simp), sc_eq rfl]
        · simp only [List.length_cons, List.length_nil] at hi
          rw [d1, c1, sc_ne (by simp; omega), sc_ne (by omega), sc_ne (by omega), sc_ne (by omega)]
      · rename_i hy
        have hy : P y = false := by simpa using hy
        apply wp_bind
        refine wp_swap' (a := y) (b := z) g2 g3 fun s1 c1 c2 _ _ => ?_
        have c1 : s1.cell = setCell (setCell s.cell (f + 1) (.val z)) (f + 1 + 1) (.val y) := c1
        apply wp_bind
        refine wp_swap' (a := x) (b := z) (by rw [c1, sc_ne (by omega), sc_ne (by omega)]; exact g1)
          (by rw [c1, sc_ne (by omega), sc_eq rfl]) fun s2 d1 d2 _ _ => ?_
        have fl : (x :: [y] ++ [z]).filter P = [z] := by
          rw [List.cons_append, fx, List.filter_append, fz, List.filter_cons_of_neg (by simp [hy])]; rfl
        have fl' : (x :: [y] ++ [z]).filter (!P ·) = [x, y] := by
          rw [List.cons_append, fx', List.filter_append, fz', List.filter_cons_of_pos (by simp [hy])]; rfl
        refine wp_pure ⟨by rw [fl]; rfl, ?_, Frame.of_env (d2.trans c2) fun i hi => ?_⟩
        · rw [fl, fl', d1, c1]
          refine seg_cons.2 ⟨?_, seg_cons.2 ⟨?_, seg_one.2 ?_⟩⟩
          · rw [sc_ne (by omega), sc_eq rfl]
          · rw [sc_eq rfl]
          · rw [sc_ne (by omega), sc_ne (by omega), sc_eq rfl]
        · simp only [List.length_cons, List.length_nil] at hi
          rw [d1, c1, sc_ne (by omega), sc_ne (by omega), sc_ne (by omega), sc_ne (by omega)]
    split
    · rename_i h2 h3 h4
      refine wp_mono (spBuffered_spec hP hx hz hs hr (by omega) hpv hp1) ?_
      rintro r s' ⟨g1, g2, g3, g4⟩
      exact ⟨g1, g2, Frame.of_env g3 g4⟩
    · rename_i h2 h3 h4
      have h2 : 2 ≤ zs.length := by omega
      clear h3 h4
      -- the two halves
      obtain ⟨A', B', hAB, hA'⟩ : ∃ A' B', zs = A' ++ B' ∧ A'.length = (zs.length + 2) / 2 - 1 :=
        ⟨zs.take ((zs.length + 2) / 2 - 1), zs.drop ((zs.length + 2) / 2 - 1),
          (List.take_append_drop _ _).symm, by rw [List.length_take]; omega⟩
      have hl : zs.length = A'.length + B'.length := by rw [hAB, List.length_append]
      have eAB : x :: zs ++ [z] = (x :: A') ++ (B' ++ [z]) := by rw [hAB]; simp
      have hlA : (zs.length + 2) / 2 = (x :: A').length := by rw [List.length_cons]; omega
      have hlA' : (x :: A').length = A'.length + 1 := List.length_cons
      dsimp only
      rw [eAB] at hs ⊢
      rw [hlA]
      have hsAB := seg_append.1 hs
      obtain ⟨sA, sB⟩ := hsAB
      apply wp_bind
      apply wp_bind
      refine wp_mono ((spScanLeft_at hP hpv (x :: A').length (x :: A') [] rfl (by omega) sA (by simp)).wp) ?_
      rintro r1 _ ⟨⟨k1, rfl⟩, hr1⟩
      rw [List.append_nil] at hr1
      -- the first half
      have left : wp (match r1 with
          | none => pure f
          | some (m1, lenHalf) => stablePartitionBuf c pred f m1 lenHalf b)
          (fun r s' => r = f + ((x :: A').filter P).length ∧
            Seg s'.cell f ((x :: A').filter P ++ (x :: A').filter (!P ·)) ∧
            Frame f (f + (x :: A').length) s s') { s with cmps := k1 } := by
        match r1, hr1 with
        | none, hr1 =>
          obtain ⟨e1, e2⟩ := filter_all_false hr1
          rw [e1, e2]
          exact wp_pure ⟨by simp, sA, Frame.of_env rfl fun _ _ => rfl⟩
        | some (m1, lh), ⟨A1, y, A2, t1, t2, t3, t4, t5, t6⟩ =>
          have hlen := congrArg List.length t1
          simp only [List.length_append, List.length_cons, List.length_nil, Nat.zero_add] at hlen t6
          obtain ⟨A1', rfl⟩ : ∃ A1', A1 = x :: A1' := by
            cases A1 with
            | nil =>
              simp only [List.nil_append, List.cons_append, List.cons.injEq] at t1
              rw [← t1.1, hx] at t2; cases t2
            | cons w A1' =>
              simp only [List.cons_append, List.cons.injEq] at t1
              exact ⟨A1', by rw [t1.1]⟩
          simp only [List.length_cons] at t4 t5 hlen
          rw [t1, seg_append] at sA
          have g := ih A1'.length (by omega) f x y A1' { s with cmps := k1 } rfl hx t2 sA.1 hr hpv (by omega)
          subst t4 t5
          rw [show f + (A1'.length + 1) = f + A1'.length + 1 by omega]
          refine wp_mono g ?_
          rintro r s' ⟨q1, q2, q3⟩
          obtain ⟨e1, e2⟩ := filter_all_false t3
          have hsum : ((x :: A1' ++ [y]).filter P).length + ((x :: A1' ++ [y]).filter (!P ·)).length =
              A1'.length + 2 := by
            have := (List.filter_append_perm P (x :: A1' ++ [y])).length_eq
            simpa using this
          rw [t1, List.filter_append (l₂ := A2), List.filter_append (l₂ := A2), e1, e2, List.append_nil, ← List.append_assoc]
          refine ⟨q1, seg_append.2 ⟨q2, ?_⟩, ?_⟩
          · have := sA.2
            simp only [List.length_append, List.length_cons, List.length_nil, Nat.zero_add] at this
            rw [List.length_append, hsum]
            rw [show A1'.length + 1 + 1 = A1'.length + 2 by omega] at this
            refine this.congr fun i y1 y2 => ?_
            exact q3.cell i (by omega)
          · refine (q3.tick (s := s)).sub (Nat.le_refl _) ?_
            simp only [List.length_append, List.length_cons, List.length_nil]; omega
      refine wp_mono left ?_
      rintro ff s2 ⟨p1, p2, p3⟩
      have hr2 : RawBuf s2.cell b.ptr b.size := p3.raw hr sA rfl
      have hpv2 : dep = true → s2.cell piv = .val a := fun hd => by
        rw [p3.cell piv (by omega)]; exact hpv hd
      have sB2 : Seg s2.cell (f + (x :: A').length) (B' ++ [z]) :=
        sB.congr fun i y1 y2 => p3.cell i (by omega)
      have hB : 0 < B'.length := by omega
      have hsumA : ((x :: A').filter P).length + ((x :: A').filter (!P ·)).length = (x :: A').length := by
        have := (List.filter_append_perm P (x :: A')).length_eq
        rwa [List.length_append] at this
      apply wp_bind
      apply wp_bind
      have g := spScanRight_at hP (m := f + (x :: A').length) (last := f + zs.length + 1) hpv2 hz B'.length [] B'
        rfl hB sB2 (by simp only [List.length_cons, List.length_nil]; omega) (by simp)
      simp only [List.length_nil, Nat.add_zero, List.nil_append] at g
      rw [show zs.length + 2 - (x :: A').length = B'.length + 1 by omega]
      refine wp_mono g.wp ?_
      rintro r2 _ ⟨⟨k2, rfl⟩, hr2'⟩
      have right : wp (match r2 with
          | none => pure (f + zs.length + 1 + 1)
          | some (m1, lenHalf) => stablePartitionBuf c pred m1 (f + zs.length + 1) lenHalf b)
          (fun r s' => r = f + (x :: A').length + ((B' ++ [z]).filter P).length ∧
            Seg s'.cell (f + (x :: A').length) ((B' ++ [z]).filter P ++ (B' ++ [z]).filter (!P ·)) ∧
            Frame (f + (x :: A').length) (f + (zs.length + 2)) s2 s') { s2 with cmps := k2 } := by
        match r2, hr2' with
        | none, hr2' =>
          obtain ⟨e1, e2⟩ := filter_all_true hr2'
          rw [e1, e2, List.append_nil]
          refine wp_pure ⟨?_, sB2, Frame.of_env rfl fun _ _ => rfl⟩
          simp only [List.length_append, List.length_cons, List.length_nil]; omega
        | some (m1, lh), ⟨B1, y, B2, t1, t2, t3, t4, t5⟩ =>
          have hlen := congrArg List.length t1
          simp only [List.length_append, List.length_cons, List.length_nil, Nat.zero_add] at hlen
          have t1' : B' ++ [z] = B1 ++ (y :: B2 ++ [z]) := by rw [t1]; simp
          rw [t1', seg_append] at sB2
          have g := ih B2.length (by omega) (f + (x :: A').length + B1.length) y z B2
            { s2 with cmps := k2 } rfl t2 hz sB2.2 hr2 hpv2 (by omega)
          subst t4 t5
          rw [show f + (x :: A').length + B1.length + B2.length + 1 = f + zs.length + 1 by omega] at g
          refine wp_mono g ?_
          rintro r s' ⟨q1, q2, q3⟩
          obtain ⟨e1, e2⟩ := filter_all_true t3
          rw [t1', List.filter_append (l₁ := B1), List.filter_append (l₁ := B1), e1, e2, List.nil_append]
          refine ⟨by rw [q1, List.length_append]; omega, ?_, ?_⟩
          · rw [List.append_assoc, seg_append]
            refine ⟨sB2.1.congr fun i y1 y2 => q3.cell i (by omega), q2⟩
          · refine (q3.tick (s := s2)).sub (by omega) ?_
            omega
      refine wp_mono right ?_
      rintro sf s3 ⟨w1, w2, w3⟩
      have hsumB : ((B' ++ [z]).filter P).length + ((B' ++ [z]).filter (!P ·)).length = (B' ++ [z]).length := by
        have := (List.filter_append_perm P (B' ++ [z])).length_eq
        rwa [List.length_append] at this
      have hlB : (B' ++ [z]).length = B'.length + 1 := by simp
      rw [List.filter_append (l₁ := x :: A'), List.filter_append (l₁ := x :: A')]
      generalize (x :: A').filter P = TA at *
      generalize (x :: A').filter (!P ·) = FA at *
      generalize (B' ++ [z]).filter P = TB at *
      generalize (B' ++ [z]).filter (!P ·) = FB at *
      subst p1 w1
      have sall : Seg s3.cell f (TA ++ (FA ++ TB) ++ FB) := by
        rw [List.append_assoc, List.append_assoc, ← List.append_assoc, seg_append]
        refine ⟨p2.congr fun i y1 y2 => w3.cell i ?_, ?_⟩
        · rw [List.length_append] at y2; omega
        · rw [List.length_append, hsumA]; exact w2
      rw [List.append_assoc, seg_append, seg_append] at sall
      obtain ⟨u1, u2, u3⟩ := sall
      refine wp_mono (rotate_seg c u2 (by omega) rfl) ?_
      rintro r s4 ⟨v1, v2, v3⟩
      refine ⟨?_, ?_, ?_⟩
      · rw [v1, List.length_append]; omega
      · rw [show TA ++ TB ++ (FA ++ FB) = TA ++ (TB ++ FA ++ FB) by simp, seg_append, seg_append]
        refine ⟨u1.congr fun i y1 y2 => v3.cell i (by omega), v2, ?_⟩
        rw [List.length_append] at u3 ⊢
        rw [Nat.add_comm TB.length]
        exact u3.congr fun i y1 y2 => v3.cell i (by omega)
      · exact (p3.sub (Nat.le_refl _) (by omega)).trans ((w3.sub (by omega) (Nat.le_refl _)).trans
          (v3.sub (by omega) (by omega)))

theorem spSkipTrue_at (hP : PredOk pred P dep piv a) {s : St α} (hpv : dep = true → s.cell piv = .val a) :
    ∀ (xs : List α) (f : Nat), Seg s.cell f xs →
    RunsAt s (spSkipTrue pred f (f + xs.length) xs.length) (fun r => match r with
      | none => ∀ x ∈ xs, P x = true
      | some (f', n) => ∃ pre y suf, xs = pre ++ y :: suf ∧ (∀ x ∈ pre, P x = true) ∧ P y = false ∧
          f' = f + pre.length ∧ n = suf.length + 1) := by
  intro xs
  induction xs with
  | nil =>
    intro f _
    rw [spSkipTrue, if_pos (by simp)]
    exact RunsAt.pure (by simp)
  | cons x xs ih =>
    intro f hs
    obtain ⟨h1, h2⟩ := seg_cons.1 hs
    rw [spSkipTrue, if_neg (by simp)]
    refine (hP s f x hpv h1).bind fun r hr => ?_
    subst hr
    split
    · rename_i hx
      exact RunsAt.pure ⟨[], x, xs, rfl, by simp, by simpa using hx, rfl, rfl⟩
    · rename_i hx
      have hx : P x = true := by simpa using hx
      have := ih (f + 1) h2
      rw [List.length_cons, Nat.add_sub_cancel, show f + (xs.length + 1) = f + 1 + xs.length by omega]
      refine this.mono ?_
      intro r hr
      match r, hr with
      | none, hr =>
        intro y hy
        rcases List.mem_cons.1 hy with e | e
        · rw [e]; exact hx
        · exact hr y e
      | some (f', n), ⟨pre, y, suf, t1, t2, t3, t4, t5⟩ =>
        refine ⟨x :: pre, y, suf, by rw [t1]; rfl, fun w hw => ?_, t3, by rw [t4, List.length_cons]; omega, t5⟩
        rcases List.mem_cons.1 hw with e | e
        · rw [e]; exact hx
        · exact t2 w e

theorem spSkipFalse_at (hP : PredOk pred P dep piv a) {s : St α} (hpv : dep = true → s.cell piv = .val a) {f : Nat} :
    ∀ (n : Nat) (suf tl : List α), suf.length = n → Seg s.cell (f + 1) suf → (∀ x ∈ tl, P x = false) →
    RunsAt s (spSkipFalse pred f (f + 1 + suf.length) (suf.length + 1)) (fun r => match r with
      | none => ∀ x ∈ suf ++ tl, P x = false
      | some (l', n) => ∃ mid z tl', suf ++ tl = mid ++ z :: tl' ∧ P z = true ∧ (∀ x ∈ tl', P x = false) ∧
          l' = f + 1 + mid.length ∧ n = mid.length + 1) := by
  intro n
  induction n with
  | zero =>
    intro suf tl hn _ ht
    rw [List.length_eq_zero_iff.1 hn, spSkipFalse]
    rw [if_pos (by simp)]
    exact RunsAt.pure (by simpa using ht)
  | succ n ih =>
    intro suf tl hn hs ht
    obtain ⟨suf, y, rfl⟩ : ∃ p y, suf = p ++ [y] := by
      rcases List.eq_nil_or_concat suf with h | ⟨p, y, h⟩
      · subst h; simp at hn
      · exact ⟨p, y, by rw [h, List.concat_eq_append]⟩
    obtain ⟨h1, h2⟩ := seg_snoc.1 hs
    rw [spSkipFalse]
    simp only [List.length_append, List.length_cons, List.length_nil, Nat.zero_add] at hn ⊢
    rw [if_neg (by omega), show f + 1 + (suf.length + 1) - 1 = f + 1 + suf.length by omega]
    refine (hP s _ y hpv h2).bind fun r hr => ?_
    subst hr
    rw [show suf ++ [y] ++ tl = suf ++ y :: tl by simp]
    split
    · rename_i hy
      have hy : P y = false := by simpa using hy
      refine (ih suf (y :: tl) (by omega) h1 fun w hw => ?_).mono fun r hr => hr
      rcases List.mem_cons.1 hw with e | e
      · rw [e]; exact hy
      · exact ht w e
    · rename_i hy
      exact RunsAt.pure ⟨suf, y, tl, rfl, by simpa using hy, ht, rfl, rfl⟩

theorem filter_around {pre mid tl : List α} {y z : α} (h1 : ∀ x ∈ pre, P x = true)
    (h2 : ∀ x ∈ tl, P x = false) :
    (pre ++ (y :: mid ++ [z]) ++ tl).filter P = pre ++ (y :: mid ++ [z]).filter P ∧
    (pre ++ (y :: mid ++ [z]) ++ tl).filter (!P ·) = (y :: mid ++ [z]).filter (!P ·) ++ tl := by
  obtain ⟨a1, a2⟩ := filter_all_true h1
  obtain ⟨b1, b2⟩ := filter_all_false h2
  constructor
  · rw [List.filter_append (l₂ := tl), List.filter_append (l₁ := pre), a1, b1, List.append_nil]
  · rw [List.filter_append (l₂ := tl), List.filter_append (l₁ := pre), a2, b2, List.nil_append]

/-- `stable_partition`: the trues, then the falses, both in their original order. -/
theorem stablePartition_spec [Inhabited α] (c : Cfg) (hP : PredOk pred P dep piv a) {f : Nat} {xs : List α}
    {s : St α} (hw : s.WF) (hs : Seg s.cell f xs) (hpv : dep = true → s.cell piv = .val a)
    (hp1 : piv < f ∨ f + xs.length ≤ piv) :
    wp (stablePartition c pred f (f + xs.length) xs.length) (fun r s' =>
      r = f + (xs.filter P).length ∧ Seg s'.cell f (xs.filter P ++ xs.filter (!P ·)) ∧
      Frame f (f + xs.length) s s' ∧ s'.WF) s := by
  unfold stablePartition
  apply wp_bind
  refine wp_mono ((spSkipTrue_at hP hpv xs f hs).wp) ?_
  rintro r1 _ ⟨⟨k1, rfl⟩, hr1⟩
  match r1, hr1 with
  | none, hr1 =>
    obtain ⟨e1, e2⟩ := filter_all_true hr1
    rw [e1, e2, List.append_nil]
    exact wp_pure ⟨rfl, hs, Frame.of_env rfl fun _ _ => rfl, hw⟩
  | some (f', n'), ⟨pre, y, suf, t1, t2, t3, t4, t5⟩ =>
    subst t1 t4 t5
    have hs0 := hs
    obtain ⟨s1, s2⟩ := seg_append.1 hs
    obtain ⟨s2, s3⟩ := seg_cons.1 s2
    simp only [List.length_append, List.length_cons] at hp1 ⊢
    apply wp_bind
    have g := spSkipFalse_at hP (s := { s with cmps := k1 }) hpv (f := f + pre.length) suf.length suf [] rfl s3
      (by simp)
    rw [List.append_nil] at g
    rw [show f + (pre.length + (suf.length + 1)) = f + pre.length + 1 + suf.length by omega] at hp1 ⊢
    refine wp_mono g.wp ?_
    rintro r2 _ ⟨⟨k2, rfl⟩, hr2⟩
    match r2, hr2 with
    | none, hr2 =>
      obtain ⟨e1, e2⟩ := filter_all_true t2
      obtain ⟨e3, e4⟩ := filter_all_false (P := P) (xs := y :: suf) (by
        intro w hw
        rcases List.mem_cons.1 hw with e | e
        · rw [e]; exact t3
        · exact hr2 w e)
      rw [List.filter_append, List.filter_append, e1, e2, e3, e4, List.append_nil, List.nil_append]
      exact wp_pure ⟨rfl, hs0, Frame.of_env rfl fun _ _ => rfl, hw⟩
    | some (l', n'), ⟨mid, z, tl, u1, u2, u3, u4, u5⟩ =>
      subst u1 u4 u5
      dsimp only
      have e0 : pre ++ y :: (mid ++ z :: tl) = pre ++ (y :: mid ++ [z]) ++ tl := by simp
      obtain ⟨e1, e2⟩ := filter_around (y := y) (mid := mid) (z := z) t2 u3
      rw [e0, e1, e2]
      rw [e0, List.append_assoc, seg_append, seg_append] at hs0
      obtain ⟨w1, w2, w3⟩ := hs0
      have hlen : (y :: mid ++ [z]).length = mid.length + 2 := by simp
      have hsum : ((y :: mid ++ [z]).filter P).length + ((y :: mid ++ [z]).filter (!P ·)).length =
          mid.length + 2 := by
        have := (List.filter_append_perm P (y :: mid ++ [z])).length_eq
        rwa [List.length_append, hlen] at this
      rw [hlen] at w3
      simp only [List.length_append, List.length_cons] at hp1 ⊢
      have grow : ∀ s0 : St α, s0.WF → wp (if 4 ≤ mid.length + 1 + 1 then Buf.null.tryGrow (mid.length + 1 + 1)
            else pure Buf.null)
          (fun b s' => BFrame 0 0 Buf.null b s0 s') s0 := by
        intro s0 hw0
        have hnull : RawBuf s0.cell Buf.null.ptr Buf.null.size := fun i h1 h2 => by
          simp only [Buf.null] at h1 h2; omega
        split
        · exact wp_mono (Buf.tryGrow_spec hw0 hnull) fun b s' h => h.1
        · exact wp_pure ⟨fun _ _ => rfl, EnvLe.refl _, hnull, hw0⟩
      apply wp_bind
      refine wp_mono (grow _ hw) ?_
      rintro b s4 hb
      have hval : ∀ i x, s.cell i = .val x → s4.cell i = .val x := fun i x hi => by
        have := hb.cell i (by omega)
        rw [hide_null] at this
        unfold hide at this
        split at this
        · rw [show ({ s with cmps := k2 } : St α).cell i = s.cell i from rfl, hi] at this; cases this
        · exact this.trans hi
      have hseg : ∀ g ys, Seg s.cell g ys → Seg s4.cell g ys := fun g ys h i hi => hval _ _ (h i hi)
      apply wp_bind
      have g := stablePartitionBuf_spec c hP b mid.length (f + pre.length) y z mid s4 rfl t3 u2 (hseg _ _ w2)
        hb.raw (fun hd => hval _ _ (hpv hd)) (by omega)
      rw [show f + pre.length + 1 + mid.length = f + pre.length + mid.length + 1 by omega]
      refine wp_mono g ?_
      rintro r s5 ⟨q1, q2, q3⟩
      have hb5 : BFrame (f + pre.length) (f + pre.length + (mid.length + 2)) Buf.null b s s5 := by
        refine BFrame.trans (b' := b) (s' := s4)
          ⟨fun i _ => hb.cell i (.inr (Nat.zero_le _)), hb.brk, hb.raw, hb.wf⟩ ?_
        have hbe := (hseg _ _ w2).below hb.wf (by rw [hlen]; omega)
        rw [hlen] at hbe
        refine ⟨fun i hi => ?_, q3.brk, q3.raw hb.raw (hseg _ _ w2) (by rw [hlen]), q3.wf hb.wf fun _ => hbe⟩
        unfold hide
        split
        · rfl
        · exact q3.cell i hi
      apply wp_bind
      refine wp_mono (Buf.release_spec hb5) ?_
      rintro _ s6 ⟨v1, v2, v3⟩
      obtain ⟨v, hv1, hv2⟩ := q2.holds
      rw [List.length_append, hsum] at hv1 hv2
      have q4 := (v3 v hv1).seg
      rw [hv2] at q4
      rw [hide_null] at v1
      have hfr : Frame f (f + pre.length + 1 + (mid.length + (tl.length + 1))) s s6 :=
        ⟨fun i hi => v1 i (by omega), v2⟩
      refine wp_pure ⟨by rw [q1]; omega, ?_, hfr, hfr.wf hw fun _ => ?_⟩
      · rw [show ∀ T F : List α, pre ++ T ++ (F ++ tl) = pre ++ (T ++ F ++ tl) from fun T F => by simp]
        refine seg_append.2 ⟨w1.congr fun i z1 z2 => v1 i (by omega), seg_append.2 ⟨q4, ?_⟩⟩
        rw [List.length_append, hsum]
        exact w3.congr fun i z1 z2 => v1 i (by omega)
      · have := hs.below hw (by simp)
        simp only [List.length_append, List.length_cons] at this
        omega

end

end CppSort
