import Verif.Model.Facade
set_option autoImplicit false

namespace CppSort.Facade
variable {m : Impl} {T : Traits} {V : Type}

/-! ### What a call asks for -/

/-- What the functions do with the values. -/
structure Interp (V : Type) where
  less : V → V → Bool
  cmp : Nat → V → V → Bool
  proj : Nat → V → V

/-- A function as a projection (only the identities and the functions of the user can be). -/
def Interp.projOf (I : Interp V) : Fn → V → V
  | .user n => I.proj n
  | _ => id

/-- A function as a comparison. -/
def Interp.cmpOf (I : Interp V) : Fn → V → V → Bool
  | .less | .rless => I.less
  | .user n => I.cmp n
  | .pc c p => fun x y => I.cmpOf c (I.projOf p x) (I.projOf p y)
  | _ => fun _ _ => false

/-- Whether a function is a comparison: the ones of the standard library are, others when they can be called with two
elements. -/
def isCmp (T : Traits) (f : Fn) : Bool := f = .less || f = .rless || T.isProj .ident f

/-- The order in which a call asks to sort: `std::less<>` and no projection unless told otherwise. -/
def Interp.order (I : Interp V) (T : Traits) : List Fn → V → V → Bool
  | [] => I.less
  | [f] => if isCmp T f then I.cmpOf f else fun x y => I.less (I.projOf f x) (I.projOf f y)
  | c :: p :: _ => fun x y => I.cmpOf c (I.projOf p x) (I.projOf p y)

/-- No function passed can be called both with one and with two elements. -/
def Clear (T : Traits) (xs : List Fn) : Prop :=
  ∀ f ∈ xs, T.isProj .ident f = true → T.isProj f .less = false

theorem cmp_not_proj {f : Fn} (h : T.isProj .ident f = true → T.isProj f .less = false)
    (hp : T.isProj f .less = true) : isCmp T f = false := by
  unfold isCmp
  cases e : T.isProj .ident f with
  | true => rw [h e] at hp; cases hp
  | false =>
    have h1 : f ≠ .less := fun e => by rw [e, T.less_law] at hp; cases hp
    have h2 : f ≠ .rless := fun e => by rw [e, T.rless_law] at hp; cases hp
    simp [h1, h2]

theorem order_bake {I : Interp V} {c p : Fn} (h : T.isProj p c = true) :
    I.order T [mkpc c p] = fun x y => I.cmpOf c (I.projOf p x) (I.projOf p y) := by
  unfold mkpc
  split
  · rename_i e
    have hc : T.isProj .ident c = true := by
      rcases e with rfl | rfl
      · exact h
      · rwa [T.same_law] at h
    have hp : I.projOf p = id := by rcases e with rfl | rfl <;> rfl
    rw [hp]
    simp only [Interp.order, isCmp, hc, Bool.or_true, if_true, id]
  · have hc : T.isProj .ident (.pc c p) = true := by rw [T.pc_law]; exact h
    simp only [Interp.order, isCmp, hc, Bool.or_true, if_true]
    rfl

/-! ### Every overload does what is asked -/

/-- What is shown of each overload. -/
def Overload.Sound (m : Impl) (T : Traits) (I : Interp V) (o : Overload) : Prop :=
  ∀ xs c, Clear T xs → accepts o.pats xs = true → o.enabled xs = true → (o.target xs).call m = some c →
    I.order T c.args = I.order T xs ∧ (o.shape = .iters → c.shape = .iters)

theorem to_call {s : Shape} {g : List Fn → List Fn} {xs : List Fn} {c : Call} (h : (to s g xs).call m = some c) :
    c = ⟨s, g xs⟩ := by
  unfold to Target.call at h
  dsimp only at h
  split at h
  · exact (Option.some.inj h).symm
  · cases h

theorem self_call {c : Call} (h : (Target.self).call m = some c) : c.args = [] := by
  unfold Target.call selfCall at h
  dsimp only at h
  split at h
  · cases h; rfl
  · split at h
    · cases h; rfl
    · cases h

theorem on1_true {f : Fn → Bool} {xs : List Fn} (h : on1 f xs = true) : ∃ x, xs = [x] ∧ f x = true := by
  match xs, h with
  | [x], h => exact ⟨x, rfl, h⟩

theorem on2_true {f : Fn → Fn → Bool} {xs : List Fn} (h : on2 f xs = true) : ∃ x y, xs = [x, y] ∧ f x y = true := by
  match xs, h with
  | [x, y], h => exact ⟨x, y, rfl, h⟩

theorem accepts_is {f x : Fn} {ps : List Pat} {xs : List Fn} (h : accepts (.is f :: ps) (x :: xs) = true) : x = f := by
  simp only [accepts, Bool.and_eq_true, beq_iff_eq] at h
  exact h.1.symm

variable {I : Interp V}

/-- An overload that passes its arguments on. -/
theorem sound_id {s s' : Shape} {ps : List Pat} {e : List Fn → Bool} (hs : s = .iters → s' = .iters) :
    Overload.Sound m T I ⟨s, ps, e, to s' id⟩ := by
  intro xs c _ _ _ h
  rw [to_call h]
  exact ⟨rfl, hs⟩

theorem sound_lessAnd {s s' : Shape} {f : Fn → Bool} (hs : s = .iters → s' = .iters)
    (hf : ∀ p, f p = true → T.isProj p .less = true) :
    Overload.Sound m T I ⟨s, [.any], on1 f, to s' lessAnd⟩ := by
  intro xs c hx _ he h
  obtain ⟨p, rfl, hp⟩ := on1_true he
  rw [to_call h]
  refine ⟨?_, hs⟩
  have := cmp_not_proj (hx p (by simp)) (hf p hp)
  simp only [Interp.order, this, lessAnd]
  rfl

theorem sound_bakeLess {s s' : Shape} {f : Fn → Bool} (hs : s = .iters → s' = .iters)
    (hf : ∀ p, f p = true → T.isProj p .less = true) :
    Overload.Sound m T I ⟨s, [.any], on1 f, to s' bakeLess⟩ := by
  intro xs c hx _ he h
  obtain ⟨p, rfl, hp⟩ := on1_true he
  rw [to_call h]
  refine ⟨?_, hs⟩
  have := cmp_not_proj (hx p (by simp)) (hf p hp)
  refine (order_bake (hf p hp)).trans ?_
  simp only [Interp.order, this]
  rfl

theorem sound_bake {s s' : Shape} {f : Fn → Fn → Bool} (hs : s = .iters → s' = .iters)
    (hf : ∀ c p, f c p = true → T.isProj p c = true) :
    Overload.Sound m T I ⟨s, [.any, .any], on2 f, to s' bake⟩ := by
  intro xs c _ _ he h
  obtain ⟨c, p, rfl, hp⟩ := on2_true he
  rw [to_call h]
  exact ⟨order_bake (hf c p hp), hs⟩

theorem cmpOf_less {l : Fn} (h : l = .less ∨ l = .rless) : I.cmpOf l = I.less := by
  rcases h with rfl | rfl <;> rfl

theorem isCmp_less {l : Fn} (h : l = .less ∨ l = .rless) : isCmp T l = true := by
  rcases h with rfl | rfl <;> simp [isCmp]

theorem projOf_ident {i : Fn} (h : i = .ident ∨ i = .sident) : I.projOf i = id := by
  rcases h with rfl | rfl <;> rfl

theorem isCmp_ident {i : Fn} (h : i = .ident ∨ i = .sident) : isCmp T i = false := by
  rcases h with rfl | rfl
  · simp [isCmp, T.ident_law]
  · simp [isCmp, T.sident_law]

/-- An overload for a list of functions that asks for the default order. -/
theorem sound_nil {s : Shape} {ps : List Pat} {e : List Fn → Bool} {t : List Fn → Target}
    (ht : s = .iters ∧ t = to .iters (fun _ => []) ∨ s = .range ∧ t = fun _ => .self)
    (hd : ∀ xs, accepts ps xs = true → e xs = true → I.order T xs = I.less) :
    Overload.Sound m T I ⟨s, ps, e, t⟩ := by
  intro xs c _ ha he h
  have hx := hd xs ha he
  rcases ht with ⟨rfl, rfl⟩ | ⟨rfl, rfl⟩
  · have e := to_call (s := .iters) (g := fun _ => []) (xs := xs) h
    rw [e]
    exact ⟨hx.symm, fun _ => rfl⟩
  · rw [self_call h]
    exact ⟨hx.symm, fun e => by cases e⟩

theorem sound_dropC {s s' : Shape} {l : Fn} (hl : l = .less ∨ l = .rless) {f : Fn → Fn → Bool}
    (hs : s = .iters → s' = .iters) (hf : ∀ c p, f c p = true → T.isProj p .less = true) :
    Overload.Sound m T I ⟨s, [.is l, .any], on2 f, to s' dropC⟩ := by
  intro xs c hx ha he h
  obtain ⟨c, p, rfl, hp⟩ := on2_true he
  rw [to_call h]
  refine ⟨?_, hs⟩
  have := cmp_not_proj (hx p (by simp)) (hf c p hp)
  have e := accepts_is ha
  subst e
  simp only [Interp.order, this, dropC, List.drop_succ_cons, List.drop_zero, cmpOf_less hl]
  rfl

theorem lessOnly_sound {l : Fn} (hl : l = .less ∨ l = .rless) : ∀ o ∈ lessOnly m T l, o.Sound m T I := by
  have hd : ∀ (f : Fn → Bool) (xs : List Fn), accepts [.is l] xs = true → on1 f xs = true → I.order T xs = I.less := by
    intro f xs ha he
    obtain ⟨x, rfl, -⟩ := on1_true he
    obtain rfl := accepts_is ha
    simp only [Interp.order, isCmp_less hl, if_true, cmpOf_less hl]
  simp only [lessOnly, List.forall_mem_cons]
  exact ⟨sound_nil (.inl ⟨rfl, rfl⟩) (hd _), sound_nil (.inr ⟨rfl, rfl⟩) (hd _), fun _ h => by cases h⟩

theorem identityOnly_sound {i : Fn} (hi : i = .ident ∨ i = .sident) : ∀ o ∈ identityOnly m T i, o.Sound m T I := by
  have hd : ∀ (f : Fn → Bool) (xs : List Fn), accepts [.is i] xs = true → on1 f xs = true → I.order T xs = I.less := by
    intro f xs ha he
    obtain ⟨x, rfl, -⟩ := on1_true he
    obtain rfl := accepts_is ha
    simp only [Interp.order, isCmp_ident hi, projOf_ident hi]
    rfl
  simp only [identityOnly, List.forall_mem_cons]
  exact ⟨sound_nil (.inl ⟨rfl, rfl⟩) (hd _), sound_nil (.inr ⟨rfl, rfl⟩) (hd _), fun _ h => by cases h⟩

theorem lessIdentity_sound {l i : Fn} (hl : l = .less ∨ l = .rless) (hi : i = .ident ∨ i = .sident) :
    ∀ o ∈ lessIdentity m T l i, o.Sound m T I := by
  have hd : ∀ (f : Fn → Fn → Bool) (xs : List Fn), accepts [.is l, .is i] xs = true → on2 f xs = true →
      I.order T xs = I.less := by
    intro f xs ha he
    obtain ⟨x, y, rfl, -⟩ := on2_true he
    obtain rfl := accepts_is ha
    have : y = i := by
      simp only [accepts, Bool.and_eq_true, beq_iff_eq] at ha
      exact ha.2.1.symm
    subst this
    simp only [Interp.order, projOf_ident hi, cmpOf_less hl]
    rfl
  simp only [lessIdentity, List.forall_mem_cons]
  exact ⟨sound_nil (.inl ⟨rfl, rfl⟩) (hd _), sound_nil (.inr ⟨rfl, rfl⟩) (hd _), fun _ h => by cases h⟩

theorem hasP_proj {s : Shape} {p : Fn} (h : hasP m T s p = true) : T.isProj p .less = true := by
  simp only [hasP, Bool.and_eq_true] at h
  exact h.2

theorem hasCP_proj {s : Shape} {c p : Fn} (h : hasCP m T s c p = true) : T.isProj p c = true := by
  simp only [hasCP, Bool.and_eq_true] at h
  exact h.2

theorem hasC_proj {s : Shape} {c p : Fn} (h : hasC m T s (.pc c p) = true) : T.isProj p c = true := by
  simp only [hasC, Bool.and_eq_true, T.pc_law] at h
  exact h.2

theorem lessProjection_sound {l : Fn} (hl : l = .less ∨ l = .rless) : ∀ o ∈ lessProjection m T l, o.Sound m T I := by
  simp only [lessProjection, List.forall_mem_cons]
  refine ⟨sound_id (by simp), sound_dropC hl (by simp) fun c p h => ?_, sound_id (by simp), sound_id (by simp),
    sound_dropC hl (by simp) fun c p h => ?_, sound_dropC hl (by simp) fun c p h => ?_, fun _ h => by cases h⟩
  all_goals
    simp only [Bool.and_eq_true] at h
    exact hasP_proj h.2

theorem overloads_sound (b : Bool) : ∀ o ∈ overloads m T b, o.Sound m T I := by
  have base : ∀ o ∈ plain m ++ comparison m T ++ projection m T ++ lessOnly m T .less ++ identityOnly m T .ident ++
      fused m T ++ lessIdentity m T .less .ident ++ lessProjection m T .less ++ embedded m T, o.Sound m T I := by
    simp only [List.forall_mem_append]
    refine ⟨⟨⟨⟨⟨⟨⟨⟨?_, ?_⟩, ?_⟩, lessOnly_sound (.inl rfl)⟩, identityOnly_sound (.inl rfl)⟩, ?_⟩,
      lessIdentity_sound (.inl rfl) (.inl rfl)⟩, lessProjection_sound (.inl rfl)⟩, ?_⟩
    · simp only [plain, List.forall_mem_cons]
      exact ⟨sound_id (by simp), sound_id (by simp), sound_id (by simp), fun _ h => by cases h⟩
    · simp only [comparison, List.forall_mem_cons]
      exact ⟨sound_id (by simp), sound_id (by simp), sound_id (by simp), fun _ h => by cases h⟩
    · simp only [projection, List.forall_mem_cons]
      refine ⟨sound_id (by simp), sound_lessAnd (by simp) fun p h => ?_, sound_id (by simp),
        sound_lessAnd (by simp) fun p h => ?_, sound_id (by simp), sound_lessAnd (by simp) fun p h => ?_,
        fun _ h => by cases h⟩
      all_goals
        simp only [Bool.and_eq_true] at h
        exact hasCP_proj h.2
    · simp only [fused, List.forall_mem_cons]
      exact ⟨sound_id (by simp), sound_id (by simp), sound_id (by simp), fun _ h => by cases h⟩
    · simp only [embedded, List.forall_mem_cons]
      refine ⟨sound_bakeLess (by simp) fun p h => ?_, sound_bake (by simp) fun c p h => ?_,
        sound_bakeLess (by simp) fun p h => ?_, sound_bakeLess (by simp) fun p h => ?_,
        sound_bake (by simp) fun c p h => ?_, sound_bake (by simp) fun c p h => ?_, fun _ h => by cases h⟩
      all_goals
        simp only [Bool.and_eq_true] at h
        exact hasC_proj h.2
  unfold overloads
  rw [List.forall_mem_append]
  refine ⟨base, ?_⟩
  cases b with
  | false => intro _ h; cases h
  | true =>
    rw [if_pos rfl]
    simp only [List.forall_mem_append]
    exact ⟨⟨⟨⟨lessOnly_sound (.inr rfl), identityOnly_sound (.inr rfl)⟩, lessIdentity_sound (.inl rfl) (.inr rfl)⟩,
      lessIdentity_sound (.inr rfl) (.inr rfl)⟩, lessProjection_sound (.inr rfl)⟩

theorem mem_viable {os : List Overload} {c : Call} {o : List Pat × Call} : o ∈ viable m os c ↔
    ∃ w ∈ os, w.shape = c.shape ∧ accepts w.pats c.args = true ∧ w.enabled c.args = true ∧ o.1 = w.pats ∧
      (w.target c.args).call m = some o.2 := by
  unfold viable cand
  rw [List.mem_flatMap]
  constructor
  · rintro ⟨w, hw, h⟩
    split at h
    · rename_i hc
      simp only [Bool.and_eq_true, decide_eq_true_eq] at hc
      rw [List.mem_map] at h
      obtain ⟨t, ht, rfl⟩ := h
      exact ⟨w, hw, hc.1.1, hc.1.2, hc.2, rfl, by simpa using ht⟩
    · cases h
  · rintro ⟨w, hw, h1, h2, h3, h4, h5⟩
    refine ⟨w, hw, ?_⟩
    rw [if_pos (by simp [h1, h2, h3]), List.mem_map]
    exact ⟨o.2, by simpa using h5, by rw [← h4]⟩

theorem best_mem {v : List (List Pat × Call)} {c : Call} (h : best v = .calls c) : ∃ ps, (ps, c) ∈ v := by
  unfold best at h
  split at h
  · split at h <;> cases h
  · rename_i o e
    cases h
    exact ⟨o.1, (List.mem_filter.1 (show o ∈ _ by rw [e]; simp)).1⟩
  · cases h

theorem resolve_sound {b : Bool} {c c' : Call} (hx : Clear T c.args) (h : resolve m T b c = .calls c') :
    I.order T c'.args = I.order T c.args ∧ (c.shape = .iters → c'.shape = .iters) ∧ m c' = true := by
  obtain ⟨ps, hm⟩ := best_mem h
  obtain ⟨w, hw, h1, h2, h3, -, h5⟩ := mem_viable.1 hm
  obtain ⟨q1, q2⟩ := overloads_sound (I := I) b w hw c.args c' hx h2 h3 h5
  refine ⟨q1, h1 ▸ q2, ?_⟩
  unfold Target.call selfCall hasSort at h5
  split at h5
  · split at h5
    · cases h5; assumption
    · cases h5
  · split at h5
    · cases h5; assumption
    · split at h5
      · cases h5; assumption
      · cases h5

end CppSort.Facade
