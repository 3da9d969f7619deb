import Verif.Proof.FacadeChoice
set_option autoImplicit false

/-!
C80-C84: what `sorter_facade` (sorter_facade.h) promises for every sorter implementation, in terms of the calls the
implementation accepts (`Impl`), of which functions can be called with which (`Traits`), and of C++20 being there or
not.
-/
namespace CppSort.Facade

/-- The calls that make sense: a comparison that can be called with the elements, projected if a projection is given;
`std::less<>` stands for a missing comparison. -/
def Sensible (T : Traits) : List Fn → Prop
  | [] => T.isProj .ident .less = true
  | [f] => T.isProj .ident f = true ∨ T.isProj f .less = true
  | [c, p] => T.isProj p c = true
  | _ => False

/-! ### Examples of implementations and of functions -/

/-- A function that compares two elements: `std::less<>`, every other function of the user. -/
def exCmp : Fn → Bool
  | .less | .rless => true
  | .ident | .sident => false
  | .user n => n % 2 == 0
  | .pc c p => (match p with | .ident | .sident => true | .user n => n % 2 == 1 | _ => false) && exCmp c

/-- A function that projects an element: the identities, the other functions of the user. -/
def exProj : Fn → Bool
  | .ident | .sident => true
  | .user n => n % 2 == 1
  | _ => false

/-- Elements that the even functions of the user compare and the odd ones project. -/
def exTraits : Traits where
  isProj p c := exProj p && exCmp c
  pc_law c p := by cases p <;> simp [exProj, exCmp]
  less_law _ := rfl
  rless_law _ := rfl
  ident_law p := by simp [exCmp]
  sident_law p := by simp [exCmp]
  same_law _ := rfl

theorem exClear (xs : List Fn) : Clear exTraits xs := by
  intro f _ h
  cases f <;> simp_all [exTraits, exProj, exCmp]

/-- `(It, It, Compare = {}, Projection = {})`, constrained with `is_projection_iterator` as the sorters of the library
are (insertion_sorter.h 36-53). -/
def defaulted (T : Traits) : Impl
  | ⟨.iters, []⟩ => true
  | ⟨.iters, [c]⟩ => T.isProj .ident c
  | ⟨.iters, [c, p]⟩ => T.isProj p c
  | _ => false

/-- `(It, It, Compare, Projection)`. -/
def noDefaults (T : Traits) : Impl
  | ⟨.iters, [c, p]⟩ => T.isProj p c
  | _ => false

/-- `(It, It, Compare = {})`. -/
def compareOnly (T : Traits) : Impl
  | ⟨.iters, []⟩ => true
  | ⟨.iters, [c]⟩ => T.isProj .ident c
  | _ => false

/-- `(It, It)`. -/
def bare : Impl
  | ⟨.iters, []⟩ => true
  | _ => false

/-- `(Iterable, Compare = {}, Projection = {})`. -/
def rangeOnly (T : Traits) : Impl
  | ⟨.range, xs⟩ => defaulted T ⟨.iters, xs⟩
  | _ => false

/-- `(It, It, Compare = {}, Projection = {})` and `(Iterable, Compare = {}, Projection = {})`. -/
def both (T : Traits) : Impl
  | ⟨_, xs⟩ => defaulted T ⟨.iters, xs⟩

/-- `(Iterable, Compare = {})` and `(It, It, Compare = {}, Projection = {})`. -/
def mixed (T : Traits) : Impl
  | ⟨.iters, xs⟩ => defaulted T ⟨.iters, xs⟩
  | ⟨.range, xs⟩ => compareOnly T ⟨.iters, xs⟩

/-- `selection_sorter_impl` of docs/Sorter-facade.md 86-99: `(It, It, Compare = {}, Projection = {})` without
constraint. -/
def unconstrained : Impl
  | ⟨.iters, xs⟩ => decide (xs.length ≤ 2)
  | _ => false

/-! ### C80 -/

/-- C80: whatever the implementation, a call of the facade that compiles calls it so that it is asked for the order
that was asked for; two iterators are passed on as such, and the call is one that the implementation accepts. -/
theorem C80_order {V : Type} (m : Impl) (T : Traits) (I : Interp V) (std20 : Bool) (c c' : Call)
    (hx : Clear T c.args) (h : resolve m T std20 c = .calls c') :
    I.order T c'.args = I.order T c.args ∧ (c.shape = .iters → c'.shape = .iters) ∧ m c' = true :=
  resolve_sound hx h

/-- A comparison and a projection given to a sorter that only takes a comparison: the projection is baked in, and the
order is that of the comparison on projected elements. -/
example : resolve (compareOnly exTraits) exTraits true ⟨.range, [.user 0, .user 1]⟩ =
      .calls ⟨.iters, [.pc (.user 0) (.user 1)]⟩ ∧
    ∀ I : Interp Nat, I.order exTraits [.pc (.user 0) (.user 1)] = fun x y => I.cmp 0 (I.proj 1 x) (I.proj 1 y) :=
  ⟨by decide +kernel, fun I => (C80_order (compareOnly exTraits) exTraits I true ⟨.range, [.user 0, .user 1]⟩
    ⟨.iters, [.pc (.user 0) (.user 1)]⟩ (exClear _) (by decide +kernel)).1⟩

/-- A projection alone is completed with `std::less<>`, and a projection given with `std::less<>` is passed on to
sorters that only take a projection. -/
example : resolve (defaulted exTraits) exTraits false ⟨.iters, [.user 1]⟩ = .calls ⟨.iters, [.less, .user 1]⟩ ∧
    resolve (fun c => decide (c = ⟨.iters, [.user 1]⟩)) exTraits false ⟨.range, [.less, .user 1]⟩ =
      .calls ⟨.iters, [.user 1]⟩ := by
  decide +kernel

/-- What an implementation with the parameters `Compare = std::less<>, Projection = utility::identity` makes of its
arguments: a single function is the comparison. -/
def Interp.byPosition {V : Type} (I : Interp V) : List Fn → V → V → Bool
  | [] => I.less
  | [c] => I.cmpOf c
  | c :: p :: _ => fun x y => I.cmpOf c (I.projOf p x) (I.projOf p y)

/-- C80 for implementations that know their arguments by position: they have to refuse functions that are not
comparisons. -/
theorem C80_byPosition {V : Type} (m : Impl) (T : Traits) (I : Interp V) (std20 : Bool) (c c' : Call)
    (hx : Clear T c.args) (hm : ∀ s f, m ⟨s, [f]⟩ = true → T.isProj .ident f = true)
    (h : resolve m T std20 c = .calls c') : I.byPosition c'.args = I.order T c.args := by
  obtain ⟨h1, -, h3⟩ := C80_order m T I std20 c c' hx h
  rw [← h1]
  obtain ⟨s, xs⟩ := c'
  match xs, h3 with
  | [], _ => rfl
  | [f], h3 =>
    have := hm s f h3
    simp only [Interp.order, Interp.byPosition, isCmp, this, Bool.or_true, if_true]
  | _ :: _ :: _, _ => rfl

example : resolve (defaulted exTraits) exTraits false ⟨.range, [.user 1]⟩ = .calls ⟨.iters, [.less, .user 1]⟩ ∧
    ∀ s f, defaulted exTraits ⟨s, [f]⟩ = true → exTraits.isProj .ident f = true := by
  refine ⟨by decide +kernel, fun s f h => ?_⟩
  cases s with
  | iters => exact h
  | range => cases h

/-! ### C81 -/

/-- C81: with two iterators, and with an iterable if the implementation accepts two iterators whenever it accepts an
iterable, no call is ambiguous. Missing: implementations that accept iterables only. -/
theorem C81_unambiguous_partial (m : Impl) (T : Traits) (std20 : Bool) (c : Call) (hx : Clear T c.args)
    (hm : c.shape = .range → ∀ xs, m ⟨.range, xs⟩ = true → m ⟨.iters, xs⟩ = true) :
    resolve m T std20 c ≠ .ambiguous := by
  have key : (resolve m T std20 c).kind ≠ some .none := by
    obtain ⟨s, xs⟩ := c
    match xs, hx with
    | [], _ => exact not_amb0 std20 s
    | [f], hx =>
      cases s with
      | iters => exact not_amb1_iters std20 (hx f (by simp))
      | range => exact not_amb1_range std20 (hx f (by simp)) (hm rfl)
    | [c, p], _ =>
      cases s with
      | iters => exact not_amb2_iters std20 c p
      | range => exact not_amb2_range std20 c p (hm rfl)
    | _ :: _ :: _ :: _, _ => rw [resolve_many]; nofun
  intro e
  rw [e] at key
  exact key rfl

example : Clear exTraits [.user 0, .user 1] ∧
    ∀ xs, both exTraits ⟨.range, xs⟩ = true → both exTraits ⟨.iters, xs⟩ = true :=
  ⟨exClear _, fun _ h => h⟩

/-- C81 is false: an implementation with the single `operator()(Iterable&, Compare = {}, Projection = {})`, given a
projection (319-344 against 1044-1072) or a comparison and a projection (568-585 against 1114-1139). -/
theorem C81_unambiguous_false : ¬ ∀ (m : Impl) (T : Traits) (std20 : Bool) (c : Call), Clear T c.args →
    Sensible T c.args → resolve m T std20 c ≠ .ambiguous := fun h =>
  h (rangeOnly exTraits) exTraits false ⟨.range, [.user 1]⟩ (exClear _) (.inr rfl) (by decide +kernel)

theorem C81_two_functions_false : ¬ ∀ (m : Impl) (T : Traits) (std20 : Bool) (c p : Fn), Clear T [c, p] →
    T.isProj p c = true → resolve m T std20 ⟨.range, [c, p]⟩ ≠ .ambiguous := fun h =>
  h (rangeOnly exTraits) exTraits false (.user 0) (.user 1) (exClear _) rfl (by decide +kernel)

/-! ### C82 -/

/-- C82: an implementation that can be called with two iterators and up to one comparison serves every sensible call.
(docs/Sorter-facade.md 140.) The conditions on iterables hold for implementations that do not accept any. Missing:
implementations whose parameters have no default arguments. -/
theorem C82_comparison_partial (m : Impl) (T : Traits) (std20 : Bool) (c : Call) (hx : Clear T c.args)
    (hs : Sensible T c.args) (h0 : m ⟨.iters, []⟩ = true)
    (h1 : ∀ c, T.isProj .ident c = true → m ⟨.iters, [c]⟩ = true)
    (hm : ∀ xs, m ⟨.range, xs⟩ = true → m ⟨.iters, xs⟩ = true)
    (hu : ∀ c i, i = .ident ∨ i = .sident → m ⟨.range, [.pc c i]⟩ = true → m ⟨.range, [c]⟩ = true) :
    ∃ c', resolve m T std20 c = .calls c' := by
  refine calls_of_kind ?_ ?_
  · obtain ⟨s, xs⟩ := c
    match xs, hs with
    | [], _ => exact found0 std20 s h0
    | [f], hs => exact found1 std20 s hu h0 h1 hs
    | [c, p], hs => exact found2 std20 s hu h0 h1 hs
  · intro e
    refine C81_unambiguous_partial m T std20 c hx (fun _ => hm) ?_
    revert e
    cases resolve m T std20 c <;> simp [Outcome.kind]

example : (∀ c, exTraits.isProj .ident c = true → compareOnly exTraits ⟨.iters, [c]⟩ = true) ∧
    (∀ xs, compareOnly exTraits ⟨.range, xs⟩ = true → compareOnly exTraits ⟨.iters, xs⟩ = true) ∧
    Sensible exTraits [.user 0, .user 1] :=
  ⟨fun _ h => h, fun xs h => (by cases h), rfl⟩

/-- C82: an implementation that can be called with two iterators and up to a comparison and a projection serves every
sensible call, whatever it accepts iterables with (docs/Sorter-facade.md 81). Missing: implementations whose parameters
have no default arguments. -/
theorem C82_comparison_projection_partial (m : Impl) (T : Traits) (std20 : Bool) (c : Call) (hx : Clear T c.args)
    (hs : Sensible T c.args) (h0 : m ⟨.iters, []⟩ = true)
    (h1 : ∀ c, T.isProj .ident c = true → m ⟨.iters, [c]⟩ = true)
    (h2 : ∀ c p, T.isProj p c = true → m ⟨.iters, [c, p]⟩ = true)
    (hu : ∀ c i, i = .ident ∨ i = .sident → m ⟨.range, [.pc c i]⟩ = true → m ⟨.range, [c]⟩ = true) :
    ∃ c', resolve m T std20 c = .calls c' := by
  obtain ⟨s, xs⟩ := c
  match xs, hs with
  | [], _ => exact calls_of_kind (found0 std20 s h0) (not_amb0 std20 s)
  | [f], hs => exact calls_of_kind (found1 std20 s hu h0 h1 hs) (fused1 std20 s (hx f (by simp)) h1 h2)
  | [c, p], hs => exact calls_of_kind (found2 std20 s hu h0 h1 hs) (fused2 std20 s h2)

example : (∀ c p, exTraits.isProj p c = true → defaulted exTraits ⟨.iters, [c, p]⟩ = true) ∧
    resolve (mixed exTraits) exTraits true ⟨.range, [.user 0]⟩ = .calls ⟨.range, [.user 0]⟩ :=
  ⟨fun _ _ h => h, by decide +kernel⟩

/-- C82 is false: "everything can be done if `Sorter` has a single `operator()` taking a pair of iterators, a comparison
function and a projection function". Without default arguments nothing completes a call without projection. -/
theorem C82_no_defaults_false : ¬ ∀ (m : Impl) (T : Traits) (std20 : Bool) (c : Call), Clear T c.args →
    Sensible T c.args → (∀ c p, T.isProj p c = true → m ⟨.iters, [c, p]⟩ = true) →
    ∃ c', resolve m T std20 c = .calls c' := by
  intro h
  obtain ⟨c', hc⟩ := h (noDefaults exTraits) exTraits true ⟨.iters, [.user 0]⟩ (exClear _) (.inl rfl) fun _ _ h => h
  rw [show resolve (noDefaults exTraits) exTraits true ⟨.iters, [.user 0]⟩ = .none by decide +kernel] at hc
  cases hc

example : resolve (noDefaults exTraits) exTraits true ⟨.range, []⟩ = .none ∧
    resolve (noDefaults exTraits) exTraits true ⟨.iters, [.user 1]⟩ = .calls ⟨.iters, [.less, .user 1]⟩ := by
  decide +kernel

/-- C82 is false for the implementation given as an example in the documentation: `selection_sorter{}(first, last, projection)` uses the
projection as a comparison (in C++ it does not compile). -/
theorem C82_unconstrained_false : ¬ ∀ (V : Type) (I : Interp V) (T : Traits) (std20 : Bool) (c c' : Call),
    Clear T c.args → Sensible T c.args → resolve unconstrained T std20 c = .calls c' →
    I.byPosition c'.args = I.order T c.args := by
  intro h
  have := h Nat ⟨fun a b => decide (a < b), fun _ _ _ => false, fun _ => id⟩ exTraits false ⟨.iters, [.user 1]⟩
    ⟨.iters, [.user 1]⟩ (exClear _) (.inr rfl) (by decide +kernel)
  have := congrFun (congrFun this 0) 1
  revert this
  decide +kernel

/-! ### C83 -/

/-- The implementation takes an iterable with the functions of the call, but for a missing `std::less<>`. -/
def Direct (m : Impl) (T : Traits) : List Fn → Prop
  | [] => m ⟨.range, []⟩ = true
  | [f] => m ⟨.range, [f]⟩ = true ∧ (T.isProj .ident f = true ∨ T.isProj f .less = true) ∨
      m ⟨.range, [.less, f]⟩ = true ∧ T.isProj f .less = true
  | [c, p] => m ⟨.range, [c, p]⟩ = true ∧ T.isProj p c = true
  | _ => False

/-- C83: a call with an iterable calls an `operator()` with an iterable of the implementation if there is one with
these functions (docs/Sorter-facade.md 132), provided the implementation accepts two iterators whenever it accepts an
iterable. Missing: that condition, and the calls where the implementation could take the iterable with the projection
baked into the comparison. -/
theorem C83_iterable_partial (m : Impl) (T : Traits) (std20 : Bool) (xs : List Fn) (hx : Clear T xs)
    (hm : ∀ xs, m ⟨.range, xs⟩ = true → m ⟨.iters, xs⟩ = true) (h : Direct m T xs) :
    ∃ ys, resolve m T std20 ⟨.range, xs⟩ = .calls ⟨.range, ys⟩ := by
  match xs, h with
  | [], h => exact kind_calls (direct0 std20 h)
  | [f], h =>
    refine kind_calls (direct1 std20 (hx f (by simp)) hm ?_)
    simpa [Direct] using h
  | [c, p], h =>
    refine kind_calls (direct2 std20 hm ?_)
    simpa [Direct] using h

example : Direct (both exTraits) exTraits [.user 1] ∧
    resolve (both exTraits) exTraits false ⟨.range, [.user 1]⟩ = .calls ⟨.range, [.less, .user 1]⟩ :=
  ⟨.inr ⟨rfl, rfl⟩, by decide +kernel⟩

/-- C83 is false without the condition: an implementation that takes iterables with `std::less<>`, but two iterators
only without a function. -/
theorem C83_iterable_false : ¬ ∀ (m : Impl) (T : Traits) (std20 : Bool) (xs : List Fn), Clear T xs → Direct m T xs →
    ∃ ys, resolve m T std20 ⟨.range, xs⟩ = .calls ⟨.range, ys⟩ := by
  intro h
  obtain ⟨ys, hy⟩ := h (fun c => decide (c = ⟨.range, [.less]⟩ ∨ c = ⟨.iters, []⟩)) exTraits false [.less] (exClear _)
    (.inl ⟨by decide, .inl rfl⟩)
  rw [show resolve (fun c => decide (c = ⟨.range, [.less]⟩ ∨ c = ⟨.iters, []⟩)) exTraits false ⟨.range, [.less]⟩ =
    .calls ⟨.iters, []⟩ by decide +kernel] at hy
  cases hy

/-- "dispatch the call to an overload taking a pair of iterators when it cannot do otherwise" is false: an iterable and
a projection go to the overload with two iterators though the implementation takes the iterable with the baked
comparison. -/
theorem C83_baked_false : ¬ ∀ (m : Impl) (T : Traits) (std20 : Bool) (p : Fn) (ys : List Fn), Clear T [p] →
    resolve m T std20 ⟨.range, [p]⟩ = .calls ⟨.iters, ys⟩ → m ⟨.range, [.pc .less p]⟩ = false := by
  intro h
  have := h (mixed exTraits) exTraits false (.user 1) [.less, .user 1] (exClear _) (by decide +kernel)
  revert this
  decide +kernel

/-! ### C84 -/

/-- C84: a sorter that can be called without functions can be called with `std::less<>`, with `utility::identity`, and
in C++20 with `std::ranges::less` and with `std::identity`. -/
theorem C84_one (m : Impl) (T : Traits) (std20 : Bool) (s : Shape) (f : Fn)
    (hf : f = .less ∨ f = .ident ∨ std20 = true ∧ (f = .rless ∨ f = .sident))
    (h : resolve m T std20 ⟨s, []⟩ ≠ .none) : resolve m T std20 ⟨s, [f]⟩ ≠ .none := fun e =>
  spelled1 std20 s hf (fun e' => h (none_of_kind e')) (by rw [e]; rfl)

example : resolve bare exTraits true ⟨.range, []⟩ ≠ .none ∧
    resolve bare exTraits true ⟨.range, [.sident]⟩ = .calls ⟨.iters, []⟩ := by
  decide +kernel

/-- C84: and with both. Missing: `std::ranges::less` with `utility::identity`. -/
theorem C84_both_partial (m : Impl) (T : Traits) (std20 : Bool) (s : Shape) (c p : Fn)
    (hf : c = .less ∧ p = .ident ∨ std20 = true ∧ (c = .less ∨ c = .rless) ∧ p = .sident)
    (h : resolve m T std20 ⟨s, []⟩ ≠ .none) : resolve m T std20 ⟨s, [c, p]⟩ ≠ .none := fun e =>
  spelled2 std20 s hf (fun e' => h (none_of_kind e')) (by rw [e]; rfl)

example : resolve bare exTraits true ⟨.iters, [.rless, .sident]⟩ = .calls ⟨.iters, []⟩ := by
  decide +kernel

/-- C84 is false for `std::ranges::less` with `utility::identity`. -/
theorem C84_both_false : ¬ ∀ (m : Impl) (T : Traits) (s : Shape) (c p : Fn), (c = .less ∨ c = .rless) →
    (p = .ident ∨ p = .sident) → resolve m T true ⟨s, []⟩ ≠ .none → resolve m T true ⟨s, [c, p]⟩ ≠ .none := fun h =>
  h bare exTraits .iters .rless .ident (.inr rfl) (.inl rfl) (by decide +kernel) (by decide +kernel)

/-- C84: a projection can be given with `std::less<>` whenever it can be given alone. -/
theorem C84_projection (m : Impl) (T : Traits) (std20 : Bool) (s : Shape) (p : Fn) (hx : Clear T [p])
    (hp : T.isProj p .less = true) (h : resolve m T std20 ⟨s, [p]⟩ ≠ .none) :
    resolve m T std20 ⟨s, [.less, p]⟩ ≠ .none := fun e =>
  spelled_proj std20 s (hx p (by simp)) hp (fun e' => h (none_of_kind e')) (by rw [e]; rfl)

example : resolve (fun c => decide (c = ⟨.iters, [.user 1]⟩)) exTraits false ⟨.iters, [.less, .user 1]⟩ =
    .calls ⟨.iters, [.user 1]⟩ := by
  decide +kernel

end CppSort.Facade
