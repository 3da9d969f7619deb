import Verif.Proof.WikiSearch
import Verif.Base.Network
/-
wiki_sort.h 355-407: the networks, which sort stably with the help of the array `order`.
-/
set_option autoImplicit false

namespace CppSort
variable {α : Type} {lt : α → α → Bool}

/-- All the wires, then the network. -/
def wirePlan (net : List (Nat × Nat)) : Nat → Plan
  | 0 => .wire 0
  | 1 => .wire 0
  | n + 2 => .node (wires (n + 1)) (.wire (n + 1)) net false
where
  wires : Nat → Plan
  | 0 => .wire 0
  | 1 => .wire 0
  | n + 2 => .node (wires (n + 1)) (.wire (n + 1)) [] false

theorem wikiNet_sorts01 {n : Nat} (h4 : 4 ≤ n) (h8 : n ≤ 8) : Sorts01 n (wikiNet n) := by
  have h : ∀ k : Fin 5, checkNet (k + 4) (wikiNet (k + 4)) (wirePlan (wikiNet (k + 4)) (k + 4)) = true := by decide +kernel
  have := sorts01_of_check (h ⟨n - 4, by omega⟩)
  rwa [show n - 4 + 4 = n by omega] at this

theorem wikiNet_range {n : Nat} (h4 : 4 ≤ n) (h8 : n ≤ 8) : ∀ p ∈ wikiNet n, p.1 < p.2 ∧ p.2 < n := by
  have h : ∀ k : Fin 5, (wikiNet (k + 4)).all (fun p => decide (p.1 < p.2) && decide (p.2 < k + 4)) = true := by decide +kernel
  intro p hp
  have := List.all_eq_true.1 (h ⟨n - 4, by omega⟩) p (by rw [show ((⟨n - 4, by omega⟩ : Fin 5) : Nat) + 4 = n by simp; omega]; exact hp)
  simp only [Bool.and_eq_true, decide_eq_true_eq] at this
  omega

/-- The order on values with their places. -/
def lexLt (lt : α → α → Bool) (x y : α × Nat) : Bool := lt x.1 y.1 || (!lt y.1 x.1 && decide (x.2 < y.2))

theorem lexLt_sw (hlt : StrictWeak lt) : StrictWeak (lexLt lt) := by
  have hiff : ∀ x y : α × Nat, lexLt lt x y = true ↔ lt x.1 y.1 = true ∨ (lt y.1 x.1 = false ∧ x.2 < y.2) := by
    intro x y; unfold lexLt; simp
  have hfalse : ∀ x y : α × Nat, lexLt lt x y = false ↔ lt x.1 y.1 = false ∧ (lt y.1 x.1 = true ∨ y.2 ≤ x.2) := by
    intro x y; unfold lexLt
    cases lt x.1 y.1 <;> cases lt y.1 x.1 <;> simp
  refine ⟨fun x => (hfalse x x).2 ⟨hlt.irrefl _, .inr (Nat.le_refl _)⟩, fun x y z h1 h2 => ?_, fun x y z h1 h2 h3 h4 => ?_⟩
  · rw [hiff] at *
    rcases h1 with h1 | ⟨h1, h1'⟩
    · rcases h2 with h2 | ⟨h2, -⟩
      · exact .inl (hlt.trans _ _ _ h1 h2)
      · exact .inl (hlt.lt_of_lt_of_le h1 h2)
    · rcases h2 with h2 | ⟨h2, h2'⟩
      · exact .inl (hlt.lt_of_le_of_lt h1 h2)
      · exact .inr ⟨hlt.le_trans h1 h2, by omega⟩
  · rw [hfalse] at h1 h2 h3 h4
    rw [hfalse, hfalse]
    obtain ⟨h1, h1'⟩ := h1
    obtain ⟨h2, h2'⟩ := h2
    obtain ⟨h3, h3'⟩ := h3
    obtain ⟨h4, h4'⟩ := h4
    have e1 : x.2 = y.2 := by
      have := h1'.resolve_left (by rw [h2]; simp)
      have := h2'.resolve_left (by rw [h1]; simp)
      omega
    have e2 : y.2 = z.2 := by
      have := h3'.resolve_left (by rw [h4]; simp)
      have := h4'.resolve_left (by rw [h3]; simp)
      omega
    exact ⟨⟨hlt.le_trans h3 h1, .inr (by omega)⟩, hlt.le_trans h2 h4, .inr (by omega)⟩

theorem wikiOut_spec {start x y : Nat} {order : Nat → Nat} {a b : α} {s : St α} {Q : Bool → St α → Prop} (hx : s.cell (start + x) = .val a) (hy : s.cell (start + y) = .val b)
    (h : ∀ k, Q (lexLt lt (b, order y) (a, order x)) { s with cmps := k }) : wp (wikiOut (tick lt) start order x y) Q s := by
  unfold wikiOut
  apply wp_bind
  refine wp_wikiLt hy hx ?_
  by_cases h1 : lt b a = true
  · rw [if_pos h1]
    have := h (s.cmps + 1)
    simp only [lexLt, h1, Bool.true_or] at this
    exact wp_pure this
  · rw [if_neg h1]
    have h1 : lt b a = false := by simpa using h1
    split
    · rename_i h2
      unfold wikiLt
      apply wp_bind
      refine wp_read' hx ?_
      apply wp_bind
      refine wp_read' hy ?_
      refine wp_notC_tick ?_
      have := h (s.cmps + 1 + 1)
      simp only [lexLt, h1, Bool.false_or] at this
      simpa [show order y < order x from h2] using this
    · rename_i h2
      have := h (s.cmps + 1)
      simp only [lexLt, h1, Bool.false_or] at this
      refine wp_pure ?_
      simpa [show ¬ order y < order x from h2] using this

theorem wikiNetwork_spec {f n : Nat} : ∀ (ps : List (Nat × Nat)) (order : Nat → Nat) (s : St α) (v : Nat → α), (∀ p ∈ ps, p.1 < n ∧ p.2 < n) → Holds s.cell f (f + n) v →
    wp (wikiNetwork (tick lt) f order ps) (fun _ s' => ∃ (v' : Nat → α) (order' : Nat → Nat), Upd f (f + n) s s' v v' ∧
      (fun k => (v' (f + k), order' k)) = runNet (lexLt lt) ps (fun k => (v (f + k), order k))) s := by
  intro ps
  induction ps with
  | nil =>
    intro order s v _ hh
    exact wp_pure ⟨v, order, Upd.refl hh, rfl⟩
  | cons p ps ih =>
    intro order s v hp hh
    obtain ⟨x, y⟩ := p
    have h1 := hp (x, y) (by simp)
    simp only [] at h1
    unfold wikiNetwork
    apply wp_bind
    refine wikiOut_spec (hh (f + x) (by omega) (by omega)) (hh (f + y) (by omega) (by omega)) ?_
    intro k
    split
    · rename_i h2
      apply wp_bind
      refine wp_swap (s := { s with cmps := k }) (v := v) hh (f := f) (l := f + n) ⟨by omega, by omega⟩ ⟨by omega, by omega⟩ ?_
      intro s1 hu
      refine wp_mono (ih (swapOrder order x y) s1 _ (fun q hq => hp q (List.mem_cons_of_mem _ hq)) hu.holds) ?_
      rintro _ s2 ⟨v', order', hu2, he⟩
      refine ⟨v', order', ⟨hu2.holds, hu.perm.trans hu2.perm, (Frame.of_env (s := s) (s' := { s with cmps := k }) rfl fun _ _ => rfl).trans (hu.frame.trans hu2.frame)⟩, ?_⟩
      rw [he]
      show _ = runNet (lexLt lt) ps (ce (lexLt lt) (x, y) fun k => (v (f + k), order k))
      congr 1
      funext k
      unfold ce
      simp only []
      rw [if_pos h2]
      unfold swp swapOrder
      simp only [Nat.add_left_cancel_iff]
      split
      · rfl
      · split <;> rfl
    · rename_i h2
      refine wp_mono (ih order { s with cmps := k } v (fun q hq => hp q (List.mem_cons_of_mem _ hq)) hh) ?_
      rintro _ s2 ⟨v', order', hu2, he⟩
      refine ⟨v', order', ⟨hu2.holds, hu2.perm, (Frame.of_env (s := s) (s' := { s with cmps := k }) rfl fun _ _ => rfl).trans hu2.frame⟩, ?_⟩
      rw [he]
      show _ = runNet (lexLt lt) ps (ce (lexLt lt) (x, y) fun k => (v (f + k), order k))
      congr 1
      unfold ce
      simp only []
      rw [if_neg h2]

/-- A list sorted by values and places is sorted stably. -/
theorem lex_ssorted (hlt : StrictWeak lt) {V0 V : Nat → α × Nat} {n : Nat} (h0 : ∀ i, i < n → (V0 i).2 = i) (hp : PermOn 0 n V0 V) (hs : SortedOn (lexLt lt) 0 n V) :
    SSorted lt ((lst V0 0 n).map Prod.fst) ((lst V 0 n).map Prod.fst) := by
  have hp2 : (lst V 0 n).Perm (lst V0 0 n) := hp.2
  have hmono0 : (lst V0 0 n).Pairwise fun a b => a.2 < b.2 := by
    unfold lst
    rw [List.pairwise_map]
    refine List.Pairwise.imp_of_mem ?_ (List.pairwise_lt_range' (step := 1))
    intro a b ha hb hab
    rw [List.mem_range'_1] at ha hb
    rw [h0 a (by omega), h0 b (by omega)]; exact hab
  have hsl : (lst V 0 n).Pairwise fun a b => lexLt lt b a = false := by
    unfold lst
    rw [List.pairwise_map]
    refine List.Pairwise.imp_of_mem ?_ (List.pairwise_lt_range' (step := 1))
    intro a b ha hb hab
    rw [List.mem_range'_1] at ha hb
    exact hs a b (by omega) hab (by omega)
  have hinj : ∀ a ∈ lst V0 0 n, ∀ b ∈ lst V0 0 n, a.2 = b.2 → a = b := by
    intro a ha b hb hab
    obtain ⟨i, -, h1, rfl⟩ := mem_lst.1 ha
    obtain ⟨j, -, h2, rfl⟩ := mem_lst.1 hb
    rw [h0 i h1, h0 j h2] at hab
    rw [hab]
  refine ⟨hp2.map _, ?_, fun x => ?_⟩
  · refine List.pairwise_map.2 (hsl.imp ?_)
    intro a b h
    unfold lexLt at h
    simp only [Bool.or_eq_false_iff] at h
    exact h.1
  · rw [List.filter_map, List.filter_map]
    congr 1
    refine List.Perm.eq_of_pairwise (le := fun a b => a.2 ≤ b.2) ?_ ?_ ?_ (hp2.filter _)
    · intro a b ha hb h1 h2
      exact hinj a (hp2.mem_iff.1 (List.mem_filter.1 ha).1) b (List.mem_filter.1 hb).1 (by omega)
    · refine List.Pairwise.imp_of_mem ?_ (hsl.filter _)
      intro a b ha hb h
      have ea := (List.mem_filter.1 ha).2
      have eb := (List.mem_filter.1 hb).2
      simp only [Function.comp, eqv, Bool.and_eq_true, Bool.not_eq_true'] at ea eb
      have hab : lt a.1 b.1 = false := hlt.le_trans eb.1 ea.2
      have hba : lt b.1 a.1 = false := hlt.le_trans ea.1 eb.2
      unfold lexLt at h
      simp [hab, hba] at h
      exact h
    · exact (hmono0.imp fun h => Nat.le_of_lt h).filter _

theorem wikiGroup_spec (hlt : StrictWeak lt) {f : Nat} {xs : List α} {s : St α} (h4 : 4 ≤ xs.length) (h8 : xs.length ≤ 8) (hs : Seg s.cell f xs) :
    wp (wikiNetwork (tick lt) f id (wikiNet xs.length)) (fun _ s' => Seg s'.cell f (ssort lt xs) ∧ Frame f (f + xs.length) s s') s := by
  haveI : Inhabited α := ⟨xs.head (List.ne_nil_of_length_pos (by omega))⟩
  obtain ⟨v, hv, he⟩ := hs.holds
  have hr := wikiNet_range h4 h8
  refine wp_mono (wikiNetwork_spec (n := xs.length) (wikiNet xs.length) id s v (fun p hp => by have := hr p hp; omega) hv) ?_
  rintro _ s1 ⟨v', order', hu, hnet⟩
  refine ⟨?_, hu.frame⟩
  have h1 := zero_one (lexLt_sw hlt) (fun p hp => by have := hr p hp; omega) (wikiNet_sorts01 h4 h8) (fun k => (v (f + k), id k))
  have h2 := runNet_perm (lt := lexLt lt) (n := xs.length) (ps := wikiNet xs.length) (fun p hp => by have := hr p hp; omega) (fun k => (v (f + k), id k))
  rw [← hnet] at h1 h2
  have h3 := lex_ssorted hlt (fun i _ => rfl) h2 h1
  have e1 : ∀ w : Nat → α, ∀ o : Nat → Nat, (lst (fun k => (w (f + k), o k)) 0 xs.length).map Prod.fst = lst w f (f + xs.length) := by
    intro w o
    unfold lst
    rw [List.map_map, show f + xs.length - f = xs.length by omega, Nat.sub_zero, show List.range' f xs.length = (List.range' 0 xs.length).map (f + ·) by
      rw [List.map_add_range']; rfl, List.map_map]
    rfl
  rw [e1, e1, he] at h3
  have := h3.eq_ssort hlt
  rw [← this]
  exact hu.holds.seg

end CppSort
