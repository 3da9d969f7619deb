import Verif.Model.Rotate
import Verif.Model.Insertion
/-
Fixed-size sorters given by straight-line decision programs: `low_comparisons_sorter<N>` (0..13),
its `front_insert<N>` helpers, and `low_moves_sorter<N>` for every N.

The bodies of low_comparisons/sort*.h and front_inserter/inserter*.h only use `first[i]` with literal
indices, `if (comp(first[i], first[j]))`, `iter_swap`, `iter_swap_if`, `rotate_left<N>`,
`rotate_right<N>`, explicit move chains through one temporary, `return` and calls of smaller programs;
`DP` is the syntax of such bodies and `DP.exec` their meaning.
-/
set_option autoImplicit false

namespace CppSort
variable {α : Type}

/-- Statements used by the bodies in detail/low_comparisons/*.h and detail/front_inserter/*.h. -/
inductive DP where
  /-- empty block -/
  | nop
  /-- `return;` (also `c_is_small = false`, see `DP.catch`) -/
  | stop
  /-- `iter_swap_if(first + i, first + j, compare, projection)` -/
  | cswap (i j : Nat)
  /-- `iter_swap(first + i, first + j)` -/
  | swap (i j : Nat)
  /-- `rotate_right<n>(first + i)` (detail/rotate_right.h, lines 20-36) -/
  | rotR (n i : Nat)
  /-- `rotate_left<n>(first + i)` (detail/rotate_left.h, lines 20-38) -/
  | rotL (n i : Nat)
  /-- `tmp = iter_move(first + c0); first[c0] = iter_move(first + c1); ...; first[ck] = tmp` -/
  | cyc (cs : List Nat)
  /-- `if (comp(proj(first[i]), proj(first[j]))) t else e` -/
  | ite (i j : Nat) (t e : DP)
  /-- `a; b`, where `b` is skipped if `a` executed `return` -/
  | seq (a b : DP)
  /-- `bool flag = true; a; if (flag) { b }` where `stop` in `a` stands for `flag = false` moved to the
  end of its branch (sort9.h, lines 384-431); execution goes on after the block in both cases -/
  | catch (a b : DP)
  /-- a call of a smaller program on `first + k` -/
  | call (k : Nat) (p : DP)

/-- The move chain `first[h] = iter_move(first + c); ...`, returning the last moved-from position. -/
def moveChain (first : Nat) : Nat → List Nat → M α Nat
  | h, [] => pure h
  | h, c :: cs => do
    moveTo (first + h) (first + c)
    moveChain first c cs

/-- Moves through one temporary along a cycle of positions. `rotate_left<N>(first + i)`
(detail/rotate_left.h, lines 20-38) is the cycle `i, i+1, ..., i+N-1`; `rotate_right<N>(first + i)`
(detail/rotate_right.h, lines 20-36) is the cycle `i+N-1, ..., i`; the explicit chains are in sort6.h
(lines 53-64) and sort9.h. Loops over a constant `N` are unrolled. -/
def cycleMoves (first : Nat) : List Nat → M α Unit
  | [] => pure ()
  | c :: cs => do
    let tmp ← moveOut (first + c)
    let h ← moveChain first c cs
    assign (first + h) tmp

/-- Meaning of a body; the result tells whether `return` was executed. The reference
`proj0 = proj(first[0])` kept by the front inserters is read again at each comparison: nothing is
written between its binding and its last use. -/
def DP.exec (cmp : α → α → M α Bool) : DP → Nat → M α Bool
  | .nop, _ => pure false
  | .stop, _ => pure true
  | .cswap i j, first => do
    iterSwapIf cmp (first + i) (first + j)
    pure false
  | .swap i j, first => do
    CppSort.swap (first + i) (first + j)
    pure false
  | .rotR n i, first => do
    cycleMoves first (List.range' i n).reverse
    pure false
  | .rotL n i, first => do
    cycleMoves first (List.range' i n)
    pure false
  | .cyc cs, first => do
    cycleMoves first cs
    pure false
  | .ite i j t e, first => do
    if ← cmp (← read (first + i)) (← read (first + j)) then
      t.exec cmp first
    else
      e.exec cmp first
  | .seq a b, first => do
    if ← a.exec cmp first then pure true else b.exec cmp first
  | .catch a b, first => do
    if ← a.exec cmp first then pure false else b.exec cmp first
  | .call k p, first => do
    let _ ← p.exec cmp (first + k)
    pure false

/-- Models `front_inserter_n<0>` (detail/front_inserter/inserter0.h, lines 13-23). -/
def frontInsert0 : DP :=
  .nop

/-- Models `front_inserter_n<1>` (detail/front_inserter/inserter1.h, lines 13-23). -/
def frontInsert1 : DP :=
  .nop

/-- Models `front_inserter_n<2>` (detail/front_inserter/inserter2.h, lines 19-36). -/
def frontInsert2 : DP :=
  .ite 1 0
    (.rotL 2 0)
    .nop

/-- Models `front_inserter_n<3>` (detail/front_inserter/inserter3.h, lines 19-41). -/
def frontInsert3 : DP :=
  .ite 1 0
    (.ite 2 0
        (.rotL 3 0)
        (.rotL 2 0))
    .nop

/-- Models `front_inserter_n<4>` (detail/front_inserter/inserter4.h, lines 19-45). -/
def frontInsert4 : DP :=
  .ite 2 0
    (.ite 3 0
        (.rotL 4 0)
        (.rotL 3 0))
    (.ite 1 0
        (.rotL 2 0)
        .nop)

/-- Models `front_inserter_n<5>` (detail/front_inserter/inserter5.h, lines 19-49). -/
def frontInsert5 : DP :=
  .ite 2 0
    (.ite 3 0
        (.ite 4 0
            (.rotL 5 0)
            (.rotL 4 0))
        (.rotL 3 0))
    (.ite 1 0
        (.rotL 2 0)
        .nop)

/-- Models `front_inserter_n<6>` (detail/front_inserter/inserter6.h, lines 19-53). -/
def frontInsert6 : DP :=
  .ite 3 0
    (.ite 4 0
        (.ite 5 0
            (.rotL 6 0)
            (.rotL 5 0))
        (.rotL 4 0))
    (.ite 2 0
        (.rotL 3 0)
        (.ite 1 0
            (.rotL 2 0)
            .nop))

/-- Models `front_inserter_n<7>` (detail/front_inserter/inserter7.h, lines 19-57). -/
def frontInsert7 : DP :=
  .ite 3 0
    (.ite 5 0
        (.ite 6 0
            (.rotL 7 0)
            (.rotL 6 0))
        (.ite 4 0
            (.rotL 5 0)
            (.rotL 4 0)))
    (.ite 2 0
        (.rotL 3 0)
        (.ite 1 0
            (.rotL 2 0)
            .nop))

/-- Models `front_inserter_n<8>` (detail/front_inserter/inserter8.h, lines 19-61). -/
def frontInsert8 : DP :=
  .ite 4 0
    (.ite 6 0
        (.ite 7 0
            (.rotL 8 0)
            (.rotL 7 0))
        (.ite 5 0
            (.rotL 6 0)
            (.rotL 5 0)))
    (.ite 2 0
        (.ite 3 0
            (.rotL 4 0)
            (.rotL 3 0))
        (.ite 1 0
            (.rotL 2 0)
            .nop))

/-- Models `front_inserter_n<9>` (detail/front_inserter/inserter9.h, lines 19-65). -/
def frontInsert9 : DP :=
  .ite 4 0
    (.ite 6 0
        (.ite 7 0
            (.ite 8 0
                (.rotL 9 0)
                (.rotL 8 0))
            (.rotL 7 0))
        (.ite 5 0
            (.rotL 6 0)
            (.rotL 5 0)))
    (.ite 2 0
        (.ite 3 0
            (.rotL 4 0)
            (.rotL 3 0))
        (.ite 1 0
            (.rotL 2 0)
            .nop))

/-- Models `front_inserter_n<10>` (detail/front_inserter/inserter10.h, lines 19-69). -/
def frontInsert10 : DP :=
  .ite 5 0
    (.ite 7 0
        (.ite 8 0
            (.ite 9 0
                (.rotL 10 0)
                (.rotL 9 0))
            (.rotL 8 0))
        (.ite 6 0
            (.rotL 7 0)
            (.rotL 6 0)))
    (.ite 3 0
        (.ite 4 0
            (.rotL 5 0)
            (.rotL 4 0))
        (.ite 2 0
            (.rotL 3 0)
            (.ite 1 0
                (.rotL 2 0)
                .nop)))

/-- Models `front_inserter_n<11>` (detail/front_inserter/inserter11.h, lines 19-73). -/
def frontInsert11 : DP :=
  .ite 5 0
    (.ite 8 0
        (.ite 9 0
            (.ite 10 0
                (.rotL 11 0)
                (.rotL 10 0))
            (.rotL 9 0))
        (.ite 7 0
            (.rotL 8 0)
            (.ite 6 0
                (.rotL 7 0)
                (.rotL 6 0))))
    (.ite 3 0
        (.ite 4 0
            (.rotL 5 0)
            (.rotL 4 0))
        (.ite 2 0
            (.rotL 3 0)
            (.ite 1 0
                (.rotL 2 0)
                .nop)))

/-- `front_insert<N>` (detail/front_insert.h, lines 29-40): the specializations that exist. -/
def frontInsertBody : Nat → Option DP
  | 0 => some frontInsert0
  | 1 => some frontInsert1
  | 2 => some frontInsert2
  | 3 => some frontInsert3
  | 4 => some frontInsert4
  | 5 => some frontInsert5
  | 6 => some frontInsert6
  | 7 => some frontInsert7
  | 8 => some frontInsert8
  | 9 => some frontInsert9
  | 10 => some frontInsert10
  | 11 => some frontInsert11
  | _ => none

/-- detail/front_insert.h, lines 29-40; another `N` does not compile. -/
def frontInsert (cmp : α → α → M α Bool) (n first : Nat) : M α Unit :=
  match frontInsertBody n with
  | some p => do
    let _ ← p.exec cmp first
    pure ()
  | none => fail .deref

/-- Models `low_comparisons_sorter_impl<2>` (detail/low_comparisons/sort2.h, lines 13-30). -/
def sortN2 : DP :=
  .cswap 0 1

/-- Models `low_comparisons_sorter_impl<3>` (detail/low_comparisons/sort3.h, lines 19-57). -/
def sortN3 : DP :=
  .ite 1 0
    (.ite 2 0
        (.ite 2 1
            (.swap 0 2)
            (.rotL 3 0))
        (.swap 0 1))
    (.ite 2 1
        (.ite 2 0
            (.rotR 3 0)
            (.swap 1 2))
        .nop)

/-- Models `low_comparisons_sorter_impl<4>` (detail/low_comparisons/sort4.h, lines 13-30). -/
def sortN4 : DP :=
  .seq (.call 1 sortN3) <|
  .call 0 frontInsert4

/-- Models `low_comparisons_sorter_impl<5>` (detail/low_comparisons/sort5.h, lines 18-84). -/
def sortN5 : DP :=
  .seq (.cswap 0 1) <|
  .seq (.cswap 2 3) <|
  .seq (.ite 3 1
    (.seq (.swap 0 2) <|
      .swap 1 3)
    .nop) <|
  .seq (.ite 4 1
    (.ite 4 0
        (.rotR 5 0)
        (.rotR 4 1))
    (.ite 4 3
        (.rotR 3 2)
        (.seq (.ite 2 0
            (.rotR 3 0)
            (.cswap 1 2)) <|
          .stop))) <|
  .ite 3 1
    (.ite 3 0
        (.rotR 4 0)
        (.rotR 3 1))
    (.cswap 2 3)

/-- Models `low_comparisons_sorter_impl<6>` (detail/low_comparisons/sort6.h, lines 18-106). -/
def sortN6 : DP :=
  .seq (.cswap 0 1) <|
  .seq (.cswap 2 3) <|
  .seq (.cswap 4 5) <|
  .seq (.ite 3 1
    (.seq (.swap 0 2) <|
      .swap 1 3)
    .nop) <|
  .seq (.ite 5 3
    (.ite 5 1
        (.seq (.cyc [5, 3, 1]) <|
          .cyc [4, 2, 0])
        (.seq (.swap 2 4) <|
          .swap 3 5))
    .nop) <|
  .seq (.ite 4 1
    (.ite 4 0
        (.rotR 5 0)
        (.rotR 4 1))
    (.ite 4 3
        (.rotR 3 2)
        (.seq (.ite 2 0
            (.rotR 3 0)
            (.cswap 1 2)) <|
          .stop))) <|
  .ite 3 1
    (.ite 3 0
        (.rotR 4 0)
        (.rotR 3 1))
    (.cswap 2 3)

/-- Models `low_comparisons_sorter_impl<7>` (detail/low_comparisons/sort7.h, lines 14-31). -/
def sortN7 : DP :=
  .seq (.call 1 sortN6) <|
  .call 0 frontInsert7

/-- Models `low_comparisons_sorter_impl<8>` (detail/low_comparisons/sort8.h, lines 13-30). -/
def sortN8 : DP :=
  .seq (.call 1 sortN7) <|
  .call 0 frontInsert8

/-- Models `low_comparisons_sorter_impl<9>` (detail/low_comparisons/sort9.h, lines 18-556). -/
def sortN9 : DP :=
  .seq (.cswap 0 1) <|
  .seq (.cswap 2 3) <|
  .seq (.cswap 4 5) <|
  .seq (.cswap 6 7) <|
  .seq (.ite 3 1
    (.seq (.swap 0 2) <|
      .swap 1 3)
    .nop) <|
  .seq (.ite 7 5
    (.seq (.swap 4 6) <|
      .swap 5 7)
    .nop) <|
  .seq (.ite 7 3
    (.seq (.swap 0 4) <|
      .seq (.swap 1 5) <|
      .seq (.swap 2 6) <|
      .swap 3 7)
    .nop) <|
  .ite 5 1
    (.ite 5 0
        (.seq (.cyc [5, 3, 1]) <|
          .seq (.cyc [4, 2, 0]) <|
          .seq (.ite 4 2
            (.ite 4 1
                (.ite 4 0
                    (.rotR 5 0)
                    (.rotR 4 1))
                (.rotR 3 2))
            (.ite 4 3
                (.rotR 2 3)
                .nop)) <|
          .seq (.cyc [6, 7, 8]) <|
          .seq (.ite 7 3
            (.ite 7 1
                (.ite 7 0
                    (.rotR 8 0)
                    (.rotR 7 1))
                (.ite 7 2
                    (.rotR 6 2)
                    (.rotR 5 3)))
            (.ite 7 5
                (.ite 7 4
                    (.rotR 4 4)
                    (.rotR 3 5))
                (.ite 7 6
                    (.rotR 2 6)
                    (.seq (.cyc [8, 7, 6]) <|
                      .seq (.ite 6 3
                        (.ite 6 1
                            (.ite 6 0
                                (.rotR 7 0)
                                (.rotR 6 1))
                            (.ite 6 2
                                (.rotR 5 2)
                                (.rotR 4 3)))
                        (.ite 6 5
                            (.ite 6 4
                                (.rotR 3 4)
                                (.rotR 2 5))
                            .nop)) <|
                      .stop)))) <|
          .seq (.swap 7 8) <|
          .ite 7 3
            (.ite 7 1
                (.ite 7 0
                    (.rotR 8 0)
                    (.rotR 7 1))
                (.ite 7 2
                    (.rotR 6 2)
                    (.rotR 5 3)))
            (.ite 7 5
                (.ite 7 4
                    (.rotR 4 4)
                    (.rotR 3 5))
                (.ite 7 6
                    (.rotR 2 6)
                    .nop)))
        (.seq (.cyc [5, 3, 1, 4, 2]) <|
          .seq (.cswap 0 1) <|
          .seq (.ite 4 2
            (.ite 4 1
                (.ite 4 0
                    (.rotR 5 0)
                    (.rotR 4 1))
                (.rotR 3 2))
            (.ite 4 3
                (.rotR 2 3)
                .nop)) <|
          .seq (.cyc [6, 7, 8]) <|
          .seq (.ite 7 3
            (.ite 7 1
                (.ite 7 0
                    (.rotR 8 0)
                    (.rotR 7 1))
                (.ite 7 2
                    (.rotR 6 2)
                    (.rotR 5 3)))
            (.ite 7 5
                (.ite 7 4
                    (.rotR 4 4)
                    (.rotR 3 5))
                (.ite 7 6
                    (.rotR 2 6)
                    (.seq (.cyc [8, 7, 6]) <|
                      .seq (.ite 6 3
                        (.ite 6 1
                            (.ite 6 0
                                (.rotR 7 0)
                                (.rotR 6 1))
                            (.ite 6 2
                                (.rotR 5 2)
                                (.rotR 4 3)))
                        (.ite 6 5
                            (.ite 6 4
                                (.rotR 3 4)
                                (.rotR 2 5))
                            .nop)) <|
                      .stop)))) <|
          .seq (.swap 7 8) <|
          .ite 7 3
            (.ite 7 1
                (.ite 7 0
                    (.rotR 8 0)
                    (.rotR 7 1))
                (.ite 7 2
                    (.rotR 6 2)
                    (.rotR 5 3)))
            (.ite 7 5
                (.ite 7 4
                    (.rotR 4 4)
                    (.rotR 3 5))
                (.ite 7 6
                    (.rotR 2 6)
                    .nop))))
    (.seq (.ite 5 3
        (.seq (.swap 2 4) <|
          .swap 3 5)
        .nop) <|
      .seq (.catch (.ite 4 1
        (.ite 4 0
            (.rotR 5 0)
            (.rotR 4 1))
        (.ite 4 3
            (.rotR 3 2)
            (.seq (.ite 2 1
                (.ite 2 0
                    (.rotR 3 0)
                    (.rotR 2 1))
                .nop) <|
              .stop)))
      (.ite 3 1
          (.ite 3 0
              (.rotR 4 0)
              (.rotR 3 1))
          (.ite 3 2
              (.rotR 2 2)
              .nop))) <|
      .seq (.cyc [6, 7, 8]) <|
      .seq (.ite 7 3
        (.ite 7 1
            (.ite 7 0
                (.rotR 8 0)
                (.rotR 7 1))
            (.ite 7 2
                (.rotR 6 2)
                (.rotR 5 3)))
        (.ite 7 5
            (.ite 7 4
                (.rotR 4 4)
                (.rotR 3 5))
            (.ite 7 6
                (.rotR 2 6)
                (.seq (.cyc [8, 7, 6]) <|
                  .seq (.ite 6 3
                    (.ite 6 1
                        (.ite 6 0
                            (.rotR 7 0)
                            (.rotR 6 1))
                        (.ite 6 2
                            (.rotR 5 2)
                            (.rotR 4 3)))
                    (.ite 6 5
                        (.ite 6 4
                            (.rotR 3 4)
                            (.rotR 2 5))
                        .nop)) <|
                  .stop)))) <|
      .seq (.swap 7 8) <|
      .ite 7 3
        (.ite 7 1
            (.ite 7 0
                (.rotR 8 0)
                (.rotR 7 1))
            (.ite 7 2
                (.rotR 6 2)
                (.rotR 5 3)))
        (.ite 7 5
            (.ite 7 4
                (.rotR 4 4)
                (.rotR 3 5))
            (.ite 7 6
                (.rotR 2 6)
                .nop)))

/-- Models `low_comparisons_sorter_impl<10>` (detail/low_comparisons/sort10.h, lines 13-30). -/
def sortN10 : DP :=
  .seq (.call 1 sortN9) <|
  .call 0 frontInsert10

/-- Models `low_comparisons_sorter_impl<11>` (detail/low_comparisons/sort11.h, lines 13-30). -/
def sortN11 : DP :=
  .seq (.call 1 sortN10) <|
  .call 0 frontInsert11

/-- Models `low_comparisons_sorter_impl<12>` (detail/low_comparisons/sort12.h, lines 13-94). -/
def sortN12 : DP :=
  .seq (.call 1 sortN10) <|
  .seq (.cswap 0 11) <|
  .seq (.ite 1 0
    (.seq (.swap 0 1) <|
      .ite 2 1
        (.seq (.swap 1 2) <|
          .ite 3 2
            (.seq (.swap 2 3) <|
              .ite 4 3
                (.seq (.swap 3 4) <|
                  .ite 5 4
                    (.seq (.swap 4 5) <|
                      .ite 6 5
                        (.seq (.swap 5 6) <|
                          .ite 7 6
                            (.seq (.swap 6 7) <|
                              .ite 8 7
                                (.seq (.swap 7 8) <|
                                  .ite 9 8
                                    (.seq (.swap 8 9) <|
                                      .cswap 9 10)
                                    .nop)
                                .nop)
                            .nop)
                        .nop)
                    .nop)
                .nop)
            .nop)
        .nop)
    .nop) <|
  .ite 11 10
    (.seq (.swap 10 11) <|
      .ite 10 9
        (.seq (.swap 9 10) <|
          .ite 9 8
            (.seq (.swap 8 9) <|
              .ite 8 7
                (.seq (.swap 7 8) <|
                  .ite 7 6
                    (.seq (.swap 6 7) <|
                      .ite 6 5
                        (.seq (.swap 5 6) <|
                          .ite 5 4
                            (.seq (.swap 4 5) <|
                              .ite 4 3
                                (.seq (.swap 3 4) <|
                                  .ite 3 2
                                    (.seq (.swap 2 3) <|
                                      .cswap 1 2)
                                    .nop)
                                .nop)
                            .nop)
                        .nop)
                    .nop)
                .nop)
            .nop)
        .nop)
    .nop

/-- Models `low_comparisons_sorter_impl<13>` (detail/low_comparisons/sort13.h, lines 13-100). -/
def sortN13 : DP :=
  .seq (.call 1 sortN11) <|
  .seq (.cswap 0 12) <|
  .seq (.ite 1 0
    (.seq (.swap 0 1) <|
      .ite 2 1
        (.seq (.swap 1 2) <|
          .ite 3 2
            (.seq (.swap 2 3) <|
              .ite 4 3
                (.seq (.swap 3 4) <|
                  .ite 5 4
                    (.seq (.swap 4 5) <|
                      .ite 6 5
                        (.seq (.swap 5 6) <|
                          .ite 7 6
                            (.seq (.swap 6 7) <|
                              .ite 8 7
                                (.seq (.swap 7 8) <|
                                  .ite 9 8
                                    (.seq (.swap 8 9) <|
                                      .ite 10 9
                                        (.seq (.swap 9 10) <|
                                          .cswap 10 11)
                                        .nop)
                                    .nop)
                                .nop)
                            .nop)
                        .nop)
                    .nop)
                .nop)
            .nop)
        .nop)
    .nop) <|
  .ite 12 11
    (.seq (.swap 11 12) <|
      .ite 11 10
        (.seq (.swap 10 11) <|
          .ite 10 9
            (.seq (.swap 9 10) <|
              .ite 9 8
                (.seq (.swap 8 9) <|
                  .ite 8 7
                    (.seq (.swap 7 8) <|
                      .ite 7 6
                        (.seq (.swap 6 7) <|
                          .ite 6 5
                            (.seq (.swap 5 6) <|
                              .ite 5 4
                                (.seq (.swap 4 5) <|
                                  .ite 4 3
                                    (.seq (.swap 3 4) <|
                                      .ite 3 2
                                        (.seq (.swap 2 3) <|
                                          .cswap 1 2)
                                        .nop)
                                    .nop)
                                .nop)
                            .nop)
                        .nop)
                    .nop)
                .nop)
            .nop)
        .nop)
    .nop


/-- Models `low_comparisons_sorter_impl<N>`: `empty_sorter_impl` for 0 and 1
(fixed/low_comparisons_sorter.h, lines 35-43), the specializations above for 2 to 13, no specialization
for greater sizes (`static_assert`, lines 28-31: the program does not compile, which is modelled by the
outcome `none`). -/
def lowComparisonsBody : Nat → Option DP
  | 0 => some .nop
  | 1 => some .nop
  | 2 => some sortN2
  | 3 => some sortN3
  | 4 => some sortN4
  | 5 => some sortN5
  | 6 => some sortN6
  | 7 => some sortN7
  | 8 => some sortN8
  | 9 => some sortN9
  | 10 => some sortN10
  | 11 => some sortN11
  | 12 => some sortN12
  | 13 => some sortN13
  | _ => none

/-- Models `low_comparisons_sorter<N>::operator()` (fixed/low_comparisons_sorter.h, lines 46-49). -/
def lowComparisonsSort (cmp : α → α → M α Bool) (n : Nat) (first _last : Nat) : M α Unit :=
  match lowComparisonsBody n with
  | some p => do
    let _ ← p.exec cmp first
    pure ()
  | none => fail .deref

/-- Loop of `unchecked_minmax_element` (detail/minmax_element.h, lines 21-68), from the current
position `b` (already examined) with the best positions `mn`, `mx`. -/
def minmaxLoop (cmp : α → α → M α Bool) (b last mn mx : Nat) : M α (Nat × Nat) := do
  let b := b + 1
  if b = last then
    pure (mn, mx)
  else
    let tmp := b
    let b := b + 1
    if b = last then
      if ← cmp (← read tmp) (← read mn) then
        pure (tmp, mx)
      else if ← cmp (← read tmp) (← read mx) then
        pure (mn, mx)
      else
        pure (mn, tmp)
    else if ← cmp (← read b) (← read tmp) then
      let mn ← (do if ← cmp (← read b) (← read mn) then pure b else pure mn)
      let mx ← (do if ← cmp (← read tmp) (← read mx) then pure mx else pure tmp)
      minmaxLoop cmp b last mn mx
    else
      let mn ← (do if ← cmp (← read tmp) (← read mn) then pure tmp else pure mn)
      let mx ← (do if ← cmp (← read b) (← read mx) then pure mx else pure b)
      minmaxLoop cmp b last mn mx
partial_fixpoint

/-- Models `swap` guarded by an iterator comparison: `if (a != b) iter_swap(a, b)`
(fixed/low_moves_sorter.h). -/
def swapUnlessSame (a b : Nat) : M α Unit :=
  if a ≠ b then swap a b else pure ()

/-- Models `unchecked_minmax_element` (detail/minmax_element.h, lines 35-75). -/
def uncheckedMinmax (cmp : α → α → M α Bool) (first last : Nat) : M α (Nat × Nat) :=
  minmaxLoop cmp first last first first

/-- Models the exchanges of the generic `low_moves_sorter_impl<N>` (fixed/low_moves_sorter.h, lines
56-72); `last` is already decremented. The early `return` for `min == max` in the first branch is kept
as a no-op result `false`. -/
def lowMovesPlace (first last mn mx : Nat) : M α Bool := do
  if mx = first ∧ mn = last then
    if mn = mx then
      pure false
    else
      swap mn mx
      pure true
  else if mx = first then
    swapUnlessSame last mx
    swapUnlessSame first mn
    pure true
  else
    swapUnlessSame first mn
    swapUnlessSame last mx
    pure true

/-- Models `low_moves_sorter_impl<N>`: sizes 0 and 1 (fixed/low_moves_sorter.h, lines 81-89), 2
(detail/low_moves/sort2.h), 3 (detail/low_moves/sort3.h, the same decision tree as
low_comparisons/sort3.h), 4 (detail/low_moves/sort4.h, lines 35-47; `min_element` of a non-empty range)
and the generic case (fixed/low_moves_sorter.h, lines 35-79). -/
def lowMovesSort (cmp : α → α → M α Bool) : Nat → Nat → Nat → M α Unit
  | 0, _, _ => pure ()
  | 1, _, _ => pure ()
  | 2, first, _ => iterSwapIf cmp first (first + 1)
  | 3, first, _ => do
    let _ ← sortN3.exec cmp first
    pure ()
  | 4, first, last => do
    let mn ← (if first = last then pure last else uncheckedMinElement cmp first last)
    if mn ≠ first then
      swap mn first
      let _ ← sortN3.exec cmp (first + 1)
      pure ()
    else
      let _ ← sortN3.exec cmp (first + 1)
      pure ()
  | n + 5, first, last => do
    let (mn, mx) ← uncheckedMinmax cmp first last
    if ← lowMovesPlace first (last - 1) mn mx then
      lowMovesSort cmp (n + 3) (first + 1) (last - 1)
    else
      pure ()

end CppSort
