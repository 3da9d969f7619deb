# Formal model of cpp-sort in Lean 4

## Trusted base

* Lean 4.33.0's kernel and the three standard axioms `propext`, `Classical.choice`,
  `Quot.sound`.  No axiom is added, there is no `sorry`/`admit`, no `native_decide`, no
  `bv_decide`.  `decide +kernel` is only used on complete finite tables (e.g. the index pairs of
  the sorting networks) that a lemma then lifts to all inputs.
* That the Lean definitions under `lean/Verif/Model` render the C++ functions they cite.  Every
  definition carries the file and lines it models and the simplifications made.
* The semantics of the standard library facilities used by the code (`std::list::splice`,
  `std::list::merge`, `std::move`, placement new, `std::vector`), as written down in the model.

## What is modelled

*Memory.*  A flat address space `Nat → Cell α`; a cell is `unalloc`, `raw` (allocated, no object
alive), `moved` (a live, moved-from object) or `val a`.  The state also carries the allocation
frontier, counters for comparisons and element moves, and an arbitrary stream of answers of the
allocator.  Dereferencing anything but a `val`, assigning to a dead object, self move-assignment,
constructing over a live object, freeing a live object... are *errors* of the model: a theorem
"runs to `ok`" therefore contains memory safety, absence of use-after-move, and absence of
self-move (assigning a moved-from object to itself is allowed: the library's own `move_only` test
type accepts it, and `pdqsort.h` does it when the pivot is already in place).  Ranges live at an arbitrary base address, with arbitrary other contents around them.

*Programs.*  The monad `M α = ExceptT Err (StateT (St α) Option)`.  Loops and recursive functions
are written with `partial_fixpoint`: `none` is divergence, there is no fuel, and termination is
part of every theorem.

*Iterators* are addresses.  Algorithms with several versions by iterator category have one model
per version (e.g. forward `std::next` walks and random access `it + n` denote the same address:
only the elements accessed, the comparisons and the moves are modelled, not the iterator steps).

*Comparators and projections.*  Algorithms receive a comparison action; theorems use the action
that counts one comparison and answers `lt x y`, where `lt x y = comp (proj x) (proj y)`, for an
arbitrary `lt` with the strict weak order laws.  C40 states the API form with explicit `comp` and
`proj`.

## Specification vocabulary (`Verif/Spec.lean`)

`IsSorter`, `IsStableSorter` : for every state holding the list `xs` at `[first, first+n)`, the
call returns, the range holds a permutation of `xs` sorted for `lt` (stable: for each `x` the
sub-list of elements equivalent to `x` is unchanged), all other cells are unchanged — including
cells of scratch memory, which have to be back to `unalloc`: no leak.

## Sorting networks (C26, C64)

`Verif/Model/NetData*.lean` are the tables of the headers, extracted mechanically.
`Verif/Base/Network.lean` proves the 0-1 principle and a checker `checkNet`, which follows all
reachable 0-1 configurations of a network at once (bit-sliced: one natural number per wire, one
bit per configuration) along a *plan* (a tree of sub-networks, a regrouping of the comparators
that is itself checked to be a reordering of independent comparators).  `Verif/Base/Strands.lean`
treats the networks of 52 and 64 wires, whose first part sorts four strands by identical
networks.  The plans are untrusted certificates.

## Fixed-size sorters (C24, C25, C39, C40, C68)

`low_comparisons` bodies are transcribed as decision programs (`Verif/Model/FixedSize.lean`): compare
two slots, swap or rotate slots, branch.  A symbolic checker walks every branch; it is proved sound for
every strict weak order and run by the kernel on the whole program, not on sample inputs.  `low_moves`
is proved by induction on the size.

## Probes (C41-C52)

A probe never writes its range, so its range is a list `xs`.  `Runs m R` says that from every state `m`
returns a result satisfying `R` and changes only the number of comparisons.  Probes that sort a vector of
iterators run the modelled `pdqsort` on a private memory (`Verif/Base/Embed.lean`); an iterator is a pair
(element, position) compared on the element.  The sub-memory's moves are moves of iterators and are not
counted.  Running out of memory is a Boolean argument of the probes that have a fallback.
Witnesses of defects are evaluated by the kernel: `Verif/Model/FuelProbes.lean` holds copies of the model
with a bound on the recursion depth, and each copy is proved to agree with the model wherever it returns
(`Le`, `Verif/Base/Fuel.lean`).

## Adapters (C29-C33, C58, C59)

The adapted sorter is an arbitrary program; theorems assume only its specification (`Sorts`,
`SortsStably`) on the objects the adapter hands to it.  Iterators and indices are pairs (element,
position) in a private memory.  `associate_iterator` is modelled by a view of the memory in which each
cell of the range carries its data.  Local objects with destructors are `finallyDo`: the destructor runs
on normal and on exceptional exit.  `scope_success` runs its function on normal exit only.

## Dispatch, metrics, bounds (C34, C60, C65)

`hybrid_adapter` is modelled by its sorter list (category, iterator-dependent stability) and its overload
resolution through `choice` tags; nested adapters are trees flattened as `flat` does.  For the metrics the
sorter is an arbitrary interactive machine (it asks for comparisons and moves, receives the answers), and
the counting comparator wraps the answers.  Comparison bounds use the counter of the state; those of
heap_sorter and merge_sorter are proved as a partial-correctness statement on the count
(`Verif/Base/Cost.lean`) combined with the total correctness of C03 and C09.

## Drop-merge, split (C19, C20)

The `std::vector` of dropped elements is a storage block at the break of the memory, large enough for all
of them: reallocations (which only move elements between blocks) are not modelled.  The adapted sorter of
`drop_merge_adapter`/`split_adapter` is an arbitrary program assumed to satisfy `Sorts` on every memory.
The test on trivially copyable types is a Boolean argument and the theorems hold for both values.

## Mel, slab, stable partition (C17, C18, C67)

`fixed_size_list` is a list of values at this level, and `merge_unsafe` is `merge`; the node pool and the
links are modelled apart (C87, C88), and `C87_merge_values` joins the two levels.  The test `lists.size() > sqrt(size)` is in floating point: `melsort` takes an
arbitrary function in its place.  In slabsort the lists first hold iterators (positions in the range), then
the elements moved from there (`slabReify`).  `std::vector<fixed_size_list>` is a list.  The vector of
iterators given to `nth_element` is a local memory (`embed`).  `CPPSORT_ASSERT(size_left <= size / 2)` is
not modelled.  `original_p * original_p` is unbounded: with a 32-bit `difference_type` it overflows after
65536 encroaching lists, which needs a range with many elements equivalent to the median.

## Splay, Cartesian tree (C15, C16)

The links of the nodes (`parent`, `left_child`, `right_child`) are a function from pointers to link triples
(`Nodes`), the sentinel node is the pointer `none`; the values of the nodes are in the memory of the model, so
that constructions, moves and destructions are checked.  `Rep` (Base/Tree.lean) says that a pointer represents a
mathematical tree, `RepC` that a list of frames leads from it to the root (a zipper).  The priority queue of cartesian_tree_sort.h is a local memory of node numbers
(`onNodes`); its comparison reads the current memory of the values and fails on a moved-from one.

## Poplar (C05)

The poplars are a list of (begin, end, size); `Pop` says that a range of `2 ^ k - 1` elements is a poplar, `PRow`
that the poplars of the list cover a range.  The loop of `sift` carries a hole (the value moved out of the root).

## Smooth (C06)

`HeapShape` is a `BitVec 92` and an order; the table of Leonardo numbers is the literal table of the code, and an
access out of its bounds is an error.  Hence the theorem is about lengths below `2 ^ 63`.  `Bits` relates the bitset to
the list of the orders of the trees.  During the construction a tree which is going to be merged is only rebalanced:
the invariant `Built` says that the rows of trees which were all rectified (`Marked`, the test of the code) have
ascending roots, and at the end every tree was rectified (`allMarked_end`).

## Merge-insertion (C11, C69)

The `group_iterator`s of one level of the recursion are the indices of their groups, the chain (a list with a node pool)
is the list of the indices, the iterators stored in `pend` designate nodes by the value they hold.  `grps` is the list of
the groups of a memory; a level permutes the groups.  `ChainInv` has the order of the chain and, for the comparisons, a
bound of the position of each bound stored in `pend`.  The counters of the cycles are natural numbers.  The theorem about
the result does not depend on the order of the insertions; the one about the comparisons does.
`Model/FuelMergeInsertion` has copies with bounded recursion, to run the counterexample of C69.

## Spin (C14)

`range_sort`, `check_stable_sort` and `sort_range_sort` are one mutual recursion; the proof is an induction on
(size, level).  Ranges are described by lists (`Seg`), the work of a function by `Work`: which ranges it may change,
and that live cells stay live.  The iterators kept by `insert_partial_sort` are a list of positions.
`Proof/SegOps`, `SegMerge` and `SegFind` have the list level specifications of moves, merges, bounds and
reversals that later sorters reuse.

## Tim, adaptive shivers (C12, C13)

The pending runs are a list of (base, length); an access out of bounds of the vector is an error (`pendingAt`).
`minGallop_` is an unbounded integer.  The collapse rules only choose which runs are merged: the theorems do not
depend on the invariant on the run lengths (which bounds the work, not the result).  The expression of
`AdaptiveShiversSort::mergeCollapse` reads the run `n` only when there are three runs.  `Proof/Gallop` has the two
galloping searches, `Proof/TimLo`/`TimHi` the loops of `mergeLo`/`mergeHi` against `mergeL` (the stable merge of
lists), `Proof/TimSort` the stack of runs.

## Verge (C21, C22)

The `std::list` of runs is a list; the two entry points (random-access, bidirectional) and both values of the
`Stable` parameter are modelled, the fallback sorter is any function satisfying the specification.  The limit
`size / log2(size)` is a natural number (the conversion to `int` in the bidirectional version is not modelled).
The `goto` labels of the bidirectional version are the parameter `desc`.  `Proof/VergeMerge` merges lists of runs,
`Proof/Verge` has the scans and the two main loops; `Lone` describes the ranges on which the defect below can show.
`Model/FuelVerge` has copies with bounded recursion, to run the counterexample in the kernel.

## Counting (C23)

An integer type is a width and a signedness (`IntTy`): arithmetic is done in the promoted type (`int` has 32 bits),
signed overflow is an error, unsigned arithmetic and conversions wrap.  The elements are integers in the range of the
type.  The counters are a list; their allocation succeeds whenever the size is not negative.  The difference type of
the iterators is a 64-bit signed type.

## Ska (C63)

The types of keys are a syntax (`KTy`) with their values, `operator<` and `operator==`; the theorems are by induction on
it.  A sub-key (`SubKey`) is a partial function: an index out of the bounds of a list is an error.  `std::tuple` is a nested
pair; `sort_data` and the `next_sort` pointers are closures; the counters and the offsets of the partitions are functions
of the byte.  `TiedW lt P g` says that `g` sorts the ranges whose elements are related by `P`; each level of the recursion
strengthens `P` (`ByteOK`, `WordOK`, `ListOK`, `KeysOK`).  NaNs are excluded.  `char` and `wchar_t` are signed types.

## Grail (C61)

The functions that use an extra buffer and the ones that exchange with a buffer inside of the range are one function with a
parameter (`put`: `moveTo` or `swap`).  Numbers are unbounded: the conversions to `int` at lines 665 and 675 are not modelled,
neither are the overloads of `three_way_compare` for strings; the iterators computed before the beginning of the range
(`last - 2 * h`) are not errors.  A buffer (`newObjects`) is a block of live objects whose values are never read: an element read
from it before being written is an error.  `ssort` is the stable sort of a list and `chunkSort n` that of its chunks of `n`
elements: building gives `chunkSort (2 K)`, each combination doubles the size.  `Proof/GrailGap` and `GrailMerge` have the merges
next to a gap, `GrailWithout` the merges by rotations, `GrailKeys` the collection of keys, `GrailBuild` the building of
blocks, `GrailBlocks` the selection of the blocks with their keys (`Mg` describes what is left to merge in a sequence of tagged
blocks), `GrailCombine`, `GrailRound` and `GrailRounds` the combination, `GrailMain` the choice of the sizes and the whole.

## Wiki (C62)

`WIter` is `Iterator`: after `i` steps of the level with `m` ranges it is at `n * i / m` (`Proof/WikiIter`: `iterAt`, `wcut`).
`std::sqrt` on sizes is `Nat.sqrt`; numbers are unbounded.  `pull[0].from`, `pull[0].to`, `pull[1].from` and `pull[1].to` are not
initialized by the code (wiki_sort.h 521-543) although lines 648-694 and 867-905 compare some of them: they are a parameter (`junk`), and
the theorems hold for all its values.  `TypeTraits` says whether the type is trivial and whether its destructor is: the merges through
the cache dispatch on both.  `Proof/WikiNet` has the networks (stable, since the comparisons of `do_swap` are those of the
lexicographic order on values and places), `WikiCache` the merges through the cache, `WikiFind`, `WikiStash`, `WikiMerge`, `WikiRoll` and
`WikiPair` the searches and the merges with an internal buffer (rolling blocks tagged with the elements of the first buffer),
`WikiPull`, `WikiRows` and `WikiFound` the buffers pulled out of the ranges and distributed again, `WikiSearch` one level in place,
`WikiMain` the levels and the whole.

## Spread (C70, C71, C72)

`Spread` gathers what `integer_sort.h` and `float_sort.h` have in common: the extremes, the number of an element, the subtraction, the
comparison.  Arithmetic is done in `IntTy` as for counting sort; `wrapv` says that signed subtractions wrap (`-fwrapv`), so that
what follows an overflow can be described too.  A floating point number is the one of C53; its cast to an integer (`Flt.int`)
is the value of its bits.  The cache of bins is not a vector shared by the calls: each call has its own bins.
`Proof/SpreadBins` has the three-way swaps that put the elements in their bins, `SpreadRec` the recursion on them, `SpreadInt` and
`SpreadFlt` the two sorters.  A string is the list of its characters; `std::string` compares them as unsigned characters.  `SpreadStr` relates
the comparisons that skip a common beginning to the lexicographical order, `SpreadStrRec` has `update_offset` and the recursion, by
induction on the greatest number of characters after the offset.  `spread_sorter` itself is a `hybrid_adapter` of the three.

## Mutation testing

`seeded/LOG.jsonl` has one line per attempt.  Each mutant is an edit of one definition of the model, rebuilt in
a scratch copy with the property module that claims it.  Two of the first mutants survived: one was equivalent
(`disWhile`), the other (`front_insert` of three elements) led to C68.

## Known defects of the code (negations proved)

* `recmerge_forward.h` 117-120 passes `n0` as the number of blind steps to `half_inplace_merge`
  even when `n1 < n0`: with a partially granted buffer, merge sort over forward iterators reads
  past the end (`C09_merge_sorter_forward_false`).
* `boost_common/util/merge.h` 105-139 (`merge_half`) passes the size of the first buffer as the number of blind
  steps; spinsort gives it a first buffer one element longer than the second one when the size is odd and the
  number of levels even.  Below 1024 elements nothing prevents the read past the end when the whole second half is
  smaller (`C14_spin_sorter_overrun`, `C14_spin_sorter_false`); `C14_spin_sorter_partial` covers all other ranges.
* `vergesort.h` 66-72 (`merge_runs`) rotates from the first element of the whole range, instead of that of the run,
  when the first of two runs has one element: elements end up in the wrong order (`C21_verge_adapter_false`,
  `C22_stable_verge_adapter_false`).
* `counting_sort.h` 33, 60 (`max - min + 1`) and 45, 73 (`min++`, `max--`): signed overflow for types at least as wide
  as `int` when the span is not a value of the type, or when the limit of the type is in the range
  (`C23_counting_sorter_range_overflow`, `C23_counting_sorter_limit_overflow`, `C23_counting_sorter_false`).
* `merge_insertion_sort.h` 341-343: the sizes of the cycles of insertions are 2, 4, 4, 12, 20, ... instead of 2, 2, 6,
  10, 22, ...: from nine elements on, more comparisons than the Ford-Johnson algorithm that the documentation names
  (`C69_ford_johnson_false`).
* `ska_sort.h` 60-76: `char` and `wchar_t` are sorted as unsigned numbers: from 128 elements on, negative ones come last
  (`C63_char_false`, `C63_ska_sorter_false`).
* `ska_sort.h` 126-140: `-0.0` is before `+0.0`, although they are equivalent: wrong when they are not the last part of the
  key (`C63_zero_false`).
* `ska_sort.h` 462-475: only the first sub-key of the elements of a list is used: lists of pairs or tuples are not sorted by
  the other parts (`C63_list_pairs_false`).
* `ska_sort.h` 693-697, 799-821: the sorter of booleans calls the next one on empty ranges, and `CommonPrefix` dereferences
  the first iterator: lists of booleans such as `std::deque<bool>` read past the end (`C63_list_bools`).
* `grail_sort.h` 474-488: with a buffer of one element, `build_blocks` saves one element and overwrites two: an element is
  lost (`C61_grail_sorter_false`).
* `wiki_sort.h` 493-497: `buffered_inplace_merge` expects raw storage and is given the cache, which holds objects: elements are
  constructed on top of live objects and destroyed, then the buffer destroys them once more: with the default `fixed_buffer<512>`,
  undefined behaviour from 15 elements on for types with a non-trivial destructor (`C62_wiki_sorter_false`).
* `spreadsort/detail/integer_sort.h` 112-119: for signed types of at least 32 bits, `*max - *min` overflows when the elements are
  far apart, from 1000 unsorted elements on (`C70_overflow`); if it wraps, `int` is shifted by 32 bits or more (`C70_wrap_overflow`).
* `spreadsort/detail/float_sort.h` 269-280: the same overflow for numbers of different signs (`C71_overflow`).
* `spreadsort/detail/float_sort.h` 291-296: `unsigned(-div_min)` truncates 64 bits to 32: 1000 negative doubles or more that are
  close to each other can be sorted in reverse order, without undefined behaviour (`C71_reversed`, `C71_float_spread_sorter_false`).
* `comparators/natural_less.h`: not a strict weak order (`C55_*`).
* `detail/swap_if.h`: the `std::ranges::less`/`greater` overloads call themselves forever, the
  floating point overloads duplicate a zero on `(+0, -0)` (`C66_*_diverges`, `C66_*_false`).
* `container_aware/merge_sort.h` 43 and 64 merge the left half into the right half: not stable
  (`C37_list_merge_sort_false`).
* `probes/osc.h` 209-214: `max_for_size` is too small for even sizes from four on and negative for
  size one (`C50_probe_osc_max_false`, `C50_probe_osc_max_one_false`); the bound `n(n-2)/2` is proved.
* `probes/exc.h`: with equivalent elements the result is not minimal (`C49_probe_exc_minimal_false`).
* `probes/block.h`: with equivalent elements a sorted range may not give 0
  (`C52_probe_block_sorted_false`).
* `pdqsort.h` 188-216, 342-366: the scans of the partitions have no guard: a comparison function such as `<=` reads past the
  end from 24 elements on (`C103_pdq_sorter_any_comparison_false`).
* `docs/Fixed-size-sorters.md` 59-74: the move weight of `low_moves_sorter<2>` is 3, not 2
  (`C105_documented_weight_of_two_false`).
* `docs/Fixed-size-sorters.md` 40: `low_comparisons_sorter` is not optimal for 6, 7 and 8 elements
  (`C107_optimal_six_seven_eight_false`).

## Layout

* `Verif/Base/*`   monad, memory, wp calculus, specification predicates
* `Verif/Model/*`  the code, function by function
* `Verif/Proof/*`  helper lemmas, loop invariants
* `Verif/Props/*`  one theorem (or a few) per property, with an `example` showing that the
  hypotheses are satisfiable

## Plan per property

| id | model | proof |
|----|-------|-------|
| C01–C20 | each sorter on the memory model, loops as in the code | loop invariants on the wp calculus; permutation tracked as a bijection of addresses, stability as order preservation of that bijection on equivalent elements |
| C21 | vergesort | the code violates it (`merge_runs` rotates from `first` instead of `begin` for a run of size 1): negation with a witness + `_partial` |
| C22 | vergesort with stable partitions of runs | invariants; shares C21's defect if it uses `merge_runs` |
| C23 | counting_sort over fixed-width integers with wrap-around / overflow UB | the code violates it near the type limits: negation + `_partial` under the no-overflow condition |
| C24 | low_moves | induction on N |
| C25 | low_comparisons decision trees | symbolic execution |
| C26, C64 | index pairs extracted from the headers | 0-1 principle + kernel reflection on the whole table |
| C27, C28 | the loops generating pairs | 0-1 principle + induction |
| C29–C33 | adapters over an abstract sorter satisfying `IsSorter` | reduction to the adapted sorter's specification |
| C34 | dispatch as a function of categories | induction on the sorter list |
| C35–C38 | list algorithms with `splice`/`merge` semantics | list induction; C37 is violated (merge argument order): negation + `_partial` |
| C39, C40 | specification level | uniqueness of stable sort |
| C41–C52 | probes | equality with a mathematical definition; C49, C50 and C52 have defects on ties or on sizes: negation + partial |
| C53–C56 | comparators as functions on a model of floats / character lists | case analysis, induction; C55 is violated |
| C57 | syntax of nestings with its denotation | structural induction |
| C58–C60 | utilities and metrics | invariants; abstract sorter |
| C61 | grail sort on the memory model | stable sort of lists as specification; false for buffers of one element: negation + `_partial` |
| C62 | wiki sort on the memory model | level by level, each range sorted stably; false for caches of objects with a destructor: negation + `_partial` |
| C63 | ska_sort over a syntax of key types | induction on the type; four defects: negations + `_partial` |
| C70, C71 | spreadsort over fixed-width integers and bit patterns of floats | invariants of the bins, induction on the range of values; overflows and a truncation: negations + `_partial` |
| C72 | spreadsort over lists of characters, ascending and descending | same bins; induction on the length of the rests |
| C73 | pdqsort, merge_sort, drop_merge_sort, split_sort, d_ary_heapsort, poplar_sort, smoothsort, melsort, cartesian_tree_sort, container_aware merge and mel sorts | cost calculus `Cost` (partial correctness on the count of comparisons, by fixed-point induction) joined to the total correctness proofs; potential `n log2(bad_allowed)` for pdqsort, `3n - log2 n - 2` for symmerge |
| C74 | default_sorter: self_sort_adapter, hybrid_adapter, small_array_adapter | the overload resolution of C34 evaluated, then the theorems of the parts |
| C75 | insertion_sort, timsort, drop_merge_sort, melsort (ranges and lists), slabsort, vergesort, splaysort, cartesian_tree_sort, on sorted ranges | `Looks c m k r` (`Verif/Proof/SortedCost.lean`): from any state with memory `c`, `m` returns `r` after exactly `k` comparisons and the memory is unchanged |
| C76 | container_aware/insertion_sort.h | false: a lower bound (sum of logarithms) on the comparisons of every run, by the same `Cost` calculus; partial: the upper bound |
| C77 | probes inv, runs, dis, rem, sus, max | value relation `Gives m r` (every run returns `r`), the five properties as predicates on measures (`Verif/Proof/Mannila.lean`), proved on the specifications of C41-C48 and transferred; order isomorphism by pushing the positions forward; subsequences by inserting one element |
| C78 | probes block, enc, exc, ham, mono, osc | same; the violated properties are refuted with witnesses, the others proved |
| C79 | comparisons of every probe | cost calculus on the loops; the sorts of iterators through the bound of pdqsort; `exc` by the cycles it flags; `inv` by the merge recursion |
| C80-C84 | the 47 overloads of `sorter_facade` and the choice between them | soundness overload by overload; ambiguity, existence and preference by evaluating the resolution symbolically for each form of arguments, then over all values of the Booleans left |
| C85 | detail/bitops.h, on bit vectors of any power-of-two width; the other modules use `Nat.log2` and `2 ^ Nat.log2` where the code calls these functions | the bits of the smeared word by induction on the shift; then bit by bit |
| C86 | utility/make_integer_range.h | lists of integers; the unsigned version is shown equal to the signed one |
| C87, C88 | detail/fixed_size_list.h: node pool, doubly linked lists (`Verif/Model/NodeList.lean`); nodes and sentinels are addresses, 0 is the null pointer, dereferencing it, reading a dead value, constructing over a live one or failing an assertion have no result | invariant `World` (every node of the pool is free, loose or in exactly one list; lists linked both ways; exactly the nodes in use hold values) kept by every operation |
| C89 | spinsort.h, merge.h of boost_common (the model of C14) | cost calculus by strong induction on the level, the nested sort of `check_stable_sort` being at a lower level; the last merge by content, as its blind loop is bounded only by what it meets |
| C90 | sorter types as terms (`Verif/Model/Compose.lean`): traits `iterator_category`, `is_always_stable`, `is_stable`, `stable_t`, and the program that a call runs; the type-only sorters, `self_sort_adapter`, `small_array_adapter` and `container_aware_adapter` are left out, projections are part of the comparison | induction on a size that `stable_adapter` doubles; the theorems of the parts (C01-C20, C29-C34, C61, C62); the counterexample runs heapsort on three elements symbolically |
| C91 | `sorter_traits<sorting_network_sorter<N>>` (`Verif/Model/NetStable.lean`) and the networks of C26 | stability of sequences of comparators of neighbours by induction; the other 61 networks run in the kernel on a list with the least element last, lifted to memory by `networkSort_list` |
| C92 | timsort.h (the model of C12, C13) | merges: cost calculus, each gallop paid by the elements it skips; stack: potential that counts the height of every element, with a debt paid by the merge that must follow; heights by the growth of the run lengths (Fibonacci for timsort, bit lengths for adaptive shivers sort) |
| C93 | vergesort.h 320-496 (the model of C21) | main loop: runs of the cost calculus over a memory that holds values, so that the bound of the fallback applies; number of runs from the length of the big ones; merges: cost calculus |
| C94 | container_aware_adapter.h 101-357, the operator() of detail/container_aware/{insertion,mel,merge,selection}_sort.h (`Model/ContainerAware.lean`) | the eleven overloads reduced to a choice by cases on their conditions, then the laws of the traits as for C80 |
| C95 | detail/nth_element.h, introselect.h 200-317, adaptive_quickselect.h (`Model/Quick.lean`, `Model/QuickMerge.lean`) | invariants of the partitions; counterexample run in the kernel through `Model/FuelQuick.lean` |
| C96 | introselect.h 59-198 (`Model/Quick.lean`) | the order known after each compare-exchange; the networks of 3 and 4 by the 0-1 principle; counterexample as for C95 |
| C97 | splaysort.h (`Model/Splay.lean`) | potential: sum of log2 of the sizes of the subtrees, of a tree with a hole (`Verif/Proof/SplayCost.lean`); each double rotation releases 1, a new node adds at most log2 n |
| C98 | quicksort.h, partition.h, pdqsort.h | the specifications of the partitions leave empty parts when all the elements are equivalent (`Verif/Proof/FlatCost.lean`); the cost of partition.h is exact |
| C99 | quick_merge_sort.h, nth_element.h, adaptive_quickselect.h, introselect.h | false: `Cost` lower bound on the merges of `internalMergesort`, everything else only grows the count (`Grows`, `Verif/Proof/QuickMergeCost.lean`); partial: small sorted ranges |
| C100 | smoothsort.h, spinsort.h, split_sort.h | smoothsort: a run on sorted heaps moves nothing, and costs by levels of the Leonardo heaps (`Verif/Proof/SmoothSorted.lean`); spinsort: from 2050 elements on each half is found sorted by the scan of `range_sort` and the last merge stops at its first test (`SpinSorted.lean`); split_sort: `Looks` (`SplitSorted.lean`) |
| C101 | the same sorters | `St.brk` counts the elements allocated; a type class `NoAlloc` (`Verif/Base/Heap.lean`), closed under the constructs of the monad and admissible for `partial_fixpoint`, with one instance for each definition (`Verif/Proof/Heapless*.lean`) |
| C102 | the sorters named, run with an arbitrary `cmp : α → α → M α Bool` | `Returns cmp` only says that the comparison returns and changes nothing but the count of comparisons; `Keep` (`Verif/Base/AnyCmp.lean`) follows the shape of the range (whole, or with one hole whose element is held in a variable) through the program; `Verif/Proof/Any*.lean` |
| C103 | `pdqsort` | negation: `scanUp` has no guard; the cell after the range holds no value. Partial: below 24 elements |
| C104 | the same sorters, run with a `cmp` which can fail with `.exn` | `Keep T` also describes the runs that end with an exception, `T` being the shapes allowed at that point: any shape, or only the whole range for the programs that never compare while an element is held outside |
| C105 | `lowMovesSort` | bijection between the permutations of N elements and the triples (position of the minimum, position of the maximum, order of the rest); the moves of a run are those of the placement plus those of the inner run. Sizes 2, 3 and 4 by cases. The documented weight of size 2 is refuted |
| C106 | `lowComparisonsSort` | a body is evaluated as a function (`DP.ev`, `DP.exec_ev`), and only the order of the elements matters (`DP.ev_shift`). Sorting N elements and inserting one costs, over all orders, (N + 1) W(N) + N! times the cost of the insertions (`cmpSum_insert`, `cmpSum_insert2` for two elements). Sizes 2, 3, 5, 6 by evaluation of all the orders in the kernel; size 9 after the seven comparisons of the tournament, each of which halves the orders by a symmetry (`half_sum`), so that 2835 orders are left |
| C107 | `lowComparisonsSort`, and every body of the language `DP` | the answers of the comparisons of a run decide the permutation applied, and no sequence of answers is the beginning of another one (`DP.answers_sync`), so that the total is at least that of a set of N! prefix-free words (`word_sum`). The documented optimality is refuted for 6, 7 and 8 elements by `better6`, `better7` and `better8`, which are not part of the library; exact for 0 to 5 |
| C108 | `mergeInsertionSort`, `lowComparisonsSort` | the bound of C69 on each run (31 comparisons for 12 elements) against the exact total of C106 |
| C109 | `swapIndexPairs`, `netIndexPairs` | sets of 0-1 words enumerated for 5 elements; induction on the size by removing the comparators that the least element meets; partial (sizes up to 6) |
| C65 | counters of the state | same invariants, with counters |

Exact numbering is that of `properties.jsonl`; status and theorem names are in `MANIFEST.json`.

## Not modelled

Template machinery (SFINAE, concepts) except the overloads of `sorter_facade` (an implementation is
the set of calls it accepts, `Verif/Model/Facade.lean`; `refined`, value categories, return types and
conversions to function pointers are left out) and those of `hybrid_adapter`, `constexpr`/`noexcept` annotations, iterator traversal
costs, allocator internals, exception behaviour unless a property names it, floating point
rounding, `std::list` node allocation.

Headers of which no definition is modelled, with the reason:

* only types, traits and macros: `fwd.h`, `version.h`, `metrics.h`, `fixed_sorters.h`, `detail/attributes.h`, `detail/config.h`,
  `detail/type_traits.h`, `detail/iterator_traits.h`, `detail/raw_checkers.h`, `detail/sized_range.h`,
  `detail/fake_category_iterator.h`, `utility/branchless_traits.h`, `utility/static_const.h` (the values that the branchless traits
  select are parameters of the model: every theorem about `pdqsort` holds for both partition functions);
* calls of something modelled: `sorters/counting_sorter.h`, `sorters/verge_sorter.h`, `sorters/block_sorter.h` (deprecated),
  `stable_sort.h`, `probes/par.h` (deprecated), `utility/adapter_storage.h`, `utility/as_function.h`,
  `utility/metrics_tools.h`, `detail/stable_adapter_self_sort_adapter.h`, `detail/schwartz_small_array.h`, `detail/make_array.h`,
  `detail/memcpy_cast.h`;
* calls of the standard library or of the clock: `sorters/std_sorter.h`, `metrics/running_time.h`;
* `comparators/partial_greater.h`: `partial_less.h` with the arguments exchanged.
