{"id": "C01", "title": "insertion_sorter sorts stably", "statement": "Calling it on a range terminates without undefined behaviour (no access outside the range or its own scratch memory, no read of a moved-from element, no self-move), leaves a permutation of the original elements ordered by the comparator, and changes nothing outside the range; moreover equivalent elements keep their original relative order.", "quantifier": "every range length, every element type and contents (duplicates included), every comparator/projection pair that induces a strict weak order, every position of the range inside a larger memory", "why_tests_cant": "tests only run finitely many arrays; the claim covers every length, every content and every strict weak order, and the absence of out-of-range, moved-from and self-move accesses on every path", "anchors": ["include/cpp-sort/sorters/insertion_sorter.h", "include/cpp-sort/detail/insertion_sort.h:insertion_sort"]}
{"id": "C02", "title": "selection_sorter sorts", "statement": "Calling it on a range terminates without undefined behaviour (no access outside the range or its own scratch memory, no read of a moved-from element, no self-move), leaves a permutation of the original elements ordered by the comparator, and changes nothing outside the range.", "quantifier": "every range length, every element type and contents (duplicates included), every comparator/projection pair that induces a strict weak order, every position of the range inside a larger memory", "why_tests_cant": "tests only run finitely many arrays; the claim covers every length, every content and every strict weak order, and the absence of out-of-range, moved-from and self-move accesses on every path", "anchors": ["include/cpp-sort/sorters/selection_sorter.h", "include/cpp-sort/detail/selection_sort.h:selection_sort", "include/cpp-sort/detail/min_element.h"]}
{"id": "C03", "title": "heap_sorter sorts", "statement": "Calling it on a range terminates without undefined behaviour (no access outside the range or its own scratch memory, no read of a moved-from element, no self-move), leaves a permutation of the original elements ordered by the comparator, and changes nothing outside the range.", "quantifier": "every range length, every element type and contents (duplicates included), every comparator/projection pair that induces a strict weak order, every position of the range inside a larger memory", "why_tests_cant": "tests only run finitely many arrays; the claim covers every length, every content and every strict weak order, and the absence of out-of-range, moved-from and self-move accesses on every path", "anchors": ["include/cpp-sort/sorters/heap_sorter.h", "include/cpp-sort/detail/heapsort.h:heapsort"]}
{"id": "C04", "title": "d_ary_heap_sorter<D> sorts for every arity", "statement": "Calling it on a range terminates without undefined behaviour (no access outside the range or its own scratch memory, no read of a moved-from element, no self-move), leaves a permutation of the original elements ordered by the comparator, and changes nothing outside the range, for every arity D >= 2.", "quantifier": "every range length, every element type and contents (duplicates included), every comparator/projection pair that induces a strict weak order, every position of the range inside a larger memory, and every arity D >= 2", "why_tests_cant": "tests only run finitely many arrays; the claim covers every length, every content and every strict weak order, and the absence of out-of-range, moved-from and self-move accesses on every path", "anchors": ["include/cpp-sort/sorters/d_ary_heap_sorter.h", "include/cpp-sort/detail/d_ary_heapsort.h"]}
{"id": "C05", "title": "poplar_sorter sorts", "statement": "Calling it on a range terminates without undefined behaviour (no access outside the range or its own scratch memory, no read of a moved-from element, no self-move), leaves a permutation of the original elements ordered by the comparator, and changes nothing outside the range.", "quantifier": "every range length, every element type and contents (duplicates included), every comparator/projection pair that induces a strict weak order, every position of the range inside a larger memory", "why_tests_cant": "tests only run finitely many arrays; the claim covers every length, every content and every strict weak order, and the absence of out-of-range, moved-from and self-move accesses on every path", "anchors": ["include/cpp-sort/sorters/poplar_sorter.h", "include/cpp-sort/detail/poplar_sort.h"]}
{"id": "C06", "title": "smooth_sorter sorts", "statement": "Calling it on a range terminates without undefined behaviour (no access outside the range or its own scratch memory, no read of a moved-from element, no self-move), leaves a permutation of the original elements ordered by the comparator, and changes nothing outside the range.", "quantifier": "every range length, every element type and contents (duplicates included), every comparator/projection pair that induces a strict weak order, every position of the range inside a larger memory", "why_tests_cant": "tests only run finitely many arrays; the claim covers every length, every content and every strict weak order, and the absence of out-of-range, moved-from and self-move accesses on every path", "anchors": ["include/cpp-sort/sorters/smooth_sorter.h", "include/cpp-sort/detail/smoothsort.h"]}
{"id": "C07", "title": "quick_sorter sorts", "statement": "Calling it on a range terminates without undefined behaviour (no access outside the range or its own scratch memory, no read of a moved-from element, no self-move), leaves a permutation of the original elements ordered by the comparator, and changes nothing outside the range (forward iterators included).", "quantifier": "every range length, every element type and contents (duplicates included), every comparator/projection pair that induces a strict weak order, every position of the range inside a larger memory", "why_tests_cant": "tests only run finitely many arrays; the claim covers every length, every content and every strict weak order, and the absence of out-of-range, moved-from and self-move accesses on every path", "anchors": ["include/cpp-sort/sorters/quick_sorter.h", "include/cpp-sort/detail/quicksort.h"]}
{"id": "C08", "title": "quick_merge_sorter sorts", "statement": "Calling it on a range terminates without undefined behaviour (no access outside the range or its own scratch memory, no read of a moved-from element, no self-move), leaves a permutation of the original elements ordered by the comparator, and changes nothing outside the range.", "quantifier": "every range length, every element type and contents (duplicates included), every comparator/projection pair that induces a strict weak order, every position of the range inside a larger memory", "why_tests_cant": "tests only run finitely many arrays; the claim covers every length, every content and every strict weak order, and the absence of out-of-range, moved-from and self-move accesses on every path", "anchors": ["include/cpp-sort/sorters/quick_merge_sorter.h", "include/cpp-sort/detail/quick_merge_sort.h", "include/cpp-sort/detail/introselect.h", "include/cpp-sort/detail/adaptive_quickselect.h"]}
{"id": "C09", "title": "merge_sorter sorts stably whatever scratch memory it gets", "statement": "Calling it on a range terminates without undefined behaviour (no access outside the range or its own scratch memory, no read of a moved-from element, no self-move), leaves a permutation of the original elements ordered by the comparator, and changes nothing outside the range; moreover equivalent elements keep their original relative order. The outcome does not depend on how much temporary memory the allocator grants, including none.", "quantifier": "every range length, every element type and contents (duplicates included), every comparator/projection pair that induces a strict weak order, every position of the range inside a larger memory, and every allocator behaviour (any granted buffer size)", "why_tests_cant": "tests only run finitely many arrays; the claim covers every length, every content and every strict weak order, and the absence of out-of-range, moved-from and self-move accesses on every path; a test cannot enumerate the buffer sizes an allocator may grant", "anchors": ["include/cpp-sort/sorters/merge_sorter.h", "include/cpp-sort/detail/merge_sort.h", "include/cpp-sort/detail/inplace_merge.h", "include/cpp-sort/detail/buffered_inplace_merge.h", "include/cpp-sort/detail/recmerge_forward.h", "include/cpp-sort/detail/recmerge_bidirectional.h", "include/cpp-sort/detail/symmerge.h"]}
{"id": "C10", "title": "pdq_sorter sorts", "statement": "Calling it on a range terminates without undefined behaviour (no access outside the range or its own scratch memory, no read of a moved-from element, no self-move), leaves a permutation of the original elements ordered by the comparator, and changes nothing outside the range.", "quantifier": "every range length, every element type and contents (duplicates included), every comparator/projection pair that induces a strict weak order, every position of the range inside a larger memory", "why_tests_cant": "tests only run finitely many arrays; the claim covers every length, every content and every strict weak order, and the absence of out-of-range, moved-from and self-move accesses on every path", "anchors": ["include/cpp-sort/sorters/pdq_sorter.h", "include/cpp-sort/detail/pdqsort.h"]}
{"id": "C11", "title": "merge_insertion_sorter sorts", "statement": "Calling it on a range terminates without undefined behaviour (no access outside the range or its own scratch memory, no read of a moved-from element, no self-move), leaves a permutation of the original elements ordered by the comparator, and changes nothing outside the range.", "quantifier": "every range length, every element type and contents (duplicates included), every comparator/projection pair that induces a strict weak order, every position of the range inside a larger memory", "why_tests_cant": "tests only run finitely many arrays; the claim covers every length, every content and every strict weak order, and the absence of out-of-range, moved-from and self-move accesses on every path", "anchors": ["include/cpp-sort/sorters/merge_insertion_sorter.h", "include/cpp-sort/detail/merge_insertion_sort.h"]}
{"id": "C12", "title": "tim_sorter sorts stably", "statement": "Calling it on a range terminates without undefined behaviour (no access outside the range or its own scratch memory, no read of a moved-from element, no self-move), leaves a permutation of the original elements ordered by the comparator, and changes nothing outside the range; moreover equivalent elements keep their original relative order.", "quantifier": "every range length, every element type and contents (duplicates included), every comparator/projection pair that induces a strict weak order, every position of the range inside a larger memory", "why_tests_cant": "tests only run finitely many arrays; the claim covers every length, every content and every strict weak order, and the absence of out-of-range, moved-from and self-move accesses on every path", "anchors": ["include/cpp-sort/sorters/tim_sorter.h", "include/cpp-sort/detail/timsort.h:TimSort"]}
{"id": "C13", "title": "adaptive_shivers_sorter sorts stably", "statement": "Calling it on a range terminates without undefined behaviour (no access outside the range or its own scratch memory, no read of a moved-from element, no self-move), leaves a permutation of the original elements ordered by the comparator, and changes nothing outside the range; moreover equivalent elements keep their original relative order.", "quantifier": "every range length, every element type and contents (duplicates included), every comparator/projection pair that induces a strict weak order, every position of the range inside a larger memory", "why_tests_cant": "tests only run finitely many arrays; the claim covers every length, every content and every strict weak order, and the absence of out-of-range, moved-from and self-move accesses on every path", "anchors": ["include/cpp-sort/sorters/adaptive_shivers_sorter.h", "include/cpp-sort/detail/timsort.h"]}
{"id": "C14", "title": "spin_sorter sorts stably", "statement": "Calling it on a range terminates without undefined behaviour (no access outside the range or its own scratch memory, no read of a moved-from element, no self-move), leaves a permutation of the original elements ordered by the comparator, and changes nothing outside the range; moreover equivalent elements keep their original relative order.", "quantifier": "every range length, every element type and contents (duplicates included), every comparator/projection pair that induces a strict weak order, every position of the range inside a larger memory", "why_tests_cant": "tests only run finitely many arrays; the claim covers every length, every content and every strict weak order, and the absence of out-of-range, moved-from and self-move accesses on every path", "anchors": ["include/cpp-sort/sorters/spin_sorter.h", "include/cpp-sort/detail/spinsort.h", "include/cpp-sort/detail/boost_common/util/merge.h"]}
{"id": "C15", "title": "splay_sorter sorts stably", "statement": "Calling it on a range terminates without undefined behaviour (no access outside the range or its own scratch memory, no read of a moved-from element, no self-move), leaves a permutation of the original elements ordered by the comparator, and changes nothing outside the range; moreover equivalent elements keep their original relative order.", "quantifier": "every range length, every element type and contents (duplicates included), every comparator/projection pair that induces a strict weak order, every position of the range inside a larger memory", "why_tests_cant": "tests only run finitely many arrays; the claim covers every length, every content and every strict weak order, and the absence of out-of-range, moved-from and self-move accesses on every path", "anchors": ["include/cpp-sort/sorters/splay_sorter.h", "include/cpp-sort/detail/splaysort.h"]}
{"id": "C16", "title": "cartesian_tree_sorter sorts", "statement": "Calling it on a range terminates without undefined behaviour (no access outside the range or its own scratch memory, no read of a moved-from element, no self-move), leaves a permutation of the original elements ordered by the comparator, and changes nothing outside the range.", "quantifier": "every range length, every element type and contents (duplicates included), every comparator/projection pair that induces a strict weak order, every position of the range inside a larger memory", "why_tests_cant": "tests only run finitely many arrays; the claim covers every length, every content and every strict weak order, and the absence of out-of-range, moved-from and self-move accesses on every path", "anchors": ["include/cpp-sort/sorters/cartesian_tree_sorter.h", "include/cpp-sort/detail/cartesian_tree_sort.h"]}
{"id": "C17", "title": "mel_sorter sorts", "statement": "Calling it on a range terminates without undefined behaviour (no access outside the range or its own scratch memory, no read of a moved-from element, no self-move), leaves a permutation of the original elements ordered by the comparator, and changes nothing outside the range.", "quantifier": "every range length, every element type and contents (duplicates included), every comparator/projection pair that induces a strict weak order, every position of the range inside a larger memory", "why_tests_cant": "tests only run finitely many arrays; the claim covers every length, every content and every strict weak order, and the absence of out-of-range, moved-from and self-move accesses on every path", "anchors": ["include/cpp-sort/sorters/mel_sorter.h", "include/cpp-sort/detail/melsort.h"]}
{"id": "C18", "title": "slab_sorter sorts", "statement": "Calling it on a range terminates without undefined behaviour (no access outside the range or its own scratch memory, no read of a moved-from element, no self-move), leaves a permutation of the original elements ordered by the comparator, and changes nothing outside the range.", "quantifier": "every range length, every element type and contents (duplicates included), every comparator/projection pair that induces a strict weak order, every position of the range inside a larger memory", "why_tests_cant": "tests only run finitely many arrays; the claim covers every length, every content and every strict weak order, and the absence of out-of-range, moved-from and self-move accesses on every path", "anchors": ["include/cpp-sort/sorters/slab_sorter.h", "include/cpp-sort/detail/slabsort.h", "include/cpp-sort/detail/stable_partition.h"]}
{"id": "C19", "title": "drop_merge_sorter / drop_merge_adapter sorts with any correct sorter", "statement": "Calling it on a range terminates without undefined behaviour (no access outside the range or its own scratch memory, no read of a moved-from element, no self-move), leaves a permutation of the original elements ordered by the comparator, and changes nothing outside the range, provided the adapted sorter sorts.", "quantifier": "every range length, every element type and contents (duplicates included), every comparator/projection pair that induces a strict weak order, every position of the range inside a larger memory, and every adapted sorter that itself sorts", "why_tests_cant": "tests only run finitely many arrays; the claim covers every length, every content and every strict weak order, and the absence of out-of-range, moved-from and self-move accesses on every path", "anchors": ["include/cpp-sort/adapters/drop_merge_adapter.h", "include/cpp-sort/detail/drop_merge_sort.h"]}
{"id": "C20", "title": "split_sorter / split_adapter sorts with any correct sorter", "statement": "Calling it on a range terminates without undefined behaviour (no access outside the range or its own scratch memory, no read of a moved-from element, no self-move), leaves a permutation of the original elements ordered by the comparator, and changes nothing outside the range, provided the adapted sorter sorts.", "quantifier": "every range length, every element type and contents (duplicates included), every comparator/projection pair that induces a strict weak order, every position of the range inside a larger memory, and every adapted sorter that itself sorts", "why_tests_cant": "tests only run finitely many arrays; the claim covers every length, every content and every strict weak order, and the absence of out-of-range, moved-from and self-move accesses on every path", "anchors": ["include/cpp-sort/adapters/split_adapter.h", "include/cpp-sort/detail/split_sort.h"]}
{"id": "C21", "title": "verge_sorter / verge_adapter sorts with any correct sorter", "statement": "Calling it on a range terminates without undefined behaviour (no access outside the range or its own scratch memory, no read of a moved-from element, no self-move), leaves a permutation of the original elements ordered by the comparator, and changes nothing outside the range, provided the adapted sorter sorts.", "quantifier": "every range length, every element type and contents (duplicates included), every comparator/projection pair that induces a strict weak order, every position of the range inside a larger memory, and every adapted sorter that itself sorts", "why_tests_cant": "tests only run finitely many arrays; the claim covers every length, every content and every strict weak order, and the absence of out-of-range, moved-from and self-move accesses on every path", "anchors": ["include/cpp-sort/adapters/verge_adapter.h", "include/cpp-sort/sorters/verge_sorter.h", "include/cpp-sort/detail/vergesort.h"]}
{"id": "C22", "title": "stable_adapter<verge_adapter> sorts stably", "statement": "Calling it on a range terminates without undefined behaviour (no access outside the range or its own scratch memory, no read of a moved-from element, no self-move), leaves a permutation of the original elements ordered by the comparator, and changes nothing outside the range; moreover equivalent elements keep their original relative order, provided the adapted sorter sorts stably.", "quantifier": "every range length, every element type and contents (duplicates included), every comparator/projection pair that induces a strict weak order, every position of the range inside a larger memory, and every adapted stable sorter", "why_tests_cant": "tests only run finitely many arrays; the claim covers every length, every content and every strict weak order, and the absence of out-of-range, moved-from and self-move accesses on every path", "anchors": ["include/cpp-sort/adapters/verge_adapter.h", "include/cpp-sort/detail/vergesort.h"]}
{"id": "C23", "title": "counting_sorter sorts integers", "statement": "For every range of integers of any built-in integer type, counting_sorter terminates without undefined behaviour and leaves the sorted permutation of the values (ascending, or descending with std::greater).", "quantifier": "every integer width and signedness, every range of values of the type, both directions", "why_tests_cant": "the interesting inputs are value ranges close to the limits of the type; tests only use small spans", "anchors": ["include/cpp-sort/sorters/counting_sorter.h", "include/cpp-sort/detail/counting_sort.h"]}
{"id": "C24", "title": "low_moves_sorter<N> sorts for every N", "statement": "Calling it on a range terminates without undefined behaviour (no access outside the range or its own scratch memory, no read of a moved-from element, no self-move), leaves a permutation of the original elements ordered by the comparator, and changes nothing outside the range, for every N.", "quantifier": "every range length, every element type and contents (duplicates included), every comparator/projection pair that induces a strict weak order, every position of the range inside a larger memory with exactly N elements, for every N", "why_tests_cant": "tests only run finitely many arrays; the claim covers every length, every content and every strict weak order, and the absence of out-of-range, moved-from and self-move accesses on every path", "anchors": ["include/cpp-sort/fixed/low_moves_sorter.h", "include/cpp-sort/detail/low_moves/", "include/cpp-sort/detail/minmax_element.h"]}
{"id": "C25", "title": "low_comparisons_sorter<N> sorts for every supported N", "statement": "Calling it on a range terminates without undefined behaviour (no access outside the range or its own scratch memory, no read of a moved-from element, no self-move), leaves a permutation of the original elements ordered by the comparator, and changes nothing outside the range, for every supported N (0 to 13).", "quantifier": "every N in 0..13, every content of N elements, every strict weak order", "why_tests_cant": "13 elements already have more orderings than can be enumerated, and tests fix one comparator", "anchors": ["include/cpp-sort/fixed/low_comparisons_sorter.h", "include/cpp-sort/detail/low_comparisons/", "include/cpp-sort/detail/front_inserter/"]}
{"id": "C26", "title": "sorting_network_sorter<N> sorts for every supported N", "statement": "Calling it on a range terminates without undefined behaviour (no access outside the range or its own scratch memory, no read of a moved-from element, no self-move), leaves a permutation of the original elements ordered by the comparator, and changes nothing outside the range, for every supported N (0 to 64).", "quantifier": "every N in 0..64, every content of N elements, every strict weak order", "why_tests_cant": "the 2^64 0-1 inputs (and every weak order) cannot be enumerated by running the code", "anchors": ["include/cpp-sort/fixed/sorting_network_sorter.h", "include/cpp-sort/detail/sorting_network/", "include/cpp-sort/utility/sorting_networks.h"]}
{"id": "C27", "title": "merge_exchange_network_sorter<N> sorts for every N", "statement": "For every N, applying the index pairs returned by index_pairs() in order with swap_index_pairs sorts every sequence of N elements, and every pair lies in the range with first < second.", "quantifier": "every N (unbounded), every content, every strict weak order", "why_tests_cant": "N is unbounded", "anchors": ["include/cpp-sort/fixed/merge_exchange_network_sorter.h"]}
{"id": "C28", "title": "odd_even_merge_network_sorter<N> sorts for every power of two", "statement": "For every power of two N, applying the index pairs returned by index_pairs() in order with swap_index_pairs sorts every sequence of N elements, and every pair lies in the range with first < second.", "quantifier": "every power of two N (unbounded), every content, every strict weak order", "why_tests_cant": "N is unbounded", "anchors": ["include/cpp-sort/fixed/odd_even_merge_network_sorter.h"]}
{"id": "C29", "title": "make_stable turns any sorter into a stable one", "statement": "make_stable<S> applied to any range sorts it stably as soon as S sorts (stably or not) every range of (element, position) pairs under a strict weak order; comparator is called only on original elements.", "quantifier": "every range length, every element type and contents (duplicates included), every comparator/projection pair that induces a strict weak order, every position of the range inside a larger memory, and every adapted sorter that sorts", "why_tests_cant": "quantifies over every sorter", "anchors": ["include/cpp-sort/adapters/stable_adapter.h:make_stable_and_sort,stable_compare"]}
{"id": "C30", "title": "indirect_adapter sorts with at most 3n/2 element moves", "statement": "indirect_adapter<S> sorts any range whenever S sorts the array of iterators; it is stable when S is; each element of the range is moved at most once plus one temporary per cycle, hence at most floor(3n/2) element moves in total.", "quantifier": "every range length, every element type and contents (duplicates included), every comparator/projection pair that induces a strict weak order, every position of the range inside a larger memory, and every adapted sorter that sorts", "why_tests_cant": "quantifies over every permutation (cycle structure) the adapted sorter may produce", "anchors": ["include/cpp-sort/adapters/indirect_adapter.h:sort_indirectly", "include/cpp-sort/detail/indiesort.h"]}
{"id": "C31", "title": "indirect_adapter leaves the collection untouched when the comparison throws", "statement": "If an exception is thrown while the iterators are being sorted, the original collection is unchanged and all temporary memory is released.", "quantifier": "every range, every adapted sorter, every point at which the exception is thrown", "why_tests_cant": "the throw point is arbitrary", "anchors": ["include/cpp-sort/adapters/indirect_adapter.h", "include/cpp-sort/detail/scope_exit.h", "include/cpp-sort/detail/immovable_vector.h"]}
{"id": "C32", "title": "out_of_place_adapter preserves the adapted sorter's effect", "statement": "out_of_place_adapter<S> sorts any range whenever S sorts, stably when S is stable, and releases its buffer.", "quantifier": "every range length, every element type and contents (duplicates included), every comparator/projection pair that induces a strict weak order, every position of the range inside a larger memory, and every adapted sorter", "why_tests_cant": "quantifies over every sorter", "anchors": ["include/cpp-sort/adapters/out_of_place_adapter.h", "include/cpp-sort/detail/immovable_vector.h"]}
{"id": "C33", "title": "schwartz_adapter projects each element exactly once", "statement": "schwartz_adapter<S> sorts any range by the projected value whenever S sorts, stably when S is stable, and calls the projection exactly once per element.", "quantifier": "every range length, every element type and contents (duplicates included), every comparator/projection pair that induces a strict weak order, every position of the range inside a larger memory, and every adapted sorter", "why_tests_cant": "quantifies over every sorter and projection", "anchors": ["include/cpp-sort/adapters/schwartz_adapter.h"]}
{"id": "C34", "title": "hybrid_adapter dispatch", "statement": "hybrid_adapter<S1,...,Sn> calls, among the sorters accepting the iterator category at hand, one with the strongest category requirement, and the first of these in declaration order; nested hybrid adapters behave as their flattening; the iterator category is the most permissive one; it is always stable iff every sorter is.", "quantifier": "every list of sorters, every assignment of categories, every nesting", "why_tests_cant": "tests instantiate a few fixed combinations", "anchors": ["include/cpp-sort/adapters/hybrid_adapter.h"]}
{"id": "C35", "title": "container_aware_adapter<insertion_sorter> on lists", "statement": "On a std::list or std::forward_list of any length the dedicated algorithm terminates, relinks the nodes so that the list is sorted, stably, without moving elements.", "quantifier": "every list, every strict weak order", "why_tests_cant": "tests only run finitely many arrays; the claim covers every length, every content and every strict weak order, and the absence of out-of-range, moved-from and self-move accesses on every path", "anchors": ["include/cpp-sort/detail/container_aware/insertion_sort.h"]}
{"id": "C36", "title": "container_aware_adapter<selection_sorter> on lists is stable", "statement": "On a std::list or std::forward_list of any length the dedicated algorithm sorts stably by relinking nodes.", "quantifier": "every list, every strict weak order", "why_tests_cant": "tests only run finitely many arrays; the claim covers every length, every content and every strict weak order, and the absence of out-of-range, moved-from and self-move accesses on every path", "anchors": ["include/cpp-sort/detail/container_aware/selection_sort.h"]}
{"id": "C37", "title": "container_aware_adapter<merge_sorter> on lists is a stable sort", "statement": "On a std::list or std::forward_list of any length the dedicated algorithm sorts the list and, as is_stable reports, keeps equivalent elements in their original order.", "quantifier": "every list, every strict weak order", "why_tests_cant": "tests only run finitely many arrays; the claim covers every length, every content and every strict weak order, and the absence of out-of-range, moved-from and self-move accesses on every path", "anchors": ["include/cpp-sort/detail/container_aware/merge_sort.h", "include/cpp-sort/adapters/container_aware_adapter.h:is_stable"]}
{"id": "C38", "title": "container_aware_adapter<mel_sorter> on lists sorts", "statement": "On a std::list or std::forward_list of any length the dedicated algorithm terminates and sorts by relinking nodes.", "quantifier": "every list, every strict weak order", "why_tests_cant": "tests only run finitely many arrays; the claim covers every length, every content and every strict weak order, and the absence of out-of-range, moved-from and self-move accesses on every path", "anchors": ["include/cpp-sort/detail/container_aware/mel_sort.h"]}
{"id": "C39", "title": "all stable sorters agree", "statement": "Any two sorters (or adapters) that sort stably leave exactly the same sequence of elements for the same input, comparator and projection.", "quantifier": "every pair of stable sorters, every input", "why_tests_cant": "quantifies over pairs of algorithms and all inputs", "anchors": ["docs/Sorters.md", "include/cpp-sort/sorter_traits.h:is_stable"]}
{"id": "C40", "title": "sorting with a projection equals sorting with the composed comparator", "statement": "sorter(range, comp, proj) orders the range by comp(proj(x), proj(y)), i.e. it has the effect of sorting with projection_compare(comp, proj); if comp is a strict weak order on the projected type the composed relation is one on the elements.", "quantifier": "every comparator, every projection, every range", "why_tests_cant": "quantifies over functions", "anchors": ["include/cpp-sort/comparators/projection_compare.h", "include/cpp-sort/sorter_facade.h"]}
{"id": "C41", "title": "probe::inv counts inversions", "statement": "probe::inv returns the number of pairs i<j with comp(x[j], x[i]), does not exceed n(n-1)/2, and this bound is reached.", "quantifier": "every range and strict weak order", "why_tests_cant": "tests only run finitely many arrays; the claim covers every length, every content and every strict weak order, and the absence of out-of-range, moved-from and self-move accesses on every path", "anchors": ["include/cpp-sort/probes/inv.h", "include/cpp-sort/detail/count_inversions.h"]}
{"id": "C42", "title": "probe::runs counts step-downs", "statement": "probe::runs returns the number of indices i with comp(x[i+1], x[i]); it is 0 iff the range is sorted and never exceeds n-1.", "quantifier": "every range and strict weak order", "why_tests_cant": "tests only run finitely many arrays; the claim covers every length, every content and every strict weak order, and the absence of out-of-range, moved-from and self-move accesses on every path", "anchors": ["include/cpp-sort/probes/runs.h"]}
{"id": "C43", "title": "probe::dis is the maximal inversion distance", "statement": "probe::dis returns the largest j-i over inversions i<j (0 if none), with both its allocating and its in-place algorithm; it never exceeds n-1.", "quantifier": "every range and strict weak order, whatever memory is available", "why_tests_cant": "tests only run finitely many arrays; the claim covers every length, every content and every strict weak order, and the absence of out-of-range, moved-from and self-move accesses on every path", "anchors": ["include/cpp-sort/probes/dis.h", "include/cpp-sort/detail/is_p_sorted.h"]}
{"id": "C44", "title": "probe::rem is n minus the longest non-descending subsequence", "statement": "probe::rem returns the smallest number of elements to remove so that a sorted sequence remains; at most n-1.", "quantifier": "every range and strict weak order", "why_tests_cant": "tests only run finitely many arrays; the claim covers every length, every content and every strict weak order, and the absence of out-of-range, moved-from and self-move accesses on every path", "anchors": ["include/cpp-sort/probes/rem.h", "include/cpp-sort/detail/longest_non_descending_subsequence.h"]}
{"id": "C45", "title": "probe::sus counts the non-descending subsequences of a minimal partition", "statement": "probe::sus returns k-1 where k is the smallest number of non-descending subsequences the range can be partitioned into (0 for an empty range).", "quantifier": "every range and strict weak order", "why_tests_cant": "tests only run finitely many arrays; the claim covers every length, every content and every strict weak order, and the absence of out-of-range, moved-from and self-move accesses on every path; the minimum ranges over all partitions", "anchors": ["include/cpp-sort/probes/sus.h", "include/cpp-sort/detail/longest_non_descending_subsequence.h"]}
{"id": "C46", "title": "probe::enc counts encroaching lists", "statement": "probe::enc returns the number of encroaching lists built by appending each element to the oldest list whose ends admit it, minus one; it never exceeds (n+1)/2 - 1.", "quantifier": "every range and strict weak order", "why_tests_cant": "tests only run finitely many arrays; the claim covers every length, every content and every strict weak order, and the absence of out-of-range, moved-from and self-move accesses on every path", "anchors": ["include/cpp-sort/probes/enc.h"]}
{"id": "C47", "title": "probe::ham counts misplaced elements", "statement": "probe::ham returns the number of positions whose element is not equivalent to the one in the sorted permutation; never more than n.", "quantifier": "every range and strict weak order", "why_tests_cant": "tests only run finitely many arrays; the claim covers every length, every content and every strict weak order, and the absence of out-of-range, moved-from and self-move accesses on every path", "anchors": ["include/cpp-sort/probes/ham.h"]}
{"id": "C48", "title": "probe::max is the largest distance to a sorted position", "statement": "probe::max returns the largest distance an element has to travel to reach a position it may occupy in the sorted range; never more than n-1.", "quantifier": "every range and strict weak order", "why_tests_cant": "tests only run finitely many arrays; the claim covers every length, every content and every strict weak order, and the absence of out-of-range, moved-from and self-move accesses on every path", "anchors": ["include/cpp-sort/probes/max.h"]}
{"id": "C49", "title": "probe::exc is the minimal number of exchanges", "statement": "probe::exc returns the minimum number of exchanges needed to sort the range; never more than n-1.", "quantifier": "every range and strict weak order", "why_tests_cant": "the minimum ranges over all exchange sequences", "anchors": ["include/cpp-sort/probes/exc.h"]}
{"id": "C50", "title": "probe::osc is the oscillation measure", "statement": "probe::osc returns the sum over i, j of the number of adjacent pairs (x[j],x[j+1]) that strictly enclose x[i], and never exceeds the documented maximum.", "quantifier": "every range and strict weak order", "why_tests_cant": "tests only run finitely many arrays; the claim covers every length, every content and every strict weak order, and the absence of out-of-range, moved-from and self-move accesses on every path", "anchors": ["include/cpp-sort/probes/osc.h"]}
{"id": "C51", "title": "probe::mono counts monotonic blocks", "statement": "probe::mono returns the minimum number of splits to obtain monotonic (ascending or descending) blocks as computed greedily; 0 iff the range is monotonic; never more than (n+1)/2 - 1.", "quantifier": "every range and strict weak order", "why_tests_cant": "tests only run finitely many arrays; the claim covers every length, every content and every strict weak order, and the absence of out-of-range, moved-from and self-move accesses on every path", "anchors": ["include/cpp-sort/probes/mono.h"]}
{"id": "C52", "title": "probe::block is 0 on sorted ranges", "statement": "probe::block counts the adjacent pairs that are not adjacent in the sorted sequence; it returns 0 when the range is sorted and never exceeds n-1.", "quantifier": "every range and strict weak order", "why_tests_cant": "tests only run finitely many arrays; the claim covers every length, every content and every strict weak order, and the absence of out-of-range, moved-from and self-move accesses on every path", "anchors": ["include/cpp-sort/probes/block.h"]}
{"id": "C53", "title": "total_less / total_greater are strict total orders", "statement": "total_less is a strict weak order on all floating point values, orders -0 before +0, infinities and NaNs at the extremes, distinguishes any two values that are not NaNs with equal sign; total_greater(x,y) = total_less(y,x).", "quantifier": "every pair/triple of floating point values of every format", "why_tests_cant": "the value space is too large to enumerate triples", "anchors": ["include/cpp-sort/comparators/total_less.h", "include/cpp-sort/comparators/total_greater.h", "include/cpp-sort/detail/floating_point_weight.h"]}
{"id": "C54", "title": "weak_less / weak_greater are strict weak orders on all floats", "statement": "weak_less is a strict weak order on all floating point values including NaNs and infinities, equates both zeros and equal-sign NaNs, and coincides with < on numbers; weak_greater is its converse.", "quantifier": "every triple of floating point values of every format", "why_tests_cant": "the value space is too large to enumerate triples", "anchors": ["include/cpp-sort/comparators/weak_less.h", "include/cpp-sort/comparators/weak_greater.h", "include/cpp-sort/detail/floating_point_weight.h"]}
{"id": "C55", "title": "natural_less is a strict weak order comparing digit runs as numbers", "statement": "natural_less never reads past the end of its arguments, is a strict weak order, compares digit-free strings lexicographically and digit runs by numeric value.", "quantifier": "every pair/triple of strings", "why_tests_cant": "strings are unbounded", "anchors": ["include/cpp-sort/comparators/natural_less.h"]}
{"id": "C56", "title": "case_insensitive_less is a strict weak order", "statement": "case_insensitive_less is the lexicographic order of the lowercased strings: a strict weak order whose equivalence is equality after lowercasing.", "quantifier": "every locale folding function, every pair/triple of strings", "why_tests_cant": "strings are unbounded", "anchors": ["include/cpp-sort/comparators/case_insensitive_less.h"]}
{"id": "C57", "title": "flip / not_fn / projection_compare simplifications preserve meaning", "statement": "For any nesting of flip, not_fn and make_projection_compare, the simplified callable returned behaves as the plain composition; flip of a strict weak order is one.", "quantifier": "every nesting and every callable", "why_tests_cant": "nestings are unbounded", "anchors": ["include/cpp-sort/comparators/flip.h", "include/cpp-sort/comparators/not_fn.h", "include/cpp-sort/comparators/projection_compare.h"]}
{"id": "C58", "title": "apply_permutation applies the permutation and resets the indices", "statement": "For any permutation p of 0..n-1, apply_permutation(xs, p) makes xs[i] the old xs[p[i]], turns p into the identity, and uses no self-move or moved-from read.", "quantifier": "every n and every permutation", "why_tests_cant": "all permutations of all sizes", "anchors": ["include/cpp-sort/utility/apply_permutation.h"]}
{"id": "C59", "title": "sorted_indices / sorted_iterators return a sorting permutation", "statement": "sorted_indices<S> returns a permutation p of 0..n-1 such that x[p[0]], x[p[1]], ... is sorted (stably sorted when S is stable), and leaves the range untouched; sorted_iterators likewise; apply_permutation with these indices sorts the range.", "quantifier": "every range length, every element type and contents (duplicates included), every comparator/projection pair that induces a strict weak order, every position of the range inside a larger memory, and every sorter", "why_tests_cant": "quantifies over every sorter", "anchors": ["include/cpp-sort/utility/sorted_indices.h", "include/cpp-sort/utility/sorted_iterators.h", "include/cpp-sort/utility/apply_permutation.h"]}
{"id": "C60", "title": "metrics::comparisons and counting_adapter report the exact number of comparisons", "statement": "metrics::comparisons<S> (and counting_adapter<S>) has the same effect on the range as S and returns exactly the number of times the comparator was invoked.", "quantifier": "every sorter, every range", "why_tests_cant": "quantifies over every sorter", "anchors": ["include/cpp-sort/metrics/comparisons.h", "include/cpp-sort/adapters/counting_adapter.h", "include/cpp-sort/detail/comparison_counter.h"]}
{"id": "C61", "title": "grail_sorter sorts stably", "statement": "Calling it on a range terminates without undefined behaviour (no access outside the range or its own scratch memory, no read of a moved-from element, no self-move), leaves a permutation of the original elements ordered by the comparator, and changes nothing outside the range; moreover equivalent elements keep their original relative order, for every scratch buffer policy.", "quantifier": "every range length, every element type and contents (duplicates included), every comparator/projection pair that induces a strict weak order, every position of the range inside a larger memory, and every buffer size", "why_tests_cant": "tests only run finitely many arrays; the claim covers every length, every content and every strict weak order, and the absence of out-of-range, moved-from and self-move accesses on every path", "anchors": ["include/cpp-sort/sorters/grail_sorter.h", "include/cpp-sort/detail/grail_sort.h"]}
{"id": "C62", "title": "wiki_sorter sorts stably", "statement": "Calling it on a range terminates without undefined behaviour (no access outside the range or its own scratch memory, no read of a moved-from element, no self-move), leaves a permutation of the original elements ordered by the comparator, and changes nothing outside the range; moreover equivalent elements keep their original relative order, for every scratch buffer policy.", "quantifier": "every range length, every element type and contents (duplicates included), every comparator/projection pair that induces a strict weak order, every position of the range inside a larger memory, and every buffer size", "why_tests_cant": "tests only run finitely many arrays; the claim covers every length, every content and every strict weak order, and the absence of out-of-range, moved-from and self-move accesses on every path", "anchors": ["include/cpp-sort/sorters/wiki_sorter.h", "include/cpp-sort/detail/wiki_sort.h"]}
{"id": "C63", "title": "ska_sorter sorts", "statement": "For every range of values of a supported key type, ska_sorter terminates and leaves the sorted permutation.", "quantifier": "every range of every supported key type", "why_tests_cant": "tests only run finitely many arrays; the claim covers every length, every content and every strict weak order, and the absence of out-of-range, moved-from and self-move accesses on every path", "anchors": ["include/cpp-sort/sorters/ska_sorter.h", "include/cpp-sort/detail/ska_sort.h"]}
{"id": "C64", "title": "sorting network comparator counts", "statement": "sorting_network_sorter<N> performs exactly the documented number of comparisons for every N in 0..64, independent of the input, and at most three moves each.", "quantifier": "every N in 0..64, every input", "why_tests_cant": "must hold for every input and N", "anchors": ["include/cpp-sort/fixed/sorting_network_sorter.h", "docs/Fixed-size-sorters.md"]}
{"id": "C65", "title": "worst-case comparison bounds", "statement": "insertion_sorter performs at most n(n-1)/2-type, selection_sorter exactly the documented quadratic, heap_sorter O(n log n) comparisons and merge_sorter, when its buffer is allocated (docs/Sorters.md: n log n with O(n) memory), O(n log n) comparisons, with explicit constants, on every input.", "quantifier": "every length and content", "why_tests_cant": "worst cases over all inputs", "anchors": ["include/cpp-sort/detail/insertion_sort.h", "include/cpp-sort/detail/selection_sort.h", "include/cpp-sort/detail/heapsort.h", "include/cpp-sort/detail/merge_sort.h"]}
{"id": "C66", "title": "swap_if puts two values in order", "statement": "swap_if(x, y, compare, projection), which every sorting network uses for its compare-exchanges, terminates and leaves the two original values in order, for every overload (generic, integers, floating point, standard and ranges comparators).", "quantifier": "every integer width and signedness, every floating point format, every pair of values, every overload", "why_tests_cant": "value pairs cannot be enumerated; the overload set is easy to miss", "anchors": ["include/cpp-sort/detail/swap_if.h"]}
{"id": "C67", "title": "stable_partition partitions stably for every allocation outcome", "statement": "detail::stable_partition terminates without undefined behaviour, puts the elements that satisfy the predicate before the others, both groups in their original order, returns the iterator to the first of the others, and changes nothing outside the range, whatever size of temporary buffer is granted (none, too small, or enough).", "quantifier": "every range, every predicate, every sequence of allocation outcomes", "why_tests_cant": "the buffer size is decided by the allocator; the in-place recursion runs only when memory is short", "anchors": ["include/cpp-sort/detail/stable_partition.h", "include/cpp-sort/detail/rotate.h"]}
{"id": "C68", "title": "front_insert inserts the first element into a sorted rest", "statement": "front_insert<N>(first, compare, projection) leaves the N elements sorted when the elements after the first one are sorted, with at most 0,0,1,2,2,3,3,3,3,4,4,4 comparisons, for every specialization N = 0..11.", "quantifier": "every N in 0..11, every content whose tail is sorted, every strict weak order, every memory", "why_tests_cant": "the specializations are written by hand and only some of them are reached from low_comparisons_sorter; the others are not exercised by the sorters at all", "anchors": ["include/cpp-sort/detail/front_insert.h", "include/cpp-sort/detail/front_inserter"]}
{"id": "C69", "title": "merge_insertion_sorter makes no more comparisons than the Ford-Johnson algorithm", "statement": "merge_insertion_sorter sorts n elements with at most the sum of ceil(log2(3k/4)) for k = 1..n comparisons, the worst case of the Ford-Johnson merge-insertion sort that docs/Sorters.md says it implements (with an optimal worst case for small collections); and in any case with O(n log n) comparisons.", "quantifier": "every length, every content, every strict weak order", "why_tests_cant": "a wrong order of insertion still sorts: only the worst case over all permutations shows the extra comparison", "anchors": ["include/cpp-sort/detail/merge_insertion_sort.h", "docs/Sorters.md"]}
{"id": "C70", "title": "integer_spread_sorter sorts", "statement": "For every range of elements whose projection is a built-in integer type, integer_spread_sorter terminates without undefined behaviour and leaves the sorted permutation.", "quantifier": "every range, every built-in integer type of at most 64 bits, every projection", "why_tests_cant": "tests only run finitely many arrays; the claim covers every length, every content and every strict weak order, and the absence of out-of-range, moved-from and self-move accesses on every path", "anchors": ["include/cpp-sort/sorters/spread_sorter/integer_spread_sorter.h", "include/cpp-sort/detail/spreadsort/integer_sort.h", "include/cpp-sort/detail/spreadsort/detail/integer_sort.h", "include/cpp-sort/detail/spreadsort/detail/common.h"]}
{"id": "C71", "title": "float_spread_sorter sorts", "statement": "For every range of elements whose projection is a float or a double that is not a NaN, float_spread_sorter terminates without undefined behaviour and leaves the sorted permutation.", "quantifier": "every range, both floating point types, every projection", "why_tests_cant": "tests only run finitely many arrays; the claim covers every length, every content and every strict weak order, and the absence of out-of-range, moved-from and self-move accesses on every path", "anchors": ["include/cpp-sort/sorters/spread_sorter/float_spread_sorter.h", "include/cpp-sort/detail/spreadsort/float_sort.h", "include/cpp-sort/detail/spreadsort/detail/float_sort.h", "include/cpp-sort/detail/spreadsort/detail/common.h"]}
{"id": "C72", "title": "string_spread_sorter sorts", "statement": "For every range of elements whose projection is a string of 8-bit or 16-bit characters, string_spread_sorter terminates without undefined behaviour and leaves the sorted permutation, in ascending or, with std::greater<>, descending lexicographical order.", "quantifier": "every range, both directions, both sizes of characters, every projection", "why_tests_cant": "tests only run finitely many arrays; the claim covers every length, every content and every strict weak order, and the absence of out-of-range, moved-from and self-move accesses on every path; strings are unbounded", "anchors": ["include/cpp-sort/sorters/spread_sorter/string_spread_sorter.h", "include/cpp-sort/detail/spreadsort/string_sort.h", "include/cpp-sort/detail/spreadsort/detail/string_sort.h"]}
{"id": "C73", "title": "Sorters with a worst case of n log n never make more than a constant times n log n comparisons", "statement": "pdq_sorter, merge_sorter (random-access iterators, whatever memory is available), drop_merge_sorter, split_sorter, d_ary_heap_sorter, poplar_sorter, smooth_sorter, mel_sorter, cartesian_tree_sorter, and merge_sorter and mel_sorter on lists, make at most n(a log2 n + b) comparisons on every range of n elements, for fixed a and b; drop_merge_adapter and split_adapter add a linear number of comparisons to those of the adapted sorter.", "quantifier": "every range of every length, every strict weak order, every state of the allocator", "why_tests_cant": "adversarial inputs of quicksort-like algorithms are not met by random or patterned tests", "anchors": ["docs/Sorters.md", "include/cpp-sort/detail/pdqsort.h", "include/cpp-sort/detail/merge_sort.h", "include/cpp-sort/detail/symmerge.h", "include/cpp-sort/detail/drop_merge_sort.h", "include/cpp-sort/detail/split_sort.h", "include/cpp-sort/detail/d_ary_heapsort.h", "include/cpp-sort/detail/poplar_sort.h", "include/cpp-sort/detail/smoothsort.h", "include/cpp-sort/detail/melsort.h", "include/cpp-sort/detail/cartesian_tree_sort.h", "include/cpp-sort/detail/container_aware/merge_sort.h", "include/cpp-sort/detail/container_aware/mel_sort.h"]}
{"id": "C74", "title": "default_sorter (cppsort::sort) sorts whatever it is called with", "statement": "default_sorter calls the sort or stable_sort method of the container if it has one, low_comparisons_sorter<N> for arrays of N <= 13 elements, pdq_sorter for other random-access ranges and quick_sorter for forward and bidirectional ones; in every case the call is well-formed and the range ends up sorted.", "quantifier": "every kind of argument, every size, every strict weak order", "why_tests_cant": "the overload resolution between the parts depends on static types, and each part has its own unbounded domain", "anchors": ["include/cpp-sort/sorters/default_sorter.h", "include/cpp-sort/adapters/self_sort_adapter.h", "include/cpp-sort/adapters/small_array_adapter.h", "include/cpp-sort/adapters/hybrid_adapter.h", "include/cpp-sort/sort.h"]}
{"id": "C75", "title": "Adaptive sorters: linear best case on sorted ranges", "statement": "On every range (or list) that is already sorted, equivalent elements included, insertion_sorter, tim_sorter, adaptive_shivers_sorter, drop_merge_adapter over any sorter, mel_sorter (ranges and lists), slab_sorter, cartesian_tree_sorter and splay_sorter make exactly n-1 comparisons, verge_adapter over any sorter (n at least 128) n or n-1, and the range is left as it was; the adapted sorters are not called.", "quantifier": "all strict weak orders, all sizes, all sorted ranges, all adapted sorters", "why_tests_cant": "Tests measure a few sorted arrays and check only that they come out sorted; a second pass over the data, or a call of the adapted sorter on a range already sorted, would not be noticed.", "anchors": ["docs/Sorters.md 27, 123, 178, 201, 390, 470, 486; docs/Sorter-adapters.md 94, 354", "include/cpp-sort/detail/insertion_sort.h", "include/cpp-sort/detail/timsort.h", "include/cpp-sort/detail/drop_merge_sort.h", "include/cpp-sort/detail/melsort.h", "include/cpp-sort/detail/slabsort.h", "include/cpp-sort/detail/vergesort.h"]}
{"id": "C76", "title": "insertion_sorter on lists: documented best case", "statement": "As documented, insertion_sorter on std::list and std::forward_list reaches a linear number of operations in its best case: there is a constant C such that for every n some list of n elements is sorted with at most C*n comparisons.", "quantifier": "all sizes", "why_tests_cant": "No finite set of measures shows that no input is fast.", "anchors": ["docs/Sorters.md 180-186", "include/cpp-sort/detail/container_aware/insertion_sort.h 30-98"]}
{"id": "C77", "title": "Probes satisfy Mannila's definition (inv, runs, dis, rem, sus, max)", "statement": "probe::inv, runs, dis, rem, sus and max satisfy the five properties of a measure of presortedness given in the documentation, for sequences of distinct elements: 0 on sorted sequences; same value on order isomorphic sequences (of any two types); a subsequence has at most the value of the sequence; if all elements of X are smaller than those of Y then M(X.Y) <= M(X)+M(Y); M({x}.X) <= |X|+M(X).", "quantifier": "all strict weak orders, all pairs of sequences of distinct elements, all element types, every algorithm choice of the probe", "why_tests_cant": "The properties relate values on unboundedly many pairs of sequences.", "anchors": ["docs/Measures-of-presortedness.md 5-17", "include/cpp-sort/probes/inv.h", "include/cpp-sort/probes/runs.h", "include/cpp-sort/probes/dis.h", "include/cpp-sort/probes/rem.h", "include/cpp-sort/probes/sus.h", "include/cpp-sort/probes/max.h"]}
{"id": "C78", "title": "Probes satisfy Mannila's definition (block, enc, exc, ham, mono, osc)", "statement": "probe::block, enc, exc, ham, mono and osc satisfy the same five properties of a measure of presortedness (the documentation of block says that the value is shifted so as to respect the definition of Mannila).", "quantifier": "all strict weak orders, all pairs of sequences of distinct elements, all element types, every algorithm choice of the probe", "why_tests_cant": "The properties relate values on unboundedly many pairs of sequences.", "anchors": ["docs/Measures-of-presortedness.md 5-17, 97, 210", "include/cpp-sort/probes/block.h", "include/cpp-sort/probes/enc.h", "include/cpp-sort/probes/exc.h", "include/cpp-sort/probes/ham.h", "include/cpp-sort/probes/mono.h", "include/cpp-sort/probes/osc.h"]}
{"id": "C79", "title": "Comparisons of the measures of presortedness", "statement": "On every range of n elements each probe returns after a number of comparisons within the documented complexity: at most n-1 for runs, 2(n-1) for mono and 6n for dis with a buffer; at most a constant times n log n for dis without a buffer, rem, sus, enc, inv, ham, max, exc, block and osc with a buffer; at most 4n(n-1) for osc without a buffer.", "quantifier": "for all element types, strict weak orders, ranges and answers of the allocator", "why_tests_cant": "Counting comparisons on sample ranges says nothing about the worst case over all ranges of all sizes; a quadratic corner of a probe shows only on the inputs that reach it.", "anchors": ["docs/Measures-of-presortedness.md 100-320", "include/cpp-sort/probes", "include/cpp-sort/detail/count_inversions.h", "include/cpp-sort/detail/longest_non_descending_subsequence.h", "include/cpp-sort/detail/equal_range.h"]}
{"id": "C80", "title": "sorter_facade passes on the order asked for", "statement": "For every sorter implementation, a call of the facade with two iterators or an iterable and up to two functions (comparison and/or projection, std::less<> and the identities included) that compiles results in a call that the implementation accepts and that asks for the same order: a missing comparison stands for std::less<>, a missing projection for the identity, a projection baked into a comparison for the comparison of projected elements, dropped std::less<> and identities change nothing. A call with two iterators never becomes one with an iterable. Implementations that know their arguments by position get the same order provided they refuse a lone function that is not a comparison.", "quantifier": "all sets of calls an implementation may accept, all relations telling which functions can be called with which, with and without C++20, all calls whose functions are not both comparisons and projections", "why_tests_cant": "There are 47 overloads constrained by combinations of nine traits, hence thousands of kinds of implementations; the tests instantiate a dozen sorters.", "anchors": ["include/cpp-sort/sorter_facade.h 150-1175", "include/cpp-sort/sorter_traits.h 24-131", "include/cpp-sort/detail/projection_compare.h", "docs/Sorter-facade.md 58-190"]}
{"id": "C81", "title": "sorter_facade is never ambiguous", "statement": "No call of the facade is ambiguous, whatever overloads of operator() the wrapped sorter implementation has.", "quantifier": "all sets of calls an implementation may accept, all sensible calls", "why_tests_cant": "An ambiguity shows only with the implementation and the arguments that cause it; tests that should not compile are not written.", "anchors": ["include/cpp-sort/sorter_facade.h 150-1175"]}
{"id": "C82", "title": "One operator() is enough for sorter_facade", "statement": "A sorter implementation with a single operator() taking a pair of iterators, a comparison and a projection, or a pair of iterators and a comparison, accepts once wrapped in sorter_facade every sensible combination of iterable or iterators, comparison and projection.", "quantifier": "all implementations of that form, all sensible calls", "why_tests_cant": "The claim is over every implementation of the given form, with or without default arguments and constraints; the tests use the sorters of the library, which are all written alike.", "anchors": ["docs/Sorter-facade.md 81-103, 130, 140", "include/cpp-sort/sorter_facade.h 150-1175"]}
{"id": "C83", "title": "sorter_facade prefers the overloads for iterables", "statement": "A call of the facade with an iterable calls the most suitable operator() of the implementation for iterables if there is one, and one for two iterators only when it cannot do otherwise.", "quantifier": "all sets of calls an implementation may accept, all calls with an iterable", "why_tests_cant": "The preference depends on which of six overload families the implementation has; tests cover the combinations found in the library.", "anchors": ["docs/Sorter-facade.md 132", "include/cpp-sort/sorter_facade.h 176-1173"]}
{"id": "C84", "title": "Every sorter takes std::less<> and the identities", "statement": "A sorter that can be called without functions can be called with std::less<>, with utility::identity or with both; in C++20 std::ranges::less and std::identity do as well, in all combinations. A projection that can be given alone can be given with std::less<>.", "quantifier": "all sets of calls an implementation may accept, with and without C++20", "why_tests_cant": "Universal over implementations; a missing overload is noticed only by the user who needs it.", "anchors": ["docs/Sorter-facade.md 144-190", "include/cpp-sort/sorter_facade.h 416-986"]}
{"id": "C85", "title": "The bit operations compute the logarithms and powers of two they document", "statement": "hyperfloor returns 2^floor(log2(n)), hyperceil 2^ceil(log2(n)), log2 (both implementations) floor(log2(n)) and ceil_log2 ceil(log2(n)) for n > 0; half halves non-negative values, has_single_bit recognizes the powers of two and rotl rotates. poplar_sort's first poplar has size 2^k - 1 even when size + 1 wraps around.", "quantifier": "all values of all unsigned types of 2^k bits (all widths for log2, half, has_single_bit, rotl)", "why_tests_cant": "The operations take 64-bit words; a wrong bound of the smearing loop shows on a few words only, and nothing tests these functions directly.", "anchors": ["include/cpp-sort/detail/bitops.h 21-140", "include/cpp-sort/detail/poplar_sort.h 155-163"]}
{"id": "C86", "title": "make_integer_range is the half-open range from Begin to End by Step", "statement": "make_integer_range<Integer, Begin, End, Step> holds in order exactly the values Begin, Begin + Step, ... before End (downwards when End < Begin), a null step standing for 1; make_index_range holds the same values without overflow.", "quantifier": "all bounds and all non-negative steps, signed and unsigned types of any width", "why_tests_cant": "A compile-time facility: the existing tests instantiate no range with equal bounds and a step other than 1.", "anchors": ["docs/Miscellaneous-utilities.md 262-291", "include/cpp-sort/utility/make_integer_range.h 21-81"]}
{"id": "C87", "title": "The operations of fixed_size_list keep its lists well linked", "statement": "Every operation of fixed_size_list, run on lists whose nodes are linked both ways from their sentinel and back, gives such lists again with the expected nodes: insertion and extraction anywhere, splice of a range or of a list, move construction and assignment; merge gives the stable merge of the two lists and leaves the other one empty. Nodes of other lists are not touched. merge_unsafe, whose argument is only linked forwards, gives a list linked forwards in the merged order.", "quantifier": "all pools, all numbers of lists, all list contents, all comparators, all memory states", "why_tests_cant": "The links are internal to the library: the sorters only read the result forwards, and a wrong backward link only shows in later operations.", "anchors": ["include/cpp-sort/detail/fixed_size_list.h 33-84", "include/cpp-sort/detail/fixed_size_list.h 405-844", "include/cpp-sort/detail/melsort.h 40-118"]}
{"id": "C88", "title": "The node pool hands out each node once and gets all of them back", "statement": "fixed_size_list_node_pool starts with all its nodes free; next_free_node succeeds as long as fewer nodes than the capacity are in use, and returns a node that no list uses; destroying a list destroys exactly the values of its nodes, which become free again; reset_nodes puts the nodes back in address order.", "quantifier": "all capacities, all sequences of operations on any number of lists", "why_tests_cant": "No sorter uses the pool beyond its capacity or reuses it after a destruction in the tests; a leaked node or a double destruction of a trivial type is silent.", "anchors": ["include/cpp-sort/detail/fixed_size_list.h 90-260", "include/cpp-sort/detail/fixed_size_list.h 475-489"]}
{"id": "C89", "title": "spin_sorter never makes more than a constant times n log n comparisons", "statement": "spin_sorter returns after at most n(4 log2 n + 22) comparisons on every range of n elements, including the ranges it recognizes as almost sorted or almost reversed, where it sorts the rest on its own and inserts it.", "quantifier": "every range of every length, every strict weak order", "why_tests_cant": "the sizes of the nested sorts depend on the input at every level; a bad combination of them is not met by random tests", "anchors": ["docs/Sorters.md", "include/cpp-sort/detail/spinsort.h 67-381", "include/cpp-sort/detail/boost_common/util/merge.h"]}
{"id": "C90", "title": "Compositions of sorters and adapters sort, and are as stable as their traits say", "statement": "Every composition of comparison sorters with drop_merge_adapter, split_adapter, verge_adapter, indirect_adapter, out_of_place_adapter, schwartz_adapter, counting_adapter, make_stable, stable_adapter and hybrid_adapter, nested in any way, sorts when it is called with iterators of a category that it accepts; the call is stable whenever is_always_stable or is_stable for these iterators says so; stable_t<S> and stable_adapter<S> are always stable and accept the same iterators as S.", "quantifier": "every composition of any depth and width, every iterator category, every element type and strict weak order", "why_tests_cant": "there are infinitely many compositions; the traits are evaluated at compile time for each of them, separately from the overloads that the call then takes", "anchors": ["include/cpp-sort/adapters/stable_adapter.h 80-328", "include/cpp-sort/adapters/hybrid_adapter.h", "include/cpp-sort/adapters/indirect_adapter.h 215-220", "include/cpp-sort/adapters/out_of_place_adapter.h 107-112", "include/cpp-sort/sorter_traits.h 200-298", "include/cpp-sort/detail/stable_adapter_hybrid_adapter.h", "docs/Sorter-traits.md"]}
{"id": "C91", "title": "The stability trait of sorting_network_sorter<N> is exact", "statement": "For every N from 0 to 64, sorter_traits<sorting_network_sorter<N>>::is_always_stable is true if and only if sorting_network_sorter<N> sorts every range of N elements of every type, under every strict weak ordering, stably. It is declared for N <= 3, where only neighbours are compared; for each larger size some range has its equivalent elements reordered.", "quantifier": "all N in 0..64, all element types, all strict weak orderings, all contents and memories", "why_tests_cant": "Tests run is_stable as a static_assert and sort distinct integers; they never compare the declaration with what the 65 networks do to equivalent elements.", "anchors": ["include/cpp-sort/fixed/sorting_network_sorter.h:54-73", "include/cpp-sort/detail/sorting_network/sort2.h:42-47", "include/cpp-sort/detail/sorting_network/sort3.h:46-51"]}
{"id": "C92", "title": "tim_sorter and adaptive_shivers_sorter never make more than a constant times n log n comparisons", "statement": "On every range of n elements and under every strict weak ordering, tim_sorter returns after at most n (32 log2 n + 51) comparisons and adaptive_shivers_sorter after at most n (16 log2 n + 51): no sequence of runs makes the stack of pending runs high or its merges unbalanced, and galloping never makes a merge more than linear.", "quantifier": "all ranges of all lengths, all sequences of run lengths, all strict weak orderings", "why_tests_cant": "The run lengths that upset the merge policy of timsort are adversarial and long; tests time random and a few patterned inputs and assert no bound.", "anchors": ["include/cpp-sort/detail/timsort.h:100-300", "include/cpp-sort/detail/timsort.h:302-412", "include/cpp-sort/detail/timsort.h:431-723", "include/cpp-sort/detail/timsort.h:726-787", "docs/Sorters.md:25-27", "docs/Sorters.md:468-470"]}
{"id": "C93", "title": "verge_sorter adds n log log n comparisons to those of its fallback", "statement": "Over random-access iterators, whenever verge_adapter returns on a range of n elements it has made at most n (3 log2 (log2 n) + 14) comparisons on top of a bound of the adapted sorter that is superadditive, whatever memory the merges got; verge_sorter makes at most n (52 log2 n + 3 log2 (log2 n) + 37) and returns on every range without an element alone between two big runs.", "quantifier": "all ranges of all lengths, all fallback sorters that sort and have a superadditive bound, all allocation outcomes, all strict weak orderings", "why_tests_cant": "The bound concerns the number and the places of the big runs in ranges of any size; tests assert no number of comparisons.", "anchors": ["include/cpp-sort/detail/vergesort.h:48-92", "include/cpp-sort/detail/vergesort.h:320-496", "docs/Sorters.md:476-501"]}
{"id": "C94", "title": "container_aware_adapter runs the dedicated algorithm for collections and the adapted sorter for iterators", "statement": "A call of container_aware_adapter<Sorter> is never ambiguous. Given an lvalue collection for which argument-dependent lookup finds a sort(Sorter, collection, ...) that takes the functions passed, or the projection with std::less<>, or the comparison with the projection baked in, it calls such a sort; without one it passes the call to the adapted sorter as it is; either way the order asked for is the one of the call. Called with a pair of iterators it calls the adapted sorter. is_stable of the adapter is true only if the adapted sorter is called by a call for which its own is_stable is true. The specializations for insertion_sorter, mel_sorter, merge_sorter and selection_sorter run the list algorithm for every list with that order.", "quantifier": "for all sets of visible sort functions, all adapted sorters, all collections and all comparisons and projections", "why_tests_cant": "The sort functions that lookup finds, the calls that the adapted sorter accepts and the nature of the functions passed can be combined at will; tests combine one sort with one sorter.", "anchors": ["include/cpp-sort/adapters/container_aware_adapter.h:101-331", "include/cpp-sort/adapters/container_aware_adapter.h:350-357", "include/cpp-sort/detail/container_aware/insertion_sort.h:101-218", "docs/Sorter-adapters.md:33-53"]}
{"id": "C95", "title": "nth_element places the nth element", "statement": "detail::nth_element, called with a range, a position nth < n and the size n of the range, returns an iterator to the position nth, leaves a permutation of the range, and the element at nth is one that a sort may put there: nothing before it is greater and nothing after it is less.", "quantifier": "for all ranges of all lengths, all positions, all iterator categories, all strict weak orderings", "why_tests_cant": "The mistakes are at the borders of the three parts of a partition, for sizes above 32 and one value of nth; the function has no test of its own, and quick_merge_sorter works as long as the range is cut at nth.", "anchors": ["include/cpp-sort/detail/nth_element.h:20-70", "include/cpp-sort/detail/introselect.h:254-322"]}
{"id": "C96", "title": "The median of five and the median of medians are medians", "statement": "iter_median_rest on one to five elements returns an element such that at most half of the elements are less and at most half are greater, after permuting them. median_of_medians returns an element that at least three tenths of the elements, up to a constant, are not less than, and at least as many are not greater than.", "quantifier": "for all ranges, all iterator categories, all strict weak orderings", "why_tests_cant": "A pivot that is not a median only makes the sort slower: tests see a sorted range.", "anchors": ["include/cpp-sort/detail/introselect.h:59-92", "include/cpp-sort/detail/introselect.h:94-141", "include/cpp-sort/detail/introselect.h:150-198"]}
{"id": "C97", "title": "splay_sorter: n log n comparisons in the worst case", "statement": "splay_sorter, documented with a worst case of n log n, makes at most n (8 log2 n + 1) comparisons on every range of n elements.", "quantifier": "all strict weak orders, all ranges", "why_tests_cant": "A single insertion may take n comparisons; only the sum over all the insertions is bounded, and the inputs for which a wrong rotation (zig twice instead of zig-zig) makes the sum quadratic are not among those of the tests, which do not count comparisons.", "anchors": ["docs/Sorters.md:402-404", "include/cpp-sort/detail/splaysort.h:31-112", "include/cpp-sort/detail/splaysort.h:146-238"]}
{"id": "C98", "title": "quick_sorter and pdq_sorter: a best case of n, on equivalent elements", "statement": "On every range of n equivalent elements quick_sorter, for the three categories of iterators, makes at most 5 n comparisons, and pdq_sorter, with both partitioning functions, at most 2 n + 26.", "quantifier": "all strict weak orders, all ranges of equivalent elements, all sizes", "why_tests_cant": "Handling of equal keys shows only in the number of comparisons: a two-way partition sorts the range as well, in n log n or quadratic time; tests do not count comparisons.", "anchors": ["docs/Sorters.md:262-264", "docs/Sorters.md:317-321", "include/cpp-sort/detail/quicksort.h:59-128", "include/cpp-sort/detail/partition.h:27-85", "include/cpp-sort/detail/pdqsort.h:425-557"]}
{"id": "C99", "title": "quick_merge_sorter: a best case of n", "statement": "quick_merge_sorter, documented with a best case of n, sorts for every n some range of n elements with a number of comparisons proportional to n.", "quantifier": "all sizes, all comparisons, all categories of iterators", "why_tests_cant": "It is a statement about all the inputs of every size; tests run a few and do not count comparisons.", "anchors": ["docs/Sorters.md:292-295", "include/cpp-sort/detail/quick_merge_sort.h:38-154"]}
{"id": "C100", "title": "smooth_sorter, spin_sorter and split_sorter: a best case of n, on sorted ranges", "statement": "On every sorted range of n elements smooth_sorter makes at most 15 n comparisons (n < 2^63); spin_sorter n-1 comparisons, except from 73 to 2049 elements, where it makes at most 66 n; split_sorter exactly 2 (n-1), as does split_adapter over any sorter that compares nothing on a single element. The range is left as it was.", "quantifier": "all strict weak orders (for split, all comparisons), all sorted ranges", "why_tests_cant": "Adaptivity shows only in the number of comparisons: a sort that forgets that its blocks are in order gives the same result in n log n time; tests do not count comparisons.", "anchors": ["docs/Sorters.md:374-376", "docs/Sorters.md:388-390", "docs/Sorters.md:418-420", "include/cpp-sort/detail/smoothsort.h:136-488", "include/cpp-sort/detail/spinsort.h:131-238", "include/cpp-sort/detail/spinsort.h:312-381", "include/cpp-sort/detail/split_sort.h:27-63"]}
{"id": "C101", "title": "The memory that the sorters allocate", "statement": "insertion, selection, heap, d_ary_heap, poplar, smooth, pdq, quick, quick_merge and (by default) grail sorters and the fixed-size sorters request no memory from the heap, whatever the range. wiki_sorter requests 512 elements by default, whatever the size of the range; grail_sorter and wiki_sorter request what their buffer provider asks for and nothing more. splay_sorter and cartesian_tree_sorter request n nodes; spin_sorter requests half of the range, rounded up, and nothing for up to 72 elements.", "quantifier": "all strict weak orders, all ranges", "why_tests_cant": "A temporary buffer in one branch of an in-place sort changes no result; tests that do not replace the allocator cannot see it, and those that do only see the branches they take.", "anchors": ["docs/Sorters.md:51", "docs/Sorters.md:67", "docs/Sorters.md:141", "docs/Sorters.md:166", "docs/Sorters.md:178", "docs/Sorters.md:264", "docs/Sorters.md:280", "docs/Sorters.md:294-295", "docs/Sorters.md:319", "docs/Sorters.md:337", "docs/Sorters.md:376", "docs/Sorters.md:390", "docs/Sorters.md:404", "docs/Sorters.md:513"]}
{"id": "C102", "title": "Sorters with any comparison function", "statement": "With any comparison function that returns (its answers may be inconsistent, and may change from one call to the next), insertion, selection, heap, d_ary_heap, poplar, smooth (below 2^63 elements) and quick sorters (for every category of iterators), the sorting networks (sorting_network_sorter up to 64, merge_exchange for every size, odd_even_merge for powers of two), low_comparisons_sorter and low_moves_sorter terminate, access nothing outside of the range, read nothing that was moved from, and leave a permutation of the range.", "quantifier": "all comparison functions, stateful ones included, all ranges, all memories", "why_tests_cant": "The space of inconsistent comparison functions cannot be sampled: a sorter that relies on the order for one of its guards is safe on all valid inputs, and a test with one broken comparison exercises one path.", "anchors": ["include/cpp-sort/detail/insertion_sort.h:1-71", "include/cpp-sort/detail/selection_sort.h:1-30", "include/cpp-sort/detail/heapsort.h:1-214", "include/cpp-sort/detail/poplar_sort.h:1-211", "include/cpp-sort/detail/smoothsort.h:136-488", "include/cpp-sort/detail/quicksort.h:1-130", "include/cpp-sort/detail/introselect.h:1-323", "include/cpp-sort/fixed/sorting_network_sorter.h:1-161"]}
{"id": "C103", "title": "pdq_sorter with any comparison function", "statement": "pdq_sorter stays in its range whatever the comparison function. False: with a comparison that says of all the elements that they are before each other, such as `<=` on equal elements, the first partition of any range of 24 elements or more reads past the end, with and without the branchless partition. True up to 23 elements.", "quantifier": "all comparison functions, all ranges, both partition functions", "why_tests_cant": "The access past the end usually hits readable memory, and a test of a broken comparison looks at no result; only short ranges are safe.", "anchors": ["include/cpp-sort/detail/pdqsort.h:188-216", "include/cpp-sort/detail/pdqsort.h:342-366", "include/cpp-sort/detail/pdqsort.h:425-540"]}
{"id": "C104", "title": "Exceptions thrown by the comparison", "statement": "When the comparison function (or a projection) throws, at any point and whatever it answered before, the exception comes out of insertion, selection, heap, d_ary_heap, poplar, smooth (below 2^63 elements) and quick sorters and of the fixed-size sorters without undefined behaviour, and nothing outside of the range has changed. Selection, d_ary_heap, smooth and (for forward iterators) quick sorters, the sorting networks, low_comparisons and low_moves sorters leave a permutation of the range; in the others at most one position is left moved from, and the other positions hold all the elements but one. insertion_sorter does lose an element, on every range of three elements or more, for a suitable comparison.", "quantifier": "all comparison functions that return or throw, all ranges, all memories", "why_tests_cant": "An exception can be thrown at each of the comparisons of each run; a test throws at one point of one run, and a lost element shows only if the elements are compared afterwards.", "anchors": ["include/cpp-sort/detail/insertion_sort.h:41-68", "include/cpp-sort/detail/selection_sort.h:18-27", "include/cpp-sort/detail/heapsort.h:31-211", "include/cpp-sort/detail/poplar_sort.h:38-208", "include/cpp-sort/detail/smoothsort.h:136-488", "include/cpp-sort/detail/quicksort.h:28-128", "include/cpp-sort/fixed/low_comparisons_sorter.h:1-99"]}
{"id": "C105", "title": "Documented move weights of low_moves_sorter", "statement": "The total number of moves that low_moves_sorter<N> makes to sort all the permutations of N different elements is the number in the documentation, for N from 0 to 13. False for N = 2: the documentation says 2, and the only exchange takes 3 moves. True for the other sizes; for every N from 5 on, without upper bound, the total is N (N - 1) times the total for N - 2, plus (N - 2)! times 3 (2 (N - 1)^2 - 1).", "quantifier": "all strict weak orders, all sets of N different elements, all their permutations, everywhere in memory, every N", "why_tests_cant": "13! permutations of 13 elements are 6 billion runs, and the sizes have no bound; no test counts the moves of the fixed-size sorters.", "anchors": ["docs/Fixed-size-sorters.md:55-76", "docs/Metrics.md:52", "include/cpp-sort/fixed/low_moves_sorter.h:35-89", "include/cpp-sort/detail/low_moves/sort2.h:1-40", "include/cpp-sort/detail/low_moves/sort4.h:35-47"]}
{"id": "C106", "title": "Documented comparison weights of low_comparisons_sorter", "statement": "The total number of comparisons that low_comparisons_sorter<N> makes to sort all the permutations of N different elements is the number in the documentation (0, 0, 2, 16, 112, 832, 6912, ...), for every N from 0 to 13.", "quantifier": "all strict weak orders, all sets of N different elements, all their permutations, everywhere in memory, every specialization", "why_tests_cant": "13! permutations of 13 elements are 6 billion runs of a body that can make 44 or more comparisons; the figures of the documentation come from a tool outside the library and no test recomputes them when a body changes.", "anchors": ["docs/Fixed-size-sorters.md:19-40", "include/cpp-sort/detail/low_comparisons/sort5.h:18-84", "include/cpp-sort/detail/low_comparisons/sort9.h:18-556", "include/cpp-sort/detail/low_comparisons/sort12.h:13-94", "include/cpp-sort/detail/low_comparisons/sort13.h:1-103"]}
{"id": "C107", "title": "Optimality of low_comparisons_sorter", "statement": "The documentation says that low_comparisons_sorter<N> is optimal from N = 0 through 8 with regard to the comparison weight: no other sequence of comparisons, moves and exchanges that sorts N elements takes fewer comparisons in total over all the permutations. True from 0 through 5. False for 6, where 6896 comparisons are possible and the fewest, instead of 6912. False for 7 and 8: sorting five elements and then merging the two others, put in order, into them takes 62544 comparisons instead of 62784, and 621312 instead of 623232, without more comparisons in the worst case. In the worst case no such program takes fewer comparisons from N = 0 through 9.", "quantifier": "all programs made of comparisons, moves and exchanges of positions, all strict weak orders, all sets of N different elements; the lower bound for every N", "why_tests_cant": "The statement quantifies over all programs; a test can only compare the sorter with the algorithms that somebody wrote.", "anchors": ["docs/Fixed-size-sorters.md:40", "docs/Fixed-size-sorters.md:19-40", "include/cpp-sort/detail/low_comparisons/sort5.h:18-84", "include/cpp-sort/detail/low_comparisons/sort7.h:1-34", "include/cpp-sort/detail/low_comparisons/sort8.h:13-30"]}
{"id": "C108", "title": "merge_insertion_sorter against low_comparisons_sorter", "statement": "The documentation says that merge_insertion_sort performs fewer comparisons on average than some specializations of low_comparisons_sorter. It does for 12 elements: over all the permutations, wherever they are in memory, the total of merge_insertion_sorter is smaller than that of low_comparisons_sorter<12>.", "quantifier": "all strict weak orders, all sets of 12 different elements, all their permutations, all memories", "why_tests_cant": "An average over 479 million permutations is not measured by a test.", "anchors": ["docs/Fixed-size-sorters.md:40", "include/cpp-sort/detail/merge_insertion_sort.h:220-420", "include/cpp-sort/detail/low_comparisons/sort12.h:13-94"]}
{"id": "C109", "title": "sorting_network_sorter is size-optimal", "statement": "No sequence of compare-exchanges of positions of the range that sorts every range of N elements is shorter than the network of sorting_network_sorter<N> (docs/Fixed-size-sorters.md, line 143). In general, such a sequence has at least the sum of ceil(log2 k), k = 1..N, comparators, and one more from 5 elements on.", "quantifier": "for every N, every list of comparators, in either direction, every strict weak ordering that tells two values apart", "why_tests_cant": "a claim about all the networks that could exist: running the library's own says nothing about the others", "anchors": ["include/cpp-sort/fixed/sorting_network_sorter.h:27-158", "include/cpp-sort/utility/sorting_networks.h:39-54", "docs/Fixed-size-sorters.md:143-159"]}
