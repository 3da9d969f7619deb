{"claims": [
 {"property": "C01", "status": "proved", "theorems": ["CppSort.C01_insertion_sorter"], "note": ""},
 {"property": "C02", "status": "proved", "theorems": ["CppSort.C02_selection_sorter"], "note": ""},
 {"property": "C03", "status": "proved", "theorems": ["CppSort.C03_heap_sorter"], "note": ""},
 {"property": "C04", "status": "proved", "theorems": ["CppSort.C04_d_ary_heap_sorter"], "note": ""},
 {"property": "C09", "status": "partial", "theorems": ["CppSort.C09_merge_sorter_partial", "CppSort.C09_merge_sorter_forward_partial", "CppSort.C09_merge_sorter_forward_false"], "note": "Proved for bidirectional and random-access iterators and every allocator. False for forward iterators with a partially granted buffer (recmerge_forward.h 117-120 passes n0 as the number of blind steps even when n1 < n0): C09_merge_sorter_forward_false is the counterexample; C09_merge_sorter_forward_partial covers allocators that grant all or nothing."},
 {"property": "C26", "status": "proved", "theorems": ["CppSort.C26_sorting_network_sorter", "CppSort.C26_index_pairs"], "note": "0-1 principle plus a kernel-evaluated checker over the complete tables."},
 {"property": "C64", "status": "proved", "theorems": ["CppSort.C64_network_counts"], "note": ""},
 {"property": "C27", "status": "proved", "theorems": ["CppSort.C27_merge_exchange_sorter", "CppSort.C27_merge_exchange_pairs"], "note": ""},
 {"property": "C28", "status": "proved", "theorems": ["CppSort.C28_odd_even_merge_sorter", "CppSort.C28_odd_even_merge_pairs"], "note": ""},
 {"property": "C53", "status": "proved", "theorems": ["CppSort.C53_total_less", "CppSort.C53_total_greater"], "note": ""},
 {"property": "C54", "status": "proved", "theorems": ["CppSort.C54_weak_less", "CppSort.C54_weak_greater", "CppSort.C54_builtin_not_weak"], "note": ""},
 {"property": "C55", "status": "partial", "theorems": ["CppSort.C55_natural_less_lexicographic_partial", "CppSort.C55_natural_less_numeric_partial", "CppSort.C55_natural_less_reads_past_end", "CppSort.C55_natural_less_not_numeric", "CppSort.C55_natural_less_zero"], "note": "Violated by the code: natural_less.h 62 runs to end1 instead of last1, reading past the end of the second string and comparing the rest character by character; line 57 ignores everything after a zero. Counterexamples proved; proved parts: first string without digits, and a common digit-free prefix followed by numbers."},
 {"property": "C56", "status": "proved", "theorems": ["CppSort.C56_case_insensitive_less"], "note": ""},
 {"property": "C57", "status": "proved", "theorems": ["CppSort.C57_callables"], "note": ""},
 {"property": "C66", "status": "partial", "theorems": ["CppSort.C66_swap_if_integers_partial", "CppSort.C66_swap_if_floats_partial", "CppSort.C66_swap_if_zeros_false", "CppSort.C66_swap_if_ranges_diverges"], "note": "Violated by the code: the std::ranges::less/greater overloads recurse forever; the floating point overloads duplicate a zero on (+0,-0). The rest is proved."},
 {"property": "C07", "status": "proved", "theorems": ["CppSort.C07_quick_sorter"], "note": ""},
 {"property": "C08", "status": "proved", "theorems": ["CppSort.C08_quick_merge_sorter", "CppSort.C08_adaptive_quickselect"], "note": ""},
 {"property": "C10", "status": "proved", "theorems": ["CppSort.C10_pdq_sorter"], "note": ""},
 {"property": "C35", "status": "proved", "theorems": ["CppSort.C35_list_insertion_sort"], "note": ""},
 {"property": "C36", "status": "proved", "theorems": ["CppSort.C36_list_selection_sort"], "note": ""},
 {"property": "C37", "status": "partial", "theorems": ["CppSort.C37_list_merge_sort_partial", "CppSort.C37_list_merge_sort_false"], "note": "Violated by the code: the left half is merged into the right half, which is not stable (negation proved for std::list and std::forward_list). Sortedness is proved."},
 {"property": "C38", "status": "proved", "theorems": ["CppSort.C38_list_mel_sort"], "note": ""},
 {"property": "C24", "status": "proved", "theorems": ["CppSort.C24_low_moves_sorter"], "note": "every N, by induction on N (steps of two); minmax_element modelled with its pair-wise loop"},
 {"property": "C25", "status": "proved", "theorems": ["CppSort.C25_low_comparisons_sorter", "CppSort.C25_low_comparisons_count"], "note": "sizes 0 to 13; the bodies are transcribed as decision programs and validated by a checker proved sound for every strict weak order"},
 {"property": "C39", "status": "proved", "theorems": ["CppSort.C39_stable_sorters_agree"], "note": "any two sorters satisfying the stable specification, on any memories"},
 {"property": "C40", "status": "proved", "theorems": ["CppSort.C40_projection_compare_strict_weak", "CppSort.C40_projection", "CppSort.C40_projection_stable"], "note": "projection_compare; overload resolution of sorter_facade is not modelled"},
 {"property": "C41", "status": "proved", "theorems": ["CppSort.C41_probe_inv", "CppSort.C41_inv_pairs", "CppSort.C41_inv_max_reached", "CppSort.C41_inv_zero"], "note": ""},
 {"property": "C42", "status": "proved", "theorems": ["CppSort.C42_probe_runs"], "note": ""},
 {"property": "C43", "status": "proved", "theorems": ["CppSort.C43_probe_dis"], "note": "allocating and in-place algorithm, with and without memory"},
 {"property": "C44", "status": "proved", "theorems": ["CppSort.C44_probe_rem"], "note": ""},
 {"property": "C45", "status": "proved", "theorems": ["CppSort.C45_probe_sus"], "note": ""},
 {"property": "C46", "status": "proved", "theorems": ["CppSort.C46_probe_enc"], "note": ""},
 {"property": "C47", "status": "proved", "theorems": ["CppSort.C47_probe_ham"], "note": ""},
 {"property": "C48", "status": "proved", "theorems": ["CppSort.C48_probe_max"], "note": ""},
 {"property": "C50", "status": "partial", "theorems": ["CppSort.C50_probe_osc_partial", "CppSort.C50_probe_osc_max_false", "CppSort.C50_probe_osc_max_one_false"], "note": "the value is proved for both algorithms, and the bound n(n-2)/2; the documented maximum is wrong for even sizes >= 4 and for size 1 (negations proved)"},
 {"property": "C51", "status": "proved", "theorems": ["CppSort.C51_probe_mono"], "note": ""},
 {"property": "C49", "status": "partial", "theorems": ["CppSort.C49_probe_exc_partial", "CppSort.C49_probe_exc_minimal_false"], "note": "sufficient and at most n-1 for every range, minimal without equivalent elements; not minimal on {2,2,1} (negation proved)"},
 {"property": "C52", "status": "partial", "theorems": ["CppSort.C52_probe_block_partial", "CppSort.C52_probe_block_sorted_false"], "note": "value, 0 on sorted ranges and bound proved without equivalent elements (bound always); a sorted range with a tie gives 2 (negation proved)"},
 {"property": "C29", "status": "proved", "theorems": ["CppSort.C29_make_stable", "CppSort.C29_stable_compare_strict_weak", "CppSort.C29_stable_adapter"], "note": "the comparison passed to the adapted sorter is stable_compare, which is defined from the original comparison on original elements"},
 {"property": "C30", "status": "proved", "theorems": ["CppSort.C30_indirect_adapter_sorts", "CppSort.C30_indirect_adapter_stable", "CppSort.C30_indirect_adapter_moves"], "note": "both implementations (random-access, and indiesort for the others)"},
 {"property": "C31", "status": "proved", "theorems": ["CppSort.C31_indirect_adapter_exception"], "note": ""},
 {"property": "C32", "status": "proved", "theorems": ["CppSort.C32_out_of_place_sorts", "CppSort.C32_out_of_place_stable"], "note": "release of the buffer: Transforms says that no cell outside of the range differs afterwards"},
 {"property": "C33", "status": "proved", "theorems": ["CppSort.C33_schwartz_adapter_sorts", "CppSort.C33_schwartz_adapter_stable", "CppSort.C33_schwartz_adapter_projects_once"], "note": ""},
 {"property": "C58", "status": "proved", "theorems": ["CppSort.C58_apply_permutation"], "note": ""},
 {"property": "C59", "status": "proved", "theorems": ["CppSort.C59_sorted_indices", "CppSort.C59_sorted_indices_stable", "CppSort.C59_sorted_iterators", "CppSort.C59_sorted_iterators_stable", "CppSort.C59_apply_sorted_indices"], "note": ""},
 {"property": "C34", "status": "proved", "theorems": ["CppSort.C34_hybrid_dispatch", "CppSort.C34_hybrid_no_sorter", "CppSort.C34_hybrid_flattening", "CppSort.C34_hybrid_category", "CppSort.C34_hybrid_always_stable", "CppSort.C34_hybrid_is_stable"], "note": ""},
 {"property": "C60", "status": "proved", "theorems": ["CppSort.C60_metric", "CppSort.C60_metric_exact"], "note": ""},
 {"property": "C65", "status": "proved", "theorems": ["CppSort.C65_insertion_sorter", "CppSort.C65_selection_sorter", "CppSort.C65_heap_sorter", "CppSort.C65_merge_sorter", "CppSort.C65_merge_sorter_forward"], "note": "merge_sorter: with the buffer granted, as documented"},
 {"property": "C19", "status": "proved", "theorems": ["CppSort.C19_drop_merge_adapter", "CppSort.C19_drop_merge_sorter"], "note": "reallocations of the vector of dropped elements are not modelled"},
 {"property": "C20", "status": "proved", "theorems": ["CppSort.C20_split_adapter", "CppSort.C20_split_sorter"], "note": ""},
 {"property": "C17", "status": "proved", "theorems": ["CppSort.C17_mel_sorter"], "note": "fixed_size_list is a list of values (node pool and links not modelled); the sqrt heuristic is arbitrary"},
 {"property": "C18", "status": "proved", "theorems": ["CppSort.C18_slab_sorter"], "note": "original_p * original_p is computed without overflow; fixed_size_list is a list of values"},
 {"property": "C67", "status": "proved", "theorems": ["CppSort.C67_stable_partition"], "note": ""},
 {"property": "C68", "status": "proved", "theorems": ["CppSort.C68_front_insert"], "note": "every specialization of front_inserter_n, by the same abstract interpreter as C25, with the tail sorted initially"},
 {"property": "C15", "status": "proved", "theorems": ["CppSort.C15_splay_sorter"], "note": "the tree is modelled by its links (parent, left, right), the rotations are proved on that representation"},
 {"property": "C05", "status": "proved", "theorems": ["CppSort.C05_poplar_sorter"], "note": "sift with its hole, relocate, make_poplar and the vector of poplars"},
 {"property": "C06", "status": "proved", "theorems": ["CppSort.C06_smooth_sorter"], "note": "for every length a 64 bits difference type represents; bitset of 92 bits and bounds of the table of Leonardo numbers included"},
 {"property": "C16", "status": "proved", "theorems": ["CppSort.C16_cartesian_tree_sorter"], "note": "links of the tree and priority queue of node pointers; the queue is a local memory whose comparison fails on moved-from values"},
 {"property": "C14", "status": "partial", "theorems": ["CppSort.C14_spin_sorter_partial", "CppSort.C14_spin_sorter_overrun", "CppSort.C14_spin_sorter_false"], "note": "the full property is false: merge_half runs off the end of ranges of an odd number of elements between 73 and 1023, with an even number of levels, whose second half is entirely smaller; every other range is sorted stably"},
 {"property": "C12", "status": "proved", "theorems": ["CppSort.C12_tim_sorter"], "note": "whole of timsort.h: runs, binary insertion, galloping, mergeLo/mergeHi with the buffer, the stack of runs"},
 {"property": "C13", "status": "proved", "theorems": ["CppSort.C13_adaptive_shivers_sorter"], "note": "same code as C12 with the other collapse rule"},
 {"property": "C21", "status": "partial", "theorems": ["CppSort.C21_verge_adapter_partial", "CppSort.C21_verge_adapter_bidirectional_partial", "CppSort.C21_verge_adapter_false"], "note": "the full property is false: merge_runs rotates the wrong range when a run of one element is merged with the next one; proved for every range without an element standing alone between two big runs, random-access and bidirectional, any fallback"},
 {"property": "C22", "status": "partial", "theorems": ["CppSort.C22_stable_verge_adapter_partial", "CppSort.C22_stable_verge_adapter_bidirectional_partial", "CppSort.C22_stable_verge_adapter_false"], "note": "same defect and same condition as C21; stability proved under the condition"},
 {"property": "C23", "status": "partial", "theorems": ["CppSort.C23_counting_sorter_partial", "CppSort.C23_counting_sorter_greater_partial", "CppSort.C23_counting_sorter_range_overflow", "CppSort.C23_counting_sorter_limit_overflow", "CppSort.C23_counting_sorter_false"], "note": "the full property is false: signed overflow near the limits of types at least as wide as int; proved for all built-in widths and both directions outside of these cases"},
 {"property": "C11", "status": "proved", "theorems": ["CppSort.C11_merge_insertion_sorter"], "note": "recursion on groups, chain of iterators, Jacobsthal cycles, cache"},
 {"property": "C69", "status": "partial", "theorems": ["CppSort.C69_merge_insertion_comparisons", "CppSort.C69_ford_johnson_partial", "CppSort.C69_ford_johnson_false"], "note": "the bound n log n is proved for all inputs; the Ford-Johnson bound is false from nine elements on (wrong sizes of the insertion cycles): proved up to eight elements, negation proved with nine"},
 {"property": "C63", "status": "partial", "theorems": ["CppSort.C63_order", "CppSort.C63_ska_sorter_partial", "CppSort.C63_ska_sorter_permutes", "CppSort.C63_char_order", "CppSort.C63_char_false", "CppSort.C63_ska_sorter_false", "CppSort.C63_zero_order", "CppSort.C63_zero_false", "CppSort.C63_list_pairs", "CppSort.C63_list_pairs_false", "CppSort.C63_list_bools"], "note": "the full property is false: negative characters, signed zeros inside a key, lists of pairs and lists of booleans; proved for all other key types and values, and for all ranges below 128 elements; termination, safety and permutation proved for all values of all types but lists of booleans"},
 {"property": "C61", "status": "partial", "theorems": ["CppSort.C61_grail_sorter_partial", "CppSort.C61_grail_sorter_default", "CppSort.C61_grail_sorter_fixed_partial", "CppSort.C61_grail_sorter_dynamic", "CppSort.C61_grail_sorter_false"], "note": "the full property is false: with a buffer of exactly one element, build_blocks overwrites an element that it has not saved; proved for every other size of the buffer (the default fixed_buffer<0> and the policies half, sqrt and identity included), negation proved with sixteen elements"},
 {"property": "C62", "status": "partial", "theorems": ["CppSort.C62_wiki_sorter_partial", "CppSort.C62_wiki_sorter_default_partial", "CppSort.C62_wiki_sorter_nobuffer", "CppSort.C62_wiki_sorter_false"], "note": "the full property is false: with the default buffer, the objects of the cache are destroyed twice if the type has a non-trivial destructor; proved for every buffer size if the destructor is trivial and for all types if the buffer has at most four elements (fixed_buffer<0> included), negation proved with fifteen elements"},
 {"property": "C70", "status": "partial", "theorems": ["CppSort.C70_integer_spread_sorter_partial", "CppSort.C70_integer_spread_sorter_small", "CppSort.C70_overflow", "CppSort.C70_wrap_overflow", "CppSort.C70_integer_spread_sorter_false"], "note": "the full property is false: for signed types of at least 32 bits, 1000 unsorted elements or more whose greatest difference does not fit the type make max - min overflow; proved for all the ranges of the other types, and for those types when the size is less than 1000 or the differences fit"},
 {"property": "C71", "status": "partial", "theorems": ["CppSort.C71_float_spread_sorter_partial", "CppSort.C71_overflow", "CppSort.C71_reversed", "CppSort.C71_float_spread_sorter_false"], "note": "the full property is false: the differences of the casted integers overflow, and negative doubles alone can be sorted in reverse order without undefined behaviour (unsigned(-div_min) truncates); proved for sizes below 1000 and when neither happens"},
 {"property": "C72", "status": "proved", "theorems": ["CppSort.C72_string_spread_sorter"], "note": "characters are numbers below 256^w, w = 1 or 2 bytes"},
 {"property": "C73", "status": "proved", "theorems": ["CppSort.C73_pdq_sorter", "CppSort.C73_merge_sorter", "CppSort.C73_drop_merge_adapter", "CppSort.C73_drop_merge_sorter", "CppSort.C73_split_adapter", "CppSort.C73_split_sorter", "CppSort.C73_d_ary_heap_sorter", "CppSort.C73_poplar_sorter", "CppSort.C73_smooth_sorter", "CppSort.C73_mel_sorter", "CppSort.C73_cartesian_tree_sorter", "CppSort.C73_list_mel_sort", "CppSort.C73_list_merge_sort"], "note": "comparisons only; the constants are those of the proof, not the best ones"},
 {"property": "C74", "status": "proved", "theorems": ["CppSort.C74_choice", "CppSort.C74_default_sorter"], "note": "the sort methods of containers are a parameter assumed to sort"},
 {"property": "C75", "status": "proved", "theorems": ["CppSort.C75_insertion_sorter", "CppSort.C75_tim_sorter", "CppSort.C75_adaptive_shivers_sorter", "CppSort.C75_drop_merge_adapter", "CppSort.C75_mel_sorter", "CppSort.C75_slab_sorter", "CppSort.C75_verge_adapter", "CppSort.C75_verge_adapter_bidirectional", "CppSort.C75_list_mel_sort", "CppSort.C75_splay_sorter", "CppSort.C75_cartesian_tree_sorter"], "note": "exact counts; sorters whose documented best case is n but that are not listed: C98 (pdq, quick), C100 (smooth, spin, split); wiki_sorter is not covered"},
 {"property": "C76", "status": "partial", "theorems": ["CppSort.C76_list_insertion_sort_partial", "CppSort.C76_list_insertion_sort_best_case_false"], "note": "false as documented: the list algorithms search every place by dichotomy, so no family of lists is sorted in a linear number of comparisons; the n log n upper bound is proved"},
 {"property": "C77", "status": "proved", "theorems": ["CppSort.C77_inv", "CppSort.C77_runs", "CppSort.C77_dis", "CppSort.C77_rem", "CppSort.C77_sus", "CppSort.C77_max"], "note": "the element types are taken non-empty (Inhabited)"},
 {"property": "C78", "status": "partial", "theorems": ["CppSort.C78_enc_partial", "CppSort.C78_mono_partial", "CppSort.C78_block_partial", "CppSort.C78_osc_partial", "CppSort.C78_exc_partial", "CppSort.C78_ham_partial", "CppSort.C78_enc_cat_false", "CppSort.C78_mono_cat_false", "CppSort.C78_block_cat_false", "CppSort.C78_osc_cat_false", "CppSort.C78_osc_cons_false", "CppSort.C78_exc_sub_false", "CppSort.C78_ham_sub_false", "CppSort.C78_ham_cons_false"], "note": "false as stated: block, enc, mono and osc violate the fourth property, exc and ham the third, ham and osc the fifth (witnesses of at most six elements); every other property is proved for each of the six probes"},
 {"property": "C79", "status": "proved", "theorems": ["CppSort.C79_probe_runs", "CppSort.C79_probe_mono", "CppSort.C79_probe_dis_linear", "CppSort.C79_probe_dis", "CppSort.C79_probe_rem", "CppSort.C79_probe_sus", "CppSort.C79_probe_enc", "CppSort.C79_probe_inv", "CppSort.C79_probe_ham", "CppSort.C79_probe_max", "CppSort.C79_probe_exc", "CppSort.C79_probe_block", "CppSort.C79_probe_osc", "CppSort.C79_probe_osc_inplace"], "note": "explicit constants; comparisons only, the cost of advancing non-random-access iterators is not counted"},
 {"property": "C80", "status": "proved", "theorems": ["CppSort.Facade.C80_order", "CppSort.Facade.C80_byPosition"], "note": "model of overload resolution; refined_t<T, F> taken to be F"},
 {"property": "C81", "status": "partial", "theorems": ["CppSort.Facade.C81_unambiguous_partial", "CppSort.Facade.C81_unambiguous_false", "CppSort.Facade.C81_two_functions_false"], "note": "false as stated: an implementation with a single operator()(Iterable&, Compare = {}, Projection = {}) makes calls with a projection ambiguous; proved for two iterators, and for iterables when the implementation accepts two iterators whenever it accepts an iterable"},
 {"property": "C82", "status": "partial", "theorems": ["CppSort.Facade.C82_comparison_partial", "CppSort.Facade.C82_comparison_projection_partial", "CppSort.Facade.C82_no_defaults_false", "CppSort.Facade.C82_unconstrained_false"], "note": "false as stated: without default arguments nothing completes a comparison with utility::identity, and the unconstrained example of the documentation gets projections as comparisons; proved for implementations with default arguments"},
 {"property": "C83", "status": "partial", "theorems": ["CppSort.Facade.C83_iterable_partial", "CppSort.Facade.C83_iterable_false", "CppSort.Facade.C83_baked_false"], "note": "false as stated (two witnesses); proved when the implementation accepts two iterators whenever it accepts an iterable, for overloads that take the functions of the call"},
 {"property": "C84", "status": "partial", "theorems": ["CppSort.Facade.C84_one", "CppSort.Facade.C84_both_partial", "CppSort.Facade.C84_both_false", "CppSort.Facade.C84_projection"], "note": "false for std::ranges::less with utility::identity, every other combination is proved"},
 {"property": "C85", "status": "partial", "theorems": ["CppSort.Bitops.C85_hyperfloor", "CppSort.Bitops.C85_poplar_size", "CppSort.Bitops.C85_hyperceil_partial", "CppSort.Bitops.C85_hyperceil_false", "CppSort.Bitops.C85_log2_generic", "CppSort.Bitops.C85_log2_clz", "CppSort.Bitops.C85_ceil_log2", "CppSort.Bitops.C85_half", "CppSort.Bitops.C85_has_single_bit", "CppSort.Bitops.C85_rotl"], "note": "everything is proved except hyperceil above 2^(w-1), which wraps to 0 (proved); no caller uses hyperceil"},
 {"property": "C86", "status": "partial", "theorems": ["CppSort.Bitops.C86_range_partial", "CppSort.Bitops.C86_empty_partial", "CppSort.Bitops.C86_empty_false", "CppSort.Bitops.C86_index_range_partial", "CppSort.Bitops.C86_index_range_false"], "note": "proved for distinct bounds and for steps 0 and 1; false for equal bounds and a step of at least 2: the range is not empty"},
 {"property": "C87", "status": "proved", "theorems": ["CppSort.NodeList.C87_list_init", "CppSort.NodeList.C87_insert", "CppSort.NodeList.C87_push_back", "CppSort.NodeList.C87_push_front", "CppSort.NodeList.C87_extract", "CppSort.NodeList.C87_extract_front", "CppSort.NodeList.C87_extract_back", "CppSort.NodeList.C87_splice_range", "CppSort.NodeList.C87_splice", "CppSort.NodeList.C87_merge", "CppSort.NodeList.C87_merge_values", "CppSort.NodeList.C87_move_ctor", "CppSort.NodeList.C87_move_assign", "CppSort.NodeList.C87_merge_unsafe", "CppSort.NodeList.C87_merge_unsafe_false"], "note": "World is an invariant of the memory: each theorem runs one operation from any state in it; after merge_unsafe the list is not linked backwards (negation C87_merge_unsafe_false), as the code says; move assignment is to an empty list, the only case the library uses"},
 {"property": "C88", "status": "proved", "theorems": ["CppSort.NodeList.C88_pool_init", "CppSort.NodeList.C87_insert", "CppSort.NodeList.C88_destroy", "CppSort.NodeList.C88_reset"], "note": "reset_nodes(n) requires that the nodes from the n-th on have never been used, as merge_insertion guarantees; the buffer allocation itself is not modelled"},
 {"property": "C89", "status": "partial", "theorems": ["CppSort.C89_spin_sorter_partial", "CppSort.C89_spin_sorter_false"], "note": "false where the last merge runs off the end (the defect of C14); proved everywhere else, with the hypothesis of C14_spin_sorter_partial"},
 {"property": "C90", "status": "partial", "theorems": ["CppSort.C90_composition_partial", "CppSort.C90_is_stable_partial", "CppSort.C90_is_stable_random_partial", "CppSort.C90_is_always_stable_partial", "CppSort.C90_stable_t_partial", "CppSort.C90_stable_adapter_partial", "CppSort.C90_composition_false", "CppSort.C90_is_stable_false", "CppSort.C90_stable_t_false"], "note": "false as stated: parts that do not sort by themselves (C06, C09, C14, C21, C61, C62) do not in a composition; and is_stable of out_of_place_adapter and indirect_adapter asks for the stability of the adapted sorter with the iterators of the call, while it is called with random-access iterators, so out_of_place_adapter<hybrid_adapter<insertion_sorter, heap_sorter>> and its stable_t are not stable on lists although declared so; proved for the other parts, without a further condition for random-access iterators"},
 {"property": "C91", "status": "proved", "theorems": ["CppSort.C91_network_stable", "CppSort.C91_network_unstable", "CppSort.C91_is_always_stable_exact"], "note": ""},
 {"property": "C92", "status": "proved", "theorems": ["CppSort.C92_tim_sorter", "CppSort.C92_adaptive_shivers_sorter"], "note": "comparisons only; the constants are those of the proof, not the best ones"},
 {"property": "C93", "status": "proved", "theorems": ["CppSort.C93_verge_adapter", "CppSort.C93_verge_sorter"], "note": "comparisons only, random-access iterators; the constants are those of the proof, not the best ones"},
 {"property": "C94", "status": "partial", "theorems": ["CppSort.Facade.C94_unambiguous", "CppSort.Facade.C94_dedicated", "CppSort.Facade.C94_fallback", "CppSort.Facade.C94_order", "CppSort.Facade.C94_iterators_partial", "CppSort.Facade.C94_iterators_false", "CppSort.Facade.C94_is_stable", "CppSort.Facade.C94_list", "CppSort.Facade.C94_list_false", "CppSort.Facade.C94_list_is_stable"], "note": "model of overload resolution as for C80. False as stated: with iterators, a call with a comparison and a projection or with a temporary as the first iterator does not compile (C94_iterators_false); the specializations are ambiguous for a function that is both a comparison and a projection (C94_list_false), excluded by Clear in C94_list"},
 {"property": "C95", "status": "partial", "theorems": ["CppSort.C95_nth_element_random", "CppSort.C95_nth_element_small", "CppSort.C95_nth_element_partial", "CppSort.C95_nth_element_false"], "note": "proved for random-access iterators and, for all categories, up to 32 elements; false for forward and bidirectional iterators above (introselect.h 307 has > for >=), where the range is still cut at nth"},
 {"property": "C96", "status": "partial", "theorems": ["CppSort.C96_iter_median_rest_partial", "CppSort.C96_iter_median_5_partial", "CppSort.C96_iter_median_5_false", "CppSort.C96_median_of_medians_false"], "note": "proved for one to four elements; false for five: iter_median_5 returns the fourth or the fifth of five distinct elements, never the third; and median_of_medians may return the greatest of 165 elements"},
 {"property": "C97", "status": "proved", "theorems": ["CppSort.C97_splay_sorter"], "note": "amortized analysis with integer ranks, on the linked representation of the tree"},
 {"property": "C98", "status": "proved", "theorems": ["CppSort.C98_quick_sorter", "CppSort.C98_pdq_sorter"], "note": "bounds, not exact counts"},
 {"property": "C99", "status": "partial", "theorems": ["CppSort.C99_quick_merge_sorter_best_case_false", "CppSort.C99_quick_merge_sorter_partial"], "note": "false: every run on n elements makes at least of the order of n log n comparisons, whatever the range and the comparison; holds up to 32 elements for bidirectional and random-access iterators"},
 {"property": "C100", "status": "proved", "theorems": ["CppSort.C100_smooth_sorter", "CppSort.C100_spin_sorter", "CppSort.C100_split_adapter", "CppSort.C100_split_sorter"], "note": "bounds for smooth_sorter and for spin_sorter between 73 and 2049 elements, exact counts elsewhere"},
 {"property": "C101", "status": "proved", "theorems": ["CppSort.C101_insertion_sorter", "CppSort.C101_selection_sorter", "CppSort.C101_heap_sorter", "CppSort.C101_d_ary_heap_sorter", "CppSort.C101_poplar_sorter", "CppSort.C101_smooth_sorter", "CppSort.C101_pdq_sorter", "CppSort.C101_quick_sorter", "CppSort.C101_quick_merge_sorter", "CppSort.C101_grail_sorter_run", "CppSort.C101_grail_sorter", "CppSort.C101_grail_sorter_default", "CppSort.C101_wiki_sorter_run", "CppSort.C101_wiki_sorter", "CppSort.C101_wiki_sorter_default", "CppSort.C101_low_moves_sorter", "CppSort.C101_low_comparisons_sorter", "CppSort.C101_sorting_network_sorter", "CppSort.C101_merge_exchange_sorter", "CppSort.C101_odd_even_merge_sorter", "CppSort.C101_splay_sorter", "CppSort.C101_cartesian_tree_sorter", "CppSort.C101_spin_sorter"], "note": "counts the elements for which memory is requested in the whole run, the stack and arrays of iterators are not counted; grail_sorter and wiki_sorter where they sort (C61, C62)"},
 {"property": "C102", "status": "proved", "theorems": ["CppSort.C102_insertion_sorter", "CppSort.C102_selection_sorter", "CppSort.C102_heap_sorter", "CppSort.C102_d_ary_heap_sorter", "CppSort.C102_poplar_sorter", "CppSort.C102_smooth_sorter", "CppSort.C102_quick_sorter", "CppSort.C102_sorting_network_sorter", "CppSort.C102_merge_exchange_network_sorter", "CppSort.C102_odd_even_merge_network_sorter", "CppSort.C102_low_comparisons_sorter", "CppSort.C102_low_moves_sorter"], "note": "the comparison function must return and touch no element; smooth_sorter below 2^63 elements"},
 {"property": "C103", "status": "partial", "theorems": ["CppSort.C103_pdq_sorter_any_comparison_false", "CppSort.C103_pdq_sorter_partial"], "note": "false from 24 elements on, for every comparison true on all pairs of elements of the range; true below"},
 {"property": "C104", "status": "proved", "theorems": ["CppSort.C104_insertion_sorter", "CppSort.C104_selection_sorter", "CppSort.C104_heap_sorter", "CppSort.C104_d_ary_heap_sorter", "CppSort.C104_poplar_sorter", "CppSort.C104_smooth_sorter", "CppSort.C104_quick_sorter_forward", "CppSort.C104_quick_sorter", "CppSort.C104_sorting_network_sorter", "CppSort.C104_merge_exchange_network_sorter", "CppSort.C104_odd_even_merge_network_sorter", "CppSort.C104_low_comparisons_sorter", "CppSort.C104_low_moves_sorter", "CppSort.C104_insertion_sorter_loses"], "note": "the operations of the elements (moves, swaps) do not throw; smooth_sorter below 2^63 elements"},
 {"property": "C105", "status": "partial", "theorems": ["CppSort.C105_move_weight", "CppSort.C105_move_weight_recurrence", "CppSort.C105_documented_weights_partial", "CppSort.C105_documented_weight_of_two_false"], "note": "the documented weight of size 2 is wrong (2 instead of 3); the other documented weights and the recurrence for all sizes are proved"},
 {"property": "C106", "status": "proved", "theorems": ["CppSort.C106_documented_weights"], "note": "all fourteen specializations; the weights of sizes 2, 3, 5 and 6 and the last part of size 9 are evaluated by the kernel over all the orders, the others follow from lemmas about sorting and then inserting"},
 {"property": "C107", "status": "partial", "theorems": ["CppSort.C107_lower_bound", "CppSort.C107_optimal_partial", "CppSort.C107_six_partial", "CppSort.C107_worst_case_optimal", "CppSort.C107_optimal_six_seven_eight_false"], "note": "the documented claim is false for 6, 7 and 8 elements (refuted by explicit programs); proved from 0 through 5; C107_six_partial shows that the program for 6 elements is itself the best possible"},
 {"property": "C108", "status": "proved", "theorems": ["CppSort.C108_merge_insertion_fewer"], "note": "for 12 elements, the claim being that some specialization is beaten; each run takes at most 31 comparisons"},
 {"property": "C109", "status": "partial", "theorems": ["CppSort.C109_size_optimal_partial", "CppSort.C109_lower_bound"], "note": "Size-optimality proved up to 6 elements, among networks with comparators in either direction; the lower bound holds for every N (van Voorhis' bound, improved by one by an enumeration for 5 elements). Missing: the sizes 7 to 64, for which the bound is below the size of the library's network."}
]}
