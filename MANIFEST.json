{
 "claims": [
  {
   "property": "C01",
   "status": "proved",
   "theorems": [
    "Poplar.Props.C01_map_is_dictionary",
    "Poplar.Props.C01_find_last_written",
    "Poplar.Props.C01_reserved",
    "Poplar.Props.C01_unreserved",
    "Poplar.Props.C01_room"
   ],
   "note": "All six aliases, every MaxFactor (Params.maxFactor, 90 in poplar.hpp), Dsp1Bits 1..16 and AuxCht ValBits 1..11 (4 and 7 in poplar.hpp). The number of trie nodes is bounded by nodesFor = sum over the distinct keys of 1 + (|k|-1)/Lambda. For the two compact aliases the node limit up to which success is guaranteed is min(width limit, 80% of the capacity reserved by the constructor, at least 2^16), or the width limit alone if MaxFactor is at most 80; beyond it the theorem says correct answer or limit fault."
  },
  {
   "property": "C02",
   "status": "proved",
   "theorems": [
    "Poplar.Props.C02_new_key_zero",
    "Poplar.Props.C02_old_key_keeps_value",
    "Poplar.Props.C02_old_key_changes_nothing"
   ],
   "note": "All six aliases, every MaxFactor (Params.maxFactor, 90 in poplar.hpp), Dsp1Bits 1..16 and AuxCht ValBits 1..11 (4 and 7 in poplar.hpp). The number of trie nodes is bounded by nodesFor = sum over the distinct keys of 1 + (|k|-1)/Lambda. For the two compact aliases the node limit up to which success is guaranteed is min(width limit, 80% of the capacity reserved by the constructor, at least 2^16), or the width limit alone if MaxFactor is at most 80; beyond it the theorem says correct answer or limit fault."
  },
  {
   "property": "C03",
   "status": "proved",
   "theorems": [
    "Poplar.Props.C03_no_crosstalk"
   ],
   "note": "All six aliases, every MaxFactor (Params.maxFactor, 90 in poplar.hpp), Dsp1Bits 1..16 and AuxCht ValBits 1..11 (4 and 7 in poplar.hpp). The number of trie nodes is bounded by nodesFor = sum over the distinct keys of 1 + (|k|-1)/Lambda. For the two compact aliases the node limit up to which success is guaranteed is min(width limit, 80% of the capacity reserved by the constructor, at least 2^16), or the width limit alone if MaxFactor is at most 80; beyond it the theorem says correct answer or limit fault."
  },
  {
   "property": "C04",
   "status": "proved",
   "theorems": [
    "Poplar.Props.C04_size_counts_distinct"
   ],
   "note": "All six aliases, every MaxFactor (Params.maxFactor, 90 in poplar.hpp), Dsp1Bits 1..16 and AuxCht ValBits 1..11 (4 and 7 in poplar.hpp). The number of trie nodes is bounded by nodesFor = sum over the distinct keys of 1 + (|k|-1)/Lambda. For the two compact aliases the node limit up to which success is guaranteed is min(width limit, 80% of the capacity reserved by the constructor, at least 2^16), or the width limit alone if MaxFactor is at most 80; beyond it the theorem says correct answer or limit fault."
  },
  {
   "property": "C05",
   "status": "proved",
   "theorems": [
    "Poplar.Props.C05_order_irrelevant"
   ],
   "note": "All six aliases, every MaxFactor (Params.maxFactor, 90 in poplar.hpp), Dsp1Bits 1..16 and AuxCht ValBits 1..11 (4 and 7 in poplar.hpp). The number of trie nodes is bounded by nodesFor = sum over the distinct keys of 1 + (|k|-1)/Lambda. For the two compact aliases the node limit up to which success is guaranteed is min(width limit, 80% of the capacity reserved by the constructor, at least 2^16), or the width limit alone if MaxFactor is at most 80; beyond it the theorem says correct answer or limit fault."
  },
  {
   "property": "C06",
   "status": "proved",
   "theorems": [
    "Poplar.Props.C06_configurations_agree"
   ],
   "note": "All six aliases, every MaxFactor (Params.maxFactor, 90 in poplar.hpp), Dsp1Bits 1..16 and AuxCht ValBits 1..11 (4 and 7 in poplar.hpp). The number of trie nodes is bounded by nodesFor = sum over the distinct keys of 1 + (|k|-1)/Lambda. For the two compact aliases the node limit up to which success is guaranteed is min(width limit, 80% of the capacity reserved by the constructor, at least 2^16), or the width limit alone if MaxFactor is at most 80; beyond it the theorem says correct answer or limit fault."
  },
  {
   "property": "C07",
   "status": "proved",
   "theorems": [
    "Poplar.Props.C07_no_undefined_behaviour",
    "Poplar.Props.C07_only_limit_faults",
    "Poplar.Props.C07_small_alphabet_supported"
   ],
   "note": "All six aliases, every MaxFactor (Params.maxFactor, 90 in poplar.hpp), Dsp1Bits 1..16 and AuxCht ValBits 1..11 (4 and 7 in poplar.hpp). The number of trie nodes is bounded by nodesFor = sum over the distinct keys of 1 + (|k|-1)/Lambda. For the two compact aliases the node limit up to which success is guaranteed is min(width limit, 80% of the capacity reserved by the constructor, at least 2^16), or the width limit alone if MaxFactor is at most 80; beyond it the theorem says correct answer or limit fault."
  },
  {
   "property": "C08",
   "status": "proved",
   "theorems": [
    "Poplar.Props.C08_malformed_rejected",
    "Poplar.Props.C08_wellformed_accepted"
   ],
   "note": "All six aliases, every MaxFactor (Params.maxFactor, 90 in poplar.hpp), Dsp1Bits 1..16 and AuxCht ValBits 1..11 (4 and 7 in poplar.hpp). The number of trie nodes is bounded by nodesFor = sum over the distinct keys of 1 + (|k|-1)/Lambda. For the two compact aliases the node limit up to which success is guaranteed is min(width limit, 80% of the capacity reserved by the constructor, at least 2^16), or the width limit alone if MaxFactor is at most 80; beyond it the theorem says correct answer or limit fault."
  },
  {
   "property": "C09",
   "status": "proved",
   "theorems": [
    "Poplar.Props.C09_bad_lambda",
    "Poplar.Props.C09_good_lambda",
    "Poplar.Props.C09_too_wide"
   ],
   "note": "All six aliases, every MaxFactor (Params.maxFactor, 90 in poplar.hpp), Dsp1Bits 1..16 and AuxCht ValBits 1..11 (4 and 7 in poplar.hpp). The number of trie nodes is bounded by nodesFor = sum over the distinct keys of 1 + (|k|-1)/Lambda. For the two compact aliases the node limit up to which success is guaranteed is min(width limit, 80% of the capacity reserved by the constructor, at least 2^16), or the width limit alone if MaxFactor is at most 80; beyond it the theorem says correct answer or limit fault."
  },
  {
   "property": "C10",
   "status": "proved",
   "theorems": [
    "Poplar.Props.C10_default_is_empty",
    "Poplar.Props.C10_first_update",
    "Poplar.Props.C10_default_like_explicit"
   ],
   "note": "All six aliases, every MaxFactor (Params.maxFactor, 90 in poplar.hpp), Dsp1Bits 1..16 and AuxCht ValBits 1..11 (4 and 7 in poplar.hpp). The number of trie nodes is bounded by nodesFor = sum over the distinct keys of 1 + (|k|-1)/Lambda. For the two compact aliases the node limit up to which success is guaranteed is min(width limit, 80% of the capacity reserved by the constructor, at least 2^16), or the width limit alone if MaxFactor is at most 80; beyond it the theorem says correct answer or limit fault."
  },
  {
   "property": "C11",
   "status": "proved",
   "theorems": [
    "Poplar.Props.C11_exhaustion_keeps_contents"
   ],
   "note": "All six aliases, every MaxFactor (Params.maxFactor, 90 in poplar.hpp), Dsp1Bits 1..16 and AuxCht ValBits 1..11 (4 and 7 in poplar.hpp). The number of trie nodes is bounded by nodesFor = sum over the distinct keys of 1 + (|k|-1)/Lambda. For the two compact aliases the node limit up to which success is guaranteed is min(width limit, 80% of the capacity reserved by the constructor, at least 2^16), or the width limit alone if MaxFactor is at most 80; beyond it the theorem says correct answer or limit fault."
  },
  {
   "property": "C12",
   "status": "proved",
   "theorems": [
    "Poplar.Props.C12_small_alphabet_never_throws",
    "Poplar.Props.C12_utf8"
   ],
   "note": "All six aliases, every MaxFactor (Params.maxFactor, 90 in poplar.hpp), Dsp1Bits 1..16 and AuxCht ValBits 1..11 (4 and 7 in poplar.hpp). The number of trie nodes is bounded by nodesFor = sum over the distinct keys of 1 + (|k|-1)/Lambda. For the two compact aliases the node limit up to which success is guaranteed is min(width limit, 80% of the capacity reserved by the constructor, at least 2^16), or the width limit alone if MaxFactor is at most 80; beyond it the theorem says correct answer or limit fault."
  },
  {
   "property": "C13",
   "status": "proved",
   "theorems": [
    "Poplar.Props.C13_never_throws_again",
    "Poplar.Props.C13_lost_key",
    "Poplar.Props.C13_lost_key_long",
    "Poplar.Props.C13_debug_abort"
   ],
   "note": "first update needing the last free byte value after the exception: exact for keys not longer than lambda (C13_lost_key), exact or fault for longer keys (C13_lost_key_long); with assertions it aborts (C13_debug_abort). No later update throws, for every continuation (C13_never_throws_again). All six aliases, every MaxFactor (Params.maxFactor, 90 in poplar.hpp), Dsp1Bits 1..16 and AuxCht ValBits 1..11 (4 and 7 in poplar.hpp). The number of trie nodes is bounded by nodesFor = sum over the distinct keys of 1 + (|k|-1)/Lambda. For the two compact aliases the node limit up to which success is guaranteed is min(width limit, 80% of the capacity reserved by the constructor, at least 2^16), or the width limit alone if MaxFactor is at most 80; beyond it the theorem says correct answer or limit fault."
  },
  {
   "property": "C14",
   "status": "proved",
   "theorems": [
    "Poplar.Props.C14_prefix_found",
    "Poplar.Props.C14_extension_out_of_bounds",
    "Poplar.Props.C14_extension_found",
    "Poplar.Props.C14_prefix_out_of_bounds",
    "Poplar.Props.C14_dictionary_law_false"
   ],
   "note": "All six aliases, every valid parameter set and initial capacity, all pairs of keys of the stated shape (not only literals)."
  },
  {
   "property": "C15",
   "status": "proved",
   "theorems": [
    "Poplar.Props.C15_pointers_stable",
    "Poplar.Props.C15_pointers_stable_any",
    "Poplar.Props.C15_hypotheses_met"
   ],
   "note": ""
  },
  {
   "property": "C16",
   "status": "proved",
   "theorems": [
    "Poplar.Props.C16_bonsai_most_dangle",
    "Poplar.Props.C16_bonsai_expand",
    "Poplar.Props.C16_fkhash_dangles"
   ],
   "note": "a dangling pointer is one whose dereference accesses released memory in the model (Fault.oob)"
  },
  {
   "property": "C17",
   "status": "proved",
   "theorems": [
    "Poplar.Props.C17_capacity",
    "Poplar.Props.C17_capacity_monotone",
    "Poplar.Props.C17_capacity_needed",
    "Poplar.Props.C17_keys_le_nodes",
    "Poplar.Props.C17_counters",
    "Poplar.Props.C17_nodes_le_bytes",
    "Poplar.Props.C17_nodes_le",
    "Poplar.Props.C17_max_size_double",
    "Poplar.Props.C17_max_size_double_pow"
   ],
   "note": "All six aliases, every MaxFactor (Params.maxFactor, 90 in poplar.hpp), Dsp1Bits 1..16 and AuxCht ValBits 1..11 (4 and 7 in poplar.hpp). The number of trie nodes is bounded by nodesFor = sum over the distinct keys of 1 + (|k|-1)/Lambda. For the two compact aliases the node limit up to which success is guaranteed is min(width limit, 80% of the capacity reserved by the constructor, at least 2^16), or the width limit alone if MaxFactor is at most 80; beyond it the theorem says correct answer or limit fault."
  },
  {
   "property": "C18",
   "status": "proved",
   "theorems": [
    "Poplar.Props.C18_split_mix_bijection",
    "Poplar.Props.C18_split_mix_domain"
   ],
   "note": ""
  },
  {
   "property": "C19",
   "status": "proved",
   "theorems": [
    "Poplar.Props.C19_vbyte",
    "Poplar.Props.C19_vbyte_size_minimal"
   ],
   "note": ""
  },
  {
   "property": "C20",
   "status": "proved",
   "theorems": [
    "Poplar.Props.C20_compact_vector_is_array",
    "Poplar.Props.C20_compact_vector_init"
   ],
   "note": ""
  },
  {
   "property": "C21",
   "status": "proved",
   "theorems": [
    "Poplar.Props.C21_bit_vector",
    "Poplar.Props.C21_get_bits_64"
   ],
   "note": ""
  },
  {
   "property": "C22",
   "status": "proved",
   "theorems": [
    "Poplar.Props.C22_standard_hash_table"
   ],
   "note": ""
  },
  {
   "property": "C23",
   "status": "proved",
   "theorems": [
    "Poplar.Props.C23_compact_hash_table"
   ],
   "note": ""
  },
  {
   "property": "C24",
   "status": "proved",
   "theorems": [
    "Poplar.Props.C24_no_failure",
    "Poplar.Props.C24_search",
    "Poplar.Props.C24_add",
    "Poplar.Props.C24_capacity"
   ],
   "note": "All four tries, any template arguments meeting TrieClass.Valid. The two compact tries have a guaranteed-success node limit as for the maps; beyond it: correct or limit fault."
  },
  {
   "property": "C25",
   "status": "proved",
   "theorems": [
    "Poplar.Props.C25_expand"
   ],
   "note": "All four tries, any template arguments meeting TrieClass.Valid. The two compact tries have a guaranteed-success node limit as for the maps; beyond it: correct or limit fault. Requires capacity bits + 1 + symb_bits < 64 (otherwise the trie cannot be constructed)."
  },
  {
   "property": "C26",
   "status": "proved",
   "theorems": [
    "Poplar.Props.C26_parent_plain",
    "Poplar.Props.C26_parent_compact"
   ],
   "note": "All four tries, any template arguments meeting TrieClass.Valid. The two compact tries have a guaranteed-success node limit as for the maps; beyond it: correct or limit fault."
  },
  {
   "property": "C27",
   "status": "proved",
   "theorems": [
    "Poplar.Props.C27_dense_ids"
   ],
   "note": "All four tries, any template arguments meeting TrieClass.Valid. The two compact tries have a guaranteed-success node limit as for the maps; beyond it: correct or limit fault."
  },
  {
   "property": "C28",
   "status": "proved",
   "theorems": [
    "Poplar.Props.C28_compare"
   ],
   "note": "All four node label maps, histories of insert/expand/write; the empty rest of a key is only compared with an empty label, as map does (stated in C28)"
  },
  {
   "property": "C29",
   "status": "proved",
   "theorems": [
    "Poplar.Props.C29_popcnt",
    "Poplar.Props.C29_popcnt_masked",
    "Poplar.Props.C29_msb",
    "Poplar.Props.C29_ceil_log2",
    "Poplar.Props.C29_words_for",
    "Poplar.Props.C29_bits_to_bytes",
    "Poplar.Props.C29_select",
    "Poplar.Props.C29_get_set_bit",
    "Poplar.Props.C29_sse"
   ],
   "note": "portable code paths, and the __SSE4_2__ branches (C29_sse), where the functions of the compiler are modelled by their documented meaning"
  },
  {
   "property": "C30",
   "status": "proved",
   "theorems": [
    "Poplar.Props.C30_debug_assertion",
    "Poplar.Props.C30_release_correct"
   ],
   "note": "both aliases that use plain_fkhash_trie; All six aliases, every MaxFactor (Params.maxFactor, 90 in poplar.hpp), Dsp1Bits 1..16 and AuxCht ValBits 1..11 (4 and 7 in poplar.hpp). The number of trie nodes is bounded by nodesFor = sum over the distinct keys of 1 + (|k|-1)/Lambda. For the two compact aliases the node limit up to which success is guaranteed is min(width limit, 80% of the capacity reserved by the constructor, at least 2^16), or the width limit alone if MaxFactor is at most 80; beyond it the theorem says correct answer or limit fault."
  },
  {
   "property": "C31",
   "status": "proved",
   "theorems": [
    "Poplar.Props.C31_clone"
   ],
   "note": ""
  },
  {
   "property": "C32",
   "status": "proved",
   "theorems": [
    "Poplar.Props.C32_compact_hash_table_limit"
   ],
   "note": "capacity > universe is modelled as Fault.limit"
  },
  {
   "property": "C33",
   "status": "proved",
   "theorems": [
    "Poplar.Props.C33_reserved_key"
   ],
   "note": ""
  },
  {
   "property": "C34",
   "status": "proved",
   "theorems": [
    "Poplar.Props.C34_deletion_idiom",
    "Poplar.Props.C03_no_crosstalk"
   ],
   "note": "All six aliases, every MaxFactor (Params.maxFactor, 90 in poplar.hpp), Dsp1Bits 1..16 and AuxCht ValBits 1..11 (4 and 7 in poplar.hpp). The number of trie nodes is bounded by nodesFor = sum over the distinct keys of 1 + (|k|-1)/Lambda. For the two compact aliases the node limit up to which success is guaranteed is min(width limit, 80% of the capacity reserved by the constructor, at least 2^16), or the width limit alone if MaxFactor is at most 80; beyond it the theorem says correct answer or limit fault."
  },
  {
   "property": "C35",
   "status": "proved",
   "theorems": [
    "Poplar.Props.C35_resize",
    "Poplar.Props.C35_stale_exact",
    "Poplar.Props.C35_shrink_grow_stale",
    "Poplar.Props.C20_compact_vector_is_array"
   ],
   "note": "histories with resize in both directions: C35_resize; what dropped elements read as after one shrink and grow, exactly: C35_stale_exact; an instance that is not zero: C35_shrink_grow_stale; growing histories: C20_compact_vector_is_array"
  },
  {
   "property": "C36",
   "status": "proved",
   "theorems": [
    "Poplar.Props.C36_exact",
    "Poplar.Props.C36_throws_iff"
   ],
   "note": "All six aliases, every MaxFactor (Params.maxFactor, 90 in poplar.hpp), Dsp1Bits 1..16 and AuxCht ValBits 1..11 (4 and 7 in poplar.hpp). The number of trie nodes is bounded by nodesFor = sum over the distinct keys of 1 + (|k|-1)/Lambda. For the two compact aliases the node limit up to which success is guaranteed is min(width limit, 80% of the capacity reserved by the constructor, at least 2^16), or the width limit alone if MaxFactor is at most 80; beyond it the theorem says correct answer or limit fault."
  },
  {
   "property": "C37",
   "status": "proved",
   "theorems": [
    "Poplar.Props.C37_moved_from",
    "Poplar.Props.C37_moved_from_default",
    "Poplar.Props.C37_moved_from_empty",
    "Poplar.Props.C37_moved_from_trie",
    "Poplar.Props.C37_moved_from_vector",
    "Poplar.Props.C37_moved_from_sht",
    "Poplar.Props.C37_moved_from_cht"
   ],
   "note": "The defaulted member-wise moves are modelled (Model/Move.lean): vectors are emptied, integers and arrays kept."
  },
  {
   "property": "C38",
   "status": "proved",
   "theorems": [
    "Poplar.Props.C38_string_dictionary",
    "Poplar.Props.C38_c_strings",
    "Poplar.Props.C38_never_malformed"
   ],
   "note": "All six aliases, every MaxFactor (Params.maxFactor, 90 in poplar.hpp), Dsp1Bits 1..16 and AuxCht ValBits 1..11 (4 and 7 in poplar.hpp). The number of trie nodes is bounded by nodesFor = sum over the distinct keys of 1 + (|k|-1)/Lambda. For the two compact aliases the node limit up to which success is guaranteed is min(width limit, 80% of the capacity reserved by the constructor, at least 2^16), or the width limit alone if MaxFactor is at most 80; beyond it the theorem says correct answer or limit fault."
  },
  {
   "property": "C39",
   "status": "proved",
   "theorems": [
    "Poplar.Props.C39_no_leak",
    "Poplar.Props.C39_label_bytes"
   ],
   "note": "C39_no_leak holds for every operation sequence that returns, without assumptions on keys, alphabet or capacity. Heap blocks are tracked individually; releasing a block twice or touching a released block is a fault of the model. vector storage (self-managing) and the wrap-around of the 64-bit counter are not modelled."
  },
  {
   "property": "C40",
   "status": "proved",
   "theorems": [
    "Poplar.Props.C40_prefix_free",
    "Poplar.Props.C40_fixed_length",
    "Poplar.Props.C40_boundary"
   ],
   "note": "All history theorems (C01 to C07, C11 to C13, C15 to C17, C30, C34, C36, C37, C39) are proved for any prefix-free key set K; C strings are one instance, C40 spells out the others. All six aliases, every MaxFactor (Params.maxFactor, 90 in poplar.hpp), Dsp1Bits 1..16 and AuxCht ValBits 1..11 (4 and 7 in poplar.hpp). The number of trie nodes is bounded by nodesFor = sum over the distinct keys of 1 + (|k|-1)/Lambda. For the two compact aliases the node limit up to which success is guaranteed is min(width limit, 80% of the capacity reserved by the constructor, at least 2^16), or the width limit alone if MaxFactor is at most 80; beyond it the theorem says correct answer or limit fault."
  },
  {
   "property": "C41",
   "status": "proved",
   "theorems": [
    "Poplar.Props.C41_vigna_bijection",
    "Poplar.Props.C41_vigna_static_bijection"
   ],
   "note": "Any seed."
  },
  {
   "property": "C42",
   "status": "proved",
   "theorems": [
    "Poplar.Props.C42_num_resize",
    "Poplar.Props.C42_num_resize_log",
    "Poplar.Props.C42_rate_steps",
    "Poplar.Props.C42_label_lengths",
    "Poplar.Props.C42_label_count",
    "Poplar.Props.C42_sum_length",
    "Poplar.Props.C42_sum_length_order",
    "Poplar.Props.C42_rate_dsps",
    "Poplar.Props.C42_rate_dsps_nodes"
   ],
   "note": "rate_steps(), rate_dsp1st/2nd/3rd and ave_length are modelled as numerator and denominator, not the double."
  },
  {
   "property": "C43",
   "status": "proved",
   "theorems": [
    "Poplar.Props.C43_keys_survive",
    "Poplar.Props.C43_size",
    "Poplar.Props.C43_as_before_bytes",
    "Poplar.Props.C43_as_before",
    "Poplar.Props.C43_failed_key",
    "Poplar.Props.C43_failed_first",
    "Poplar.Props.C43_points",
    "Poplar.Props.C43_stuck",
    "Poplar.Props.C43_overwrites",
    "Poplar.Props.C43_points_complete",
    "Poplar.Props.C43_points_resize",
    "Poplar.Props.C43_points_ctor",
    "Poplar.Props.C43_labels_kept",
    "Poplar.Props.C43_labels_dummy",
    "Poplar.Props.C43_labels_shifted",
    "Poplar.Props.C43_labels_last"
   ],
   "note": "Exceptions to the survival of keys (excluded by hypothesis, and the second one proved to be real at the level of the label store): a failure between the expansion of a bonsai trie and of its label store; a failed insert into compact_bonsai_nlm. The allocations considered are listed in the header of Model/Crash.lean; later allocations of one expansion of a bonsai trie or of compact_bonsai_nlm are not."
  },
  {
   "property": "C44",
   "status": "proved",
   "theorems": [
    "Poplar.Props.C44_alloc_bytes",
    "Poplar.Props.C44_alloc_bytes_default",
    "Poplar.Props.C44_slots",
    "Poplar.Props.C44_label_bytes",
    "Poplar.Props.C44_label_bytes_exact"
   ],
   "note": "The capacities of vectors that grow by emplace_back are parameters; a vector given its size once is assumed to have that capacity. All six aliases, every MaxFactor (Params.maxFactor, 90 in poplar.hpp), Dsp1Bits 1..16 and AuxCht ValBits 1..11 (4 and 7 in poplar.hpp). The number of trie nodes is bounded by nodesFor = sum over the distinct keys of 1 + (|k|-1)/Lambda. For the two compact aliases the node limit up to which success is guaranteed is min(width limit, 80% of the capacity reserved by the constructor, at least 2^16), or the width limit alone if MaxFactor is at most 80; beyond it the theorem says correct answer or limit fault."
  },
  {
   "property": "C45",
   "status": "proved",
   "theorems": [
    "Poplar.Props.C45_find_lookups",
    "Poplar.Props.C45_update_lookups"
   ],
   "note": "Bounds the calls of find_child/add_child and compare; the slots probed by one call of find_child are not counted."
  },
  {
   "property": "C46",
   "status": "proved",
   "theorems": [
    "Poplar.Props.C46_offsets",
    "Poplar.Props.C46_first_offset",
    "Poplar.Props.C46_unaligned"
   ],
   "note": "Offsets after any history: plain maps. Compact maps: the first key (later labels of a chunk are packed behind it)."
  },
  {
   "property": "C47",
   "status": "proved",
   "theorems": [
    "Poplar.Props.C47_pointers_until_insertion_any",
    "Poplar.Props.C47_pointers_until_insertion"
   ],
   "note": "For histories that return (C01/C36 say when they do)."
  },
  {
   "property": "C48",
   "status": "proved",
   "theorems": [
    "Poplar.Props.C48_limit_is_real",
    "Poplar.Props.C48_limit_is_real_bonsai"
   ],
   "note": "Existence statements: the leaf keys (52453 and 52454) are numbers in Proof/FillData.lean and Proof/FillBData.lean, checked by kernel computation (Proof/FillCheck.lean, Proof/FillBCheck.lean); the rest is an induction over them."
  },
  {
   "property": "C49",
   "status": "proved",
   "theorems": [
    "Poplar.Props.C49_insert_search",
    "Poplar.Props.C49_map_test",
    "Poplar.Props.C49_map_test_lengths",
    "Poplar.Props.C49_sample",
    "Poplar.Props.C49_bench",
    "Poplar.Props.C49_bench_keys"
   ],
   "note": "Model/Programs.lean models the loops of map_test.cpp, sample.cpp and bench_maps.cpp statement by statement; printing, times, load_keys and gtest are not modelled."
  },
  {
   "property": "C50",
   "status": "proved",
   "theorems": [
    "Poplar.Props.C50_hash_trie_test",
    "Poplar.Props.C50_compact_hash_table_test",
    "Poplar.Props.C50_compact_hash_table_test_limit",
    "Poplar.Props.C50_bijective_hash_test",
    "Poplar.Props.C50_bit_vector_test",
    "Poplar.Props.C50_bit_vector_test_fails",
    "Poplar.Props.C50_get_bits_lt"
   ],
   "note": "Model/Tests.lean models the four test programs statement by statement, with the random or file input as argument. Test words_ex on the compact tries exceeds the number of nodes for which no table can overflow and is not covered; the other tests with their actual input are."
  },
  {
   "property": "C51",
   "status": "proved",
   "theorems": [
    "Poplar.Props.C51_threads_any",
    "Poplar.Props.C51_threads",
    "Poplar.Props.C51_pointers",
    "Poplar.Props.C51_byte_by_byte"
   ],
   "note": "Sequentially consistent interleavings of byte accesses; as no data race exists, the C++ memory model allows no other behaviour. Reads of the tables, codes and pointer arrays are not single steps: no operation considered writes them. No thread calls update."
  },
  {
   "property": "C52",
   "status": "proved",
   "theorems": [
    "Poplar.Props.C52_any_allocator",
    "Poplar.Props.C52_any_allocator_any",
    "Poplar.Props.C52_same_answers",
    "Poplar.Props.C52_blocks",
    "Poplar.Props.C52_label_bytes",
    "Poplar.Props.C52_pointers",
    "Poplar.Props.C52_raw_bytes",
    "Poplar.Props.C52_values_apart"
   ],
   "note": "Model/PhysHeap.lean: one flat memory of bytes at unbounded addresses. The blocks of labels and values live there; the vectors (tables, pointer arrays, the tail buffer of compact_fkhash_nlm) do not: no pointer into them is kept except value pointers into the tail buffer, which C16 covers. An allocation never fails (C43 covers that)."
  },
  {
   "property": "C53",
   "status": "proved",
   "theorems": [
    "Poplar.Props.C53_node_count",
    "Poplar.Props.C53_rate_steps",
    "Poplar.Props.C53_larger_lambda",
    "Poplar.Props.C53_keys_and_lambda"
   ],
   "note": "Histories over at most 253 byte values besides NUL (SmallAlphabet); with more, an insertion that is refused may leave step nodes, so the number then also depends on which insertions were tried."
  },
  {
   "property": "C54",
   "status": "proved",
   "theorems": [
    "Poplar.Props.C54_doublings_bonsai",
    "Poplar.Props.C54_doublings_fkhash",
    "Poplar.Props.C54_capacity_bonsai",
    "Poplar.Props.C54_capacity_fkhash",
    "Poplar.Props.C54_same_capacity",
    "Poplar.Props.C54_larger_lambda"
   ],
   "note": "For fkhash maps the exact load MaxFactor per cent is left open, and rightly so: add_child doubles a full table before it knows whether the child exists, so there the capacity also depends on whether a later call went through the trie to overwrite a value."
  }
 ]
}