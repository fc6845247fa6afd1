{"id": "C01", "title": "Map is a dictionary", "statement": "For each of the six map aliases, any sequence of find, update and write-through-the-returned-pointer calls on NUL-terminated keys without interior NUL gives exactly the results of an abstract dictionary from keys to values: find returns the last value written for the key, or nullptr if the key was never inserted.", "quantifier": "every operation history of every length, every set of keys of every length, every value size, every initial capacity and every power-of-two lambda (within the 64-bit width limits of the tables), every hash collision pattern", "why_tests_cant": "a test replays a fixed word list once; the dictionary law has to survive every interleaving of inserts, branch positions, step nodes, table expansions and collisions", "anchors": ["include/poplar/map.hpp: map::find, map::update", "include/poplar.hpp: plain_bonsai_map, semi_compact_bonsai_map, compact_bonsai_map, plain_fkhash_map, semi_compact_fkhash_map, compact_fkhash_map"]}
{"id": "C02", "title": "New keys start at zero, old keys keep their value", "statement": "update(key) on a key that is not registered returns a pointer to a zero value; update(key) on a registered key returns a pointer to the value stored last, and changes neither size() nor any value.", "quantifier": "every reachable map state and every valid key", "why_tests_cant": "depends on the entire history that produced the state", "anchors": ["include/poplar/map.hpp: map::find, map::update"]}
{"id": "C03", "title": "No cross-talk between keys", "statement": "An update or a write through the pointer returned for one key never changes what find returns for any other key, also when the update splits a label, adds step nodes or triggers an expansion.", "quantifier": "every reachable map state and every pair of distinct valid keys", "why_tests_cant": "the number of key pairs and states is unbounded; corruption would only show for special collision/expansion patterns", "anchors": ["include/poplar/map.hpp: map::find, map::update", "include/poplar/map.hpp: map::expand_if_needed_"]}
{"id": "C04", "title": "size() counts distinct keys", "statement": "size() equals the number of distinct keys for which update has returned a pointer.", "quantifier": "every operation history", "why_tests_cant": "needs every history, including repeated keys and failed updates", "anchors": ["include/poplar/map.hpp: map::size, map::update"]}
{"id": "C05", "title": "Insertion order is irrelevant", "statement": "Two histories that insert the same key/value pairs in different orders give maps with the same size() and the same answer to every find.", "quantifier": "every pair of permuted insertion histories of distinct keys", "why_tests_cant": "factorially many orders; the internal trie really is different for different orders", "anchors": ["include/poplar/map.hpp: map::find, map::update"]}
{"id": "C06", "title": "All aliases and all tuning parameters agree", "statement": "The six aliases, every power-of-two lambda, every chunk size (8, 16, 32, 64), every MaxFactor of the trie (1 to 99), every Dsp1Bits (1 to 16) and displacement value width (1 to 11) of the compact tries, and every initial capacity give the same observable answers to the same history.", "quantifier": "every history, every pair of configurations", "why_tests_cant": "differential testing samples histories and parameters", "anchors": ["include/poplar.hpp: plain_bonsai_map, semi_compact_bonsai_map, compact_bonsai_map, plain_fkhash_map, semi_compact_fkhash_map, compact_fkhash_map", "include/poplar/map.hpp: map::map"]}
{"id": "C07", "title": "No undefined behaviour and no hang", "statement": "find and update on valid keys never read or write outside an allocated block or table, never dereference a null label pointer, never fail an internal assertion and always terminate, as long as the documented size limits are respected.", "quantifier": "every history whose node count bound (1 + (|k|-1)/Lambda per distinct key) stays below the limit of the alias; all keys", "why_tests_cant": "memory errors and infinite probe loops depend on rare table states; sanitizers only see executed paths", "anchors": ["include/poplar/map.hpp: map::find, map::update", "include/poplar/plain_bonsai_trie.hpp: find_child, add_child, expand", "include/poplar/compact_bonsai_nlm.hpp"]}
{"id": "C08", "title": "Malformed keys are rejected without side effects", "statement": "find and update throw for an empty character range and for a range whose last byte is not NUL, and the map is unchanged.", "quantifier": "every map state, every malformed byte range", "why_tests_cant": "universal over states and byte strings", "anchors": ["include/poplar/map.hpp: map::find, map::update"]}
{"id": "C09", "title": "Constructor accepts exactly power-of-two lambdas", "statement": "map(capa_bits, lambda) throws iff lambda is not a power of two (0 included), apart from the table-width limit.", "quantifier": "every 64-bit lambda", "why_tests_cant": "2^64 values", "anchors": ["include/poplar/map.hpp: map::map", "include/poplar/basics.hpp: is_power2"]}
{"id": "C10", "title": "Default-constructed map is an empty dictionary", "statement": "A default-constructed map answers nullptr to every find, has size 0, and on its first update behaves exactly like map(0, 32).", "quantifier": "every key and every subsequent history", "why_tests_cant": "all continuations", "anchors": ["include/poplar/map.hpp: map::map, map::find, map::update"]}
{"id": "C11", "title": "Exception on alphabet exhaustion keeps contents", "statement": "update throws because of its byte-code table only when the keys seen so far contain at least 254 distinct non-NUL bytes; the throwing call leaves size() and the answer of every find unchanged.", "quantifier": "every history up to and including the first throwing update", "why_tests_cant": "requires constructing all alphabets and branch patterns", "anchors": ["include/poplar/map.hpp: map::update lines 168-172"]}
{"id": "C12", "title": "UTF-8 text never exhausts the alphabet", "statement": "If all keys are made of at most 253 distinct non-NUL byte values (for example any valid UTF-8 text), update never throws.", "quantifier": "every history over such an alphabet", "why_tests_cant": "all histories", "anchors": ["include/poplar/map.hpp: map::update lines 168-172"]}
{"id": "C13", "title": "After alphabet exhaustion keys are lost silently", "statement": "After update has thrown because the byte values are used up, no later update of a well-formed key throws any more. The first later update that needs yet another byte value returns a zero value and increments size(), but find does not find the key afterwards (all other keys are found as before); with assertions compiled in it aborts instead. (A defect: the guarantee a user expects, throw again, is false of the code.)", "quantifier": "every map state reached by the throw, every key needing a new byte, every continuation", "why_tests_cant": "needs a 255-byte alphabet and continuation after a caught exception", "anchors": ["include/poplar/map.hpp: map::update lines 168-172, make_symb_"]}
{"id": "C14", "title": "Interior NUL bytes are not supported", "statement": "Keys containing an interior NUL pass the argument check but are not stored faithfully: there are keys for which find returns a value although the key was never inserted, and histories that read out of bounds. The dictionary law is false without the no-interior-NUL precondition.", "quantifier": "existential: concrete histories with interior NUL keys", "why_tests_cant": "none of the tests uses such keys; the precondition is undocumented", "anchors": ["include/poplar/map.hpp: map::find, map::update", "include/poplar/compact_bonsai_nlm.hpp: compare", "include/poplar/plain_bonsai_nlm.hpp: compare"]}
{"id": "C15", "title": "Value pointers of plain maps are stable", "statement": "For plain_bonsai_map and plain_fkhash_map a pointer returned by update or find stays valid and keeps designating the value of the same key across all later updates, expansions included.", "quantifier": "every history, every key, every later history", "why_tests_cant": "pointer validity under all continuations", "anchors": ["include/poplar/plain_bonsai_nlm.hpp: insert, expand", "include/poplar/plain_fkhash_nlm.hpp: append"]}
{"id": "C16", "title": "Value pointers of compact maps are not stable", "statement": "For maps with compact node label maps a pointer returned by update does not stay valid: with a bonsai trie, of the pointers returned when inserting n keys at least n - capa_size()/ChunkSize dangle at the end, and all of them dangle when the capacity grows; with an fkhash trie the pointer for a new key dangles once ChunkSize further keys have been inserted. So pointers must not be kept across updates.", "quantifier": "every history of a compact map", "why_tests_cant": "tests would see it only under a sanitizer with the right keys", "anchors": ["include/poplar/compact_bonsai_nlm.hpp: insert, expand", "include/poplar/compact_fkhash_nlm.hpp: append, push_back_"]}
{"id": "C17", "title": "Capacity is a growing power of two", "statement": "capa_size() of a constructed map is a power of two, at least 2^16, never decreases, and the number of trie nodes never exceeds MaxFactor percent of it; it grows only when needed: it is the initial capacity, or half of it was full. size() <= nodes <= the sum over the distinct keys of 1 + (|k|-1)/Lambda, hence <= key bytes inserted.", "quantifier": "every history", "why_tests_cant": "all histories", "anchors": ["include/poplar/map.hpp: capa_size", "include/poplar/plain_bonsai_trie.hpp: needs_to_expand, expand"]}
{"id": "C18", "title": "split_mix_hasher is a bijection", "statement": "For every universe width u in 1..63, hash maps [0,2^u) into [0,2^u), hash_inv(hash(x)) = x and hash(hash_inv(x)) = x.", "quantifier": "every u in 1..63 and every x < 2^u", "why_tests_cant": "the repo test samples x below 1024 only; the domain has 2^63 points", "anchors": ["include/poplar/bijective_hash.hpp: split_mix_hasher, PRIME_TABLE"]}
{"id": "C19", "title": "vbyte round trip", "statement": "decode(encode(v)) = v consuming exactly size(v) bytes whatever follows in memory; append writes the same bytes as encode; size(v) equals the number of bytes written (1..10).", "quantifier": "every 64-bit value and every trailing byte sequence", "why_tests_cant": "2^64 values", "anchors": ["include/poplar/vbyte.hpp: size, append, encode, decode"]}
{"id": "C20", "title": "compact_vector is an array of w-bit integers", "statement": "get(i) after set(i,v) returns v, and set(i,v) changes no other element, for every width, also when the element straddles two 64-bit words; a new vector reads as all zeros or as its init value.", "quantifier": "every size, every width 1..63, every index and value below 2^width", "why_tests_cant": "all widths x alignments x contents", "anchors": ["include/poplar/compact_vector.hpp: get, set, compact_vector"]}
{"id": "C21", "title": "bit_vector behaves as a bit sequence", "statement": "append_bit/append_bits append exactly the given bits; get, set and get_bits read and write exactly the addressed bits.", "quantifier": "every append/set history, every position and length below 64", "why_tests_cant": "all alignments and contents", "anchors": ["include/poplar/bit_vector.hpp"]}
{"id": "C22", "title": "standard_hash_table is a map", "statement": "get returns the value last set for the key and nil otherwise; set returns true iff the key is new; size counts distinct keys; holds across expansions and for any hash function.", "quantifier": "every MaxFactor from 1 to 99, every hasher, every initial capacity, every set/get history over keys other than UINT64_MAX", "why_tests_cant": "all histories and collision patterns", "anchors": ["include/poplar/standard_hash_table.hpp: get, set, expand_"]}
{"id": "C23", "title": "compact_hash_table is a map", "statement": "get returns the value last set for the key and nil otherwise; set returns true iff the key is new; size counts distinct keys; holds across displacement of collision groups and expansions.", "quantifier": "every ValBits and MaxFactor, every universe width and initial capacity, every set/get history over keys below 2^univ_bits, values below val_mask, as long as the table does not have to outgrow its universe", "why_tests_cant": "the repo test performs one random fill; displacement patterns are unbounded", "anchors": ["include/poplar/compact_hash_table.hpp: get, set, clone"]}
{"id": "C24", "title": "Hash trie search", "statement": "For each of the four dynamic tries: find_child(v,s) returns exactly the node created by add_child(v,s), nil otherwise; distinct (node, symbol) pairs have distinct children.", "quantifier": "every sequence of add_child on existing nodes, every symbol below 2^symb_bits, every collision pattern", "why_tests_cant": "all histories and collisions", "anchors": ["include/poplar/plain_bonsai_trie.hpp", "include/poplar/compact_bonsai_trie.hpp", "include/poplar/plain_fkhash_trie.hpp", "include/poplar/compact_fkhash_trie.hpp"]}
{"id": "C25", "title": "Bonsai expansion is an isomorphism", "statement": "expand() doubles the capacity and returns a node_map that maps every old node to the new node with the same path from the root and every unused slot to UINT64_MAX.", "quantifier": "every reachable trie", "why_tests_cant": "tests cover two data sets", "anchors": ["include/poplar/plain_bonsai_trie.hpp: expand, node_map", "include/poplar/compact_bonsai_trie.hpp: expand, node_map"]}
{"id": "C26", "title": "Parent and label can be restored", "statement": "get_parent_and_symb(v) returns the parent and the symbol under which v was added, and nil for the root, for both bonsai tries.", "quantifier": "every reachable trie and node", "why_tests_cant": "all tries", "anchors": ["include/poplar/plain_bonsai_trie.hpp: get_parent_and_symb", "include/poplar/compact_bonsai_trie.hpp: get_parent_and_symb"]}
{"id": "C27", "title": "FK-hash node ids are dense and stable", "statement": "The n-th node added gets id n (root 0) and keeps it for ever, also across expansions.", "quantifier": "every add_child history", "why_tests_cant": "all histories", "anchors": ["include/poplar/plain_fkhash_trie.hpp: add_child, expand_", "include/poplar/compact_fkhash_trie.hpp: add_child, expand_"]}
{"id": "C28", "title": "Node label comparison", "statement": "For each of the four node label maps: compare(pos,key) returns the value pointer iff key equals the stored label and otherwise the length of the longest common prefix; it never reads outside the label's block (the empty rest of a key is only ever compared with an empty label, which is how map calls it).", "quantifier": "every label set, every NUL-terminated key, every chunk population", "why_tests_cant": "all label sets and chunk layouts", "anchors": ["include/poplar/plain_bonsai_nlm.hpp: compare", "include/poplar/compact_bonsai_nlm.hpp: compare, insert, get_allocs_", "include/poplar/plain_fkhash_nlm.hpp", "include/poplar/compact_fkhash_nlm.hpp"]}
{"id": "C29", "title": "Bit tools", "statement": "popcnt (all widths, also masked), msb, ceil_log2, words_for, bits_to_bytes and select compute what their names say, in the portable code and in the code compiled with __SSE4_2__.", "quantifier": "every 8/16/32/64-bit argument in the stated range", "why_tests_cant": "2^64 arguments", "anchors": ["include/poplar/bit_tools.hpp"]}
{"id": "C30", "title": "Debug assertion of plain_fkhash_trie", "statement": "In debug builds plain_fkhash_map aborts when the empty string is inserted into a map whose first key is a non-empty string (assert(key != 0) fails although release builds behave correctly).", "quantifier": "existential plus every state in which the root has no empty-label child", "why_tests_cant": "not exercised by tests, which run in release mode", "anchors": ["include/poplar/plain_fkhash_trie.hpp: add_child line 104"]}
{"id": "C31", "title": "compact_hash_table::clone hangs on an empty table", "statement": "The public clone() of an empty table never terminates; on a non-empty table it terminates and the target has the same contents.", "quantifier": "every table", "why_tests_cant": "an infinite loop cannot be asserted by a unit test", "anchors": ["include/poplar/compact_hash_table.hpp: clone"]}
{"id": "C32", "title": "compact_hash_table cannot exceed MaxFactor % (default 80) of its universe", "statement": "Inserting a new key when the table already uses capacity = universe and is at its load limit has undefined behaviour (capacity exceeds universe); below that bound set never fails.", "quantifier": "every table state", "why_tests_cant": "the limit is not documented nor tested", "anchors": ["include/poplar/compact_hash_table.hpp: compact_hash_table, set"]}
{"id": "C33", "title": "standard_hash_table cannot store key UINT64_MAX", "statement": "set(UINT64_MAX, v) reports success but get(UINT64_MAX) still returns nil.", "quantifier": "every table state and value", "why_tests_cant": "reserved key is undocumented", "anchors": ["include/poplar/standard_hash_table.hpp: set, get"]}
{"id": "C34", "title": "Deletion idiom", "statement": "The README deletion idiom works: after writing an application-chosen invalid value through update(key), find(key) returns that value and every other key is unaffected.", "quantifier": "every history", "why_tests_cant": "all histories", "anchors": ["README.md: Note: Deletion implementation", "include/poplar/map.hpp: map::find, map::update"]}
{"id": "C35", "title": "compact_vector resize", "statement": "resize (to a larger or smaller size) keeps all elements below both sizes, and elements that never existed are zero; after a shrink followed by a grow the re-grown elements need not read as zero: of each, the bits that lie in the 64-bit words needed by the smaller size are kept, the others are zero.", "quantifier": "every width, size and history of set and resize calls", "why_tests_cant": "all contents", "anchors": ["include/poplar/compact_vector.hpp: resize"]}
{"id": "C36", "title": "Exact condition of alphabet exhaustion", "statement": "A byte value is used up when a new key branches off the registered keys at it. A well-formed update throws exactly when 253 non-NUL byte values are used up and its new key branches off at another one; up to a 255th byte value every observation of every history (including after the throw) is that of a dictionary in which exactly this insertion had no effect.", "quantifier": "every history, every key, every alias and parameter", "why_tests_cant": "requires all branch patterns of all key sets", "anchors": ["include/poplar/map.hpp: map::update lines 168-172"]}
{"id": "C37", "title": "Moved-from maps", "statement": "The target of a move behaves like the original map. The source still reports its old size() and capa_size(), but if the map held keys, every find and update of a well-formed key on it is undefined behaviour; a moved-from map that was constructed with a capacity but held no keys answers find with nullptr (update is undefined for the Bonsai aliases); a moved-from default-constructed map is as good as new. In the parts: a moved-from compact_vector, compact_hash_table or non-empty hash trie cannot be read any more, a moved-from standard_hash_table still reports its size but is an empty table again.", "quantifier": "every alias, every history before the move, every key afterwards", "why_tests_cant": "tests never use moved-from maps, and undefined behaviour need not show", "anchors": ["include/poplar/map.hpp: map(map&&), operator=(map&&)", "include/poplar/compact_vector.hpp: compact_vector(compact_vector&&)"]}
{"id": "C38", "title": "std::string and const char* keys", "statement": "A map used through the std::string overloads of find and update, or with make_char_range(const char*), is a dictionary keyed by character strings: the empty string is an ordinary key, the same characters given either way are the same key, nothing is rejected as malformed. make_char_range(const char*) reads up to the first NUL only. The two ways differ exactly for std::strings containing a NUL.", "quantifier": "every history of string operations; every memory content behind a const char*", "why_tests_cant": "all strings and histories", "anchors": ["include/poplar/basics.hpp: make_char_range", "include/poplar/map.hpp: find(const std::string&), update(const std::string&)"]}
{"id": "C39", "title": "Label memory: no leak, no double release, exact accounting", "statement": "Whatever sequence of operations a map has gone through, destroying it releases every heap block that holds labels and values exactly once: none is leaked and none is released twice. In every supported history the label bytes that enter alloc_bytes() are exactly the total size of the live blocks, also after expansions and after chunk blocks have been replaced.", "quantifier": "all aliases, all operation sequences that return (for the accounting: all supported histories), all value sizes, chunk sizes and initial capacities", "why_tests_cant": "ownership must be right at every point of every history, including expansions that move all blocks; tests (or a sanitizer) only see the histories they run", "anchors": ["include/poplar/plain_bonsai_nlm.hpp: insert, expand, ~plain_bonsai_nlm, alloc_bytes", "include/poplar/compact_bonsai_nlm.hpp: insert, expand, set_slice_, alloc_bytes", "include/poplar/plain_fkhash_nlm.hpp: append, alloc_bytes", "include/poplar/compact_fkhash_nlm.hpp: append, release_buf_, alloc_bytes"]}
{"id": "C40", "title": "Binary keys: prefix-free key sets", "statement": "Keys may contain NUL bytes anywhere as long as they end with NUL and no key that is used is a proper prefix of another one (for example all keys of the same length): then the map is a dictionary. The condition is exact: for two different well-formed keys, all histories over them are answered like a dictionary if and only if neither is a prefix of the other.", "quantifier": "every prefix-free set of NUL-terminated byte strings, every history over it, every alias and parameter set", "why_tests_cant": "infinitely many key sets and histories; tests use text keys only", "anchors": ["include/poplar/map.hpp: map::find, map::update", "include/poplar/plain_bonsai_nlm.hpp: compare", "include/poplar/compact_bonsai_nlm.hpp: compare", "include/poplar/plain_fkhash_nlm.hpp: compare", "include/poplar/compact_fkhash_nlm.hpp: compare"]}
{"id": "C41", "title": "vigna_hasher is a bijection", "statement": "vigna_hasher, with any seed and as the static hash(), is a bijection of the 64-bit words: distinct slot keys never collide in the full hash, and every value occurs.", "quantifier": "every seed and every pair of 64-bit words", "why_tests_cant": "2^64 inputs per seed", "anchors": ["include/poplar/hash.hpp: vigna_hasher::hash, operator()"]}
{"id": "C42", "title": "Statistics are consistent", "statement": "With POPLAR_EXTRA_STATS: after any history, num_resize() is the number of doublings since construction (capa_size() = initial capacity times 2^num_resize()), which is logarithmic in the number of nodes the keys need; and rate_steps() is the number of trie nodes that are not a key's own node, divided by size(), so nodes = size() * (1 + rate_steps()). In the compact maps show_stats() prints rate_dsp1st, rate_dsp2nd and rate_dsp3rd, whose numerators count every node but the root exactly once, also after enlargements; the second and third are the sizes printed for aux_cht_ and aux_map_. show_stats() prints as max_length and (times the size of the label map) ave_length the greatest and the total length of what is stored of the keys: the first key whole, every other without the bytes it shares with a key inserted before and the byte that distinguishes it. The total, plus one byte per key but the first, is the number of different non-empty prefixes of the stored keys, so it depends neither on the order of insertion nor on the type of the map.", "quantifier": "every map type, configuration and history", "why_tests_cant": "all histories, including several doublings with refused insertions in between", "anchors": ["include/poplar/map.hpp:map::rate_steps,num_resize,update", "include/poplar/plain_bonsai_trie.hpp:expand", "include/poplar/compact_bonsai_trie.hpp:expand", "include/poplar/plain_fkhash_trie.hpp:expand_", "include/poplar/compact_fkhash_trie.hpp:expand_"]}
{"id": "C43", "title": "Failed allocations lose no keys", "statement": "If a memory allocation fails during update(k) (std::bad_alloc) and the caller catches the exception, then every key inserted before is still found with its value, and size() is the number of keys (plus one if the label of k could not be stored). If the tables of an fkhash map or an overflow table of a compact trie could not be enlarged in add_child, or the first update of a default constructed map could not construct it, the map behaves as if update(k) had not been called, and the call can be repeated. Not so otherwise: with a plain label store a failed label leaves a key on which every find and update violates an assertion (on every key, if it was the first), and a plain_fkhash map takes no new key any more (size() never changes in any further use); the same holds for a bonsai map of any kind whose enlarged table could not be allocated; there, update of a key that is not in the map may return the pointer to the value of another key (the first key inserted, if its own follows after a registered byte with which no key starts), so that writing through it overwrites that value. A failed insert into a compact_bonsai_nlm shifts the labels of the later nodes of its chunk.", "quantifier": "all six aliases, all constructor arguments, all admissible histories, all keys and every allocation considered in the course of the call", "why_tests_cant": "a test would have to inject a failure into each allocation of each history; allocation failures are not tested at all", "anchors": ["include/poplar/map.hpp: map::update, expand_if_needed_", "include/poplar/plain_fkhash_trie.hpp: add_child, expand_", "include/poplar/compact_fkhash_trie.hpp: add_child, expand_", "include/poplar/plain_bonsai_nlm.hpp: insert", "include/poplar/compact_bonsai_nlm.hpp: insert", "include/poplar/plain_fkhash_nlm.hpp: append, append_dummy", "include/poplar/compact_fkhash_nlm.hpp: append, append_dummy, release_buf_"]}
{"id": "C44", "title": "Memory use is what the tables need", "statement": "alloc_bytes() of a map is the size of its parts: for a trie with 2^b slots, 2^b slots of b + symb_bits bits (plain), or symb_bits + Dsp1Bits (4 in the aliases) bits (compact), plus b bits of node id per slot for fkhash; the overflow tables of the compact tries, which hold at most one entry per node, are at least 40 % full unless they have their initial size and never more than 80 % full; the arrays of the label store; exactly the bytes of the live label blocks, which take at most the bytes of the stored keys and values (plus a length prefix in the compact maps and a byte per key-less node in the compact fkhash maps); 256 bytes of codes. The number of slots is the one asked for, or at most 200/MaxFactor (20/9 in the aliases) times the nodes the stored keys need. A map never used has no tables. The label bytes are exactly the sum over what is stored of each key of the bytes needed for a string of that length, plus a byte per key-less node in the compact fkhash maps.", "quantifier": "all six aliases, all constructor arguments, all admissible histories, all value and chunk sizes", "why_tests_cant": "the bound must hold after every history, including those that fill the overflow tables, which ordinary key sets hardly use", "anchors": ["include/poplar/map.hpp: alloc_bytes", "include/poplar/plain_bonsai_trie.hpp: alloc_bytes", "include/poplar/compact_bonsai_trie.hpp: alloc_bytes", "include/poplar/plain_fkhash_trie.hpp: alloc_bytes", "include/poplar/compact_fkhash_trie.hpp: alloc_bytes", "include/poplar/compact_hash_table.hpp: alloc_bytes, set", "include/poplar/standard_hash_table.hpp: alloc_bytes, set", "include/poplar/plain_bonsai_nlm.hpp: alloc_bytes", "include/poplar/compact_bonsai_nlm.hpp: alloc_bytes"]}
{"id": "C45", "title": "Lookups are bounded by the length of the key", "statement": "However many keys are stored, find(k) and update(k) follow at most |k| edges of the trie and compare with at most |k| + 1 labels (|k| counts the terminator); besides one edge per label there is at most one edge per lambda bytes of the key. Everything else the map holds has no influence on the call.", "quantifier": "every map type, configuration, history and key (also malformed ones)", "why_tests_cant": "a bound on the work of every call in every state; tests only time some", "anchors": ["include/poplar/map.hpp: map::find, map::update: find, update", "include/poplar/map.hpp: lines 85-114, 146-194"]}
{"id": "C46", "title": "Value pointers are not aligned", "statement": "The pointer update(k) or find(k) returns is right behind what is stored of k, at whatever offset that is: in the plain maps, at the offset in a heap block of its own that is the length of the stored part of k. Hence for every map type, value size and alignment of at least 2 there is a key of at most two characters whose value, inserted as first key, is not aligned, even if all heap blocks are. The pointer may be used with memcpy or value types of alignment 1 only (or where the platform allows unaligned access).", "quantifier": "all six aliases, value types, chunk sizes, constructor arguments; for the plain maps, all histories and keys", "why_tests_cant": "x86 does not trap on unaligned access, so tests pass; it is a statement about all value types and keys", "anchors": ["include/poplar/map.hpp: update, find", "include/poplar/plain_bonsai_nlm.hpp: insert, compare", "include/poplar/plain_fkhash_nlm.hpp: append, compare", "include/poplar/compact_bonsai_nlm.hpp: insert", "include/poplar/compact_fkhash_nlm.hpp: append"]}
{"id": "C47", "title": "Value pointers of all maps are valid until the next insertion", "statement": "A pointer returned by update(k) or find(k) stays valid as long as no new key is inserted. After any history of find, size, update of keys already in the map (or malformed keys, which throw) and writes to their values, find(k) returns the very same pointer, reading through it gives the current value of k, and writing through it is the same as writing to k: no other key changes. In particular update of an existing key never moves a value, in any of the six map types (compact maps may move values on insertion only, see C15/C16).", "quantifier": "all six aliases, prefix-free key sets, parameters, all histories before the pointer is obtained, all insertion-free histories after it", "why_tests_cant": "pointer stability ranges over all histories; tests sample a few and a dangling pointer often still reads the right bytes", "anchors": ["include/poplar/map.hpp: update, find", "include/poplar/compact_bonsai_nlm.hpp: compare", "include/poplar/compact_fkhash_nlm.hpp: compare", "include/poplar/compact_bonsai_trie.hpp: add_child", "include/poplar/compact_fkhash_trie.hpp: add_child"]}
{"id": "C48", "title": "The size limit of compact_fkhash_map and compact_bonsai_map is real and sharp", "statement": "compact_fkhash_map and compact_bonsai_map store displacements of 15 to 141 in an auxiliary compact_hash_table that can hold at most 80 % of the capacity of the trie, while the trie itself is filled to MaxFactor (90) % before it grows. There is a set of 52654 different lower-case words of at most 41 letters, fewer than the 58982 nodes up to which the first table is filled, that a new compact_fkhash_map (default-constructed or with capa_bits <= 16, lambda 32) cannot take: inserting them one after the other overflows the auxiliary table in the middle of update. The maps without that table take the same words, and so does compact_fkhash_map if the constructor reserves 2^18 slots. For compact_bonsai_map there is such a set of 52655 words. So the size limit in the other properties (52428 nodes, C01, C07) cannot be dropped and is sharp within half a percent.", "quantifier": "every value size below 2^63, chunk size, load limit of 81 % or more, debug and release builds; the failing insertion sequence is given explicitly", "why_tests_cant": "random keys never come near the limit (about 10 % of the displacements at 90 % load are 15 or more); the failing keys have to be constructed from the hash function", "anchors": ["include/poplar/compact_fkhash_trie.hpp: update_slot_, add_child", "include/poplar/compact_bonsai_trie.hpp: update_slot_, add_child", "include/poplar/compact_hash_table.hpp: set, compact_hash_table(uint32_t, uint32_t)", "include/poplar/map.hpp: update"]}
{"id": "C49", "title": "Insert-then-query programs succeed for every key list", "statement": "The client programs shipped with the library work for every list of keys, not only for the tested ones. Inserting distinct strings with update(key), reading 0 through the returned pointer and writing the value through it, then makes size() the number of keys, find and update give every key its value, and find gives null for every other string (insert_keys/search_keys of map_test.cpp); main of sample.cpp exits with 0 and prints the number of keys; bench of bench_maps.cpp never stops with 'critical error for search results' and reports the exact numbers of keys, queries, found and missing queries, also with repeated keys. This holds for every map type as long as the keys are non-empty, contain no NUL, use at most 253 byte values and, counted with one more for every full 32 characters, do not exceed 52427.", "quantifier": "every list of distinct keys, every alias, every set of strings that were not inserted", "why_tests_cant": "the tests are this program on two key lists", "anchors": ["test/map_test.cpp: insert_keys, search_keys", "sample/sample.cpp: main", "bench/bench_maps.cpp: bench", "include/poplar/map.hpp: find, update, size"]}
{"id": "C50", "title": "The component tests succeed for every input, except that of bit_vector", "statement": "hash_trie_test.cpp (insert keys node by node and note their numbers under the node ids, translating the ids after each expansion; search all keys; restore every key from its node with get_parent_and_symb) succeeds for every list of distinct keys on each of the four trie classes, below their node limit; compact_hash_table_test.cpp succeeds for every map that fits, and for no larger one; bijective_hash_test.cpp succeeds whatever random numbers are drawn; bit_vector_test.cpp succeeds if and only if no power of two is drawn: append_bits(x, ceil_log2(x)) then violates its precondition, and get_bits could not return x.", "quantifier": "every list of keys, every map, every sequence of random numbers, every trie class, capacity and template argument in range", "why_tests_cant": "the tests run on one list of words and on random numbers that almost never include a power of two", "anchors": ["test/hash_trie_test.cpp: insert_keys, search_keys, restore_keys", "test/compact_hash_table_test.cpp", "test/bijective_hash_test.cpp: check_bijection", "test/bit_vector_test.cpp", "include/poplar/bit_tools.hpp: ceil_log2"]}
{"id": "C51", "title": "Concurrent lookups and value accesses need no lock", "statement": "After any history of a map of any alias, several threads may call find, and read and write values through the pointers it returns, at the same time without synchronisation, as long as each value is written by at most one thread and then not read by the others: there is no data race on any byte, no access goes wrong, each thread gets exactly the results it would get alone on a dictionary, each thread finishes, and afterwards find returns what the writer of a key wrote last (and the old value for keys nobody wrote). find itself never reads a byte of a value, although labels and values share their blocks.", "quantifier": "every history, every set of threads (programs that act on what they have seen), every interleaving of their steps at the granularity of single bytes, every alias, value size and chunk size", "why_tests_cant": "the schedule of threads cannot be enumerated by tests; that find does not touch value bytes holds only because of the layout of every block after every history, and a read of one byte too many would be invisible to a single-threaded test", "anchors": ["map.hpp: find", "plain_bonsai_nlm.hpp: compare", "plain_fkhash_nlm.hpp: compare", "compact_bonsai_nlm.hpp: compare", "compact_fkhash_nlm.hpp: compare", "vbyte.hpp: decode"]}
{"id": "C52", "title": "Nothing depends on the memory allocator", "statement": "Wherever the allocator puts the blocks of labels and values, whichever released addresses it gives out again (at once or later), and whatever happens to memory that the map has released or never owned, every history of calls returns the same results: those of the dictionary. Blocks in use never overlap, destroying the map releases each exactly once; the values of different keys share no byte of memory; and a pointer returned by update or find of a plain map is, as a raw memory address, the address of that key's value through all later insertions, with all allocations and releases they do.", "quantifier": "every allocator (any function of the blocks in use that returns an address at which the new block overlaps none), every content of unused memory, every alias, history and parameter", "why_tests_cant": "use after free and reads of memory that was never written go unnoticed in tests as long as the allocator at hand happens to leave the old bytes there", "anchors": ["include/poplar/plain_bonsai_nlm.hpp: insert, expand", "include/poplar/plain_fkhash_nlm.hpp: append, expand", "include/poplar/compact_bonsai_nlm.hpp: insert, set_slice_, expand", "include/poplar/compact_fkhash_nlm.hpp: append, release_buf_", "include/poplar/basics.hpp: copy_bytes"]}
{"id": "C53", "title": "The number of nodes is a function of the keys, their order and lambda", "statement": "After any history the trie has exactly as many nodes as the keys inserted need in the order of their first insertion: for each key one, and one more for each lambda bytes between the start of what is stored of it (the byte after the first one that distinguishes it from all earlier keys) and the last place at which a later key leaves it. rate_steps() is the number of the latter divided by size(). Hence maps of different types, parameters, capacities, values, lookups and repeated insertions have the same numbers if keys, order and lambda agree, and a larger lambda never needs more nodes.", "quantifier": "every map type, configuration and history whose keys use at most 253 byte values besides NUL", "why_tests_cant": "an exact count over all histories and a relation between all pairs of runs; tests look at one configuration at a time", "anchors": ["include/poplar/map.hpp: map::update lines 145-194, rate_steps", "bench/bench_lambdas.cpp"]}
{"id": "C54", "title": "The capacity is a function of the keys, their order, lambda and the construction parameters", "statement": "After any history capa_size() and num_resize() of a Bonsai map are exactly determined: the table has been doubled as often as is needed, from the initial capacity (2^16, or 2^capa_bits if that is more), to have fewer nodes than MaxFactor per cent (rounded down) of the slots; the number of nodes is that of C53. An fkhash map has been doubled as often as is needed to have at most, or fewer than, that many nodes, which differ only if the nodes are exactly MaxFactor per cent of the initial capacity or one of its doubles. Hence two maps of any types with the same keys, order, lambda, MaxFactor and initial capacity have the same capacity (unless one is an fkhash map at that exact load), however the values, lookups, hash functions and other parameters differ; and a larger lambda never needs a larger capacity.", "quantifier": "every map type, configuration and history (for the dependence on keys alone: keys with at most 253 byte values besides NUL)", "why_tests_cant": "an exact value over all histories, including every boundary at which a table is doubled (58982 nodes and more)", "anchors": ["include/poplar/map.hpp: capa_size, num_resize, expand_if_needed_ lines 263-272", "include/poplar/plain_fkhash_trie.hpp: add_child lines 95-124", "include/poplar/plain_bonsai_trie.hpp: needs_to_expand"]}
