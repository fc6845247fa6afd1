# poplar-trie in Lean 4: design

Pinned source: `/repo` (C++ headers, `include/poplar`). Lean project: `/verif/lean`.

* `Verif/Model/*`  - the model, one file per header, every definition cites file and lines.
* `Verif/Spec/*`   - small specifications that do not mention the model (dictionary, tree, key-value
                     store, arrays, bit sequences, alphabet, labels, strings); `Spec/Limits.lean` has the side conditions.
* `Verif/Proof/*`  - invariants and proofs.
* `Verif/Props/*`  - the theorems named in MANIFEST.json, each followed by an `example` that shows
                     the hypotheses are met by a concrete, non-trivial case.

## 1. Shape of the model

* **Numbers.** `uint64_t` values are `Nat`; every place where the C++ arithmetic can wrap in a reachable
  call is written with an explicit reduction mod 2^64 (`shl64`, `mul64`, `sub64`, `not64`). Bytes are `UInt8`.
* **Undefined behaviour is an outcome.** A call returns `R α = Except Fault α`.
  `oob` = access outside an allocated (or to a released, or null) block or vector; `assertion` = failed `assert`;
  `diverge` = endless loop (loops carry fuel exceeding the number of iterations any terminating run can make);
  `throw` = a `poplar::exception` escapes and the state is not used further;
  `limit` = a size limit of the code is exceeded (`1ULL << bits` with `bits >= 64`, a hash width above 63 bits, or a
  compact_hash_table whose capacity exceeds its universe, `compact_hash_table.hpp:53-59`: in C++ the last one is a
  wrapped `uint32_t` subtraction followed by an oversized shift).
  A theorem concluding `= .ok x` is therefore memory safety + termination + the value.
* **Layers**, each calling the model of the layer below as in the C++:
  1. `basics`, `bit_tools` (portable paths), `vbyte`, `bijective_hash`, `compact_vector`, `bit_vector`;
  2. `standard_hash_table`, `compact_hash_table` (Cleary table with virgin/change bits);
  3. `plain_bonsai_trie`, `compact_bonsai_trie` (three-level displacement store), `plain_fkhash_trie`, `compact_fkhash_trie`;
  4. `plain_bonsai_nlm`, `compact_bonsai_nlm`, `plain_fkhash_nlm`, `compact_fkhash_nlm`, over a heap of byte blocks;
  5. `map`, generic over a trie and a label map exactly as the C++ template, and the six aliases of `poplar.hpp`;
  6. destruction (`Model/Destroy.lean`), member-wise moves (`Model/Move.lean`), `std::string`/`const char*` overloads
     (`Model/Strings.lean`), the double computation of load limits (`Model/Double.lean`).
* **Histories.** `Model/MapRun.lean`, `TrieRun.lean`, `NlmRun.lean` execute arbitrary user operation lists (find, update,
  write through the returned pointer, size; for tries add/find/expand; for label maps insert/append/expand/write). Theorems
  quantify over all such lists, all constructor arguments, all template parameters meeting `Params.Valid` and, for the classes
  using `Hasher`, all hash functions `Nat -> Nat`; the compact classes use the actual `split_mix_hasher`.
* **Exceptions and UB of `map`.** `map::update` returns a modified map also when it throws (the C++ object survives).

## 2. Per-property approach

| id | what is modelled, how it is proved |
|----|------|
| C01-C06, C34 | The `map` model refines `Spec/Dict` (`Proof/MapDict`, `MapUpdate*`, `MapHistory`, `History`). The invariant relates the trie (as a tree `path -> id`), the labels and the dictionary; every trie/label class enters only through its contract (`TrieSpec`, `NlmSpec`), proved once per class. Order irrelevance, agreement of configurations, the deletion idiom are corollaries about what the *user sees* (`Alias.history`, `Alias.answer`). |
| C07 | same refinement: every call returns `.ok` below `Alias.nodeLimit`; beyond it the only other outcome is `limit`/`throw`. |
| C08, C09, C10 | all inputs of the argument checks and constructors; C10 compares a default-constructed map with the explicit construction it delays. |
| C11, C12, C36 | exact alphabet specification (`Spec/Alphabet`): which byte values get a code, at which operation the exception is thrown; C36 is an iff over histories. |
| C13 | negative result: after the exception the next update needing the byte gets code 255 = the step symbol (`Proof/Lost`, `Codes`, `LostHistory`): the key is counted but not findable; assertions abort. |
| C14 | negative result for all pairs `k` / `k ++ NUL ++ ..`: one order finds a false prefix, the other reads outside the label. |
| C15, C16 | value pointers are (block, offset); stability over all continuations for plain maps (`Pointers`), dangling for compact maps (`Evolve`, `Dangling`, `Grow`). |
| C17 | capacity = max(initial, smallest power of two for the node count), monotone; node bounds; the double expression equals the integer floor for capacities up to 2^45. |
| C18 | xor-shift is an involution when 2*shift >= width; the 63x3 odd multipliers/inverses are checked by kernel computation over the *complete* table. |
| C19, C20, C21, C29, C35 | bit extensionality (`Nat.testBit`), induction on words/values; the 8-bit tables of select lifted lane by lane. |
| C22, C33 | linear-probing invariant of `standard_hash_table`, for every MaxFactor in 1..99 and every hasher. |
| C23, C31, C32 | Cleary bidirectional probing: ghost layout (groups, collision blocks) invariant `ChLayout`; clone; growth limit; for every ValBits and MaxFactor. |
| C24-C27 | linear probing + reachability for the four tries; expand is an isomorphism given by the node map; parent/symbol restored. |
| C28 | byte-level block layout invariant of the four label maps, over histories. |
| C30 | negative result: assertion `key != 0` of plain_fkhash_trie. |
| C37 | moved-from objects: vectors emptied, integers and arrays kept, as the defaulted member-wise moves do. |
| C38 | `char_range`/string overloads: the map over strings is a dictionary keyed by the string up to its first NUL. |
| C39 | ownership invariant of heap blocks along any run (`Evolve`, `Owned`), byte accounting (`LabelBytes`). |

Properties appended later are described in the table of section 5.

## 3. Side conditions of the map theorems (`Spec/Limits.lean`)

* Keys are malformed (what the code checks) or belong to a prefix-free set `K` of NUL-terminated byte strings, such as all C strings;
  C14 and C40 show that prefix-freeness is necessary.
* `SmallAlphabet`/`Supported`: no alphabet exhaustion; C11, C13, C36 deal with exhaustion.
* `AtLimit`: success is guaranteed while `nodesFor` (each distinct key inserted counts `1 + (|k|-1)/Lambda` nodes, see `C17_nodes_le`) is below `nodeLimit`. For the two maps with
  compact tries it contains 80 % of the *reserved* capacity: the second displacement level (15 to 141) is a compact_hash_table whose
  universe equals the trie's capacity and that cannot hold more than 80 % of it (C32); an adversarial key set with enough such displacements
  at 80-90 % load does exceed it, and C48 gives one for each of the two compact maps. Above the bound the theorems say: correct answer or a `limit` fault. With `MaxFactor` at most 80 (`Params.maxFactor`; the aliases of poplar.hpp use 90) the limit vanishes (`C01_unreserved`).
* `AssertOk`: release build, or no empty string after the first key, for the two maps on `plain_fkhash_trie` (C30).

## 4. Trusted base

* Lean 4.33.0 kernel. Axioms used by the theorems: `propext`, `Classical.choice`, `Quot.sound` at most; no axiom is added, nothing
  is trusted from compiled evaluation.
* The correspondence between C++ text and model, which is by reading.

Modelled with a simplification (also said at each definition):

* `max_size_` is the exact floor `capa*factor/100`; proved equal to the IEEE-double computation up to capacity 2^45 and, for powers of two, 2^49
  (2^52 with 90 %; C17_max_size_double, C17_max_size_double_pow); above that (and the `uint64_t` product wrap from 2^58 on) it is a simplification.
* Heap addresses are never reused, so a released block stays invalid forever (harmless: C52 proves the results for a flat memory with reuse); pointers into `chunk_buf_` are (generation, offset): reallocation
  of the vector during a generation is not modelled as invalidation.
* `a and b` is evaluated eagerly in `compare_dsp_`/`get_quo_` style conditions where the second operand has no effect.
* `words_for` does not wrap; `num_codes_` (uint32) is an unbounded counter (proved at most 257); `label_bytes_`, `size_`, counters of nodes
  do not wrap (proved to stay below 2^64: C17_counters, and C52_label_bytes for memory with 64-bit addresses).
* Null-pointer checks by `assert` in label maps are reported as `assertion` irrespective of NDEBUG (UB in release builds); the assert
  of plain_fkhash_trie (C30) and of the code table (C13) depend on `Params.dbg`.
* Hash functions of the plain classes are arbitrary functions.

Not modelled: template arguments beyond those of `Params` (`AuxCht` with another `MaxFactor`, another `AuxMap`, another bijective `Hasher`, `Dsp1Bits` above 16); allocation failure except where a property says so (C43; the allocations not considered are listed at the head of `Model/Crash.lean`); `show_stats`, `POPLAR_EXTRA_STATS` except where a property says so (label lengths and displacement counts: C42); capacities of `std::vector`s that grow (parameters of C44; a vector that is given its size once is taken to have that capacity);
strict aliasing of value pointers (their alignment: C46); of `bench/`, `test/` and `sample/` everything but the loops of the tests (C49, C50), `bench` of bench_maps.cpp and `main` of sample.cpp (C49); iostream and `size_fmt` helpers.

## 5. Properties appended as the model grew

| id | what is modelled, how it is proved |
|----|------|
| C40 | The history theorems are proved for an arbitrary key set `K` with `KeySet K`: well-formed (non-empty, last byte NUL), pairwise prefix-free, shorter than the address space (`Spec/Dict.lean`). C strings (`CStrings`) are one instance; C40 states the others (any prefix-free set, fixed-length binary keys) and proves that prefix-freeness is necessary as well (from C14). |
| C41 | `vignaHash`/`vignaHashSeeded` are injective (xor-shift by a positive amount and multiplication by an odd constant are injective), hence bijective on the 64-bit words. |
| C42 | `num_resize_` and `num_steps_` are fields of the model. `Proof/ResizeCount.lean`: every successful call keeps `capa_bits - num_resize_` (control flow only); the node count equation is an invariant of `Live`. Label lengths: `Proof/Tally.lean` follows any quantity of a label store that changes by a function of the inserted string only and does not change otherwise, along every history; `Proof/Prefixes.lean` counts prefixes. `num_dsps_` is part of `DspTable`; its sum and its agreement with the sizes of the auxiliary tables are part of the invariants of the compact tries. |
| C43 | `Model/Crash.lean` follows `update` and lists, for each allocation on the way, the map at that moment (which fields have been assigned). `Proof/Crash*.lean`: at each point the labelled nodes of the trie are still reachable and `compare` gives the same answers (`Keep`), from the invariants of the normal run. `C43_stuck`: a condition on trie and label store under which no node is added, kept by every call (`Proof/CrashStuck.lean`). `C43_overwrites`: in a full table `add_child` of an absent child returns the node it was given, and no node for the byte was added by the failed call (`Proof/CrashFull.lean`). |
| C44 | `Model/Alloc.lean` gives `alloc_bytes()` of every class; `Spec/Memory.lean` says what it should be. Sizes of the main tables and label arrays come from the invariants; `Proof/AuxTables.lean` shows from the control flow that the auxiliary tables are doubled only when full, `Proof/Alloc.lean` that they have at most one entry per node. `Proof/LabelCost.lean` bounds the label bytes along the control flow of `update`; `Proof/Tally.lean` gives them exactly. |
| C45 | Query complexity, stated from outside: there are short lists of edges and labels such that `find` (`update`) gives the same result in a container whose lookups answer differently everywhere else (`Spec/Cost.lean`). Proved by induction on the loops of `find` and `update` alone, for any trie and label store (`Proof/Cost.lean`). |
| C46 | Pointers are block and offset in the model. `Proof/Offsets.lean`: every label is put at the start of a block of its own (plain), the pointer to it survives every later call (C15); the first label of every map type is computed. `C46_unaligned` quantifies over all assignments of aligned addresses to blocks. |
| C47 | `update` of a key that is present is shown to leave the label store as it is and the trie abstraction unchanged (`UpdateOk.same`), and `Alias.between` carries a pointer over any history that inserts nothing (`Proof/Between.lean`); uniqueness of the pointer gives the result for `find`. |
| C48 | A search program (not part of the proof) found 52453 (parent, symbol) pairs whose home slots increase while the free slot stays 15 to 141 slots ahead; they are listed in `Proof/FillData.lean` in the order of insertion. `Proof/FillCheck.lean` has the kernel evaluate the hash function on them (`decide +kernel`, about 40 s); `FillPath`, `FillStage` prove by induction that each insertion puts its node into the next free slot with that displacement or fails with `limit`, so that in the end the auxiliary table would hold 52429 entries, which contradicts its bound; `FillMap`, `FillRun` lift this to `update` with explicit keys; `FillKeys`: the keys are different words. `FillBData` … `FillBKeys` do the same for `compact_bonsai_map` (node ids are slots there, so the parents' slots enter the keys; displacement 14 is stored as 15). |
| C49 | `Model/Programs.lean` models the client programs (loops of test/map_test.cpp, `main` of sample/sample.cpp, `bench` of bench/bench_maps.cpp) with one `update` per key and reads and writes through its pointer. `Proof/Programs.lean`: a loop invariant ties the state of the program to a history of C01 (the program's state is that of `write`, what it reads on the way that of `update`, in the same state); the rest follows from the dictionary. |
| C50 | `Model/Tests.lean` models the tests of the components, input as argument. hash_trie_test: `Proof/Tests.lean` proves an invariant of `insert_keys` from the trie contract (`TrieSpec`): the nodes are prefixes of keys, `ids` at the node of a finished key is its number and, for bonsai tries, UINT64_MAX at all other slots, kept by the translation after `expand`; climbing to the root inverts the path. The others follow from C18, C21, C23 and C32. |
| C51 | `Model/Threads.lean`: `find` as a computation that reads the blocks of the label store byte by byte (`Reads`), threads built from `find`, reading and writing values, and their interleaving (`runThreads`). `Proof/Reads*.lean`: run in one go the byte-wise `find` is `Map.find` (all states), and in a reachable state it reads no byte of a value (`NlmSpec.Outside`, from the layout of the blocks). `Proof/Threads.lean`: an invariant per thread (`Good`) that depends only on label bytes and on the values that thread may touch, so steps of others keep it; values of different keys are disjoint because writing one leaves the other. Not covered: threads that call `update`; memory orders weaker than sequential consistency (irrelevant without data races). |
| C52 | `Model/PhysHeap.lean`: one flat byte-addressed memory with an adversarial allocator and environment (`Phys.Env`); `Model/PhysNlm.lean`: the label stores again, on that memory; `Model/PhysMap.lean`: the maps. `Proof/PhysHeap.lean`: a simulation between the heap of `Model/Heap.lean` and the flat memory (a relation between block numbers and addresses, injective on live blocks, under which contents agree), for each heap operation; it requires nothing where the abstract heap reports an access to a released block or out of bounds (`RR`), and C01 shows that never happens. `Proof/PhysNlm.lean`, `Proof/PhysMap.lean` lift it to the label stores and to `find`, `update`, histories. |
| C53 | The exact number is specified in `Spec/Nodes.lean` by a fold over the keys (`ways`, `nodeCount`), without tries. `Proof/Grown.lean`, `Proof/MapUpdateLoop.lean`: which nodes an `update` adds, exactly (as paths from the root), and that each is on the way to the branch of the key. `Proof/Ways.lean`: the branches of the abstract trie, key by key, are those of the specification. `Proof/TreeShape.lean`: after any history every node is on the way to a branch, and the nodes are counted by a duplicate-free list of paths (`Exact`); so the number is the sum over the keys. The comparison of two maps is arithmetic. |
| C54 | `Spec/Capacity.lean`: the least number of doublings. No smaller capacity would have done: from C17 (`C17_capacity_needed`) and C42. The present one does: for Bonsai maps, that `needs_to_expand` is false after every call is part of the invariant (`Proof/Room.lean`); for fkhash maps, C17. With C53 the nodes are a function of keys, order and `lambda`. |
