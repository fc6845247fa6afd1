import Verif.Model.Strings
/-
  Model of the client programs of the repository: `insert_keys` and `search_keys` of test/map_test.cpp, and `main` of
  sample/sample.cpp. Unlike the histories of `Model/MapRun.lean` they read and write through one and the same pointer returned by
  `update`. Printing is not modelled.
-/
namespace Poplar
open Spec

namespace Map
variable {τ ν : Type}

/-- map_test.cpp:38-46, the loop of `insert_keys`: `ptr = update(make_char_range(key)); ASSERT_EQ(*ptr, 0); *ptr = value;`.
`false`: an `ASSERT` failed or an exception was thrown. Dereferencing a null pointer is undefined behaviour. `zero` are the bytes
of the value 0. -/
def insertKeys (cfg : MapCfg τ ν) (zero : Val) : Map τ ν → List (List UInt8 × Val) → R (Map τ ν × Bool)
  | m, [] => .ok (m, true)
  | m, (s, v) :: r => do
    let (m, u) ← update cfg m (← makeCharRangeS s)
    match u with
    | .ptr l =>
      if (← load cfg m l) = zero then do insertKeys cfg zero (← store cfg m l v) r
      else pure (m, false)
    | .null => .error .oob
    | .exn => pure (m, false)

/-- map_test.cpp:55-59, the first loop of `search_keys`: `ptr = find(make_char_range(key)); ASSERT_NE(ptr, nullptr);
ASSERT_EQ(*ptr, value);` -/
def findKeys (cfg : MapCfg τ ν) (m : Map τ ν) : List (List UInt8 × Val) → R Bool
  | [] => .ok true
  | (s, v) :: r =>
    match (do find cfg m (← makeCharRangeS s)) with
    | .error .throw => .ok false
    | .error e => .error e
    | .ok none => .ok false
    | .ok (some l) => do if (← load cfg m l) = v then findKeys cfg m r else pure false

/-- map_test.cpp:61-65, the second loop of `search_keys`: the same with `update`. -/
def updateKeys (cfg : MapCfg τ ν) : Map τ ν → List (List UInt8 × Val) → R (Map τ ν × Bool)
  | m, [] => .ok (m, true)
  | m, (s, v) :: r => do
    let (m, u) ← update cfg m (← makeCharRangeS s)
    match u with
    | .ptr l => if (← load cfg m l) = v then updateKeys cfg m r else pure (m, false)
    | .null => pure (m, false)
    | .exn => pure (m, false)

/-- map_test.cpp:67-70, the third loop of `search_keys`: `ASSERT_EQ(find(make_char_range(key)), nullptr)`. -/
def missKeys (cfg : MapCfg τ ν) (m : Map τ ν) : List (List UInt8) → R Bool
  | [] => .ok true
  | s :: r =>
    match (do find cfg m (← makeCharRangeS s)) with
    | .error .throw => .ok false
    | .error e => .error e
    | .ok none => missKeys cfg m r
    | .ok (some _) => .ok false

end Map

/-- map_test.cpp:34-71, `insert_keys(map, keys); search_keys(map, keys);` on a new map, with the keys at even positions and
their values in `kvs`, the keys at odd positions in `others`. `true`: all `ASSERT`s hold. -/
def Alias.insertSearch (a : Alias) (p : Params) (i : Init) (kvs : List (List UInt8 × Val)) (others : List (List UInt8)) : R Bool := do
  let (m, b) ← Map.insertKeys (a.cfg p) (List.replicate p.valSize 0) (← a.new p i) kvs
  if !b then pure false
  else if m.size ≠ kvs.length then pure false
  else if !(← Map.findKeys (a.cfg p) m kvs) then pure false
  else
    let (m, b) ← Map.updateKeys (a.cfg p) m kvs
    if !b then pure false else Map.missKeys (a.cfg p) m others

/-- the bytes of an unsigned integer of `n` bytes (little endian) -/
def bytesOf : Nat → Nat → Val
  | 0, _ => []
  | n + 1, x => UInt8.ofNat (x % 256) :: bytesOf n (x / 256)

/-- the keys at even positions, with the value `i` (8 bytes: `uint64_t`) for the key at position `i`; `j` is the position of the
first key of the list -/
def evenKeys : Nat → List (List UInt8) → List (List UInt8 × Val)
  | _, [] => []
  | j, [k] => [(k, bytesOf 8 j)]
  | j, k :: _ :: r => (k, bytesOf 8 j) :: evenKeys (j + 2) r

/-- the keys at odd positions -/
def oddKeys : List (List UInt8) → List (List UInt8)
  | [] => []
  | [_] => []
  | _ :: l :: r => l :: oddKeys r

/-- map_test.cpp:86-99: the tests `Tiny` and `Words` for an arbitrary list of keys (`TypeParam map;`). -/
def Alias.mapTest (a : Alias) (p : Params) (keys : List (List UInt8)) : R Bool :=
  if keys = [] then pure false else a.insertSearch p .default (evenKeys 0 keys) (oddKeys keys)

namespace Map
variable {τ ν : Type}

/-- sample.cpp:34-37: `int* ptr = map.update(keys[i]); *ptr = i + 1;`; `j` is the index of the first key of the list. `false`: an
exception was thrown. -/
def sampleInsert (cfg : MapCfg τ ν) : Nat → Map τ ν → List (List UInt8) → R (Map τ ν × Bool)
  | _, m, [] => .ok (m, true)
  | j, m, s :: r => do
    let (m, u) ← update cfg m (← makeCharRangeS s)
    match u with
    | .ptr l => do sampleInsert cfg (j + 1) (← store cfg m l (bytesOf 4 (j + 1))) r
    | .null => .error .oob
    | .exn => pure (m, false)

end Map

/-- the key at position `i` has the value `i + 1` (an `int`) -/
def sampleValues : Nat → List (List UInt8) → List (List UInt8 × Val)
  | _, [] => []
  | j, s :: r => (s, bytesOf 4 (j + 1)) :: sampleValues (j + 1) r

/-- sample.cpp:27-61, `main` for arbitrary keys and an arbitrary missing key, for any alias (the sample uses
`plain_bonsai_map<int>`): the exit code and the number printed last (`map.size()`). -/
def Alias.sampleMain (a : Alias) (p : Params) (keys : List (List UInt8)) (missing : List UInt8) : R (Nat × Option Nat) := do
  let (m, b) ← Map.sampleInsert (a.cfg p) 0 (← a.new p .default) keys
  if !b then pure (1, none)
  else if !(← Map.findKeys (a.cfg p) m (sampleValues 0 keys)) then pure (1, none)
  else if !(← Map.missKeys (a.cfg p) m [missing]) then pure (1, none)
  else pure (0, some m.size)

namespace Map
variable {τ ν : Type}

/-- bench_maps.cpp:79-82 and 133-135: `*map->update(key) = 1;` for every key (keys may be repeated). `false`: an exception was thrown
(the program is terminated). -/
def benchInsert (cfg : MapCfg τ ν) : Map τ ν → List (List UInt8) → R (Map τ ν × Bool)
  | m, [] => .ok (m, true)
  | m, s :: r => do
    let (m, u) ← update cfg m (← makeCharRangeS s)
    match u with
    | .ptr l => do benchInsert cfg (← store cfg m l (bytesOf 4 1)) r
    | .null => .error .oob
    | .exn => pure (m, false)

/-- bench_maps.cpp:143-150: the retrieval loop; `ok` and `ng` are the counters so far. An exception (`.throw`) ends the program. -/
def benchSearch (cfg : MapCfg τ ν) (m : Map τ ν) : Nat → Nat → List (List UInt8) → R (Nat × Nat)
  | ok, ng, [] => .ok (ok, ng)
  | ok, ng, s :: r => do
    match ← find cfg m (← makeCharRangeS s) with
    | none => benchSearch cfg m ok (ng + 1) r
    | some l => do
      if (← load cfg m l) = bytesOf 4 1 then benchSearch cfg m (ok + 1) ng r else benchSearch cfg m ok (ng + 1) r

end Map

/-- what bench_maps.cpp prints about the results: `num_keys`, `num_queries`, `ok` and `ng` -/
structure BenchReport where
  numKeys : Nat
  numQueries : Nat
  ok : Nat
  ng : Nat
deriving DecidableEq, Repr

/-- bench_maps.cpp:126-164, the loop over the runs, each with a new map; `first`: `i == 0`; `none`: "critical error for search
results" (exit code 1) or an exception. -/
def Alias.benchRuns (a : Alias) (p : Params) (i : Init) (keys queries : List (List UInt8)) :
    Nat → Bool → Nat × Nat → R (Option (Nat × Nat))
  | 0, _, r => .ok (some r)
  | n + 1, first, r => do
    let (m, b) ← Map.benchInsert (a.cfg p) (← a.new p i) keys
    if !b then pure none
    else
      let r' ← Map.benchSearch (a.cfg p) m 0 0 queries
      if !first ∧ r ≠ r' then pure none else a.benchRuns p i keys queries n false r'

/-- bench_maps.cpp:52-200, `bench`, for the lines `keys` of the key file and the lines `queries` of the query file (`none`: no query
file, `query_fn` is "-"): `none` for the exit code 1, otherwise the report printed. Times, memory use and the statistics of the map
(`show_stats`: C42) are not modelled. -/
def Alias.bench (a : Alias) (p : Params) (capaBits lambda runs : Nat) (keys : List (List UInt8)) (queries : Option (List (List UInt8))) :
    R (Option BenchReport) := do
  let i : Init := .make capaBits lambda
  let (_, b) ← Map.benchInsert (a.cfg p) (← a.new p i) keys
  if !b then pure none
  else
    let qs := queries.getD keys
    match ← a.benchRuns p i keys qs runs true (0, 0) with
    | none => pure none
    | some (ok, ng) => pure (some ⟨keys.length, qs.length, ok, ng⟩)

end Poplar
