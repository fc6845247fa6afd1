import Verif.Model.BitVector
import Verif.Model.BijectiveHash
import Verif.Model.CompactHashTable
import Verif.Model.TrieRun
/-
  Model of the test programs of the components: test/bit_vector_test.cpp, test/bijective_hash_test.cpp,
  test/compact_hash_table_test.cpp and test/hash_trie_test.cpp. The inputs, random or read from files there, are arguments here.
  The result is `true` if all `ASSERT`s of the test hold; a failed `assert` of the library or undefined behaviour is an error.
-/
namespace Poplar

/-! ### bit_vector_test.cpp -/

/-- bit_vector_test.cpp:45-49: `bv.append_bits(x, bit_tools::ceil_log2(x))` for every `x` -/
def bvTestAppend : BitVector → List Nat → R BitVector
  | bv, [] => .ok bv
  | bv, x :: r => do bvTestAppend (← bv.appendBits x (← BitTools.ceilLog2 x)) r

/-- bit_vector_test.cpp:52-57: `ASSERT_EQ(orig[i], bv.get_bits(pos, len)); pos += len;` -/
def bvTestCheck (bv : BitVector) : Nat → List Nat → R Bool
  | _, [] => .ok true
  | pos, x :: r => do
    let len ← BitTools.ceilLog2 x
    if (← bv.getBits pos len) = x then bvTestCheck bv (pos + len) r else pure false

/-- bit_vector_test.cpp:39-58, the test `Tiny` for the numbers `xs` -/
def bvTest (xs : List Nat) : R Bool := do bvTestCheck (← bvTestAppend {} xs) 0 xs

/-! ### bijective_hash_test.cpp -/

/-- bijective_hash_test.cpp:43, 49: `ASSERT_EQ(x, h.hash_inv(h.hash(x)))` for every `x` -/
def hashTestCheck (h : SplitMix) : List Nat → R Bool
  | [] => .ok true
  | x :: r => do if (← h.hashInv (← h.hash x)) = x then hashTestCheck h r else pure false

/-- bijective_hash_test.cpp:35-52, `check_bijection(univ_bits)`; `N = 1024`; `rnd` are the results of `rnd()` -/
def checkBijection (univBits : Nat) (rnd : List Nat) : R Bool := do
  let h ← SplitMix.make univBits
  if h.univ.size ≤ 2 ^ 10 then hashTestCheck h (List.range h.univ.size)
  else hashTestCheck h (rnd.map (· % 2 ^ 10))

/-- bijective_hash_test.cpp:61-65: `for (i = first; i < 64; ++i) check_bijection(i)`; `n` is the number of iterations -/
def bijectionTest (rnd : Nat → List Nat) : Nat → Nat → R Bool
  | 0, _ => .ok true
  | n + 1, i => do if (← checkBijection i (rnd i)) then bijectionTest rnd n (i + 1) else pure false

/-! ### compact_hash_table_test.cpp -/

/-- compact_hash_table_test.cpp:65-67 -/
def chtTestSet (cfg : ChtCfg) : Cht → List (Nat × Nat) → R Cht
  | t, [] => .ok t
  | t, (k, v) :: r => do chtTestSet cfg (← Cht.set cfg t k v).1 r

/-- compact_hash_table_test.cpp:69-71 -/
def chtTestGet (cfg : ChtCfg) (t : Cht) : List (Nat × Nat) → R Bool
  | [] => .ok true
  | (k, v) :: r => do if (← Cht.get cfg t k) = v then chtTestGet cfg t r else pure false

/-- compact_hash_table_test.cpp:57-72, the test `Tiny`, for the contents `m` of the `std::map` -/
def chtTest (cfg : ChtCfg) (univBits capaBits : Nat) (m : List (Nat × Nat)) : R Bool := do
  let t ← chtTestSet cfg (← Cht.make cfg univBits capaBits) m
  chtTestGet cfg t m

/-! ### hash_trie_test.cpp -/

/-- `ht`, `ids` and `num_nodes` of `insert_keys` -/
structure TrieTest (τ : Type) where
  ht : τ
  ids : Array Nat
  numNodes : Nat

namespace TrieTest
variable {τ : Type}

/-- hash_trie_test.cpp:65-69: `if (node_map[j] != UINT64_MAX) new_ids[node_map[j]] = ids[j];` for `n` positions from `j` -/
def moveIds (nm : NodeMap) (ids : Array Nat) : Nat → Nat → Array Nat → R (Array Nat)
  | 0, _, new => .ok new
  | n + 1, j, new => do
    let i ← nm.get j
    if i ≠ u64max then moveIds nm ids n (j + 1) (← wr new i (← rd ids j)) else moveIds nm ids n (j + 1) new

/-- `ids.resize(n, x)` for a larger `n` -/
def grow (ids : Array Nat) (n x : Nat) : Array Nat := ids ++ Array.replicate (n - ids.size) x

/-- hash_trie_test.cpp:50-77, the inner loop of `insert_keys`: the characters of a key, from the node `node`. `none`: the `ASSERT`
in line 53 failed. -/
def insertChars (ops : TrieOps τ) : TrieTest τ → Nat → List UInt8 → R (Option (TrieTest τ × Nat))
  | s, node, [] => .ok (some (s, node))
  | s, node, c :: r => do
    let (t, node, isNew) ← ops.addChild s.ht node c.toNat
    if isNew then
      if ops.kind = .fkhash ∧ node ≠ s.numNodes then pure none
      else
        let numNodes := s.numNodes + 1
        match ops.kind with
        | .bonsai =>
          if ops.needsToExpand t then
            let (t, nm) ← ops.expand t
            let node ← nm.get node
            let ids ← moveIds nm s.ids nm.size 0 (Array.replicate (ops.capaSize t) u64max)
            insertChars ops { ht := t, ids := ids, numNodes := numNodes } node r
          else insertChars ops { ht := t, ids := s.ids, numNodes := numNodes } node r
        | .fkhash =>
          let ids := if s.ids.size < ops.capaSize t then grow s.ids (ops.capaSize t) 0 else s.ids
          insertChars ops { ht := t, ids := ids, numNodes := numNodes } node r
    else insertChars ops { s with ht := t } node r

/-- hash_trie_test.cpp:47-80, the loop over the keys; `i` is the index of the first key of the list -/
def insertFrom (ops : TrieOps τ) : TrieTest τ → Nat → List (List UInt8) → R (Option (TrieTest τ))
  | s, _, [] => .ok (some s)
  | s, i, k :: r => do
    match ← insertChars ops s (← ops.getRoot s.ht) k with
    | none => pure none
    | some (s, node) => do insertFrom ops { s with ids := ← wr s.ids node i } (i + 1) r

/-- hash_trie_test.cpp:34-83, `insert_keys` on a new trie with an empty vector `ids` -/
def insertKeys (ops : TrieOps τ) (ht : τ) (keys : List (List UInt8)) : R (Option (TrieTest τ)) := do
  if keys = [] then pure none
  else
    let ids := grow #[] (ops.capaSize ht) u64max
    let ht ← ops.addRoot ht
    if ops.kind = .fkhash ∧ (← ops.getRoot ht) ≠ 0 then pure none
    else
      match ← insertFrom ops { ht := ht, ids := ids, numNodes := ops.size ht } 0 keys with
      | none => pure none
      | some s => if s.numNodes = ops.size s.ht then pure (some s) else pure none

/-- hash_trie_test.cpp:91-94: follow the characters of a key; `none`: an `ASSERT` failed -/
def walk (ops : TrieOps τ) (ht : τ) : Nat → List UInt8 → R (Option Nat)
  | node, [] => .ok (some node)
  | node, c :: r => do
    let node ← ops.findChild ht node c.toNat
    if node = u64max then pure none else walk ops ht node r

/-- hash_trie_test.cpp:85-98, `search_keys`, from the index `i` -/
def searchKeys (ops : TrieOps τ) (ht : τ) (ids : Array Nat) : Nat → List (List UInt8) → R Bool
  | _, [] => .ok true
  | i, k :: r => do
    match ← walk ops ht (← ops.getRoot ht) k with
    | none => pure false
    | some node => do if (← rd ids node) = i then searchKeys ops ht ids (i + 1) r else pure false

/-- hash_trie_test.cpp:114-120: `while (node_id != ht.get_root())`, collecting the symbols; `parent` is `get_parent_and_symb`. At
most `fuel` iterations. `none`: the `ASSERT` failed. -/
def climb (ops : TrieOps τ) (parent : τ → Nat → R (Nat × Nat)) (ht : τ) : Nat → Nat → List UInt8 → R (Option (List UInt8))
  | fuel, node, restore => do
    if node = (← ops.getRoot ht) then pure (some restore)
    else
      match fuel with
      | 0 => .error .diverge
      | fuel + 1 => do
        let ps ← parent ht node
        if ps.1 = u64max then pure none else climb ops parent ht fuel ps.1 (restore ++ [UInt8.ofNat ps.2])

/-- hash_trie_test.cpp:100-126, the loop of `restore_keys` for `n` positions from `i` -/
def restoreKeys (ops : TrieOps τ) (parent : τ → Nat → R (Nat × Nat)) (fuel : Nat) (ht : τ) (keys : List (List UInt8)) (ids : Array Nat) :
    Nat → Nat → R Bool
  | 0, _ => .ok true
  | n + 1, i => do
    let x ← rd ids i
    if x = u64max then restoreKeys ops parent fuel ht keys ids n (i + 1)
    else
      match ← climb ops parent ht fuel i [] with
      | none => pure false
      | some restore => do
        if restore.reverse = (← rd keys.toArray x) then restoreKeys ops parent fuel ht keys ids n (i + 1) else pure false

end TrieTest

/-- `get_parent_and_symb` of the bonsai tries (plain_bonsai_trie.hpp:134-144, compact_bonsai_trie.hpp:142-156); the fkhash tries have
none -/
def TrieClass.parent : (c : TrieClass) → c.Obj → Nat → R (Nat × Nat)
  | plainBonsai _ => fun t i => t.getParentAndSymb i
  | compactBonsai cfg => fun t i => t.getParentAndSymb cfg i
  | plainFkhash _ | compactFkhash _ => fun _ _ => .error .oob

/-- hash_trie_test.cpp:136-161: the tests for `TypeParam ht{capa_bits, symb_bits}` and the keys `keys`; the loop that climbs to the
root is cut off after `fuel` iterations -/
def TrieClass.trieTest (c : TrieClass) (fuel capaBits symbBits : Nat) (keys : List (List UInt8)) : R Bool := do
  match ← TrieTest.insertKeys c.ops (← c.ops.make capaBits symbBits) keys with
  | none => pure false
  | some s =>
    if !(← TrieTest.searchKeys c.ops s.ht s.ids 0 keys) then pure false
    else if c.ops.kind = .bonsai then TrieTest.restoreKeys c.ops c.parent fuel s.ht keys s.ids s.ids.size 0
    else pure true

end Poplar
