import Verif.Model.CompactVector
import Verif.Model.BitVector
/-
  Code shared by the four dynamic tries.
-/
namespace Poplar

/-- The probing loops `for (uint64_t i = init, cnt = c0;; i = right_(i), ++cnt) { body }` of
plain_bonsai_trie.hpp:78,103, compact_bonsai_trie.hpp:92,115, plain_fkhash_trie.hpp:83,106,213,
compact_fkhash_trie.hpp:89,113,313 and standard_hash_table.hpp:57,78. `right_(i) = (i + 1) & mask`.
The body returns `some a` for `return a` and `none` for `continue`. `fuel` bounds the number of
iterations; running out of it counts as divergence. -/
def probe {α : Type} (mask : Nat) (body : Nat → Nat → R (Option α)) : (fuel i cnt : Nat) → R α
  | 0, _, _ => .error .diverge
  | fuel + 1, i, cnt => do
    match ← body i cnt with
    | some a => pure a
    | none => probe mask body fuel ((i + 1) &&& mask) (cnt + 1)

/-- `node_map` of plain_bonsai_trie.hpp:146-172 and compact_bonsai_trie.hpp:158-192: its size and
its `operator[]`. -/
structure NodeMap where
  size : Nat
  get : Nat → R Nat

/-- The loop `do { ... } while (!done_flags[node_id])` of plain_bonsai_trie.hpp:204-209 and
compact_bonsai_trie.hpp:247-252. `parent v` is `get_parent_and_symb(v)`. Returns the final
`node_id` and the path with the element pushed last first (i.e. in the order in which
`rbegin..rend` visits it). -/
def climb (parent : Nat → R (Nat × Nat)) (done : BitVector) :
    (fuel nodeId : Nat) → List (Nat × Nat) → R (Nat × List (Nat × Nat))
  | 0, _, _ => .error .diverge
  | fuel + 1, nodeId, path => do
    let (par, label) ← parent nodeId
    R.assert (par ≠ u64max)
    let path := (nodeId, label) :: path
    if ← done.get par then pure (par, path)
    else climb parent done fuel par path

/-- The loop over `rbegin..rend` of plain_bonsai_trie.hpp:213-217 and compact_bonsai_trie.hpp:256-260.
`σ` is the old table (into which the mapping is written), `τ` the new trie. -/
def descend {σ τ : Type} (setMap : σ → Nat → Nat → R σ) (addChild : τ → Nat → Nat → R (τ × Nat × Bool)) :
    List (Nat × Nat) → σ → τ → BitVector → Nat → R (σ × τ × BitVector)
  | [], s, t, done, _ => .ok (s, t, done)
  | (node, label) :: path, s, t, done, newNode => do
    let (t, newNode, _) ← addChild t newNode label
    let s ← setMap s node newNode
    let done ← done.set node
    descend setMap addChild path s t done newNode

/-- The outer loop of `expand`: plain_bonsai_trie.hpp:195-218, compact_bonsai_trie.hpp:238-261.
`n` slots are left, the next one is `i`. -/
def expandLoop {σ τ : Type} (isEmpty : σ → Nat → R Bool) (parent : σ → Nat → R (Nat × Nat))
    (getMap : σ → Nat → R Nat) (setMap : σ → Nat → Nat → R σ)
    (addChild : τ → Nat → Nat → R (τ × Nat × Bool)) (fuel : Nat) :
    (n i : Nat) → σ → τ → BitVector → R (σ × τ × BitVector)
  | 0, _, s, t, done => .ok (s, t, done)
  | n + 1, i, s, t, done => do
    let skip ← if ← done.get i then pure true else isEmpty s i
    if skip then expandLoop isEmpty parent getMap setMap addChild fuel n (i + 1) s t done
    else
      let (top, path) ← climb (parent s) done fuel i []
      let newNode ← getMap s top
      let (s, t, done) ← descend setMap addChild path s t done newNode
      expandLoop isEmpty parent getMap setMap addChild fuel n (i + 1) s t done

end Poplar
