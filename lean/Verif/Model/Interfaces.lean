import Verif.Model.TrieBase
/-
  The interfaces through which `map` (map.hpp) uses its two template parameters.
-/
namespace Poplar

/-- basics.hpp:45, `enum class trie_type_ids`. -/
inductive Kind where
  | bonsai | fkhash
deriving DecidableEq, Repr

/-- The members of a trie class used by map.hpp (template parameter `Trie`). -/
structure TrieOps (τ : Type) where
  kind : Kind
  /-- default constructor, used by `map() = default` (map.hpp:52) -/
  empty : τ
  /-- `Trie{capa_bits, symb_bits}` (map.hpp:61) -/
  make : Nat → Nat → R τ
  size : τ → Nat
  /-- `num_resize()`, only with `POPLAR_EXTRA_STATS` (map.hpp:209-211) -/
  numResize : τ → Nat
  capaBits : τ → Nat
  capaSize : τ → Nat
  getRoot : τ → R Nat
  addRoot : τ → R τ
  findChild : τ → Nat → Nat → R Nat
  addChild : τ → Nat → Nat → R (τ × Nat × Bool)
  /-- used for `BONSAI_TRIE` only (map.hpp:265) -/
  needsToExpand : τ → Bool
  /-- used for `BONSAI_TRIE` only (map.hpp:268) -/
  expand : τ → R (τ × NodeMap)

/-- What a value pointer points into: a heap block, or the tail buffer `chunk_buf_` of
compact_fkhash_nlm.hpp. `chunk_buf_.clear()` (compact_fkhash_nlm.hpp:175) invalidates all pointers into
the buffer; `gen` counts how often that has happened. -/
inductive Blk where
  | heap (a : Nat)
  | buf (gen : Nat)
deriving DecidableEq, Repr

/-- A pointer to a value: what it points into, and a byte offset in it. -/
structure Loc where
  blk : Blk
  off : Nat
deriving DecidableEq, Repr

/-- The members of a node label map class used by map.hpp (template parameter `NLM`), and reading
and writing the `sizeof(value_type)` bytes of a value through a pointer. -/
structure NlmOps (ν : Type) where
  empty : ν
  /-- `NLM{capa_bits}` (map.hpp:62) -/
  make : Nat → R ν
  size : ν → Nat
  compare : ν → Nat → List UInt8 → R (Option Loc × Nat)
  /-- `BONSAI_TRIE` only (map.hpp:138,184) -/
  insert : ν → Nat → List UInt8 → R (ν × Loc)
  /-- `FKHASH_TRIE` only (map.hpp:135,181) -/
  append : ν → List UInt8 → R (ν × Loc)
  /-- `FKHASH_TRIE` only (map.hpp:162) -/
  appendDummy : ν → R ν
  /-- `BONSAI_TRIE` only (map.hpp:270) -/
  expand : ν → NodeMap → R ν
  load : ν → Loc → R (List UInt8)
  store : ν → Loc → List UInt8 → R ν

end Poplar
