import Verif.Model.PlainBonsaiTrie
import Verif.Model.PlainFkhashTrie
import Verif.Model.CompactBonsaiTrie
import Verif.Model.CompactFkhashTrie
import Verif.Model.PlainNlm
import Verif.Model.CompactNlm
import Verif.Model.BijectiveHash
import Verif.Model.Map
/-
  The map types of `include/poplar.hpp`.
-/
namespace Poplar

/-- poplar.hpp:41-57, the aliases. -/
inductive Alias where
  | plainBonsai | semiCompactBonsai | compactBonsai | plainFkhash | semiCompactFkhash | compactFkhash
deriving DecidableEq, Repr

/-- What an alias can still be instantiated with: `sizeof(Value)`, `ChunkSize` (compact label maps
only), `Hasher::hash` of the plain tries (the aliases use `vigna_hasher`, `vignaHash` in the model;
theorems hold for every function), whether `assert` is compiled in, and `MaxFactor` of the trie (90 in the aliases of
poplar.hpp; the classes can be instantiated with another one, which the `static_assert` of plain_bonsai_trie.hpp:37,
plain_fkhash_trie.hpp:39, compact_bonsai_trie.hpp:38 and compact_fkhash_trie.hpp:38 restricts to 1..99); and, for the compact tries, `Dsp1Bits` and the `ValBits` of `AuxCht` (4
and 7 in the aliases; compact_bonsai_trie.hpp:35, compact_fkhash_trie.hpp:35; bench/bench_load_factors.cpp:97-110 uses 3 to 5 for the
former). Simplification: only up to 16 and 11, with which no table entry can exceed 64 bits, whatever `lambda` and capacity. -/
structure Params where
  valSize : Nat
  chunkSize : Nat := 16
  hash : Nat → Nat := vignaHash
  dbg : Bool := false
  maxFactor : Nat := 90
  factor_ok : 0 < maxFactor ∧ maxFactor < 100 := by decide
  dsp1Bits : Nat := 4
  dsp1_ok : 0 < dsp1Bits ∧ dsp1Bits ≤ 16 := by decide
  dsp2Bits : Nat := 7
  dsp2_ok : 0 < dsp2Bits ∧ dsp2Bits ≤ 11 := by decide

/-- compact_bonsai_nlm.hpp:40 and compact_fkhash_nlm.hpp:40 use `chunk_type_traits<ChunkSize>`
(basics.hpp:126-143), defined for these sizes only; `sizeof(Value)` is positive, and a value fits in memory. -/
structure Params.Valid (p : Params) : Prop where
  chunk : p.chunkSize = 8 ∨ p.chunkSize = 16 ∨ p.chunkSize = 32 ∨ p.chunkSize = 64
  val : 0 < p.valSize
  val64 : p.valSize + 1 < 2 ^ 64

namespace Alias

/-- the trie class of an alias -/
abbrev Trie : Alias → Type
  | plainBonsai | semiCompactBonsai => PlainBonsai
  | compactBonsai => CompactBonsai
  | plainFkhash | semiCompactFkhash => PlainFk
  | compactFkhash => CompactFk

/-- the node label map class of an alias -/
abbrev Nlm : Alias → Type
  | plainBonsai => PlainBonsaiNlm
  | semiCompactBonsai | compactBonsai => CompactBonsaiNlm
  | plainFkhash => PlainFkNlm
  | semiCompactFkhash | compactFkhash => CompactFkNlm

/-- plain_bonsai_trie.hpp:35,41: the template arguments and `min_capa_bits`. -/
def plainCfg (p : Params) : PlainCfg := { minCapaBits := 16, maxFactor := p.maxFactor, hash := p.hash }

/-- compact_bonsai_trie.hpp:35,47 and compact_fkhash_trie.hpp:35,47: the template arguments
and `min_capa_bits`. -/
def compactCfg (p : Params) : CompactCfg := { minCapaBits := 16, maxFactor := p.maxFactor, dsp := { dsp1Bits := p.dsp1Bits, dsp2Bits := p.dsp2Bits } }

/-- poplar.hpp:41-57, the template arguments of each alias. -/
def cfg : (a : Alias) → (p : Params) → MapCfg a.Trie a.Nlm
  | plainBonsai, p => { T := PlainBonsai.ops (plainCfg p), L := PlainBonsaiNlm.ops p.valSize, dbg := p.dbg }
  | semiCompactBonsai, p =>
    { T := PlainBonsai.ops (plainCfg p), L := CompactBonsaiNlm.ops p.chunkSize p.valSize, dbg := p.dbg }
  | compactBonsai, p =>
    { T := CompactBonsai.ops (compactCfg p), L := CompactBonsaiNlm.ops p.chunkSize p.valSize, dbg := p.dbg }
  | plainFkhash, p =>
    { T := PlainFk.ops { plainCfg p with dbg := p.dbg }, L := PlainFkNlm.ops p.valSize, dbg := p.dbg }
  | semiCompactFkhash, p =>
    { T := PlainFk.ops { plainCfg p with dbg := p.dbg }, L := CompactFkNlm.ops p.chunkSize p.valSize, dbg := p.dbg }
  | compactFkhash, p =>
    { T := CompactFk.ops (compactCfg p), L := CompactFkNlm.ops p.chunkSize p.valSize, dbg := p.dbg }

end Alias

/-- How the user creates a map: map.hpp:52 `map()`, or map.hpp:56 `map(capa_bits, lambda)`. -/
inductive Init where
  | default
  | make (capaBits lambda : Nat)

/-- a new map -/
def Alias.new (a : Alias) (p : Params) : Init → R (Map a.Trie a.Nlm)
  | .default => .ok (Map.default (a.cfg p))
  | .make cb lam => Map.make (a.cfg p) cb lam

end Poplar
