import Verif.Model.Aliases
/-
  `alloc_bytes()` of all classes. A `std::vector` that gets its size once, when it is constructed or by a
  `resize` of an empty vector, is taken to have that capacity (the standard only says at least that; libstdc++
  and libc++ do it exactly). Vectors that grow by `emplace_back` have implementation-defined capacities, which are
  parameters (`Caps`). Sums are natural numbers.
-/
namespace Poplar

/-- compact_vector.hpp:98-100. -/
def CompactVector.allocBytes (v : CompactVector) : Nat := v.chunks.size * 8

/-- standard_hash_table.hpp:102-104; `slot_type` is a pair of `uint64_t` (lines 126-129). -/
def Sht.allocBytes (t : Sht) : Nat := t.table.size * 16

/-- compact_hash_table.hpp:229-231. -/
def Cht.allocBytes (t : Cht) : Nat := t.table.allocBytes

/-- plain_bonsai_trie.hpp:250-252. -/
def PlainBonsai.allocBytes (t : PlainBonsai) : Nat := t.table.allocBytes

/-- plain_fkhash_trie.hpp:150-155. -/
def PlainFk.allocBytes (t : PlainFk) : Nat := t.table.allocBytes + t.ids.allocBytes

/-- compact_bonsai_trie.hpp:292-298. -/
def CompactBonsai.allocBytes (t : CompactBonsai) : Nat :=
  t.d.table.allocBytes + t.d.cht.allocBytes + t.d.map.allocBytes

/-- compact_fkhash_trie.hpp:157-164. -/
def CompactFk.allocBytes (t : CompactFk) : Nat :=
  t.d.table.allocBytes + t.d.cht.allocBytes + t.d.map.allocBytes + t.ids.allocBytes

/-- the capacities of the vectors that grow: `ptrs_` of plain_fkhash_nlm.hpp:120, `chunk_ptrs_` and `chunk_buf_`
of compact_fkhash_nlm.hpp:160-161 -/
structure Caps where
  ptrs : Nat
  buf : Nat

/-- plain_bonsai_nlm.hpp:108-113; a `std::unique_ptr` has 8 bytes. -/
def PlainBonsaiNlm.allocBytes (m : PlainBonsaiNlm) : Nat := m.ptrs.size * 8 + m.labelBytes

/-- compact_bonsai_nlm.hpp:184-190; a `chunk_type` has `W` bits (basics.hpp:126-143). -/
def CompactBonsaiNlm.allocBytes (W : Nat) (m : CompactBonsaiNlm) : Nat :=
  m.ptrs.size * 8 + m.chunks.size * (W / 8) + m.labelBytes

/-- plain_fkhash_nlm.hpp:95-100. -/
def PlainFkNlm.allocBytes (c : Caps) (m : PlainFkNlm) : Nat := c.ptrs * 8 + m.labelBytes

/-- compact_fkhash_nlm.hpp:132-138. -/
def CompactFkNlm.allocBytes (c : Caps) (m : CompactFkNlm) : Nat := c.ptrs * 8 + c.buf + m.labelBytes

namespace Alias

/-- `hash_trie_.alloc_bytes()` -/
def trieBytes : (a : Alias) → a.Trie → Nat
  | plainBonsai, t | semiCompactBonsai, t => PlainBonsai.allocBytes t
  | compactBonsai, t => CompactBonsai.allocBytes t
  | plainFkhash, t | semiCompactFkhash, t => PlainFk.allocBytes t
  | compactFkhash, t => CompactFk.allocBytes t

/-- `label_store_.alloc_bytes()` -/
def nlmBytes (p : Params) (c : Caps) : (a : Alias) → a.Nlm → Nat
  | plainBonsai, m => PlainBonsaiNlm.allocBytes m
  | semiCompactBonsai, m | compactBonsai, m => CompactBonsaiNlm.allocBytes p.chunkSize m
  | plainFkhash, m => PlainFkNlm.allocBytes c m
  | semiCompactFkhash, m | compactFkhash, m => CompactFkNlm.allocBytes c m

/-- map.hpp:213-219, `alloc_bytes`. -/
def allocBytes (a : Alias) (p : Params) (c : Caps) (m : Map a.Trie a.Nlm) : Nat :=
  a.trieBytes m.trie + a.nlmBytes p c m.nlm + m.codes.size

/-- The numerators of `rate_dsp1st`, `rate_dsp2nd` and `rate_dsp3rd` in `show_stats` of the compact tries (the denominator is `size()`):
compact_bonsai_trie.hpp:312-314, compact_fkhash_trie.hpp:178-180. The other tries do not have these statistics. -/
def dspCounts : (a : Alias) → a.Trie → Option (Nat × Nat × Nat)
  | compactBonsai, (t : CompactBonsai) => some (t.d.num1, t.d.num2, t.d.num3)
  | compactFkhash, (t : CompactFk) => some (t.d.num1, t.d.num2, t.d.num3)
  | _, _ => none

/-- `size` of `aux_cht_` and of `aux_map_`, from their `show_stats` (compact_bonsai_trie.hpp:319-322, compact_fkhash_trie.hpp:185-188,
compact_hash_table.hpp:238, standard_hash_table.hpp:111) -/
def auxSizes : (a : Alias) → a.Trie → Option (Nat × Nat)
  | compactBonsai, (t : CompactBonsai) => some (t.d.cht.size, t.d.map.size)
  | compactFkhash, (t : CompactFk) => some (t.d.cht.size, t.d.map.size)
  | _, _ => none

end Alias
end Poplar
