import Verif.Model.MapRun
/-
  The memory of the label maps: destructors, and the number of bytes of the blocks they own.
-/
namespace Poplar

namespace Heap

/-- total size of the blocks that have been allocated and not released -/
def bytes (h : Heap) : Nat := (h.blocks.toList.map (fun b => (b.getD []).length)).sum

/-- the blocks that have been allocated and not released -/
def live (h : Heap) : List (List UInt8) := h.blocks.toList.filterMap id

end Heap

/-- plain_bonsai_nlm.hpp:47, defaulted destructor: every `unique_ptr` of `ptrs_` releases its block; the heap that is left. -/
def PlainBonsaiNlm.destroy (m : PlainBonsaiNlm) : R Heap := m.ptrs.toList.foldlM (fun h p => h.freeOpt p) m.heap

/-- compact_bonsai_nlm.hpp:49, defaulted destructor. -/
def CompactBonsaiNlm.destroy (m : CompactBonsaiNlm) : R Heap := m.ptrs.toList.foldlM (fun h p => h.freeOpt p) m.heap

/-- plain_fkhash_nlm.hpp:48, defaulted destructor. -/
def PlainFkNlm.destroy (m : PlainFkNlm) : R Heap := m.ptrs.toList.foldlM (fun h p => h.freeOpt p) m.heap

/-- compact_fkhash_nlm.hpp:52, defaulted destructor. -/
def CompactFkNlm.destroy (m : CompactFkNlm) : R Heap :=
  (m.chunkPtrs.toList.map some).foldlM (fun h p => h.freeOpt p) m.heap

namespace Alias

/-- map.hpp:68, defaulted destructor, as far as the label map is concerned (all other members are `std::vector`s of
integers, integers and `std::array`s, which release themselves) -/
def destroy : (a : Alias) → a.Nlm → R Heap
  | plainBonsai, m => PlainBonsaiNlm.destroy m
  | semiCompactBonsai, m | compactBonsai, m => CompactBonsaiNlm.destroy m
  | plainFkhash, m => PlainFkNlm.destroy m
  | semiCompactFkhash, m | compactFkhash, m => CompactFkNlm.destroy m

/-- the heap blocks of the label map -/
def heap : (a : Alias) → a.Nlm → Heap
  | plainBonsai, m => PlainBonsaiNlm.heap m
  | semiCompactBonsai, m | compactBonsai, m => CompactBonsaiNlm.heap m
  | plainFkhash, m => PlainFkNlm.heap m
  | semiCompactFkhash, m | compactFkhash, m => CompactFkNlm.heap m

/-- `label_bytes_` (the part of `alloc_bytes()` that counts labels and values; plain_bonsai_nlm.hpp:111,
compact_bonsai_nlm.hpp:188, plain_fkhash_nlm.hpp:98, compact_fkhash_nlm.hpp:136) -/
def labelBytes : (a : Alias) → a.Nlm → Nat
  | plainBonsai, m => PlainBonsaiNlm.labelBytes m
  | semiCompactBonsai, m | compactBonsai, m => CompactBonsaiNlm.labelBytes m
  | plainFkhash, m => PlainFkNlm.labelBytes m
  | semiCompactFkhash, m | compactFkhash, m => CompactFkNlm.labelBytes m

/-- `max_length`, printed by `show_stats` with `POPLAR_EXTRA_STATS` (plain_bonsai_nlm.hpp:122, compact_bonsai_nlm.hpp:199,
plain_fkhash_nlm.hpp:108, compact_fkhash_nlm.hpp:147) -/
def maxLength : (a : Alias) → a.Nlm → Nat
  | plainBonsai, m => PlainBonsaiNlm.maxLength m
  | semiCompactBonsai, m | compactBonsai, m => CompactBonsaiNlm.maxLength m
  | plainFkhash, m => PlainFkNlm.maxLength m
  | semiCompactFkhash, m | compactFkhash, m => CompactFkNlm.maxLength m

/-- `sum_length_`, the numerator of `ave_length`, printed by `show_stats` with `POPLAR_EXTRA_STATS`
(plain_bonsai_nlm.hpp:123, compact_bonsai_nlm.hpp:200, plain_fkhash_nlm.hpp:109, compact_fkhash_nlm.hpp:148); the denominator
is `size()` of the label map. The code computes the quotient as a `double`. -/
def sumLength : (a : Alias) → a.Nlm → Nat
  | plainBonsai, m => PlainBonsaiNlm.sumLength m
  | semiCompactBonsai, m | compactBonsai, m => CompactBonsaiNlm.sumLength m
  | plainFkhash, m => PlainFkNlm.sumLength m
  | semiCompactFkhash, m | compactFkhash, m => CompactFkNlm.sumLength m

/-- `chunk_buf_.size()` of the compact fkhash label map (compact_fkhash_nlm.hpp:162): bytes of labels and values that are not
in a heap block of their own yet -/
def buffered : (a : Alias) → a.Nlm → Nat
  | semiCompactFkhash, m | compactFkhash, m => (CompactFkNlm.chunkBuf m).length
  | _, _ => 0

end Alias
end Poplar
