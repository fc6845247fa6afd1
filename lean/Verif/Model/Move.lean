import Verif.Model.MapRun
/-
  Moves (map.hpp:239-240, defaulted): member-wise. A moved-from `std::vector` is empty; a moved-from integer, `bool`,
  `std::array` of integers or `size_p2` keeps its value. The target of a move gets the old state unchanged, so it is not
  modelled separately; the functions here give the state the source is left in.
-/
namespace Poplar

/-- compact_vector.hpp:105-106: `chunks_` (a `std::vector`) is emptied, the integers stay. -/
def CompactVector.movedFrom (v : CompactVector) : CompactVector := { v with chunks := #[] }

/-- compact_hash_table.hpp:251-252. -/
def Cht.movedFrom (t : Cht) : Cht := { t with table := t.table.movedFrom }

/-- standard_hash_table.hpp:122-123: `table_` is a `std::vector`. -/
def Sht.movedFrom (t : Sht) : Sht := { t with table := #[] }

/-- the members `table_`, `aux_cht_`, `aux_map_` and `num_dsps_` of the compact tries -/
def DspTable.movedFrom (d : DspTable) : DspTable :=
  { d with table := d.table.movedFrom, cht := d.cht.movedFrom, map := d.map.movedFrom }

/-- plain_bonsai_trie.hpp:271-272. -/
def PlainBonsai.movedFrom (t : PlainBonsai) : PlainBonsai := { t with table := t.table.movedFrom }

/-- compact_bonsai_trie.hpp:328-329. -/
def CompactBonsai.movedFrom (t : CompactBonsai) : CompactBonsai := { t with d := t.d.movedFrom }

/-- plain_fkhash_trie.hpp:174-175. -/
def PlainFk.movedFrom (t : PlainFk) : PlainFk := { t with table := t.table.movedFrom, ids := t.ids.movedFrom }

/-- compact_fkhash_trie.hpp:194-195. -/
def CompactFk.movedFrom (t : CompactFk) : CompactFk := { t with d := t.d.movedFrom, ids := t.ids.movedFrom }

/-- plain_bonsai_nlm.hpp:130-131: `ptrs_` is a `std::vector`; the blocks now belong to the target. -/
def PlainBonsaiNlm.movedFrom (m : PlainBonsaiNlm) : PlainBonsaiNlm := { m with ptrs := #[], heap := {} }

/-- compact_bonsai_nlm.hpp:208-209. -/
def CompactBonsaiNlm.movedFrom (m : CompactBonsaiNlm) : CompactBonsaiNlm := { m with ptrs := #[], chunks := #[], heap := {} }

/-- plain_fkhash_nlm.hpp:116-117. -/
def PlainFkNlm.movedFrom (m : PlainFkNlm) : PlainFkNlm := { m with ptrs := #[], heap := {} }

/-- compact_fkhash_nlm.hpp:156-157. -/
def CompactFkNlm.movedFrom (m : CompactFkNlm) : CompactFkNlm := { m with chunkPtrs := #[], chunkBuf := [], heap := {} }

namespace Alias

/-- the trie of a moved-from map -/
def trieMovedFrom : (a : Alias) → a.Trie → a.Trie
  | plainBonsai, t | semiCompactBonsai, t => PlainBonsai.movedFrom t
  | compactBonsai, t => CompactBonsai.movedFrom t
  | plainFkhash, t | semiCompactFkhash, t => PlainFk.movedFrom t
  | compactFkhash, t => CompactFk.movedFrom t

/-- the label store of a moved-from map -/
def nlmMovedFrom : (a : Alias) → a.Nlm → a.Nlm
  | plainBonsai, m => PlainBonsaiNlm.movedFrom m
  | semiCompactBonsai, m | compactBonsai, m => CompactBonsaiNlm.movedFrom m
  | plainFkhash, m => PlainFkNlm.movedFrom m
  | semiCompactFkhash, m | compactFkhash, m => CompactFkNlm.movedFrom m

/-- map.hpp:239-240: the state the source of a move is left in; `is_ready_`, `lambda_`, `codes_`, `num_codes_` and `size_`
keep their values. -/
def movedFrom (a : Alias) (m : Map a.Trie a.Nlm) : Map a.Trie a.Nlm :=
  { m with trie := a.trieMovedFrom m.trie, nlm := a.nlmMovedFrom m.nlm }

end Alias
end Poplar
