import Verif.Model.PhysNlm
import Verif.Model.MapRun
/-
  The maps of Model/Aliases.lean with their labels and values in the flat memory of Model/PhysHeap.lean.
-/
namespace Poplar
open Spec (Op Out)
namespace Alias

/-- the node label map class of an alias -/
abbrev PNlm : Alias → Type
  | plainBonsai => Phys.PlainBonsaiNlm
  | semiCompactBonsai | compactBonsai => Phys.CompactBonsaiNlm
  | plainFkhash => Phys.PlainFkNlm
  | semiCompactFkhash | compactFkhash => Phys.CompactFkNlm

/-- poplar.hpp:41-57, the second template argument of each alias -/
def physL (E : Phys.Env) : (a : Alias) → (p : Params) → NlmOps a.PNlm
  | plainBonsai, p => Phys.PlainBonsaiNlm.ops E p.valSize
  | semiCompactBonsai, p | compactBonsai, p => Phys.CompactBonsaiNlm.ops E p.chunkSize p.valSize
  | plainFkhash, p => Phys.PlainFkNlm.ops E p.valSize
  | semiCompactFkhash, p | compactFkhash, p => Phys.CompactFkNlm.ops E p.chunkSize p.valSize

/-- poplar.hpp:41-57, the template arguments of each alias; the trie is the same as in `Alias.cfg` (the tries are vectors of
integers and no pointers into them leave the class) -/
def physCfg (E : Phys.Env) (a : Alias) (p : Params) : MapCfg a.Trie a.PNlm :=
  { T := (a.cfg p).T, L := a.physL E p, dbg := p.dbg }

/-- a new map -/
def physNew (E : Phys.Env) (a : Alias) (p : Params) : Init → R (Map a.Trie a.PNlm)
  | .default => .ok (Map.default (a.physCfg E p))
  | .make cb lam => Map.make (a.physCfg E p) cb lam

/-- Everything the user of a new map sees when performing a history. -/
def physHistory (E : Phys.Env) (a : Alias) (p : Params) (i : Init) (os : List Op) : R (List Out) := do
  let m ← a.physNew E p i
  let (_, xs) ← Map.run (a.physCfg E p) m os
  pure xs

/-- the memory the label map lives in -/
def physHeap : (a : Alias) → a.PNlm → Phys.Heap
  | plainBonsai, m => Phys.PlainBonsaiNlm.heap m
  | semiCompactBonsai, m | compactBonsai, m => Phys.CompactBonsaiNlm.heap m
  | plainFkhash, m => Phys.PlainFkNlm.heap m
  | semiCompactFkhash, m | compactFkhash, m => Phys.CompactFkNlm.heap m

/-- `label_bytes_` (the part of `alloc_bytes()` that counts labels and values; plain_bonsai_nlm.hpp:111,
compact_bonsai_nlm.hpp:188, plain_fkhash_nlm.hpp:98, compact_fkhash_nlm.hpp:136) -/
def physLabelBytes : (a : Alias) → a.PNlm → Nat
  | plainBonsai, m => Phys.PlainBonsaiNlm.labelBytes m
  | semiCompactBonsai, m | compactBonsai, m => Phys.CompactBonsaiNlm.labelBytes m
  | plainFkhash, m => Phys.PlainFkNlm.labelBytes m
  | semiCompactFkhash, m | compactFkhash, m => Phys.CompactFkNlm.labelBytes m

/-- map.hpp:68 and the destructors of the label maps (plain_bonsai_nlm.hpp:47, compact_bonsai_nlm.hpp:49, plain_fkhash_nlm.hpp:48,
compact_fkhash_nlm.hpp:52, all defaulted): every `unique_ptr` releases its block; the memory that is left. -/
def physDestroy : (a : Alias) → a.PNlm → R Phys.Heap
  | plainBonsai, m => (Phys.PlainBonsaiNlm.ptrs m).toList.foldlM (fun h p => h.freeOpt p) (Phys.PlainBonsaiNlm.heap m)
  | semiCompactBonsai, m | compactBonsai, m =>
    (Phys.CompactBonsaiNlm.ptrs m).toList.foldlM (fun h p => h.freeOpt p) (Phys.CompactBonsaiNlm.heap m)
  | plainFkhash, m => (Phys.PlainFkNlm.ptrs m).toList.foldlM (fun h p => h.freeOpt p) (Phys.PlainFkNlm.heap m)
  | semiCompactFkhash, m | compactFkhash, m =>
    ((Phys.CompactFkNlm.chunkPtrs m).toList.map some).foldlM (fun h p => h.freeOpt p) (Phys.CompactFkNlm.heap m)

end Alias
end Poplar
