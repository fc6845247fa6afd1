import Verif.Model.Interfaces
import Verif.Model.PlainBonsaiTrie
/-
  Model of `include/poplar/plain_fkhash_trie.hpp`.
-/
namespace Poplar

/-- Parameters of `plain_fkhash_trie`; `dbg` says whether `assert(key != 0)` (lines 104, 211) is
compiled in. All other assertions are modelled unconditionally (they are proved never to fail). -/
structure PlainFkCfg extends PlainCfg where
  dbg : Bool

/-- plain_fkhash_trie.hpp:178-185, data members; `num_resize_` exists only with `POPLAR_EXTRA_STATS`. -/
structure PlainFk where
  table : CompactVector := {}
  ids : CompactVector := {}
  size : Nat := 0
  maxSize : Nat := 0
  capa : SizeP2 := {}
  symb : SizeP2 := {}
  numResize : Nat := 0
deriving Repr, DecidableEq

namespace PlainFk

/-- plain_fkhash_trie.hpp:52-58, constructor. -/
def make (cfg : PlainFkCfg) (capaBits symbBits : Nat) : R PlainFk := do
  let capa ← SizeP2.make (max cfg.minCapaBits capaBits)
  let symb ← SizeP2.make symbBits
  let table ← CompactVector.make capa.size (capa.bits + symb.bits)
  let ids ← CompactVector.make capa.size capa.bits
  pure { table := table, ids := ids, size := 0, maxSize := Poplar.maxSize capa.size cfg.maxFactor,
         capa := capa, symb := symb }

/-- plain_fkhash_trie.hpp:63-66, `get_root`. -/
def getRoot (t : PlainFk) : R Nat := do
  R.assert (t.size ≠ 0)
  pure 0

/-- plain_fkhash_trie.hpp:68-71, `add_root`. -/
def addRoot (t : PlainFk) : R PlainFk := do
  R.assert (t.size = 0)
  pure { t with size := 1 }

/-- plain_fkhash_trie.hpp:188-190, `make_key_`. -/
def makeKey (t : PlainFk) (nodeId symb : Nat) : Nat := shl64 nodeId t.symb.bits ||| symb

/-- plain_fkhash_trie.hpp:84-91, loop body of `find_child`. -/
def findBody (t : PlainFk) (key : Nat) (i _cnt : Nat) : R (Option Nat) := do
  let childId ← t.ids.get i
  if childId = 0 then pure (some u64max)
  else if (← t.table.get i) = key then pure (some childId)
  else pure none

/-- plain_fkhash_trie.hpp:73-93, `find_child`. -/
def findChild (cfg : PlainFkCfg) (t : PlainFk) (nodeId symb : Nat) : R Nat := do
  R.assert (nodeId < t.capa.size)
  R.assert (symb < t.symb.size)
  if t.size = 0 then pure u64max
  else
    let key := t.makeKey nodeId symb
    probe t.capa.mask (t.findBody key) t.capa.size (cfg.hash key &&& t.capa.mask) 0

/-- plain_fkhash_trie.hpp:214-218, body of the inner loop of `expand_`. -/
def reinsertBody (n : PlainFk) (key childId : Nat) (i _cnt : Nat) : R (Option PlainFk) := do
  if (← n.ids.get i) = 0 then
    let table ← n.table.set i key
    let ids ← n.ids.set i childId
    pure (some { n with table := table, ids := ids })
  else pure none

/-- plain_fkhash_trie.hpp:204-220, outer loop of `expand_`; `c` iterations are left, the next slot
is `i`; `n` is `new_ht`. -/
def expandLoop (cfg : PlainFkCfg) (t : PlainFk) : (c i : Nat) → PlainFk → R PlainFk
  | 0, _, n => .ok n
  | c + 1, i, n => do
    let childId ← t.ids.get i
    if childId = 0 then expandLoop cfg t c (i + 1) n
    else
      let key ← t.table.get i
      R.assert (!cfg.dbg || key ≠ 0)
      let n ← probe n.capa.mask (n.reinsertBody key childId) n.capa.size (cfg.hash key &&& n.capa.mask) 0
      expandLoop cfg t c (i + 1) n

/-- plain_fkhash_trie.hpp:198-224, `expand_`. -/
def expandSelf (cfg : PlainFkCfg) (t : PlainFk) : R PlainFk := do
  let n ← make cfg (t.capa.bits + 1) t.symb.bits
  let n := { n with numResize := t.numResize + 1 }
  let n ← expandLoop cfg t t.capa.size 0 n
  pure { n with size := t.size }

/-- plain_fkhash_trie.hpp:107-122, loop body of `add_child`: the new trie, `node_id` and the flag. -/
def addBody (t : PlainFk) (key : Nat) (i _cnt : Nat) : R (Option (PlainFk × Nat × Bool)) := do
  let childId ← t.ids.get i
  if childId = 0 then
    let nodeId := t.size
    R.assert (nodeId ≠ 0)
    let table ← t.table.set i key
    let ids ← t.ids.set i nodeId
    pure (some ({ t with table := table, ids := ids, size := t.size + 1 }, nodeId, true))
  else if (← t.table.get i) = key then pure (some (t, childId, false))
  else pure none

/-- plain_fkhash_trie.hpp:95-124, `add_child`. -/
def addChild (cfg : PlainFkCfg) (t : PlainFk) (nodeId symb : Nat) : R (PlainFk × Nat × Bool) := do
  R.assert (nodeId < t.capa.size)
  R.assert (symb < t.symb.size)
  let t ← if t.maxSize ≤ t.size then expandSelf cfg t else pure t
  let key := t.makeKey nodeId symb
  R.assert (!cfg.dbg || key ≠ 0)
  probe t.capa.mask (t.addBody key) t.capa.size (cfg.hash key &&& t.capa.mask) 0

/-- The members of `plain_fkhash_trie` used by `map` (map.hpp); the two bonsai-only members are
never called. -/
def ops (cfg : PlainFkCfg) : TrieOps PlainFk where
  kind := .fkhash
  empty := {}
  make := make cfg
  size := fun t => t.size
  numResize := fun t => t.numResize
  capaBits := fun t => t.capa.bits
  capaSize := fun t => t.capa.size
  getRoot := getRoot
  addRoot := addRoot
  findChild := findChild cfg
  addChild := addChild cfg
  needsToExpand := fun _ => false
  expand := fun _ => .error .assertion

end PlainFk
end Poplar
