import Verif.Model.Interfaces
import Verif.Model.DspTable
/-
  Model of `include/poplar/compact_fkhash_trie.hpp`.
-/
namespace Poplar

/-- compact_fkhash_trie.hpp:198-208, data members; `num_resize_` exists only with `POPLAR_EXTRA_STATS`. -/
structure CompactFk where
  hasher : SplitMix := {}
  d : DspTable := {}
  ids : CompactVector := {}
  size : Nat := 0
  maxSize : Nat := 0
  capa : SizeP2 := {}
  symb : SizeP2 := {}
  numResize : Nat := 0
deriving Repr, DecidableEq

namespace CompactFk

/-- compact_fkhash_trie.hpp:59-67, constructor. Keys wider than 63 bits (the assertion of
bijective_hash.hpp in the hasher's constructor; undefined behaviour in release builds) are a
`limit` fault. -/
def make (cfg : CompactCfg) (capaBits symbBits : Nat) : R CompactFk := do
  let capa ← SizeP2.make (max cfg.minCapaBits capaBits)
  let symb ← SizeP2.make symbBits
  if capa.bits + symb.bits < 64 then
    let hasher ← SplitMix.make (capa.bits + symb.bits)
    let d ← DspTable.make cfg.dsp capa symb
    let ids ← CompactVector.makeInit capa.size capa.bits capa.mask
    pure { hasher := hasher, d := d, ids := ids, size := 0, maxSize := Poplar.maxSize capa.size cfg.maxFactor
           capa := capa, symb := symb }
  else .error .limit

/-- compact_fkhash_trie.hpp:72-75, `get_root`. -/
def getRoot (t : CompactFk) : R Nat := do
  R.assert (t.size ≠ 0)
  pure 0

/-- compact_fkhash_trie.hpp:77-80, `add_root`. -/
def addRoot (t : CompactFk) : R CompactFk := do
  R.assert (t.size = 0)
  pure { t with size := 1 }

/-- compact_fkhash_trie.hpp:212-214, `make_key_`. -/
def makeKey (t : CompactFk) (nodeId symb : Nat) : Nat := shl64 nodeId t.symb.bits ||| symb

/-- compact_fkhash_trie.hpp:90-99, loop body of `find_child`. -/
def findBody (cfg : CompactCfg) (t : CompactFk) (quo : Nat) (i cnt : Nat) : R (Option Nat) := do
  let childId ← t.ids.get i
  if childId = t.capa.mask then pure (some u64max)
  else if (← t.d.compareDsp cfg.dsp i cnt) && quo == (← t.d.getQuo cfg.dsp i) then pure (some childId)
  else pure none

/-- compact_fkhash_trie.hpp:82-101, `find_child`; `decompose_` is lines 215-217. -/
def findChild (cfg : CompactCfg) (t : CompactFk) (nodeId symb : Nat) : R Nat := do
  if t.size = 0 then pure u64max
  else
    let x ← t.hasher.hash (t.makeKey nodeId symb)
    probe t.capa.mask (t.findBody cfg (x >>> t.capa.bits)) t.capa.size (x &&& t.capa.mask) 0

/-- compact_fkhash_trie.hpp:261-291, `update_slot_`. -/
def updateSlot (cfg : CompactCfg) (t : CompactFk) (i quo dsp nodeId : Nat) : R CompactFk := do
  let d ← t.d.updateSlot cfg.dsp t.symb.size i quo dsp
  let ids ← t.ids.set i nodeId
  pure { t with d := d, ids := ids }

/-- compact_fkhash_trie.hpp:314-318, body of the inner loop of `expand_`; `n` is `new_ht`. -/
def reinsertBody (cfg : CompactCfg) (n : CompactFk) (quo nodeId : Nat) (i cnt : Nat) : R (Option CompactFk) := do
  if (← n.ids.get i) = n.capa.mask then
    let n ← n.updateSlot cfg i quo cnt nodeId
    pure (some n)
  else pure none

/-- compact_fkhash_trie.hpp:299-320, outer loop of `expand_`; `c` iterations are left, the next slot
is `i`; `n` is `new_ht`. -/
def expandLoop (cfg : CompactCfg) (t : CompactFk) : (c i : Nat) → CompactFk → R CompactFk
  | 0, _, n => .ok n
  | c + 1, i, n => do
    let nodeId ← t.ids.get i
    if nodeId = t.capa.mask then expandLoop cfg t c (i + 1) n
    else
      let dist ← t.d.getDsp cfg.dsp i
      let key ← DspTable.restoreKey cfg.dsp t.hasher t.capa t.d i dist
      let x ← n.hasher.hash key
      let n ← probe n.capa.mask (n.reinsertBody cfg (x >>> n.capa.bits) nodeId) n.capa.size (x &&& n.capa.mask) 0
      expandLoop cfg t c (i + 1) n

/-- compact_fkhash_trie.hpp:293-324, `expand_`. -/
def expandSelf (cfg : CompactCfg) (t : CompactFk) : R CompactFk := do
  let n ← make cfg (t.capa.bits + 1) t.symb.bits
  let n := { n with numResize := t.numResize + 1 }
  let n ← expandLoop cfg t t.capa.size 0 n
  pure { n with size := t.size }

/-- compact_fkhash_trie.hpp:114-126, loop body of `add_child`: the new trie, `node_id` and the flag. -/
def addBody (cfg : CompactCfg) (t : CompactFk) (quo : Nat) (i cnt : Nat) : R (Option (CompactFk × Nat × Bool)) := do
  let childId ← t.ids.get i
  if childId = t.capa.mask then
    let t' ← t.updateSlot cfg i quo cnt t.size
    pure (some ({ t' with size := t'.size + 1 }, t'.size, true))
  else if (← t.d.compareDsp cfg.dsp i cnt) && quo == (← t.d.getQuo cfg.dsp i) then pure (some (t, childId, false))
  else pure none

/-- compact_fkhash_trie.hpp:103-128, `add_child`. -/
def addChild (cfg : CompactCfg) (t : CompactFk) (nodeId symb : Nat) : R (CompactFk × Nat × Bool) := do
  R.assert (nodeId < t.capa.size)
  R.assert (symb < t.symb.size)
  let t ← if t.maxSize ≤ t.size then expandSelf cfg t else pure t
  let x ← t.hasher.hash (t.makeKey nodeId symb)
  probe t.capa.mask (t.addBody cfg (x >>> t.capa.bits)) t.capa.size (x &&& t.capa.mask) 0

/-- The members of `compact_fkhash_trie` used by `map` (map.hpp); the two bonsai-only members are
never called. -/
def ops (cfg : CompactCfg) : TrieOps CompactFk where
  kind := .fkhash
  empty := {}
  make := make cfg
  size := fun t => t.size
  numResize := fun t => t.numResize
  capaBits := fun t => t.capa.bits
  capaSize := fun t => t.capa.size
  getRoot := getRoot
  addRoot := addRoot
  findChild := findChild cfg
  addChild := addChild cfg
  needsToExpand := fun _ => false
  expand := fun _ => .error .assertion

end CompactFk
end Poplar
