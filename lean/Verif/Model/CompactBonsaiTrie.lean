import Verif.Model.Interfaces
import Verif.Model.DspTable
/-
  Model of `include/poplar/compact_bonsai_trie.hpp`.
-/
namespace Poplar

/-- compact_bonsai_trie.hpp:332-341, data members; `num_resize_` exists only with `POPLAR_EXTRA_STATS`. -/
structure CompactBonsai where
  hasher : SplitMix := {}
  d : DspTable := {}
  size : Nat := 0
  maxSize : Nat := 0
  capa : SizeP2 := {}
  symb : SizeP2 := {}
  numResize : Nat := 0
deriving Repr, DecidableEq

namespace CompactBonsai

/-- compact_bonsai_trie.hpp:59-68, constructor. Keys wider than 63 bits (the assertion of
bijective_hash.hpp in the hasher's constructor; undefined behaviour in release builds) are a
`limit` fault. -/
def make (cfg : CompactCfg) (capaBits symbBits : Nat) : R CompactBonsai := do
  let capa ← SizeP2.make (max cfg.minCapaBits capaBits)
  let symb ← SizeP2.make symbBits
  if capa.bits + symb.bits < 64 then
    let hasher ← SplitMix.make (capa.bits + symb.bits)
    let d ← DspTable.make cfg.dsp capa symb
    pure { hasher := hasher, d := d, size := 0, maxSize := Poplar.maxSize capa.size cfg.maxFactor
           capa := capa, symb := symb }
  else .error .limit

/-- compact_bonsai_trie.hpp:72-75, `get_root`. -/
def getRoot (t : CompactBonsai) : R Nat := do
  R.assert (t.size ≠ 0)
  pure 0

/-- compact_bonsai_trie.hpp:77-80, `add_root`. -/
def addRoot (t : CompactBonsai) : R CompactBonsai := do
  R.assert (t.size = 0)
  pure { t with size := 1 }

/-- compact_bonsai_trie.hpp:345-347, `make_key_`. -/
def makeKey (t : CompactBonsai) (nodeId symb : Nat) : Nat := shl64 nodeId t.symb.bits ||| symb

/-- compact_bonsai_trie.hpp:93-105, loop body of `find_child`. -/
def findBody (cfg : CompactCfg) (t : CompactBonsai) (quo : Nat) (i cnt : Nat) : R (Option Nat) := do
  if i = (← t.getRoot) then pure none
  else if ← t.d.compareDsp cfg.dsp i 0 then pure (some u64max)
  else if (← t.d.compareDsp cfg.dsp i cnt) && quo == (← t.d.getQuo cfg.dsp i) then pure (some i)
  else pure none

/-- compact_bonsai_trie.hpp:82-107, `find_child`; `decompose_` is lines 348-350. -/
def findChild (cfg : CompactCfg) (t : CompactBonsai) (nodeId symb : Nat) : R Nat := do
  R.assert (nodeId < t.capa.size)
  R.assert (symb < t.symb.size)
  if t.size = 0 then pure u64max
  else
    let x ← t.hasher.hash (t.makeKey nodeId symb)
    probe t.capa.mask (t.findBody cfg (x >>> t.capa.bits)) t.capa.size (x &&& t.capa.mask) 1

/-- compact_bonsai_trie.hpp:116-138, loop body of `add_child`: the new trie, `node_id` and the
returned flag. -/
def addBody (cfg : CompactCfg) (t : CompactBonsai) (nodeId quo : Nat) (i cnt : Nat) : R (Option (CompactBonsai × Nat × Bool)) := do
  if i = (← t.getRoot) then pure none
  else if ← t.d.compareDsp cfg.dsp i 0 then
    if t.size = t.maxSize then pure (some (t, nodeId, false))
    else
      let d ← t.d.updateSlot cfg.dsp t.symb.size i quo cnt
      pure (some ({ t with d := d, size := t.size + 1 }, i, true))
  else if (← t.d.compareDsp cfg.dsp i cnt) && quo == (← t.d.getQuo cfg.dsp i) then pure (some (t, i, false))
  else pure none

/-- compact_bonsai_trie.hpp:109-140, `add_child`. -/
def addChild (cfg : CompactCfg) (t : CompactBonsai) (nodeId symb : Nat) : R (CompactBonsai × Nat × Bool) := do
  R.assert (nodeId < t.capa.size)
  R.assert (symb < t.symb.size)
  let x ← t.hasher.hash (t.makeKey nodeId symb)
  probe t.capa.mask (t.addBody cfg nodeId (x >>> t.capa.bits)) t.capa.size (x &&& t.capa.mask) 1

/-- compact_bonsai_trie.hpp:142-156, `get_parent_and_symb`, with the table given separately. -/
def parentSymb (cfg : CompactCfg) (t : CompactBonsai) (d : DspTable) (nodeId : Nat) : R (Nat × Nat) := do
  R.assert (nodeId < t.capa.size)
  if ← d.compareDsp cfg.dsp nodeId 0 then pure (u64max, 0)
  else
    let dsp ← d.getDsp cfg.dsp nodeId
    let key ← DspTable.restoreKey cfg.dsp t.hasher t.capa d nodeId (sub64 dsp 1)
    pure (key >>> t.symb.bits, key &&& t.symb.mask)

/-- compact_bonsai_trie.hpp:142-156, `get_parent_and_symb`. -/
def getParentAndSymb (cfg : CompactCfg) (t : CompactBonsai) (nodeId : Nat) : R (Nat × Nat) := t.parentSymb cfg t.d nodeId

/-- compact_bonsai_trie.hpp:194-196, `needs_to_expand`. -/
def needsToExpand (t : CompactBonsai) : Bool := t.maxSize ≤ t.size

/-- compact_bonsai_trie.hpp:220-226, `get_mapping` in `expand`; the pair is `(table_, map_high)`. -/
def getMapping (low : SizeP2) (s : CompactVector × CompactVector) (i : Nat) : R Nat := do
  if s.2.size = 0 then s.1.get i
  else pure ((← s.1.get i) ||| shl64 (← s.2.get i) low.bits)

/-- compact_bonsai_trie.hpp:228-235, `set_mapping` in `expand`. -/
def setMapping (low : SizeP2) (s : CompactVector × CompactVector) (i v : Nat) : R (CompactVector × CompactVector) := do
  if s.2.size = 0 then
    let table ← s.1.set i v
    pure (table, s.2)
  else
    let table ← s.1.set i (v &&& low.mask)
    let high ← s.2.set i (v >>> low.bits)
    pure (table, high)

/-- compact_bonsai_trie.hpp:167-176, `node_map::operator[]`. -/
def nodeMapGet (high low : CompactVector) (done : BitVector) (i : Nat) : R Nat := do
  if ← done.get i then
    if high.size = 0 then low.get i
    else pure ((← low.get i) ||| shl64 (← high.get i) low.width)
  else pure u64max

/-- compact_bonsai_trie.hpp:211-215, `map_high` in `expand`: the bits of a new node id that do not fit
into a slot of the old table. -/
def mapHigh (size lowBits newBits : Nat) : R CompactVector :=
  if lowBits < newBits then CompactVector.make size (newBits - lowBits) else pure {}

/-- compact_bonsai_trie.hpp:198-267, `expand`: the new trie and the node map. -/
def expand (cfg : CompactCfg) (t : CompactBonsai) : R (CompactBonsai × NodeMap) := do
  let newHt ← make cfg (t.capa.bits + 1) t.symb.bits
  let newHt ← newHt.addRoot
  let newHt := { newHt with numResize := t.numResize + 1 }
  let done := BitVector.make t.capa.size
  let done ← done.set (← t.getRoot)
  let low ← SizeP2.make t.d.table.width
  let high ← mapHigh t.capa.size low.bits newHt.capa.bits
  let (s, newHt, done) ← expandLoop
    (fun (s : CompactVector × CompactVector) i => { t.d with table := s.1 }.compareDsp cfg.dsp i 0)
    (fun s => t.parentSymb cfg { t.d with table := s.1 })
    (getMapping low) (setMapping low) (addChild cfg) (t.capa.size + 1)
    (t.d.table.size - 1) 1 (t.d.table, high) newHt done
  pure (newHt, { size := s.1.size, get := nodeMapGet s.2 s.1 done })

/-- compact_bonsai_trie.hpp:275-277, `capa_size`. -/
def capaSize (t : CompactBonsai) : Nat := t.capa.size

/-- The members of `compact_bonsai_trie` used by `map` (map.hpp). -/
def ops (cfg : CompactCfg) : TrieOps CompactBonsai where
  kind := .bonsai
  empty := {}
  make := make cfg
  size := fun t => t.size
  numResize := fun t => t.numResize
  capaBits := fun t => t.capa.bits
  capaSize := capaSize
  getRoot := getRoot
  addRoot := addRoot
  findChild := findChild cfg
  addChild := addChild cfg
  needsToExpand := needsToExpand
  expand := expand cfg

end CompactBonsai
end Poplar
