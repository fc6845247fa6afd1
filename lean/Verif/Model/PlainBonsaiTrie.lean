import Verif.Model.Interfaces
/-
  Model of `include/poplar/plain_bonsai_trie.hpp`.
-/
namespace Poplar

/-- Compile-time parameters of the two plain tries: `min_capa_bits` (16 in the code,
plain_bonsai_trie.hpp:41, plain_fkhash_trie.hpp:45), `MaxFactor` (default 90) and `Hasher::hash`
(default `vigna_hasher::hash`). They are parameters here so that theorems hold for every choice. -/
structure PlainCfg where
  minCapaBits : Nat
  maxFactor : Nat
  hash : Nat → Nat

/-- plain_bonsai_trie.hpp:275-281, data members; `num_resize_` exists only with `POPLAR_EXTRA_STATS`. -/
structure PlainBonsai where
  table : CompactVector := {}
  size : Nat := 0
  maxSize : Nat := 0
  capa : SizeP2 := {}
  symb : SizeP2 := {}
  numResize : Nat := 0
deriving Repr, DecidableEq

namespace PlainBonsai

/-- plain_bonsai_trie.hpp:48-53, constructor. -/
def make (cfg : PlainCfg) (capaBits symbBits : Nat) : R PlainBonsai := do
  let capa ← SizeP2.make (max cfg.minCapaBits capaBits)
  let symb ← SizeP2.make symbBits
  let table ← CompactVector.make capa.size (capa.bits + symb.bits)
  pure { table := table, size := 0, maxSize := Poplar.maxSize capa.size cfg.maxFactor,
         capa := capa, symb := symb }

/-- plain_bonsai_trie.hpp:57-60, `get_root`. -/
def getRoot (t : PlainBonsai) : R Nat := do
  R.assert (t.size ≠ 0)
  pure 1

/-- plain_bonsai_trie.hpp:62-65, `add_root`. -/
def addRoot (t : PlainBonsai) : R PlainBonsai := do
  R.assert (t.size = 0)
  pure { t with size := 1 }

/-- plain_bonsai_trie.hpp:284-286, `make_key_`. -/
def makeKey (t : PlainBonsai) (nodeId symb : Nat) : Nat := shl64 nodeId t.symb.bits ||| symb

/-- plain_bonsai_trie.hpp:79-92, loop body of `find_child`. -/
def findBody (t : PlainBonsai) (key : Nat) (i _cnt : Nat) : R (Option Nat) := do
  if i = 0 then pure none
  else if i = (← t.getRoot) then pure none
  else if (← t.table.get i) = 0 then pure (some u64max)
  else if (← t.table.get i) = key then pure (some i)
  else pure none

/-- plain_bonsai_trie.hpp:67-94, `find_child`. -/
def findChild (cfg : PlainCfg) (t : PlainBonsai) (nodeId symb : Nat) : R Nat := do
  R.assert (nodeId < t.capa.size)
  R.assert (symb < t.symb.size)
  if t.size = 0 then pure u64max
  else
    let key := t.makeKey nodeId symb
    R.assert (key ≠ 0)
    probe t.capa.mask (t.findBody key) t.capa.size (cfg.hash key &&& t.capa.mask) 0

/-- plain_bonsai_trie.hpp:104-130, loop body of `add_child`: the new trie, `node_id` and the
returned flag. -/
def addBody (t : PlainBonsai) (nodeId key : Nat) (i _cnt : Nat) : R (Option (PlainBonsai × Nat × Bool)) := do
  if i = 0 then pure none
  else if i = (← t.getRoot) then pure none
  else if (← t.table.get i) = 0 then
    if t.size = t.maxSize then pure (some (t, nodeId, false))
    else
      let table ← t.table.set i key
      pure (some ({ t with table := table, size := t.size + 1 }, i, true))
  else if (← t.table.get i) = key then pure (some (t, i, false))
  else pure none

/-- plain_bonsai_trie.hpp:96-132, `add_child`. -/
def addChild (cfg : PlainCfg) (t : PlainBonsai) (nodeId symb : Nat) : R (PlainBonsai × Nat × Bool) := do
  R.assert (nodeId < t.capa.size)
  R.assert (symb < t.symb.size)
  let key := t.makeKey nodeId symb
  R.assert (key ≠ 0)
  probe t.capa.mask (t.addBody nodeId key) t.capa.size (cfg.hash key &&& t.capa.mask) 0

/-- plain_bonsai_trie.hpp:134-144, `get_parent_and_symb`, as a function of `table_` and
`symb_size_` (the only members it reads besides the assertion on the capacity). -/
def parentSymb (capaSize : Nat) (symb : SizeP2) (table : CompactVector) (nodeId : Nat) : R (Nat × Nat) := do
  R.assert (nodeId < capaSize)
  let key ← table.get nodeId
  if key = 0 then pure (u64max, 0)
  else pure (key >>> symb.bits, key &&& symb.mask)

/-- plain_bonsai_trie.hpp:134-144, `get_parent_and_symb`. -/
def getParentAndSymb (t : PlainBonsai) (nodeId : Nat) : R (Nat × Nat) :=
  parentSymb t.capa.size t.symb t.table nodeId

/-- plain_bonsai_trie.hpp:174-176, `needs_to_expand`. -/
def needsToExpand (t : PlainBonsai) : Bool := t.maxSize ≤ t.size

/-- plain_bonsai_trie.hpp:178-224, `expand`: the new trie and the node map. -/
def expand (cfg : PlainCfg) (t : PlainBonsai) : R (PlainBonsai × NodeMap) := do
  let newHt ← make cfg (t.capa.bits + 1) t.symb.bits
  let newHt ← newHt.addRoot
  let newHt := { newHt with numResize := t.numResize + 1 }
  let done := BitVector.make t.capa.size
  let done ← done.set (← t.getRoot)
  let table ← t.table.set (← t.getRoot) (← newHt.getRoot)
  let (table, newHt, done) ← expandLoop
    (fun (tb : CompactVector) i => do pure ((← tb.get i) == 0))
    (parentSymb t.capa.size t.symb)
    CompactVector.get CompactVector.set (addChild cfg) (t.capa.size + 1)
    (table.size - 2) 2 table newHt done
  -- plain_bonsai_trie.hpp:155-157, node_map::operator[]
  pure (newHt, { size := table.size,
                 get := fun i => do if ← done.get i then table.get i else pure u64max })

/-- plain_bonsai_trie.hpp:233-238, `capa_size` / `capa_bits`. -/
def capaSize (t : PlainBonsai) : Nat := t.capa.size

/-- The members of `plain_bonsai_trie` used by `map` (map.hpp). -/
def ops (cfg : PlainCfg) : TrieOps PlainBonsai where
  kind := .bonsai
  empty := {}
  make := make cfg
  size := fun t => t.size
  numResize := fun t => t.numResize
  capaBits := fun t => t.capa.bits
  capaSize := capaSize
  getRoot := getRoot
  addRoot := addRoot
  findChild := findChild cfg
  addChild := addChild cfg
  needsToExpand := needsToExpand
  expand := expand cfg

end PlainBonsai
end Poplar
