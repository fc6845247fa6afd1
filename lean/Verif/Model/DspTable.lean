import Verif.Model.TrieBase
import Verif.Model.BijectiveHash
import Verif.Model.StandardHashTable
import Verif.Model.CompactHashTable
/-
  The part shared, textually, by `compact_bonsai_trie.hpp` and `compact_fkhash_trie.hpp`: the table of
  (quotient, displacement) pairs with its three-level encoding of displacements.
-/
namespace Poplar

/-- Template arguments that fix the encoding of displacements: `Dsp1Bits` (default 4), compact_bonsai_trie.hpp:35,49 and
compact_fkhash_trie.hpp:35,49, and `AuxCht::val_bits` (default 7), compact_bonsai_trie.hpp:35,51 and
compact_fkhash_trie.hpp:35,51. The other arguments of `AuxCht` and `AuxMap` are modelled with their defaults. -/
structure DspCfg where
  dsp1Bits : Nat := 4
  dsp2Bits : Nat := 7

namespace DspCfg

/-- `AuxCht`, compact_bonsai_trie.hpp:35, compact_fkhash_trie.hpp:35: `compact_hash_table<dsp2_bits>`. -/
def cht (c : DspCfg) : ChtCfg := { ChtCfg.std with valBits := c.dsp2Bits }

/-- `dsp1_mask`, compact_bonsai_trie.hpp:50, compact_fkhash_trie.hpp:50. -/
def dsp1Mask (c : DspCfg) : Nat := 2 ^ c.dsp1Bits - 1

/-- `dsp2_mask`, compact_bonsai_trie.hpp:52, compact_fkhash_trie.hpp:52. -/
def dsp2Mask (c : DspCfg) : Nat := c.cht.valMask

end DspCfg

/-- The members `table_`, `aux_cht_` and `aux_map_`: compact_bonsai_trie.hpp:333-335,
compact_fkhash_trie.hpp:199-201; and `num_dsps_[0..2]`, compact_bonsai_trie.hpp:342,
compact_fkhash_trie.hpp:209, which exists only with `POPLAR_EXTRA_STATS`. -/
structure DspTable where
  table : CompactVector := {}
  cht : Cht := {}
  map : Sht := {}
  num1 : Nat := 0
  num2 : Nat := 0
  num3 : Nat := 0
deriving Repr, DecidableEq

namespace DspTable

/-- compact_bonsai_trie.hpp:66-67, compact_fkhash_trie.hpp:64-65, part of the constructors
(`cht_capa_bits = 0` in all uses). -/
def make (c : DspCfg) (capa symb : SizeP2) : R DspTable := do
  let table ← CompactVector.make capa.size (symb.bits + c.dsp1Bits)
  let cht ← Cht.make c.cht capa.bits 0
  pure { table := table, cht := cht }

/-- compact_bonsai_trie.hpp:355-357, compact_fkhash_trie.hpp:222-224, `get_quo_`. -/
def getQuo (c : DspCfg) (d : DspTable) (i : Nat) : R Nat := do pure ((← d.table.get i) >>> c.dsp1Bits)

/-- compact_bonsai_trie.hpp:358-370, compact_fkhash_trie.hpp:225-237, `get_dsp_`. -/
def getDsp (c : DspCfg) (d : DspTable) (i : Nat) : R Nat := do
  let dsp := (← d.table.get i) &&& c.dsp1Mask
  if dsp < c.dsp1Mask then pure dsp
  else
    let dsp ← d.cht.get c.cht i
    if dsp ≠ u64max then pure (dsp + c.dsp1Mask)
    else d.map.get ShtCfg.std i

/-- compact_bonsai_trie.hpp:372-392, compact_fkhash_trie.hpp:239-259, `compare_dsp_`. -/
def compareDsp (c : DspCfg) (d : DspTable) (i rhs : Nat) : R Bool := do
  let lhs := (← d.table.get i) &&& c.dsp1Mask
  if lhs < c.dsp1Mask then pure (lhs == rhs)
  else if rhs < c.dsp1Mask then pure false
  else
    let lhs ← d.cht.get c.cht i
    if lhs ≠ u64max then pure (lhs + c.dsp1Mask == rhs)
    else if rhs < c.dsp1Mask + c.dsp2Mask then pure false
    else
      let val ← d.map.get ShtCfg.std i
      R.assert (val ≠ u64max)
      pure (val == rhs)

/-- compact_bonsai_trie.hpp:412-420, compact_fkhash_trie.hpp:279-287: the statistics of `update_slot_`. -/
def countDsp (c : DspCfg) (d : DspTable) (dsp : Nat) : DspTable :=
  if dsp < c.dsp1Mask then { d with num1 := d.num1 + 1 }
  else if dsp < c.dsp1Mask + c.dsp2Mask then { d with num2 := d.num2 + 1 }
  else { d with num3 := d.num3 + 1 }

/-- compact_bonsai_trie.hpp:394-423, compact_fkhash_trie.hpp:261-289, `update_slot_` (the latter
then also writes `ids_`). `symbSize` is `symb_size_.size()`. -/
def updateSlot (c : DspCfg) (d : DspTable) (symbSize i quo dsp : Nat) : R DspTable := do
  R.assert ((← d.table.get i) = 0)
  R.assert (quo < symbSize)
  let v := shl64 quo c.dsp1Bits
  if dsp < c.dsp1Mask then
    let table ← d.table.set i (v ||| dsp)
    pure (countDsp c { d with table := table } dsp)
  else if dsp - c.dsp1Mask < c.dsp2Mask then
    let r ← d.cht.set c.cht i (dsp - c.dsp1Mask)
    let table ← d.table.set i (v ||| c.dsp1Mask)
    pure (countDsp c { d with table := table, cht := r.1 } dsp)
  else
    let r ← d.map.set ShtCfg.std i dsp
    let table ← d.table.set i (v ||| c.dsp1Mask)
    pure (countDsp c { d with table := table, map := r.1 } dsp)

/-- compact_bonsai_trie.hpp:151-152 (with `dist = get_dsp_(node_id) - 1`) and
compact_fkhash_trie.hpp:308-309 (with `dist = get_dsp_(i)`): the key stored in slot `i`. -/
def restoreKey (c : DspCfg) (hasher : SplitMix) (capa : SizeP2) (d : DspTable) (i dist : Nat) : R Nat := do
  let initId := if dist ≤ i then i - dist else sub64 d.table.size (dist - i)
  hasher.hashInv (shl64 (← d.getQuo c i) capa.bits ||| initId)

end DspTable

/-- Compile-time parameters of the two compact tries: `min_capa_bits` (16 in the code,
compact_bonsai_trie.hpp:47, compact_fkhash_trie.hpp:47) `MaxFactor` (default 90) and the encoding of displacements. `Hasher` is
`split_mix_hasher`. -/
structure CompactCfg where
  minCapaBits : Nat
  maxFactor : Nat
  dsp : DspCfg := {}

end Poplar
