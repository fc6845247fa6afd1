import Verif.Model.CompactVector
import Verif.Model.BijectiveHash
/-
  Model of `include/poplar/compact_hash_table.hpp`.
-/
namespace Poplar

/-- Compile-time parameters of `compact_hash_table`: `ValBits` (line 34; 7 in the compact tries),
`MaxFactor` (default 80, line 34) and `min_capa_bits` (12 in the code, line 41). `Hasher` is
`split_mix_hasher`. -/
structure ChtCfg where
  valBits : Nat
  maxFactor : Nat
  minCapaBits : Nat

/-- compact_bonsai_trie.hpp:35, `compact_hash_table<7>`. -/
def ChtCfg.std : ChtCfg := { valBits := 7, maxFactor := 80, minCapaBits := 12 }

/-- compact_hash_table.hpp:43, `val_mask`. -/
def ChtCfg.valMask (cfg : ChtCfg) : Nat := 2 ^ cfg.valBits - 1

/-- compact_hash_table.hpp:255-263, data members. -/
structure Cht where
  hasher : SplitMix := {}
  table : CompactVector := {}
  size : Nat := 0
  maxSize : Nat := 0
  univ : SizeP2 := {}
  capa : SizeP2 := {}
  quo : SizeP2 := {}
  quoShift : Nat := 0
  quoInvmask : Nat := 0
deriving Repr, DecidableEq

namespace Cht

/-- compact_hash_table.hpp:49-63, constructor. A capacity above the universe (the assertion in
line 53; in release builds `size_p2` is then given a negative bit count) is a `limit` fault. -/
def make (cfg : ChtCfg) (univBits capaBits : Nat) : R Cht := do
  let univ ← SizeP2.make univBits
  let capa ← SizeP2.make (max cfg.minCapaBits capaBits)
  if capa.bits ≤ univ.bits then
    let quo ← SizeP2.make (univ.bits - capa.bits)
    let hasher ← SplitMix.make univ.bits
    let table ← CompactVector.makeInit capa.size (quo.bits + cfg.valBits + 2) (shl64 cfg.valMask 2 ||| 1)
    pure { hasher := hasher, table := table, size := 0, maxSize := Poplar.maxSize capa.size cfg.maxFactor
           univ := univ, capa := capa, quo := quo, quoShift := 2 + cfg.valBits
           quoInvmask := not64 (shl64 quo.mask (2 + cfg.valBits)) }
  else .error .limit

/-- compact_hash_table.hpp:315-317, `decompose_`, the quotient. -/
def quoOf (t : Cht) (x : Nat) : Nat := x >>> t.capa.bits

/-- compact_hash_table.hpp:315-317, `decompose_`, the remainder. -/
def modOf (t : Cht) (x : Nat) : Nat := x &&& t.capa.mask

/-- compact_hash_table.hpp:319-321, `left_`. -/
def left (t : Cht) (i : Nat) : Nat := sub64 i 1 &&& t.capa.mask

/-- compact_hash_table.hpp:322-324, `right_`. -/
def right (t : Cht) (i : Nat) : Nat := (i + 1) &&& t.capa.mask

/-- compact_hash_table.hpp:329-331, `get_quo_`. -/
def getQuo (t : Cht) (i : Nat) : R Nat := do pure ((← t.table.get i) >>> t.quoShift)

/-- compact_hash_table.hpp:332-334, `get_val_`. -/
def getVal (cfg : ChtCfg) (t : Cht) (i : Nat) : R Nat := do pure (((← t.table.get i) >>> 2) &&& cfg.valMask)

/-- compact_hash_table.hpp:325-327, `is_vacant_`. -/
def isVacant (cfg : ChtCfg) (t : Cht) (i : Nat) : R Bool := do pure ((← t.getVal cfg i) == cfg.valMask)

/-- compact_hash_table.hpp:335-337, `get_vbit_`. -/
def getVbit (t : Cht) (i : Nat) : R Bool := do pure (((← t.table.get i) &&& 2) == 2)

/-- compact_hash_table.hpp:338-340, `get_cbit_`. -/
def getCbit (t : Cht) (i : Nat) : R Bool := do pure (((← t.table.get i) &&& 1) == 1)

/-- writing slot `i` of `table_` -/
def putSlot (t : Cht) (i x : Nat) : R Cht := do
  let table ← t.table.set i x
  pure { t with table := table }

/-- compact_hash_table.hpp:342-345, `set_quo_`. -/
def setQuo (t : Cht) (i q : Nat) : R Cht := do
  R.assert (q < t.quo.size)
  t.putSlot i (((← t.table.get i) &&& t.quoInvmask) ||| shl64 q t.quoShift)

/-- compact_hash_table.hpp:346-349, `set_val_`. -/
def setVal (cfg : ChtCfg) (t : Cht) (i v : Nat) : R Cht := do
  R.assert (v ≤ cfg.valMask)
  t.putSlot i (((← t.table.get i) &&& not64 (shl64 cfg.valMask 2)) ||| shl64 v 2)

/-- compact_hash_table.hpp:350-352, `set_vbit_`. -/
def setVbit (t : Cht) (i : Nat) (b : Bool) : R Cht := do
  t.putSlot i (((← t.table.get i) &&& not64 2) ||| (b.toNat <<< 1))

/-- compact_hash_table.hpp:353-355, `set_cbit_`. -/
def setCbit (t : Cht) (i : Nat) (b : Bool) : R Cht := do
  t.putSlot i (((← t.table.get i) &&& not64 1) ||| b.toNat)

/-- compact_hash_table.hpp:358-362, `copy_from_right_` (the new table; the result `_slot_id` is
`right i`). -/
def copyFromRight (t : Cht) (i : Nat) : R Cht := do
  let x ← t.table.get (t.right i)
  let v ← t.getVbit i
  t.putSlot i ((x &&& not64 2) ||| (v.toNat <<< 1))

/-- compact_hash_table.hpp:364-368, `update_slot_`. -/
def updateSlot (cfg : ChtCfg) (t : Cht) (i q v : Nat) (vbit cbit : Bool) : R Cht := do
  R.assert (q < t.quo.size)
  R.assert (v ≤ cfg.valMask)
  t.putSlot i (shl64 q t.quoShift ||| shl64 v 2 ||| (vbit.toNat <<< 1) ||| cbit.toNat)

/-- compact_hash_table.hpp:280-288, the first loop of `find_ass_cbit_`: `(num_vbits, empty_id)`. -/
def scanLeft (cfg : ChtCfg) (t : Cht) : (fuel i num : Nat) → R (Nat × Nat)
  | 0, _, _ => .error .diverge
  | fuel + 1, i, num => do
    let v ← t.getVbit i
    let num := if v then num + 1 else num
    let i := t.left i
    if ← t.isVacant cfg i then pure (num, i) else t.scanLeft cfg fuel i num

/-- compact_hash_table.hpp:294-300, the second loop of `find_ass_cbit_`. -/
def scanRight (t : Cht) (numVbits : Nat) : (fuel i numCbits : Nat) → R Nat
  | 0, _, _ => .error .diverge
  | fuel + 1, i, numCbits =>
    if numCbits < numVbits then do
      let i := t.right i
      let c ← t.getCbit i
      t.scanRight numVbits fuel i (if c then numCbits + 1 else numCbits)
    else .ok i

/-- compact_hash_table.hpp:279-303, `find_ass_cbit_`: the result and `empty_id`. -/
def findAssCbit (cfg : ChtCfg) (t : Cht) (i : Nat) : R (Nat × Nat) := do
  let (num, emptyId) ← t.scanLeft cfg t.capa.size i 0
  if num = 0 then pure (u64max, emptyId)
  else
    let j ← t.scanRight num (t.capa.size + 1) emptyId 0
    pure (j, emptyId)

/-- compact_hash_table.hpp:305-313, `find_item_`: the result and the final `slot_id`. -/
def findItem (t : Cht) (quo : Nat) : (fuel i : Nat) → R (Bool × Nat)
  | 0, _ => .error .diverge
  | fuel + 1, i => do
    if (← t.getQuo i) = quo then pure (true, i)
    else
      let i := t.right i
      if ← t.getCbit i then pure (false, i) else t.findItem quo fuel i

/-- compact_hash_table.hpp:67-85, `get`; `nil = UINT64_MAX`. -/
def get (cfg : ChtCfg) (t : Cht) (key : Nat) : R Nat := do
  R.assert (key < t.univ.size)
  let x ← t.hasher.hash key
  if ← t.getVbit (t.modOf x) then
    let (slot, _) ← t.findAssCbit cfg (t.modOf x)
    if slot = u64max then pure u64max
    else
      let (found, slot) ← t.findItem (t.quoOf x) t.capa.size slot
      if found then t.getVal cfg slot else pure u64max
  else pure u64max

/-- compact_hash_table.hpp:116-118, `do { slot_id = right_(slot_id); } while (!get_cbit_(slot_id));` -/
def nextCbit (t : Cht) : (fuel i : Nat) → R Nat
  | 0, _ => .error .diverge
  | fuel + 1, i => do
    let i := t.right i
    if ← t.getCbit i then pure i else t.nextCbit fuel i

/-- compact_hash_table.hpp:122-124 and 140-142,
`while (empty_id != slot_id) empty_id = copy_from_right_(empty_id);` (afterwards
`empty_id == slot_id`). -/
def shiftLeft (target : Nat) : (fuel i : Nat) → Cht → R Cht
  | 0, _, _ => .error .diverge
  | fuel + 1, i, t =>
    if i ≠ target then do
      let t' ← t.copyFromRight i
      shiftLeft target fuel (t.right i) t'
    else .ok t

/-- compact_hash_table.hpp:146-149, storing the item in `empty_id`. -/
def place (cfg : ChtCfg) (t : Cht) (i quo val : Nat) : R Cht := do
  let t ← t.setQuo i quo
  let t ← t.setVal cfg i val
  pure { t with size := t.size + 1 }

/-- compact_hash_table.hpp:115-129, a new collision group for the home slot `mod`; the new table and
`empty_id`. -/
def newGroup (t : Cht) (mod slot emptyId : Nat) : R (Cht × Nat) := do
  if slot ≠ u64max then
    let s ← t.nextCbit t.capa.size slot
    let s := t.left s
    let t ← shiftLeft s t.capa.size emptyId t
    let t ← t.setVbit mod true
    let t ← t.setCbit s true
    pure (t, s)
  else
    let t ← t.setVbit mod true
    let t ← t.setCbit emptyId true
    pure (t, emptyId)

/-- compact_hash_table.hpp:137-143, making room at the right end of an existing group; `slot` is the
slot after the group. -/
def growGroup (t : Cht) (slot emptyId : Nat) : R (Cht × Nat) := do
  let s := t.left slot
  let t ← shiftLeft s t.capa.size emptyId t
  let t ← t.setCbit s false
  pure (t, s)

/-- compact_hash_table.hpp:101-151, `set` after the capacity check. -/
def setCore (cfg : ChtCfg) (t : Cht) (key val : Nat) : R (Cht × Bool) := do
  let x ← t.hasher.hash key
  let quo := t.quoOf x
  let mod := t.modOf x
  if ← t.isVacant cfg mod then
    let t ← t.updateSlot cfg mod quo val true true
    pure ({ t with size := t.size + 1 }, true)
  else
    let (slot, emptyId) ← t.findAssCbit cfg mod
    if ← t.getVbit mod then
      let (found, slot) ← t.findItem quo t.capa.size slot
      if found then
        let t ← t.setVal cfg slot val
        pure (t, false)
      else
        let (t, s) ← t.growGroup slot emptyId
        let t ← t.place cfg s quo val
        pure (t, true)
    else
      let (t, s) ← t.newGroup mod slot emptyId
      let t ← t.place cfg s quo val
      pure (t, true)

/-- compact_hash_table.hpp:165-167, the first vacant slot. -/
def firstVacant (cfg : ChtCfg) (t : Cht) : (fuel i : Nat) → R Nat
  | 0, _ => .error .diverge
  | fuel + 1, i => do
    if ← t.isVacant cfg i then pure i else t.firstVacant cfg fuel (t.right i)

/-- compact_hash_table.hpp:174-179, skipping vacant slots; the slot and `completed`. -/
def skipVacant (cfg : ChtCfg) (t : Cht) (beg : Nat) : (fuel i : Nat) → (completed : Bool) → R (Nat × Bool)
  | 0, _, _ => .error .diverge
  | fuel + 1, i, completed => do
    if ← t.isVacant cfg i then
      let i := t.right i
      t.skipVacant cfg beg fuel i (completed || i == beg)
    else pure (i, completed)

/-- compact_hash_table.hpp:186-188, the home slot of the collision group. -/
def nextVbit (t : Cht) : (fuel i : Nat) → R Nat
  | 0, _ => .error .diverge
  | fuel + 1, i => do
    if ← t.getVbit i then pure i else t.nextVbit fuel (t.right i)

/-- compact_hash_table.hpp:190-202, the items of one collision group; `τ` is `new_cht` and `mapper`
the call in line 196. Returns `new_cht`, `i` and `completed`. -/
def cloneGroup {τ : Type} (cfg : ChtCfg) (t : Cht) (mapper : τ → Nat → Nat → R τ) (beg initId : Nat) :
    (fuel i : Nat) → (completed : Bool) → τ → R (τ × Nat × Bool)
  | 0, _, _, _ => .error .diverge
  | fuel + 1, i, completed, n => do
    R.assert (!(← t.isVacant cfg i))
    let q ← t.getQuo i
    let key ← t.hasher.hashInv (shl64 q t.capa.bits ||| initId)
    let val ← t.getVal cfg i
    let n ← mapper n key val
    let i := t.right i
    let completed := completed || i == beg
    if ← t.getCbit i then pure (n, i, completed) else t.cloneGroup cfg mapper beg initId fuel i completed n

/-- compact_hash_table.hpp:184-205, the collision groups of one cluster. -/
def cloneCluster {τ : Type} (cfg : ChtCfg) (t : Cht) (mapper : τ → Nat → Nat → R τ) (beg : Nat) :
    (fuel i initId : Nat) → (completed : Bool) → τ → R (τ × Nat × Bool)
  | 0, _, _, _, _ => .error .diverge
  | fuel + 1, i, initId, completed, n => do
    let initId ← t.nextVbit t.capa.size initId
    let (n, i, completed) ← t.cloneGroup cfg mapper beg initId t.capa.size i completed n
    let initId := t.right initId
    if i ≠ initId then t.cloneCluster cfg mapper beg fuel i initId completed n
    else pure (n, i, completed)

/-- compact_hash_table.hpp:172-206, the outer loop of `clone`; `vfuel` bounds the vacant slots
skipped at a time. -/
def cloneLoop {τ : Type} (cfg : ChtCfg) (t : Cht) (mapper : τ → Nat → Nat → R τ) (beg vfuel : Nat) :
    (fuel i : Nat) → (completed : Bool) → τ → R τ
  | 0, _, _, _ => .error .diverge
  | fuel + 1, i, completed, n =>
    if completed then .ok n
    else do
      let (i, completed) ← t.skipVacant cfg beg vfuel i completed
      R.assert (← t.getCbit i)
      let (n, i, completed) ← t.cloneCluster cfg mapper beg t.capa.size i i completed n
      t.cloneLoop cfg mapper beg vfuel fuel i completed n

/-- compact_hash_table.hpp:158-209, `clone(new_cht, mapper)`. `fuel` bounds the loop that skips
vacant slots (which does not terminate if there is no item). -/
def cloneWith (cfg : ChtCfg) (fuel : Nat) (t : Cht) (mapper : Cht → Nat → Nat → R Cht) (n : Cht) : R Cht := do
  if n.size ≠ 0 then .error .throw
  else if n.maxSize < t.size then .error .throw
  else
    let beg ← t.firstVacant cfg t.capa.size 0
    let n ← t.cloneLoop cfg mapper beg fuel (t.capa.size + 1) (t.right beg) false n
    R.assert (t.size = n.size)
    pure n

/-- compact_hash_table.hpp:91-99, expansion; `set` is the member function `set`. -/
def ensure (set : Cht → Nat → Nat → R (Cht × Bool)) (cfg : ChtCfg) (t : Cht) : R Cht :=
  if t.maxSize ≤ t.size then do
    let n ← make cfg t.univ.bits (t.capa.bits + 1)
    t.cloneWith cfg (2 * t.capa.size) (fun n k v => do let r ← set n k v; pure r.1) n
  else .ok t

/-- compact_hash_table.hpp:87-152, `set`. `set` and `clone` call each other; the first argument
bounds the depth of that recursion. -/
def setF (cfg : ChtCfg) : Nat → Cht → Nat → Nat → R (Cht × Bool)
  | 0, _, _, _ => .error .diverge
  | f + 1, t, key, val => do
    R.assert (key < t.univ.size)
    R.assert (val < cfg.valMask)
    let t ← ensure (setF cfg f) cfg t
    t.setCore cfg key val

/-- compact_hash_table.hpp:87-152, `set`. Every nested call works on a table with one more capacity
bit, and capacities above the universe are a `limit` fault, so a depth of 64 is never reached. -/
def set (cfg : ChtCfg) (t : Cht) (key val : Nat) : R (Cht × Bool) := setF cfg 65 t key val

/-- compact_hash_table.hpp:154-157, `clone(new_cht)`, where the loop that skips vacant slots may run
for `fuel` iterations. -/
def clone (cfg : ChtCfg) (fuel : Nat) (t n : Cht) : R Cht :=
  t.cloneWith cfg fuel (fun n k v => do let r ← set cfg n k v; pure r.1) n

end Cht
end Poplar
