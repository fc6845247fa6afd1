import Verif.Model.TrieBase
import Verif.Model.BijectiveHash
/-
  Model of `include/poplar/standard_hash_table.hpp`.
-/
namespace Poplar

/-- Compile-time parameters of `standard_hash_table`: `min_capa_bits` (6 in the code, line 39),
`MaxFactor` (default 80, line 32) and `Hasher::hash`. -/
structure ShtCfg where
  minCapaBits : Nat
  maxFactor : Nat
  hash : Nat → Nat

/-- standard_hash_table.hpp:32,39, the parameters used by the compact tries. -/
def ShtCfg.std : ShtCfg := { minCapaBits := 6, maxFactor := 80, hash := vignaHash }

/-- standard_hash_table.hpp:131-134, data members; a slot is `(key, val)`. -/
structure Sht where
  table : Array (Nat × Nat) := #[]
  size : Nat := 0
  maxSize : Nat := 0
  capa : SizeP2 := {}
deriving Repr, DecidableEq

namespace Sht

/-- standard_hash_table.hpp:45-49, constructor; `slot_type` is `{UINT64_MAX, 0}` (lines 126-129). -/
def make (cfg : ShtCfg) (capaBits : Nat) : R Sht := do
  let capa ← SizeP2.make (max cfg.minCapaBits capaBits)
  pure { table := Array.replicate capa.size (u64max, 0), size := 0
         maxSize := Poplar.maxSize capa.size cfg.maxFactor, capa := capa }

/-- standard_hash_table.hpp:58-65, loop body of `get`. -/
def getBody (t : Sht) (key : Nat) (i _cnt : Nat) : R (Option Nat) := do
  let s ← rd t.table i
  if s.1 = u64max then pure (some u64max)
  else if s.1 = key then pure (some s.2)
  else pure none

/-- standard_hash_table.hpp:53-66, `get`; `nil = UINT64_MAX`. -/
def get (cfg : ShtCfg) (t : Sht) (key : Nat) : R Nat :=
  if t.table.size = 0 then .ok u64max
  else probe t.capa.mask (t.getBody key) t.capa.size (cfg.hash key &&& t.capa.mask) 0

/-- standard_hash_table.hpp:77-87, loop body of `set`. -/
def setBody (t : Sht) (key val : Nat) (i _cnt : Nat) : R (Option (Sht × Bool)) := do
  let s ← rd t.table i
  if s.1 = u64max then
    let table ← wr t.table i (key, val)
    pure (some ({ t with table := table, size := t.size + 1 }, true))
  else if s.1 = key then
    let table ← wr t.table i (s.1, val)
    pure (some ({ t with table := table }, false))
  else pure none

/-- standard_hash_table.hpp:77-87, the loop of `set`. -/
def setLoop (cfg : ShtCfg) (t : Sht) (key val : Nat) : R (Sht × Bool) :=
  probe t.capa.mask (t.setBody key val) t.capa.size (cfg.hash key &&& t.capa.mask) 0

/-- standard_hash_table.hpp:152-156, the loop of `expand_` over the slots that are left; `set` is
the member function `set` (called on `new_ht`). -/
def expandLoop (set : Sht → Nat → Nat → R (Sht × Bool)) : List (Nat × Nat) → Sht → R Sht
  | [], n => .ok n
  | s :: ss, n => do
    if s.1 ≠ u64max then
      let r ← set n s.1 s.2
      expandLoop set ss r.1
    else expandLoop set ss n

/-- standard_hash_table.hpp:146-160, `expand_`. -/
def expand (set : Sht → Nat → Nat → R (Sht × Bool)) (cfg : ShtCfg) (t : Sht) : R Sht := do
  let n ← make cfg (t.capa.bits + 1)
  let n ← expandLoop set t.table.toList n
  R.assert (t.size = n.size)
  pure n

/-- standard_hash_table.hpp:73-75. -/
def ensure (set : Sht → Nat → Nat → R (Sht × Bool)) (cfg : ShtCfg) (t : Sht) : R Sht :=
  if t.maxSize ≤ t.size then expand set cfg t else .ok t

/-- standard_hash_table.hpp:69-71. -/
def lazyInit (cfg : ShtCfg) (t : Sht) : R Sht :=
  if t.table.size = 0 then make cfg cfg.minCapaBits else .ok t

/-- standard_hash_table.hpp:68-88, `set`. `set` and `expand_` call each other; the first argument
bounds the depth of that recursion. -/
def setF (cfg : ShtCfg) : Nat → Sht → Nat → Nat → R (Sht × Bool)
  | 0, _, _, _ => .error .diverge
  | f + 1, t, key, val => do
    let t ← lazyInit cfg t
    let t ← ensure (setF cfg f) cfg t
    setLoop cfg t key val

/-- standard_hash_table.hpp:68-88, `set`. Every nested call works on a table with one more capacity
bit, and constructing a table of 2^64 slots is a `limit` fault, so a depth of 64 is never reached. -/
def set (cfg : ShtCfg) (t : Sht) (key val : Nat) : R (Sht × Bool) := setF cfg 65 t key val

end Sht
end Poplar
