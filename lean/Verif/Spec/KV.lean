import Verif.Model.StandardHashTable
import Verif.Model.CompactHashTable
/-
  Specification of the two auxiliary hash tables: what a history of `set(key, val)` calls means.
  A history is the list of `(key, val)` arguments, the oldest call first.
-/
namespace Poplar.Spec.KV

/-- the value of the last `set` with key `k`, if there is one -/
def lookup (h : List (Nat × Nat)) (k : Nat) : Option Nat := (h.reverse.find? (fun p => p.1 == k)).map (·.2)

/-- the number of distinct keys of the history -/
def distinct (h : List (Nat × Nat)) : Nat := (h.map (·.1)).eraseDups.length

/-- for each call of `h`, made after the calls `before`: is its key new? -/
def flags (before : List (Nat × Nat)) : List (Nat × Nat) → List Bool
  | [] => []
  | p :: r => (!(before.map (·.1)).contains p.1) :: flags (before ++ [p]) r

/-- all keys of the history satisfy `p` -/
def keysAre (h : List (Nat × Nat)) (p : Nat → Prop) : Prop := ∀ x ∈ h, p x.1

/-- all values of the history satisfy `p` -/
def valsAre (h : List (Nat × Nat)) (p : Nat → Prop) : Prop := ∀ x ∈ h, p x.2

end Poplar.Spec.KV

namespace Poplar

/-- a sequence of `set` calls on a `standard_hash_table`, collecting the return values -/
def Sht.run (cfg : ShtCfg) (t : Sht) : List (Nat × Nat) → R (Sht × List Bool)
  | [] => .ok (t, [])
  | p :: r => do
    let x ← Sht.set cfg t p.1 p.2
    let y ← Sht.run cfg x.1 r
    pure (y.1, x.2 :: y.2)

/-- a sequence of `set` calls on a `compact_hash_table`, collecting the return values -/
def Cht.run (cfg : ChtCfg) (t : Cht) : List (Nat × Nat) → R (Cht × List Bool)
  | [] => .ok (t, [])
  | p :: r => do
    let x ← Cht.set cfg t p.1 p.2
    let y ← Cht.run cfg x.1 r
    pure (y.1, x.2 :: y.2)

end Poplar
