import Verif.Model.Aliases
import Verif.Spec.History
/-
  The side conditions of the theorems about maps, and how the user's observations are obtained from
  the model.
-/
namespace Poplar
open Spec

/-- Number of trie nodes below which an alias cannot hit a size limit; `sb` = `8 + log2 lambda`, `cb` =
`capa_bits` given to the constructor. The number of nodes never exceeds `nodesFor` of the keys inserted.
The compact tries keep the displacements of their hash table in a second table, which has its own limit: with
2^c slots it cannot be hit below 80 % of 2^c nodes. The capacity never shrinks, so for a compact map this
limit is 80 % of the capacity reserved by the constructor (52428 nodes if nothing is reserved). With a `MaxFactor` of at
most 80, which the aliases do not use, the second table cannot become that full. -/
def Alias.nodeLimit : Alias → Params → Nat → Nat → Nat
  | compactBonsai, p, sb, cb | compactFkhash, p, sb, cb =>
    if p.maxFactor ≤ 80 then maxSize (2 ^ (63 - sb)) p.maxFactor
    else min (maxSize (2 ^ (63 - sb)) p.maxFactor) (maxSize (2 ^ max 16 cb) 80)
  | _, p, sb, _ => maxSize (2 ^ (63 - sb)) p.maxFactor

/-- the alias has the debug assertion of plain_fkhash_trie.hpp:104 -/
def Alias.plainFk : Alias → Bool
  | plainFkhash | semiCompactFkhash => true
  | _ => false

/-- `symb_bits` of a new map -/
def Init.symbBits : Init → Nat
  | .default => 13
  | .make _ lam => 8 + Nat.log2 lam

/-- the parameter `lambda` (32 by default) -/
def Init.lambda : Init → Nat
  | .default => 32
  | .make _ lam => lam

/-- `capa_bits` given to the constructor -/
def Init.capa0 : Init → Nat
  | .default => 0
  | .make cb _ => cb

/-- the constructor arguments are acceptable: `lambda` is a power of two, and keys of the trie's
hash table (`capa_bits + symb_bits` bits) fit in 63 bits -/
def Init.Fits : Init → Prop
  | .default => True
  | .make cb lam => (∃ l, lam = 2 ^ l) ∧ max 16 cb + (8 + Nat.log2 lam) < 64

/-- The assertion `key != 0` of plain_fkhash_trie.hpp:104 is not compiled in, or no key that starts with NUL (among the
C strings, this is only the empty string) is inserted, or the first key starts with NUL. -/
def Alias.AssertOk (a : Alias) (p : Params) (os : List Op) : Prop :=
  a.plainFk = false ∨ p.dbg = false ∨ (∀ k ∈ inserted os, k.head? ≠ some 0) ∨ ∃ l, (inserted os).head? = some (0 :: l)

/-- what all theorems about histories assume; `K` is the set of keys the user works with, for instance the C strings -/
structure Alias.Admissible (a : Alias) (p : Params) (i : Init) (K : Key → Prop) (os : List Op) : Prop where
  params : p.Valid
  init : i.Fits
  keys : KeySet p.valSize K
  legal : ∀ o ∈ os, o.Legal p.valSize K
  assertOk : a.AssertOk p os

/-- The call returns `x`; the only other possibility is a size limit fault, and that only if `lim`.
In particular: no undefined behaviour, no failed assertion, no endless loop. -/
def Returns {α : Type} (lim : Prop) (r : R α) (x : α) : Prop :=
  r = .ok x ∨ (lim ∧ (r = .error .limit ∨ r = .error .throw))

/-- a size limit can be hit by a history -/
def Alias.AtLimit (a : Alias) (p : Params) (i : Init) (os : List Op) : Prop :=
  a.nodeLimit p i.symbBits i.capa0 ≤ nodesFor i.lambda (inserted os)

end Poplar
