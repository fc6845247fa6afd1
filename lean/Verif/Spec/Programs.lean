import Verif.Spec.Limits
/-
  What is assumed about the keys of the programs of `Model/Programs.lean`.
-/
namespace Poplar
open Spec

/-- what C49 assumes about the keys `ss` that are inserted: at most 253 byte values occur, and the trie nodes they need are
fewer than the limit of the map. The empty string is not inserted into an fkhash map with the plain trie compiled with assertions
(C30). -/
structure Insertable (a : Alias) (p : Params) (i : Init) (ss : List (List UInt8)) : Prop where
  params : p.Valid
  init : i.Fits
  nul : ∀ s ∈ ss, 0 ∉ s
  len : ∀ s ∈ ss, s.length + 1 + p.valSize < 2 ^ 64
  alphabet : ∃ A : List UInt8, A.length ≤ 253 ∧ ∀ s ∈ ss, ∀ c ∈ s, c ∈ A
  room : nodesFor i.lambda (ss.map (· ++ [0])) < a.nodeLimit p i.symbBits i.capa0
  assertOk : a.plainFk = false ∨ p.dbg = false ∨ [] ∉ ss

end Poplar
