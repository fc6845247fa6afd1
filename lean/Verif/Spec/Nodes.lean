import Verif.Spec.Stored
import Verif.Spec.History
/-
  Specification: the number of trie nodes. Independent of the model.
-/
namespace Poplar.Spec

/-- the keys of a history, in the order of their first insertion -/
def keysInOrder (os : List Op) : List Key := (inserted os).eraseDups

/-- A key, the length of what it shares with an earlier key and the byte after it (`start`: what is stored of the key begins there),
and the largest distance from there at which a later key leaves it. -/
structure Way where
  key : Key
  start : Nat
  reach : Nat
deriving DecidableEq

/-- a key leaves the first key with which it shares `p` bytes -/
def leaveAt (k : Key) (p : Nat) : List Way → List Way
  | [] => []
  | e :: S => if lcp k e.key = p then { e with reach := max e.reach (p - e.start) } :: S else e :: leaveAt k p S

/-- one more key: it leaves the first of the keys with which it shares most -/
def addWay (S : List Way) (k : Key) : List Way :=
  if S = [] then [⟨k, 0, 0⟩]
  else leaveAt k (sharedLen (S.map Way.key) k) S ++ [⟨k, sharedLen (S.map Way.key) k + 1, 0⟩]

/-- the ways of distinct keys, inserted in this order -/
def ways (ks : List Key) : List Way := ks.foldl addWay []

/-- The number of trie nodes that distinct keys need, inserted in this order: one for each key, and one for each `lam` bytes from the start of
its stored part to the last place at which another key leaves it. -/
def nodeCount (lam : Nat) (ks : List Key) : Nat := ((ways ks).map fun e => 1 + e.reach / lam).sum

end Poplar.Spec
