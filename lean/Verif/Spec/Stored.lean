import Verif.Spec.Alphabet
/-
  What the map stores of each key: the part that does not coincide with keys inserted before.
-/
namespace Poplar.Spec

/-- length of the longest common prefix of `k` with one of the keys `ks` -/
def sharedLen (ks : List Key) (k : Key) : Nat := ks.foldr (fun x n => max (lcp k x) n) 0

/-- What is stored of a key that is added to the keys `ks`: the first key is stored whole, of any other key the part after the first byte
that distinguishes it from all of `ks`. -/
def storedPart (ks : List Key) (k : Key) : Key := if ks = [] then k else k.drop (sharedLen ks k + 1)

/-- the stored parts of the keys `ks`, if they are added to `before` one after the other -/
def storedFrom (before : List Key) : List Key → List Key
  | [] => []
  | k :: ks => storedPart before k :: storedFrom (before ++ [k]) ks

/-- the stored parts of the keys `ks`, inserted in this order -/
def storedParts (ks : List Key) : List Key := storedFrom [] ks

/-- Number of different non-empty prefixes of the keys: the number of characters in the trie of the keys. -/
def prefixCount (ks : List Key) : Nat := (ks.flatMap fun k => (List.range k.length).map fun n => k.take (n + 1)).eraseDups.length

end Poplar.Spec
