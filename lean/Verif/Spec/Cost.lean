import Verif.Model.Map
/-
  Counting lookups from outside: a container whose lookups are answered by somebody else.
-/
namespace Poplar

/-- the container with other functions in the place of the two lookups of `find`: following an edge of the trie, and comparing a
suffix of the key with the label of a node -/
def MapCfg.reading {τ ν : Type} (cfg : MapCfg τ ν) (f : τ → Nat → Nat → R Nat) (g : ν → Nat → List UInt8 → R (Option Loc × Nat)) :
    MapCfg τ ν :=
  { cfg with T := { cfg.T with findChild := f }, L := { cfg.L with compare := g } }

/-- the container with other functions in the place of the two lookups of `update`: following or adding an edge of the trie, and
comparing a suffix of the key with the label of a node -/
def MapCfg.adding {τ ν : Type} (cfg : MapCfg τ ν) (f : τ → Nat → Nat → R (τ × Nat × Bool))
    (g : ν → Nat → List UInt8 → R (Option Loc × Nat)) : MapCfg τ ν :=
  { cfg with T := { cfg.T with addChild := f }, L := { cfg.L with compare := g } }

end Poplar
