import Verif.Model.Interfaces
import Verif.Model.BitTools
/-
  Model of `include/poplar/map.hpp`, generic in the trie and the node label map (the template
  parameters `Trie` and `NLM`). A key (`char_range`) is the list of its bytes, terminator included.
-/
namespace Poplar

/-- map.hpp:246-256, data members of `map`; the defaults are those of the default constructor. `num_steps_` exists only if
`POPLAR_EXTRA_STATS` is defined; nothing but statistics depends on it. -/
structure Map (τ ν : Type) where
  isReady : Bool := false
  lambda : Nat := 32
  trie : τ
  nlm : ν
  codes : Array Nat := Array.replicate 256 0
  numCodes : Nat := 0
  size : Nat := 0
  numSteps : Nat := 0
deriving DecidableEq, Repr

/-- What a call of `update` returns to its caller: a pointer, the null pointer, or an exception.
The map is kept in all cases (an exception can be caught and the map used further). -/
inductive UpdOut where
  | ptr (l : Loc)
  | null
  | exn
deriving DecidableEq, Repr

/-- The template arguments, `dbg` = whether `assert` in `make_symb_` (map.hpp:259) is compiled in. -/
structure MapCfg (τ ν : Type) where
  T : TrieOps τ
  L : NlmOps ν
  dbg : Bool := true

namespace Map
variable {τ ν : Type}

/-- map.hpp:244, `step_symb`. -/
def stepSymb : Nat := 255

/-- map.hpp:52, `map() = default`. -/
def default (cfg : MapCfg τ ν) : Map τ ν := { trie := cfg.T.empty, nlm := cfg.L.empty }

/-- map.hpp:56-65, `map(capa_bits, lambda)`. -/
def make (cfg : MapCfg τ ν) (capaBits lambda : Nat) : R (Map τ ν) := do
  if !isPower2 lambda then .error .throw
  else
    let trie ← cfg.T.make capaBits (8 + (← BitTools.ceilLog2 lambda))
    let nlm ← cfg.L.make (cfg.T.capaBits trie)
    let codes ← wr (Array.replicate 256 255) 0 0
    pure { isReady := true, lambda := lambda, trie := trie, nlm := nlm, codes := codes, numCodes := 1 }

/-- map.hpp:76-77 and 122-123: the two argument checks of `find` and `update`; true = throw. -/
def badKey (key : List UInt8) : Bool :=
  match key.getLast? with
  | none => true
  | some c => c != 0

/-- map.hpp:258-261, `make_symb_`. -/
def makeSymb (cfg : MapCfg τ ν) (m : Map τ ν) (c : UInt8) (match' : Nat) : R Nat := do
  let code ← rd m.codes c.toNat
  R.assert (!cfg.dbg || code ≠ 255)
  pure (code ||| shl64 match' 8)

/-- `key.begin += match` (map.hpp:91,152); moving past `end` is undefined behaviour. -/
def advance (key : List UInt8) (match' : Nat) : R (List UInt8) :=
  if match' ≤ key.length then .ok (key.drop match') else .error .oob

/-- map.hpp:93-99, the step loop of `find`: the node and the rest of `match`, or `none` for
`return nullptr`. -/
def findSteps (cfg : MapCfg τ ν) (m : Map τ ν) : (fuel node match' : Nat) → R (Option (Nat × Nat))
  | 0, _, _ => .error .diverge
  | fuel + 1, node, match' => do
    if m.lambda ≤ match' then
      let node ← cfg.T.findChild m.trie node stepSymb
      if node = u64max then pure none
      else findSteps cfg m fuel node (match' - m.lambda)
    else pure (some (node, match'))

/-- map.hpp:85-114, the main loop of `find` and the final comparison. -/
def findLoop (cfg : MapCfg τ ν) (m : Map τ ν) : (fuel node : Nat) → List UInt8 → R (Option Loc)
  | 0, _, _ => .error .diverge
  | fuel + 1, node, key => do
    if key.isEmpty then
      pure (← cfg.L.compare m.nlm node key).1
    else
      let (vptr, match') ← cfg.L.compare m.nlm node key
      match vptr with
      | some l => pure (some l)
      | none =>
        let key ← advance key match'
        match ← findSteps cfg m (match' + 1) node match' with
        | none => pure none
        | some (node, match') =>
          match key with
          | [] => .error .oob
          | c :: rest =>
            if (← rd m.codes c.toNat) = 255 then pure none
            else
              let node ← cfg.T.findChild m.trie node (← makeSymb cfg m c match')
              if node = u64max then pure none
              else findLoop cfg m fuel node rest

/-- map.hpp:75-115, `find`. `Fault.throw` models the two `POPLAR_THROW_IF`. -/
def find (cfg : MapCfg τ ν) (m : Map τ ν) (key : List UInt8) : R (Option Loc) := do
  if badKey key then .error .throw
  else if !m.isReady || cfg.T.size m.trie = 0 then pure none
  else
    let node ← cfg.T.getRoot m.trie
    findLoop cfg m (key.length + 1) node key

/-- map.hpp:263-272, `expand_if_needed_`: the new map and the new `node_id`. -/
def expandIfNeeded (cfg : MapCfg τ ν) (m : Map τ ν) (node : Nat) : R (Map τ ν × Nat) := do
  match cfg.T.kind with
  | .fkhash => pure (m, node)
  | .bonsai =>
    if !cfg.T.needsToExpand m.trie then pure (m, node)
    else
      let (trie, nm) ← cfg.T.expand m.trie
      let node ← nm.get node
      let nlm ← cfg.L.expand m.nlm nm
      pure ({ m with trie := trie, nlm := nlm }, node)

/-- map.hpp:154-166, the step loop of `update`. -/
def updSteps (cfg : MapCfg τ ν) : (fuel : Nat) → Map τ ν → (node match' : Nat) → R (Map τ ν × Nat × Nat)
  | 0, _, _, _ => .error .diverge
  | fuel + 1, m, node, match' => do
    if m.lambda ≤ match' then
      let (trie, node, isNew) ← cfg.T.addChild m.trie node stepSymb
      let m := { m with trie := trie }
      if isNew then
        let (m, node) ← expandIfNeeded cfg m node
        let m := { m with numSteps := m.numSteps + 1 }
        match cfg.T.kind with
        | .fkhash =>
          R.assert (node = cfg.L.size m.nlm)
          let nlm ← cfg.L.appendDummy m.nlm
          updSteps cfg fuel { m with nlm := nlm } node (match' - m.lambda)
        | .bonsai => updSteps cfg fuel m node (match' - m.lambda)
      else updSteps cfg fuel m node (match' - m.lambda)
    else pure (m, node, match')

/-- map.hpp:133-139 and 179-185: store the label of a new node. -/
def putLabel (cfg : MapCfg τ ν) (m : Map τ ν) (node : Nat) (key : List UInt8) : R (Map τ ν × UpdOut) := do
  match cfg.T.kind with
  | .fkhash =>
    let (nlm, l) ← cfg.L.append m.nlm key
    pure ({ m with nlm := nlm }, .ptr l)
  | .bonsai =>
    let (nlm, l) ← cfg.L.insert m.nlm node key
    pure ({ m with nlm := nlm }, .ptr l)

/-- map.hpp:146-194, the main loop of `update` and the final comparison. -/
def updLoop (cfg : MapCfg τ ν) : (fuel : Nat) → Map τ ν → (node : Nat) → List UInt8 → R (Map τ ν × UpdOut)
  | 0, _, _, _ => .error .diverge
  | fuel + 1, m, node, key => do
    if key.isEmpty then
      match (← cfg.L.compare m.nlm node key).1 with
      | some l => pure (m, .ptr l)
      | none => pure (m, .null)
    else
      let (vptr, match') ← cfg.L.compare m.nlm node key
      match vptr with
      | some l => pure (m, .ptr l)
      | none =>
        let key ← advance key match'
        let (m, node, match') ← updSteps cfg (match' + 1) m node match'
        match key with
        | [] => .error .oob
        | c :: rest =>
          let unknown := (← rd m.codes c.toNat) = 255
          let m ← if unknown then do
              let codes ← wr m.codes c.toNat (m.numCodes % 256)
              pure { m with codes := codes, numCodes := m.numCodes + 1 }
            else pure m
          if unknown && 255 = m.numCodes then pure (m, .exn)
          else
            let (trie, node, isNew) ← cfg.T.addChild m.trie node (← makeSymb cfg m c match')
            let m := { m with trie := trie }
            if isNew then
              let (m, node) ← expandIfNeeded cfg m node
              let m := { m with size := m.size + 1 }
              R.assert (cfg.T.kind = .bonsai || node = cfg.L.size m.nlm)
              putLabel cfg m node rest
            else updLoop cfg fuel m node rest

/-- map.hpp:121-195, `update`. -/
def update (cfg : MapCfg τ ν) (m : Map τ ν) (key : List UInt8) : R (Map τ ν × UpdOut) := do
  if badKey key then pure (m, .exn)
  else if cfg.T.size m.trie = 0 then
    let m ← if !m.isReady then make cfg 0 32 else pure m
    let m := { m with size := m.size + 1 }
    let trie ← cfg.T.addRoot m.trie
    let m := { m with trie := trie }
    let node ← cfg.T.getRoot m.trie
    putLabel cfg m node key
  else
    let node ← cfg.T.getRoot m.trie
    updLoop cfg (key.length + 1) m node key

/-- map.hpp:202-204, `capa_size`. -/
def capaSize (cfg : MapCfg τ ν) (m : Map τ ν) : Nat := cfg.T.capaSize m.trie

/-- map.hpp:209-211, `num_resize` (with `POPLAR_EXTRA_STATS`). -/
def numResize (cfg : MapCfg τ ν) (m : Map τ ν) : Nat := cfg.T.numResize m.trie

/-- map.hpp:206-208, `rate_steps` (with `POPLAR_EXTRA_STATS`): the numerator and the denominator of the quotient,
which the code computes as a `double`. -/
def rateSteps (m : Map τ ν) : Nat × Nat := (m.numSteps, m.size)

/-- `*p` for a pointer returned by `find` or `update`. -/
def load (cfg : MapCfg τ ν) (m : Map τ ν) (l : Loc) : R (List UInt8) := cfg.L.load m.nlm l

/-- `*p = v` for a pointer returned by `update`. -/
def store (cfg : MapCfg τ ν) (m : Map τ ν) (l : Loc) (v : List UInt8) : R (Map τ ν) := do
  pure { m with nlm := ← cfg.L.store m.nlm l v }

end Map
end Poplar
