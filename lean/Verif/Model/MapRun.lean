import Verif.Model.Aliases
import Verif.Spec.Dict
/-
  Executing a user's history on the model of `map`.
-/
namespace Poplar
open Spec (Op Out)

namespace Map
variable {τ ν : Type}

/-- One user operation on a map: the calls it makes, and what the user sees. An exception thrown by
`find` (map.hpp:76-77) is caught; `update` reports its exceptions by `UpdOut.exn`. -/
def exec (cfg : MapCfg τ ν) (m : Map τ ν) : Op → R (Map τ ν × Out)
  | .find k =>
    match find cfg m k with
    | .error .throw => .ok (m, .exn)
    | .error e => .error e
    | .ok none => .ok (m, .found none)
    | .ok (some l) => do pure (m, .found (some (← load cfg m l)))
  | .update k => do
    let (m, r) ← update cfg m k
    match r with
    | .ptr l => pure (m, .value (← load cfg m l))
    | .null => pure (m, .null)
    | .exn => pure (m, .exn)
  | .write k v => do
    let (m, r) ← update cfg m k
    match r with
    | .ptr l => pure (← store cfg m l v, .done)
    | .null => pure (m, .null)
    | .exn => pure (m, .exn)
  | .size => .ok (m, .count m.size)

/-- A history of user operations. -/
def run (cfg : MapCfg τ ν) : Map τ ν → List Op → R (Map τ ν × List Out)
  | m, [] => .ok (m, [])
  | m, o :: os => do
    let (m, x) ← exec cfg m o
    let (m, xs) ← run cfg m os
    pure (m, x :: xs)

end Map

/-- Everything the user of a new map sees when performing a history. -/
def Alias.history (a : Alias) (p : Params) (i : Init) (os : List Op) : R (List Out) := do
  let m ← a.new p i
  let (_, xs) ← Map.run (a.cfg p) m os
  pure xs

/-- What the user sees when performing one more operation after a history. -/
def Alias.answer (a : Alias) (p : Params) (i : Init) (os : List Op) (o : Op) : R Out := do
  let m ← a.new p i
  let (m, _) ← Map.run (a.cfg p) m os
  let (_, x) ← Map.exec (a.cfg p) m o
  pure x

end Poplar
