import Verif.Model.MapRun
import Verif.Spec.Strings
/-
  Model of `make_char_range` (basics.hpp:62-69) and of the `std::string` overloads of `find` and `update` (map.hpp:72-74,
  118-120).
-/
namespace Poplar
open Spec

/-- `std::strlen`: reads `mem` up to the first NUL; running off the accessible memory is undefined behaviour. -/
def strlen : List UInt8 → R Nat
  | [] => .error .oob
  | c :: r => if c = 0 then .ok 0 else do pure ((← strlen r) + 1)

/-- the bytes of the range `[p, p + n)` -/
def bytesAt (mem : List UInt8) (n : Nat) : R (List UInt8) := if n ≤ mem.length then .ok (mem.take n) else .error .oob

/-- basics.hpp:62-65, `make_char_range(const char*)`; `mem` is the memory at the pointer. -/
def makeCharRangeC (mem : List UInt8) : R (List UInt8) := do bytesAt mem ((← strlen mem) + 1)

/-- basics.hpp:66-69, `make_char_range(const std::string&)`: `c_str()` points to the characters followed by a NUL. -/
def makeCharRangeS (s : List UInt8) : R (List UInt8) := bytesAt (s ++ [0]) (s.length + 1)

/-- the `char_range` for a key -/
def KeySrc.range : KeySrc → R (List UInt8)
  | .string s => makeCharRangeS s
  | .cstr mem => makeCharRangeC mem

namespace Map
variable {τ ν : Type}

/-- One user operation with strings; `.string` uses the `std::string` overload (map.hpp:72-74: `find(make_char_range(key))`,
map.hpp:118-120: `update(make_char_range(key))`), `.cstr` the other one with `make_char_range(const char*)`. -/
def sexec (cfg : MapCfg τ ν) (m : Map τ ν) : SOp → R (Map τ ν × Out)
  | .find k => do exec cfg m (.find (← KeySrc.range k))
  | .update k => do exec cfg m (.update (← KeySrc.range k))
  | .write k v => do exec cfg m (.write (← KeySrc.range k) v)
  | .size => exec cfg m .size

/-- a history of such operations -/
def srun (cfg : MapCfg τ ν) : Map τ ν → List SOp → R (Map τ ν × List Out)
  | m, [] => .ok (m, [])
  | m, o :: os => do
    let (m, x) ← sexec cfg m o
    let (m, xs) ← srun cfg m os
    pure (m, x :: xs)

end Map

/-- everything the user sees in a history of string operations -/
def Alias.shistory (a : Alias) (p : Params) (i : Init) (os : List SOp) : R (List Out) := do
  let m ← a.new p i
  let (_, xs) ← Map.srun (a.cfg p) m os
  pure xs

end Poplar
