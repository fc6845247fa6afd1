import Verif.Model.Select
/-
  Model of the `__SSE4_2__` branches of `include/poplar/bit_tools.hpp`. The compiler's builtin functions are modelled by their
  documented meaning.
-/
namespace Poplar.BitTools
open Poplar

/-- `__builtin_popcount(x)` (`w = 32`) and `__builtin_popcountll(x)` (`w = 64`), used in bit_tools.hpp:105,116: the number of 1-bits. -/
def builtinPopcount (w x : Nat) : Nat := (List.range w).countP x.testBit

/-- `__builtin_ctzll(x)`, used in bit_tools.hpp:236: the number of trailing 0-bits; undefined if `x` is 0. -/
def builtinCtzll (x : Nat) : R Nat :=
  match (List.range 64).find? x.testBit with
  | some n => .ok n
  | none => .error .limit

/-- `__builtin_clzll(x)`, used in bit_tools.hpp:287: the number of leading 0-bits; undefined if `x` is 0. -/
def builtinClzll (x : Nat) : R Nat :=
  match (List.range 64).find? (fun n => x.testBit (63 - n)) with
  | some n => .ok n
  | none => .error .limit

/-- bit_tools.hpp:97-116: `popcnt(chunk_type)` with `__SSE4_2__` (the 8 and 16 bit versions have one code path). -/
def popcntSse (w x : Nat) : R Nat :=
  if w = 8 then popcnt8 x
  else if w = 16 then popcnt16 x
  else if w = 32 then .ok (builtinPopcount 32 x)
  else .ok (builtinPopcount 64 x)

/-- bit_tools.hpp:228-239, `select` with `__SSE4_2__`. Lines 230-234 are the same as lines 241-245. The
sum in the last line does not wrap: the low eight bits of the first summand are zero. -/
def selectSse (x i : Nat) : R Nat := do
  R.assert (i ≠ 0)
  let s := bytePrefixSums x
  let b := ((s + (← rd psOverflow i)) % 2 ^ 64) &&& 0x8080808080808080
  let byteNr := (← builtinCtzll b) >>> 3
  let s := shl64 s 8
  let i := sub64 i ((s >>> (byteNr <<< 3)) &&& 0xFF)
  let q ← rd ltSel (shl64 (sub64 i 1) 8 + ((x >>> (byteNr <<< 3)) &&& 0xFF))
  pure ((byteNr <<< 3) + q)

/-- bit_tools.hpp:285-287, `msb` with `__SSE4_2__`. -/
def msbSse (x : Nat) : R Nat := if x = 0 then .ok 0 else do pure (63 - (← builtinClzll x))

/-- bit_tools.hpp:328-330, `ceil_log2`, which calls `msb`. -/
def ceilLog2Sse (x : Nat) : R Nat :=
  if 1 < x then do pure ((← msbSse (x - 1)) + 1) else .ok 0

end Poplar.BitTools
