import Verif.Model.Basic
/-
  Model of `include/poplar/bit_tools.hpp` (portable code paths, i.e. without `__SSE4_2__`).
  Words of width `w` (8, 16, 32, 64) are naturals below `2^w`.
-/
namespace Poplar.BitTools
open Poplar

/-- bit_tools.hpp:36-51, `get_bit` on a `w`-bit word. -/
def getBit (w x i : Nat) : R Bool := do
  R.assert (i < w)
  pure ((x &&& (1 <<< i)) != 0)

/-- bit_tools.hpp:54-85, `set_bit` on a `w`-bit word; returns the new word. `~(1U << i)` is taken
on 64 bits, which agrees after the implicit truncation to `w` bits. -/
def setBit (w x i : Nat) (bit : Bool := true) : R Nat := do
  R.assert (i < w)
  pure (if bit then x ||| (1 <<< i) else x &&& not64 (1 <<< i))

/-- bit_tools.hpp:87-94, `POPCNT_TABLE`. -/
def popcntTable : Array Nat := #[
    0, 1, 1, 2, 1, 2, 2, 3, 1, 2, 2, 3, 2, 3, 3, 4, 1, 2, 2, 3, 2, 3, 3, 4, 2, 3, 3, 4, 3, 4, 4, 5, 1, 2, 2, 3, 2,
    3, 3, 4, 2, 3, 3, 4, 3, 4, 4, 5, 2, 3, 3, 4, 3, 4, 4, 5, 3, 4, 4, 5, 4, 5, 5, 6, 1, 2, 2, 3, 2, 3, 3, 4, 2, 3,
    3, 4, 3, 4, 4, 5, 2, 3, 3, 4, 3, 4, 4, 5, 3, 4, 4, 5, 4, 5, 5, 6, 2, 3, 3, 4, 3, 4, 4, 5, 3, 4, 4, 5, 4, 5, 5,
    6, 3, 4, 4, 5, 4, 5, 5, 6, 4, 5, 5, 6, 5, 6, 6, 7, 1, 2, 2, 3, 2, 3, 3, 4, 2, 3, 3, 4, 3, 4, 4, 5, 2, 3, 3, 4,
    3, 4, 4, 5, 3, 4, 4, 5, 4, 5, 5, 6, 2, 3, 3, 4, 3, 4, 4, 5, 3, 4, 4, 5, 4, 5, 5, 6, 3, 4, 4, 5, 4, 5, 5, 6, 4,
    5, 5, 6, 5, 6, 6, 7, 2, 3, 3, 4, 3, 4, 4, 5, 3, 4, 4, 5, 4, 5, 5, 6, 3, 4, 4, 5, 4, 5, 5, 6, 4, 5, 5, 6, 5, 6,
    6, 7, 3, 4, 4, 5, 4, 5, 5, 6, 4, 5, 5, 6, 5, 6, 6, 7, 4, 5, 5, 6, 5, 6, 6, 7, 5, 6, 6, 7, 6, 7, 7, 8]

/-- bit_tools.hpp:97-99, `popcnt(uint8_t)`. -/
def popcnt8 (x : Nat) : R Nat := rd popcntTable x

/-- bit_tools.hpp:100-102, `popcnt(uint16_t)`. -/
def popcnt16 (x : Nat) : R Nat := do
  pure ((← rd popcntTable (x &&& 255)) + (← rd popcntTable (x >>> 8)))

/-- bit_tools.hpp:103-113, `popcnt(uint32_t)`, portable path. -/
def popcnt32 (x : Nat) : Nat :=
  let x := (x &&& 0x55555555) + ((x &&& 0xAAAAAAAA) >>> 1)
  let x := (x &&& 0x33333333) + ((x &&& 0xCCCCCCCC) >>> 2)
  let x := (x &&& 0x0F0F0F0F) + ((x &&& 0xF0F0F0F0) >>> 4)
  let x := x * 0x01010101 % 2 ^ 32
  x >>> 24

/-- bit_tools.hpp:114-124, `popcnt(uint64_t)`, portable path. -/
def popcnt64 (x : Nat) : Nat :=
  let x := (x &&& 0x5555555555555555) + ((x &&& 0xAAAAAAAAAAAAAAAA) >>> 1)
  let x := (x &&& 0x3333333333333333) + ((x &&& 0xCCCCCCCCCCCCCCCC) >>> 2)
  let x := (x &&& 0x0F0F0F0F0F0F0F0F) + ((x &&& 0xF0F0F0F0F0F0F0F0) >>> 4)
  let x := mul64 x 0x0101010101010101
  x >>> 56

/-- bit_tools.hpp:97-124: overload resolution of `popcnt(chunk_type)` by the width of the word
(`chunk_type_traits`, basics.hpp:126-143, admits 8, 16, 32 and 64 only). -/
def popcnt (w x : Nat) : R Nat :=
  if w = 8 then popcnt8 x
  else if w = 16 then popcnt16 x
  else if w = 32 then .ok (popcnt32 x)
  else .ok (popcnt64 x)

/-- bit_tools.hpp:127-142, `popcnt(x, i)`: number of ones below position `i`. -/
def popcntMask (w x i : Nat) : R Nat := do
  R.assert (i < w)
  popcnt w (x &&& ((1 <<< i) - 1))

/-- bit_tools.hpp:275-282, `MSB_TABLE`. -/
def msbTable : Array Nat := #[
    0, 0, 1, 1, 2, 2, 2, 2, 3, 3, 3, 3, 3, 3, 3, 3, 4, 4, 4, 4, 4, 4, 4, 4, 4, 4, 4, 4, 4, 4, 4, 4, 5, 5, 5, 5, 5,
    5, 5, 5, 5, 5, 5, 5, 5, 5, 5, 5, 5, 5, 5, 5, 5, 5, 5, 5, 5, 5, 5, 5, 5, 5, 5, 5, 6, 6, 6, 6, 6, 6, 6, 6, 6, 6,
    6, 6, 6, 6, 6, 6, 6, 6, 6, 6, 6, 6, 6, 6, 6, 6, 6, 6, 6, 6, 6, 6, 6, 6, 6, 6, 6, 6, 6, 6, 6, 6, 6, 6, 6, 6, 6,
    6, 6, 6, 6, 6, 6, 6, 6, 6, 6, 6, 6, 6, 6, 6, 6, 6, 7, 7, 7, 7, 7, 7, 7, 7, 7, 7, 7, 7, 7, 7, 7, 7, 7, 7, 7, 7,
    7, 7, 7, 7, 7, 7, 7, 7, 7, 7, 7, 7, 7, 7, 7, 7, 7, 7, 7, 7, 7, 7, 7, 7, 7, 7, 7, 7, 7, 7, 7, 7, 7, 7, 7, 7, 7,
    7, 7, 7, 7, 7, 7, 7, 7, 7, 7, 7, 7, 7, 7, 7, 7, 7, 7, 7, 7, 7, 7, 7, 7, 7, 7, 7, 7, 7, 7, 7, 7, 7, 7, 7, 7, 7,
    7, 7, 7, 7, 7, 7, 7, 7, 7, 7, 7, 7, 7, 7, 7, 7, 7, 7, 7, 7, 7, 7, 7, 7, 7, 7, 7, 7, 7, 7, 7, 7, 7, 7]

/-- bit_tools.hpp:285-326, `msb`, portable path. -/
def msb (x : Nat) : R Nat := do
  let x1 := x >>> 32
  if 0 < x1 then
    let x2 := x1 >>> 16
    if 0 < x2 then
      let x1 := x2 >>> 8
      if 0 < x1 then pure ((← rd msbTable x1) + 56)
      else pure ((← rd msbTable x2) + 48)
    else
      let x2 := x1 >>> 8
      if 0 < x2 then pure ((← rd msbTable x2) + 40)
      else pure ((← rd msbTable x1) + 32)
  else
    let x2 := x >>> 16
    if 0 < x2 then
      let x1 := x2 >>> 8
      if 0 < x1 then pure ((← rd msbTable x1) + 24)
      else pure ((← rd msbTable x2) + 16)
    else
      let x1 := x >>> 8
      if 0 < x1 then pure ((← rd msbTable x1) + 8)
      else rd msbTable x

/-- bit_tools.hpp:328-330, `ceil_log2`. -/
def ceilLog2 (x : Nat) : R Nat :=
  if 1 < x then do pure ((← msb (x - 1)) + 1) else .ok 0

end Poplar.BitTools
