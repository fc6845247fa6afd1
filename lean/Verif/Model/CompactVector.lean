import Verif.Model.Basic
/-
  Model of `include/poplar/compact_vector.hpp`.
-/
namespace Poplar

/-- compact_vector.hpp:108-112: the data members of `compact_vector`. The default values are those
of the default constructor (line 36). -/
structure CompactVector where
  chunks : Array Nat := #[]
  size : Nat := 0
  mask : Nat := 0
  width : Nat := 0
deriving Repr, DecidableEq

namespace CompactVector

/-- compact_vector.hpp:38-45, `compact_vector(size, width)`.
Simplification: `size * width` is not reduced modulo `2^64` (a vector of that size is not allocatable). -/
def make (size width : Nat) : R CompactVector :=
  if 64 ≤ width then .error .throw
  else .ok { chunks := Array.replicate (wordsFor (size * width)) 0
             size := size, mask := 2 ^ width - 1, width := width }

/-- compact_vector.hpp:55-58, `resize`. `std::vector::resize` keeps the common prefix and
zero-fills. -/
def resize (v : CompactVector) (size : Nat) : CompactVector :=
  let n := wordsFor (size * v.width)
  { v with size := size
           chunks := (v.chunks.extract 0 n) ++ Array.replicate (n - v.chunks.size) 0 }

/-- compact_vector.hpp:64-74, `get` (and `operator[]`, lines 60-62). -/
def get (v : CompactVector) (i : Nat) : R Nat := do
  R.assert (i < v.size)
  let quo := i * v.width / 64
  let mod := i * v.width % 64
  if mod + v.width ≤ 64 then
    let w ← rd v.chunks quo
    pure ((w >>> mod) &&& v.mask)
  else
    let w0 ← rd v.chunks quo
    let w1 ← rd v.chunks (quo + 1)
    pure (((w0 >>> mod) ||| shl64 w1 (64 - mod)) &&& v.mask)

/-- compact_vector.hpp:76-90, `set`. -/
def set (v : CompactVector) (i x : Nat) : R CompactVector := do
  R.assert (i < v.size)
  R.assert (x ≤ v.mask)
  let quo := i * v.width / 64
  let mod := i * v.width % 64
  let w ← rd v.chunks quo
  let chunks ← wr v.chunks quo ((w &&& not64 (shl64 v.mask mod)) ||| shl64 (x &&& v.mask) mod)
  if 64 < mod + v.width then
    let diff := 64 - mod
    let w1 ← rd chunks (quo + 1)
    let chunks ← wr chunks (quo + 1) ((w1 &&& not64 (v.mask >>> diff)) ||| ((x &&& v.mask) >>> diff))
    pure { v with chunks := chunks }
  else
    pure { v with chunks := chunks }

/-- The loop `for (i = 0; i < size; ++i) set(i, init)` of compact_vector.hpp:48-50; `n` iterations
are left, the next index is `i`. -/
def fillFrom (init : Nat) : (n i : Nat) → CompactVector → R CompactVector
  | 0, _, v => .ok v
  | n + 1, i, v => do
    let v ← v.set i init
    fillFrom init n (i + 1) v

/-- compact_vector.hpp:47-51, `compact_vector(size, width, init)`. -/
def makeInit (size width init : Nat) : R CompactVector := do
  let v ← make size width
  fillFrom init size 0 v

end CompactVector
end Poplar
