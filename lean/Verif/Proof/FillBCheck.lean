import Verif.Proof.FillBData
import Verif.Proof.FillCheck
/-
  The numbers of `FillBData.lean` describe keys of a compact_bonsai_trie of 2^16 slots that all collide: checked by the kernel.
-/
namespace Poplar.FillB
open Poplar.Fill (h29 rot Elit E chkGap)

/-- the slot of the `k`-th child of the root -/
def par (k : Nat) : Nat := h29 (k / 25 * 256 + (k % 25 + 1)) % 65536

/-- key of an entry: its parent is the child of the root number `e / 1024`, its symbol is `e / 32 % 32 * 256 + e % 32` -/
def entryKey (e : Nat) : Nat := par (e / 1024 - 1) * 8192 + (e / 32 % 32 * 256 + e % 32)

/-- an entry is put into slot `f`, at a distance of at least `lo` and less than 141 from its home; the rotated hash
value is at least `r` -/
def okE (lo f r e x : Nat) : Bool :=
  Nat.ble 1 (e / 1024) && Nat.ble (e / 1024) 200 && Nat.ble 1 (e % 32) && Nat.ble (e % 32) 25 &&
  Nat.ble (x % 65536 + lo) f && Nat.blt f (x % 65536 + 141) && Nat.ble r (rot x)

/-- the entries of a segment -/
def chkE (lo r1 : Nat) : (n f r code : Nat) → Bool
  | 0, _, r, _ => Nat.ble r r1
  | n + 1, f, r, code =>
    okE lo f r (code % 1048576) (h29 (entryKey (code % 1048576))) &&
    chkE lo r1 n (f + 1) (rot (h29 (entryKey (code % 1048576))) + 1) (code / 1048576)

/-- the segments, from slot `f0` (those before are used) to `f1` -/
def chkS (es : List Nat) (lo f1 r1 : Nat) : Nat → List (Nat × Nat × Nat × Nat) → Bool
  | f0, [] => Nat.ble f0 f1 && chkGap es f0 (f1 - f0)
  | f0, (f, n, r, code) :: l =>
    Nat.ble f0 f && chkGap es f0 (f - f0) && es.all (fun x => Nat.blt x f || Nat.ble (f + n) x) &&
    chkE lo (match l with | [] => r1 | (_, _, r', _) :: _ => r') n f r code &&
    chkS es lo f1 r1 (f + n) l

/-- the slots that are in use before: the root and its children -/
def EB : List Nat := 0 :: Elit

set_option maxRecDepth 100000

theorem chk0 : chkS EB 0 26 99500 0 seg0 = true := by decide +kernel
theorem chk1 : chkS EB 14 5752 46143466 26 seg1 = true := by decide +kernel
theorem chk2 : chkS EB 14 11384 92289080 5752 seg2 = true := by decide +kernel
theorem chk3 : chkS EB 14 17046 138659803 11384 seg3 = true := by decide +kernel
theorem chk4 : chkS EB 14 22780 185640241 17046 seg4 = true := by decide +kernel
theorem chk5 : chkS EB 14 28462 232186086 22780 seg5 = true := by decide +kernel
theorem chk6 : chkS EB 14 34074 278156100 28462 seg6 = true := by decide +kernel
theorem chk7 : chkS EB 14 39744 324601674 34074 seg7 = true := by decide +kernel
theorem chk8 : chkS EB 14 45426 371148137 39744 seg8 = true := by decide +kernel
theorem chk9 : chkS EB 14 51102 417644646 45426 seg9 = true := by decide +kernel
theorem chk10 : chkS EB 14 52616 430049345 51102 seg10 = true := by decide +kernel
end Poplar.FillB
