import Verif.Proof.FillData
/-
  The numbers of `FillData.lean` describe keys of a compact_fkhash_trie of 2^16 slots that all collide: checked by the kernel.
-/
namespace Poplar.Fill

/-- `split_mix_hasher` for 29 bits -/
def h29 (x : Nat) : Nat :=
  (fun x => (x ^^^ (x >>> 17)) * 536870869 % 536870912)
    ((fun x => (x ^^^ (x >>> 16)) * 536870879 % 536870912) ((x ^^^ (x >>> 15)) * 536870909 % 536870912))

/-- key of an entry: its parent is node `e / 1024`, its symbol is `e / 32 % 32 * 256 + e % 32` -/
def entryKey (e : Nat) : Nat := e / 1024 * 8192 + (e / 32 % 32 * 256 + e % 32)

/-- the hash value, home slot first -/
def rot (x : Nat) : Nat := x % 65536 * 8192 + x / 65536

/-- an entry is put into slot `f`, at a distance of at least `lo` and less than 142 from its home; the rotated hash
value is at least `r` -/
def okE (lo f r e x : Nat) : Bool :=
  Nat.ble 1 (e / 1024) && Nat.ble (e / 1024) 200 && Nat.ble 1 (e % 32) && Nat.ble (e % 32) 25 &&
  Nat.ble (x % 65536 + lo) f && Nat.blt f (x % 65536 + 142) && Nat.ble r (rot x)

/-- the entries of a segment -/
def chkE (lo r1 : Nat) : (n f r code : Nat) → Bool
  | 0, _, r, _ => Nat.ble r r1
  | n + 1, f, r, code =>
    okE lo f r (code % 1048576) (h29 (entryKey (code % 1048576))) &&
    chkE lo r1 n (f + 1) (rot (h29 (entryKey (code % 1048576))) + 1) (code / 1048576)

/-- the home slots of the 200 children of the root -/
def E : List Nat := (List.range 200).map (fun k => h29 (k / 25 * 256 + (k % 25 + 1)) % 65536)

/-- all the slots from `a` to `b - 1` are in `E` -/
def chkGap (es : List Nat) (a : Nat) : Nat → Bool
  | 0 => true
  | n + 1 => es.contains a && chkGap es (a + 1) n

/-- the segments, from slot `f0` (those before are used) to `f1` -/
def chkS (es : List Nat) (lo f1 r1 : Nat) : Nat → List (Nat × Nat × Nat × Nat) → Bool
  | f0, [] => Nat.ble f0 f1 && chkGap es f0 (f1 - f0)
  | f0, (f, n, r, code) :: l =>
    Nat.ble f0 f && chkGap es f0 (f - f0) && es.all (fun x => Nat.blt x f || Nat.ble (f + n) x) &&
    chkE lo (match l with | [] => r1 | (_, _, r', _) :: _ => r') n f r code &&
    chkS es lo f1 r1 (f + n) l

/-- `E`, computed -/
def Elit : List Nat := [
  43884, 48141, 52226, 56483, 60912, 65169, 3718, 7975, 12404, 16661, 20746, 25003, 29432, 33689, 37774,
  42031, 46460, 50717, 54802, 59059, 63488, 2209, 6294, 10551, 14980, 19435, 23778, 27949, 32292, 36463,
  40806, 44977, 49320, 53491, 57834, 62005, 812, 4983, 9326, 13497, 17840, 22011, 26354, 30525, 34868, 39039,
  43382, 47553, 51896, 56067, 60651, 64994, 3629, 7972, 12143, 16486, 20657, 25000, 29171, 33514, 37685,
  42028, 46199, 50542, 54713, 59056, 63227, 2034, 6205, 10548, 14719, 19062, 23233, 27576, 31747, 36331,
  40674, 44845, 49188, 53359, 57702, 61873, 680, 4851, 9194, 13365, 17708, 21879, 26222, 30393, 34736, 38907,
  43250, 47421, 51764, 55935, 60278, 64449, 3256, 7427, 12011, 16354, 20525, 24868, 29039, 33382, 37553,
  41896, 46067, 50410, 54581, 58924, 63095, 1902, 6073, 10416, 14587, 18930, 23101, 27444, 31615, 35958,
  40129, 44472, 48643, 53227, 57570, 61741, 548, 4719, 9062, 13233, 17576, 21747, 26090, 30261, 34604, 38775,
  43118, 47289, 51632, 55803, 60146, 64317, 3124, 7295, 11638, 15809, 20152, 24323, 28950, 33207, 37464,
  41721, 45978, 50235, 54492, 58749, 63006, 1727, 5984, 10241, 14498, 18755, 23012, 27269, 31526, 35783,
  40040, 44297, 48554, 52811, 57068, 61325, 46, 4630, 8887, 13144, 17401, 21658, 25915, 30172, 34429, 38686,
  42943, 47200, 51457, 55714, 59971, 64228, 2949, 7206, 11463, 15720, 19977, 24234, 28491, 32748, 37005, 41262]

theorem E_eq : E = Elit := by decide +kernel

set_option maxRecDepth 100000

theorem chk0 : chkS Elit 0 24 79715 0 seg0 = true := by decide +kernel
theorem chk1 : chkS Elit 15 5752 46147069 24 seg1 = true := by decide +kernel
theorem chk2 : chkS Elit 15 11384 92292495 5752 seg2 = true := by decide +kernel
theorem chk3 : chkS Elit 15 17046 138658057 11384 seg3 = true := by decide +kernel
theorem chk4 : chkS Elit 15 22780 185632089 17046 seg4 = true := by decide +kernel
theorem chk5 : chkS Elit 15 28462 232178041 22780 seg5 = true := by decide +kernel
theorem chk6 : chkS Elit 15 34074 278152271 28462 seg6 = true := by decide +kernel
theorem chk7 : chkS Elit 15 39744 324602874 34074 seg7 = true := by decide +kernel
theorem chk8 : chkS Elit 15 45426 371148155 39744 seg8 = true := by decide +kernel
theorem chk9 : chkS Elit 15 51102 417645113 45426 seg9 = true := by decide +kernel
theorem chk10 : chkS Elit 15 52614 430035702 51102 seg10 = true := by decide +kernel
end Poplar.Fill
