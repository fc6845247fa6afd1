import Verif.Proof.FillStage
import Verif.Proof.Aliases
import Verif.Proof.Cost
/-
  A compact_fkhash_map is filled with the keys of `FillData.lean`.
-/
namespace Poplar.Fill
open Poplar.Spec Poplar.Map

/-- the label of the root and of its children -/
def lab33 : List UInt8 := List.replicate 33 97 ++ [0]

/-- the byte whose code will be `c` -/
def letter (c : Nat) : UInt8 := UInt8.ofNat (97 + c)

/-- the part of a key that leads from the root to its `q`-th child -/
def branchKey (q : Nat) (rest : List UInt8) : List UInt8 := List.replicate (q / 25) 97 ++ letter (q % 25 + 1) :: rest

/-- the key of the `q`-th child of the root -/
def parentKey (q : Nat) : List UInt8 := branchKey q lab33

/-- the key of an entry -/
def leafKey (e : Nat) : List UInt8 := branchKey (e / 1024 - 1) (List.replicate (e / 32 % 32) 97 ++ letter (e % 32) :: [0])

theorem letter_ne {c : Nat} (h1 : 1 ≤ c) (h2 : c ≤ 25) : letter c ≠ 97 ∧ letter c ≠ 0 := by
  constructor <;>
  · intro h
    have := congrArg UInt8.toNat h
    simp [letter] at this
    omega

theorem letter_inj {c d : Nat} (h1 : c ≤ 25) (h2 : d ≤ 25) (h : letter c = letter d) : c = d := by
  have := congrArg UInt8.toNat h
  simp [letter] at this
  omega

theorem sep_at (j : Nat) {x y : UInt8} (h : x ≠ y) (a b : List UInt8) :
    Sep (List.replicate j 97 ++ x :: a) (List.replicate j 97 ++ y :: b) ∧
    lcp (List.replicate j 97 ++ x :: a) (List.replicate j 97 ++ y :: b) = j ∧
    List.replicate j 97 ++ x :: a ≠ List.replicate j 97 ++ y :: b := by
  induction j with
  | zero =>
    refine ⟨.inr ⟨fun hp => ?_, fun hp => ?_⟩, ?_, ?_⟩
    · exact h (List.cons_prefix_cons.mp hp).1
    · exact h (List.cons_prefix_cons.mp hp).1.symm
    · show (if x = y then _ else 0) = 0
      rw [if_neg h]
    · intro e; injection e with e; exact h e
  | succ j ih =>
    obtain ⟨i1, i2, i3⟩ := ih
    rw [List.replicate_succ, List.cons_append, List.cons_append]
    refine ⟨?_, ?_, ?_⟩
    · rcases i1 with i1 | ⟨i1, i4⟩
      · exact absurd i1 i3
      · exact .inr ⟨fun hp => i1 (List.cons_prefix_cons.mp hp).2, fun hp => i4 (List.cons_prefix_cons.mp hp).2⟩
    · rw [lcp, if_pos rfl, i2]
    · intro e; injection e with _ e; exact i3 e

theorem lab33_split {j : Nat} (h : j < 33) : lab33 = List.replicate j 97 ++ 97 :: (List.replicate (32 - j) 97 ++ [0]) := by
  unfold lab33
  have : List.replicate 33 (97 : UInt8) = List.replicate j 97 ++ List.replicate (33 - j) 97 := by
    rw [List.replicate_append_replicate]; congr 1; omega
  rw [this, show 33 - j = (32 - j) + 1 by omega, List.replicate_succ, List.append_assoc, List.cons_append]

section
variable {p : Params} {hp : p.Valid}

/-- the map: `nc` letters have codes, the first `b` nodes have the label `lab33` -/
structure MS (hp : p.Valid) (nc b : Nat) (m : Map CompactFk CompactFkNlm) : Prop where
  lam : m.lambda = 32
  codes : CodeInv m.codes (nc + 1)
  num : m.numCodes = nc + 1
  le : nc ≤ 25
  known : ∀ i, 1 ≤ i → i ≤ nc → cdOf m.codes (letter i) = i
  unk : ∀ i, nc < i → i ≤ 25 → cdOf m.codes (letter i) = 255
  nlm : (Alias.nlmSpec .compactFkhash p hp).Inv 0 m.nlm
  lsz : (Alias.cfg .compactFkhash p).L.size m.nlm = m.trie.size
  lab : ∀ i < b, ∃ v, (Alias.nlmSpec .compactFkhash p hp).L m.nlm i false = some (lab33, v)
  bsz : b ≤ m.trie.size

variable {m : Map CompactFk CompactFkNlm} {nc b : Nat}

/-- the comparison at the root or at one of its children -/
theorem MS.compare (h : MS hp nc b m) {v j : Nat} (hv : v < b) (hj : j < 32) {c : UInt8} (hc : c ≠ 97) (rest : List UInt8) :
    (Alias.cfg .compactFkhash p).L.compare m.nlm v (List.replicate j 97 ++ c :: rest) = .ok (none, j) := by
  obtain ⟨w, hw⟩ := h.lab v hv
  have e := lab33_split (show j < 33 by omega)
  obtain ⟨s1, s2, s3⟩ := sep_at j hc rest (List.replicate (32 - j) 97 ++ [0])
  rw [← e] at s1 s2 s3
  have := ((Alias.nlmSpec .compactFkhash p hp).compare 0 m.nlm h.nlm v false _ _ hw _ s1).2 s3
  rw [this, s2]

/-- a round of `update` at the root or at one of its children -/
theorem MS.round (h : MS hp nc b m) {v j fuel : Nat} (hv : v < b) (hj : j < 32) {c : UInt8} (hc : c ≠ 97) (rest : List UInt8) :
    updLoop (Alias.cfg .compactFkhash p) (fuel + 1) m v (List.replicate j 97 ++ c :: rest) =
      Map.round (Alias.cfg .compactFkhash p) (CompactFk.addChild (Alias.compactCfg p)) (updLoop (Alias.cfg .compactFkhash p) fuel) (c :: rest) (m, v, j) := by
  rw [updLoop_round (by simp) (h.compare hv hj hc rest) (by simp), updSteps_lt (by rw [h.lam]; exact hj), R.bind_ok]
  rw [List.drop_left' (by simp)]
  rfl

theorem symb_eq {x j : Nat} (hx : x < 256) (hj : j < 32) : x ||| shl64 j 8 = j * 256 + x := by
  have : shl64 j 8 = j <<< 8 := by
    unfold shl64
    rw [Nat.shiftLeft_eq]
    omega
  rw [this, Nat.or_comm, ← Nat.shiftLeft_add_eq_or_of_lt (show x < 2 ^ 8 from hx), Nat.shiftLeft_eq]

theorem round_known {f : CompactFk → Nat → Nat → R (CompactFk × Nat × Bool)}
    {K : Map CompactFk CompactFkNlm → Nat → List UInt8 → R (Map CompactFk CompactFkNlm × UpdOut)} {c : UInt8} {n v j x : Nat} {rest : List UInt8}
    (h : CodeInv m.codes n) (hx : cdOf m.codes c = x) (hlt : x < 255) :
    Map.round (Alias.cfg .compactFkhash p) f K (c :: rest) (m, v, j) = branch (Alias.cfg .compactFkhash p) f K m v j c rest := by
  unfold Map.round
  dsimp only
  rw [h.rd, hx, R.bind_ok, if_neg (by omega)]
  have : ¬ x = 255 := by omega
  simp [this]

theorem round_unknown {f : CompactFk → Nat → Nat → R (CompactFk × Nat × Bool)}
    {K : Map CompactFk CompactFkNlm → Nat → List UInt8 → R (Map CompactFk CompactFkNlm × UpdOut)} {c : UInt8} {n v j : Nat} {rest : List UInt8}
    (h : CodeInv m.codes n) (hx : cdOf m.codes c = 255) (hn : m.numCodes < 254) :
    Map.round (Alias.cfg .compactFkhash p) f K (c :: rest) (m, v, j) =
      branch (Alias.cfg .compactFkhash p) f K { m with codes := m.codes.setIfInBounds c.toNat (m.numCodes % 256), numCodes := m.numCodes + 1 } v j c rest := by
  unfold Map.round
  dsimp only
  rw [h.rd, hx, R.bind_ok, if_pos rfl, wr_of_lt (by rw [h.size]; exact c.toNat_lt), R.bind_ok, R.pure_eq, R.bind_ok]
  have : ¬ 255 = m.numCodes + 1 := by omega
  simp [this]

theorem branch_eq {f : CompactFk → Nat → Nat → R (CompactFk × Nat × Bool)}
    {K : Map CompactFk CompactFkNlm → Nat → List UInt8 → R (Map CompactFk CompactFkNlm × UpdOut)} {c : UInt8} {n v j x : Nat} {rest : List UInt8}
    (h : CodeInv m.codes n) (hx : cdOf m.codes c = x) (hlt : x < 255) (hj : j < 32) :
    branch (Alias.cfg .compactFkhash p) f K m v j c rest = (do
      let y ← f m.trie v (j * 256 + x)
      if y.2.2 then do
        R.assert (y.2.1 = (Alias.cfg .compactFkhash p).L.size m.nlm)
        putLabel (Alias.cfg .compactFkhash p) { m with trie := y.1, size := m.size + 1 } y.2.1 rest
      else K { m with trie := y.1 } y.2.1 rest) := by
  have hs : makeSymb (Alias.cfg .compactFkhash p) m c j = .ok (j * 256 + x) := by
    unfold makeSymb
    rw [h.rd, hx, R.bind_ok]
    have : ¬ x = 255 := by omega
    rw [symb_eq (by omega) hj]
    simp [this, R.assert]
  unfold branch
  rw [hs, R.bind_ok]
  rfl

/-- The child is new: it gets its label. -/
theorem MS.put (h : MS hp nc b m) {K : Map CompactFk CompactFkNlm → Nat → List UInt8 → R (Map CompactFk CompactFkNlm × UpdOut)} {c : UInt8}
    {v j x : Nat} {rest : List UInt8} {Q : CompactFk → Prop} (hx : cdOf m.codes c = x) (hlt : x < 255) (hj : j < 32) (hr : OkLabel p.valSize rest)
    (hadd : CompactFk.addChild (Alias.compactCfg p) m.trie v (j * 256 + x) = .error .limit ∨
      ∃ t', CompactFk.addChild (Alias.compactCfg p) m.trie v (j * 256 + x) = .ok (t', m.trie.size, true) ∧ t'.size = m.trie.size + 1 ∧ Q t') :
    branch (Alias.cfg .compactFkhash p) (CompactFk.addChild (Alias.compactCfg p)) K m v j c rest = .error .limit ∨
      ∃ m' l w, branch (Alias.cfg .compactFkhash p) (CompactFk.addChild (Alias.compactCfg p)) K m v j c rest = .ok (m', .ptr l) ∧
        Map.load (Alias.cfg .compactFkhash p) m' l = .ok w ∧ MS hp nc b m' ∧ Q m'.trie ∧ m'.trie.size = m.trie.size + 1 ∧
        ∃ w, (Alias.nlmSpec .compactFkhash p hp).L m'.nlm m.trie.size rest.isEmpty = some (rest, w) := by
  rw [branch_eq h.codes hx hlt hj]
  rcases hadd with e | ⟨t', e, hsz, hQ⟩
  · left; rw [e]; rfl
  · right
    rw [e, R.bind_ok, if_pos rfl]
    dsimp only
    rw [h.lsz, R.assert_dec rfl, R.bind_ok]
    obtain ⟨n', l, a1, a2, a3, a4, a5, a6, a7⟩ := (Alias.nlmSpec .compactFkhash p hp).append rfl 0 m.nlm h.nlm rest hr
    rw [h.lsz] at a3 a4 a6 a7
    refine ⟨{ m with trie := t', size := m.size + 1, nlm := n' }, l, List.replicate p.valSize 0, ?_, ?_, ?_, hQ, hsz, _, a6⟩
    · show ((Alias.cfg .compactFkhash p).L.append m.nlm rest >>= _) = _
      rw [a1]
      rfl
    · exact (Alias.nlmSpec .compactFkhash p hp).load 0 n' a2 l _ _ _ _ a3 a6
    · refine ⟨h.lam, h.codes, h.num, h.le, h.known, h.unk, a2, a4.trans hsz.symm, ?_, ?_⟩
      · intro i hi
        have hb := h.bsz
        show ∃ v, (Alias.nlmSpec .compactFkhash p hp).L n' i false = some (lab33, v)
        rw [a7 i false (by omega)]
        exact h.lab i hi
      · have := h.bsz
        show b ≤ t'.size
        omega

end
end Poplar.Fill
