import Verif.Proof.FillBStage
import Verif.Proof.FillMap
/-
  A compact_bonsai_map is filled with the keys of `FillBData.lean`.
-/
namespace Poplar.FillB
open Poplar.Spec Poplar.Map
open Poplar.Fill (lab33 letter branchKey letter_ne letter_inj sep_at lab33_split symb_eq psym psym_lt h29 rot E Std)

section
variable {p : Params} {hp : p.Valid}

/-- the map: `nc` letters have codes, labels are only at the nodes of `U`, and the root and its first `b` children have the label `lab33` -/
structure MS (hp : p.Valid) (nc : Nat) (U : Nat → Prop) (b : Nat) (m : Map CompactBonsai CompactBonsaiNlm) : Prop where
  lam : m.lambda = 32
  codes : CodeInv m.codes (nc + 1)
  num : m.numCodes = nc + 1
  le : nc ≤ 25
  known : ∀ i, 1 ≤ i → i ≤ nc → cdOf m.codes (letter i) = i
  unk : ∀ i, nc < i → i ≤ 25 → cdOf m.codes (letter i) = 255
  nlm : (Alias.nlmSpec .compactBonsai p hp).Inv 65536 m.nlm
  lab0 : ∃ v, (Alias.nlmSpec .compactBonsai p hp).L m.nlm 0 false = some (lab33, v)
  lab : ∀ k < b, ∃ v, (Alias.nlmSpec .compactBonsai p hp).L m.nlm (par k) false = some (lab33, v)
  used : ∀ i e, (Alias.nlmSpec .compactBonsai p hp).L m.nlm i e ≠ none → U i

variable {m : Map CompactBonsai CompactBonsaiNlm} {nc b : Nat} {U : Nat → Prop}

/-- the comparison at the root or at one of its children -/
theorem MS.compare (h : MS hp nc U b m) {v j : Nat} (hv : v = 0 ∨ ∃ k < b, v = par k) (hj : j < 32) {c : UInt8} (hc : c ≠ 97) (rest : List UInt8) :
    (Alias.cfg .compactBonsai p).L.compare m.nlm v (List.replicate j 97 ++ c :: rest) = .ok (none, j) := by
  obtain ⟨w, hw⟩ : ∃ w, (Alias.nlmSpec .compactBonsai p hp).L m.nlm v false = some (lab33, w) := by
    rcases hv with rfl | ⟨k, hk, rfl⟩
    · exact h.lab0
    · exact h.lab k hk
  have e := lab33_split (show j < 33 by omega)
  obtain ⟨s1, s2, s3⟩ := sep_at j hc rest (List.replicate (32 - j) 97 ++ [0])
  rw [← e] at s1 s2 s3
  have := ((Alias.nlmSpec .compactBonsai p hp).compare 65536 m.nlm h.nlm v false _ _ hw _ s1).2 s3
  rw [this, s2]

/-- a round of `update` at the root or at one of its children -/
theorem MS.round (h : MS hp nc U b m) {v j fuel : Nat} (hv : v = 0 ∨ ∃ k < b, v = par k) (hj : j < 32) {c : UInt8} (hc : c ≠ 97) (rest : List UInt8) :
    updLoop (Alias.cfg .compactBonsai p) (fuel + 1) m v (List.replicate j 97 ++ c :: rest) =
      Map.round (Alias.cfg .compactBonsai p) (CompactBonsai.addChild (Alias.compactCfg p)) (updLoop (Alias.cfg .compactBonsai p) fuel) (c :: rest) (m, v, j) := by
  rw [updLoop_round (by simp) (h.compare hv hj hc rest) (by simp), updSteps_lt (by rw [h.lam]; exact hj), R.bind_ok]
  rw [List.drop_left' (by simp)]
  rfl

theorem round_known {f : CompactBonsai → Nat → Nat → R (CompactBonsai × Nat × Bool)}
    {K : Map CompactBonsai CompactBonsaiNlm → Nat → List UInt8 → R (Map CompactBonsai CompactBonsaiNlm × UpdOut)} {c : UInt8} {n v j x : Nat} {rest : List UInt8}
    (h : CodeInv m.codes n) (hx : cdOf m.codes c = x) (hlt : x < 255) :
    Map.round (Alias.cfg .compactBonsai p) f K (c :: rest) (m, v, j) = branch (Alias.cfg .compactBonsai p) f K m v j c rest := by
  unfold Map.round
  dsimp only
  rw [h.rd, hx, R.bind_ok, if_neg (by omega)]
  have : ¬ x = 255 := by omega
  simp [this]

theorem round_unknown {f : CompactBonsai → Nat → Nat → R (CompactBonsai × Nat × Bool)}
    {K : Map CompactBonsai CompactBonsaiNlm → Nat → List UInt8 → R (Map CompactBonsai CompactBonsaiNlm × UpdOut)} {c : UInt8} {n v j : Nat} {rest : List UInt8}
    (h : CodeInv m.codes n) (hx : cdOf m.codes c = 255) (hn : m.numCodes < 254) :
    Map.round (Alias.cfg .compactBonsai p) f K (c :: rest) (m, v, j) =
      branch (Alias.cfg .compactBonsai p) f K { m with codes := m.codes.setIfInBounds c.toNat (m.numCodes % 256), numCodes := m.numCodes + 1 } v j c rest := by
  unfold Map.round
  dsimp only
  rw [h.rd, hx, R.bind_ok, if_pos rfl, wr_of_lt (by rw [h.size]; exact c.toNat_lt), R.bind_ok, R.pure_eq, R.bind_ok]
  have : ¬ 255 = m.numCodes + 1 := by omega
  simp [this]

theorem branch_eq {f : CompactBonsai → Nat → Nat → R (CompactBonsai × Nat × Bool)}
    {K : Map CompactBonsai CompactBonsaiNlm → Nat → List UInt8 → R (Map CompactBonsai CompactBonsaiNlm × UpdOut)} {c : UInt8} {n v j x : Nat} {rest : List UInt8}
    (h : CodeInv m.codes n) (hx : cdOf m.codes c = x) (hlt : x < 255) (hj : j < 32) :
    branch (Alias.cfg .compactBonsai p) f K m v j c rest = (do
      let y ← f m.trie v (j * 256 + x)
      if y.2.2 then do
        let z ← expandIfNeeded (Alias.cfg .compactBonsai p) { m with trie := y.1 } y.2.1
        putLabel (Alias.cfg .compactBonsai p) { z.1 with size := z.1.size + 1 } z.2 rest
      else K { m with trie := y.1 } y.2.1 rest) := by
  have hs : makeSymb (Alias.cfg .compactBonsai p) m c j = .ok (j * 256 + x) := by
    unfold makeSymb
    rw [h.rd, hx, R.bind_ok]
    have : ¬ x = 255 := by omega
    rw [symb_eq (by omega) hj]
    simp [this, R.assert]
  unfold branch
  rw [hs, R.bind_ok]
  rfl

/-- The child is new: it gets its label. -/
theorem MS.put (h : MS hp nc U b m) {K : Map CompactBonsai CompactBonsaiNlm → Nat → List UInt8 → R (Map CompactBonsai CompactBonsaiNlm × UpdOut)} {c : UInt8}
    {v j x i : Nat} {rest : List UInt8} {Q : CompactBonsai → Prop} (hx : cdOf m.codes c = x) (hlt : x < 255) (hj : j < 32) (hr : OkLabel p.valSize rest)
    (hi : i < 65536) (hU : ¬ U i)
    (hadd : CompactBonsai.addChild (Alias.compactCfg p) m.trie v (j * 256 + x) = .error .limit ∨
      ∃ t', CompactBonsai.addChild (Alias.compactCfg p) m.trie v (j * 256 + x) = .ok (t', i, true) ∧ t'.size < t'.maxSize ∧ Q t') :
    branch (Alias.cfg .compactBonsai p) (CompactBonsai.addChild (Alias.compactCfg p)) K m v j c rest = .error .limit ∨
      ∃ m' l w, branch (Alias.cfg .compactBonsai p) (CompactBonsai.addChild (Alias.compactCfg p)) K m v j c rest = .ok (m', .ptr l) ∧
        Map.load (Alias.cfg .compactBonsai p) m' l = .ok w ∧ MS hp nc (fun k => U k ∨ k = i) b m' ∧ Q m'.trie ∧
        ∃ w, (Alias.nlmSpec .compactBonsai p hp).L m'.nlm i rest.isEmpty = some (rest, w) := by
  rw [branch_eq h.codes hx hlt hj]
  rcases hadd with e | ⟨t', e, hsz, hQ⟩
  · left; rw [e]; rfl
  · right
    rw [e, R.bind_ok, if_pos rfl]
    dsimp only
    have hne : (Alias.cfg .compactBonsai p).T.needsToExpand t' = false := by
      show decide (t'.maxSize ≤ t'.size) = false
      exact decide_eq_false (by omega)
    have hex : expandIfNeeded (Alias.cfg .compactBonsai p) { m with trie := t' } i = .ok ({ m with trie := t' }, i) := by
      unfold expandIfNeeded
      show (if !(Alias.cfg .compactBonsai p).T.needsToExpand t' then _ else _) = _
      rw [hne]
      rfl
    rw [hex, R.bind_ok]
    dsimp only
    have hnone : ∀ e, (Alias.nlmSpec .compactBonsai p hp).L m.nlm i e = none := by
      intro e
      by_contra hc
      exact hU (h.used i e hc)
    obtain ⟨n', l, a1, a2, a3, a4, a5, a6⟩ := (Alias.nlmSpec .compactBonsai p hp).insert rfl 65536 m.nlm h.nlm i hi hnone rest hr
    refine ⟨{ m with trie := t', size := m.size + 1, nlm := n' }, l, List.replicate p.valSize 0, ?_, ?_, ?_, hQ, _, a5⟩
    · show ((Alias.cfg .compactBonsai p).L.insert m.nlm i rest >>= _) = _
      rw [a1]
      rfl
    · exact (Alias.nlmSpec .compactBonsai p hp).load 65536 n' a2 l _ _ _ _ a3 a5
    · have keep : ∀ k (e : Bool) x, (Alias.nlmSpec .compactBonsai p hp).L m.nlm k e = some x → (Alias.nlmSpec .compactBonsai p hp).L n' k e = some x := by
        intro k e x hk
        rw [a6 k e, hk]
        rintro rfl
        rw [hnone] at hk
        cases hk
      refine ⟨h.lam, h.codes, h.num, h.le, h.known, h.unk, a2, ?_, ?_, ?_⟩
      · obtain ⟨w, hw⟩ := h.lab0
        exact ⟨w, keep _ _ _ hw⟩
      · intro k hk
        obtain ⟨w, hw⟩ := h.lab k hk
        exact ⟨w, keep _ _ _ hw⟩
      · intro k e hk
        by_cases hki : k = i
        · exact .inr hki
        · refine .inl (h.used k e ?_)
          rw [← a6 k e hki]
          exact hk

end
end Poplar.FillB
