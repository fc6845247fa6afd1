import Verif.Spec.Limits
import Verif.Proof.MapHistory
import Verif.Proof.PlainBonsaiTrie
import Verif.Proof.PlainFkhashTrie
import Verif.Proof.CompactFkhashTrie
import Verif.Proof.PlainFkNlm
import Verif.Proof.PlainBonsaiNlm
import Verif.Proof.CompactFkNlm
import Verif.Proof.CompactBonsaiNlm
import Verif.Proof.LabelBytes
/-
  The aliases satisfy the contracts.
-/
namespace Poplar

namespace Alias

theorem factorOK (p : Params) : FactorOK 16 p.maxFactor := by
  have h1 := p.factor_ok.1
  have h2 := p.factor_ok.2
  refine ⟨h2, ?_, ?_⟩ <;> unfold maxSize <;> omega

theorem compactOK (p : Params) : (compactCfg p).OK := 
  ⟨factorOK p, by show 12 ≤ 16; decide, ⟨p.dsp1_ok.1, p.dsp1_ok.2, p.dsp2_ok.1, p.dsp2_ok.2⟩, p.dsp1_ok.2⟩

def trieSpec (a : Alias) (p : Params) (sb cb0 : Nat) (hsb : 0 < sb) :
    TrieSpec (a.cfg p).T sb (a.nodeLimit p sb cb0) (a.plainFk = false ∨ p.dbg = false) :=
  match a with
  | plainBonsai => (PlainBonsai.spec (plainCfg p) (factorOK p) sb hsb).weaken (Nat.le_refl _) (by simp)
  | semiCompactBonsai => (PlainBonsai.spec (plainCfg p) (factorOK p) sb hsb).weaken (Nat.le_refl _) (by simp)
  | compactBonsai => (CompactBonsai.spec (compactCfg p) (compactOK p) sb hsb cb0).weaken (Nat.le_refl _) (by simp)
  | compactFkhash => (CompactFk.spec (compactCfg p) (compactOK p) sb hsb cb0).weaken (Nat.le_refl _) (by simp)
  | plainFkhash => (PlainFk.spec { plainCfg p with dbg := p.dbg } (factorOK p) sb).weaken (Nat.le_refl _) (by simp [plainFk])
  | semiCompactFkhash => (PlainFk.spec { plainCfg p with dbg := p.dbg } (factorOK p) sb).weaken (Nat.le_refl _) (by simp [plainFk])

def nlmSpec (a : Alias) (p : Params) (hp : p.Valid) : NlmSpec (a.cfg p).L (a.cfg p).T.kind p.valSize :=
  match a with
  | plainBonsai => PlainBonsaiNlm.specB p.valSize
  | semiCompactBonsai | compactBonsai => CompactBonsaiNlm.specB p.chunkSize p.valSize hp.chunk hp.val64
  | plainFkhash => PlainFkNlm.spec p.valSize
  | semiCompactFkhash | compactFkhash => CompactFkNlm.spec p.chunkSize p.valSize (by have := hp.chunk; omega) hp.val hp.val64

theorem minb (a : Alias) (p : Params) (sb cb0 : Nat) (hsb : 0 < sb) : (a.trieSpec p sb cb0 hsb).minb = 16 := by
  cases a <;> rfl

theorem mf (a : Alias) (p : Params) (sb cb0 : Nat) (hsb : 0 < sb) : (a.trieSpec p sb cb0 hsb).mf = p.maxFactor := by
  cases a <;> rfl

theorem cb0_le (a : Alias) (p : Params) (sb cb0 : Nat) (hsb : 0 < sb) : (a.trieSpec p sb cb0 hsb).cb0 ≤ cb0 := by
  cases a
  all_goals first | exact Nat.zero_le _ | exact Nat.le_refl _

theorem ok (a : Alias) (p : Params) (hp : p.Valid) (sb cb0 : Nat) (hsb : 0 < sb) :
    Map.Ok (a.trieSpec p sb cb0 hsb) (a.nlmSpec p hp) := by
  refine ⟨by cases a <;> rfl, ?_, by rw [minb]; omega⟩
  rw [minb]
  have hch : Nat.log2 p.chunkSize ≤ 16 := by
    rcases hp.chunk with h | h | h | h <;> rw [h] <;> decide
  cases a
  · exact Nat.zero_le _
  · exact hch
  · exact hch
  · exact Nat.zero_le _
  · exact Nat.zero_le _
  · exact Nat.zero_le _

theorem new_ok (a : Alias) (p : Params) (hp : p.Valid) (i : Init) (hi : i.Fits) (K : List UInt8 → Prop) :
    ∃ (hsb : 0 < i.symbBits) (m : Map a.Trie a.Nlm), a.new p i = .ok m ∧
      Map.State (a.trieSpec p i.symbBits i.capa0 hsb) (a.nlmSpec p hp) K m [] ∧ (a.cfg p).T.size m.trie = 0 ∧
      (∀ c, ¬ Map.Coded m c) ∧ m.numCodes ≤ 1 := by
  cases i with
  | default =>
    refine ⟨by decide, _, rfl, Or.inl ⟨rfl, ⟨rfl, Nat.le_zero.1 (a.cb0_le p 13 0 (by decide))⟩, rfl⟩, (a.ok p hp 13 0 (by decide)).empty, ?_, Nat.zero_le _⟩
    rintro c ⟨h, _⟩
    cases h
  | make cb lam =>
    obtain ⟨⟨l, rfl⟩, h2⟩ := hi
    have hl : Nat.log2 (2 ^ l) = l := Nat.log2_two_pow
    have hs : Init.symbBits (.make cb (2 ^ l)) = 8 + l := by simp only [Init.symbBits, hl]
    rw [hl] at h2
    have hsb : 0 < Init.symbBits (.make cb (2 ^ l)) := by rw [hs]; omega
    refine ⟨hsb, ?_⟩
    obtain ⟨m, m1, m2, _⟩ := Map.make_ok (TS := a.trieSpec p _ cb hsb) (NS := a.nlmSpec p hp) (cb := cb)
      (by rw [hs]; omega) (a.ok p hp _ cb hsb).min (a.cb0_le p _ cb hsb) (by rw [minb, hs]; exact h2)
    refine ⟨m, ?_, Or.inr (Or.inl ⟨m2, rfl⟩), (a.trieSpec p _ cb hsb).fresh_size _ m2.trie, m2.not_coded, by rw [m2.num]⟩
    rw [hs, show 8 + l - 8 = l by omega] at m1
    exact m1

end Alias
end Poplar
