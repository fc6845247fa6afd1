import Verif.Proof.Pointers
/-
  A Bonsai trie has a free slot below `max_size` after every call.
-/
namespace Poplar
open Spec

variable {a : Alias} {p : Params} {K : Key → Prop}

namespace Alias

theorem inv_room {sb cb0 : Nat} (hsb : 0 < sb) (hk : (a.cfg p).T.kind = .bonsai) {t : a.Trie}
    (hi : (a.trieSpec p sb cb0 hsb).Inv t) (hn : (a.cfg p).T.needsToExpand t = false) :
    (a.cfg p).T.size t < maxSize ((a.cfg p).T.capaSize t) p.maxFactor := by
  cases a with
  | plainBonsai =>
    have hi : PlainBonsai.Inv _ _ t := hi
    have hn : PlainBonsai.needsToExpand t = false := hn
    simp only [PlainBonsai.needsToExpand, decide_eq_false_iff_not, Nat.not_le, hi.maxs] at hn
    show t.size < maxSize t.capaSize p.maxFactor
    rw [PlainBonsai.capaSize, hi.capa_size]
    exact hn
  | semiCompactBonsai =>
    have hi : PlainBonsai.Inv _ _ t := hi
    have hn : PlainBonsai.needsToExpand t = false := hn
    simp only [PlainBonsai.needsToExpand, decide_eq_false_iff_not, Nat.not_le, hi.maxs] at hn
    show t.size < maxSize t.capaSize p.maxFactor
    rw [PlainBonsai.capaSize, hi.capa_size]
    exact hn
  | compactBonsai =>
    have hi : CompactBonsai.Inv (compactCfg p) sb t := hi.1
    have hn : CompactBonsai.needsToExpand t = false := hn
    simp only [CompactBonsai.needsToExpand, decide_eq_false_iff_not, Nat.not_le, hi.maxs] at hn
    show t.size < maxSize t.capaSize p.maxFactor
    rw [CompactBonsai.capaSize, hi.capa_size]
    exact hn
  | plainFkhash => cases hk
  | semiCompactFkhash => cases hk
  | compactFkhash => cases hk

theorem state_room (hp : p.Valid) {sb cb0 : Nat} (hsb : 0 < sb) (hk : (a.cfg p).T.kind = .bonsai) {m : Map a.Trie a.Nlm} {d : Dict}
    (hm : Map.State (a.trieSpec p sb cb0 hsb) (a.nlmSpec p hp) K m d) (hr : m.isReady = true) :
    (a.cfg p).T.size m.trie < maxSize ((a.cfg p).T.capaSize m.trie) p.maxFactor := by
  rcases hm with ⟨rfl, _, _⟩ | ⟨h, _⟩ | h
  · cases hr
  · obtain ⟨h1, h2, h3, h4⟩ := (a.trieSpec p sb cb0 hsb).capa _ (Or.inl h.trie)
    rw [minb] at h1
    rw [(a.trieSpec p sb cb0 hsb).fresh_size _ h.trie, h3]
    have h5 : 2 ^ 16 ≤ 2 ^ (a.cfg p).T.capaBits m.trie := Nat.pow_le_pow_right (by decide) h1
    have h6 : 2 ^ 16 * 1 ≤ 2 ^ (a.cfg p).T.capaBits m.trie * p.maxFactor := Nat.mul_le_mul h5 p.factor_ok.1
    simp only [maxSize]
    omega
  · exact inv_room hsb hk h.inv.core.trie (h.inv.core.nex hk)

end Alias
end Poplar
