import Verif.Proof.CrashStuck
/-
  A bonsai map whose table is full: `add_child` of an absent child answers like for a child that is there, with the node it was
  given. So `update` of a key that is not there may end at the value of another key.
-/
namespace Poplar
open Spec

/-- two loops over the same slots -/
theorem probe_sim {α β : Type} {mask : Nat} {bf : Nat → Nat → R (Option α)} {ba : Nat → Nat → R (Option β)} {Q : α → β → Prop}
    (h1 : ∀ i c, i ≤ mask → bf i c = .ok none → ba i c = .ok none)
    (h2 : ∀ i c a, i ≤ mask → bf i c = .ok (some a) → ∃ b, ba i c = .ok (some b) ∧ Q a b) : ∀ {fuel i c : Nat} {a : α}, i ≤ mask →
    probe mask bf fuel i c = .ok a → ∃ b, probe mask ba fuel i c = .ok b ∧ Q a b := by
  intro fuel
  induction fuel with
  | zero => intro i c a _ h; cases h
  | succ fuel ih =>
    intro i c a hi h
    unfold probe at h ⊢
    obtain ⟨x, e1, h⟩ := R.bind_eq_ok h
    cases x with
    | some y =>
      cases h
      obtain ⟨b, e2, q⟩ := h2 i c _ hi e1
      exact ⟨b, by rw [e2]; rfl, q⟩
    | none =>
      obtain ⟨b, e2, q⟩ := ih (Nat.and_le_right) h
      exact ⟨b, by rw [h1 i c hi e1]; exact e2, q⟩

theorem PlainBonsai.add_absent {cfg : PlainCfg} {t : PlainBonsai} {v s : Nat} (hf : t.size = t.maxSize) (h0 : t.size ≠ 0) (hm : t.capa.mask < u64max)
    (h : findChild cfg t v s = .ok u64max) : addChild cfg t v s = .ok (t, v, false) := by
  unfold findChild at h
  obtain ⟨_, a1, h⟩ := R.bind_eq_ok h
  obtain ⟨_, a2, h⟩ := R.bind_eq_ok h
  rw [if_neg h0] at h
  obtain ⟨_, a3, h⟩ := R.bind_eq_ok h
  unfold addChild
  rw [a1, R.bind_ok, a2, R.bind_ok]
  dsimp only
  rw [a3, R.bind_ok]
  suffices hs : ∃ b, probe t.capa.mask (t.addBody v (t.makeKey v s)) _ _ _ = .ok b ∧ (u64max = u64max → b = (t, v, false)) by
    obtain ⟨b, b1, b2⟩ := hs
    rw [b1, b2 rfl]
  refine probe_sim (Q := fun a b => a = u64max → b = (t, v, false)) ?_ ?_ (Nat.and_le_right) h
  · intro i c hi e
    unfold findBody at e
    unfold addBody
    split at e
    next hi0 => rw [if_pos hi0]; rfl
    next hi0 =>
      rw [if_neg hi0]
      obtain ⟨r, r1, e⟩ := R.bind_eq_ok e
      rw [r1, R.bind_ok]
      split at e
      next hi1 => rw [if_pos hi1]; rfl
      next hi1 =>
        rw [if_neg hi1]
        obtain ⟨x, x1, e⟩ := R.bind_eq_ok e
        rw [x1, R.bind_ok]
        split at e
        · cases e
        next hi2 =>
          rw [if_neg hi2]
          rw [x1, R.bind_ok] at e
          rw [R.bind_ok]
          split at e
          · cases e
          next hi3 => rw [if_neg hi3]; rfl
  · intro i c a hi e
    unfold findBody at e
    unfold addBody
    split at e
    · cases e
    next hi0 =>
      rw [if_neg hi0]
      obtain ⟨r, r1, e⟩ := R.bind_eq_ok e
      rw [r1, R.bind_ok]
      split at e
      · cases e
      next hi1 =>
        rw [if_neg hi1]
        obtain ⟨x, x1, e⟩ := R.bind_eq_ok e
        rw [x1, R.bind_ok]
        split at e
        next hi2 => rw [if_pos hi2, if_pos hf]; exact ⟨_, rfl, fun _ => rfl⟩
        next hi2 =>
          rw [if_neg hi2]
          rw [x1, R.bind_ok] at e
          rw [R.bind_ok]
          split at e
          next hi3 =>
            rw [if_pos hi3]
            cases e
            exact ⟨_, rfl, fun e => absurd e (by omega)⟩
          · cases e

theorem CompactBonsai.add_absent {cfg : CompactCfg} {t : CompactBonsai} {v s : Nat} (hf : t.size = t.maxSize) (h0 : t.size ≠ 0) (hm : t.capa.mask < u64max)
    (h : findChild cfg t v s = .ok u64max) : addChild cfg t v s = .ok (t, v, false) := by
  unfold findChild at h
  obtain ⟨_, a1, h⟩ := R.bind_eq_ok h
  obtain ⟨_, a2, h⟩ := R.bind_eq_ok h
  rw [if_neg h0] at h
  obtain ⟨x, a3, h⟩ := R.bind_eq_ok h
  unfold addChild
  rw [a1, R.bind_ok, a2, R.bind_ok, a3, R.bind_ok]
  suffices hs : ∃ b, probe t.capa.mask (t.addBody cfg v (x >>> t.capa.bits)) _ _ _ = .ok b ∧ (u64max = u64max → b = (t, v, false)) by
    obtain ⟨b, b1, b2⟩ := hs
    rw [b1, b2 rfl]
  refine probe_sim (Q := fun a b => a = u64max → b = (t, v, false)) ?_ ?_ (Nat.and_le_right) h
  · intro i c hi e
    unfold findBody at e
    unfold addBody
    obtain ⟨r, r1, e⟩ := R.bind_eq_ok e
    rw [r1, R.bind_ok]
    split at e
    next hi1 => rw [if_pos hi1]; rfl
    next hi1 =>
      rw [if_neg hi1]
      obtain ⟨x, x1, e⟩ := R.bind_eq_ok e
      rw [x1, R.bind_ok]
      split at e
      · cases e
      next hi2 =>
        rw [if_neg hi2]
        obtain ⟨y, y1, e⟩ := R.bind_eq_ok e
        obtain ⟨z, z1, e⟩ := R.bind_eq_ok e
        rw [y1, R.bind_ok, z1, R.bind_ok]
        split at e
        · cases e
        next hi3 => rw [if_neg hi3]; rfl
  · intro i c a hi e
    unfold findBody at e
    unfold addBody
    obtain ⟨r, r1, e⟩ := R.bind_eq_ok e
    rw [r1, R.bind_ok]
    split at e
    · cases e
    next hi1 =>
      rw [if_neg hi1]
      obtain ⟨x, x1, e⟩ := R.bind_eq_ok e
      rw [x1, R.bind_ok]
      split at e
      next hi2 => rw [if_pos hi2, if_pos hf]; exact ⟨_, rfl, fun _ => rfl⟩
      next hi2 =>
        rw [if_neg hi2]
        obtain ⟨y, y1, e⟩ := R.bind_eq_ok e
        obtain ⟨z, z1, e⟩ := R.bind_eq_ok e
        rw [y1, R.bind_ok, z1, R.bind_ok]
        split at e
        next hi3 =>
          rw [if_pos hi3]
          cases e
          exact ⟨_, rfl, fun e => absurd e (by omega)⟩
        · cases e

namespace Map
variable {τ ν : Type} {cfg : MapCfg τ ν} {sb N vs : Nat} {z0 : Prop} {U : List UInt8 → Prop}
variable {TS : TrieSpec cfg.T sb N z0} {NS : NlmSpec cfg.L cfg.T.kind vs}

/-- `update` of a key that starts with a known byte, but with which no key starts, ends at the value of the first key -/
theorem SPt.overwrites {C : MapCrash τ ν} {safe : Prop} {M : BP → Option LV} {m : Map τ ν} {d : Dict} {k : Key} {c : CrashSite × Map τ ν}
    (hFull : ∀ v s, cfg.T.findChild c.2.trie v s = .ok u64max → cfg.T.addChild c.2.trie v s = .ok (c.2.trie, v, false))
    (h : SPt TS NS C safe U M m d k c) (hx : c.1 = .expand) {k0 : Key} (hf : firstKey d = some k0) {b : UInt8} (hb : Coded m b)
    (hd : ∀ e ∈ d, e.1.head? ≠ some b) (hk : U k) (hkb : k.head? ≠ some b) (hU : U (b :: k0)) {w : Val} (hw : w.length = vs) :
    Map.find cfg c.2 (b :: k0) = .ok none ∧ ∃ l n', update cfg c.2 (b :: k0) = .ok (c.2, .ptr l) ∧
      (∀ v, d.get k0 = some v → cfg.L.load c.2.nlm l = .ok v) ∧ cfg.L.store c.2.nlm l w = .ok n' ∧
      ∃ l', Map.find cfg { c.2 with nlm := n' } k0 = .ok (some l') ∧ cfg.L.load n' l' = .ok w := by
  obtain ⟨hL, hM, m', g, o⟩ := h.only hx
  have hA := hL.ainv
  have hroot := hL.root
  rw [← hM] at hA hroot
  have hK := h.keep (by rw [hx]; simp) (by rw [hx]; simp)
  obtain ⟨⟨x, v0⟩, hM0⟩ := Option.ne_none_iff_exists'.1 hA.root
  rw [hM0, hf] at hroot
  have : x = k0 := by simpa using hroot
  subst this
  have hU0 : U x := (hA.lab [] _ _ hM0).1
  have hgx : d.get x = some v0 := by
    rw [← h.get x hU0, dict, walk_eq hM0, hM0]; rfl
  have hxb : x.head? ≠ some b := by
    obtain ⟨e, e1, e2⟩ := Dict.get_mem.1 (show d.get x ≠ none by rw [hgx]; simp)
    rw [← e2]; exact hd e e1
  -- the codes
  have hcb : cdOf c.2.codes b < 255 := by
    have h1 := hL.inv.codes.le255 b
    have h2 := hb.2.1
    have h3 : cdOf m.codes b < 255 := by omega
    rw [o.codes, g.keep b h3]; exact h3
  -- nobody starts with `b`
  have hMb : M [(0, b)] = none := by
    by_contra hne
    obtain ⟨⟨l, v⟩, hl⟩ := Option.ne_none_iff_exists'.1 hne
    obtain ⟨⟨l0, v1, y, y1, y2, y3, y4, y5, y6⟩, _⟩ := hA.lab _ _ _ hl
    rw [hM0] at y1
    injection y1 with y1
    injection y1 with y1 _
    subst y1
    cases y with
    | nil => simp at y5
    | cons z y =>
      simp only [List.getElem?_cons_zero, Option.some.injEq] at y5
      subst y5
      have hg : dict M (z :: y) = some v := by
        rw [dict, walk_step hM0 y3 (by rw [y4]; simp)]
        simp only [y4, List.getElem_cons_zero]
        rw [show (z :: y).drop (0 + 1) = l from y6.symm, walk_eq hl, hl]; rfl
      rw [h.get _ y2] at hg
      obtain ⟨e, e1, e2⟩ := Dict.get_mem.1 (show d.get (z :: y) ≠ none by rw [hg]; simp)
      exact hd e e1 (by rw [e2]; rfl)
  have hw1 : (walk M [] k).1 ≠ [(0, b)] := by
    intro e
    by_cases hkx : k = x
    · subst hkx; rw [walk_eq hM0] at e; cases e
    · obtain ⟨hlt, hk2⟩ := hA.step hM0 hk hkx
      rw [walk_step hM0 hkx hlt] at e
      have hsuf := (walk_post hA _ _ hk2).1
      rw [e] at hsuf
      have := List.mem_singleton.1 (hsuf.subset (List.mem_singleton.2 rfl))
      injection this with t1 t2
      apply hkb
      cases k with
      | nil => simp at hlt
      | cons z k =>
        simp only [t1, List.getElem_cons_zero] at t2
        rw [t2]; rfl
  have hfl : flat m'.lambda (cdOf m'.codes) [(0, b)] = [cdOf c.2.codes b] := by
    simp [flat, o.codes]
  have hknb : Known (cdOf m'.codes) [(0, b)] := by
    rw [← o.codes]; intro y hy; rw [List.mem_singleton.1 hy]; exact hcb
  have hTn : TS.T c.2.trie [cdOf c.2.codes b] = none := by
    by_contra hne
    rcases o.only _ hne with h1 | ⟨r, h1⟩ | h1
    · rw [← hfl] at h1
      have := g.inv.lab _ hknb h1
      rw [g.mm, ← hM] at this
      exact this hMb
    · injection h1 with h1; omega
    · rw [← hfl] at h1
      have hwk : Known (cdOf m'.codes) (walk M [] k).1 ∨ ¬ Known (cdOf m'.codes) (walk M [] k).1 := Classical.em _
      rcases hwk with hwk | hwk
      · exact hw1 (flat_inj (k := 0) (k' := 0) g.inv.codes.inj hknb hwk (by simpa using h1)).2.symm
      · generalize hW : (walk M [] k).1 = W at *
        cases W with
        | nil => simp [flat] at h1
        | cons p W =>
          obtain ⟨n, a⟩ := p
          simp only [flat, Nat.zero_mod, Nat.mul_zero, Nat.add_zero, Nat.zero_div, List.replicate_zero, List.nil_append] at h1
          injection h1 with h2 h3
          have h4 := List.append_eq_nil_iff.1 h3.symm
          have hW0 : W = [] := by
            cases W with
            | nil => rfl
            | cons y W => simp [flat] at h4
          subst hW0
          apply hwk
          intro y hy
          rw [List.mem_singleton.1 hy]
          have := hcb
          rw [o.codes] at this
          show cdOf m'.codes a < 255
          omega
  obtain ⟨r, r1, r2⟩ := TS.inv_root _ hK.trie
  have hz := TS.inv_size _ hK.trie
  obtain ⟨r', _, r2'⟩ := TS.inv_root _ g.inv.core.trie
  have hrr : r' = r := by
    have := o.old _ _ r2'; rw [r2] at this; injection this with this; exact this.symm
  subst hrr
  have hMM0 : MM TS NS U m' [] = some (x, v0) := by rw [g.mm, ← hM]; exact hM0
  obtain ⟨e0, hLr⟩ := g.inv.at_node (bp := []) hMM0 (by simpa [flat] using r2')
  have hsep : Sep (b :: x) x := KeyAt.sep (M := M) (bp := []) hA.univ hU hU0
  have hneq : b :: x ≠ x := by
    intro e
    have := congrArg List.length e
    simp at this
  have hl0 : lcp (b :: x) x = 0 := by
    cases x with
    | nil => rfl
    | cons z x =>
      have : b ≠ z := by rintro rfl; exact hxb rfl
      simp [lcp, this]
  have hcmp := (NS.compare _ _ g.inv.core.nlm r' e0 x v0 hLr (b :: x) hsep).2 hneq
  rw [hl0, ← o.nlm] at hcmp
  obtain ⟨p, p1, p2⟩ := (NS.compare _ _ g.inv.core.nlm r' e0 x v0 hLr x (Or.inl rfl)).1 rfl
  rw [← o.nlm] at p1
  have hl1 := hK.lam_pos
  have hsy : makeSymb cfg c.2 b 0 = .ok (cdOf c.2.codes b) := by
    have := hK.makeSymb hcb hl1
    simpa using this
  have hfc : cfg.T.findChild c.2.trie r' (cdOf c.2.codes b) = .ok u64max := by
    rw [TS.find _ hK.trie [] r' _ r2 (by have := hK.step_lt; omega), hTn]; rfl
  obtain ⟨nc, hcd⟩ := hK.codes
  obtain ⟨n', n1, n2, n3, n4, n5, n6⟩ := NS.store _ _ g.inv.core.nlm p r' e0 x v0 w p2 hLr hw
  have hL' : NS.L n' r' e0 = some (x, w) := by rw [n5, hLr]; rfl
  obtain ⟨p', p1', p2'⟩ := (NS.compare _ _ n2 r' e0 x w hL' x (Or.inl rfl)).1 rfl
  have hb1 : badKey (b :: x) = false := hA.univ.badKey hU
  have hb0 : badKey x = false := hA.univ.badKey hU0
  refine ⟨?_, p, n', ?_, fun v hv => by
      rw [hgx] at hv; injection hv with hv; rw [← hv, o.nlm]; exact NS.load _ _ g.inv.core.nlm p r' e0 x v0 p2 hLr, by rw [o.nlm]; exact n1, p', ?_, NS.load _ _ n2 p' r' e0 x w p2' hL'⟩
  · unfold Map.find
    simp only [hb1, Bool.false_eq_true, if_false, hK.ready, Bool.not_true, Bool.false_or, hz, decide_false, r1, R.bind_ok]
    simp only [findLoop, List.isEmpty_cons, Bool.false_eq_true, if_false, hcmp, R.bind_ok]
    rw [advance, if_pos (by simp)]
    simp only [R.bind_ok, findSteps, if_neg (show ¬ c.2.lambda ≤ 0 by omega), List.drop_zero, hcd.rd, R.pure_eq]
    rw [if_neg (by omega), hsy]
    simp only [R.bind_ok, hfc, if_true]
  · unfold Map.update
    simp only [hb1, Bool.false_eq_true, if_false, hz, r1, R.bind_ok]
    rw [List.length_cons]
    rw [updLoop]
    simp only [List.isEmpty_cons, Bool.false_eq_true, if_false, hcmp, R.bind_ok]
    rw [advance, if_pos (by simp)]
    rw [updSteps_lt (by omega)]
    simp only [R.bind_ok, List.drop_zero, hcd.rd, R.pure_eq]
    rw [decide_eq_false (show ¬ cdOf c.2.codes b = 255 by omega)]
    simp only [if_neg (show ¬ cdOf c.2.codes b = 255 by omega), R.bind_ok, Bool.false_and, Bool.false_eq_true, if_false, hsy, hFull _ _ hfc]
    rw [updLoop]
    simp only [p1, R.bind_ok]
    split <;> rfl
  · unfold Map.find
    simp only [hb0, Bool.false_eq_true, if_false, hK.ready, Bool.not_true, Bool.false_or, hz, decide_false, r1, R.bind_ok]
    simp only [findLoop, p1', R.bind_ok]
    split <;> rfl

end Map

/-- `add_child` of an absent child when the table is full -/
theorem Alias.add_absent {a : Alias} {p : Params} {sb cb0 : Nat} {hsb : 0 < sb} {hp : p.Valid} {safe : Prop} {K : Key → Prop} {M} {d : Dict}
    {k : Key} {m : Map a.Trie a.Nlm} {c : CrashSite × Map a.Trie a.Nlm}
    (h : Map.SPt (a.trieSpec p sb cb0 hsb) (a.nlmSpec p hp) (a.crash p) safe K M m d k c) (hc : c.1 = .expand) :
    ∀ v s, (a.cfg p).T.findChild c.2.trie v s = .ok u64max → (a.cfg p).T.addChild c.2.trie v s = .ok (c.2.trie, v, false) := by
  have hB := blocked h (Or.inl hc)
  have hI := (h.keep (by rw [hc]; simp) (by rw [hc]; simp)).trie
  have hcap := ((a.trieSpec p sb cb0 hsb).capa _ (Or.inr hI)).2.1
  have hlt : ∀ b, b < 64 → 2 ^ b - 1 < u64max := fun b hb => by
    have : 2 ^ b ≤ 2 ^ 63 := Nat.pow_le_pow_right (by decide) (by omega)
    have : (2 : Nat) ^ 63 < u64max := by decide
    omega
  intro v s hs
  cases a
  case plainFkhash | semiCompactFkhash | compactFkhash => cases (h.full hc).1
  case compactBonsai =>
    have hi := (show CompactBonsai.Inv (compactCfg p) sb c.2.trie from hI.1)
    refine CompactBonsai.add_absent hB.2 hB.1 ?_ hs
    have hm : c.2.trie.capa.mask = 2 ^ c.2.trie.capa.bits - 1 := by rw [hi.capa]
    rw [hm]; exact hlt _ hcap
  all_goals
    have hi := (show PlainBonsai.Inv (plainCfg p) sb c.2.trie from hI)
    refine PlainBonsai.add_absent hB.2 hB.1 ?_ hs
    have hm : c.2.trie.capa.mask = 2 ^ c.2.trie.capa.bits - 1 := by rw [hi.capa]
    rw [hm]; exact hlt _ hcap

end Poplar
