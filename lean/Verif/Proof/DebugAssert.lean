import Verif.Proof.Pointers
/-
  The debug assertion of plain_fkhash_trie.hpp:104.
-/
namespace Poplar
open Spec

theorem PlainFk.Inv.add_assert {cfg : PlainFkCfg} {sb : Nat} {t : PlainFk} (hf : FactorOK cfg.minCapaBits cfg.maxFactor)
    (h : PlainFk.Inv cfg sb t) (hd : cfg.dbg = true) :
    PlainFk.addChild cfg t 0 0 = .error .assertion ∨
    (Poplar.maxSize (2 ^ (63 - sb)) cfg.maxFactor ≤ t.size ∧
      (PlainFk.addChild cfg t 0 0 = .error .limit ∨ PlainFk.addChild cfg t 0 0 = .error .throw)) := by
  have hk : ∀ t' : PlainFk, PlainFk.makeKey t' 0 0 = 0 := by
    intro t'; simp [PlainFk.makeKey, shl64]
  have hC : 0 < 2 ^ t.capa.bits := Nat.two_pow_pos _
  have hS : 0 < 2 ^ sb := Nat.two_pow_pos _
  unfold PlainFk.addChild
  rw [h.capa_size, h.symb_size]
  simp only [R.assert_dec hC, R.assert_dec hS, R.bind_ok]
  have hfail : R.assert (!cfg.dbg || decide ((0 : Nat) ≠ 0)) = .error .assertion := by simp [R.assert, hd]
  by_cases hfull : t.maxSize ≤ t.size
  · rw [if_pos hfull]
    have hp := h.expandSelf_post hf
    cases he : PlainFk.expandSelf cfg t with
    | error e =>
      rw [he] at hp
      right
      refine ⟨Nat.le_trans hp.1 hfull, ?_⟩
      rcases hp.2 with rfl | rfl
      · exact Or.inl rfl
      · exact Or.inr rfl
    | ok t' =>
      left
      simp only [R.bind_ok, hk]
      rw [hfail]; rfl
  · rw [if_neg hfull]
    left
    simp only [R.pure_eq, R.bind_ok, hk]
    rw [hfail]; rfl

namespace Map
variable {τ ν : Type} {cfg : MapCfg τ ν} {sb N vs : Nat} {z0 : Prop} {U : Key → Prop}
variable {TS : TrieSpec cfg.T sb N z0} {NS : NlmSpec cfg.L cfg.T.kind vs}

/-- inserting a key that starts with NUL calls `add_child` on the root with symbol 0 -/
theorem Live.upd_zero {m : Map τ ν} {d : Dict} (h : Live TS NS U m d) {k0 : Key} (hd : firstKey d = some k0) (hk0 : k0.head? ≠ some 0)
    {key : Key} (hzk : U (0 :: key)) {r : Nat} (hr : cfg.T.getRoot m.trie = .ok r) {e : Fault} (he : cfg.T.addChild m.trie r 0 = .error e) :
    update cfg m (0 :: key) = .error e := by
  obtain ⟨r', r1, r2⟩ := TS.inv_root m.trie h.inv.core.trie
  rw [hr] at r1; injection r1 with r1; subst r1
  have hsz := TS.inv_size m.trie h.inv.core.trie
  have hb : badKey (0 :: key) = false := h.ainv.univ.badKey hzk
  have hroot := h.root
  rw [hd] at hroot
  cases h3 : MM TS NS U m [] with
  | none => rw [h3] at hroot; cases hroot
  | some x =>
    obtain ⟨l, v⟩ := x
    rw [h3] at hroot
    simp only [Option.map_some, Option.some.injEq] at hroot
    subst hroot
    obtain ⟨e0, hL⟩ := h.inv.at_node (bp := []) h3 r2
    have hlab := (h.ainv.lab _ _ _ h3).1
    have hcmp := NS.compare _ _ h.inv.core.nlm r _ l v hL (0 :: key) (h.ainv.univ.sep _ _ hzk hlab)
    have hne : 0 :: key ≠ l := fun e => hk0 (by rw [← e]; rfl)
    have hlcp : lcp (0 :: key) l = 0 := by
      cases l with
      | nil => rfl
      | cons c s =>
        have : c ≠ 0 := fun e => hk0 (by rw [e]; rfl)
        simp [lcp, Ne.symm this]
    have hlam := h.inv.lam_pos
    have hsym := h.inv.makeSymb (c := 0) (j := 0) (by rw [h.inv.codes.zero]; decide) hlam
    rw [h.inv.codes.zero] at hsym
    unfold update
    simp only [hb, Bool.false_eq_true, if_false, hsz, hr, R.bind_ok]
    rw [List.length_cons]
    simp only [updLoop, List.isEmpty_cons, Bool.false_eq_true, if_false, hcmp.2 hne, hlcp, R.bind_ok]
    rw [advance, if_pos (by simp)]
    have hst : updSteps cfg (0 + 1) m r 0 = .ok (m, r, 0) := by
      simp only [updSteps]
      rw [if_neg (by omega)]; rfl
    simp only [R.bind_ok, hst, List.drop_zero]
    rw [h.inv.codes.rd, h.inv.codes.zero]
    simp only [R.bind_ok, R.pure_eq]
    simp only [show ¬ (0 : Nat) = 255 by decide, if_false, decide_false, Bool.false_and, Bool.false_eq_true]
    rw [hsym]
    simp only [R.bind_ok]
    rw [he]; rfl

theorem firstKey_run : ∀ {os : List Op} {s s' : AState} {xs : List Out}, AState.run vs s os = some (s', xs) →
    firstKey s'.dict = (s.dict.map (·.1) ++ inserted os).head? := by
  intro os
  induction os with
  | nil =>
    intro s s' xs e
    simp only [AState.run, Option.some.injEq, Prod.mk.injEq] at e
    rw [← e.1]; simp [firstKey, inserted]
  | cons o os ih =>
    intro s s' xs e
    obtain ⟨s1, x, xs1, e1, e2, _⟩ := AState.run_cons e
    rw [ih e2]
    have hcons : inserted (o :: os) = o.inserts.toList ++ inserted os := by
      cases h : o.inserts <;> simp [inserted, h]
    have hd1 : s1.dict = (step vs s.dict o).1 ∨ (s.dict ≠ [] ∧ s1.dict = s.dict) := by
      cases hn : s.newByte o with
      | none =>
        simp only [AState.step, hn, Option.some.injEq, Prod.mk.injEq] at e1
        left; rw [← e1.1]
      | some c =>
        obtain ⟨k, k1, k2, k3, k4⟩ := (s.newByte_iff o c).1 hn
        simp only [AState.step, hn] at e1
        split at e1
        · simp only [Option.some.injEq, Prod.mk.injEq] at e1
          left; rw [← e1.1]
        · split at e1
          · simp only [Option.some.injEq, Prod.mk.injEq] at e1
            right; rw [← e1.1]; exact ⟨k2.1, rfl⟩
          · cases e1
    have hhead : ∀ (d : Dict) (l : List Key), d ≠ [] → (d.map (·.1) ++ l).head? = firstKey d := by
      intro d l hd
      cases d with
      | nil => exact absurd rfl hd
      | cons x d => rfl
    by_cases hd : s.dict = []
    · rcases hd1 with h1 | h1
      · rw [h1, hd, step_nil_inserts, hcons]; simp
      · exact absurd hd h1.1
    · rw [hhead _ _ hd]
      rcases hd1 with h1 | h1
      · rw [h1, hhead _ _ (step_ne_nil o hd), firstKey_step o hd]
      · rw [h1.2, hhead _ _ hd]

end Map

namespace Alias
variable {a : Alias} {p : Params} {i : Init} {K : Key → Prop} {os : List Op}

theorem debug_assertion (ha : a.plainFk = true) (hd : p.dbg = true) (h : a.Admissible p i K os)
    (hs : Supported p.valSize os) {k : Key} (hk : (inserted os).head? = some k) (hk0 : k.head? ≠ some 0) {l : Key} (hl : K (0 :: l)) :
    a.answer p i os (.update (0 :: l)) = .error .assertion ∨
    (a.AtLimit p i (os ++ [.update (0 :: l)]) ∧
      (a.answer p i os (.update (0 :: l)) = .error .limit ∨ a.answer p i os (.update (0 :: l)) = .error .throw)) := by
  obtain ⟨s, xs, hs⟩ := hs
  obtain ⟨hsb, m0, e1, e2⟩ := after h hs
  have hfk := Map.firstKey_run hs
  simp only [List.map_nil, List.nil_append, hk] at hfk
  have hle : ∀ k ∈ inserted os, k ∈ inserted (os ++ [.update (0 :: l)]) := by
    intro k hk; rw [Spec.inserted_append]; exact List.mem_append_left _ hk
  unfold answer
  rw [e1]
  simp only [R.bind_ok]
  cases hr : Map.run (a.cfg p) m0 os with
  | error e =>
    rw [hr] at e2
    right
    refine ⟨e2.1.mono hle, ?_⟩
    rcases e2.2 with rfl | rfl
    · exact Or.inl rfl
    · exact Or.inr rfl
  | ok y =>
    obtain ⟨m, ys⟩ := y
    rw [hr] at e2
    obtain ⟨_, e4, _, e6⟩ := e2
    simp only at e4 e6
    have hlive := e4.live (by intro e; rw [e] at hfk; cases hfk)
    have hadd : (a.cfg p).T.getRoot m.trie = .ok 0 ∧
        ((a.cfg p).T.addChild m.trie 0 0 = .error .assertion ∨
        (a.nodeLimit p i.symbBits i.capa0 ≤ (a.cfg p).T.size m.trie ∧
          ((a.cfg p).T.addChild m.trie 0 0 = .error .limit ∨ (a.cfg p).T.addChild m.trie 0 0 = .error .throw))) := by
      have hI := hlive.inv.core.trie
      clear e4 hlive hr e1 e6
      revert m0 m
      cases a <;> simp only [plainFk, Bool.false_eq_true] at ha
      · intro m0 m _ _ hI
        exact ⟨PlainFk.Inv.root hI, PlainFk.Inv.add_assert (cfg := { plainCfg p with dbg := p.dbg }) (factorOK p) hI hd⟩
      · intro m0 m _ _ hI
        exact ⟨PlainFk.Inv.root hI, PlainFk.Inv.add_assert (cfg := { plainCfg p with dbg := p.dbg }) (factorOK p) hI hd⟩
    obtain ⟨g1, g2⟩ := hadd
    simp only [R.bind_ok]
    have hgo : ∀ e, (a.cfg p).T.addChild m.trie 0 0 = .error e → Map.exec (a.cfg p) m (.update (0 :: l)) = .error e := by
      intro e he
      simp only [Map.exec, hlive.upd_zero hfk hk0 hl g1 he]; rfl
    rcases g2 with g2 | ⟨g2, g3⟩
    · left; rw [hgo _ g2]; rfl
    · right
      refine ⟨Nat.le_trans g2 (Nat.le_trans e6 (nodesFor_mono fun k hk => hle k ?_)), ?_⟩
      · simpa using AState.run_keys hs hk
      rcases g3 with g3 | g3
      · left; rw [hgo _ g3]; rfl
      · right; rw [hgo _ g3]; rfl

end Alias
end Poplar
