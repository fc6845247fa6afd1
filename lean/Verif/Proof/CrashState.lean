import Verif.Proof.CrashNlm
import Verif.Proof.CrashBonsai
import Verif.Proof.Pointers
/-
  Allocation failures during `update`, for whole maps.
-/
namespace Poplar
open Spec

namespace Map
variable {τ ν : Type} {cfg : MapCfg τ ν} {sb N vs : Nat} {z0 : Prop} {U : List UInt8 → Prop}
variable {TS : TrieSpec cfg.T sb N z0} {NS : NlmSpec cfg.L cfg.T.kind vs}

theorem Keep.congr {M : BP → Option LV} {m : Map τ ν} (h : Keep TS M m) {t : τ} (ht : TS.Inv t) (hT : ∀ q, TS.T t q = TS.T m.trie q) :
    Keep TS M { m with trie := t } := by
  refine ⟨h.ready, h.sb8, h.lam, h.codes, ht, fun bp l v hb => ?_⟩
  obtain ⟨h1, i, h2, h3⟩ := h.node bp l v hb
  exact ⟨h1, i, (hT _).trans h2, h3⟩

/-- the step loop of `update`, where the nodes are there -/
theorem updSteps_old {p : List Nat} (hs : 255 < 2 ^ sb) (fuel : Nat) : ∀ (m : Map τ ν) (j node mt : Nat), TS.Inv m.trie →
    (cfg.T.kind = .bonsai → cfg.T.needsToExpand m.trie = false) → 0 < m.lambda →
    TS.T m.trie (List.replicate j 255 ++ p) = some node → TS.T m.trie (List.replicate (j + mt / m.lambda) 255 ++ p) ≠ none →
    ∀ m' node' mt', updSteps cfg fuel m node mt = .ok (m', node', mt') →
    ∃ t, m' = { m with trie := t } ∧ TS.Inv t ∧ (cfg.T.kind = .bonsai → cfg.T.needsToExpand t = false) ∧
      (∀ q, TS.T t q = TS.T m.trie q) ∧ mt' = mt % m.lambda ∧ TS.T t (List.replicate (j + mt / m.lambda) 255 ++ p) = some node' := by
  induction fuel with
  | zero => intro m j node mt _ _ _ _ _ m' node' mt' h; cases h
  | succ fuel ih =>
    intro m j node mt hi hx hl hn hne m' node' mt' h
    unfold updSteps at h
    split at h
    next hle =>
      have hdiv : mt / m.lambda = (mt - m.lambda) / m.lambda + 1 := Nat.div_eq_sub_div hl hle
      have hmod : mt % m.lambda = (mt - m.lambda) % m.lambda := Nat.mod_eq_sub_mod hle
      have hrep : List.replicate (j + mt / m.lambda) 255 ++ p =
          List.replicate (j + 1 + (mt - m.lambda) / m.lambda) 255 ++ p := by rw [hdiv]; congr 2; omega
      rw [hrep] at hne ⊢
      rw [hmod]
      have hT : TS.T m.trie (255 :: (List.replicate j 255 ++ p)) ≠ none := by
        intro hc
        rw [Nat.add_comm (j + 1), List.replicate_add, List.append_assoc] at hne
        exact prefix_rep hi hne hc
      obtain ⟨⟨t, v, isNew⟩, ha, h⟩ := R.bind_eq_ok h
      obtain ⟨a1, a2, a3, a4, a5, a6, a7, a8⟩ := (TS.add m.trie hi hx _ node _ hn hs (Or.inr (by simp))).of_eq ha
      dsimp only at a1 a2 a3 a4 a5 a6 a7 a8 h
      obtain ⟨w, hw⟩ := Option.ne_none_iff_exists'.1 hT
      have hnew : isNew = false := by
        rw [a2, show (255 :: (List.replicate j 255 ++ p)) = (255 :: (List.replicate j 255 ++ p)) from rfl, hw]; rfl
      subst hnew
      simp only [Bool.false_eq_true, if_false] at h
      have hvw := a4 w hw
      have hTt : ∀ q, TS.T t q = TS.T m.trie q := by
        intro q
        rw [a3 q]
        split
        next e => rw [e, hw, hvw]
        · rfl
      obtain ⟨t', b1, b2, b3, b4, b5, b6⟩ := ih { m with trie := t } (j + 1) v (mt - m.lambda) a1
        (fun hk => by rw [(a7 hk).2 rfl]; exact hx hk) hl
        (by rw [hTt]; rw [hvw]; exact hw) (by rw [hTt]; exact hne) m' node' mt' h
      refine ⟨t', b1, b2, b3, fun q => (b4 q).trans (hTt q), b5, b6⟩
    next hle =>
      injection h with h
      simp only [Prod.mk.injEq] at h
      obtain ⟨rfl, rfl, rfl⟩ := h
      refine ⟨m.trie, rfl, hi, hx, fun _ => rfl, ?_, ?_⟩
      · rw [Nat.mod_eq_of_lt (by omega)]
      · rw [Nat.div_eq_of_lt (by omega)]; exact hn

/-- `update` gets to the end of the walk if there is a node -/
theorem Keep.reachUpd {M : BP → Option LV} (hA : AInv vs U M) (fuel : Nat) :
    ∀ (m : Map τ ν) (_ : Keep TS M m) (_ : cfg.T.kind = .bonsai → cfg.T.needsToExpand m.trie = false)
    (bp : BP) (node : Nat) (key : List UInt8) (i : Nat), key.length < fuel → KeyAt U M bp key →
    TS.T m.trie (flat m.lambda (cdOf m.codes) bp) = some node →
    Known (cdOf m.codes) (walk M bp key).1 →
    TS.T m.trie (flat m.lambda (cdOf m.codes) (walk M bp key).1) = some i →
    (z0 ∨ bp ≠ [] ∨ key.head? ≠ some 0 ∨ ∃ l v, M [] = some (0 :: l, v)) →
    ∀ r, updLoop cfg fuel m node key = .ok r →
    ∃ fuel' m', m'.nlm = m.nlm ∧ updLoop cfg fuel' m' i (walk M bp key).2 = .ok r := by
  induction fuel with
  | zero => intro m _ _ bp node key i hf; omega
  | succ fuel ih =>
    intro m h hx bp node key i hf hkey hn hkw hi hz r hr
    cases hb : M bp with
    | none =>
      rw [walk_none hb] at hi ⊢
      rw [hn] at hi
      injection hi with hi
      exact ⟨fuel + 1, m, rfl, by rw [← hi]; exact hr⟩
    | some lv =>
      obtain ⟨l, v⟩ := lv
      by_cases he : key = l
      · subst he
        rw [walk_eq hb] at hi ⊢
        rw [hn] at hi
        injection hi with hi
        exact ⟨fuel + 1, m, rfl, by rw [← hi]; exact hr⟩
      · obtain ⟨hlt, hk2⟩ := hA.step hb hkey he
        obtain ⟨hkn, i0, hi0, hcmp⟩ := h.node bp l v hb
        rw [hn] at hi0
        injection hi0 with hi0
        subst hi0
        have hcmp := (hcmp key (hkey.sep hA.univ (hA.lab _ _ _ hb).1)).2 he
        rw [walk_step hb he hlt] at hi hkw ⊢
        have hsuf := (walk_post hA _ _ hk2).1
        have hemp : key.isEmpty = false := by
          cases key with
          | nil => simp at hlt
          | cons => rfl
        generalize hmt : lcp key l = mt at *
        generalize hbc : key[mt] = c at *
        obtain ⟨q, hq⟩ := flat_suffix (lam := m.lambda) (code := cdOf m.codes) hsuf
        have hT : TS.T m.trie (flat m.lambda (cdOf m.codes) ((mt, c) :: bp)) ≠ none :=
          prefix_rep h.trie (q := q) (by rw [← hq, hi]; simp)
        have hclt : cdOf m.codes c < 255 := hkw (mt, c) (hsuf.subset (by simp))
        have hT2 : TS.T m.trie (List.replicate (0 + mt / m.lambda) 255 ++ flat m.lambda (cdOf m.codes) bp) ≠ none := by
          rw [Nat.zero_add]
          refine prefix_rep h.trie (q := [cdOf m.codes c + 256 * (mt % m.lambda)]) ?_
          exact hT
        obtain ⟨nc, hcd⟩ := h.codes
        have hzz := first_symb (z0 := z0) (m := m) hcd hb hlt hmt hbc hz
        have hdrop : key.drop mt = c :: key.drop (mt + 1) := by
          rw [List.drop_eq_getElem_cons hlt, hbc]
        have hjl : mt % m.lambda < m.lambda := Nat.mod_lt _ h.lam_pos
        unfold updLoop at hr
        simp only [hemp, Bool.false_eq_true, if_false] at hr
        rw [hcmp] at hr
        simp only [R.bind_ok] at hr
        rw [advance, if_pos (by omega)] at hr
        simp only [R.bind_ok, hdrop] at hr
        obtain ⟨⟨m1, node1, j1⟩, hst, hr⟩ := R.bind_eq_ok hr
        obtain ⟨t, s1, s2, s3, s4, s5, s6⟩ := updSteps_old h.step_lt (mt + 1) m 0 node mt h.trie hx h.lam_pos (by simpa using hn) hT2 _ _ _ hst
        rw [Nat.zero_add] at s6
        subst s1 s5
        have h1 := h.congr s2 s4
        simp only [hcd.rd, R.bind_ok, if_neg (show ¬ cdOf m.codes c = 255 by omega), R.pure_eq] at hr
        rw [if_neg (by rw [decide_eq_false (show ¬ cdOf m.codes c = 255 by omega)]; simp)] at hr
        obtain ⟨sy, hsy, hr⟩ := R.bind_eq_ok hr
        rw [h1.makeSymb hclt hjl] at hsy
        injection hsy with hsy
        subst hsy
        obtain ⟨⟨t1, v1, isNew⟩, ha, hr⟩ := R.bind_eq_ok hr
        have hfl : (cdOf m.codes c + 256 * (mt % m.lambda)) :: (List.replicate (mt / m.lambda) 255 ++ flat m.lambda (cdOf m.codes) bp)
              = flat m.lambda (cdOf m.codes) ((mt, c) :: bp) := rfl
        obtain ⟨a1, a2, a3, a4, a5, a6, a7, a8⟩ := (TS.add t s2 s3 _ node1 _ s6 (h.symb_lt (c := cdOf m.codes c) (by omega) hjl) (by
          rw [hfl]
          rcases hzz with hzz | hzz | hzz
          · exact Or.inl hzz
          · exact Or.inr hzz
          · omega)).of_eq ha
        dsimp only at a1 a2 a3 a4 a5 a6 a7 a8 hr
        rw [hfl] at a2 a3 a4
        obtain ⟨w, hw⟩ := Option.ne_none_iff_exists'.1 hT
        rw [s4, hw] at a2
        have hnew : isNew = false := a2
        subst hnew
        simp only [Bool.false_eq_true, if_false] at hr
        have hvw := a4 w (by rw [s4, hw])
        have hTt : ∀ q, TS.T t1 q = TS.T m.trie q := by
          intro q
          rw [a3 q]
          split
          next e => rw [e, hw, hvw]
          · exact s4 q
        obtain ⟨fuel', m', f1, f2⟩ := ih { m with trie := t1 } (h.congr a1 hTt) (fun hk => by rw [(a7 hk).2 rfl]; exact s3 hk)
          ((mt, c) :: bp) v1 (key.drop (mt + 1)) i (by simp; omega) hk2 (by rw [hTt, hw, hvw]) hkw (by rw [hTt]; exact hi)
          (Or.inr (Or.inl (by simp))) r hr
        exact ⟨fuel', m', f1, f2⟩

section
variable (TS NS)
/-- what is left of a map that held `d` when an allocation failed during `update(k)`; `M` are its labels -/
structure SPt (C : MapCrash τ ν) (safe : Prop) (U : List UInt8 → Prop) (M : BP → Option LV) (m : Map τ ν) (d : Dict) (k : Key)
    (c : CrashSite × Map τ ν) : Prop where
  ainv : (d = [] ∧ M = fun _ => none) ∨ AInv vs U M
  get : ∀ key, U key → dict M key = d.get key
  keep : c.1 ≠ .relabel → (c.1 = .label → safe) → Keep TS M c.2
  size : c.2.size = d.length + (if c.1 = .label then 1 else 0)
  grow : c.1 = .grow → Live TS NS U c.2 d ∧ ∀ b, Coded c.2 b ↔ Coded m b ∨ (Coded c.2 b ∧ BranchesAt d k b)
  label : c.1 = .label → LabelPt TS NS C M (walk M [] k) c.2
  zero : z0 ∨ k.head? ≠ some 0 ∨ d = [] ∨ ∃ l v, M [] = some (0 :: l, v)
  full : c.1 = .expand → cfg.T.kind = .bonsai ∧ cfg.T.needsToExpand c.2.trie = true
  only : c.1 = .expand → Live TS NS U m d ∧ M = MM TS NS U m ∧ ∃ m', GrowPt TS NS U m (walk M [] k) m' ∧ OneMore TS (walk M [] k) m' c.2
  ahead : cfg.T.kind = .fkhash → c.1 = .dummy ∨ c.1 = .label → ∃ n, (c.2.nlm ∈ C.dummy n ∨ ∃ j key, c.2.nlm ∈ C.label n j key) ∧
    cfg.T.size c.2.trie = cfg.L.size n + 1
end

theorem Live.crash {C : MapCrash τ ν} {safe : Prop} (hC : MapCrashSpec TS NS C safe) {m : Map τ ν} {d : Dict} (h : Live TS NS U m d) {k : Key} (hk : U k)
    (hz : z0 ∨ k.head? ≠ some 0 ∨ ∃ l, firstKey d = some (0 :: l)) (hc : m.numCodes < 255 ∨ ∀ c, c ≠ 0 → BranchesAt d k c → Coded m c) :
    ∀ c ∈ updateCrash cfg C m k, c.1 ≠ .ctor ∧ SPt TS NS C safe U (MM TS NS U m) m d k c := by
  intro c hcr
  have hb : badKey k = false := h.ainv.univ.badKey hk
  obtain ⟨r, r1, r2⟩ := TS.inv_root m.trie h.inv.core.trie
  have hsz := TS.inv_size m.trie h.inv.core.trie
  have hz' : z0 ∨ k.head? ≠ some 0 ∨ ∃ l v, MM TS NS U m [] = some (0 :: l, v) := by
    rcases hz with hz | hz | ⟨l0, hz⟩
    · exact Or.inl hz
    · exact Or.inr (Or.inl hz)
    · right; right
      have := h.root
      rw [hz] at this
      cases h3 : MM TS NS U m [] with
      | none => rw [h3] at this; cases this
      | some x =>
        obtain ⟨x1, x2⟩ := x
        rw [h3] at this
        simp only [Option.map_some, Option.some.injEq] at this
        exact ⟨l0, x2, by rw [this]⟩
  unfold updateCrash at hcr
  simp only [hb, Bool.false_eq_true, if_false, hsz, r1, onOk] at hcr
  have hp := loopCrash_pt hC (k.length + 1) h.inv h.ainv [] r k _ (by omega) hk Known.nil (by simpa [flat] using r2) ?_ ?_ h.bound c hcr
  · refine ⟨hp.ctor, Or.inr h.ainv, h.get, hp.keep, by rw [hp.size, h.size], fun hg => ?_, hp.label, ?_, hp.full, fun hx => ⟨h, rfl, hp.only hx⟩, hp.ahead⟩
    · have g := hp.grow hg
      have hmm := g.mm
      refine ⟨⟨g.inv, by rw [hmm]; exact h.ainv, by rw [hmm]; exact h.get, by rw [g.size, h.size], h.keys, ?_, by rw [hmm]; exact h.root⟩, ?_⟩
      · have := g.steps; have := h.nodes; have := g.size; omega
      · intro b
        constructor
        · intro hb
          rcases g.known b hb.2.1 with h1 | h1
          · exact Or.inl ⟨h.inv.ready, h1, hb.2.2⟩
          · exact Or.inr ⟨hb, (h.stuck hk b).1 h1⟩
        · rintro (hb | hb)
          · refine ⟨g.inv.ready, ?_, hb.2.2⟩
            have := h.inv.codes.le255 b
            have h1 := hb.2.1
            rw [g.keep b (by omega)]; exact h1
          · exact hb.1
    · rcases hz' with h1 | h1 | h1
      · exact Or.inl h1
      · exact Or.inr (Or.inl h1)
      · exact Or.inr (Or.inr (Or.inr h1))
  · rcases hc with hc | hc
    · exact Or.inl hc
    · right
      intro c hcm
      by_cases h0 : c = 0
      · rw [h0, h.inv.codes.zero]; decide
      · have := (hc c h0 ((h.stuck hk c).1 hcm)).2.1
        have := h.inv.codes.le255 c; omega
  · rcases hz' with h1 | h1 | h1
    · exact Or.inl h1
    · exact Or.inr (Or.inr (Or.inl h1))
    · exact Or.inr (Or.inr (Or.inr h1))

/-- the first key -/
theorem FreshM.crash {C : MapCrash τ ν} {safe : Prop} (hU : KeySet vs U) {m : Map τ ν} (h : FreshM TS NS m) {k : Key} (hk : U k) {c : CrashSite × Map τ ν} {m0 : Map τ ν}
    (hc : c ∈ onOk (cfg.T.addRoot m.trie) fun trie =>
        let m := { m with size := m.size + 1, trie := trie }
        onOk (cfg.T.getRoot m.trie) fun node => labelPts C m node k) :
    c.1 ≠ .ctor ∧ SPt TS NS C safe U (fun _ => none) m0 [] k c := by
  obtain ⟨t, r, f1, f2, f3, f4, f5, f6, f7, f8⟩ := TS.fresh_root m.trie h.trie
  rw [f1] at hc
  simp only [onOk, f3] at hc
  obtain ⟨nf, n1, rfl⟩ := List.mem_map.1 hc
  refine ⟨by simp, Or.inl ⟨rfl, rfl⟩, fun key _ => rfl, fun _ _ => ?_, by simp [h.size], fun e => (by cases e), fun _ => ?_, Or.inr (Or.inr (Or.inl rfl)),
    fun e => (by cases e), fun e => (by cases e), fun _ _ => ⟨m.nlm, Or.inr ⟨_, _, n1⟩, by rw [h.fk]; exact f5⟩⟩
  · exact ⟨h.ready, h.sb8, h.lam, ⟨_, h.codes⟩, f2, fun bp l v hb => (by cases hb)⟩
  · rw [walk_none rfl]
    refine ⟨rfl, Known.nil, fun _ => f6, r, m.nlm, ?_, ?_, h.noLab r, ?_, ?_, ⟨Or.inr (hU.nul k hk), hU.len k hk⟩, n1⟩
    · simp [flat, f4]
    · simp only [f7]; exact h.nlm
    · intro hk; rw [f8 hk, h.fk]
    · exact (TS.T_bound t f2 [] r (by rw [f4]; simp)).1

theorem State.crash {C : MapCrash τ ν} {safe : Prop} (hC : MapCrashSpec TS NS C safe) (hU : KeySet vs U) (hok : Ok TS NS) {m : Map τ ν} {d : Dict}
    (h : State TS NS U m d) {k : Key} (hk : U k)
    (hz : z0 ∨ k.head? ≠ some 0 ∨ d = [] ∨ ∃ l, firstKey d = some (0 :: l)) (hc : m.numCodes < 255 ∨ ∀ c, c ≠ 0 → BranchesAt d k c → Coded m c) :
    ∀ c ∈ updateCrash cfg C m k, (c.1 = .ctor ∧ c.2 = m ∧ m.isReady = false) ∨ (c.1 ≠ .ctor ∧ ∃ M, SPt TS NS C safe U M m d k c) := by
  intro c hcr
  have hb : badKey k = false := hU.badKey hk
  rcases h with ⟨rfl, ⟨hsb, hcb0⟩, rfl⟩ | ⟨h, rfl⟩ | h
  · obtain ⟨m1, m2, m3, m4⟩ := make_ok (TS := TS) (NS := NS) (cb := 0) (by omega) hok.min (by omega) (by simp only [Nat.max_zero]; have := hok.min64; omega)
    subst hsb
    have hd1 : (default cfg : Map τ ν).trie = cfg.T.empty := rfl
    have hd2 : (default cfg : Map τ ν).isReady = false := rfl
    unfold updateCrash at hcr
    rw [hd1, hd2] at hcr
    simp only [hb, Bool.false_eq_true, if_false, hok.empty, if_true, Bool.not_false] at hcr
    rw [show (32 : Nat) = 2 ^ (13 - 8) from rfl, m2] at hcr
    rcases List.mem_append.1 hcr with hcr | hcr
    · rw [List.mem_singleton.1 hcr]; exact Or.inl ⟨rfl, rfl, rfl⟩
    · obtain ⟨h1, h2⟩ := FreshM.crash (safe := safe) (m0 := default cfg) hU m3 hk hcr
      exact Or.inr ⟨h1, _, h2⟩
  · have hz1 := TS.fresh_size _ h.trie
    unfold updateCrash at hcr
    simp only [hb, Bool.false_eq_true, if_false, hz1, if_true, h.ready, Bool.not_true, R.pure_eq, List.nil_append] at hcr
    obtain ⟨h1, h2⟩ := FreshM.crash (safe := safe) (m0 := m) hU h hk hcr
    exact Or.inr ⟨h1, _, h2⟩
  · obtain ⟨h1, h2⟩ := h.crash hC hk (by
      rcases hz with hz | hz | hz | hz
      · exact Or.inl hz
      · exact Or.inr (Or.inl hz)
      · exact absurd hz h.ne_nil
      · exact Or.inr (Or.inr hz)) hc c hcr
    exact Or.inr ⟨h1, _, h2⟩

/-- a failed `insert` or `append` leaves a node on which `compare` fails -/
def LabelBad (NS : NlmSpec cfg.L cfg.T.kind vs) (C : MapCrash τ ν) : Prop :=
  ∀ c n, NS.Inv c n → ∀ j key, (∀ e, NS.L n j e = none) → j < c → (cfg.T.kind = .fkhash → j = cfg.L.size n) →
    ∀ nf ∈ C.label n j key, ∀ key', cfg.L.compare nf j key' = .error .assertion

/-- the failed key cannot be used any more -/
theorem SPt.failed {C : MapCrash τ ν} {safe : Prop} {M : BP → Option LV} {m : Map τ ν} {d : Dict} {k : Key} {c : CrashSite × Map τ ν}
    (hU : KeySet vs U) (h : SPt TS NS C safe U M m d k c) (hs : safe) (hB : LabelBad NS C) (hk : U k) (hl : c.1 = .label) :
    Map.find cfg c.2 k = .error .assertion ∧ ∀ r, update cfg c.2 k ≠ .ok r := by
  have hK := h.keep (by rw [hl]; simp) (fun _ => hs)
  obtain ⟨l1, l2, l3, i, n, l4, l5, l6, l7, l8, l9, l10⟩ := h.label hl
  have hcmp := hB _ n l5 i _ l6 l8 l7 _ l10
  have hb : badKey k = false := hU.badKey hk
  obtain ⟨r, r1, r2⟩ := TS.inv_root _ hK.trie
  have hz := TS.inv_size _ hK.trie
  have hroot : TS.T c.2.trie (flat c.2.lambda (cdOf c.2.codes) []) = some r := by simpa [flat] using r2
  have hfind : ∃ fuel', (walk M [] k).2.length < fuel' ∧ findLoop cfg c.2 (k.length + 1) r k = findLoop cfg c.2 fuel' i (walk M [] k).2 := by
    rcases h.ainv with ⟨_, hM⟩ | hA
    · subst hM
      rw [walk_none rfl] at l4 ⊢
      rw [hroot] at l4
      injection l4 with l4
      exact ⟨k.length + 1, by simp, by rw [l4]⟩
    · exact hK.reach hA (k.length + 1) [] r k i (by omega) hk hroot l2 l4
  constructor
  · obtain ⟨fuel', f1, f2⟩ := hfind
    unfold Map.find
    simp only [hb, Bool.false_eq_true, if_false, hK.ready, Bool.not_true, Bool.false_or, hz, decide_false, r1, R.bind_ok]
    rw [f2]
    cases fuel' with
    | zero => omega
    | succ fuel' => simp only [findLoop, hcmp]; split <;> rfl
  · intro x hx
    unfold update at hx
    simp only [hb, Bool.false_eq_true, if_false, hz, r1, R.bind_ok] at hx
    have hend : ∀ fuel' (m' : Map τ ν), m'.nlm = c.2.nlm → updLoop cfg fuel' m' i (walk M [] k).2 ≠ .ok x := by
      intro fuel' m' e1 e2
      cases fuel' with
      | zero => cases e2
      | succ fuel' =>
        simp only [updLoop, e1, hcmp] at e2
        split at e2 <;> cases e2
    rcases h.ainv with ⟨_, hM⟩ | hA
    · subst hM
      rw [walk_none rfl] at l4 hend
      rw [hroot] at l4
      injection l4 with l4
      subst l4
      exact hend _ c.2 rfl hx
    · obtain ⟨fuel', m', e1, e2⟩ := Keep.reachUpd hA (k.length + 1) c.2 hK l3 [] r k i (by omega) hk hroot l2 l4 (by
        rcases h.zero with h1 | h1 | h1 | h1
        · exact Or.inl h1
        · exact Or.inr (Or.inr (Or.inl h1))
        · exfalso
          subst h1
          have := h.get
          obtain ⟨⟨l, v⟩, hl⟩ := Option.ne_none_iff_exists'.1 hA.root
          have hkl : U l := (hA.lab [] _ _ hl).1
          have := h.get l hkl
          rw [dict, walk_eq hl, hl] at this
          cases this
        · exact Or.inr (Or.inr (Or.inr h1))) x hx
      exact hend fuel' m' e1 e2

/-- if the failed key was the first, nothing can be looked up -/
theorem SPt.first {C : MapCrash τ ν} {safe : Prop} {M : BP → Option LV} {m : Map τ ν} {k : Key} {c : CrashSite × Map τ ν}
    (hU : KeySet vs U) (h : SPt TS NS C safe U M m [] k c) (hs : safe) (hB : LabelBad NS C) (hl : c.1 = .label) {k' : Key} (hk : U k') :
    Map.find cfg c.2 k' = .error .assertion := by
  have hK := h.keep (by rw [hl]; simp) (fun _ => hs)
  have hM : M = fun _ => none := by
    rcases h.ainv with h1 | hA
    · exact h1.2
    · exfalso
      obtain ⟨⟨l, v⟩, hl⟩ := Option.ne_none_iff_exists'.1 hA.root
      have hkl : U l := (hA.lab [] _ _ hl).1
      have := h.get l hkl
      rw [dict, walk_eq hl, hl] at this
      cases this
  subst hM
  obtain ⟨l1, l2, l3, i, n, l4, l5, l6, l7, l8, l9, l10⟩ := h.label hl
  have hcmp := hB _ n l5 i _ l6 l8 l7 _ l10
  rw [walk_none rfl] at l4
  have hb : badKey k' = false := hU.badKey hk
  obtain ⟨r, r1, r2⟩ := TS.inv_root _ hK.trie
  have hz := TS.inv_size _ hK.trie
  have : i = r := by
    simp only [flat] at l4
    rw [r2] at l4; injection l4 with l4; exact l4.symm
  subst this
  unfold Map.find
  simp only [hb, Bool.false_eq_true, if_false, hK.ready, Bool.not_true, Bool.false_or, hz, decide_false, r1, R.bind_ok]
  simp only [findLoop, hcmp]; split <;> rfl

/-! ### the points exist -/

theorem onOk_ok {α β : Type} {x : R α} {a : α} (h : x = .ok a) (f : α → List β) : onOk x f = f a := by rw [h]; rfl

theorem expandIfNeeded_size {m m' : Map τ ν} {v v' : Nat} (h : expandIfNeeded cfg m v = .ok (m', v')) : m'.size = m.size := by
  unfold expandIfNeeded at h
  split at h
  · injection h with h; injection h with h _; rw [← h]
  · split at h
    · injection h with h; injection h with h _; rw [← h]
    · obtain ⟨x, _, h⟩ := R.bind_eq_ok h
      obtain ⟨y, _, h⟩ := R.bind_eq_ok h
      obtain ⟨z, _, h⟩ := R.bind_eq_ok h
      injection h with h; injection h with h _; rw [← h]

theorem updSteps_size (fuel : Nat) : ∀ {m m' : Map τ ν} {v v' j j' : Nat}, updSteps cfg fuel m v j = .ok (m', v', j') → m'.size = m.size := by
  induction fuel with
  | zero => intro m m' v v' j j' h; cases h
  | succ fuel ih =>
    intro m m' v v' j j' h
    unfold updSteps at h
    split at h
    · obtain ⟨⟨t, w, b⟩, _, h⟩ := R.bind_eq_ok h
      dsimp only at h
      split at h
      · obtain ⟨⟨m1, w1⟩, h1, h⟩ := R.bind_eq_ok h
        have e1 := expandIfNeeded_size h1
        dsimp only at h e1
        split at h
        · obtain ⟨_, _, h⟩ := R.bind_eq_ok h
          obtain ⟨y, _, h⟩ := R.bind_eq_ok h
          exact (ih h).trans e1
        · exact (ih h).trans e1
      · exact ih (m := { m with trie := t }) h
    · injection h with h; injection h with h _; rw [← h]

/-- storing a label allocates -/
def LabelAllocs (cfg : MapCfg τ ν) (C : MapCrash τ ν) : Prop :=
  ∀ (m m' : Map τ ν) (i : Nat) key r, putLabel cfg m i key = .ok (m', r) → C.label m.nlm i key ≠ []

theorem putLabel_pts {C : MapCrash τ ν} (hC : LabelAllocs cfg C) {m m' : Map τ ν} {i : Nat} {key : List UInt8} {r : UpdOut}
    (h : putLabel cfg m i key = .ok (m', r)) : ∃ c ∈ labelPts C m i key, c.1 = .label := by
  obtain ⟨n, hn⟩ := List.exists_mem_of_ne_nil _ (hC m m' i key r h)
  exact ⟨_, List.mem_map.2 ⟨n, hn, rfl⟩, rfl⟩

theorem putLabel_size {m m' : Map τ ν} {i : Nat} {key : List UInt8} {r : UpdOut} (h : putLabel cfg m i key = .ok (m', r)) :
    m'.size = m.size := by
  unfold putLabel at h
  split at h
  all_goals
    obtain ⟨⟨n, l⟩, _, h⟩ := R.bind_eq_ok h
    injection h with h; injection h with h _; rw [← h]

theorem growPts_site {C : MapCrash τ ν} {m : Map τ ν} {v s : Nat} {c : CrashSite × Map τ ν} (hc : c ∈ growPts cfg C m v s) : c.1 = .grow := by
  unfold growPts at hc
  rcases List.mem_append.1 hc with hc | hc
  · split at hc
    · rw [List.mem_singleton.1 hc]
    · cases hc
  · obtain ⟨t, _, rfl⟩ := List.mem_map.1 hc; rfl

theorem updLoop_points {C : MapCrash τ ν} (hC : LabelAllocs cfg C) (fuel : Nat) : ∀ {m m' : Map τ ν} {node : Nat} {key : List UInt8} {r : UpdOut},
    updLoop cfg fuel m node key = .ok (m', r) → m'.size ≠ m.size →
    (∃ c ∈ loopCrash cfg C fuel m node key, c.1 = .label) ∧ ((∀ m v s, growPts cfg C m v s ≠ []) → ∃ c ∈ loopCrash cfg C fuel m node key, c.1 = .grow) := by
  induction fuel with
  | zero => intro m m' node key r h; cases h
  | succ fuel ih =>
    intro m m' node key r h hs
    unfold updLoop at h
    unfold loopCrash
    split at h
    · obtain ⟨x, _, h⟩ := R.bind_eq_ok h
      split at h
      all_goals
        injection h with h; injection h with h _; exact absurd (by rw [← h]) hs
    next hemp =>
    rw [if_neg hemp]
    obtain ⟨⟨p, mt⟩, h1, h⟩ := R.bind_eq_ok h
    rw [onOk_ok h1]
    cases p with
    | some l => injection h with h; injection h with h _; exact absurd (by rw [← h]) hs
    | none =>
      dsimp only at h ⊢
      obtain ⟨key1, h2, h⟩ := R.bind_eq_ok h
      rw [onOk_ok h2]
      obtain ⟨⟨m1, v1, j1⟩, h3, h⟩ := R.bind_eq_ok h
      rw [onOk_ok h3]
      have e3 := updSteps_size _ h3
      cases key1 with
      | nil => cases h
      | cons c rest =>
        dsimp only at h ⊢
        obtain ⟨code, h4, h⟩ := R.bind_eq_ok h
        rw [onOk_ok h4]
        have hgo : ∀ m2 : Map τ ν, m2.size = m1.size →
            (do
              let (trie, node, isNew) ← cfg.T.addChild m2.trie v1 (← makeSymb cfg m2 c j1)
              let m := { m2 with trie := trie }
              if isNew then
                let (m, node) ← expandIfNeeded cfg m node
                let m := { m with size := m.size + 1 }
                R.assert (decide (cfg.T.kind = Kind.bonsai) || decide (node = cfg.L.size m.nlm))
                putLabel cfg m node rest
              else updLoop cfg fuel m node rest) = .ok (m', r) →
            (∃ p ∈ (onOk (makeSymb cfg m2 c j1) fun symb =>
                growPts cfg C m2 v1 symb ++ onOk (cfg.T.addChild m2.trie v1 symb) fun (trie, node, isNew) =>
                  let m := { m2 with trie := trie }
                  if isNew then
                    expandPts cfg m ++ onOk (expandIfNeeded cfg m node) fun (m, node) =>
                      labelPts C { m with size := m.size + 1 } node rest
                  else loopCrash cfg C fuel m node rest), p.1 = .label) ∧
            ((∀ m v s, growPts cfg C m v s ≠ []) → ∃ p ∈ (onOk (makeSymb cfg m2 c j1) fun symb =>
                growPts cfg C m2 v1 symb ++ onOk (cfg.T.addChild m2.trie v1 symb) fun (trie, node, isNew) =>
                  let m := { m2 with trie := trie }
                  if isNew then
                    expandPts cfg m ++ onOk (expandIfNeeded cfg m node) fun (m, node) =>
                      labelPts C { m with size := m.size + 1 } node rest
                  else loopCrash cfg C fuel m node rest), p.1 = .grow) := by
          intro m2 e2 h
          obtain ⟨sy, h5, h⟩ := R.bind_eq_ok h
          rw [onOk_ok h5]
          obtain ⟨⟨t, v, b⟩, h6, h⟩ := R.bind_eq_ok h
          rw [onOk_ok h6]
          dsimp only at h ⊢
          refine ⟨?_, fun hk => ?_⟩
          swap
          · obtain ⟨q, hq⟩ := List.exists_mem_of_ne_nil _ (hk m2 v1 sy)
            exact ⟨q, List.mem_append_left _ hq, growPts_site hq⟩
          cases b with
          | true =>
            simp only [if_true] at h ⊢
            obtain ⟨⟨m3, v3⟩, h7, h⟩ := R.bind_eq_ok h
            rw [onOk_ok h7]
            obtain ⟨_, _, h⟩ := R.bind_eq_ok h
            obtain ⟨p, p1, p2⟩ := putLabel_pts hC h
            exact ⟨p, List.mem_append_right _ (List.mem_append_right _ p1), p2⟩
          | false =>
            simp only [Bool.false_eq_true, if_false] at h ⊢
            obtain ⟨⟨p, p1, p2⟩, _⟩ := ih h (by intro e; apply hs; rw [e]; dsimp only; rw [e2, e3])
            exact ⟨p, List.mem_append_right _ p1, p2⟩
        by_cases hu : code = 255
        · simp only [hu, if_true, decide_true, Bool.true_and] at h ⊢
          obtain ⟨cs, h5', h⟩ := R.bind_eq_ok h
          rw [h5']
          simp only [R.bind_ok, R.pure_eq, onOk] at h ⊢
          have e5 : ({ m1 with codes := cs, numCodes := m1.numCodes + 1 } : Map τ ν).size = m1.size := rfl
          split at h
          · injection h with h; injection h with h _
            exact absurd (by rw [← h, e5, e3]) hs
          next hne =>
            rw [if_neg hne]
            obtain ⟨⟨p, p1, p2⟩, q⟩ := hgo _ e5 h
            refine ⟨⟨p, List.mem_append_right _ p1, p2⟩, fun hk => ?_⟩
            obtain ⟨p, p1, p2⟩ := q hk
            exact ⟨p, List.mem_append_right _ p1, p2⟩
        · simp only [hu, if_false, decide_false, Bool.false_and, Bool.false_eq_true, R.pure_eq, R.bind_ok, onOk] at h ⊢
          obtain ⟨⟨p, p1, p2⟩, q⟩ := hgo m1 rfl h
          refine ⟨⟨p, List.mem_append_right _ p1, p2⟩, fun hk => ?_⟩
          obtain ⟨p, p1, p2⟩ := q hk
          exact ⟨p, List.mem_append_right _ p1, p2⟩

end Map
end Poplar
