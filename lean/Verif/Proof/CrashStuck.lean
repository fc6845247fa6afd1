import Verif.Proof.CrashAlias
import Verif.Proof.ResizeCount
import Verif.Model.MapRun
/-
  After some allocation failures the map never takes a new key again. An argument on the control flow alone.
-/
namespace Poplar
open Spec

/-- A condition on the trie and the label store under which no node can be added, kept by all the calls that are made. -/
structure Map.Stuck {τ ν : Type} (cfg : MapCfg τ ν) (P : τ → ν → Prop) : Prop where
  ne0 : ∀ {t n}, P t n → cfg.T.size t ≠ 0
  add : ∀ {t n v s x}, P t n → cfg.T.addChild t v s = .ok x →
    (x.2.2 = false ∧ P x.1 n) ∨ (x.2.2 = true ∧ cfg.T.kind = .fkhash ∧ x.2.1 ≠ cfg.L.size n)
  store : ∀ {t n l v n'}, P t n → cfg.L.store n l v = .ok n' → P t n'

namespace Map
variable {τ ν : Type} {cfg : MapCfg τ ν} {P : τ → ν → Prop}

theorem Stuck.steps (hP : Stuck cfg P) (fuel : Nat) : ∀ {m m' : Map τ ν} {v v' j j' : Nat}, P m.trie m.nlm →
    updSteps cfg fuel m v j = .ok (m', v', j') → P m'.trie m'.nlm ∧ m'.size = m.size := by
  induction fuel with
  | zero => intro m m' v v' j j' _ h; cases h
  | succ fuel ih =>
    intro m m' v v' j j' hp h
    unfold updSteps at h
    split at h
    · obtain ⟨⟨t, w, b⟩, h0, h⟩ := R.bind_eq_ok h
      rcases hP.add hp h0 with ⟨h1, h2⟩ | ⟨h1, h2, h3⟩
      · dsimp only at h1 h2 h
        subst h1
        simp only [Bool.false_eq_true, if_false] at h
        obtain ⟨q1, q2⟩ := ih (m := { m with trie := t }) h2 h
        exact ⟨q1, q2⟩
      · exfalso
        dsimp only at h1 h3 h
        subst h1
        simp only [if_true, expandIfNeeded, h2, R.pure_eq, R.bind_ok] at h
        rw [R.assert, if_neg (by simpa using h3)] at h
        cases h
    · injection h with h; injection h with h _; subst h
      exact ⟨hp, rfl⟩

theorem Stuck.loop (hP : Stuck cfg P) (fuel : Nat) : ∀ {m m' : Map τ ν} {node : Nat} {key : List UInt8} {r : UpdOut}, P m.trie m.nlm →
    updLoop cfg fuel m node key = .ok (m', r) → P m'.trie m'.nlm ∧ m'.size = m.size := by
  induction fuel with
  | zero => intro m m' node key r _ h; cases h
  | succ fuel ih =>
    intro m m' node key r hp h
    unfold updLoop at h
    split at h
    · obtain ⟨x, _, h⟩ := R.bind_eq_ok h
      split at h
      all_goals
        injection h with h; injection h with h _; subst h; exact ⟨hp, rfl⟩
    obtain ⟨⟨p, mt⟩, h1, h⟩ := R.bind_eq_ok h
    cases p with
    | some l => injection h with h; injection h with h _; subst h; exact ⟨hp, rfl⟩
    | none =>
      dsimp only at h
      obtain ⟨key1, h2, h⟩ := R.bind_eq_ok h
      obtain ⟨⟨m1, v1, j1⟩, h3, h⟩ := R.bind_eq_ok h
      obtain ⟨p1, p2⟩ := hP.steps _ hp h3
      cases key1 with
      | nil => cases h
      | cons c rest =>
        dsimp only at h
        obtain ⟨code, h4, h⟩ := R.bind_eq_ok h
        have hgo : ∀ m2 : Map τ ν, m2.trie = m1.trie → m2.nlm = m1.nlm → m2.size = m1.size →
            (do
              let (trie, node, isNew) ← cfg.T.addChild m2.trie v1 (← makeSymb cfg m2 c j1)
              let m := { m2 with trie := trie }
              if isNew then
                let (m, node) ← expandIfNeeded cfg m node
                let m := { m with size := m.size + 1 }
                R.assert (decide (cfg.T.kind = Kind.bonsai) || decide (node = cfg.L.size m.nlm))
                putLabel cfg m node rest
              else updLoop cfg fuel m node rest) = .ok (m', r) → P m'.trie m'.nlm ∧ m'.size = m.size := by
          intro m2 e1 e2 e3 h
          obtain ⟨sy, h5, h⟩ := R.bind_eq_ok h
          obtain ⟨⟨t, v, b⟩, h6, h⟩ := R.bind_eq_ok h
          rw [← e1, ← e2] at p1
          rcases hP.add p1 h6 with ⟨h7, h8⟩ | ⟨h7, h8, h9⟩
          · dsimp only at h7 h8 h
            subst h7
            simp only [Bool.false_eq_true, if_false] at h
            obtain ⟨q1, q2⟩ := ih (m := { m2 with trie := t }) h8 h
            exact ⟨q1, by rw [q2]; dsimp only; rw [e3, p2]⟩
          · exfalso
            dsimp only at h7 h9 h
            subst h7
            simp only [if_true, expandIfNeeded, h8, R.pure_eq, R.bind_ok] at h
            rw [R.assert, if_neg (by simpa using h9)] at h
            cases h
        by_cases hu : code = 255
        · simp only [hu, if_true, decide_true, Bool.true_and] at h
          obtain ⟨cs, h5', h⟩ := R.bind_eq_ok h
          simp only [R.pure_eq, R.bind_ok] at h
          split at h
          · injection h with h; injection h with h _; subst h
            exact ⟨p1, p2⟩
          · exact hgo { m1 with codes := cs, numCodes := m1.numCodes + 1 } rfl rfl rfl h
        · simp only [hu, if_false, decide_false, Bool.false_and, Bool.false_eq_true, R.pure_eq, R.bind_ok] at h
          exact hgo m1 rfl rfl rfl h

theorem Stuck.update (hP : Stuck cfg P) {m m' : Map τ ν} {key : List UInt8} {r : UpdOut} (hp : P m.trie m.nlm)
    (h : update cfg m key = .ok (m', r)) : P m'.trie m'.nlm ∧ m'.size = m.size := by
  unfold Map.update at h
  split at h
  · injection h with h; injection h with h _; subst h; exact ⟨hp, rfl⟩
  · rw [if_neg (hP.ne0 hp)] at h
    obtain ⟨n, _, h⟩ := R.bind_eq_ok h
    exact hP.loop _ hp h

theorem Stuck.exec (hP : Stuck cfg P) {m m' : Map τ ν} {o : Op} {x : Out} (hp : P m.trie m.nlm) (h : exec cfg m o = .ok (m', x)) :
    P m'.trie m'.nlm ∧ m'.size = m.size := by
  cases o with
  | find k =>
    simp only [Map.exec] at h
    split at h
    · injection h with h; injection h with h _; subst h; exact ⟨hp, rfl⟩
    · cases h
    · injection h with h; injection h with h _; subst h; exact ⟨hp, rfl⟩
    · obtain ⟨v, _, h⟩ := R.bind_eq_ok h
      injection h with h; injection h with h _; subst h; exact ⟨hp, rfl⟩
  | update k =>
    obtain ⟨⟨m1, r⟩, h1, h⟩ := R.bind_eq_ok h
    obtain ⟨q1, q2⟩ := hP.update hp h1
    dsimp only at h
    split at h
    · obtain ⟨v, _, h⟩ := R.bind_eq_ok h
      injection h with h; injection h with h _; subst h; exact ⟨q1, q2⟩
    all_goals
      injection h with h; injection h with h _; subst h; exact ⟨q1, q2⟩
  | write k v =>
    obtain ⟨⟨m1, r⟩, h1, h⟩ := R.bind_eq_ok h
    obtain ⟨q1, q2⟩ := hP.update hp h1
    dsimp only at h
    split at h
    · obtain ⟨m2, h2, h⟩ := R.bind_eq_ok h
      injection h with h; injection h with h _; subst h
      obtain ⟨n, h3, h2⟩ := R.bind_eq_ok h2
      injection h2 with h2; subst h2
      exact ⟨hP.store q1 h3, q2⟩
    all_goals
      injection h with h; injection h with h _; subst h; exact ⟨q1, q2⟩
  | size =>
    injection h with h; injection h with h _; subst h; exact ⟨hp, rfl⟩

theorem Stuck.run (hP : Stuck cfg P) : ∀ {os : List Op} {m m' : Map τ ν} {xs : List Out}, P m.trie m.nlm →
    run cfg m os = .ok (m', xs) → P m'.trie m'.nlm ∧ m'.size = m.size := by
  intro os
  induction os with
  | nil => intro m m' xs hp h; injection h with h; injection h with h _; subst h; exact ⟨hp, rfl⟩
  | cons o os ih =>
    intro m m' xs hp h
    obtain ⟨⟨m1, x⟩, h1, h⟩ := R.bind_eq_ok h
    obtain ⟨⟨m2, ys⟩, h2, h⟩ := R.bind_eq_ok h
    injection h with h; injection h with h _; subst h
    obtain ⟨q1, q2⟩ := hP.exec hp h1
    obtain ⟨r1, r2⟩ := ih q1 h2
    exact ⟨r1, r2.trans q2⟩

end Map

theorem PlainBonsai.add_full {cfg : PlainCfg} {t : PlainBonsai} {v s : Nat} {x : PlainBonsai × Nat × Bool} (hf : t.size = t.maxSize)
    (h : addChild cfg t v s = .ok x) : x.2.2 = false ∧ x.1 = t := by
  obtain ⟨_, _, h⟩ := R.bind_eq_ok h
  obtain ⟨_, _, h⟩ := R.bind_eq_ok h
  obtain ⟨_, _, h⟩ := R.bind_eq_ok h
  obtain ⟨i, c, h⟩ := probe_body h
  unfold addBody at h
  split at h
  · cases h
  · obtain ⟨_, _, h⟩ := R.bind_eq_ok h
    split at h
    · cases h
    · obtain ⟨_, _, h⟩ := R.bind_eq_ok h
      split at h
      · cases h; exact ⟨rfl, rfl⟩
      · obtain ⟨_, _, h⟩ := R.bind_eq_ok h
        split at h
        · cases h; exact ⟨rfl, rfl⟩
        · cases h

theorem CompactBonsai.add_full {cfg : CompactCfg} {t : CompactBonsai} {v s : Nat} {x : CompactBonsai × Nat × Bool} (hf : t.size = t.maxSize)
    (h : addChild cfg t v s = .ok x) : x.2.2 = false ∧ x.1 = t := by
  obtain ⟨_, _, h⟩ := R.bind_eq_ok h
  obtain ⟨_, _, h⟩ := R.bind_eq_ok h
  obtain ⟨_, _, h⟩ := R.bind_eq_ok h
  obtain ⟨i, c, h⟩ := probe_body h
  unfold addBody at h
  obtain ⟨_, _, h⟩ := R.bind_eq_ok h
  split at h
  · cases h
  · obtain ⟨b, _, h⟩ := R.bind_eq_ok h
    split at h
    · cases h; exact ⟨rfl, rfl⟩
    · obtain ⟨_, _, h⟩ := R.bind_eq_ok h
      obtain ⟨_, _, h⟩ := R.bind_eq_ok h
      split at h
      · cases h; exact ⟨rfl, rfl⟩
      · cases h

theorem PlainFk.add_size {cfg : PlainFkCfg} {t : PlainFk} {v s : Nat} {x : PlainFk × Nat × Bool} (h : addChild cfg t v s = .ok x) :
    (x.2.2 = false ∧ x.1.size = t.size) ∨ (x.2.2 = true ∧ x.2.1 = t.size) := by
  obtain ⟨_, _, h⟩ := R.bind_eq_ok h
  obtain ⟨_, _, h⟩ := R.bind_eq_ok h
  have main : ∀ t1 : PlainFk, t1.size = t.size →
      (do
        let key := t1.makeKey v s
        R.assert (!cfg.dbg || decide (key ≠ 0))
        probe t1.capa.mask (t1.addBody key) t1.capa.size (cfg.hash key &&& t1.capa.mask) 0) = .ok x →
      (x.2.2 = false ∧ x.1.size = t.size) ∨ (x.2.2 = true ∧ x.2.1 = t.size) := by
    intro t1 hs h
    obtain ⟨_, _, h⟩ := R.bind_eq_ok h
    obtain ⟨i, c, h⟩ := probe_body h
    obtain ⟨_, _, h⟩ := R.bind_eq_ok h
    split at h
    · obtain ⟨_, _, h⟩ := R.bind_eq_ok h
      obtain ⟨_, _, h⟩ := R.bind_eq_ok h
      obtain ⟨_, _, h⟩ := R.bind_eq_ok h
      cases h; exact Or.inr ⟨rfl, hs⟩
    · obtain ⟨_, _, h⟩ := R.bind_eq_ok h
      split at h
      · cases h; exact Or.inl ⟨rfl, hs⟩
      · cases h
  dsimp only at h
  split at h
  · obtain ⟨t1, h1, h⟩ := R.bind_eq_ok h
    refine main t1 ?_ h
    obtain ⟨_, _, h1⟩ := R.bind_eq_ok h1
    obtain ⟨_, _, h1⟩ := R.bind_eq_ok h1
    cases h1; rfl
  · exact main t rfl h

theorem PlainFkNlm.store_size {n n' : PlainFkNlm} {l : Loc} {v : List UInt8} (h : n.store l v = .ok n') : n'.ptrs.size = n.ptrs.size := by
  unfold store at h
  split at h
  · cases h
  · obtain ⟨_, _, h⟩ := R.bind_eq_ok h
    cases h; rfl

namespace Alias

/-- what makes a map refuse new keys -/
def Blocked : (a : Alias) → a.Trie → a.Nlm → Prop
  | .plainBonsai, t, _ => t.size ≠ 0 ∧ t.size = t.maxSize
  | .semiCompactBonsai, t, _ => t.size ≠ 0 ∧ t.size = t.maxSize
  | .compactBonsai, t, _ => t.size ≠ 0 ∧ t.size = t.maxSize
  | .plainFkhash, t, n => t.size ≠ 0 ∧ t.size ≠ n.ptrs.size
  | _, _, _ => False

theorem stuck (a : Alias) (p : Params) : Map.Stuck (a.cfg p) a.Blocked where
  ne0 := by
    cases a
    case semiCompactFkhash | compactFkhash => intro _ _ h; exact h.elim
    all_goals intro _ _ h; exact h.1
  add := by
    cases a
    case semiCompactFkhash | compactFkhash => intro _ _ _ _ _ h; exact h.elim
    case plainFkhash =>
      intro t n v s x hp h
      rcases PlainFk.add_size h with ⟨h1, h2⟩ | ⟨h1, h2⟩
      · refine Or.inl ⟨h1, ?_⟩
        show x.1.size ≠ 0 ∧ x.1.size ≠ n.ptrs.size
        rw [h2]; exact hp
      · refine Or.inr ⟨h1, rfl, ?_⟩
        rw [h2]; exact hp.2
    case compactBonsai =>
      intro t n v s x hp h
      obtain ⟨h1, h2⟩ := CompactBonsai.add_full hp.2 h
      exact Or.inl ⟨h1, by rw [h2]; exact hp⟩
    all_goals
      intro t n v s x hp h
      obtain ⟨h1, h2⟩ := PlainBonsai.add_full hp.2 h
      exact Or.inl ⟨h1, by rw [h2]; exact hp⟩
  store := by
    cases a
    case semiCompactFkhash | compactFkhash => intro _ _ _ _ _ h; exact h.elim
    case plainFkhash =>
      intro t n l v n' hp h
      refine ⟨hp.1, ?_⟩
      rw [PlainFkNlm.store_size h]; exact hp.2
    all_goals intro _ _ _ _ _ hp _; exact hp

theorem blocked {a : Alias} {p : Params} {sb cb0 : Nat} {hsb : 0 < sb} {hp : p.Valid} {safe : Prop} {K : Key → Prop} {M} {d : Dict}
    {k : Key} {m : Map a.Trie a.Nlm} {c : CrashSite × Map a.Trie a.Nlm}
    (h : Map.SPt (a.trieSpec p sb cb0 hsb) (a.nlmSpec p hp) (a.crash p) safe K M m d k c)
    (hc : c.1 = .expand ∨ a = .plainFkhash ∧ (c.1 = .dummy ∨ c.1 = .label)) : a.Blocked c.2.trie c.2.nlm := by
  rcases hc with hc | ⟨rfl, hc⟩
  · obtain ⟨f1, f2⟩ := h.full hc
    have hI := (h.keep (by rw [hc]; simp) (by rw [hc]; simp)).trie
    have hz := (a.trieSpec p sb cb0 hsb).inv_size _ hI
    cases a
    case plainFkhash | semiCompactFkhash | compactFkhash => cases f1
    case compactBonsai =>
      have hle := (show CompactBonsai.Inv (compactCfg p) sb c.2.trie from hI.1).le
      have hge : c.2.trie.maxSize ≤ c.2.trie.size := of_decide_eq_true f2
      exact ⟨hz, Nat.le_antisymm hle hge⟩
    all_goals
      have hle := (show PlainBonsai.Inv (plainCfg p) sb c.2.trie from hI).le
      have hge : c.2.trie.maxSize ≤ c.2.trie.size := of_decide_eq_true f2
      exact ⟨hz, Nat.le_antisymm hle hge⟩
  · obtain ⟨n, n1, n2⟩ := h.ahead rfl hc
    have hn : c.2.nlm = n := by
      rcases n1 with h1 | ⟨_, _, h1⟩
      · exact List.mem_singleton.1 h1
      · exact List.mem_singleton.1 h1
    rw [← hn] at n2
    change c.2.trie.size = c.2.nlm.ptrs.size + 1 at n2
    exact ⟨by omega, by omega⟩

end Alias
end Poplar
