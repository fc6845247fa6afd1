import Verif.Proof.CrashAlias
import Verif.Proof.ResizeCount
/-
  How many allocations of each sort a call of `update` makes: `updateCrash` leaves none out.
-/
namespace Poplar
open Spec (Op Out)

namespace PlainBonsai

theorem expand_cnt {cfg : PlainCfg} {t : PlainBonsai} {x : PlainBonsai × NodeMap} (h : expand cfg t = .ok x) :
    x.1.numResize = t.numResize + 1 := by
  obtain ⟨n0, h0, h⟩ := R.bind_eq_ok h
  obtain ⟨n1, h1, h⟩ := R.bind_eq_ok h
  dsimp only at h
  obtain ⟨_, _, h⟩ := R.bind_eq_ok h
  obtain ⟨_, _, h⟩ := R.bind_eq_ok h
  obtain ⟨_, _, h⟩ := R.bind_eq_ok h
  obtain ⟨_, _, h⟩ := R.bind_eq_ok h
  obtain ⟨_, _, h⟩ := R.bind_eq_ok h
  obtain ⟨⟨s', t', d'⟩, h2, h⟩ := R.bind_eq_ok h
  cases h
  refine expandLoop_inv (Q := fun u : PlainBonsai => u.numResize = t.numResize + 1) ?_ _ rfl h2
  intro u v s x hq h
  rw [(addChild_cnt h).2]; exact hq

end PlainBonsai

namespace CompactBonsai

theorem expand_cnt {cfg : CompactCfg} {t : CompactBonsai} {x : CompactBonsai × NodeMap} (h : expand cfg t = .ok x) :
    x.1.numResize = t.numResize + 1 := by
  obtain ⟨n0, h0, h⟩ := R.bind_eq_ok h
  obtain ⟨n1, h1, h⟩ := R.bind_eq_ok h
  dsimp only at h
  obtain ⟨_, _, h⟩ := R.bind_eq_ok h
  obtain ⟨_, _, h⟩ := R.bind_eq_ok h
  obtain ⟨_, _, h⟩ := R.bind_eq_ok h
  obtain ⟨_, _, h⟩ := R.bind_eq_ok h
  obtain ⟨⟨s', t', d'⟩, h2, h⟩ := R.bind_eq_ok h
  cases h
  refine expandLoop_inv (Q := fun u : CompactBonsai => u.numResize = t.numResize + 1) ?_ _ rfl h2
  intro u v s x hq h
  rw [(addChild_cnt h).2]; exact hq

end CompactBonsai

namespace Map
variable {τ ν : Type} {cfg : MapCfg τ ν}

/-- the number of allocations of the given sort -/
def npts (site : CrashSite) (L : List (CrashSite × Map τ ν)) : Nat := L.countP fun c => decide (c.1 = site)

theorem npts_nil (s : CrashSite) : npts s ([] : List (CrashSite × Map τ ν)) = 0 := rfl

theorem npts_append (s : CrashSite) (L L' : List (CrashSite × Map τ ν)) : npts s (L ++ L') = npts s L + npts s L' :=
  List.countP_append

theorem npts_zero {s : CrashSite} {L : List (CrashSite × Map τ ν)} (h : ∀ c ∈ L, c.1 ≠ s) : npts s L = 0 := by
  unfold npts
  rw [List.countP_eq_zero]
  intro c hc
  simpa using h c hc

/-- what the classes do between two allocations -/
structure Allocs (cfg : MapCfg τ ν) (C : MapCrash τ ν) : Prop where
  label : LabelAllocs cfg C
  dummy : cfg.T.kind = .fkhash → ∀ {n n'}, cfg.L.appendDummy n = .ok n' → C.dummy n ≠ []
  root : ∀ {t t'}, cfg.T.addRoot t = .ok t' → cfg.T.numResize t' = cfg.T.numResize t
  fresh : ∀ {cb sb t}, cfg.T.make cb sb = .ok t → cfg.T.numResize t = 0
  add : cfg.T.kind = .bonsai → ∀ {t v s x}, cfg.T.addChild t v s = .ok x → cfg.T.numResize x.1 = cfg.T.numResize t
  exp : cfg.T.kind = .bonsai → ∀ {t x}, cfg.T.expand t = .ok x → cfg.T.numResize x.1 = cfg.T.numResize t + 1

/-- the allocations `L` account for the difference between `m` and `m'` -/
structure Acc (cfg : MapCfg τ ν) (m m' : Map τ ν) (L : List (CrashSite × Map τ ν)) : Prop where
  steps : cfg.T.kind = .fkhash → m'.numSteps ≤ m.numSteps + npts .dummy L
  nodes : cfg.T.kind = .fkhash → m'.numSteps + m'.size ≤ m.numSteps + m.size + npts .grow L
  exp : cfg.T.kind = .bonsai → cfg.T.numResize m'.trie = cfg.T.numResize m.trie + npts .expand L
  rel : cfg.T.kind = .bonsai → cfg.T.numResize m'.trie = cfg.T.numResize m.trie + npts .relabel L

theorem Acc.same {m m' : Map τ ν} (h1 : m'.numSteps = m.numSteps) (h2 : m'.size = m.size) (h3 : m'.trie = m.trie)
    {L : List (CrashSite × Map τ ν)} (h4 : npts .expand L = 0) (h5 : npts .relabel L = 0) : Acc cfg m m' L :=
  ⟨fun _ => by omega, fun _ => by omega, fun _ => by rw [h3]; omega, fun _ => by rw [h3]; omega⟩

theorem Acc.nil (m : Map τ ν) : Acc cfg m m [] := Acc.same rfl rfl rfl rfl rfl

theorem Acc.trans {m m1 m2 : Map τ ν} {L L' : List (CrashSite × Map τ ν)} (h : Acc cfg m m1 L) (h' : Acc cfg m1 m2 L') :
    Acc cfg m m2 (L ++ L') := by
  refine ⟨fun hk => ?_, fun hk => ?_, fun hk => ?_, fun hk => ?_⟩ <;> rw [npts_append]
  · have := h.steps hk; have := h'.steps hk; omega
  · have := h.nodes hk; have := h'.nodes hk; omega
  · have := h.exp hk; have := h'.exp hk; omega
  · have := h.rel hk; have := h'.rel hk; omega

/-- relabelling of the origin -/
theorem Acc.from {m m1 m' : Map τ ν} {L : List (CrashSite × Map τ ν)} (h : Acc cfg m1 m' L) (h1 : m1.numSteps = m.numSteps)
    (h2 : m1.size = m.size) (h3 : m1.trie = m.trie) : Acc cfg m m' L := by
  refine ⟨fun hk => ?_, fun hk => ?_, fun hk => ?_, fun hk => ?_⟩
  · have := h.steps hk; omega
  · have := h.nodes hk; omega
  · have := h.exp hk; rw [h3] at this; omega
  · have := h.rel hk; rw [h3] at this; omega

theorem growPts_fk (hk : cfg.T.kind = .fkhash) (C : MapCrash τ ν) (m : Map τ ν) (v s : Nat) : 1 ≤ npts .grow (growPts cfg C m v s) := by
  unfold growPts; rw [hk]
  unfold npts
  rw [Nat.one_le_iff_ne_zero, ← Nat.pos_iff_ne_zero, List.countP_pos_iff]
  exact ⟨(.grow, m), by simp, by simp⟩

theorem growPts_other (C : MapCrash τ ν) (m : Map τ ν) (v s : Nat) {x : CrashSite} (hx : x ≠ .grow) : npts x (growPts cfg C m v s) = 0 :=
  npts_zero fun _ hc e => hx (e ▸ growPts_site hc)

theorem expandPts_fk (hk : cfg.T.kind = .fkhash) (m : Map τ ν) : expandPts cfg m = [] := by
  unfold expandPts; rw [hk]

theorem fk_or_bo (cfg : MapCfg τ ν) : cfg.T.kind = .fkhash ∨ cfg.T.kind = .bonsai := by
  cases h : cfg.T.kind
  · exact Or.inr rfl
  · exact Or.inl rfl

/-- a child that was there or is new, without the counting -/
theorem grow_acc {C : MapCrash τ ν} (hA : Allocs cfg C) {m : Map τ ν} {v s : Nat} {x : τ × Nat × Bool} (h : cfg.T.addChild m.trie v s = .ok x) :
    Acc cfg m { m with trie := x.1 } (growPts cfg C m v s) := by
  rcases fk_or_bo cfg with hk | hk
  · exact ⟨fun _ => Nat.le_add_right _ _, fun _ => Nat.le_add_right _ _, fun h => (by rw [hk] at h; cases h), fun h => (by rw [hk] at h; cases h)⟩
  · refine ⟨fun h => (by rw [hk] at h; cases h), fun h => (by rw [hk] at h; cases h), fun _ => ?_, fun _ => ?_⟩
    · rw [growPts_other _ _ _ _ (by simp)]; exact hA.add hk h
    · rw [growPts_other _ _ _ _ (by simp)]; exact hA.add hk h

theorem expand_acc {C : MapCrash τ ν} (hA : Allocs cfg C) {m m' : Map τ ν} {v v' : Nat} (h : expandIfNeeded cfg m v = .ok (m', v')) :
    Acc cfg m m' (expandPts cfg m) ∧ m'.numSteps = m.numSteps ∧ m'.size = m.size := by
  unfold expandIfNeeded at h
  rcases fk_or_bo cfg with hk | hk
  · rw [hk] at h
    cases h
    rw [expandPts_fk hk]
    exact ⟨Acc.nil _, rfl, rfl⟩
  · rw [hk] at h
    dsimp only at h
    unfold expandPts
    rw [hk]
    dsimp only
    split at h
    next hn =>
      cases h
      rw [if_neg (by simpa using hn)]
      exact ⟨Acc.nil _, rfl, rfl⟩
    next hn =>
      rw [if_pos (by simpa using hn)]
      obtain ⟨⟨t, nm⟩, h1, h⟩ := R.bind_eq_ok h
      obtain ⟨y, _, h⟩ := R.bind_eq_ok h
      obtain ⟨z, _, h⟩ := R.bind_eq_ok h
      injection h with h; injection h with h _; subst h
      rw [h1]
      refine ⟨⟨fun h => (by rw [hk] at h; cases h), fun h => (by rw [hk] at h; cases h), fun _ => ?_, fun _ => ?_⟩, rfl, rfl⟩
      · exact hA.exp hk h1
      · exact hA.exp hk h1

theorem updSteps_acc {C : MapCrash τ ν} (hA : Allocs cfg C) (fuel : Nat) : ∀ {m m' : Map τ ν} {v v' j j' : Nat},
    updSteps cfg fuel m v j = .ok (m', v', j') → Acc cfg m m' (stepsCrash cfg C fuel m v j) := by
  induction fuel with
  | zero => intro m m' v v' j j' h; cases h
  | succ fuel ih =>
    intro m m' v v' j j' h
    unfold updSteps at h
    unfold stepsCrash
    split at h
    next hl =>
      rw [if_pos hl]
      obtain ⟨⟨t, w, b⟩, h0, h⟩ := R.bind_eq_ok h
      rw [onOk_ok h0]
      dsimp only at h ⊢
      have g0 := grow_acc hA h0
      dsimp only at g0
      cases b with
      | false => exact g0.trans (ih h)
      | true =>
        simp only [if_true] at h ⊢
        obtain ⟨⟨m1, w1⟩, h1, h⟩ := R.bind_eq_ok h
        rw [onOk_ok h1]
        obtain ⟨e0, e1, e2⟩ := expand_acc hA h1
        dsimp only at h e1 e2 ⊢
        rcases fk_or_bo cfg with hk | hk
        · rw [hk] at h ⊢
          dsimp only at h ⊢
          obtain ⟨_, _, h⟩ := R.bind_eq_ok h
          obtain ⟨n, h2, h⟩ := R.bind_eq_ok h
          rw [onOk_ok h2]
          have q := ih h
          have q1 := q.steps hk
          have q2 := q.nodes hk
          dsimp only at q1 q2
          obtain ⟨y, hy⟩ := List.exists_mem_of_ne_nil _ (hA.dummy hk h2)
          have hd : 1 ≤ npts .dummy (dummyPts C { m1 with numSteps := m1.numSteps + 1 }) := by
            unfold npts
            rw [Nat.one_le_iff_ne_zero, ← Nat.pos_iff_ne_zero, List.countP_pos_iff]
            exact ⟨_, List.mem_map.2 ⟨y, hy, rfl⟩, by simp⟩
          have hg := growPts_fk hk C m v stepSymb
          refine ⟨fun _ => ?_, fun _ => ?_, fun h => (by rw [hk] at h; cases h), fun h => (by rw [hk] at h; cases h)⟩
          · simp only [npts_append]; omega
          · simp only [npts_append]; omega
        · rw [hk] at h ⊢
          dsimp only at h ⊢
          have q := ih h
          refine ⟨fun h => (by rw [hk] at h; cases h), fun h => (by rw [hk] at h; cases h), fun _ => ?_, fun _ => ?_⟩
          · have a1 := g0.exp hk; have a2 := e0.exp hk; have a3 := q.exp hk
            simp only [npts_append] at *; omega
          · have a1 := g0.rel hk; have a2 := e0.rel hk; have a3 := q.rel hk
            simp only [npts_append] at *; omega
    next hl =>
      injection h with h; injection h with h _; subst h
      rw [if_neg hl]
      exact Acc.nil _

theorem labelPts_npts {C : MapCrash τ ν} {m : Map τ ν} {i : Nat} {key : List UInt8} {s : CrashSite} (h : s ≠ .label) :
    npts s (labelPts C m i key) = 0 := by
  apply npts_zero
  intro c hc
  obtain ⟨n, _, rfl⟩ := List.mem_map.1 hc
  exact fun e => h e.symm

theorem putLabel_same {m m' : Map τ ν} {i : Nat} {key : List UInt8} {r : UpdOut} (h : putLabel cfg m i key = .ok (m', r)) :
    m'.size = m.size ∧ m'.numSteps = m.numSteps ∧ m'.trie = m.trie := by
  unfold putLabel at h
  split at h
  all_goals
    obtain ⟨⟨n, l⟩, _, h⟩ := R.bind_eq_ok h
    injection h with h; injection h with h _; subst h
    exact ⟨rfl, rfl, rfl⟩

theorem updLoop_acc {C : MapCrash τ ν} (hA : Allocs cfg C) (fuel : Nat) : ∀ {m m' : Map τ ν} {node : Nat} {key : List UInt8} {r : UpdOut},
    updLoop cfg fuel m node key = .ok (m', r) → Acc cfg m m' (loopCrash cfg C fuel m node key) := by
  induction fuel with
  | zero => intro m m' node key r h; cases h
  | succ fuel ih =>
    intro m m' node key r h
    unfold updLoop at h
    unfold loopCrash
    split at h
    next hemp =>
      rw [if_pos hemp]
      obtain ⟨x, _, h⟩ := R.bind_eq_ok h
      split at h
      all_goals
        injection h with h; injection h with h _; subst h; exact Acc.nil _
    next hemp =>
    rw [if_neg hemp]
    obtain ⟨⟨p, mt⟩, h1, h⟩ := R.bind_eq_ok h
    rw [onOk_ok h1]
    cases p with
    | some l => injection h with h; injection h with h _; subst h; exact Acc.nil _
    | none =>
      dsimp only at h ⊢
      obtain ⟨key1, h2, h⟩ := R.bind_eq_ok h
      rw [onOk_ok h2]
      obtain ⟨⟨m1, v1, j1⟩, h3, h⟩ := R.bind_eq_ok h
      rw [onOk_ok h3]
      have e3 := updSteps_acc hA _ h3
      refine e3.trans ?_
      cases key1 with
      | nil => cases h
      | cons c rest =>
        dsimp only at h ⊢
        obtain ⟨code, h4, h⟩ := R.bind_eq_ok h
        rw [onOk_ok h4]
        have hgo : ∀ m2 : Map τ ν,
            (do
              let (trie, node, isNew) ← cfg.T.addChild m2.trie v1 (← makeSymb cfg m2 c j1)
              let m := { m2 with trie := trie }
              if isNew then
                let (m, node) ← expandIfNeeded cfg m node
                let m := { m with size := m.size + 1 }
                R.assert (decide (cfg.T.kind = Kind.bonsai) || decide (node = cfg.L.size m.nlm))
                putLabel cfg m node rest
              else updLoop cfg fuel m node rest) = .ok (m', r) →
            Acc cfg m2 m' (onOk (makeSymb cfg m2 c j1) fun symb =>
                growPts cfg C m2 v1 symb ++ onOk (cfg.T.addChild m2.trie v1 symb) fun (trie, node, isNew) =>
                  let m := { m2 with trie := trie }
                  if isNew then
                    expandPts cfg m ++ onOk (expandIfNeeded cfg m node) fun (m, node) =>
                      labelPts C { m with size := m.size + 1 } node rest
                  else loopCrash cfg C fuel m node rest) := by
          intro m2 h
          obtain ⟨sy, h5, h⟩ := R.bind_eq_ok h
          rw [onOk_ok h5]
          obtain ⟨⟨t, v, b⟩, h6, h⟩ := R.bind_eq_ok h
          rw [onOk_ok h6]
          have g0 := grow_acc hA h6
          dsimp only at h g0 ⊢
          cases b with
          | true =>
            simp only [if_true] at h ⊢
            obtain ⟨⟨m3, v3⟩, h7, h⟩ := R.bind_eq_ok h
            rw [onOk_ok h7]
            obtain ⟨e0, e1, e2⟩ := expand_acc hA h7
            obtain ⟨_, _, h⟩ := R.bind_eq_ok h
            obtain ⟨s1, s2, s3⟩ := putLabel_same h
            dsimp only at e1 e2 s1 s2 s3
            rcases fk_or_bo cfg with hk | hk
            · have hg := growPts_fk hk C m2 v1 sy
              refine ⟨fun _ => ?_, fun _ => ?_, fun h => (by rw [hk] at h; cases h), fun h => (by rw [hk] at h; cases h)⟩
              · simp only [npts_append]; omega
              · simp only [npts_append]; omega
            · refine ⟨fun h => (by rw [hk] at h; cases h), fun h => (by rw [hk] at h; cases h), fun _ => ?_, fun _ => ?_⟩
              · have a1 := g0.exp hk; have a2 := e0.exp hk
                simp only [npts_append, labelPts_npts (s := .expand) (by simp)] at *; rw [s3]; omega
              · have a1 := g0.rel hk; have a2 := e0.rel hk
                simp only [npts_append, labelPts_npts (s := .relabel) (by simp)] at *; rw [s3]; omega
          | false =>
            simp only [Bool.false_eq_true, if_false] at h ⊢
            exact g0.trans (ih h)
        by_cases hu : code = 255
        · simp only [hu, if_true, decide_true, Bool.true_and] at h ⊢
          obtain ⟨cs, h5', h⟩ := R.bind_eq_ok h
          rw [h5']
          simp only [R.bind_ok, R.pure_eq, onOk] at h ⊢
          split at h
          next hne =>
            rw [if_pos hne]
            injection h with h; injection h with h _; subst h
            refine Acc.same ?_ ?_ ?_ (npts_nil _) (npts_nil _) <;> rfl
          next hne =>
            rw [if_neg hne]
            exact (hgo _ h).from rfl rfl rfl
        · simp only [hu, if_false, decide_false, Bool.false_and, Bool.false_eq_true, R.pure_eq, R.bind_ok, onOk] at h ⊢
          exact hgo m1 h

theorem update_acc {C : MapCrash τ ν} (hA : Allocs cfg C) {m m' : Map τ ν} {key : List UInt8} {r : UpdOut}
    (h : update cfg m key = .ok (m', r)) (h0 : cfg.T.size m.trie ≠ 0) : Acc cfg m m' (updateCrash cfg C m key) := by
  unfold update at h
  unfold updateCrash
  split at h
  next hb =>
    rw [if_pos hb]
    injection h with h; injection h with h _; subst h
    exact Acc.nil _
  next hb =>
    rw [if_neg hb]
    simp only [h0, if_false] at h ⊢
    obtain ⟨n, e2, h⟩ := R.bind_eq_ok h
    rw [onOk_ok e2]
    exact updLoop_acc hA _ h

end Map

namespace Alias

theorem allocs (a : Alias) (p : Params) : Map.Allocs (a.cfg p) (a.crash p) where
  label := labelAllocs a p
  dummy := by
    cases a
    case plainBonsai | semiCompactBonsai | compactBonsai => intro h; cases h
    case plainFkhash => intro _ n n' _; simp [Alias.crash, PlainFkNlm.crash]
    all_goals
      intro _ n n' e'
      change CompactFkNlm.appendDummy _ n = _ at e'
      unfold CompactFkNlm.appendDummy at e'
      obtain ⟨n1, h1, _⟩ := R.bind_eq_ok e'
      intro hx
      have := (List.append_eq_nil_iff.1 hx).2
      unfold CompactFkNlm.bufCrash at this
      rw [h1] at this
      simp only [List.map_eq_nil_iff, List.range_eq_nil, List.length_eq_zero_iff] at this
      exact VByte.bytesGo_ne_nil _ _ this
  root := by
    cases a
    · intro t t' h; exact (PlainBonsai.addRoot_cnt h).2
    · intro t t' h; exact (PlainBonsai.addRoot_cnt h).2
    · intro t t' h; exact (CompactBonsai.addRoot_cnt h).2
    · intro t t' h; exact (PlainFk.addRoot_cnt h).2
    · intro t t' h; exact (PlainFk.addRoot_cnt h).2
    · intro t t' h; exact (CompactFk.addRoot_cnt h).2
  fresh := by
    cases a
    · intro cb sb t h; exact (PlainBonsai.make_cnt h).2
    · intro cb sb t h; exact (PlainBonsai.make_cnt h).2
    · intro cb sb t h; exact (CompactBonsai.make_cnt h).2
    · intro cb sb t h; exact (PlainFk.make_cnt h).2
    · intro cb sb t h; exact (PlainFk.make_cnt h).2
    · intro cb sb t h; exact (CompactFk.make_cnt h).2
  add := by
    cases a
    · intro _ t v s x h; exact (PlainBonsai.addChild_cnt h).2
    · intro _ t v s x h; exact (PlainBonsai.addChild_cnt h).2
    · intro _ t v s x h; exact (CompactBonsai.addChild_cnt h).2
    all_goals intro h; cases h
  exp := by
    cases a
    · intro _ t x h; exact PlainBonsai.expand_cnt h
    · intro _ t x h; exact PlainBonsai.expand_cnt h
    · intro _ t x h; exact CompactBonsai.expand_cnt h
    all_goals intro h; cases h

end Alias
end Poplar
