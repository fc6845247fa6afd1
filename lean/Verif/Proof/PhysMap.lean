import Verif.Model.PhysMap
import Verif.Proof.PhysNlm
import Verif.Proof.Evolve
import Verif.Model.Destroy
/-
  A map whose label store simulates that of another map simulates it.
-/
namespace Poplar.Phys
open Poplar Spec

/-- the data members agree, up to the addresses of labels -/
structure MapRel {τ ν ν' : Type} {L : NlmOps ν} {L' : NlmOps ν'} (S : NlmSim L L') (ρ : Nat → Nat → Prop) (m : Map τ ν) (n : Map τ ν') : Prop where
  ready : n.isReady = m.isReady
  lambda : n.lambda = m.lambda
  trie : n.trie = m.trie
  nlm : S.Rel ρ m.nlm n.nlm
  codes : n.codes = m.codes
  numCodes : n.numCodes = m.numCodes
  size : n.size = m.size
  numSteps : n.numSteps = m.numSteps

section
variable {τ ν ν' : Type} {cfg : MapCfg τ ν} {L' : NlmOps ν'} (S : NlmSim cfg.L L') {ρ : Nat → Nat → Prop}

/-- the configuration with the other label store -/
abbrev other (cfg : MapCfg τ ν) (L' : NlmOps ν') : MapCfg τ ν' := { T := cfg.T, L := L', dbg := cfg.dbg }

/-- what `update` returns -/
def UR (ρ : Nat → Nat → Prop) : UpdOut → UpdOut → Prop
  | .ptr l, .ptr l' => LR ρ l l'
  | .null, .null => True
  | .exn, .exn => True
  | _, _ => False

theorem mapDefault : MapRel S (fun _ _ => False) (Map.default cfg) (Map.default (other cfg L')) :=
  ⟨rfl, rfl, rfl, S.empty, rfl, rfl, rfl, rfl⟩

theorem mapMake (cb lam : Nat) : RR (MapRel S (fun _ _ => False)) (Map.make cfg cb lam) (Map.make (other cfg L') cb lam) := by
  unfold Map.make
  generalize wr (Array.replicate 256 255) 0 0 = z
  split
  · exact RR.err _
  · refine RR.same _ fun _ _ => RR.same _ fun t _ => (S.make _).bind fun x y _ r => RR.same _ fun c _ => ?_
    exact RR.ok ⟨rfl, rfl, rfl, r, rfl, rfl, rfl, rfl⟩

variable {S}

theorem makeSymb_eq {m : Map τ ν} {n : Map τ ν'} (r : MapRel S ρ m n) (c : UInt8) (k : Nat) :
    Map.makeSymb (other cfg L') n c k = Map.makeSymb cfg m c k := by
  unfold Map.makeSymb; rw [r.codes]

theorem findSteps_eq {m : Map τ ν} {n : Map τ ν'} (r : MapRel S ρ m n) : ∀ (fuel node k : Nat),
    Map.findSteps (other cfg L') n fuel node k = Map.findSteps cfg m fuel node k := by
  intro fuel
  induction fuel with
  | zero => intro node k; rfl
  | succ fuel ih =>
    intro node k
    unfold Map.findSteps
    rw [r.lambda, r.trie]
    simp only [ih]

theorem findLoop_sim {m : Map τ ν} {n : Map τ ν'} (r : MapRel S ρ m n) : ∀ (fuel node : Nat) (key : List UInt8),
    RR (OR ρ) (Map.findLoop cfg m fuel node key) (Map.findLoop (other cfg L') n fuel node key) := by
  intro fuel
  induction fuel with
  | zero => intro node key; exact RR.err _
  | succ fuel ih =>
    intro node key
    unfold Map.findLoop
    split
    · exact (S.compare r.nlm node key).bind fun x y _ h => RR.ok h.1
    · refine (S.compare r.nlm node key).bind fun x y hx h => ?_
      obtain ⟨v, k⟩ := x
      obtain ⟨v', k'⟩ := y
      obtain ⟨h, e⟩ := h
      dsimp only at e h ⊢
      subst e
      clear hx
      cases v <;> cases v'
      · dsimp only
        refine RR.same _ fun rest _ => ?_
        rw [findSteps_eq r]
        refine RR.same _ fun o _ => ?_
        cases o with
        | none => exact RR.ok trivial
        | some o =>
          obtain ⟨node, k⟩ := o
          dsimp only
          cases rest with
          | nil => exact RR.err _
          | cons c rest =>
            dsimp only
            rw [r.codes, makeSymb_eq r, r.trie]
            refine RR.same _ fun code _ => ?_
            split
            · exact RR.ok trivial
            · refine RR.same _ fun sy _ => RR.same _ fun nd _ => ?_
              split
              · exact RR.ok trivial
              · exact ih _ _
      · exact h.elim
      · exact h.elim
      · exact RR.ok h

theorem find_sim {m : Map τ ν} {n : Map τ ν'} (r : MapRel S ρ m n) (key : List UInt8) :
    RR (OR ρ) (Map.find cfg m key) (Map.find (other cfg L') n key) := by
  unfold Map.find
  rw [r.ready, r.trie]
  split
  · exact RR.err _
  · split
    · exact RR.ok trivial
    · exact RR.same _ fun _ _ => findLoop_sim r _ _ _

theorem expandIfNeeded_sim {m : Map τ ν} {n : Map τ ν'} (r : MapRel S ρ m n) (node : Nat) :
    RR (fun x y => ∃ ρ', Le ρ ρ' ∧ MapRel S ρ' x.1 y.1 ∧ x.2 = y.2) (Map.expandIfNeeded cfg m node)
      (Map.expandIfNeeded (other cfg L') n node) := by
  unfold Map.expandIfNeeded
  rw [r.trie]
  dsimp only
  cases cfg.T.kind with
  | fkhash => exact RR.ok ⟨ρ, Le.refl _, r, rfl⟩
  | bonsai =>
    dsimp only
    split
    · exact RR.ok ⟨ρ, Le.refl _, r, rfl⟩
    · refine RR.same _ fun x _ => RR.same _ fun _ _ => (S.expand r.nlm _).bind fun _ _ _ h => ?_
      obtain ⟨ρ', le, h⟩ := h
      exact RR.ok ⟨ρ', le, ⟨r.ready, r.lambda, rfl, h, r.codes, r.numCodes, r.size, r.numSteps⟩, rfl⟩

theorem updSteps_sim : ∀ (fuel : Nat) {ρ : Nat → Nat → Prop} {m : Map τ ν} {n : Map τ ν'}, MapRel S ρ m n → ∀ (node k : Nat),
    RR (fun x y => ∃ ρ', Le ρ ρ' ∧ MapRel S ρ' x.1 y.1 ∧ x.2 = y.2) (Map.updSteps cfg fuel m node k)
      (Map.updSteps (other cfg L') fuel n node k) := by
  intro fuel
  induction fuel with
  | zero => intro ρ m n r node k; exact RR.err _
  | succ fuel ih =>
    intro ρ m n r node k
    unfold Map.updSteps
    rw [r.lambda, r.trie]
    split
    · refine RR.same _ fun x _ => ?_
      obtain ⟨t, nd, isNew⟩ := x
      have r1 : MapRel S ρ { m with trie := t } { n with trie := t, lambda := m.lambda } :=
        ⟨r.ready, rfl, rfl, r.nlm, r.codes, r.numCodes, r.size, r.numSteps⟩
      cases isNew with
      | false => exact ih r1 _ _
      | true =>
        refine (expandIfNeeded_sim r1 nd).bind fun x y _ h => ?_
        obtain ⟨m2, nd⟩ := x
        obtain ⟨n2, nd'⟩ := y
        obtain ⟨ρ2, le2, r2, e⟩ := h
        dsimp only at e r2 ⊢
        subst e
        rw [r2.lambda]
        have r3 : MapRel S ρ2 { m2 with numSteps := m2.numSteps + 1 } { n2 with numSteps := n2.numSteps + 1, lambda := m2.lambda } :=
          ⟨r2.ready, rfl, r2.trie, r2.nlm, r2.codes, r2.numCodes, r2.size, by simp [r2.numSteps]⟩
        cases cfg.T.kind with
        | fkhash =>
          dsimp only
          refine assert_same (by rw [S.size r2.nlm]) ?_
          refine (S.appendDummy r2.nlm).bind fun x y _ h => ?_
          obtain ⟨ρ3, le3, h⟩ := h
          exact (ih (m := { m2 with numSteps := m2.numSteps + 1, nlm := x }) (n := { n2 with numSteps := n2.numSteps + 1, nlm := y, lambda := m2.lambda })
            ⟨r3.ready, r3.lambda, r3.trie, h, r3.codes, r3.numCodes, r3.size, r3.numSteps⟩ nd (k - m2.lambda)).mono
              fun _ _ ⟨ρ4, le4, h⟩ => ⟨ρ4, le2.trans (le3.trans le4), h⟩
        | bonsai => exact (ih r3 nd (k - m2.lambda)).mono fun _ _ ⟨ρ4, le4, h⟩ => ⟨ρ4, le2.trans le4, h⟩
    · exact RR.ok ⟨ρ, Le.refl _, r, rfl⟩

theorem putLabel_sim {m : Map τ ν} {n : Map τ ν'} (r : MapRel S ρ m n) (node : Nat) (key : List UInt8) :
    RR (fun x y => ∃ ρ', Le ρ ρ' ∧ MapRel S ρ' x.1 y.1 ∧ UR ρ' x.2 y.2) (Map.putLabel cfg m node key)
      (Map.putLabel (other cfg L') n node key) := by
  unfold Map.putLabel
  dsimp only
  cases cfg.T.kind with
  | fkhash =>
    refine (S.append r.nlm key).bind fun x y _ h => ?_
    obtain ⟨ρ', le, h, l⟩ := h
    exact RR.ok ⟨ρ', le, ⟨r.ready, r.lambda, r.trie, h, r.codes, r.numCodes, r.size, r.numSteps⟩, l⟩
  | bonsai =>
    refine (S.insert r.nlm node key).bind fun x y _ h => ?_
    obtain ⟨ρ', le, h, l⟩ := h
    exact RR.ok ⟨ρ', le, ⟨r.ready, r.lambda, r.trie, h, r.codes, r.numCodes, r.size, r.numSteps⟩, l⟩

/-- the end of the body of the main loop of `update` -/
abbrev updTail (cfg : MapCfg τ ν) (fuel : Nat) (b : Bool) (m : Map τ ν) (node : Nat) (c : UInt8) (k : Nat) (rest : List UInt8) :
    R (Map τ ν × UpdOut) := do
  if b && 255 = m.numCodes then pure (m, .exn)
  else
    let (trie, node, isNew) ← cfg.T.addChild m.trie node (← Map.makeSymb cfg m c k)
    let m := { m with trie := trie }
    if isNew then
      let (m, node) ← Map.expandIfNeeded cfg m node
      let m := { m with size := m.size + 1 }
      R.assert (cfg.T.kind = .bonsai || node = cfg.L.size m.nlm)
      Map.putLabel cfg m node rest
    else Map.updLoop cfg fuel m node rest

theorem updTail_sim (fuel : Nat) (ih : ∀ {ρ : Nat → Nat → Prop} {m : Map τ ν} {n : Map τ ν'}, MapRel S ρ m n → ∀ (node : Nat) (key : List UInt8),
      RR (fun x y => ∃ ρ', Le ρ ρ' ∧ MapRel S ρ' x.1 y.1 ∧ UR ρ' x.2 y.2) (Map.updLoop cfg fuel m node key)
        (Map.updLoop (other cfg L') fuel n node key)) (b : Bool) {m : Map τ ν} {n : Map τ ν'} (r2 : MapRel S ρ m n) (node : Nat) (c : UInt8)
    (k : Nat) (rest : List UInt8) :
    RR (fun x y => ∃ ρ', Le ρ ρ' ∧ MapRel S ρ' x.1 y.1 ∧ UR ρ' x.2 y.2) (updTail cfg fuel b m node c k rest)
      (updTail (other cfg L') fuel b n node c k rest) := by
  unfold updTail
  rw [r2.numCodes]
  split
  · exact RR.ok ⟨ρ, Le.refl _, r2, trivial⟩
  · rw [makeSymb_eq r2, r2.trie]
    refine RR.same _ fun sy _ => RR.same _ fun x _ => ?_
    obtain ⟨t, nd, isNew⟩ := x
    have r3 : MapRel S ρ { m with trie := t } { n with trie := t, numCodes := m.numCodes } :=
      ⟨r2.ready, r2.lambda, rfl, r2.nlm, r2.codes, rfl, r2.size, r2.numSteps⟩
    cases isNew with
    | false => exact ih r3 _ _
    | true =>
      refine (expandIfNeeded_sim r3 nd).bind fun x y _ h => ?_
      obtain ⟨m4, nd⟩ := x
      obtain ⟨n4, nd'⟩ := y
      obtain ⟨ρ4, le4, r4, e⟩ := h
      dsimp only at e r4 ⊢
      subst e
      refine assert_same (by rw [S.size r4.nlm]) ?_
      have r5 : MapRel S ρ4 { m4 with size := m4.size + 1 } { n4 with size := n4.size + 1 } :=
        ⟨r4.ready, r4.lambda, r4.trie, r4.nlm, r4.codes, r4.numCodes, by simp [r4.size], r4.numSteps⟩
      exact (putLabel_sim r5 nd rest).mono fun _ _ ⟨ρ5, le5, h⟩ => ⟨ρ5, le4.trans le5, h⟩

theorem updLoop_sim : ∀ (fuel : Nat) {ρ : Nat → Nat → Prop} {m : Map τ ν} {n : Map τ ν'}, MapRel S ρ m n → ∀ (node : Nat) (key : List UInt8),
    RR (fun x y => ∃ ρ', Le ρ ρ' ∧ MapRel S ρ' x.1 y.1 ∧ UR ρ' x.2 y.2) (Map.updLoop cfg fuel m node key)
      (Map.updLoop (other cfg L') fuel n node key) := by
  intro fuel
  induction fuel with
  | zero => intro ρ m n r node key; exact RR.err _
  | succ fuel ih =>
    intro ρ m n r node key
    unfold Map.updLoop
    split
    · refine (S.compare r.nlm node key).bind fun x y hx h => ?_
      obtain ⟨v, k⟩ := x
      obtain ⟨v', k'⟩ := y
      obtain ⟨h, e⟩ := h
      dsimp only at e h ⊢
      clear hx
      cases v <;> cases v'
      · exact RR.ok ⟨ρ, Le.refl _, r, trivial⟩
      · exact h.elim
      · exact h.elim
      · exact RR.ok ⟨ρ, Le.refl _, r, h⟩
    · refine (S.compare r.nlm node key).bind fun x y hx h => ?_
      obtain ⟨v, k⟩ := x
      obtain ⟨v', k'⟩ := y
      obtain ⟨h, e⟩ := h
      dsimp only at e h ⊢
      subst e
      clear hx
      cases v <;> cases v'
      · dsimp only
        refine RR.same _ fun rest _ => (updSteps_sim _ r node k).bind fun x y _ h => ?_
        obtain ⟨m1, x⟩ := x
        obtain ⟨n1, y⟩ := y
        obtain ⟨ρ1, le1, r1, e⟩ := h
        dsimp only at e r1
        subst e
        obtain ⟨nd, k1⟩ := x
        dsimp only
        cases rest with
        | nil => exact RR.err _
        | cons c rest =>
          dsimp only
          rw [r1.codes]
          refine RR.same _ fun code _ => ?_
          split
          · rw [r1.numCodes]
            refine RR.same _ fun cs _ => ?_
            refine (updTail_sim (m := { m1 with codes := cs, numCodes := m1.numCodes + 1 }) (n := { n1 with codes := cs, numCodes := m1.numCodes + 1 })
              fuel ih _ ⟨r1.ready, r1.lambda, r1.trie, r1.nlm, rfl, rfl, r1.size, r1.numSteps⟩ nd c k1 rest).mono
              fun _ _ ⟨ρ4, le4, h⟩ => ⟨ρ4, le1.trans le4, h⟩
          · exact (updTail_sim fuel ih _ r1 nd c k1 rest).mono fun _ _ ⟨ρ4, le4, h⟩ => ⟨ρ4, le1.trans le4, h⟩
      · exact h.elim
      · exact h.elim
      · exact RR.ok ⟨ρ, Le.refl _, r, h⟩

/-- the insertion of the first key -/
abbrev firstTail (cfg : MapCfg τ ν) (key : List UInt8) (m : Map τ ν) : R (Map τ ν × UpdOut) := do
  let m := { m with size := m.size + 1 }
  let trie ← cfg.T.addRoot m.trie
  let m := { m with trie := trie }
  let node ← cfg.T.getRoot m.trie
  Map.putLabel cfg m node key

theorem firstTail_sim {m : Map τ ν} {n : Map τ ν'} (r1 : MapRel S ρ m n) (key : List UInt8) :
    RR (fun x y => ∃ ρ', Le ρ ρ' ∧ MapRel S ρ' x.1 y.1 ∧ UR ρ' x.2 y.2) (firstTail cfg key m) (firstTail (other cfg L') key n) := by
  unfold firstTail
  dsimp only
  rw [r1.trie]
  refine RR.same _ fun t _ => RR.same _ fun nd _ => ?_
  have r2 : MapRel S ρ { m with size := m.size + 1, trie := t } { n with size := n.size + 1, trie := t } :=
    ⟨r1.ready, r1.lambda, rfl, r1.nlm, r1.codes, r1.numCodes, by simp [r1.size], r1.numSteps⟩
  exact putLabel_sim r2 nd key

set_option maxRecDepth 8000 in
theorem update_sim {m : Map τ ν} {n : Map τ ν'} (r : MapRel S ρ m n) (key : List UInt8) :
    RR (fun x y => ∃ ρ', (m.isReady = true → Le ρ ρ') ∧ MapRel S ρ' x.1 y.1 ∧ UR ρ' x.2 y.2) (Map.update cfg m key) (Map.update (other cfg L') n key) := by
  unfold Map.update
  rw [r.ready, r.trie]
  split
  · exact RR.ok ⟨ρ, fun _ => Le.refl _, r, trivial⟩
  · split
    · have hm := mapMake S 0 32
      split
      next hn =>
        refine RR.bind hm ?_
        intro x y _ h
        exact (firstTail_sim h key).mono fun _ _ ⟨ρ5, _, h⟩ => ⟨ρ5, fun hr => by rw [hr] at hn; exact absurd hn (by decide), h⟩
      next => exact (firstTail_sim r key).mono fun _ _ ⟨ρ5, le, h⟩ => ⟨ρ5, fun _ => le, h⟩
    · exact RR.same _ fun nd _ => (updLoop_sim _ r nd key).mono fun _ _ ⟨ρ5, le, h⟩ => ⟨ρ5, fun _ => le, h⟩

theorem load_sim {m : Map τ ν} {n : Map τ ν'} (r : MapRel S ρ m n) {l l' : Loc} (h : LR ρ l l') :
    RR Eq (Map.load cfg m l) (Map.load (other cfg L') n l') := S.load r.nlm h

theorem store_sim {m : Map τ ν} {n : Map τ ν'} (r : MapRel S ρ m n) {l l' : Loc} (h : LR ρ l l') (v : List UInt8) :
    RR (MapRel S ρ) (Map.store cfg m l v) (Map.store (other cfg L') n l' v) :=
  (S.store r.nlm h v).bind fun _ _ _ h => RR.ok ⟨r.ready, r.lambda, r.trie, h, r.codes, r.numCodes, r.size, r.numSteps⟩

theorem exec_sim {m : Map τ ν} {n : Map τ ν'} (r : MapRel S ρ m n) (o : Op) :
    RR (fun x y => (∃ ρ', (m.isReady = true → Le ρ ρ') ∧ MapRel S ρ' x.1 y.1) ∧ x.2 = y.2) (Map.exec cfg m o) (Map.exec (other cfg L') n o) := by
  have le0 : m.isReady = true → Le ρ ρ := fun _ => Le.refl _
  cases o with
  | find k =>
    simp only [Map.exec]
    have h := find_sim r k
    cases e : Map.find cfg m k with
    | error f =>
      rw [e] at h
      rcases h with h | h
      · subst h; exact RR.oob _
      · rw [h]
        cases f
        case throw => exact RR.ok ⟨⟨ρ, le0, r⟩, rfl⟩
        all_goals exact RR.err _
    | ok o =>
      rw [e] at h
      obtain ⟨o', e', h⟩ := h
      rw [e']
      cases o <;> cases o'
      · exact RR.ok ⟨⟨ρ, le0, r⟩, rfl⟩
      · exact h.elim
      · exact h.elim
      · exact (load_sim r h).bind fun x y _ e => RR.ok ⟨⟨ρ, le0, r⟩, by rw [e]⟩
  | update k =>
    unfold Map.exec
    refine (update_sim r k).bind fun x y hx h => ?_
    obtain ⟨m1, u⟩ := x
    obtain ⟨n1, u'⟩ := y
    obtain ⟨ρ1, le1, r1, h⟩ := h
    dsimp only at h r1 ⊢
    clear hx
    cases u <;> cases u' <;> try exact h.elim
    · exact (load_sim r1 h).bind fun x y _ e => RR.ok ⟨⟨_, le1, r1⟩, by rw [e]⟩
    · exact RR.ok ⟨⟨_, le1, r1⟩, rfl⟩
    · exact RR.ok ⟨⟨_, le1, r1⟩, rfl⟩
  | write k v =>
    unfold Map.exec
    refine (update_sim r k).bind fun x y hx h => ?_
    obtain ⟨m1, u⟩ := x
    obtain ⟨n1, u'⟩ := y
    obtain ⟨ρ1, le1, r1, h⟩ := h
    dsimp only at h r1 ⊢
    clear hx
    cases u <;> cases u' <;> try exact h.elim
    · exact (store_sim r1 h v).bind fun x y _ e => RR.ok ⟨⟨_, le1, e⟩, rfl⟩
    · exact RR.ok ⟨⟨_, le1, r1⟩, rfl⟩
    · exact RR.ok ⟨⟨_, le1, r1⟩, rfl⟩
  | size =>
    show RR _ (.ok (m, Out.count m.size)) (.ok (n, Out.count n.size))
    exact RR.ok ⟨⟨ρ, le0, r⟩, by rw [r.size]⟩

/-- nothing but that calls have results -/
theorem evoTrue (L : NlmOps ν) : Evo L (fun _ => True) (fun _ _ => True) :=
  ⟨fun _ => trivial, fun _ _ => trivial, trivial, fun _ => ⟨trivial, trivial⟩, fun _ _ => ⟨trivial, trivial⟩, fun _ _ => ⟨trivial, trivial⟩,
    fun _ _ => ⟨trivial, trivial⟩, fun _ _ => ⟨trivial, trivial⟩, fun _ _ => ⟨trivial, trivial⟩⟩

theorem update_ready {m m' : Map τ ν} {k : List UInt8} {u : UpdOut} (hr : m.isReady = true) (h : Map.update cfg m k = .ok (m', u)) :
    m'.isReady = true := by
  unfold Map.update at h
  split at h
  · cases h; exact hr
  · split at h
    · rw [hr] at h
      simp only [Bool.not_true, Bool.false_eq_true, if_false, R.pure_eq, R.bind_ok] at h
      obtain ⟨t, _, h⟩ := R.bind_eq_ok h
      obtain ⟨v, _, h⟩ := R.bind_eq_ok h
      obtain ⟨_, _, q3, _⟩ := Map.putLabel_evo (evoTrue cfg.L) (m := { m with size := m.size + 1, trie := t }) trivial h
      exact q3.trans hr
    · obtain ⟨v, _, h⟩ := R.bind_eq_ok h
      rcases Map.updLoop_evo (evoTrue cfg.L) _ trivial h with q | q
      · exact q.2.2.1.trans hr
      · exact q.2.2.1.trans hr

theorem exec_ready {m m' : Map τ ν} {o : Op} {x : Out} (hr : m.isReady = true) (h : Map.exec cfg m o = .ok (m', x)) :
    m'.isReady = true := by
  cases o with
  | find k =>
    simp only [Map.exec] at h
    split at h
    · cases h; exact hr
    · cases h
    · cases h; exact hr
    · obtain ⟨v, _, h⟩ := R.bind_eq_ok h
      cases h; exact hr
  | size => cases h; exact hr
  | update k =>
    obtain ⟨⟨m1, u⟩, h1, h⟩ := R.bind_eq_ok h
    have q := update_ready hr h1
    dsimp only at h
    split at h
    · obtain ⟨v, _, h⟩ := R.bind_eq_ok h
      cases h; exact q
    · cases h; exact q
    · cases h; exact q
  | write k v =>
    obtain ⟨⟨m1, u⟩, h1, h⟩ := R.bind_eq_ok h
    have q := update_ready hr h1
    dsimp only at h
    split at h
    · obtain ⟨m2, h2, h⟩ := R.bind_eq_ok h
      cases h
      obtain ⟨n, h3, h2⟩ := R.bind_eq_ok h2
      cases h2
      exact q
    · cases h; exact q
    · cases h; exact q

theorem run_sim : ∀ (os : List Op) {ρ : Nat → Nat → Prop} {m : Map τ ν} {n : Map τ ν'}, MapRel S ρ m n →
    RR (fun x y => (∃ ρ', (m.isReady = true → Le ρ ρ') ∧ MapRel S ρ' x.1 y.1) ∧ x.2 = y.2) (Map.run cfg m os) (Map.run (other cfg L') n os) := by
  intro os
  induction os with
  | nil => intro ρ m n r; exact RR.ok ⟨⟨ρ, fun _ => Le.refl _, r⟩, rfl⟩
  | cons o os ih =>
    intro ρ m n r
    refine (exec_sim r o).bind fun x y hx h => ?_
    obtain ⟨⟨ρ1, le1, r1⟩, e⟩ := h
    refine (ih r1).bind fun x' y' _ h => ?_
    obtain ⟨⟨ρ2, le2, r2⟩, e1⟩ := h
    exact RR.ok ⟨⟨ρ2, fun hr => (le1 hr).trans (le2 (exec_ready hr hx)), r2⟩, by rw [e, e1]⟩

end

/-- the label store of an alias on the flat memory simulates that on the abstract heap -/
def aliasSim (E : Env) (a : Alias) (p : Params) : NlmSim (a.cfg p).L (a.physL E p) :=
  match a with
  | .plainBonsai => pbSim E p.valSize
  | .semiCompactBonsai | .compactBonsai => cbSim E p.chunkSize p.valSize
  | .plainFkhash => pfSim E p.valSize
  | .semiCompactFkhash | .compactFkhash => cfSim E p.chunkSize p.valSize

theorem physCfg_eq (E : Env) (a : Alias) (p : Params) : a.physCfg E p = other (a.cfg p) (a.physL E p) := by
  cases a <;> rfl

theorem new_sim (E : Env) (a : Alias) (p : Params) (i : Init) :
    RR (MapRel (aliasSim E a p) (fun _ _ => False)) (a.new p i) (a.physNew E p i) := by
  cases i with
  | default =>
    show RR _ (.ok (Map.default (a.cfg p))) (.ok (Map.default (a.physCfg E p)))
    rw [physCfg_eq]
    exact RR.ok (mapDefault _)
  | make cb lam =>
    show RR _ (Map.make (a.cfg p) cb lam) (Map.make (a.physCfg E p) cb lam)
    rw [physCfg_eq]
    exact mapMake _ cb lam

/-- the memories of related maps -/
theorem aliasSim_heap (E : Env) (a : Alias) (p : Params) {ρ : Nat → Nat → Prop} {m : a.Nlm} {n : a.PNlm} (r : (aliasSim E a p).Rel ρ m n) :
    Sim ρ (a.heap m) (a.physHeap n) := by
  cases a with
  | plainBonsai => exact PbRel.heap r
  | semiCompactBonsai => exact CbRel.heap r
  | compactBonsai => exact CbRel.heap r
  | plainFkhash => exact PfRel.heap r
  | semiCompactFkhash => exact CfRel.heap r
  | compactFkhash => exact CfRel.heap r

theorem ar_some {ρ : Nat → Nat → Prop} {x y : Array Nat} (h : AR ρ x y) : List.Forall₂ (PR ρ) (x.toList.map some) (y.toList.map some) := by
  have := h.forall₂
  rw [List.forall₂_map_left_iff, List.forall₂_map_right_iff]
  exact this

/-- destroying related maps -/
theorem aliasSim_destroy (E : Env) (a : Alias) (p : Params) {ρ : Nat → Nat → Prop} {m : a.Nlm} {n : a.PNlm} (r : (aliasSim E a p).Rel ρ m n) :
    RR (Sim ρ) (a.destroy m) (a.physDestroy n) := by
  cases a with
  | plainBonsai => exact freeAll (PbRel.ptrs r).forall₂ (PbRel.heap r)
  | semiCompactBonsai => exact freeAll (CbRel.ptrs r).forall₂ (CbRel.heap r)
  | compactBonsai => exact freeAll (CbRel.ptrs r).forall₂ (CbRel.heap r)
  | plainFkhash => exact freeAll (PfRel.ptrs r).forall₂ (PfRel.heap r)
  | semiCompactFkhash => exact freeAll (ar_some (CfRel.ptrs r)) (CfRel.heap r)
  | compactFkhash => exact freeAll (ar_some (CfRel.ptrs r)) (CfRel.heap r)

theorem Sim.live_nil {ρ : Nat → Nat → Prop} {h : Poplar.Heap} {f : Heap} (s : Sim ρ h f) (e : h.live = []) : f.live = [] := by
  by_contra hc
  obtain ⟨⟨q, k⟩, hq⟩ := List.exists_mem_of_ne_nil _ hc
  have : f.B q ≠ none := by
    unfold Heap.B Heap.sizeAt
    cases hf : f.live.find? (fun e => e.1 == q) with
    | some x => simp
    | none =>
      rw [List.find?_eq_none] at hf
      exact absurd (hf _ hq) (by simp)
  obtain ⟨a, _, ha⟩ := s.cov q this
  apply ha
  unfold Poplar.Heap.live at e
  rw [List.filterMap_eq_nil_iff] at e
  unfold Poplar.Heap.B
  cases hb : h.blocks[a]? with
  | none => rfl
  | some x => exact e x (by rw [Array.mem_toList_iff]; exact Array.mem_of_getElem? hb)

end Poplar.Phys
