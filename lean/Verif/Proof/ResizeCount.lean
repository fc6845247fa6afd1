import Verif.Proof.Aliases
import Verif.Model.MapRun
import Verif.Proof.Evolve
import Verif.Proof.Basic
/-
  Statistics of `POPLAR_EXTRA_STATS`: `num_resize()` counts how often the hash table has been doubled. An
  argument on the control flow alone: what a successful call may do to the trie.
-/
namespace Poplar
open Spec (Op Out)

theorem probe_body {α : Type} {mask : Nat} {body : Nat → Nat → R (Option α)} : ∀ {fuel i c : Nat} {a : α},
    probe mask body fuel i c = .ok a → ∃ i c, body i c = .ok (some a) := by
  intro fuel
  induction fuel with
  | zero => intro i c a h; cases h
  | succ fuel ih =>
    intro i c a h
    unfold probe at h
    obtain ⟨x, h1, h⟩ := R.bind_eq_ok h
    cases x with
    | some b => cases h; exact ⟨_, _, h1⟩
    | none => exact ih h

theorem descend_inv {σ τ : Type} {setMap : σ → Nat → Nat → R σ} {add : τ → Nat → Nat → R (τ × Nat × Bool)} {Q : τ → Prop}
    (hadd : ∀ {t v s x}, Q t → add t v s = .ok x → Q x.1) : ∀ (path : List (Nat × Nat)) {s t d v s' t' d'}, Q t →
    descend setMap add path s t d v = .ok (s', t', d') → Q t' := by
  intro path
  induction path with
  | nil => intro s t d v s' t' d' hq h; cases h; exact hq
  | cons x path ih =>
    intro s t d v s' t' d' hq h
    obtain ⟨node, label⟩ := x
    obtain ⟨⟨t1, v1, b⟩, h1, h⟩ := R.bind_eq_ok h
    obtain ⟨s1, _, h⟩ := R.bind_eq_ok h
    obtain ⟨d1, _, h⟩ := R.bind_eq_ok h
    exact ih (hadd hq h1) h

theorem expandLoop_inv {σ τ : Type} {isE : σ → Nat → R Bool} {par : σ → Nat → R (Nat × Nat)} {getM : σ → Nat → R Nat}
    {setMap : σ → Nat → Nat → R σ} {add : τ → Nat → Nat → R (τ × Nat × Bool)} {fuel : Nat} {Q : τ → Prop}
    (hadd : ∀ {t v s x}, Q t → add t v s = .ok x → Q x.1) : ∀ (n : Nat) {i s t d s' t' d'}, Q t →
    expandLoop isE par getM setMap add fuel n i s t d = .ok (s', t', d') → Q t' := by
  intro n
  induction n with
  | zero => intro i s t d s' t' d' hq h; cases h; exact hq
  | succ n ih =>
    intro i s t d s' t' d' hq h
    unfold expandLoop at h
    obtain ⟨x, _, h⟩ := R.bind_eq_ok h
    have cont : ∀ skip : Bool, (if skip = true then expandLoop isE par getM setMap add fuel n (i + 1) s t d
        else do
          let y ← climb (par s) d fuel i []
          let newNode ← getM s y.1
          let z ← descend setMap add y.2 s t d newNode
          expandLoop isE par getM setMap add fuel n (i + 1) z.1 z.2.1 z.2.2) = .ok (s', t', d') → Q t' := by
      intro skip h
      split at h
      · exact ih hq h
      · obtain ⟨y, _, h⟩ := R.bind_eq_ok h
        obtain ⟨w, _, h⟩ := R.bind_eq_ok h
        obtain ⟨⟨s1, t1, d1⟩, h1, h⟩ := R.bind_eq_ok h
        exact ih (descend_inv hadd _ hq h1) h
    split at h
    · exact cont true h
    · obtain ⟨b, _, h⟩ := R.bind_eq_ok h
      exact cont b h

/-- Every successful call keeps the difference of `capa_bits()` and `num_resize()`; `b0` is `capa_bits()` of
the new trie. -/
structure TrieOps.Counts {τ : Type} (ops : TrieOps τ) (minb : Nat) (Q : Nat → τ → Prop) : Prop where
  out : ∀ {b0 t}, Q b0 t → ops.capaBits t = b0 + ops.numResize t
  make : ∀ {cb sb t}, ops.make cb sb = .ok t → Q (max minb cb) t
  root : ∀ {b0 t t'}, Q b0 t → ops.addRoot t = .ok t' → Q b0 t'
  add : ∀ {b0 t v s x}, Q b0 t → ops.addChild t v s = .ok x → Q b0 x.1
  expand : ops.kind = .bonsai → ∀ {b0 t x}, Q b0 t → ops.expand t = .ok x → Q b0 x.1

theorem SizeP2.make_bits {b : Nat} {s : SizeP2} (h : SizeP2.make b = .ok s) : s.bits = b := by
  unfold SizeP2.make at h
  split at h <;> cases h
  rfl

namespace PlainBonsai

def Cnt (cfg : PlainCfg) (b0 : Nat) (t : PlainBonsai) : Prop := cfg.minCapaBits ≤ b0 ∧ t.capa.bits = b0 + t.numResize

theorem make_cnt {cfg : PlainCfg} {cb sb : Nat} {t : PlainBonsai} (h : make cfg cb sb = .ok t) :
    t.capa.bits = max cfg.minCapaBits cb ∧ t.numResize = 0 := by
  obtain ⟨c, h1, h⟩ := R.bind_eq_ok h
  obtain ⟨s, _, h⟩ := R.bind_eq_ok h
  obtain ⟨v, _, h⟩ := R.bind_eq_ok h
  cases h
  exact ⟨SizeP2.make_bits h1, rfl⟩

theorem addRoot_cnt {t t' : PlainBonsai} (h : t.addRoot = .ok t') : t'.capa = t.capa ∧ t'.numResize = t.numResize := by
  obtain ⟨_, _, h⟩ := R.bind_eq_ok h
  cases h
  exact ⟨rfl, rfl⟩

theorem addChild_cnt {cfg : PlainCfg} {t : PlainBonsai} {v s : Nat} {x : PlainBonsai × Nat × Bool}
    (h : addChild cfg t v s = .ok x) : x.1.capa = t.capa ∧ x.1.numResize = t.numResize := by
  obtain ⟨_, _, h⟩ := R.bind_eq_ok h
  obtain ⟨_, _, h⟩ := R.bind_eq_ok h
  obtain ⟨_, _, h⟩ := R.bind_eq_ok h
  obtain ⟨i, c, h⟩ := probe_body h
  unfold addBody at h
  split at h
  · cases h
  · obtain ⟨_, _, h⟩ := R.bind_eq_ok h
    split at h
    · cases h
    · obtain ⟨_, _, h⟩ := R.bind_eq_ok h
      split at h
      · split at h
        · cases h; exact ⟨rfl, rfl⟩
        · obtain ⟨_, _, h⟩ := R.bind_eq_ok h
          cases h; exact ⟨rfl, rfl⟩
      · obtain ⟨_, _, h⟩ := R.bind_eq_ok h
        split at h
        · cases h; exact ⟨rfl, rfl⟩
        · cases h

theorem counts (cfg : PlainCfg) : (ops cfg).Counts cfg.minCapaBits (Cnt cfg) where
  out := fun h => h.2
  make := by
    intro cb sb t h
    obtain ⟨h1, h2⟩ := make_cnt h
    exact ⟨by omega, by omega⟩
  root := by
    intro b0 t t' hq h
    obtain ⟨h1, h2⟩ := addRoot_cnt h
    unfold Cnt; rw [h1, h2]; exact hq
  add := by
    intro b0 t v s x hq h
    obtain ⟨h1, h2⟩ := addChild_cnt h
    unfold Cnt; rw [h1, h2]; exact hq
  expand := by
    intro _ b0 t x hq h
    obtain ⟨n0, h0, h⟩ := R.bind_eq_ok h
    obtain ⟨n1, h1, h⟩ := R.bind_eq_ok h
    dsimp only at h
    obtain ⟨_, _, h⟩ := R.bind_eq_ok h
    obtain ⟨_, _, h⟩ := R.bind_eq_ok h
    obtain ⟨_, _, h⟩ := R.bind_eq_ok h
    obtain ⟨_, _, h⟩ := R.bind_eq_ok h
    obtain ⟨_, _, h⟩ := R.bind_eq_ok h
    obtain ⟨⟨s', t', d'⟩, h2, h⟩ := R.bind_eq_ok h
    cases h
    obtain ⟨a1, a2⟩ := make_cnt h0
    obtain ⟨b1, b2⟩ := addRoot_cnt h1
    refine expandLoop_inv (Q := Cnt cfg b0) ?_ _ ?_ h2
    · intro t v s x hq h
      obtain ⟨h1, h2⟩ := addChild_cnt h
      unfold Cnt; rw [h1, h2]; exact hq
    · obtain ⟨q1, q2⟩ := hq
      exact ⟨q1, by dsimp only; rw [b1, a1]; omega⟩

end PlainBonsai

namespace CompactBonsai

def Cnt (cfg : CompactCfg) (b0 : Nat) (t : CompactBonsai) : Prop := cfg.minCapaBits ≤ b0 ∧ t.capa.bits = b0 + t.numResize

theorem make_cnt {cfg : CompactCfg} {cb sb : Nat} {t : CompactBonsai} (h : make cfg cb sb = .ok t) :
    t.capa.bits = max cfg.minCapaBits cb ∧ t.numResize = 0 := by
  obtain ⟨c, h1, h⟩ := R.bind_eq_ok h
  obtain ⟨s, _, h⟩ := R.bind_eq_ok h
  split at h
  · obtain ⟨_, _, h⟩ := R.bind_eq_ok h
    obtain ⟨_, _, h⟩ := R.bind_eq_ok h
    cases h
    exact ⟨SizeP2.make_bits h1, rfl⟩
  · cases h

theorem addRoot_cnt {t t' : CompactBonsai} (h : t.addRoot = .ok t') : t'.capa = t.capa ∧ t'.numResize = t.numResize := by
  obtain ⟨_, _, h⟩ := R.bind_eq_ok h
  cases h
  exact ⟨rfl, rfl⟩

theorem addChild_cnt {cfg : CompactCfg} {t : CompactBonsai} {v s : Nat} {x : CompactBonsai × Nat × Bool}
    (h : addChild cfg t v s = .ok x) : x.1.capa = t.capa ∧ x.1.numResize = t.numResize := by
  obtain ⟨_, _, h⟩ := R.bind_eq_ok h
  obtain ⟨_, _, h⟩ := R.bind_eq_ok h
  obtain ⟨_, _, h⟩ := R.bind_eq_ok h
  obtain ⟨i, c, h⟩ := probe_body h
  unfold addBody at h
  obtain ⟨_, _, h⟩ := R.bind_eq_ok h
  split at h
  · cases h
  · obtain ⟨_, _, h⟩ := R.bind_eq_ok h
    split at h
    · split at h
      · cases h; exact ⟨rfl, rfl⟩
      · obtain ⟨_, _, h⟩ := R.bind_eq_ok h
        cases h; exact ⟨rfl, rfl⟩
    · obtain ⟨_, _, h⟩ := R.bind_eq_ok h
      obtain ⟨_, _, h⟩ := R.bind_eq_ok h
      split at h
      · cases h; exact ⟨rfl, rfl⟩
      · cases h

theorem counts (cfg : CompactCfg) : (ops cfg).Counts cfg.minCapaBits (Cnt cfg) where
  out := fun h => h.2
  make := by
    intro cb sb t h
    obtain ⟨h1, h2⟩ := make_cnt h
    exact ⟨by omega, by omega⟩
  root := by
    intro b0 t t' hq h
    obtain ⟨h1, h2⟩ := addRoot_cnt h
    unfold Cnt; rw [h1, h2]; exact hq
  add := by
    intro b0 t v s x hq h
    obtain ⟨h1, h2⟩ := addChild_cnt h
    unfold Cnt; rw [h1, h2]; exact hq
  expand := by
    intro _ b0 t x hq h
    obtain ⟨n0, h0, h⟩ := R.bind_eq_ok h
    obtain ⟨n1, h1, h⟩ := R.bind_eq_ok h
    dsimp only at h
    obtain ⟨_, _, h⟩ := R.bind_eq_ok h
    obtain ⟨_, _, h⟩ := R.bind_eq_ok h
    obtain ⟨_, _, h⟩ := R.bind_eq_ok h
    obtain ⟨_, _, h⟩ := R.bind_eq_ok h
    obtain ⟨⟨s', t', d'⟩, h2, h⟩ := R.bind_eq_ok h
    cases h
    obtain ⟨a1, a2⟩ := make_cnt h0
    obtain ⟨b1, b2⟩ := addRoot_cnt h1
    refine expandLoop_inv (Q := Cnt cfg b0) ?_ _ ?_ h2
    · intro t v s x hq h
      obtain ⟨h1, h2⟩ := addChild_cnt h
      unfold Cnt; rw [h1, h2]; exact hq
    · obtain ⟨q1, q2⟩ := hq
      exact ⟨q1, by dsimp only; rw [b1, a1]; omega⟩

end CompactBonsai

namespace PlainFk

def Cnt (cfg : PlainFkCfg) (b0 : Nat) (t : PlainFk) : Prop := cfg.minCapaBits ≤ b0 ∧ t.capa.bits = b0 + t.numResize

theorem make_cnt {cfg : PlainFkCfg} {cb sb : Nat} {t : PlainFk} (h : make cfg cb sb = .ok t) :
    t.capa.bits = max cfg.minCapaBits cb ∧ t.numResize = 0 := by
  obtain ⟨c, h1, h⟩ := R.bind_eq_ok h
  obtain ⟨s, _, h⟩ := R.bind_eq_ok h
  obtain ⟨v, _, h⟩ := R.bind_eq_ok h
  obtain ⟨w, _, h⟩ := R.bind_eq_ok h
  cases h
  exact ⟨SizeP2.make_bits h1, rfl⟩

theorem addRoot_cnt {t t' : PlainFk} (h : t.addRoot = .ok t') : t'.capa = t.capa ∧ t'.numResize = t.numResize := by
  obtain ⟨_, _, h⟩ := R.bind_eq_ok h
  cases h
  exact ⟨rfl, rfl⟩

theorem expandLoop_cnt {cfg : PlainFkCfg} {t : PlainFk} : ∀ (c : Nat) {i : Nat} {n n' : PlainFk},
    expandLoop cfg t c i n = .ok n' → n'.capa = n.capa ∧ n'.numResize = n.numResize := by
  intro c
  induction c with
  | zero => intro i n n' h; cases h; exact ⟨rfl, rfl⟩
  | succ c ih =>
    intro i n n' h
    obtain ⟨_, _, h⟩ := R.bind_eq_ok h
    split at h
    · exact ih h
    · obtain ⟨_, _, h⟩ := R.bind_eq_ok h
      obtain ⟨_, _, h⟩ := R.bind_eq_ok h
      obtain ⟨n1, h1, h⟩ := R.bind_eq_ok h
      obtain ⟨q1, q2⟩ := ih h
      obtain ⟨i1, c1, h1⟩ := probe_body h1
      obtain ⟨_, _, h1⟩ := R.bind_eq_ok h1
      split at h1
      · obtain ⟨_, _, h1⟩ := R.bind_eq_ok h1
        obtain ⟨_, _, h1⟩ := R.bind_eq_ok h1
        cases h1
        exact ⟨q1, q2⟩
      · cases h1

theorem expandSelf_cnt {cfg : PlainFkCfg} {b0 : Nat} {t t' : PlainFk} (hq : Cnt cfg b0 t) (h : expandSelf cfg t = .ok t') :
    Cnt cfg b0 t' := by
  obtain ⟨n0, h0, h⟩ := R.bind_eq_ok h
  dsimp only at h
  obtain ⟨n1, h1, h⟩ := R.bind_eq_ok h
  cases h
  obtain ⟨a1, a2⟩ := make_cnt h0
  obtain ⟨b1, b2⟩ := expandLoop_cnt _ h1
  obtain ⟨q1, q2⟩ := hq
  exact ⟨q1, by dsimp only at b1 b2 ⊢; rw [b1, b2, a1]; omega⟩

theorem addChild_cnt {cfg : PlainFkCfg} {b0 : Nat} {t : PlainFk} {v s : Nat} {x : PlainFk × Nat × Bool} (hq : Cnt cfg b0 t)
    (h : addChild cfg t v s = .ok x) : Cnt cfg b0 x.1 := by
  obtain ⟨_, _, h⟩ := R.bind_eq_ok h
  obtain ⟨_, _, h⟩ := R.bind_eq_ok h
  have cont : ∀ t1 : PlainFk, Cnt cfg b0 t1 → (R.assert (!cfg.dbg || decide (t1.makeKey v s ≠ 0)) >>= fun _ =>
      probe t1.capa.mask (t1.addBody (t1.makeKey v s)) t1.capa.size (cfg.hash (t1.makeKey v s) &&& t1.capa.mask) 0) = .ok x →
      Cnt cfg b0 x.1 := by
    intro t1 hq1 h
    obtain ⟨_, _, h⟩ := R.bind_eq_ok h
    obtain ⟨i, c, h⟩ := probe_body h
    obtain ⟨_, _, h⟩ := R.bind_eq_ok h
    split at h
    · dsimp only at h
      obtain ⟨_, _, h⟩ := R.bind_eq_ok h
      obtain ⟨_, _, h⟩ := R.bind_eq_ok h
      obtain ⟨_, _, h⟩ := R.bind_eq_ok h
      cases h; exact hq1
    · obtain ⟨_, _, h⟩ := R.bind_eq_ok h
      split at h
      · cases h; exact hq1
      · cases h
  dsimp only at h
  split at h
  · obtain ⟨t1, h1, h⟩ := R.bind_eq_ok h
    exact cont t1 (expandSelf_cnt hq h1) h
  · rw [R.pure_eq, R.bind_ok] at h
    exact cont t hq h

theorem counts (cfg : PlainFkCfg) : (ops cfg).Counts cfg.minCapaBits (Cnt cfg) where
  out := fun h => h.2
  make := by
    intro cb sb t h
    obtain ⟨h1, h2⟩ := make_cnt h
    exact ⟨by omega, by omega⟩
  root := by
    intro b0 t t' hq h
    obtain ⟨h1, h2⟩ := addRoot_cnt h
    unfold Cnt; rw [h1, h2]; exact hq
  add := fun hq h => addChild_cnt hq h
  expand := by intro h; cases h

end PlainFk

namespace CompactFk

def Cnt (cfg : CompactCfg) (b0 : Nat) (t : CompactFk) : Prop := cfg.minCapaBits ≤ b0 ∧ t.capa.bits = b0 + t.numResize

theorem make_cnt {cfg : CompactCfg} {cb sb : Nat} {t : CompactFk} (h : make cfg cb sb = .ok t) :
    t.capa.bits = max cfg.minCapaBits cb ∧ t.numResize = 0 := by
  obtain ⟨c, h1, h⟩ := R.bind_eq_ok h
  obtain ⟨s, _, h⟩ := R.bind_eq_ok h
  split at h
  · obtain ⟨_, _, h⟩ := R.bind_eq_ok h
    obtain ⟨_, _, h⟩ := R.bind_eq_ok h
    obtain ⟨_, _, h⟩ := R.bind_eq_ok h
    cases h
    exact ⟨SizeP2.make_bits h1, rfl⟩
  · cases h

theorem addRoot_cnt {t t' : CompactFk} (h : t.addRoot = .ok t') : t'.capa = t.capa ∧ t'.numResize = t.numResize := by
  obtain ⟨_, _, h⟩ := R.bind_eq_ok h
  cases h
  exact ⟨rfl, rfl⟩

theorem updateSlot_cnt {cfg : CompactCfg} {t t' : CompactFk} {i q d v : Nat} (h : t.updateSlot cfg i q d v = .ok t') :
    t'.capa = t.capa ∧ t'.numResize = t.numResize := by
  obtain ⟨_, _, h⟩ := R.bind_eq_ok h
  obtain ⟨_, _, h⟩ := R.bind_eq_ok h
  cases h; exact ⟨rfl, rfl⟩

theorem expandLoop_cnt {cfg : CompactCfg} {t : CompactFk} : ∀ (c : Nat) {i : Nat} {n n' : CompactFk},
    expandLoop cfg t c i n = .ok n' → n'.capa = n.capa ∧ n'.numResize = n.numResize := by
  intro c
  induction c with
  | zero => intro i n n' h; cases h; exact ⟨rfl, rfl⟩
  | succ c ih =>
    intro i n n' h
    obtain ⟨_, _, h⟩ := R.bind_eq_ok h
    split at h
    · exact ih h
    · obtain ⟨_, _, h⟩ := R.bind_eq_ok h
      obtain ⟨_, _, h⟩ := R.bind_eq_ok h
      obtain ⟨_, _, h⟩ := R.bind_eq_ok h
      obtain ⟨n1, h1, h⟩ := R.bind_eq_ok h
      obtain ⟨q1, q2⟩ := ih h
      obtain ⟨i1, c1, h1⟩ := probe_body h1
      obtain ⟨_, _, h1⟩ := R.bind_eq_ok h1
      split at h1
      · obtain ⟨n2, h2, h1⟩ := R.bind_eq_ok h1
        cases h1
        obtain ⟨r1, r2⟩ := updateSlot_cnt h2
        exact ⟨q1.trans r1, q2.trans r2⟩
      · cases h1

theorem expandSelf_cnt {cfg : CompactCfg} {b0 : Nat} {t t' : CompactFk} (hq : Cnt cfg b0 t) (h : expandSelf cfg t = .ok t') :
    Cnt cfg b0 t' := by
  obtain ⟨n0, h0, h⟩ := R.bind_eq_ok h
  dsimp only at h
  obtain ⟨n1, h1, h⟩ := R.bind_eq_ok h
  cases h
  obtain ⟨a1, a2⟩ := make_cnt h0
  obtain ⟨b1, b2⟩ := expandLoop_cnt _ h1
  obtain ⟨q1, q2⟩ := hq
  exact ⟨q1, by dsimp only at b1 b2 ⊢; rw [b1, b2, a1]; omega⟩

theorem addChild_cnt {cfg : CompactCfg} {b0 : Nat} {t : CompactFk} {v s : Nat} {x : CompactFk × Nat × Bool} (hq : Cnt cfg b0 t)
    (h : addChild cfg t v s = .ok x) : Cnt cfg b0 x.1 := by
  obtain ⟨_, _, h⟩ := R.bind_eq_ok h
  obtain ⟨_, _, h⟩ := R.bind_eq_ok h
  have cont : ∀ t1 : CompactFk, Cnt cfg b0 t1 → (t1.hasher.hash (t1.makeKey v s) >>= fun y =>
      probe t1.capa.mask (t1.addBody cfg (y >>> t1.capa.bits)) t1.capa.size (y &&& t1.capa.mask) 0) = .ok x → Cnt cfg b0 x.1 := by
    intro t1 hq1 h
    obtain ⟨_, _, h⟩ := R.bind_eq_ok h
    obtain ⟨i, c, h⟩ := probe_body h
    obtain ⟨_, _, h⟩ := R.bind_eq_ok h
    split at h
    · obtain ⟨t2, h2, h⟩ := R.bind_eq_ok h
      cases h
      obtain ⟨r1, r2⟩ := updateSlot_cnt h2
      unfold Cnt
      dsimp only
      rw [r1, r2]; exact hq1
    · obtain ⟨_, _, h⟩ := R.bind_eq_ok h
      obtain ⟨_, _, h⟩ := R.bind_eq_ok h
      split at h
      · cases h; exact hq1
      · cases h
  dsimp only at h
  split at h
  · obtain ⟨t1, h1, h⟩ := R.bind_eq_ok h
    exact cont t1 (expandSelf_cnt hq h1) h
  · rw [R.pure_eq, R.bind_ok] at h
    exact cont t hq h

theorem counts (cfg : CompactCfg) : (ops cfg).Counts cfg.minCapaBits (Cnt cfg) where
  out := fun h => h.2
  make := by
    intro cb sb t h
    obtain ⟨h1, h2⟩ := make_cnt h
    exact ⟨by omega, by omega⟩
  root := by
    intro b0 t t' hq h
    obtain ⟨h1, h2⟩ := addRoot_cnt h
    unfold Cnt; rw [h1, h2]; exact hq
  add := fun hq h => addChild_cnt hq h
  expand := by intro h; cases h

end CompactFk

namespace Map
variable {τ ν : Type} {cfg : MapCfg τ ν} {minb b0 : Nat} {Q : Nat → τ → Prop}

theorem expandIfNeeded_cnt (C : cfg.T.Counts minb Q) {m m' : Map τ ν} {v v' : Nat} (hq : Q b0 m.trie)
    (h : expandIfNeeded cfg m v = .ok (m', v')) : Q b0 m'.trie := by
  unfold expandIfNeeded at h
  split at h
  · cases h; exact hq
  · rename_i hk
    split at h
    · cases h; exact hq
    · obtain ⟨⟨t, nm⟩, h1, h⟩ := R.bind_eq_ok h
      dsimp only at h
      obtain ⟨w, _, h⟩ := R.bind_eq_ok h
      obtain ⟨n, _, h⟩ := R.bind_eq_ok h
      cases h
      exact C.expand hk hq h1

theorem updSteps_cnt (C : cfg.T.Counts minb Q) : ∀ (fuel : Nat) {m m' : Map τ ν} {v v' t t' : Nat}, Q b0 m.trie →
    updSteps cfg fuel m v t = .ok (m', v', t') → Q b0 m'.trie := by
  intro fuel
  induction fuel with
  | zero => intro m m' v v' t t' _ h; cases h
  | succ fuel ih =>
    intro m m' v v' t t' hq h
    unfold updSteps at h
    split at h
    · obtain ⟨⟨t1, v1, b⟩, h1, h⟩ := R.bind_eq_ok h
      dsimp only at h
      have hq1 := C.add hq h1
      split at h
      · obtain ⟨⟨m2, v2⟩, he, h⟩ := R.bind_eq_ok h
        dsimp only at h
        have hq2 := expandIfNeeded_cnt C (m := { m with trie := t1 }) hq1 he
        split at h
        · obtain ⟨_, _, h⟩ := R.bind_eq_ok h
          obtain ⟨n, hn, h⟩ := R.bind_eq_ok h
          exact ih (m := { m2 with nlm := n, numSteps := m2.numSteps + 1 }) hq2 h
        · exact ih (m := { m2 with numSteps := m2.numSteps + 1 }) hq2 h
      · exact ih (m := { m with trie := t1 }) hq1 h
    · cases h; exact hq

theorem putLabel_cnt {m m' : Map τ ν} {v : Nat} {k : List UInt8} {r : UpdOut}
    (h : putLabel cfg m v k = .ok (m', r)) : m'.trie = m.trie ∧ m'.isReady = m.isReady := by
  unfold putLabel at h
  split at h <;> (obtain ⟨⟨n, l⟩, h1, h⟩ := R.bind_eq_ok h; cases h; exact ⟨rfl, rfl⟩)

theorem updLoop_cnt (C : cfg.T.Counts minb Q) : ∀ (fuel : Nat) {m m' : Map τ ν} {v : Nat} {k : List UInt8} {r : UpdOut},
    Q b0 m.trie → updLoop cfg fuel m v k = .ok (m', r) → Q b0 m'.trie := by
  intro fuel
  induction fuel with
  | zero => intro m m' v k r _ h; cases h
  | succ fuel ih =>
    intro m m' v k r hq h
    unfold updLoop at h
    split at h
    · obtain ⟨x, _, h⟩ := R.bind_eq_ok h
      split at h <;> cases h <;> exact hq
    · obtain ⟨⟨vptr, mt⟩, _, h⟩ := R.bind_eq_ok h
      dsimp only at h
      split at h
      · cases h; exact hq
      · obtain ⟨key, _, h⟩ := R.bind_eq_ok h
        obtain ⟨⟨m1, v1, mt1⟩, hs, h⟩ := R.bind_eq_ok h
        dsimp only at h
        have h1 := updSteps_cnt C _ hq hs
        cases key with
        | nil => cases h
        | cons c rest =>
          dsimp only at h
          obtain ⟨code, _, h⟩ := R.bind_eq_ok h
          have cont : ∀ m2 : Map τ ν, Q b0 m2.trie → ∀ p : Prop, [Decidable p] → ((if p then pure (m2, UpdOut.exn)
              else do
                let s ← makeSymb cfg m2 c mt1
                let x ← cfg.T.addChild m2.trie v1 s
                if x.2.2 = true then do
                  let y ← expandIfNeeded cfg { m2 with trie := x.1 } x.2.1
                  R.assert (decide (cfg.T.kind = Kind.bonsai) || decide (y.2 = cfg.L.size y.1.nlm))
                  putLabel cfg { y.1 with size := y.1.size + 1 } y.2 rest
                else updLoop cfg fuel { m2 with trie := x.1 } x.2.1 rest) : R (Map τ ν × UpdOut)) = .ok (m', r) →
              Q b0 m'.trie := by
            intro m2 h2 p _ h
            split at h
            · cases h; exact h2
            · obtain ⟨s, _, h⟩ := R.bind_eq_ok h
              obtain ⟨⟨t3, v3, b3⟩, h3, h⟩ := R.bind_eq_ok h
              dsimp only at h
              have hq3 := C.add h2 h3
              split at h
              · obtain ⟨⟨m4, v4⟩, he, h⟩ := R.bind_eq_ok h
                dsimp only at h
                have h4 := expandIfNeeded_cnt C (m := { m2 with trie := t3 }) hq3 he
                obtain ⟨_, _, h⟩ := R.bind_eq_ok h
                rw [(putLabel_cnt h).1]
                exact h4
              · exact ih (m := { m2 with trie := t3 }) hq3 h
          split at h
          · obtain ⟨cs, _, h⟩ := R.bind_eq_ok h
            rw [R.pure_eq, R.bind_ok] at h
            exact cont { m1 with codes := cs, numCodes := m1.numCodes + 1 } h1 _ h
          · rw [R.pure_eq, R.bind_ok] at h
            exact cont m1 h1 _ h

theorem updLoop_ready {fuel : Nat} {m m' : Map τ ν} {v : Nat} {k : List UInt8} {r : UpdOut}
    (h : updLoop cfg fuel m v k = .ok (m', r)) : m'.isReady = m.isReady := by
  have E : Evo cfg.L (fun _ => True) (fun _ _ => True) :=
    { refl := fun _ => trivial, trans := fun _ _ => trivial, empty := trivial, make := fun _ => ⟨trivial, trivial⟩,
      insert := fun _ _ => ⟨trivial, trivial⟩, append := fun _ _ => ⟨trivial, trivial⟩, dummy := fun _ _ => ⟨trivial, trivial⟩,
      expand := fun _ _ => ⟨trivial, trivial⟩, store := fun _ _ => ⟨trivial, trivial⟩ }
  rcases updLoop_evo E fuel trivial h with q | q
  · exact q.2.2.1
  · exact q.2.2.1

theorem make_cnt (C : cfg.T.Counts minb Q) {b lam : Nat} {m : Map τ ν} (h : make cfg b lam = .ok m) :
    Q (max minb b) m.trie ∧ m.isReady = true := by
  unfold make at h
  split at h
  · cases h
  · obtain ⟨x, _, h⟩ := R.bind_eq_ok h
    obtain ⟨t, ht, h⟩ := R.bind_eq_ok h
    obtain ⟨n, hn, h⟩ := R.bind_eq_ok h
    obtain ⟨cs, _, h⟩ := R.bind_eq_ok h
    cases h
    exact ⟨C.make ht, rfl⟩

/-- the trie of a constructed map; a default-constructed one has none yet, and its first `update` passes 0 -/
def Counting (cfg : MapCfg τ ν) (minb : Nat) (Q : Nat → τ → Prop) (b0 : Nat) (m : Map τ ν) : Prop :=
  (m.isReady = true → Q b0 m.trie) ∧ (m.isReady = false → b0 = minb ∧ cfg.T.size m.trie = 0)

theorem update_cnt (C : cfg.T.Counts minb Q) {m m' : Map τ ν} {k : List UInt8} {r : UpdOut} (hm : Counting cfg minb Q b0 m)
    (h : update cfg m k = .ok (m', r)) : Counting cfg minb Q b0 m' := by
  unfold update at h
  split at h
  · cases h; exact hm
  · split at h
    · have cont : ∀ m1 : Map τ ν, m1.isReady = true → Q b0 m1.trie → ((do
          let trie ← cfg.T.addRoot m1.trie
          let node ← cfg.T.getRoot trie
          putLabel cfg { m1 with size := m1.size + 1, trie := trie } node k) : R (Map τ ν × UpdOut)) = .ok (m', r) →
          Counting cfg minb Q b0 m' := by
        intro m1 hr hq h
        obtain ⟨t, h1, h⟩ := R.bind_eq_ok h
        obtain ⟨v, _, h⟩ := R.bind_eq_ok h
        obtain ⟨q1, q2⟩ := putLabel_cnt (m := { m1 with size := m1.size + 1, trie := t }) h
        refine ⟨fun _ => ?_, fun hf => ?_⟩
        · rw [q1]; exact C.root hq h1
        · rw [q2] at hf; rw [show m1.isReady = true from hr] at hf; cases hf
      split at h
      · rename_i hnr
        obtain ⟨m1, h1, h⟩ := R.bind_eq_ok h
        obtain ⟨q1, q2⟩ := make_cnt C h1
        rw [Nat.max_zero, ← (hm.2 (by simpa using hnr)).1] at q1
        exact cont m1 q2 q1 h
      · rename_i hnr
        rw [R.pure_eq, R.bind_ok] at h
        have hr : m.isReady = true := by simpa using hnr
        exact cont m hr (hm.1 hr) h
    · rename_i ht
      have hr : m.isReady = true := by
        cases hr : m.isReady with
        | true => rfl
        | false => exact absurd (hm.2 hr).2 ht
      obtain ⟨v, _, h⟩ := R.bind_eq_ok h
      have hq := updLoop_cnt C _ (hm.1 hr) h
      refine ⟨fun _ => hq, fun hf => ?_⟩
      rw [updLoop_ready h, hr] at hf; cases hf

theorem exec_cnt (C : cfg.T.Counts minb Q) {m m' : Map τ ν} {o : Op} {x : Out} (hm : Counting cfg minb Q b0 m)
    (h : exec cfg m o = .ok (m', x)) : Counting cfg minb Q b0 m' := by
  cases o with
  | find k =>
    simp only [exec] at h
    split at h
    · cases h; exact hm
    · cases h
    · cases h; exact hm
    · obtain ⟨v, _, h⟩ := R.bind_eq_ok h
      cases h; exact hm
  | size => cases h; exact hm
  | update k =>
    obtain ⟨⟨m1, r⟩, h1, h⟩ := R.bind_eq_ok h
    have q := update_cnt C hm h1
    dsimp only at h
    split at h
    · obtain ⟨v, _, h⟩ := R.bind_eq_ok h
      cases h; exact q
    · cases h; exact q
    · cases h; exact q
  | write k v =>
    obtain ⟨⟨m1, r⟩, h1, h⟩ := R.bind_eq_ok h
    have q := update_cnt C hm h1
    dsimp only at h
    split at h
    · obtain ⟨m2, h2, h⟩ := R.bind_eq_ok h
      cases h
      obtain ⟨n, h3, h2⟩ := R.bind_eq_ok h2
      cases h2
      exact q
    · cases h; exact q
    · cases h; exact q

theorem run_cnt (C : cfg.T.Counts minb Q) : ∀ (os : List Op) {m m' : Map τ ν} {xs : List Out}, Counting cfg minb Q b0 m →
    run cfg m os = .ok (m', xs) → Counting cfg minb Q b0 m' := by
  intro os
  induction os with
  | nil => intro m m' xs hm h; cases h; exact hm
  | cons o os ih =>
    intro m m' xs hm h
    obtain ⟨⟨m1, x⟩, h1, h⟩ := R.bind_eq_ok h
    obtain ⟨⟨m2, ys⟩, h2, h⟩ := R.bind_eq_ok h
    cases h
    exact ih (exec_cnt C hm h1) h2

end Map

/-- all aliases count the doublings -/
theorem Alias.counts (a : Alias) (p : Params) : ∃ Q, (a.cfg p).T.Counts 16 Q := by
  cases a
  · exact ⟨_, PlainBonsai.counts (Alias.plainCfg p)⟩
  · exact ⟨_, PlainBonsai.counts (Alias.plainCfg p)⟩
  · exact ⟨_, CompactBonsai.counts (Alias.compactCfg p)⟩
  · exact ⟨_, PlainFk.counts { Alias.plainCfg p with dbg := p.dbg }⟩
  · exact ⟨_, PlainFk.counts { Alias.plainCfg p with dbg := p.dbg }⟩
  · exact ⟨_, CompactFk.counts (Alias.compactCfg p)⟩

theorem Alias.run_counts {a : Alias} {p : Params} {i : Init} {m m' : Map a.Trie a.Nlm} {os : List Op} {xs : List Out}
    (h0 : a.new p i = .ok m) (h1 : Map.run (a.cfg p) m os = .ok (m', xs)) (hr : m'.isReady = true) :
    (a.cfg p).T.capaBits m'.trie = (match i with | .default => 16 | .make cb _ => max 16 cb) + (a.cfg p).T.numResize m'.trie := by
  obtain ⟨Q, C⟩ := a.counts p
  cases i with
  | default =>
    cases h0
    have hm : Map.Counting (a.cfg p) 16 Q 16 (Map.default (a.cfg p)) :=
      ⟨(by intro h; cases h), fun _ => ⟨rfl, by cases a <;> rfl⟩⟩
    exact C.out ((Map.run_cnt C os hm h1).1 hr)
  | make cb lam =>
    obtain ⟨q1, q2⟩ := Map.make_cnt C h0
    have hm : Map.Counting (a.cfg p) 16 Q (max 16 cb) m :=
      ⟨fun _ => q1, by intro h; rw [q2] at h; cases h⟩
    exact C.out ((Map.run_cnt C os hm h1).1 hr)

end Poplar
