import Verif.Proof.Basic
import Verif.Proof.Count
import Verif.Model.MapRun
/-
  `codes_` and `num_codes_` along any execution, also after the map stopped working properly (map.hpp:168-172).
  No assumption on the trie, the node label map or the keys.
-/
namespace Poplar
open Spec

namespace Map
variable {τ ν : Type} {cfg : MapCfg τ ν}

/-- number of bytes with a code -/
def known (codes : Array Nat) : Nat := cnt (fun i => decide (codes[i]? ≠ some 255)) 256

/-- `num_codes_` counts the bytes with a code; it runs ahead by one once the reserved code has been given away -/
structure CodesOk (m : Map τ ν) : Prop where
  ready : m.isReady = true
  size : m.codes.size = 256
  num : (known m.codes = m.numCodes ∧ m.numCodes ≤ 255) ∨ (known m.codes + 1 = m.numCodes ∧ 256 ≤ m.numCodes)

theorem CodesOk.le {m : Map τ ν} (h : CodesOk m) : m.numCodes ≤ 257 := by
  have := cnt_le (fun i => decide (m.codes[i]? ≠ some 255)) 256
  rcases h.num with h | h <;> simp only [known] at h <;> omega

theorem CodesOk.congr {m m' : Map τ ν} (h : CodesOk m) (h1 : m'.isReady = m.isReady) (h2 : m'.codes = m.codes)
    (h3 : m'.numCodes = m.numCodes) : CodesOk m' :=
  ⟨by rw [h1]; exact h.ready, by rw [h2]; exact h.size, by rw [h2, h3]; exact h.num⟩

/-- map.hpp:170 -/
theorem CodesOk.assign {m : Map τ ν} (h : CodesOk m) {c : UInt8} (hc : rd m.codes c.toNat = .ok 255) {codes : Array Nat}
    (hw : wr m.codes c.toNat (m.numCodes % 256) = .ok codes) :
    CodesOk { m with codes := codes, numCodes := m.numCodes + 1 } := by
  have hlt : c.toNat < m.codes.size := by rw [h.size]; exact c.toNat_lt
  have hlt' : c.toNat < 256 := c.toNat_lt
  rw [wr_of_lt hlt] at hw
  injection hw with hw
  subst hw
  rw [rd_of_lt hlt] at hc
  injection hc with hc
  have hg : m.codes[c.toNat]? = some 255 := by rw [Array.getElem?_eq_getElem hlt, hc]
  have hlt2 : known m.codes < 256 := by
    have h1 : known m.codes < cnt (fun _ => true) 256 :=
      cnt_lt_of hlt' (by simp [hg]) rfl (fun _ _ _ => rfl)
    exact Nat.lt_of_lt_of_le h1 (cnt_le _ _)
  have hset : ∀ x i : Nat, (m.codes.setIfInBounds c.toNat x)[i]? = if c.toNat = i then some x else m.codes[i]? := by
    intro x i
    rw [Array.getElem?_setIfInBounds]
    split
    next e => rfl
    next => rfl
  have hup : ∀ x, x ≠ 255 → known (m.codes.setIfInBounds c.toNat x) = known m.codes + 1 := by
    intro x hx
    refine cnt_set hlt' (by simp [hg]) (by simp [hset, hx]) ?_
    intro i _ hne
    rw [hset, if_neg (fun e => hne e.symm)]
  have hsame : known (m.codes.setIfInBounds c.toNat 255) = known m.codes := by
    refine cnt_congr ?_
    intro i _
    rw [hset]; split
    next e => rw [← e, hg]
    next => rfl
  refine ⟨h.ready, by simp [h.size], ?_⟩
  simp only
  rcases h.num with ⟨h1, h2⟩ | ⟨h1, h2⟩
  · by_cases he : m.numCodes = 255
    · right
      rw [he] at h1 ⊢
      rw [show (255 % 256 : Nat) = 255 by decide, hsame]; omega
    · left; rw [hup _ (by omega)]; omega
  · right
    rw [hup _ (by omega)]; omega

theorem expandIfNeeded_codes {m m' : Map τ ν} {node v : Nat} (h : expandIfNeeded cfg m node = .ok (m', v)) :
    m'.isReady = m.isReady ∧ m'.codes = m.codes ∧ m'.numCodes = m.numCodes ∧ m'.lambda = m.lambda := by
  unfold expandIfNeeded at h
  cases hk : cfg.T.kind with
  | fkhash =>
    rw [hk] at h
    simp only [R.pure_eq, Except.ok.injEq, Prod.mk.injEq] at h
    obtain ⟨rfl, _⟩ := h; exact ⟨rfl, rfl, rfl, rfl⟩
  | bonsai =>
    rw [hk] at h
    simp only at h
    split at h
    · simp only [R.pure_eq, Except.ok.injEq, Prod.mk.injEq] at h
      obtain ⟨rfl, _⟩ := h; exact ⟨rfl, rfl, rfl, rfl⟩
    · obtain ⟨_, _, h⟩ := R.bind_eq_ok h
      obtain ⟨_, _, h⟩ := R.bind_eq_ok h
      obtain ⟨_, _, h⟩ := R.bind_eq_ok h
      simp only [R.pure_eq, Except.ok.injEq, Prod.mk.injEq] at h
      obtain ⟨rfl, _⟩ := h; exact ⟨rfl, rfl, rfl, rfl⟩

theorem updSteps_codes (fuel : Nat) : ∀ {m : Map τ ν} {node mt : Nat} {x : Map τ ν × Nat × Nat},
    updSteps cfg fuel m node mt = .ok x →
    x.1.isReady = m.isReady ∧ x.1.codes = m.codes ∧ x.1.numCodes = m.numCodes := by
  induction fuel with
  | zero => intro m node mt x h; simp [updSteps] at h
  | succ fuel ih =>
    intro m node mt x h
    simp only [updSteps] at h
    split at h
    · obtain ⟨⟨t, v, isNew⟩, h1, h⟩ := R.bind_eq_ok h
      dsimp only at h
      split at h
      · obtain ⟨⟨m1, v1⟩, h2, h⟩ := R.bind_eq_ok h
        obtain ⟨e1, e2, e3, _⟩ := expandIfNeeded_codes h2
        dsimp only at h e1 e2 e3
        split at h
        · obtain ⟨_, _, h⟩ := R.bind_eq_ok h
          obtain ⟨_, _, h⟩ := R.bind_eq_ok h
          obtain ⟨g1, g2, g3⟩ := ih h
          exact ⟨g1.trans e1, g2.trans e2, g3.trans e3⟩
        · obtain ⟨g1, g2, g3⟩ := ih h
          exact ⟨g1.trans e1, g2.trans e2, g3.trans e3⟩
      · exact ih (m := { m with trie := t }) h
    · simp only [R.pure_eq, Except.ok.injEq] at h
      subst h; exact ⟨rfl, rfl, rfl⟩

theorem putLabel_codes {m m' : Map τ ν} {node : Nat} {key : List UInt8} {r : UpdOut} (h : putLabel cfg m node key = .ok (m', r)) :
    m'.isReady = m.isReady ∧ m'.codes = m.codes ∧ m'.numCodes = m.numCodes ∧ r ≠ .exn := by
  unfold putLabel at h
  split at h <;>
  · obtain ⟨_, _, h⟩ := R.bind_eq_ok h
    simp only [R.pure_eq, Except.ok.injEq, Prod.mk.injEq] at h
    obtain ⟨rfl, rfl⟩ := h
    exact ⟨rfl, rfl, rfl, by simp⟩

/-- the outcome of `update` on the code table -/
structure CodesPost (m m' : Map τ ν) (r : UpdOut) : Prop where
  ok : CodesOk m'
  mono : m.numCodes ≤ m'.numCodes
  noexn : 255 ≤ m.numCodes → r ≠ .exn

theorem updLoop_codes (fuel : Nat) : ∀ {m : Map τ ν} {node : Nat} {key : List UInt8} {m' : Map τ ν} {r : UpdOut},
    CodesOk m → updLoop cfg fuel m node key = .ok (m', r) → CodesPost m m' r := by
  induction fuel with
  | zero => intro m node key m' r _ h; simp [updLoop] at h
  | succ fuel ih =>
    intro m node key m' r hJ h
    simp only [updLoop] at h
    split at h
    · obtain ⟨x, _, h⟩ := R.bind_eq_ok h
      split at h <;>
      · simp only [R.pure_eq, Except.ok.injEq, Prod.mk.injEq] at h
        obtain ⟨rfl, rfl⟩ := h
        exact ⟨hJ, Nat.le_refl _, fun _ => by simp⟩
    · obtain ⟨⟨vp, mt⟩, _, h⟩ := R.bind_eq_ok h
      dsimp only at h
      split at h
      · simp only [R.pure_eq, Except.ok.injEq, Prod.mk.injEq] at h
        obtain ⟨rfl, rfl⟩ := h
        exact ⟨hJ, Nat.le_refl _, fun _ => by simp⟩
      · obtain ⟨key', _, h⟩ := R.bind_eq_ok h
        obtain ⟨⟨m1, node1, j1⟩, hs, h⟩ := R.bind_eq_ok h
        obtain ⟨e1, e2, e3⟩ := updSteps_codes _ hs
        dsimp only at h e1 e2 e3
        have hJ1 : CodesOk m1 := hJ.congr e1 e2 e3
        cases key' with
        | nil => cases h
        | cons c rest =>
          dsimp only at h
          obtain ⟨code, hrd, h⟩ := R.bind_eq_ok h
          -- what follows the code table update
          have hmain : ∀ m2 : Map τ ν, CodesOk m2 → m.numCodes ≤ m2.numCodes →
              (do
                let symb ← makeSymb cfg m2 c j1
                let x ← cfg.T.addChild m2.trie node1 symb
                if x.2.2 then
                  let y ← expandIfNeeded cfg { m2 with trie := x.1 } x.2.1
                  R.assert (cfg.T.kind = Kind.bonsai || y.2 = cfg.L.size y.1.nlm)
                  putLabel cfg { y.1 with size := y.1.size + 1 } y.2 rest
                else updLoop cfg fuel { m2 with trie := x.1 } x.2.1 rest) = .ok (m', r) → CodesPost m m' r := by
            intro m2 hJ2 hle h
            obtain ⟨symb, _, h⟩ := R.bind_eq_ok h
            obtain ⟨⟨t, v, isNew⟩, _, h⟩ := R.bind_eq_ok h
            dsimp only at h
            split at h
            · obtain ⟨⟨m3, v3⟩, h2, h⟩ := R.bind_eq_ok h
              obtain ⟨f1, f2, f3, _⟩ := expandIfNeeded_codes h2
              obtain ⟨_, _, h⟩ := R.bind_eq_ok h
              obtain ⟨g1, g2, g3, g4⟩ := putLabel_codes h
              dsimp only at f1 f2 f3 g1 g2 g3
              exact ⟨hJ2.congr (g1.trans f1) (g2.trans f2) (g3.trans f3), by rw [g3, f3]; exact hle, fun _ => g4⟩
            · obtain ⟨w1, w2, w3⟩ := ih (hJ2.congr (m' := { m2 with trie := t }) rfl rfl rfl) h
              exact ⟨w1, Nat.le_trans hle w2, fun hn => w3 (Nat.le_trans hn hle)⟩
          by_cases hu : code = 255
          · subst hu
            simp only [if_true, decide_true, Bool.true_and] at h
            obtain ⟨codes, hw, h⟩ := R.bind_eq_ok h
            simp only [R.pure_eq, R.bind_ok] at h
            have hJ2 := hJ1.assign hrd hw
            have hle : m.numCodes ≤ m1.numCodes + 1 := by omega
            split at h
            next he =>
              simp only [decide_eq_true_eq] at he
              simp only [Except.ok.injEq, Prod.mk.injEq] at h
              obtain ⟨rfl, rfl⟩ := h
              exact ⟨hJ2, hle, fun hn => by omega⟩
            next => exact hmain _ hJ2 hle h
          · simp only [hu, if_false, decide_false, Bool.false_and, Bool.false_eq_true, R.pure_eq, R.bind_ok] at h
            exact hmain m1 hJ1 (by omega) h

/-- `update` on a constructed map, in any state: `num_codes_` stays below 258 and never decreases, and once it is 255
there are no exceptions any more -/
theorem update_codes {m m' : Map τ ν} {key : List UInt8} {r : UpdOut} (hJ : CodesOk m)
    (h : update cfg m key = .ok (m', r)) : CodesOk m' ∧ m.numCodes ≤ m'.numCodes ∧
      (255 ≤ m.numCodes → badKey key = false → r ≠ .exn) := by
  unfold update at h
  split at h
  next hb =>
    simp only [R.pure_eq, Except.ok.injEq, Prod.mk.injEq] at h
    obtain ⟨rfl, rfl⟩ := h
    exact ⟨hJ, Nat.le_refl _, fun _ he => by rw [hb] at he; cases he⟩
  next hb =>
    split at h
    · simp only [hJ.ready, Bool.not_true, Bool.false_eq_true, if_false, R.pure_eq, R.bind_ok] at h
      obtain ⟨t, _, h⟩ := R.bind_eq_ok h
      obtain ⟨v, _, h⟩ := R.bind_eq_ok h
      obtain ⟨g1, g2, g3, g4⟩ := putLabel_codes h
      exact ⟨hJ.congr (g1.trans hJ.ready.symm) g2 g3, by rw [g3]; exact Nat.le_refl _, fun _ _ => g4⟩
    · obtain ⟨v, _, h⟩ := R.bind_eq_ok h
      obtain ⟨w1, w2, w3⟩ := updLoop_codes _ hJ h
      exact ⟨w1, w2, fun hn _ => w3 hn⟩

/-- the same for a user operation -/
theorem exec_codes {m m' : Map τ ν} {o : Op} {x : Out} (hJ : CodesOk m) (h : exec cfg m o = .ok (m', x)) :
    CodesOk m' ∧ m.numCodes ≤ m'.numCodes ∧
      (255 ≤ m.numCodes → ∀ k, o.key? = some k → 0 < o.cost → badKey k = false → x ≠ .exn) := by
  cases o with
  | find k =>
    refine ⟨?_, ?_, fun _ k' _ hc => absurd hc (by simp [Op.cost])⟩ <;>
    · simp only [exec] at h
      split at h
      · simp only [Except.ok.injEq, Prod.mk.injEq] at h
        rw [← h.1]; first | exact hJ | exact Nat.le_refl _
      · cases h
      · simp only [Except.ok.injEq, Prod.mk.injEq] at h
        rw [← h.1]; first | exact hJ | exact Nat.le_refl _
      · obtain ⟨_, _, h⟩ := R.bind_eq_ok h
        simp only [R.pure_eq, Except.ok.injEq, Prod.mk.injEq] at h
        rw [← h.1]; first | exact hJ | exact Nat.le_refl _
  | size =>
    simp only [exec, Except.ok.injEq, Prod.mk.injEq] at h
    rw [← h.1]
    exact ⟨hJ, Nat.le_refl _, fun _ k' _ hc => absurd hc (by simp [Op.cost])⟩
  | update k =>
    simp only [exec] at h
    obtain ⟨⟨m1, r⟩, hu, h⟩ := R.bind_eq_ok h
    obtain ⟨u1, u2, u3⟩ := update_codes hJ hu
    dsimp only at h
    cases r with
    | ptr l =>
      obtain ⟨v, _, h⟩ := R.bind_eq_ok h
      simp only [R.pure_eq, Except.ok.injEq, Prod.mk.injEq] at h
      rw [← h.1, ← h.2]; exact ⟨u1, u2, fun _ _ _ _ _ => by simp⟩
    | null =>
      simp only [R.pure_eq, Except.ok.injEq, Prod.mk.injEq] at h
      rw [← h.1, ← h.2]; exact ⟨u1, u2, fun _ _ _ _ _ => by simp⟩
    | exn =>
      simp only [R.pure_eq, Except.ok.injEq, Prod.mk.injEq] at h
      rw [← h.1, ← h.2]
      refine ⟨u1, u2, fun hn k' hk' _ hb => ?_⟩
      injection hk' with hk'; subst hk'
      exact absurd rfl (u3 hn hb)
  | write k w =>
    simp only [exec] at h
    obtain ⟨⟨m1, r⟩, hu, h⟩ := R.bind_eq_ok h
    obtain ⟨u1, u2, u3⟩ := update_codes hJ hu
    dsimp only at h
    cases r with
    | ptr l =>
      obtain ⟨m2, hst, h⟩ := R.bind_eq_ok h
      simp only [R.pure_eq, Except.ok.injEq, Prod.mk.injEq] at h
      rw [← h.1, ← h.2]
      unfold store at hst
      obtain ⟨n, _, hst⟩ := R.bind_eq_ok hst
      simp only [R.pure_eq, Except.ok.injEq] at hst
      subst hst
      exact ⟨u1.congr rfl rfl rfl, u2, fun _ _ _ _ _ => by simp⟩
    | null =>
      simp only [R.pure_eq, Except.ok.injEq, Prod.mk.injEq] at h
      rw [← h.1, ← h.2]; exact ⟨u1, u2, fun _ _ _ _ _ => by simp⟩
    | exn =>
      simp only [R.pure_eq, Except.ok.injEq, Prod.mk.injEq] at h
      rw [← h.1, ← h.2]
      refine ⟨u1, u2, fun hn k' hk' _ hb => ?_⟩
      injection hk' with hk'; subst hk'
      exact absurd rfl (u3 hn hb)

theorem run_codes {os : List Op} : ∀ {m m' : Map τ ν} {xs : List Out}, CodesOk m → run cfg m os = .ok (m', xs) →
    CodesOk m' ∧ m.numCodes ≤ m'.numCodes ∧ (255 ≤ m.numCodes → ∀ (j : Nat) (o : Op), os[j]? = some o →
      ∀ k, o.key? = some k → 0 < o.cost → badKey k = false → xs[j]? ≠ some .exn) := by
  induction os with
  | nil =>
    intro m m' xs hJ h
    simp only [run, Except.ok.injEq, Prod.mk.injEq] at h
    rw [← h.1]; exact ⟨hJ, Nat.le_refl _, fun _ j o ho => by simp at ho⟩
  | cons o os ih =>
    intro m m' xs hJ h
    simp only [run] at h
    obtain ⟨⟨m1, x⟩, h1, h⟩ := R.bind_eq_ok h
    obtain ⟨⟨m2, ys⟩, h2, h⟩ := R.bind_eq_ok h
    simp only [R.pure_eq, Except.ok.injEq, Prod.mk.injEq] at h
    obtain ⟨rfl, rfl⟩ := h
    obtain ⟨a1, a2, a3⟩ := exec_codes hJ h1
    obtain ⟨b1, b2, b3⟩ := ih a1 h2
    refine ⟨b1, Nat.le_trans a2 b2, ?_⟩
    intro hn j o' ho' k hk hc hb
    cases j with
    | zero =>
      simp only [List.getElem?_cons_zero, Option.some.injEq] at ho' ⊢
      subst ho'
      intro e; injection e with e
      exact a3 hn k hk hc hb e
    | succ j =>
      simp only [List.getElem?_cons_succ] at ho' ⊢
      exact b3 (Nat.le_trans hn a2) j o' ho' k hk hc hb

theorem make_codes {m : Map τ ν} {cb lam : Nat} (h : make cfg cb lam = .ok m) : CodesOk m := by
  unfold make at h
  split at h
  · cases h
  · obtain ⟨_, _, h⟩ := R.bind_eq_ok h
    obtain ⟨_, _, h⟩ := R.bind_eq_ok h
    obtain ⟨_, _, h⟩ := R.bind_eq_ok h
    obtain ⟨codes, hw, h⟩ := R.bind_eq_ok h
    rw [wr_of_lt (by simp)] at hw
    injection hw with hw
    simp only [R.pure_eq, Except.ok.injEq] at h
    subst h
    subst hw
    refine ⟨rfl, by simp, Or.inl ⟨?_, by simp⟩⟩
    have h0 : cnt (fun _ => false) 256 = 0 := cnt_zero (fun _ _ => rfl)
    refine (cnt_set (a := 0) (p := fun _ => false) (by decide) rfl ?_ ?_).trans (by rw [h0])
    · simp
    · intro i hi hne
      simp [Ne.symm hne, hi]

/-- `num_codes_` (a 32-bit counter) stays below 258 along every history of an initialised map, also after the codes are
    exhausted -/
theorem run_numCodes {os : List Op} : ∀ {m m' : Map τ ν} {xs : List Out}, CodesOk m →
    run cfg m os = .ok (m', xs) → CodesOk m' := by
  induction os with
  | nil =>
    intro m m' xs hJ h
    simp only [run, Except.ok.injEq, Prod.mk.injEq] at h
    rw [← h.1]; exact hJ
  | cons o os ih =>
    intro m m' xs hJ h
    simp only [run] at h
    obtain ⟨⟨m1, x⟩, h1, h⟩ := R.bind_eq_ok h
    obtain ⟨⟨m2, ys⟩, h2, h⟩ := R.bind_eq_ok h
    simp only [R.pure_eq, Except.ok.injEq, Prod.mk.injEq] at h
    obtain ⟨rfl, rfl⟩ := h
    exact ih (exec_codes hJ h1).1 h2

end Map
end Poplar
