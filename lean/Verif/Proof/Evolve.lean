import Verif.Model.MapRun
import Verif.Proof.Basic
/-
  What successful calls of `map` do to its node label map, whatever the trie does: a generic argument on
  the control flow of `update`.
-/
namespace Poplar
open Spec (Op Out)

/-- an invariant `I` and a preorder `P` respected by all successful calls of a node label map -/
structure Evo {ν : Type} (L : NlmOps ν) (I : ν → Prop) (P : ν → ν → Prop) : Prop where
  refl : ∀ n, P n n
  trans : ∀ {a b c}, P a b → P b c → P a c
  empty : I L.empty
  make : ∀ {b n}, L.make b = .ok n → I n ∧ P L.empty n
  insert : ∀ {n i k n' l}, I n → L.insert n i k = .ok (n', l) → I n' ∧ P n n'
  append : ∀ {n k n' l}, I n → L.append n k = .ok (n', l) → I n' ∧ P n n'
  dummy : ∀ {n n'}, I n → L.appendDummy n = .ok n' → I n' ∧ P n n'
  expand : ∀ {n nm n'}, I n → L.expand n nm = .ok n' → I n' ∧ P n n'
  store : ∀ {n l v n'}, I n → L.store n l v = .ok n' → I n' ∧ P n n'

namespace Map
variable {τ ν : Type} {cfg : MapCfg τ ν} {I : ν → Prop} {P : ν → ν → Prop}

/-- the state of a map as far as its labels are concerned -/
def Reg (cfg : MapCfg τ ν) (I : ν → Prop) (m : Map τ ν) : Prop := I m.nlm ∧
  (m.isReady = true ∨ (m.nlm = cfg.L.empty ∧ m.size = 0 ∧ cfg.T.size m.trie = 0))

/-- `m'` arises from `m` by calls that store no label for a new key -/
def Quiet (I : ν → Prop) (P : ν → ν → Prop) (m m' : Map τ ν) : Prop :=
  I m'.nlm ∧ P m.nlm m'.nlm ∧ m'.isReady = m.isReady ∧ m'.size = m.size

/-- the label map call made for a new key, and the pointer returned -/
def Added (cfg : MapCfg τ ν) (n n' : ν) (l : Loc) : Prop :=
  (∃ i k, cfg.L.insert n i k = .ok (n', l)) ∨ ∃ k, cfg.L.append n k = .ok (n', l)

/-- what a successful `update` may do -/
def Step (cfg : MapCfg τ ν) (I : ν → Prop) (P : ν → ν → Prop) (m m' : Map τ ν) (r : UpdOut) : Prop :=
  Reg cfg I m' ∧ P m.nlm m'.nlm ∧ (∀ l, r = .ptr l → m'.isReady = true) ∧
    ((m'.size = m.size) ∨ (m'.size = m.size + 1 ∧ ∃ n l, I n ∧ P m.nlm n ∧ r = .ptr l ∧ Added cfg n m'.nlm l))

theorem expandIfNeeded_evo (E : Evo cfg.L I P) {m m' : Map τ ν} {v v' : Nat} (hI : I m.nlm)
    (h : expandIfNeeded cfg m v = .ok (m', v')) : Quiet I P m m' := by
  unfold expandIfNeeded at h
  split at h
  · cases h; exact ⟨hI, E.refl _, rfl, rfl⟩
  · split at h
    · cases h; exact ⟨hI, E.refl _, rfl, rfl⟩
    · obtain ⟨⟨t, nm⟩, _, h⟩ := R.bind_eq_ok h
      dsimp only at h
      obtain ⟨w, _, h⟩ := R.bind_eq_ok h
      obtain ⟨n, h1, h⟩ := R.bind_eq_ok h
      cases h
      obtain ⟨e1, e2⟩ := E.expand hI h1
      exact ⟨e1, e2, rfl, rfl⟩

theorem Quiet.trans (E : Evo cfg.L I P) {a b c : Map τ ν} (h1 : Quiet I P a b) (h2 : Quiet I P b c) : Quiet I P a c :=
  ⟨h2.1, E.trans h1.2.1 h2.2.1, h2.2.2.1.trans h1.2.2.1, h2.2.2.2.trans h1.2.2.2⟩

theorem updSteps_evo (E : Evo cfg.L I P) : ∀ (fuel : Nat) {m m' : Map τ ν} {v v' t t' : Nat}, I m.nlm →
    updSteps cfg fuel m v t = .ok (m', v', t') → Quiet I P m m' := by
  intro fuel
  induction fuel with
  | zero => intro m m' v v' t t' _ h; cases h
  | succ fuel ih =>
    intro m m' v v' t t' hI h
    unfold updSteps at h
    split at h
    · obtain ⟨⟨t1, v1, b⟩, _, h⟩ := R.bind_eq_ok h
      dsimp only at h
      have h0 : Quiet I P m { m with trie := t1 } := ⟨hI, E.refl _, rfl, rfl⟩
      split at h
      · obtain ⟨⟨m2, v2⟩, he, h⟩ := R.bind_eq_ok h
        dsimp only at h
        have h1 := h0.trans E (expandIfNeeded_evo E (m := { m with trie := t1 }) hI he)
        split at h
        · obtain ⟨_, _, h⟩ := R.bind_eq_ok h
          obtain ⟨n, hn, h⟩ := R.bind_eq_ok h
          obtain ⟨e1, e2⟩ := E.dummy h1.1 hn
          have h2 : Quiet I P m2 { m2 with nlm := n, numSteps := m2.numSteps + 1 } := ⟨e1, e2, rfl, rfl⟩
          exact (h1.trans E h2).trans E (ih (m := { m2 with nlm := n, numSteps := m2.numSteps + 1 }) e1 h)
        · have h2 : Quiet I P m2 { m2 with numSteps := m2.numSteps + 1 } := ⟨h1.1, E.refl _, rfl, rfl⟩
          exact (h1.trans E h2).trans E (ih (m := { m2 with numSteps := m2.numSteps + 1 }) h1.1 h)
      · exact h0.trans E (ih (m := { m with trie := t1 }) hI h)
    · cases h; exact ⟨hI, E.refl _, rfl, rfl⟩

theorem putLabel_evo (E : Evo cfg.L I P) {m m' : Map τ ν} {v : Nat} {k : List UInt8} {r : UpdOut} (hI : I m.nlm)
    (h : putLabel cfg m v k = .ok (m', r)) :
    I m'.nlm ∧ P m.nlm m'.nlm ∧ m'.isReady = m.isReady ∧ m'.size = m.size ∧ ∃ l, r = .ptr l ∧ Added cfg m.nlm m'.nlm l := by
  unfold putLabel at h
  split at h
  · obtain ⟨⟨n, l⟩, h1, h⟩ := R.bind_eq_ok h
    cases h
    obtain ⟨e1, e2⟩ := E.append hI h1
    exact ⟨e1, e2, rfl, rfl, l, rfl, Or.inr ⟨_, h1⟩⟩
  · obtain ⟨⟨n, l⟩, h1, h⟩ := R.bind_eq_ok h
    cases h
    obtain ⟨e1, e2⟩ := E.insert hI h1
    exact ⟨e1, e2, rfl, rfl, l, rfl, Or.inl ⟨_, _, h1⟩⟩

theorem updLoop_evo (E : Evo cfg.L I P) : ∀ (fuel : Nat) {m m' : Map τ ν} {v : Nat} {k : List UInt8} {r : UpdOut}, I m.nlm →
    updLoop cfg fuel m v k = .ok (m', r) →
    Quiet I P m m' ∨ (I m'.nlm ∧ P m.nlm m'.nlm ∧ m'.isReady = m.isReady ∧ m'.size = m.size + 1 ∧
      ∃ n l, I n ∧ P m.nlm n ∧ r = .ptr l ∧ Added cfg n m'.nlm l) := by
  intro fuel
  induction fuel with
  | zero => intro m m' v k r _ h; cases h
  | succ fuel ih =>
    intro m m' v k r hI h
    have hq : Quiet I P m m := ⟨hI, E.refl _, rfl, rfl⟩
    unfold updLoop at h
    split at h
    · obtain ⟨x, _, h⟩ := R.bind_eq_ok h
      split at h <;> cases h <;> exact Or.inl hq
    · obtain ⟨⟨vptr, mt⟩, _, h⟩ := R.bind_eq_ok h
      dsimp only at h
      split at h
      · cases h; exact Or.inl hq
      · obtain ⟨key, _, h⟩ := R.bind_eq_ok h
        obtain ⟨⟨m1, v1, mt1⟩, hs, h⟩ := R.bind_eq_ok h
        dsimp only at h
        have h1 := updSteps_evo E _ hI hs
        cases key with
        | nil => cases h
        | cons c rest =>
          dsimp only at h
          obtain ⟨code, _, h⟩ := R.bind_eq_ok h
          have cont : ∀ m2 : Map τ ν, Quiet I P m m2 → ∀ p : Prop, [Decidable p] → ((if p then pure (m2, UpdOut.exn)
              else do
                let s ← makeSymb cfg m2 c mt1
                let x ← cfg.T.addChild m2.trie v1 s
                if x.2.2 = true then do
                  let y ← expandIfNeeded cfg { m2 with trie := x.1 } x.2.1
                  R.assert (decide (cfg.T.kind = Kind.bonsai) || decide (y.2 = cfg.L.size y.1.nlm))
                  putLabel cfg { y.1 with size := y.1.size + 1 } y.2 rest
                else updLoop cfg fuel { m2 with trie := x.1 } x.2.1 rest) : R (Map τ ν × UpdOut)) = .ok (m', r) →
              Quiet I P m m' ∨ (I m'.nlm ∧ P m.nlm m'.nlm ∧ m'.isReady = m.isReady ∧ m'.size = m.size + 1 ∧
                ∃ n l, I n ∧ P m.nlm n ∧ r = .ptr l ∧ Added cfg n m'.nlm l) := by
            intro m2 h2 p _ h
            split at h
            · cases h; exact Or.inl h2
            · obtain ⟨s, _, h⟩ := R.bind_eq_ok h
              obtain ⟨⟨t3, v3, b3⟩, _, h⟩ := R.bind_eq_ok h
              dsimp only at h
              have h3 : Quiet I P m { m2 with trie := t3 } := h2
              split at h
              · obtain ⟨⟨m4, v4⟩, he, h⟩ := R.bind_eq_ok h
                dsimp only at h
                have h4 := h3.trans E (expandIfNeeded_evo E (m := { m2 with trie := t3 }) h3.1 he)
                obtain ⟨_, _, h⟩ := R.bind_eq_ok h
                obtain ⟨q1, q2, q3, q4, l, q5, q6⟩ := putLabel_evo E (m := { m4 with size := m4.size + 1 }) h4.1 h
                refine Or.inr ⟨q1, E.trans h4.2.1 q2, q3.trans h4.2.2.1, ?_, m4.nlm, l, h4.1, h4.2.1, q5, q6⟩
                rw [q4]; show m4.size + 1 = m.size + 1; rw [h4.2.2.2]
              · rcases ih (m := { m2 with trie := t3 }) h3.1 h with h5 | ⟨e1, e2, e3, e4, n, l, e5, e6, e7, e8⟩
                · exact Or.inl (h3.trans E h5)
                · exact Or.inr ⟨e1, E.trans h3.2.1 e2, e3.trans h3.2.2.1, by rw [e4, h3.2.2.2], n, l, e5, E.trans h3.2.1 e6, e7, e8⟩
          split at h
          · obtain ⟨cs, _, h⟩ := R.bind_eq_ok h
            rw [R.pure_eq, R.bind_ok] at h
            exact cont { m1 with codes := cs, numCodes := m1.numCodes + 1 } h1 _ h
          · rw [R.pure_eq, R.bind_ok] at h
            exact cont m1 h1 _ h

theorem make_evo (E : Evo cfg.L I P) {b lam : Nat} {m : Map τ ν} (h : make cfg b lam = .ok m) :
    I m.nlm ∧ P cfg.L.empty m.nlm ∧ m.isReady = true ∧ m.size = 0 := by
  unfold make at h
  split at h
  · cases h
  · obtain ⟨x, _, h⟩ := R.bind_eq_ok h
    obtain ⟨t, _, h⟩ := R.bind_eq_ok h
    obtain ⟨n, hn, h⟩ := R.bind_eq_ok h
    obtain ⟨cs, _, h⟩ := R.bind_eq_ok h
    cases h
    obtain ⟨e1, e2⟩ := E.make hn
    exact ⟨e1, e2, rfl, rfl⟩

/-- a successful `update` on a constructed map -/
theorem update_evo (E : Evo cfg.L I P) {m m' : Map τ ν} {k : List UInt8} {r : UpdOut} (hm : Reg cfg I m)
    (h : update cfg m k = .ok (m', r)) : Step cfg I P m m' r := by
  obtain ⟨hI, hr⟩ := hm
  unfold update at h
  split at h
  · cases h; exact ⟨⟨hI, hr⟩, E.refl _, (by rintro l ⟨⟩), Or.inl rfl⟩
  · split at h
    · rename_i ht
      have cont : ∀ m1 : Map τ ν, (I m1.nlm ∧ P m.nlm m1.nlm ∧ m1.isReady = true ∧ m1.size = m.size) → ((do
          let trie ← cfg.T.addRoot m1.trie
          let node ← cfg.T.getRoot trie
          putLabel cfg { m1 with size := m1.size + 1, trie := trie } node k) : R (Map τ ν × UpdOut)) = .ok (m', r) → Step cfg I P m m' r := by
        intro m1 hm1 h
        obtain ⟨t, _, h⟩ := R.bind_eq_ok h
        obtain ⟨v, _, h⟩ := R.bind_eq_ok h
        obtain ⟨q1, q2, q3, q4, l, q5, q6⟩ := putLabel_evo E (m := { m1 with size := m1.size + 1, trie := t }) hm1.1 h
        refine ⟨⟨q1, Or.inl (q3.trans hm1.2.2.1)⟩, E.trans hm1.2.1 q2, fun _ _ => q3.trans hm1.2.2.1, Or.inr ⟨?_, m1.nlm, l, hm1.1, hm1.2.1, q5, q6⟩⟩
        rw [q4]; show m1.size + 1 = _; rw [hm1.2.2.2]
      split at h
      · rename_i hnr
        obtain ⟨m1, h1, h⟩ := R.bind_eq_ok h
        obtain ⟨q1, q2, q3, q4⟩ := make_evo E h1
        have hf : m.isReady = false := by simpa using hnr
        rcases hr with hr | ⟨hr, hr0, _⟩
        · rw [hr] at hf; cases hf
        · rw [← hr] at q2; exact cont m1 ⟨q1, q2, q3, by rw [q4, hr0]⟩ h
      · rename_i hnr
        rw [R.pure_eq, R.bind_ok] at h
        exact cont m ⟨hI, E.refl _, by simpa using hnr, rfl⟩ h
    · rename_i ht
      have hready : m.isReady = true := by
        rcases hr with hr | ⟨_, _, hr⟩
        · exact hr
        · exact absurd hr ht
      obtain ⟨v, _, h⟩ := R.bind_eq_ok h
      rcases updLoop_evo E _ hI h with q | ⟨e1, e2, e3, e4, n, l, e5, e6, e7, e8⟩
      · exact ⟨⟨q.1, Or.inl (q.2.2.1.trans hready)⟩, q.2.1, fun _ _ => q.2.2.1.trans hready, Or.inl q.2.2.2⟩
      · exact ⟨⟨e1, Or.inl (e3.trans hready)⟩, e2, fun _ _ => e3.trans hready, Or.inr ⟨e4, n, l, e5, e6, e7, e8⟩⟩

/-- what a successful operation may do -/
def XStep (cfg : MapCfg τ ν) (I : ν → Prop) (P : ν → ν → Prop) (m m' : Map τ ν) : Prop :=
  Reg cfg I m' ∧ P m.nlm m'.nlm ∧ ((m'.size = m.size) ∨ (m'.size = m.size + 1 ∧
    ∃ n n' l, I n ∧ P m.nlm n ∧ Added cfg n n' l ∧ P n' m'.nlm))

theorem Step.x (E : Evo cfg.L I P) {m m' : Map τ ν} {r : UpdOut} (h : Step cfg I P m m' r) : XStep cfg I P m m' := by
  obtain ⟨q1, q2, _, q | ⟨q, n, l, e1, e2, _, e4⟩⟩ := h
  · exact ⟨q1, q2, Or.inl q⟩
  · exact ⟨q1, q2, Or.inr ⟨q, n, _, l, e1, e2, e4, E.refl _⟩⟩

/-- a successful operation -/
theorem exec_evo (E : Evo cfg.L I P) {m m' : Map τ ν} {o : Op} {x : Out} (hm : Reg cfg I m)
    (h : exec cfg m o = .ok (m', x)) : XStep cfg I P m m' := by
  have hq : XStep cfg I P m m := ⟨hm, E.refl _, Or.inl rfl⟩
  cases o with
  | find k =>
    simp only [exec] at h
    split at h
    · cases h; exact hq
    · cases h
    · cases h; exact hq
    · obtain ⟨v, _, h⟩ := R.bind_eq_ok h
      cases h; exact hq
  | size => cases h; exact hq
  | update k =>
    obtain ⟨⟨m1, r⟩, h1, h⟩ := R.bind_eq_ok h
    have q := (update_evo E hm h1).x E
    dsimp only at h
    split at h
    · obtain ⟨v, _, h⟩ := R.bind_eq_ok h
      cases h; exact q
    · cases h; exact q
    · cases h; exact q
  | write k v =>
    obtain ⟨⟨m1, r⟩, h1, h⟩ := R.bind_eq_ok h
    have q0 := update_evo E hm h1
    have q := q0.x E
    dsimp only at h
    split at h
    · obtain ⟨m2, h2, h⟩ := R.bind_eq_ok h
      cases h
      obtain ⟨n, h3, h2⟩ := R.bind_eq_ok h2
      cases h2
      obtain ⟨e1, e2⟩ := E.store q.1.1 h3
      refine ⟨⟨e1, Or.inl (q0.2.2.1 _ rfl)⟩, E.trans q.2.1 e2, ?_⟩
      rcases q.2.2 with q | ⟨q, n, n', l, f1, f2, f3, f4⟩
      · exact Or.inl q
      · exact Or.inr ⟨q, n, n', l, f1, f2, f3, E.trans f4 e2⟩
    · cases h; exact q
    · cases h; exact q

/-- a successful history -/
theorem run_evo (E : Evo cfg.L I P) : ∀ (os : List Op) {m m' : Map τ ν} {xs : List Out}, Reg cfg I m →
    run cfg m os = .ok (m', xs) → Reg cfg I m' ∧ P m.nlm m'.nlm := by
  intro os
  induction os with
  | nil => intro m m' xs hm h; cases h; exact ⟨hm, E.refl _⟩
  | cons o os ih =>
    intro m m' xs hm h
    obtain ⟨⟨m1, x⟩, h1, h⟩ := R.bind_eq_ok h
    obtain ⟨⟨m2, ys⟩, h2, h⟩ := R.bind_eq_ok h
    cases h
    obtain ⟨q1, q2, _⟩ := exec_evo E hm h1
    obtain ⟨q3, q4⟩ := ih q1 h2
    exact ⟨q3, E.trans q2 q4⟩

/-- a number `f` of the label map that each new key increases grows at least as the number of keys does -/
theorem run_count (E : Evo cfg.L I P) (f : ν → Nat) (hP : ∀ {n n'}, P n n' → f n ≤ f n')
    (hA : ∀ {n n' l}, I n → Added cfg n n' l → f n < f n') : ∀ (os : List Op) {m m' : Map τ ν} {xs : List Out}, Reg cfg I m →
    run cfg m os = .ok (m', xs) → m'.size + f m.nlm ≤ m.size + f m'.nlm := by
  intro os
  induction os with
  | nil => intro m m' xs hm h; cases h; exact Nat.le_refl _
  | cons o os ih =>
    intro m m' xs hm h
    obtain ⟨⟨m1, x⟩, h1, h⟩ := R.bind_eq_ok h
    obtain ⟨⟨m2, ys⟩, h2, h⟩ := R.bind_eq_ok h
    cases h
    obtain ⟨q1, q2, q3⟩ := exec_evo E hm h1
    have := ih q1 h2
    rcases q3 with q3 | ⟨q3, n, n', l, e1, e2, e3, e4⟩
    · have := hP q2; omega
    · have := hP e2; have := hA e1 e3; have := hP e4; omega

end Map
end Poplar
