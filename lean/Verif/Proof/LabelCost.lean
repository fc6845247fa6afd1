import Verif.Spec.Memory
import Verif.Proof.Pointers
/-
  How many bytes the labels take, at most: an argument on the control flow of `update`.
-/
namespace Poplar
open Spec

/-- `μ` are the bytes used by a label map; a new label of `l` bytes takes at most `f l`, a node without label `d` -/
structure Meter {ν : Type} (L : NlmOps ν) (μ : ν → Nat) (f : Nat → Nat) (d : Nat) : Prop where
  mono : ∀ {i j}, i ≤ j → f i ≤ f j
  empty : μ L.empty = 0
  make : ∀ {b n}, L.make b = .ok n → μ n = 0
  insert : ∀ {n i k n' l}, L.insert n i k = .ok (n', l) → μ n' ≤ μ n + f k.length
  append : ∀ {n k n' l}, L.append n k = .ok (n', l) → μ n' ≤ μ n + f k.length
  dummy : ∀ {n n'}, L.appendDummy n = .ok n' → μ n' ≤ μ n + d
  expand : ∀ {n nm n'}, L.expand n nm = .ok n' → μ n' = μ n
  store : ∀ {n l v n'}, L.store n l v = .ok n' → μ n' = μ n

namespace Map
variable {τ ν : Type} {cfg : MapCfg τ ν} {μ : ν → Nat} {f : Nat → Nat} {d : Nat}

/-- the labels of `m'` take at most `c` bytes more than those of `m`, not counting step nodes -/
structure Cost (μ : ν → Nat) (d : Nat) (m m' : Map τ ν) (c : Nat) : Prop where
  bytes : μ m'.nlm + d * m.numSteps ≤ μ m.nlm + d * m'.numSteps + c
  ready : m'.isReady = m.isReady

theorem Cost.refl (m : Map τ ν) : Cost μ d m m 0 := ⟨Nat.le_refl _, rfl⟩

theorem Cost.trans {a b c : Map τ ν} {x y : Nat} (h : Cost μ d a b x) (h' : Cost μ d b c y) : Cost μ d a c (x + y) :=
  ⟨by have := h.bytes; have := h'.bytes; omega, h'.ready.trans h.ready⟩

theorem expandIfNeeded_cost (M : Meter cfg.L μ f d) {m m' : Map τ ν} {v v' : Nat} (h : expandIfNeeded cfg m v = .ok (m', v')) :
    Cost μ d m m' 0 ∧ m'.size = m.size := by
  unfold expandIfNeeded at h
  split at h
  · cases h; exact ⟨Cost.refl _, rfl⟩
  · split at h
    · cases h; exact ⟨Cost.refl _, rfl⟩
    · obtain ⟨⟨t, nm⟩, _, h⟩ := R.bind_eq_ok h
      dsimp only at h
      obtain ⟨w, _, h⟩ := R.bind_eq_ok h
      obtain ⟨n, h1, h⟩ := R.bind_eq_ok h
      cases h
      refine ⟨⟨?_, rfl⟩, rfl⟩
      show μ n + d * m.numSteps ≤ μ m.nlm + d * m.numSteps + 0
      rw [M.expand h1]; omega

theorem updSteps_cost (M : Meter cfg.L μ f d) : ∀ (fuel : Nat) {m m' : Map τ ν} {v v' t t' : Nat},
    updSteps cfg fuel m v t = .ok (m', v', t') → Cost μ d m m' 0 ∧ m'.size = m.size := by
  intro fuel
  induction fuel with
  | zero => intro m m' v v' t t' h; cases h
  | succ fuel ih =>
    intro m m' v v' t t' h
    unfold updSteps at h
    split at h
    · obtain ⟨⟨t1, v1, b⟩, _, h⟩ := R.bind_eq_ok h
      dsimp only at h
      have h0 : Cost μ d m { m with trie := t1 } 0 := ⟨Nat.le_refl _, rfl⟩
      split at h
      · obtain ⟨⟨m2, v2⟩, he, h⟩ := R.bind_eq_ok h
        dsimp only at h
        obtain ⟨e1, e2⟩ := expandIfNeeded_cost M (m := { m with trie := t1 }) he
        have e2 : m2.size = m.size := e2
        have h1 := h0.trans e1
        split at h
        · obtain ⟨_, _, h⟩ := R.bind_eq_ok h
          obtain ⟨n, hn, h⟩ := R.bind_eq_ok h
          have hd := M.dummy hn
          have h2 : Cost μ d m2 { m2 with nlm := n, numSteps := m2.numSteps + 1 } 0 := by
            refine ⟨?_, rfl⟩
            show μ n + d * m2.numSteps ≤ μ m2.nlm + d * (m2.numSteps + 1) + 0
            rw [Nat.mul_add]; omega
          obtain ⟨i1, i2⟩ := ih (m := { m2 with nlm := n, numSteps := m2.numSteps + 1 }) h
          exact ⟨(h1.trans h2).trans i1, i2.trans e2⟩
        · have h2 : Cost μ d m2 { m2 with numSteps := m2.numSteps + 1 } 0 := by
            refine ⟨?_, rfl⟩
            show μ m2.nlm + d * m2.numSteps ≤ μ m2.nlm + d * (m2.numSteps + 1) + 0
            rw [Nat.mul_add]; omega
          obtain ⟨i1, i2⟩ := ih (m := { m2 with numSteps := m2.numSteps + 1 }) h
          exact ⟨(h1.trans h2).trans i1, i2.trans e2⟩
      · obtain ⟨i1, i2⟩ := ih (m := { m with trie := t1 }) h
        exact ⟨h0.trans i1, i2⟩
    · cases h; exact ⟨Cost.refl _, rfl⟩

theorem putLabel_cost (M : Meter cfg.L μ f d) {m m' : Map τ ν} {v : Nat} {k : List UInt8} {r : UpdOut}
    (h : putLabel cfg m v k = .ok (m', r)) : Cost μ d m m' (f k.length) ∧ m'.size = m.size := by
  unfold putLabel at h
  split at h
  · obtain ⟨⟨n, l⟩, h1, h⟩ := R.bind_eq_ok h
    cases h
    refine ⟨⟨?_, rfl⟩, rfl⟩
    have := M.append h1
    show μ n + _ ≤ _; dsimp only; omega
  · obtain ⟨⟨n, l⟩, h1, h⟩ := R.bind_eq_ok h
    cases h
    refine ⟨⟨?_, rfl⟩, rfl⟩
    have := M.insert h1
    show μ n + _ ≤ _; dsimp only; omega

/-- nothing added, or one key of `l` bytes -/
def Cost1 (μ : ν → Nat) (f : Nat → Nat) (d : Nat) (m m' : Map τ ν) (l : Nat) : Prop :=
  (m'.size = m.size ∧ Cost μ d m m' 0) ∨ (m'.size = m.size + 1 ∧ Cost μ d m m' (f l))

theorem Cost1.pre {m m1 m' : Map τ ν} {l : Nat} (h : Cost μ d m m1 0) (hs : m1.size = m.size) (h' : Cost1 μ f d m1 m' l) :
    Cost1 μ f d m m' l := by
  rcases h' with ⟨a, b⟩ | ⟨a, b⟩
  · exact Or.inl ⟨a.trans hs, h.trans b⟩
  · refine Or.inr ⟨by rw [a, hs], ?_⟩
    have := h.trans b
    rwa [Nat.zero_add] at this

theorem Cost1.mono (M : Meter cfg.L μ f d) {m m' : Map τ ν} {l l' : Nat} (hl : l ≤ l') (h : Cost1 μ f d m m' l) : Cost1 μ f d m m' l' := by
  rcases h with h | ⟨a, b⟩
  · exact Or.inl h
  · exact Or.inr ⟨a, ⟨Nat.le_trans b.bytes (by have := M.mono hl; omega), b.ready⟩⟩

theorem updLoop_cost (M : Meter cfg.L μ f d) : ∀ (fuel : Nat) {m m' : Map τ ν} {v : Nat} {k : List UInt8} {r : UpdOut},
    updLoop cfg fuel m v k = .ok (m', r) → Cost1 μ f d m m' k.length := by
  intro fuel
  induction fuel with
  | zero => intro m m' v k r h; cases h
  | succ fuel ih =>
    intro m m' v k r h
    have hq : Cost1 μ f d m m k.length := Or.inl ⟨rfl, Cost.refl _⟩
    unfold updLoop at h
    split at h
    · obtain ⟨x, _, h⟩ := R.bind_eq_ok h
      split at h <;> cases h <;> exact hq
    · obtain ⟨⟨vptr, mt⟩, _, h⟩ := R.bind_eq_ok h
      dsimp only at h
      split at h
      · cases h; exact hq
      · obtain ⟨key, hadv, h⟩ := R.bind_eq_ok h
        have hlen : key.length ≤ k.length := by
          unfold advance at hadv
          split at hadv
          · cases hadv; rw [List.length_drop]; omega
          · cases hadv
        obtain ⟨⟨m1, v1, mt1⟩, hs, h⟩ := R.bind_eq_ok h
        dsimp only at h
        obtain ⟨h1, h1s⟩ := updSteps_cost M _ hs
        cases key with
        | nil => cases h
        | cons c rest =>
          dsimp only at h
          rw [List.length_cons] at hlen
          obtain ⟨code, _, h⟩ := R.bind_eq_ok h
          have cont : ∀ m2 : Map τ ν, Cost μ d m m2 0 → m2.size = m.size → ∀ p : Prop, [Decidable p] → ((if p then pure (m2, UpdOut.exn)
              else do
                let s ← makeSymb cfg m2 c mt1
                let x ← cfg.T.addChild m2.trie v1 s
                if x.2.2 = true then do
                  let y ← expandIfNeeded cfg { m2 with trie := x.1 } x.2.1
                  R.assert (decide (cfg.T.kind = Kind.bonsai) || decide (y.2 = cfg.L.size y.1.nlm))
                  putLabel cfg { y.1 with size := y.1.size + 1 } y.2 rest
                else updLoop cfg fuel { m2 with trie := x.1 } x.2.1 rest) : R (Map τ ν × UpdOut)) = .ok (m', r) →
              Cost1 μ f d m m' k.length := by
            intro m2 h2 h2s p _ h
            split at h
            · cases h; exact Or.inl ⟨h2s, h2⟩
            · obtain ⟨s, _, h⟩ := R.bind_eq_ok h
              obtain ⟨⟨t3, v3, b3⟩, _, h⟩ := R.bind_eq_ok h
              dsimp only at h
              have h3 : Cost μ d m { m2 with trie := t3 } 0 := ⟨h2.bytes, h2.ready⟩
              refine Cost1.mono M (l := rest.length) (by omega) ?_
              refine Cost1.pre h3 h2s ?_
              split at h
              · obtain ⟨⟨m4, v4⟩, he, h⟩ := R.bind_eq_ok h
                dsimp only at h
                obtain ⟨h4, h4s⟩ := expandIfNeeded_cost M (m := { m2 with trie := t3 }) he
                refine Cost1.pre h4 h4s ?_
                obtain ⟨_, _, h⟩ := R.bind_eq_ok h
                obtain ⟨q1, q2⟩ := putLabel_cost M (m := { m4 with size := m4.size + 1 }) h
                exact Or.inr ⟨q2, ⟨q1.bytes, q1.ready⟩⟩
              · exact ih h
          split at h
          · obtain ⟨cs, _, h⟩ := R.bind_eq_ok h
            rw [R.pure_eq, R.bind_ok] at h
            exact cont { m1 with codes := cs, numCodes := m1.numCodes + 1 } ⟨h1.bytes, h1.ready⟩ h1s _ h
          · rw [R.pure_eq, R.bind_ok] at h
            exact cont m1 h1 h1s _ h

theorem make_cost (M : Meter cfg.L μ f d) {b lam : Nat} {m : Map τ ν} (h : make cfg b lam = .ok m) :
    μ m.nlm = 0 ∧ m.numSteps = 0 ∧ m.isReady = true ∧ m.size = 0 := by
  unfold make at h
  split at h
  · cases h
  · obtain ⟨x, _, h⟩ := R.bind_eq_ok h
    obtain ⟨t, _, h⟩ := R.bind_eq_ok h
    obtain ⟨n, hn, h⟩ := R.bind_eq_ok h
    obtain ⟨cs, _, h⟩ := R.bind_eq_ok h
    cases h
    exact ⟨M.make hn, rfl, rfl, rfl⟩

/-- nothing has happened to a map that is not ready -/
def Idle (m : Map τ ν) : Prop := m.isReady = false → m.numSteps = 0 ∧ m.size = 0

/-- the bytes used by an operation on a key of `l` bytes -/
def CostX (μ : ν → Nat) (f : Nat → Nat) (d : Nat) (m m' : Map τ ν) (l : Nat) : Prop :=
  Idle m' ∧ ((m'.size = m.size ∧ μ m'.nlm + d * m.numSteps ≤ μ m.nlm + d * m'.numSteps) ∨
    (m'.size = m.size + 1 ∧ μ m'.nlm + d * m.numSteps ≤ μ m.nlm + d * m'.numSteps + f l))

theorem Cost1.x {m m' : Map τ ν} {l : Nat} (h : Cost1 μ f d m m' l) (hr : m.isReady = true) : CostX μ f d m m' l := by
  rcases h with ⟨a, b⟩ | ⟨a, b⟩
  · refine ⟨fun h => ?_, Or.inl ⟨a, b.bytes⟩⟩
    rw [b.ready, hr] at h; cases h
  · refine ⟨fun h => ?_, Or.inr ⟨a, b.bytes⟩⟩
    rw [b.ready, hr] at h; cases h

theorem update_cost (M : Meter cfg.L μ f d) {m m' : Map τ ν} {k : List UInt8} {r : UpdOut} (hm : Idle m)
    (h0 : m.isReady = false → cfg.T.size m.trie = 0) (h : update cfg m k = .ok (m', r)) : CostX μ f d m m' k.length := by
  unfold update at h
  split at h
  · cases h; exact ⟨hm, Or.inl ⟨rfl, Nat.le_refl _⟩⟩
  · split at h
    · have cont : ∀ m1 : Map τ ν, m1.isReady = true → m1.size = m.size → m1.numSteps = m.numSteps → μ m1.nlm ≤ μ m.nlm → ((do
          let trie ← cfg.T.addRoot m1.trie
          let node ← cfg.T.getRoot trie
          putLabel cfg { m1 with size := m1.size + 1, trie := trie } node k) : R (Map τ ν × UpdOut)) = .ok (m', r) →
          CostX μ f d m m' k.length := by
        intro m1 c1 c2 c3 c4 h
        obtain ⟨t, _, h⟩ := R.bind_eq_ok h
        obtain ⟨v, _, h⟩ := R.bind_eq_ok h
        obtain ⟨q1, q2⟩ := putLabel_cost M (m := { m1 with size := m1.size + 1, trie := t }) h
        have q3 := q1.ready
        have q4 := q1.bytes
        dsimp only at q2 q3 q4
        refine ⟨fun h => ?_, Or.inr ⟨by rw [q2, c2], ?_⟩⟩
        · rw [q3, c1] at h; cases h
        · rw [← c3]; omega
      split at h
      · rename_i hnr
        obtain ⟨m1, h1, h⟩ := R.bind_eq_ok h
        obtain ⟨q1, q2, q3, q4⟩ := make_cost M h1
        obtain ⟨i1, i2⟩ := hm (by simpa using hnr)
        exact cont m1 q3 (q4.trans i2.symm) (q2.trans i1.symm) (by rw [q1]; exact Nat.zero_le _) h
      · rename_i hnr
        rw [R.pure_eq, R.bind_ok] at h
        exact cont m (by simpa using hnr) rfl rfl (Nat.le_refl _) h
    · rename_i ht
      obtain ⟨v, _, h⟩ := R.bind_eq_ok h
      refine (updLoop_cost M _ h).x ?_
      cases e : m.isReady with
      | true => rfl
      | false => exact absurd (h0 e) ht

theorem exec_cost (M : Meter cfg.L μ f d) {m m' : Map τ ν} {o : Op} {x : Out} (hm : Idle m)
    (h0 : m.isReady = false → cfg.T.size m.trie = 0) (h : exec cfg m o = .ok (m', x)) :
    CostX μ f d m m' o.cost := by
  have hq : ∀ l, CostX μ f d m m l := fun l => ⟨hm, Or.inl ⟨rfl, Nat.le_refl _⟩⟩
  cases o with
  | find k =>
    simp only [exec] at h
    split at h
    · cases h; exact hq _
    · cases h
    · cases h; exact hq _
    · obtain ⟨v, _, h⟩ := R.bind_eq_ok h
      cases h; exact hq _
  | size => cases h; exact hq _
  | update k =>
    obtain ⟨⟨m1, r⟩, h1, h⟩ := R.bind_eq_ok h
    have q := update_cost M hm h0 h1
    dsimp only at h
    split at h
    · obtain ⟨v, _, h⟩ := R.bind_eq_ok h
      cases h; exact q
    · cases h; exact q
    · cases h; exact q
  | write k v =>
    obtain ⟨⟨m1, r⟩, h1, h⟩ := R.bind_eq_ok h
    have q := update_cost M hm h0 h1
    dsimp only at h
    split at h
    · obtain ⟨m2, h2, h⟩ := R.bind_eq_ok h
      cases h
      obtain ⟨n, h3, h2⟩ := R.bind_eq_ok h2
      cases h2
      have e := M.store h3
      unfold CostX Idle at q ⊢
      dsimp only
      rw [e]
      exact q
    · cases h; exact q
    · cases h; exact q

end Map

/-! ### the label maps -/

theorem VByte.sizeGo_le : ∀ (k n v : Nat), sizeGo k n v + 1 ≤ n + groups7 v := by
  intro k
  induction k with
  | zero => intro n v; unfold sizeGo groups7; split <;> omega
  | succ k ih =>
    intro n v
    unfold sizeGo groups7
    split
    · rename_i h
      rw [if_neg (by omega)]
      have := ih (n + 1) (v >>> 7)
      rw [Nat.shiftRight_eq_div_pow] at this ⊢
      have e : (2 : Nat) ^ 7 = 128 := rfl
      rw [e] at this ⊢
      omega
    · split <;> omega

theorem VByte.size_le (v : Nat) : size v ≤ groups7 v := by
  have := sizeGo_le fuel 1 v
  unfold size; omega

theorem groups7_mono : ∀ (i j : Nat), i ≤ j → groups7 i ≤ groups7 j := by
  intro i
  induction i using Nat.strongRecOn with
  | ind i ih =>
    intro j hij
    unfold groups7
    split
    · split <;> omega
    · rw [if_neg (by omega)]
      have := ih (i / 128) (by omega) (j / 128) (Nat.div_le_div_right hij)
      omega

/-- bytes for a label of `l` bytes in the compact label maps -/
def entryCost (vs l : Nat) : Nat := groups7 (l - 1 + vs) + (l - 1 + vs)

theorem entryCost_mono {vs i j : Nat} (h : i ≤ j) : entryCost vs i ≤ entryCost vs j := by
  unfold entryCost
  have := groups7_mono (i - 1 + vs) (j - 1 + vs) (by omega)
  omega

theorem PlainBonsaiNlm.meter (vs : Nat) : Meter (PlainBonsaiNlm.ops vs) (·.labelBytes) (· + vs) 0 where
  mono := fun h => Nat.add_le_add_right h _
  empty := rfl
  make := by
    intro b n h
    unfold ops make at h
    dsimp only at h
    split at h <;> cases h
    rfl
  insert := by
    intro n i k n' l h
    obtain ⟨_, _, h⟩ := R.bind_eq_ok h
    obtain ⟨_, _, h⟩ := R.bind_eq_ok h
    dsimp only at h
    obtain ⟨_, _, h⟩ := R.bind_eq_ok h
    obtain ⟨_, _, h⟩ := R.bind_eq_ok h
    obtain ⟨_, _, h⟩ := R.bind_eq_ok h
    cases h; exact Nat.le_refl _
  append := by intro n k n' l h; cases h
  dummy := by intro n n' h; cases h
  expand := by
    intro n nm n' h
    obtain ⟨_, _, h⟩ := R.bind_eq_ok h
    obtain ⟨_, _, h⟩ := R.bind_eq_ok h
    cases h; rfl
  store := by
    intro n l v n' h
    unfold ops store at h
    dsimp only at h
    split at h
    · cases h
    · obtain ⟨_, _, h⟩ := R.bind_eq_ok h
      cases h; rfl

theorem PlainFkNlm.meter (vs : Nat) : Meter (PlainFkNlm.ops vs) (·.labelBytes) (· + vs) 0 where
  mono := fun h => Nat.add_le_add_right h _
  empty := rfl
  make := by
    intro b n h
    unfold ops make at h
    dsimp only at h
    split at h <;> cases h
    rfl
  insert := by intro n i k n' l h; cases h
  append := by
    intro n k n' l h
    unfold ops append at h
    dsimp only at h
    obtain ⟨_, _, h⟩ := R.bind_eq_ok h
    obtain ⟨_, _, h⟩ := R.bind_eq_ok h
    cases h; exact Nat.le_refl _
  dummy := by intro n n' h; cases h; exact Nat.le_refl _
  expand := by intro n nm n' h; cases h
  store := by
    intro n l v n' h
    unfold ops store at h
    dsimp only at h
    split at h
    · cases h
    · obtain ⟨_, _, h⟩ := R.bind_eq_ok h
      cases h; rfl

theorem lab_len (k : List UInt8) : (if k.isEmpty then 0 else k.length - 1) = k.length - 1 := by
  cases k <;> rfl

theorem CompactBonsaiNlm.meter (W vs : Nat) : Meter (CompactBonsaiNlm.ops W vs) (·.labelBytes) (entryCost vs) 0 where
  mono := entryCost_mono
  empty := rfl
  make := by
    intro b n h
    unfold ops make at h
    dsimp only at h
    split at h <;> cases h
    rfl
  insert := by
    intro n i k n' l h
    obtain ⟨_, _, h⟩ := R.bind_eq_ok h
    obtain ⟨_, _, h⟩ := R.bind_eq_ok h
    obtain ⟨_, _, h⟩ := R.bind_eq_ok h
    obtain ⟨_, _, h⟩ := R.bind_eq_ok h
    obtain ⟨_, _, h⟩ := R.bind_eq_ok h
    dsimp only at h
    rw [lab_len] at h
    have hs := VByte.size_le (k.length - 1 + vs)
    obtain ⟨_, _, h⟩ := R.bind_eq_ok h
    split at h
    · obtain ⟨_, _, h⟩ := R.bind_eq_ok h
      obtain ⟨_, _, h⟩ := R.bind_eq_ok h
      obtain ⟨_, _, h⟩ := R.bind_eq_ok h
      obtain ⟨_, _, h⟩ := R.bind_eq_ok h
      cases h
      unfold entryCost; dsimp only; omega
    · obtain ⟨_, _, h⟩ := R.bind_eq_ok h
      obtain ⟨_, _, h⟩ := R.bind_eq_ok h
      obtain ⟨_, _, h⟩ := R.bind_eq_ok h
      obtain ⟨_, _, h⟩ := R.bind_eq_ok h
      obtain ⟨_, _, h⟩ := R.bind_eq_ok h
      obtain ⟨_, _, h⟩ := R.bind_eq_ok h
      obtain ⟨_, _, h⟩ := R.bind_eq_ok h
      obtain ⟨_, _, h⟩ := R.bind_eq_ok h
      cases h
      unfold entryCost; dsimp only; omega
  append := by intro n k n' l h; cases h
  dummy := by intro n n' h; cases h
  expand := by
    intro n nm n' h
    obtain ⟨_, _, h⟩ := R.bind_eq_ok h
    obtain ⟨_, _, h⟩ := R.bind_eq_ok h
    obtain ⟨_, _, h⟩ := R.bind_eq_ok h
    obtain ⟨_, _, h⟩ := R.bind_eq_ok h
    cases h; rfl
  store := by
    intro n l v n' h
    unfold ops store at h
    dsimp only at h
    split at h
    · cases h
    · obtain ⟨_, _, h⟩ := R.bind_eq_ok h
      cases h; rfl

namespace CompactFkNlm

/-- the bytes stored, including those in the buffer -/
def total (m : CompactFkNlm) : Nat := m.labelBytes + m.chunkBuf.length

theorem nextSlot_total {W : Nat} {m m' : CompactFkNlm} (h : nextSlot W m = .ok m') : m'.total = m.total := by
  unfold nextSlot at h
  dsimp only at h
  split at h
  · unfold releaseBuf at h
    dsimp only at h
    obtain ⟨_, _, h⟩ := R.bind_eq_ok h
    cases h
    simp [total]
  · cases h; rfl

theorem overwrite_len : ∀ (v : List UInt8) {b : List UInt8} {off : Nat} {b' : List UInt8}, overwrite b off v = .ok b' → b'.length = b.length := by
  intro v
  induction v with
  | nil => intro b off b' h; cases h; rfl
  | cons x v ih =>
    intro b off b' h
    unfold overwrite at h
    split at h
    · rw [ih h, List.length_set]
    · cases h

theorem meter (W vs : Nat) : Meter (CompactFkNlm.ops W vs) total (entryCost vs) 1 where
  mono := entryCost_mono
  empty := rfl
  make := by
    intro b n h
    unfold ops make at h
    dsimp only at h
    split at h <;> cases h
    rfl
  insert := by intro n i k n' l h; cases h
  append := by
    intro n k n' l h
    obtain ⟨m1, h1, h⟩ := R.bind_eq_ok h
    have e := nextSlot_total h1
    dsimp only at h
    rw [lab_len] at h
    cases h
    have hs := VByte.size_le (k.length - 1 + vs)
    rw [VByte.size_eq] at hs
    rw [← e]
    unfold total entryCost VByte.append
    simp only [List.length_append, List.length_take, List.length_replicate]
    omega
  dummy := by
    intro n n' h
    obtain ⟨m1, h1, h⟩ := R.bind_eq_ok h
    have e := nextSlot_total h1
    cases h
    rw [← e]
    unfold total VByte.append
    simp only [List.length_append]
    have : (VByte.bytesGo VByte.fuel 0).length = 1 := rfl
    omega
  expand := by intro n nm n' h; cases h
  store := by
    intro n l v n' h
    unfold ops store at h
    dsimp only at h
    split at h
    · split at h
      · obtain ⟨_, h1, h⟩ := R.bind_eq_ok h
        cases h
        simp only [total, overwrite_len _ h1]
      · cases h
    · obtain ⟨_, _, h⟩ := R.bind_eq_ok h
      cases h; rfl

end CompactFkNlm

/-! ### histories -/

theorem Spec.Dict.set_keys (d : Dict) (k : Key) (v : Val) :
    ((d.set k v).length = d.length ∧ (d.set k v).map (·.1) = d.map (·.1)) ∨
    ((d.set k v).length = d.length + 1 ∧ (d.set k v).map (·.1) = d.map (·.1) ++ [k]) := by
  induction d with
  | nil => exact Or.inr ⟨rfl, rfl⟩
  | cons e d ih =>
    obtain ⟨k', v'⟩ := e
    unfold Dict.set
    split
    · rename_i h; subst h; exact Or.inl ⟨rfl, rfl⟩
    · rcases ih with ⟨a, b⟩ | ⟨a, b⟩
      · exact Or.inl ⟨by simp [a], by simp [b]⟩
      · exact Or.inr ⟨by simp [a], by simp [b]⟩

/-- an operation adds no key, or one key, of length `o.cost` -/
theorem Spec.AState.step_adds {vs : Nat} {s s' : AState} {o : Op} {x : Out} (h : s.step vs o = some (s', x)) :
    (s'.dict.length = s.dict.length ∧ s'.dict.map (·.1) = s.dict.map (·.1)) ∨
    ∃ k, s'.dict.length = s.dict.length + 1 ∧ k.length = o.cost ∧ s'.dict.map (·.1) = s.dict.map (·.1) ++ [k] := by
  have key : ∀ d : Dict, ((Spec.step vs d o).1.length = d.length ∧ (Spec.step vs d o).1.map (·.1) = d.map (·.1)) ∨
      ∃ k, (Spec.step vs d o).1.length = d.length + 1 ∧ k.length = o.cost ∧ (Spec.step vs d o).1.map (·.1) = d.map (·.1) ++ [k] := by
    intro d
    have hset : ∀ k v, o.cost = k.length → ((d.set k v).length = d.length ∧ (d.set k v).map (·.1) = d.map (·.1)) ∨
        ∃ k', (d.set k v).length = d.length + 1 ∧ k'.length = o.cost ∧ (d.set k v).map (·.1) = d.map (·.1) ++ [k'] := by
      intro k v hk
      rcases Dict.set_keys d k v with h | ⟨h1, h2⟩
      · exact Or.inl h
      · exact Or.inr ⟨k, h1, hk.symm, h2⟩
    cases o with
    | find k => simp only [Spec.step]; split <;> exact Or.inl ⟨rfl, rfl⟩
    | size => exact Or.inl ⟨rfl, rfl⟩
    | update k =>
      simp only [Spec.step]
      split
      · exact Or.inl ⟨rfl, rfl⟩
      · split
        · exact Or.inl ⟨rfl, rfl⟩
        · exact hset _ _ rfl
    | write k v =>
      simp only [Spec.step]
      split
      · exact Or.inl ⟨rfl, rfl⟩
      · exact hset _ _ rfl
  unfold AState.step at h
  split at h
  · injection h with h; injection h with h _; subst h; exact key _
  · split at h
    · injection h with h; injection h with h _; subst h; exact key _
    · split at h
      · injection h with h; injection h with h _; subst h; exact Or.inl ⟨rfl, rfl⟩
      · cases h

namespace Alias
variable {a : Alias} {p : Params} {i : Init} {K : Key → Prop}

/-- the labels of a map take at most the sum of the costs of its keys and of its step nodes -/
theorem label_cost {μ : a.Nlm → Nat} {f : Nat → Nat} {d : Nat} (M : Meter (a.cfg p).L μ f d)
    {m0 : Map a.Trie a.Nlm} (h0 : a.new p i = .ok m0) (os : List Op) : a.Admissible p i K os →
    ∀ {s : AState} {ys : List Out}, AState.run p.valSize {} os = some (s, ys) → ∀ {m : Map a.Trie a.Nlm} {xs : List Out},
    Map.run (a.cfg p) m0 os = .ok (m, xs) →
    Map.Idle m ∧ μ m.nlm ≤ (s.dict.map (fun e => f e.1.length)).sum + d * m.numSteps := by
  induction os using List.reverseRecOn with
  | nil =>
    intro _ s ys hs m xs h1
    cases h1
    cases hs
    cases i with
    | default =>
      cases h0
      refine ⟨fun _ => ⟨rfl, rfl⟩, ?_⟩
      show μ (a.cfg p).L.empty ≤ _
      rw [M.empty]; exact Nat.zero_le _
    | make cb lam =>
      obtain ⟨q1, q2, q3, q4⟩ := Map.make_cost M h0
      refine ⟨fun h => ?_, by rw [q1]; exact Nat.zero_le _⟩
      rw [q3] at h; cases h
  | append_singleton os o ih =>
    intro h s ys hs m xs h1
    have hl := h.append_left
    obtain ⟨s1, xs1, xs2, f1, f2, _⟩ := AState.run_split hs
    obtain ⟨s2, x, xs3, f3, f4, _⟩ := AState.run_cons f2
    cases f4
    have h2 := h1
    rw [Map.run_append] at h2
    obtain ⟨⟨m1, zs⟩, g1, h2⟩ := R.bind_eq_ok h2
    obtain ⟨⟨m2, ws⟩, g2, h2⟩ := R.bind_eq_ok h2
    cases h2
    obtain ⟨⟨m3, x3⟩, g3, g2⟩ := R.bind_eq_ok g2
    cases g2
    obtain ⟨i1, i2⟩ := ih hl f1 g1
    obtain ⟨hsb, r1, _⟩ := Alias.reach hl f1 h0 g1
    obtain ⟨hsb', r2, _⟩ := Alias.reach h hs h0 h1
    have e1 := r1.size
    have e2 := r2.size
    have hz : m1.isReady = false → (a.cfg p).T.size m1.trie = 0 := by
      intro hr
      rcases r1 with ⟨rfl, _, _⟩ | ⟨r, _⟩ | r
      · cases a <;> rfl
      · rw [r.ready] at hr; cases hr
      · rw [r.inv.ready] at hr; cases hr
    obtain ⟨c1, c2⟩ := Map.exec_cost M i1 hz g3
    refine ⟨c1, ?_⟩
    have hsum : ∀ d : Dict, (d.map (fun e => f e.1.length)).sum = ((d.map (·.1)).map (fun k => f k.length)).sum := by
      intro d; rw [List.map_map]; rfl
    rw [hsum] at i2 ⊢
    rcases AState.step_adds f3 with ⟨k1, k2⟩ | ⟨k, k1, k2, k3⟩
    · rw [k2]
      rcases c2 with ⟨_, c2⟩ | ⟨c3, _⟩
      · omega
      · omega
    · rw [k3, List.map_append, List.sum_append]
      simp only [List.map_cons, List.map_nil, List.sum_cons, List.sum_nil]
      rcases c2 with ⟨c3, _⟩ | ⟨_, c2⟩
      · omega
      · rw [← k2] at c2; omega

end Alias
end Poplar
