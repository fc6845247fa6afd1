import Verif.Model.Interfaces
import Verif.Proof.TrieBase
/-
  The contract of a dynamic trie, in terms of the partial map `T` from paths (symbols from the root,
  deepest first) to node ids.
-/
namespace Poplar

/-- The capacity is `c0`, or has been doubled (repeatedly) starting from `c0`, the last time because the trie
with half the capacity was full. -/
def TrieOps.Needed {τ : Type} (ops : TrieOps τ) (mf c0 : Nat) (t : τ) : Prop :=
  ops.capaSize t = c0 ∨ ∃ c, ops.capaSize t = 2 * c ∧ c0 ≤ c ∧ maxSize c mf ≤ ops.size t

/-- how a trie evolves -/
def TrieOps.Grow {τ : Type} (ops : TrieOps τ) (mf : Nat) (t t' : τ) : Prop :=
  ops.capaSize t ≤ ops.capaSize t' ∧ ops.size t ≤ ops.size t' ∧ ops.Needed mf (ops.capaSize t) t'

namespace TrieOps
variable {τ : Type} {ops : TrieOps τ} {mf c0 : Nat} {a b c : τ}

theorem Grow.refl (t : τ) : ops.Grow mf t t := ⟨Nat.le_refl _, Nat.le_refl _, Or.inl rfl⟩

theorem Needed.le (h : ops.Needed mf c0 a) : c0 ≤ ops.capaSize a := by
  rcases h with h | ⟨c, h1, h2, _⟩ <;> omega

theorem Needed.grow (h : ops.Needed mf c0 a) (h2 : ops.Grow mf a b) : ops.Needed mf c0 b := by
  have hle := h.le
  obtain ⟨_, q2, q3⟩ := h2
  rcases q3 with q3 | ⟨c, q3, q4, q5⟩
  · rcases h with h | ⟨c, p3, p4, p5⟩
    · exact Or.inl (q3.trans h)
    · exact Or.inr ⟨c, q3.trans p3, p4, Nat.le_trans p5 q2⟩
  · exact Or.inr ⟨c, q3, Nat.le_trans hle q4, q5⟩

theorem Grow.trans (h1 : ops.Grow mf a b) (h2 : ops.Grow mf b c) : ops.Grow mf a c :=
  ⟨Nat.le_trans h1.1 h2.1, Nat.le_trans h1.2.1 h2.2.1, h1.2.2.grow h2⟩

end TrieOps

/-- `sb`: number of symbol bits; `N`: number of nodes below which no limit can be hit; `z0`: the
root may get a child with symbol 0 (false only for `plain_fkhash_trie` in debug builds). -/
structure TrieSpec {τ : Type} (ops : TrieOps τ) (sb N : Nat) (z0 : Prop) where
  /-- `min_capa_bits` and `MaxFactor` -/
  minb : Nat
  mf : Nat
  /-- `capa_bits` given to the constructor is at least `cb0` -/
  cb0 : Nat
  /-- constructed, no root yet -/
  Fresh : τ → Prop
  /-- has a root -/
  Inv : τ → Prop
  T : τ → List Nat → Option Nat
  make_ok : ∀ cb, cb0 ≤ cb → max minb cb + sb < 64 → ∃ t, ops.make cb sb = .ok t ∧ Fresh t ∧ ops.capaBits t = max minb cb
  make_fail : ∀ cb, 64 ≤ max minb cb + sb → ∃ e, ops.make cb sb = .error e ∧ (e = .limit ∨ e = .throw)
  capa : ∀ t, Fresh t ∨ Inv t → minb ≤ ops.capaBits t ∧ ops.capaBits t < 64 ∧
    ops.capaSize t = 2 ^ ops.capaBits t ∧ ops.size t ≤ maxSize (2 ^ ops.capaBits t) mf
  fresh_size : ∀ t, Fresh t → ops.size t = 0
  fresh_root : ∀ t, Fresh t → ∃ t' r, ops.addRoot t = .ok t' ∧ Inv t' ∧ ops.getRoot t' = .ok r ∧
    (∀ p, T t' p = if p = [] then some r else none) ∧ ops.size t' = 1 ∧
    ops.needsToExpand t' = false ∧ ops.capaSize t' = ops.capaSize t ∧ (ops.kind = .fkhash → r = 0)
  inv_root : ∀ t, Inv t → ∃ r, ops.getRoot t = .ok r ∧ T t [] = some r
  inv_size : ∀ t, Inv t → ops.size t ≠ 0
  T_inj : ∀ t, Inv t → ∀ p q i, T t p = some i → T t q = some i → p = q
  T_prefix : ∀ t, Inv t → ∀ s p i, T t (s :: p) = some i → ∃ v, T t p = some v
  T_bound : ∀ t, Inv t → ∀ p i, T t p = some i → i < ops.capaSize t ∧ i < u64max
  T_bound_fk : ops.kind = .fkhash → ∀ t, Inv t → ∀ p i, T t p = some i → i < ops.size t
  find : ∀ t, Inv t → ∀ p v s, T t p = some v → s < 2 ^ sb →
    ops.findChild t v s = .ok ((T t (s :: p)).getD u64max)
  add : ∀ t, Inv t → (ops.kind = .bonsai → ops.needsToExpand t = false) →
    ∀ p v s, T t p = some v → s < 2 ^ sb → (z0 ∨ s :: p ≠ [0]) →
    Post (N ≤ ops.size t) (ops.addChild t v s) (fun x =>
      Inv x.1 ∧ x.2.2 = (T t (s :: p)).isNone ∧
      (∀ q, T x.1 q = if q = s :: p then some x.2.1 else T t q) ∧
      (∀ j, T t (s :: p) = some j → x.2.1 = j) ∧
      ops.size x.1 = ops.size t + (if x.2.2 then 1 else 0) ∧
      ops.Grow mf t x.1 ∧
      (ops.kind = .bonsai → ops.capaSize x.1 = ops.capaSize t ∧ (x.2.2 = false → x.1 = t)) ∧
      (ops.kind = .fkhash → (x.2.2 = true → x.2.1 = ops.size t)))
  needs : ops.kind = .bonsai → ∀ t, Inv t → ops.needsToExpand t = true → maxSize (ops.capaSize t) mf ≤ ops.size t
  expand : ops.kind = .bonsai → ∀ t, Inv t → ops.needsToExpand t = true →
    Post (N ≤ ops.size t) (ops.expand t) (fun x =>
      Inv x.1 ∧ ops.needsToExpand x.1 = false ∧ ops.size x.1 = ops.size t ∧
      ops.capaSize x.1 = 2 * ops.capaSize t ∧ x.2.size = ops.capaSize t ∧
      ∃ f : Nat → Nat, (∀ p i, T t p = some i → x.2.get i = .ok (f i)) ∧
        (∀ i < ops.capaSize t, (∀ p, T t p ≠ some i) → x.2.get i = .ok u64max) ∧
        ∀ p, T x.1 p = (T t p).map f)
  /-- `expand` may also be called when it is not needed; it fails only if the keys would become too wide -/
  expandAny : ops.kind = .bonsai → ∀ t, Inv t →
    Post (64 ≤ ops.capaBits t + 1 + sb) (ops.expand t) (fun x =>
      Inv x.1 ∧ ops.needsToExpand x.1 = false ∧ ops.size x.1 = ops.size t ∧
      ops.capaSize x.1 = 2 * ops.capaSize t ∧ x.2.size = ops.capaSize t ∧
      ∃ f : Nat → Nat, (∀ p i, T t p = some i → x.2.get i = .ok (f i)) ∧
        (∀ i < ops.capaSize t, (∀ p, T t p ≠ some i) → x.2.get i = .ok u64max) ∧
        ∀ p, T x.1 p = (T t p).map f)

/-- a contract with a smaller limit, or more restricted use, is weaker -/
def TrieSpec.weaken {τ : Type} {ops : TrieOps τ} {sb N N' : Nat} {z0 z0' : Prop} (S : TrieSpec ops sb N z0)
    (hN : N' ≤ N) (hz : z0' → z0) : TrieSpec ops sb N' z0' :=
  { S with
    add := fun t h1 h2 p v s h3 h4 h5 =>
      (S.add t h1 h2 p v s h3 h4 (h5.imp hz id)).mono (fun h => Nat.le_trans hN h) (fun _ _ h => h)
    expand := fun h0 t h1 h2 => (S.expand h0 t h1 h2).mono (fun h => Nat.le_trans hN h) (fun _ _ h => h) }

theorem Post.and_limit {α : Type} {l l' : Prop} {x : R α} {Q : α → Prop} (h : Post l x Q)
    (h' : Post l' x (fun _ => True)) : Post l' x Q := by
  cases x with
  | ok a => exact h
  | error e => exact h'

/-- the contract of a trie constructed with `capa_bits ≥ cb0`: its capacity is never less, and a limit may
depend on that -/
def TrieSpec.reserve {τ : Type} {ops : TrieOps τ} {sb N N' : Nat} {z0 : Prop} (S : TrieSpec ops sb N z0) (cb0 : Nat)
    (hcb : S.cb0 = 0)
    (hadd : ∀ t, S.Inv t → cb0 ≤ ops.capaBits t → (ops.kind = .bonsai → ops.needsToExpand t = false) →
      ∀ p v s, S.T t p = some v → s < 2 ^ sb → Post (N' ≤ ops.size t) (ops.addChild t v s) (fun _ => True))
    (hexp : ops.kind = .bonsai → ∀ t, S.Inv t → cb0 ≤ ops.capaBits t → ops.needsToExpand t = true →
      Post (N' ≤ ops.size t) (ops.expand t) (fun _ => True)) : TrieSpec ops sb N' z0 :=
  have hle : ∀ {t t'}, S.Inv t → S.Inv t' → cb0 ≤ ops.capaBits t → ops.capaSize t ≤ ops.capaSize t' → cb0 ≤ ops.capaBits t' := by
    intro t t' h h' hc hs
    rw [(S.capa t (Or.inr h)).2.2.1, (S.capa t' (Or.inr h')).2.2.1] at hs
    have := (Nat.pow_le_pow_iff_right (a := 2) (by decide)).1 hs
    omega
  { S with
    cb0 := cb0
    Fresh := fun t => S.Fresh t ∧ cb0 ≤ ops.capaBits t
    Inv := fun t => S.Inv t ∧ cb0 ≤ ops.capaBits t
    make_ok := by
      intro cb h0 h
      obtain ⟨t, h1, h2, h3⟩ := S.make_ok cb (by omega) h
      exact ⟨t, h1, ⟨h2, by omega⟩, h3⟩
    capa := fun t h => S.capa t (h.imp And.left And.left)
    fresh_size := fun t h => S.fresh_size t h.1
    fresh_root := by
      intro t h
      obtain ⟨t', r, h1, h2, h3, h4, h5, h6, h7, h8⟩ := S.fresh_root t h.1
      refine ⟨t', r, h1, ⟨h2, ?_⟩, h3, h4, h5, h6, h7, h8⟩
      rw [(S.capa t (Or.inl h.1)).2.2.1, (S.capa t' (Or.inr h2)).2.2.1] at h7
      have := (Nat.pow_le_pow_iff_right (a := 2) (by decide)).1 (Nat.le_of_eq h7.symm)
      have := h.2
      omega
    inv_root := fun t h => S.inv_root t h.1
    inv_size := fun t h => S.inv_size t h.1
    T_inj := fun t h => S.T_inj t h.1
    T_prefix := fun t h => S.T_prefix t h.1
    T_bound := fun t h => S.T_bound t h.1
    T_bound_fk := fun hk t h => S.T_bound_fk hk t h.1
    find := fun t h => S.find t h.1
    add := fun t h h2 p v s h3 h4 h5 => by
      refine ((S.add t h.1 h2 p v s h3 h4 h5).and_limit (hadd t h.1 h.2 h2 p v s h3 h4)).imp ?_
      rintro ⟨t', i, b⟩ ⟨q1, q2, q3, q4, q5, q6, q7⟩
      exact ⟨⟨q1, hle h.1 q1 h.2 q6.1⟩, q2, q3, q4, q5, q6, q7⟩
    needs := fun hk t h => S.needs hk t h.1
    expand := fun hk t h hn => by
      refine ((S.expand hk t h.1 hn).and_limit (hexp hk t h.1 h.2 hn)).imp ?_
      rintro ⟨t', nm⟩ ⟨q1, q2, q3, q4, q5⟩
      exact ⟨⟨q1, hle h.1 q1 h.2 (by rw [q4]; omega)⟩, q2, q3, q4, q5⟩
    expandAny := fun hk t h => by
      refine (S.expandAny hk t h.1).imp ?_
      rintro ⟨t', nm⟩ ⟨q1, q2, q3, q4, q5⟩
      exact ⟨⟨q1, hle h.1 q1 h.2 (by rw [q4]; omega)⟩, q2, q3, q4, q5⟩ }

end Poplar
