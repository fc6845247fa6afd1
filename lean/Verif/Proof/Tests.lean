import Verif.Model.Tests
import Verif.Proof.TrieRun
import Verif.Spec.Stored
import Mathlib.Data.List.Infix
/-
  The program of hash_trie_test.cpp.
-/
namespace Poplar
open Spec (Path)

/-- the path of the node of a key: its characters, last one first -/
def keyPath (k : List UInt8) : Path := (k.map (·.toNat)).reverse

theorem keyPath_cons (c : UInt8) (r : List UInt8) (p : Path) : keyPath (c :: r) ++ p = keyPath r ++ (c.toNat :: p) := by
  simp [keyPath]

theorem keyPath_back (k : List UInt8) : ((keyPath k).map UInt8.ofNat).reverse = k := by
  unfold keyPath
  rw [List.map_reverse, List.reverse_reverse, List.map_map]
  conv => rhs; rw [← List.map_id k]
  apply List.map_congr_left
  intro c _
  simp

theorem keyPath_inj {k k' : List UInt8} (h : keyPath k = keyPath k') : k = k' := by
  rw [← keyPath_back k, ← keyPath_back k', h]

namespace TrieTest
variable {τ : Type} {ops : TrieOps τ} {sb N : Nat} {z0 : Prop}

/-- the loop over `node_map` -/
theorem moveIds_ok {nm : NodeMap} {ids : Array Nat} (g : Nat → Nat) (n : Nat) : ∀ (j : Nat) (new : Array Nat),
    (∀ q, j ≤ q → q < j + n → nm.get q = .ok (g q)) → j + n ≤ ids.size → (∀ q, j ≤ q → q < j + n → g q ≠ u64max → g q < new.size) →
    (∀ q q', j ≤ q → q < j + n → j ≤ q' → q' < j + n → g q ≠ u64max → g q = g q' → q = q') →
    ∃ new', moveIds nm ids n j new = .ok new' ∧ new'.size = new.size ∧
      (∀ q, j ≤ q → q < j + n → g q ≠ u64max → new'[g q]? = ids[q]?) ∧
      (∀ w, (∀ q, j ≤ q → q < j + n → g q ≠ u64max → g q ≠ w) → new'[w]? = new[w]?) := by
  induction n with
  | zero => intro j new _ _ _ _; exact ⟨new, rfl, rfl, fun q h1 h2 => by omega, fun _ _ => rfl⟩
  | succ n ih =>
    intro j new h1 h2 h3 h4
    rw [moveIds, h1 j (Nat.le_refl _) (by omega), R.bind_ok]
    by_cases hg : g j ≠ u64max
    · rw [if_pos hg, rd_of_lt (by omega), R.bind_ok, wr_of_lt (h3 j (Nat.le_refl _) (by omega) hg), R.bind_ok]
      have hs : (new.setIfInBounds (g j) ids[j]).size = new.size := Array.size_setIfInBounds
      obtain ⟨new', e1, e2, e3, e4⟩ := ih (j + 1) (new.setIfInBounds (g j) ids[j]) (fun q a b => h1 q (by omega) (by omega)) (by omega)
        (fun q a b c => by rw [hs]; exact h3 q (by omega) (by omega) c)
        (fun q q' a b c d => h4 q q' (by omega) (by omega) (by omega) (by omega))
      refine ⟨new', e1, by rw [e2, hs], ?_, ?_⟩
      · intro q a b c
        by_cases hq : q = j
        · subst hq
          rw [e4 (g q) (fun q' a' b' c' hc => by
            have := h4 q' q (by omega) (by omega) (Nat.le_refl _) (by omega) c' hc
            omega)]
          rw [Array.getElem?_setIfInBounds_self_of_lt (h3 q a b c), Array.getElem?_eq_getElem (by omega)]
        · exact e3 q (by omega) (by omega) c
      · intro w hw
        rw [e4 w (fun q a b => hw q (by omega) (by omega)), Array.getElem?_setIfInBounds_ne (hw j (Nat.le_refl _) (by omega) hg)]
    · rw [if_neg hg]
      obtain ⟨new', e1, e2, e3, e4⟩ := ih (j + 1) new (fun q a b => h1 q (by omega) (by omega)) (by omega)
        (fun q a b c => h3 q (by omega) (by omega) c) (fun q q' a b c d => h4 q q' (by omega) (by omega) (by omega) (by omega))
      refine ⟨new', e1, e2, ?_, ?_⟩
      · intro q a b c
        by_cases hq : q = j
        · subst hq; exact absurd c hg
        · exact e3 q (by omega) (by omega) c
      · intro w hw
        exact e4 w (fun q a b => hw q (by omega) (by omega))

/-- `p` is the path of a prefix of a key -/
def Pre (keys : List (List UInt8)) (p : Path) : Prop := ∃ k ∈ keys, p <:+ keyPath k

/-- invariant of `insert_keys`, when the first `i` keys have been inserted (and perhaps a prefix of the next one); `ps`: the nodes -/
structure Ok (S : TrieSpec ops sb N z0) (keys : List (List UInt8)) (i : Nat) (s : TrieTest τ) (ps : Spec.Tree) : Prop where
  inv : S.Inv s.ht
  room : ops.kind = .bonsai → ops.needsToExpand s.ht = false
  nodes : ∀ p, S.T s.ht p ≠ none ↔ p ∈ ps
  nodup : ps.Nodup
  pre : ∀ p ∈ ps, Pre keys p
  size : ops.size s.ht = ps.length
  num : s.numNodes = ops.size s.ht
  idsB : ops.kind = .bonsai → s.ids.size = ops.capaSize s.ht
  idsF : ops.kind = .fkhash → ops.size s.ht ≤ s.ids.size
  stored : ∀ j k, j < i → keys[j]? = some k → ∃ v, S.T s.ht (keyPath k) = some v ∧ s.ids[v]? = some j
  only : ops.kind = .bonsai → ∀ v x, s.ids[v]? = some x → x ≠ u64max →
    ∃ k, x < i ∧ keys[x]? = some k ∧ S.T s.ht (keyPath k) = some v

variable {S : TrieSpec ops sb N z0} {keys : List (List UInt8)} {i : Nat} {s : TrieTest τ} {ps : Spec.Tree}

theorem Ok.lt (h : Ok S keys i s ps) {p : Path} {v : Nat} (hv : S.T s.ht p = some v) : v < s.ids.size := by
  cases hk : ops.kind with
  | bonsai => rw [h.idsB hk]; exact (S.T_bound _ h.inv p v hv).1
  | fkhash => exact Nat.lt_of_lt_of_le (S.T_bound_fk hk _ h.inv p v hv) (h.idsF hk)

theorem grow_getElem? (ids : Array Nat) (n x v : Nat) (h : v < ids.size) : (grow ids n x)[v]? = ids[v]? := by
  unfold grow; rw [Array.getElem?_append_left h]

theorem grow_size (ids : Array Nat) (n x : Nat) (h : ids.size ≤ n) : (grow ids n x).size = n := by
  unfold grow; rw [Array.size_append, Array.size_replicate]; omega

theorem insertChars_ok (hroom : ∀ ps : List Path, ps.Nodup → (∀ p ∈ ps, Pre keys p) → ps.length < N)
    (hz : z0 ∨ ∀ k ∈ keys, k.head? ≠ some 0) (hsb : 8 ≤ sb) (hmf : S.mf < 100) (r : List UInt8) :
    ∀ (s : TrieTest τ) (ps : Spec.Tree) (p : Path) (node : Nat), Ok S keys i s ps → S.T s.ht p = some node →
    (∃ k ∈ keys, keyPath k = keyPath r ++ p) →
    ∃ s' ps' node', insertChars ops s node r = .ok (some (s', node')) ∧ Ok S keys i s' ps' ∧ S.T s'.ht (keyPath r ++ p) = some node' := by
  induction r with
  | nil => intro s ps p node h hv _; exact ⟨s, ps, node, rfl, h, hv⟩
  | cons c r ih =>
    intro s ps p node h hv hk
    have hc : c.toNat < 2 ^ sb := Nat.lt_of_lt_of_le c.toNat_lt (Nat.pow_le_pow_right (by decide) hsb)
    have hpre : Pre keys (c.toNat :: p) := by
      obtain ⟨k, k1, k2⟩ := hk
      exact ⟨k, k1, by rw [k2, keyPath_cons]; exact List.suffix_append _ _⟩
    have hk' : ∃ k ∈ keys, keyPath k = keyPath r ++ (c.toNat :: p) := by
      obtain ⟨k, k1, k2⟩ := hk
      exact ⟨k, k1, by rw [k2, keyPath_cons]⟩
    have hz' : z0 ∨ c.toNat :: p ≠ [0] := by
      refine hz.imp id fun hz e => ?_
      obtain ⟨k, k1, k2⟩ := hk
      injection e with e1 e2
      subst e2
      apply hz k k1
      rw [List.append_nil] at k2
      have hce : c = 0 := UInt8.toNat_inj.1 e1
      rw [keyPath_inj k2, List.head?_cons, hce]
    obtain ⟨⟨t, node', b⟩, e, h1, h2, h3, h4, h5, h6, h7, h8⟩ := (S.add s.ht h.inv h.room p node c.toNat hv hc hz').get (by
      rw [h.size]; exact Nat.not_le.2 (hroom ps h.nodup h.pre))
    dsimp only at h1 h2 h3 h4 h5 h6 h7 h8
    have hT' : S.T t (c.toNat :: p) = some node' := by rw [h3, if_pos rfl]
    rw [insertChars, e, R.bind_ok]
    dsimp only
    rw [keyPath_cons]
    cases b with
    | false =>
      rw [if_neg (by simp)]
      obtain ⟨j, hj⟩ : ∃ j, S.T s.ht (c.toNat :: p) = some j := by
        cases hx : S.T s.ht (c.toNat :: p) with
        | none => rw [hx] at h2; cases h2
        | some j => exact ⟨j, rfl⟩
      have hTT : ∀ q, S.T t q = S.T s.ht q := by
        intro q
        rw [h3]
        split
        · rename_i hq; rw [hq, hj, h4 j hj]
        · rfl
      refine ih { s with ht := t } ps (c.toNat :: p) node' ?_ hT' hk'
      refine { inv := h1, room := ?_, nodes := ?_, nodup := h.nodup, pre := h.pre, size := ?_, num := ?_, idsB := ?_, idsF := ?_,
               stored := ?_, only := ?_ }
      · intro hk; rw [(h7 hk).2 rfl]; exact h.room hk
      · intro q; rw [hTT]; exact h.nodes q
      · show ops.size t = _; rw [h5]; exact h.size
      · show s.numNodes = ops.size t; rw [h5]; exact h.num
      · intro hk; show s.ids.size = ops.capaSize t; rw [(h7 hk).1]; exact h.idsB hk
      · intro hk; show ops.size t ≤ s.ids.size; rw [h5]; exact h.idsF hk
      · intro j k a b; rw [hTT]; exact h.stored j k a b
      · intro hk v x a b
        obtain ⟨k, k1, k2, k3⟩ := h.only hk v x a b
        exact ⟨k, k1, k2, by rw [hTT]; exact k3⟩
    | true =>
      rw [if_pos rfl]
      have hnone : S.T s.ht (c.toNat :: p) = none := by
        cases hx : S.T s.ht (c.toNat :: p) with
        | none => rfl
        | some j => rw [hx] at h2; cases h2
      have hnew : c.toNat :: p ∉ ps := fun hm => (h.nodes _).2 hm hnone
      have hps : (ps ++ [c.toNat :: p]).Nodup := by
        rw [List.nodup_append]
        refine ⟨h.nodup, by simp, ?_⟩
        intro a ha b hb
        rw [List.mem_singleton.1 hb]
        rintro rfl
        exact hnew ha
      have hps2 : ∀ q ∈ ps ++ [c.toNat :: p], Pre keys q := by
        intro q hq
        rcases List.mem_append.1 hq with hq | hq
        · exact h.pre q hq
        · rw [List.mem_singleton.1 hq]; exact hpre
      have hmem : ∀ q, S.T t q ≠ none ↔ q ∈ ps ++ [c.toNat :: p] := by
        intro q
        rw [h3, List.mem_append, List.mem_singleton]
        by_cases hq : q = c.toNat :: p
        · simp [hq]
        · rw [if_neg hq, h.nodes]; simp [hq]
      have hsz : ops.size t = (ps ++ [c.toNat :: p]).length := by rw [h5, h.size]; simp
      have hnum : s.numNodes + 1 = ops.size t := by rw [h5, h.num]; rfl
      have hold : ∀ q v, S.T s.ht q = some v → S.T t q = some v := by
        intro q v hq
        rw [h3, if_neg (by rintro rfl; rw [hnone] at hq; cases hq), hq]
      cases hkind : ops.kind with
      | fkhash =>
        rw [if_neg (by rw [h8 hkind rfl, h.num]; simp)]
        dsimp only
        have hcapa : ops.size t ≤ ops.capaSize t := by
          obtain ⟨_, _, c3, c4⟩ := S.capa t (.inr h1)
          rw [c3]
          refine Nat.le_trans c4 ?_
          unfold maxSize
          refine Nat.div_le_of_le_mul ?_
          rw [Nat.mul_comm]
          exact Nat.mul_le_mul_right _ (by omega)
        obtain ⟨ids', hids, i1, i2⟩ : ∃ ids', (if s.ids.size < ops.capaSize t then grow s.ids (ops.capaSize t) 0 else s.ids) = ids' ∧
            ops.size t ≤ ids'.size ∧ ∀ v, v < s.ids.size → ids'[v]? = s.ids[v]? := by
          split
          · exact ⟨_, rfl, by rw [grow_size _ _ _ (by omega)]; exact hcapa, fun v hv => grow_getElem? _ _ _ _ hv⟩
          · exact ⟨_, rfl, by omega, fun _ _ => rfl⟩
        rw [hids]
        refine ih { ht := t, ids := ids', numNodes := s.numNodes + 1 } (ps ++ [c.toNat :: p]) (c.toNat :: p) node' ?_ hT' hk'
        refine { inv := h1, room := ?_, nodes := hmem, nodup := hps, pre := hps2, size := hsz, num := hnum, idsB := ?_, idsF := ?_,
                 stored := ?_, only := ?_ }
        · intro hk; rw [hkind] at hk; cases hk
        · intro hk; rw [hkind] at hk; cases hk
        · intro _; exact i1
        · intro j k a b
          obtain ⟨v, v1, v2⟩ := h.stored j k a b
          exact ⟨v, hold _ _ v1, by show ids'[v]? = _; rw [i2 v (h.lt v1), v2]⟩
        · intro hk; rw [hkind] at hk; cases hk
      | bonsai =>
        rw [if_neg (by simp)]
        dsimp only
        have hidc : s.ids.size = ops.capaSize t := by rw [(h7 hkind).1]; exact h.idsB hkind
        by_cases hne : ops.needsToExpand t = true
        · rw [if_pos hne]
          obtain ⟨⟨t2, nm⟩, e2, g1, g2, g3, g4, g5, f, g6, g7, g8⟩ := (S.expand hkind t h1 hne).get (by
            rw [hsz]; exact Nat.not_le.2 (hroom _ hps hps2))
          dsimp only at g1 g2 g3 g4 g5 g6 g7 g8
          rw [e2, R.bind_ok]
          dsimp only
          rw [g6 _ _ hT', R.bind_ok]
          classical
          let g : Nat → Nat := fun q => if ∃ p, S.T t p = some q then f q else u64max
          have hg1 : ∀ q, g q ≠ u64max → ∃ p, S.T t p = some q ∧ S.T t2 p = some (g q) := by
            intro q hq
            by_cases hex : ∃ p, S.T t p = some q
            · obtain ⟨p', hp'⟩ := hex
              refine ⟨p', hp', ?_⟩
              simp only [g, if_pos (show ∃ p, S.T t p = some q from ⟨p', hp'⟩)]
              rw [g8, hp']; rfl
            · simp only [g, if_neg hex] at hq; exact absurd rfl hq
          have hg2 : ∀ p q, S.T t p = some q → g q = f q ∧ g q ≠ u64max := by
            intro p' q hq
            have e3 : g q = f q := if_pos ⟨p', hq⟩
            refine ⟨e3, ?_⟩
            have : S.T t2 p' = some (g q) := by rw [g8, hq, e3]; rfl
            have := (S.T_bound _ g1 p' _ this).2
            omega
          obtain ⟨new, n1, n2, n3, n4⟩ := moveIds_ok (nm := nm) (ids := s.ids) g nm.size 0 (Array.replicate (ops.capaSize t2) u64max)
            (fun q _ hq => by
              by_cases hex : ∃ p, S.T t p = some q
              · simp only [g, if_pos hex]
                obtain ⟨p', hp'⟩ := hex
                exact g6 p' q hp'
              · simp only [g, if_neg hex]
                exact g7 q (by omega) (fun p' hp' => hex ⟨p', hp'⟩)) (by omega)
            (fun q _ _ hq => by
              obtain ⟨p', _, hp'⟩ := hg1 q hq
              rw [Array.size_replicate]
              exact (S.T_bound _ g1 p' _ hp').1)
            (fun q q' _ _ _ _ hq he => by
              obtain ⟨p1, a1, a2⟩ := hg1 q hq
              obtain ⟨p2, b1, b2⟩ := hg1 q' (he ▸ hq)
              rw [← he] at b2
              rw [S.T_inj _ g1 _ _ _ a2 b2, b1] at a1
              injection a1 with a1
              exact a1.symm)
          rw [n1, R.bind_ok]
          have hT2 : S.T t2 (c.toNat :: p) = some (f node') := by rw [g8, hT']; rfl
          refine ih { ht := t2, ids := new, numNodes := s.numNodes + 1 } (ps ++ [c.toNat :: p]) (c.toNat :: p) (f node') ?_ hT2 hk'
          refine { inv := g1, room := fun _ => g2, nodes := ?_, nodup := hps, pre := hps2, size := g3.trans hsz, num := hnum.trans g3.symm,
                   idsB := ?_, idsF := ?_, stored := ?_, only := ?_ }
          · intro q
            rw [← hmem q, g8]
            cases S.T t q <;> simp
          · intro _; show new.size = _; rw [n2, Array.size_replicate]
          · intro hk; rw [hkind] at hk; cases hk
          · intro j k a b
            obtain ⟨v, v1, v2⟩ := h.stored j k a b
            have v3 := hold _ _ v1
            obtain ⟨v4, v5⟩ := hg2 _ _ v3
            refine ⟨g v, by rw [g8, v3, v4]; rfl, ?_⟩
            show new[g v]? = _
            rw [n3 v (Nat.zero_le _) (by have := h.lt v1; omega) v5, v2]
          · intro _ w x hw hx
            have hw : new[w]? = some x := hw
            by_cases hex : ∃ q, q < 0 + nm.size ∧ g q ≠ u64max ∧ g q = w
            · obtain ⟨q, q1, q2, rfl⟩ := hex
              rw [n3 q (Nat.zero_le _) q1 q2] at hw
              obtain ⟨k, k1, k2, k3⟩ := h.only hkind q x hw hx
              refine ⟨k, k1, k2, ?_⟩
              have k4 := hold _ _ k3
              show S.T t2 _ = _
              rw [g8, k4, (hg2 _ _ k4).1]; rfl
            · rw [n4 w (fun q _ q1 q2 q3 => hex ⟨q, q1, q2, q3⟩), Array.getElem?_replicate] at hw
              split at hw
              · injection hw with hw; exact absurd hw.symm hx
              · cases hw
        · rw [if_neg hne]
          refine ih { ht := t, ids := s.ids, numNodes := s.numNodes + 1 } (ps ++ [c.toNat :: p]) (c.toNat :: p) node' ?_ hT' hk'
          refine { inv := h1, room := fun _ => Bool.not_eq_true _ ▸ hne, nodes := hmem, nodup := hps, pre := hps2, size := hsz, num := hnum,
                   idsB := fun _ => hidc, idsF := ?_, stored := ?_, only := ?_ }
          · intro hk; rw [hkind] at hk; cases hk
          · intro j k a b
            obtain ⟨v, v1, v2⟩ := h.stored j k a b
            exact ⟨v, hold _ _ v1, v2⟩
          · intro hk v x a b
            obtain ⟨k, k1, k2, k3⟩ := h.only hk v x a b
            exact ⟨k, k1, k2, hold _ _ k3⟩

theorem insertFrom_ok (hroom : ∀ ps : List Path, ps.Nodup → (∀ p ∈ ps, Pre keys p) → ps.length < N)
    (hz : z0 ∨ ∀ k ∈ keys, k.head? ≠ some 0) (hsb : 8 ≤ sb) (hmf : S.mf < 100) (hn : keys.Nodup) (ks : List (List UInt8)) :
    ∀ (i : Nat) (s : TrieTest τ) (ps : Spec.Tree), Ok S keys i s ps → keys.drop i = ks →
    ∃ s' ps', insertFrom ops s i ks = .ok (some s') ∧ Ok S keys (i + ks.length) s' ps' := by
  induction ks with
  | nil => intro i s ps h _; exact ⟨s, ps, rfl, h⟩
  | cons k ks ih =>
    intro i s ps h hd
    have hi : i < keys.length := by
      by_contra hc
      rw [List.drop_eq_nil_of_le (by omega)] at hd
      cases hd
    rw [List.drop_eq_getElem_cons hi] at hd
    injection hd with hd1 hd2
    have hki : keys[i]? = some k := by rw [List.getElem?_eq_getElem hi, hd1]
    obtain ⟨r, r1, r2⟩ := S.inv_root _ h.inv
    obtain ⟨s1, ps1, node, e1, h1, h2⟩ := insertChars_ok hroom hz hsb hmf k s ps [] r h r2
      ⟨k, hd1 ▸ List.getElem_mem hi, (List.append_nil _).symm⟩
    rw [List.append_nil] at h2
    have hlt := h1.lt h2
    obtain ⟨s2, ps2, e2, h3⟩ := ih (i + 1) { s1 with ids := s1.ids.setIfInBounds node i } ps1 (by
      have hsz : (s1.ids.setIfInBounds node i).size = s1.ids.size := Array.size_setIfInBounds
      refine { inv := h1.inv, room := h1.room, nodes := h1.nodes, nodup := h1.nodup, pre := h1.pre, size := h1.size, num := h1.num,
               idsB := fun hk => hsz.trans (h1.idsB hk), idsF := fun hk => Nat.le_trans (h1.idsF hk) (Nat.le_of_eq hsz.symm),
               stored := ?_, only := ?_ }
      · intro j k' a b
        by_cases hj : j = i
        · subst hj
          rw [hki] at b
          injection b with b
          subst b
          exact ⟨node, h2, Array.getElem?_setIfInBounds_self_of_lt hlt⟩
        · obtain ⟨v, v1, v2⟩ := h1.stored j k' (by omega) b
          refine ⟨v, v1, ?_⟩
          show (s1.ids.setIfInBounds node i)[v]? = _
          rw [Array.getElem?_setIfInBounds_ne, v2]
          rintro rfl
          have := keyPath_inj (S.T_inj _ h1.inv _ _ _ v1 h2)
          subst this
          exact hj ((List.getElem?_inj (by
            obtain ⟨h', _⟩ := List.getElem?_eq_some_iff.1 b; exact h') hn).1 (b.trans hki.symm))
      · intro hk v x a b
        have a : (s1.ids.setIfInBounds node i)[v]? = some x := a
        by_cases hv : node = v
        · subst hv
          rw [Array.getElem?_setIfInBounds_self_of_lt hlt] at a
          injection a with a
          subst a
          exact ⟨k, by omega, hki, h2⟩
        · rw [Array.getElem?_setIfInBounds_ne hv] at a
          obtain ⟨k', k1, k2, k3⟩ := h1.only hk v x a b
          exact ⟨k', by omega, k2, k3⟩) hd2
    refine ⟨s2, ps2, ?_, by rw [List.length_cons, show i + (ks.length + 1) = i + 1 + ks.length by omega]; exact h3⟩
    rw [insertFrom, r1, R.bind_ok, e1, R.bind_ok]
    dsimp only
    rw [wr_of_lt hlt, R.bind_ok, e2]

theorem insertKeys_ok {ht : τ} (hf : S.Fresh ht) (hroom : ∀ ps : List Path, ps.Nodup → (∀ p ∈ ps, Pre keys p) → ps.length < N)
    (hz : z0 ∨ ∀ k ∈ keys, k.head? ≠ some 0) (hsb : 8 ≤ sb) (hmf : S.mf < 100) (hn : keys.Nodup) (hne : keys ≠ []) :
    ∃ s ps, insertKeys ops ht keys = .ok (some s) ∧ Ok S keys keys.length s ps := by
  obtain ⟨t', r, e2, h1, h2, h3, h4, h5, h6, h7⟩ := S.fresh_root ht hf
  have hgs := grow_size #[] (ops.capaSize ht) u64max (Nat.zero_le _)
  obtain ⟨s, ps, e3, h8⟩ := insertFrom_ok hroom hz hsb hmf hn keys 0 { ht := t', ids := grow #[] (ops.capaSize ht) u64max, numNodes := ops.size t' }
    [[]] (by
      refine { inv := h1, room := fun _ => h5, nodes := ?_, nodup := by simp, pre := ?_, size := h4, num := rfl, idsB := ?_, idsF := ?_,
               stored := ?_, only := ?_ }
      · intro p; rw [h3]; by_cases hp : p = [] <;> simp [hp]
      · intro p hp
        rw [List.mem_singleton.1 hp]
        obtain ⟨k, ks, rfl⟩ := List.exists_cons_of_ne_nil hne
        exact ⟨k, by simp, List.nil_suffix⟩
      · intro _; exact hgs.trans h6.symm
      · intro _
        show ops.size t' ≤ (grow #[] (ops.capaSize ht) u64max).size
        rw [hgs, h4, (S.capa ht (.inl hf)).2.2.1]
        exact Nat.one_le_two_pow
      · intro j k hj; omega
      · intro _ v x hx hm
        exfalso
        have hx : (grow #[] (ops.capaSize ht) u64max)[v]? = some x := hx
        unfold grow at hx
        rw [Array.empty_append, Array.getElem?_replicate] at hx
        split at hx
        · injection hx with hx; exact hm hx.symm
        · cases hx) rfl
  rw [Nat.zero_add] at h8
  refine ⟨s, ps, ?_, h8⟩
  unfold insertKeys
  rw [if_neg hne]
  dsimp only
  rw [e2, R.bind_ok, h2, R.bind_ok, if_neg (fun hc => hc.2 (h7 hc.1)), e3, R.bind_ok]
  dsimp only
  rw [if_pos h8.num]
  rfl

theorem T_pref (h : S.Inv s.ht) (q : Path) : ∀ {p : Path} {w : Nat}, S.T s.ht (q ++ p) = some w → ∃ v, S.T s.ht p = some v := by
  induction q with
  | nil => intro p w hw; exact ⟨w, hw⟩
  | cons c q ih =>
    intro p w hw
    obtain ⟨v, hv⟩ := S.T_prefix _ h c (q ++ p) w hw
    exact ih hv

theorem walk_ok (h : S.Inv s.ht) (hsb : 8 ≤ sb) (k : List UInt8) : ∀ {p : Path} {v w : Nat}, S.T s.ht p = some v →
    S.T s.ht (keyPath k ++ p) = some w → walk ops s.ht v k = .ok (some w) := by
  induction k with
  | nil => intro p v w hv hw; have hw : S.T s.ht p = some w := hw; rw [hv] at hw; injection hw with hw; rw [walk, hw]
  | cons c k ih =>
    intro p v w hv hw
    rw [keyPath_cons] at hw
    obtain ⟨x, hx⟩ := T_pref h _ hw
    have hc : c.toNat < 2 ^ sb := Nat.lt_of_lt_of_le c.toNat_lt (Nat.pow_le_pow_right (by decide) hsb)
    rw [walk, S.find _ h p v _ hv hc, hx, R.bind_ok, Option.getD_some, if_neg (by have := (S.T_bound _ h _ _ hx).2; omega)]
    exact ih hx hw

theorem searchKeys_ok (h : Ok S keys keys.length s ps) (hsb : 8 ≤ sb) (ks : List (List UInt8)) : ∀ i, keys.drop i = ks →
    searchKeys ops s.ht s.ids i ks = .ok true := by
  induction ks with
  | nil => intro i _; rfl
  | cons k ks ih =>
    intro i hd
    have hi : i < keys.length := by
      by_contra hc
      rw [List.drop_eq_nil_of_le (by omega)] at hd
      cases hd
    rw [List.drop_eq_getElem_cons hi] at hd
    injection hd with hd1 hd2
    obtain ⟨r, r1, r2⟩ := S.inv_root _ h.inv
    obtain ⟨v, v1, v2⟩ := h.stored i k hi (by rw [List.getElem?_eq_getElem hi, hd1])
    rw [searchKeys, r1, R.bind_ok, walk_ok h.inv hsb k r2 (by rw [List.append_nil]; exact v1), R.bind_ok]
    dsimp only
    rw [rd_of_some v2, R.bind_ok, if_pos rfl]
    exact ih (i + 1) hd2

theorem climb_ok {parent : τ → Nat → R (Nat × Nat)} (h : S.Inv s.ht)
    (hpar : ∀ c p i, S.T s.ht (c :: p) = some i → ∃ v, S.T s.ht p = some v ∧ parent s.ht i = .ok (v, c)) (p : Path) :
    ∀ (fuel v : Nat) (restore : List UInt8), p.length ≤ fuel → S.T s.ht p = some v →
    climb ops parent s.ht fuel v restore = .ok (some (restore ++ p.map UInt8.ofNat)) := by
  obtain ⟨r, r1, r2⟩ := S.inv_root _ h
  induction p with
  | nil =>
    intro fuel v restore _ hv
    rw [r2] at hv
    injection hv with hv
    unfold climb
    rw [r1, R.bind_ok, if_pos hv.symm, List.map_nil, List.append_nil]
    rfl
  | cons c p ih =>
    intro fuel v restore hf hv
    obtain ⟨u, u1, u2⟩ := hpar c p v hv
    unfold climb
    rw [r1, R.bind_ok, if_neg (by
      rintro rfl
      have := S.T_inj _ h _ _ _ hv r2
      cases this)]
    cases fuel with
    | zero => simp at hf
    | succ fuel =>
      dsimp only
      rw [u2, R.bind_ok]
      dsimp only
      rw [if_neg (by have := (S.T_bound _ h _ _ u1).2; omega), ih fuel u _ (by simpa using hf) u1]
      simp

theorem restoreKeys_ok {parent : τ → Nat → R (Nat × Nat)} {fuel : Nat} (hk : ops.kind = .bonsai) (h : Ok S keys keys.length s ps)
    (hpar : ∀ c p i, S.T s.ht (c :: p) = some i → ∃ v, S.T s.ht p = some v ∧ parent s.ht i = .ok (v, c))
    (hfuel : ∀ k ∈ keys, k.length ≤ fuel) (n : Nat) : ∀ i, i + n = s.ids.size →
    restoreKeys ops parent fuel s.ht keys s.ids n i = .ok true := by
  induction n with
  | zero => intro i _; rfl
  | succ n ih =>
    intro i hi
    have hlt : i < s.ids.size := by omega
    rw [restoreKeys, rd_of_lt hlt, R.bind_ok]
    by_cases hx : s.ids[i] = u64max
    · rw [if_pos hx]; exact ih (i + 1) (by omega)
    · rw [if_neg hx]
      obtain ⟨k, k1, k2, k3⟩ := h.only hk i s.ids[i] (Array.getElem?_eq_getElem hlt) hx
      have hkm : k ∈ keys := List.mem_of_getElem? k2
      rw [climb_ok h.inv hpar (keyPath k) fuel i [] (by simpa [keyPath] using hfuel k hkm) k3, R.bind_ok]
      dsimp only
      rw [rd_of_some (a := keys.toArray) (i := s.ids[i]) (x := k) (by rw [List.getElem?_toArray]; exact k2), R.bind_ok, List.nil_append,
        keyPath_back, if_pos rfl]
      exact ih (i + 1) (by omega)

end TrieTest

/-- the whole test -/
theorem TrieClass.trieTest_ok (c : TrieClass) {sb cb N : Nat} {z0 : Prop} (S : TrieSpec c.ops sb N z0) {keys : List (List UInt8)} {fuel : Nat}
    (hcb0 : S.cb0 ≤ cb) (hcb : max S.minb cb + sb < 64)
    (hroom : ∀ ps : List Path, ps.Nodup → (∀ p ∈ ps, TrieTest.Pre keys p) → ps.length < N)
    (hz : z0 ∨ ∀ k ∈ keys, k.head? ≠ some 0) (hsb : 8 ≤ sb) (hmf : S.mf < 100) (hn : keys.Nodup) (hne : keys ≠ [])
    (hpar : c.ops.kind = .bonsai → ∀ t, S.Inv t → ∀ x p i, S.T t (x :: p) = some i → ∃ v, S.T t p = some v ∧ c.parent t i = .ok (v, x))
    (hfuel : ∀ k ∈ keys, k.length ≤ fuel) : c.trieTest fuel cb sb keys = .ok true := by
  obtain ⟨t, e1, hf, _⟩ := S.make_ok cb hcb0 hcb
  obtain ⟨s, ps, e2, h⟩ := TrieTest.insertKeys_ok hf hroom hz hsb hmf hn hne
  unfold trieTest
  rw [e1, R.bind_ok, e2, R.bind_ok]
  dsimp only
  rw [TrieTest.searchKeys_ok h hsb keys 0 rfl, R.bind_ok, if_neg (by simp)]
  split
  · rename_i hk
    exact TrieTest.restoreKeys_ok hk h (hpar hk s.ht h.inv) hfuel _ 0 (by omega)
  · rfl

end Poplar
