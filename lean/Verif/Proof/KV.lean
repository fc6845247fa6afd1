import Verif.Spec.KV
import Verif.Proof.StandardHashTable
import Verif.Proof.ChMap
namespace Poplar.Spec.KV

theorem lookup_nil (k : Nat) : lookup [] k = none := rfl

theorem lookup_snoc (h : List (Nat × Nat)) (p : Nat × Nat) (k : Nat) :
    lookup (h ++ [p]) k = if k = p.1 then some p.2 else lookup h k := by
  unfold lookup
  rw [List.reverse_append, List.reverse_singleton, List.singleton_append, List.find?_cons]
  by_cases e : k = p.1
  · subst e; simp
  · rw [if_neg e]
    have : (p.1 == k) = false := by simpa using fun h => e h.symm
    rw [this]

theorem lookup_isNone (h : List (Nat × Nat)) (k : Nat) :
    (lookup h k).isNone = !(h.map (·.1)).contains k := by
  unfold lookup
  rw [Option.isNone_map, Bool.eq_iff_iff, Option.isNone_iff_eq_none, List.find?_eq_none]
  simp only [List.mem_reverse, beq_iff_eq, Bool.not_eq_true', List.contains_eq_mem, decide_eq_false_iff_not, List.mem_map]
  constructor
  · rintro a ⟨x, hx, e⟩; exact a x hx e
  · intro a x hx e; exact a ⟨x, hx, e⟩

theorem distinct_snoc (h : List (Nat × Nat)) (p : Nat × Nat) :
    distinct (h ++ [p]) = distinct h + if !(h.map (·.1)).contains p.1 then 1 else 0 := by
  unfold distinct
  rw [List.map_append, List.eraseDups_append, List.length_append]
  have : List.removeAll (List.map (fun x : Nat × Nat => x.1) [p]) (h.map (·.1)) = if !(h.map (·.1)).contains p.1 then [p.1] else [] := by
    rw [List.map_singleton, List.removeAll, List.filter_cons]; rfl
  rw [this]
  split <;> rfl

theorem distinct_le_append (a b : List (Nat × Nat)) : distinct a ≤ distinct (a ++ b) := by
  unfold distinct
  rw [List.map_append, List.eraseDups_append, List.length_append]; omega

theorem append_cons {α : Type} (a : List α) (p : α) (r : List α) : a ++ p :: r = (a ++ [p]) ++ r := by
  rw [List.append_assoc, List.singleton_append]

end Poplar.Spec.KV

namespace Poplar.Sht
open Poplar.Spec.KV
variable {cfg : ShtCfg}

/-- the table `t` holds exactly the history `h` -/
def Rel (cfg : ShtCfg) (t : Sht) (h : List (Nat × Nat)) : Prop :=
  Inv cfg t ∧ (∀ k, t.M k = lookup h k) ∧ t.size = distinct h

theorem run_ok (hf : Factor cfg) (h63 : cfg.minCapaBits < 64) :
    ∀ (h : List (Nat × Nat)) (pre : List (Nat × Nat)) (t : Sht), Rel cfg t pre → keysAre h (· ≠ u64max) →
      distinct (pre ++ h) ≤ Poplar.maxSize (2 ^ 63) cfg.maxFactor - 1 → 1 ≤ Poplar.maxSize (2 ^ 63) cfg.maxFactor →
      ∃ t', run cfg t h = .ok (t', flags pre h) ∧ Rel cfg t' (pre ++ h) := by
  intro h
  induction h with
  | nil => intro pre t hr _ _ _; rw [List.append_nil]; exact ⟨t, rfl, hr⟩
  | cons p r ih =>
    intro pre t ⟨hi, hM, hs⟩ hk hd h1
    have hd' := distinct_le_append pre (p :: r)
    obtain ⟨⟨t1, b⟩, e, hi1, hb, hs1, hM1⟩ := (hi.set_post hf h63 (key := p.1) (val := p.2) (hk p (by simp))).get (by omega)
    dsimp only at hi1 hb hs1 hM1
    have hb' : b = !(pre.map (·.1)).contains p.1 := by rw [hb, hM, lookup_isNone]
    rw [append_cons] at hd
    obtain ⟨t', e', hr'⟩ := ih (pre ++ [p]) t1 ⟨hi1, fun k => by rw [hM1, lookup_snoc, hM], by rw [hs1, distinct_snoc, hs, hb']⟩
      (fun x hx => hk x (by simp [hx])) hd h1
    refine ⟨t', ?_, by rw [append_cons]; exact hr'⟩
    unfold run flags
    rw [e, R.bind_ok, e', R.bind_ok, ← hb']; rfl

theorem Rel.get_ok {t : Sht} {h : List (Nat × Nat)} (hr : Rel cfg t h) (k : Nat) :
    get cfg t k = .ok ((lookup h k).getD u64max) := by
  rw [hr.1.get_ok, hr.2.1]

end Poplar.Sht

namespace Poplar.Cht
open Poplar.Spec.KV
variable {cfg : ChtCfg}

/-- the table `t` over a universe of `u` bits holds exactly the history `h` -/
def Rel (cfg : ChtCfg) (u : Nat) (t : Cht) (h : List (Nat × Nat)) : Prop :=
  Holds cfg t (lookup h) ∧ t.size = distinct h ∧ t.univ.bits = u

theorem Rel.cap {u : Nat} {t : Cht} {h : List (Nat × Nat)} (hr : Rel cfg u t h) :
    (t.size < t.maxSize ∨ t.capa.bits < t.univ.bits) ∨
      (Poplar.maxSize (2 ^ u) cfg.maxFactor ≤ distinct h ∧ t.maxSize ≤ t.size ∧ t.capa.bits = t.univ.bits) := by
  have hc := hr.1.core
  by_cases h1 : t.size < t.maxSize
  · exact Or.inl (Or.inl h1)
  · by_cases h2 : t.capa.bits < t.univ.bits
    · exact Or.inl (Or.inr h2)
    · have : t.capa.bits = t.univ.bits := by have := hc.cu; omega
      refine Or.inr ⟨?_, by omega, this⟩
      rw [← hr.2.1, ← hr.2.2, ← this, ← hc.maxs]; omega

theorem run_ok (hf : FactorOK cfg.minCapaBits cfg.maxFactor) (u : Nat) :
    ∀ (h : List (Nat × Nat)) (pre : List (Nat × Nat)) (t : Cht), Rel cfg u t pre → keysAre h (· < 2 ^ u) →
      valsAre h (· < cfg.valMask) → (h = [] ∨ distinct (pre ++ h.dropLast) < Poplar.maxSize (2 ^ u) cfg.maxFactor) →
      ∃ t', run cfg t h = .ok (t', flags pre h) ∧ Rel cfg u t' (pre ++ h) := by
  intro h
  induction h with
  | nil => intro pre t hr _ _ _; rw [List.append_nil]; exact ⟨t, rfl, hr⟩
  | cons p r ih =>
    intro pre t hr hk hv hd
    obtain ⟨hi, hs, hu⟩ := id hr
    replace hd := hd.resolve_left (by simp)
    have hd' := distinct_le_append pre (p :: r).dropLast
    have hcap := hr.cap.resolve_right (by rintro ⟨a, -⟩; omega)
    obtain ⟨t1, e, hi1, hu1, -, hs1, -⟩ := hi.set_ok hf hcap (k := p.1) (X := p.2) (by rw [hu]; exact hk p (by simp)) (hv p (by simp))
    have hM : (fun j => if j = p.1 then some p.2 else lookup pre j) = lookup (pre ++ [p]) := by
      funext j; rw [lookup_snoc]
    rw [hM] at hi1
    have hb' := lookup_isNone pre p.1
    have hd2 : r = [] ∨ distinct (pre ++ [p] ++ r.dropLast) < Poplar.maxSize (2 ^ u) cfg.maxFactor := by
      cases r with
      | nil => exact Or.inl rfl
      | cons q r => rw [List.dropLast_cons_cons, append_cons] at hd; exact Or.inr hd
    obtain ⟨t', e', hr'⟩ := ih (pre ++ [p]) t1 ⟨hi1, by rw [hs1, distinct_snoc, hs, hb'], by rw [hu1, hu]⟩
      (fun x hx => hk x (by simp [hx])) (fun x hx => hv x (by simp [hx])) hd2
    refine ⟨t', ?_, by rw [append_cons]; exact hr'⟩
    unfold run flags
    rw [e, R.bind_ok, e', R.bind_ok, ← hb']; rfl

theorem Rel.set_limit {u : Nat} {t : Cht} {h : List (Nat × Nat)} (hr : Rel cfg u t h) (hf : FactorOK cfg.minCapaBits cfg.maxFactor)
    (hfull : distinct h = Poplar.maxSize (2 ^ u) cfg.maxFactor) {k X : Nat} (hk : k < 2 ^ u) (hX : X < cfg.valMask) :
    set cfg t k X = .error .limit := by
  have hc := hr.1.core
  rcases hr.cap with h1 | ⟨_, h2, h3⟩
  · exfalso
    have hle := hr.1.le
    rw [hr.2.1, hfull, hc.maxs] at hle
    have hlt : t.capa.bits < u := by
      rcases h1 with h1 | h1
      · exfalso
        rw [hr.2.1, hfull, hc.maxs] at h1
        have := maxSize_mono (mf := cfg.maxFactor) (Nat.pow_le_pow_right (n := 2) (by omega) hc.cu)
        rw [hr.2.2] at this; omega
      · rw [hr.2.2] at h1; exact h1
    have h2 := maxSize_mono (mf := cfg.maxFactor) (Nat.pow_le_pow_right (n := 2) (by omega) (show t.capa.bits + 1 ≤ u from hlt))
    rw [Nat.pow_succ, Nat.mul_comm] at h2
    have h3 := (maxSize_double (2 ^ t.capa.bits) cfg.maxFactor).1
    have h4 := (hf.at _ hc.minc).1
    omega
  · exact hr.1.set_limit h2 h3 (by rw [hr.2.2]; exact hk) hX

theorem run_limit (hf : FactorOK cfg.minCapaBits cfg.maxFactor) (u : Nat) :
    ∀ (h : List (Nat × Nat)) (pre : List (Nat × Nat)) (t : Cht), Rel cfg u t pre → keysAre h (· < 2 ^ u) →
      valsAre h (· < cfg.valMask) → distinct pre ≤ Poplar.maxSize (2 ^ u) cfg.maxFactor → h ≠ [] →
      Poplar.maxSize (2 ^ u) cfg.maxFactor ≤ distinct (pre ++ h.dropLast) → run cfg t h = .error .limit := by
  intro h
  induction h with
  | nil => intro pre t hr _ _ _ h; exact absurd rfl h
  | cons p r ih =>
    intro pre t hr hk hv hle _ hd
    obtain ⟨hi, hs, hu⟩ := id hr
    by_cases hfull : distinct pre = Poplar.maxSize (2 ^ u) cfg.maxFactor
    · rw [run, hr.set_limit hf hfull (hk p (by simp)) (hv p (by simp))]; rfl
    have hcap := hr.cap.resolve_right (by rintro ⟨a, -⟩; omega)
    obtain ⟨t1, e, hi1, hu1, -, hs1, -⟩ := hi.set_ok hf hcap (k := p.1) (X := p.2) (by rw [hu]; exact hk p (by simp)) (hv p (by simp))
    have hM : (fun j => if j = p.1 then some p.2 else lookup pre j) = lookup (pre ++ [p]) := by
      funext j; rw [lookup_snoc]
    rw [hM] at hi1
    have hb' := lookup_isNone pre p.1
    cases r with
    | nil => simp at hd; omega
    | cons q r =>
      rw [List.dropLast_cons_cons, append_cons] at hd
      have := ih (pre ++ [p]) t1 ⟨hi1, by rw [hs1, distinct_snoc, hs, hb'], by rw [hu1, hu]⟩
        (fun x hx => hk x (by simp only [List.mem_cons] at hx ⊢; exact Or.inr hx)) (fun x hx => hv x (by simp only [List.mem_cons] at hx ⊢; exact Or.inr hx))
        (by rw [distinct_snoc]; split <;> omega) (by simp) hd
      rw [run, e, R.bind_ok, this]; rfl

end Poplar.Cht
