import Verif.Model.NlmRun
import Verif.Proof.PlainBonsaiNlm
import Verif.Proof.PlainFkNlm
import Verif.Proof.CompactBonsaiNlm
import Verif.Proof.CompactFkNlm
/-
  Histories of a node label map.
-/
namespace Poplar
open Spec (LabelOp Labels Sep)

/-- `Kind` of a flag -/
def kindOf (fk : Bool) : Kind := if fk then .fkhash else .bonsai

variable {ν : Type} {ops : NlmOps ν} {fk : Bool} {vs : Nat}

/-- invariant of histories -/
structure GoodLabels (S : NlmSpec ops (kindOf fk) vs) (m : ν) (s : Labels) : Prop where
  inv : S.Inv s.capa m
  next : fk = true → ops.size m = s.next
  none_ : ∀ i, s.at_ i = none → ∀ e, S.L m i e = none
  some_ : ∀ i l v, s.at_ i = some (l, v) → S.L m i l.isEmpty = some (l, v)

namespace GoodLabels
variable {S : NlmSpec ops (kindOf fk) vs} {m : ν} {s : Labels}

theorem lcompare (g : GoodLabels S m s) {i : Nat} {l v key : List UInt8} (hi : s.at_ i = some (l, v))
    (he : Sep key l) :
    (key = l → ∃ p, ops.compare m i key = .ok (some p, key.length) ∧ S.At m p i ∧ ops.load m p = .ok v) ∧
    (key ≠ l → ops.compare m i key = .ok (none, Spec.lcp key l)) := by
  obtain ⟨h1, h2⟩ := S.compare _ m g.inv i _ l v (g.some_ i l v hi) key he
  refine ⟨fun e => ?_, h2⟩
  obtain ⟨p, hp, ha⟩ := h1 e
  exact ⟨p, hp, ha, S.load _ m g.inv p i _ l v ha (g.some_ i l v hi)⟩

theorem okl (g : GoodLabels S m s) {i : Nat} {l v : List UInt8} (hi : s.at_ i = some (l, v)) : OkLabel vs l ∧ v.length = vs :=
  S.lab _ m g.inv i _ l v (g.some_ i l v hi)

theorem step_ok (g : GoodLabels S m s) {o : LabelOp} (hl : s.Legal fk vs o) :
    ∃ m', ops.step fk m o = .ok m' ∧ GoodLabels S m' (s.step vs o) := by
  cases o with
  | put i k =>
    obtain ⟨hk, hl⟩ := hl
    cases fk with
    | false =>
      obtain ⟨hi, hn⟩ := hl
      obtain ⟨m', p, e, h1, h2, _, h3, h4⟩ := S.insert rfl _ m g.inv i hi (g.none_ i hn) k hk
      refine ⟨m', by simp [NlmOps.step, e], h1, by simp, ?_, ?_⟩
      · intro j hj e'
        simp only [Labels.step] at hj
        split at hj
        · cases hj
        · rename_i hne
          rw [h4 j e' hne]; exact g.none_ j hj e'
      · intro j l v hj
        simp only [Labels.step] at hj
        split at hj
        · rename_i he
          injection hj with hj; injection hj with hj1 hj2
          subst hj1 hj2 he
          exact h3
        · rename_i hne
          rw [h4 j _ hne]; exact g.some_ j l v hj
    | true =>
      have hi : i = s.next := by simpa using hl
      obtain ⟨m', p, e, h1, h2, h5, _, h3, h4⟩ := S.append rfl _ m g.inv k hk
      rw [g.next rfl, ← hi] at h3 h4
      refine ⟨m', by simp [NlmOps.step, e], h1, fun _ => by rw [h5, g.next rfl]; rfl, ?_, ?_⟩
      · intro j hj e'
        simp only [Labels.step] at hj
        split at hj
        · cases hj
        · rename_i hne
          rw [h4 j e' hne]; exact g.none_ j hj e'
      · intro j l v hj
        simp only [Labels.step] at hj
        split at hj
        · rename_i he
          injection hj with hj; injection hj with hj1 hj2
          subst hj1 hj2 he
          exact h3
        · rename_i hne
          rw [h4 j _ hne]; exact g.some_ j l v hj
  | dummy =>
    have hfk : fk = true := hl
    subst hfk
    obtain ⟨m', e, h1, h2, _, h3⟩ := S.appendDummy rfl _ m g.inv
    exact ⟨m', e, h1, fun _ => by rw [h2, g.next rfl]; rfl, fun i hi e' => by rw [h3]; exact g.none_ i hi e',
      fun i l v hi => by rw [h3]; exact g.some_ i l v hi⟩
  | write i k v =>
    obtain ⟨⟨w, hw⟩, hv⟩ := hl
    obtain ⟨h1, _⟩ := g.lcompare hw (Or.inl rfl)
    obtain ⟨p, e, ha, _⟩ := h1 rfl
    obtain ⟨m', e', h2, h3, _, h4, h5⟩ := S.store _ m g.inv p i _ k w v ha (g.some_ i k w hw) hv
    refine ⟨m', by rw [NlmOps.step, e, R.bind_ok]; exact e', h2, fun hf => by rw [h3, g.next hf]; rfl, ?_, ?_⟩
    · intro j hj e''
      simp only [Labels.step] at hj
      split at hj
      · cases hj
      · rename_i hne
        rw [h5 j e'' hne]; exact g.none_ j hj e''
    · intro j l u hj
      simp only [Labels.step] at hj
      split at hj
      · rename_i he
        injection hj with hj; injection hj with hj1 hj2
        subst hj1 hj2 he
        rw [h4, g.some_ _ _ _ hw]; rfl
      · rename_i hne
        rw [h5 j _ hne]; exact g.some_ j l u hj
  | expand f =>
    obtain ⟨hf, hlen, hc, hb, hinj, hcov⟩ := hl
    subst hf
    have hget : ∀ i j, f[i]? = some (some j) → i < s.capa ∧ j < 2 * s.capa := by
      intro i j h
      have hi := (List.getElem?_eq_some_iff.1 h).1
      exact ⟨by omega, hb j (List.mem_of_getElem? h)⟩
    let F : Nat → Nat := fun i => ((f[i]?).bind id).getD 0
    have hF : ∀ i j, f[i]? = some (some j) → F i = j := by
      intro i j h; simp only [F, h]; rfl
    obtain ⟨m', e, h1, _, h2, h3⟩ := S.expand rfl s.capa m (nodeMapOf f) (fun i => ∃ j, f[i]? = some (some j)) F g.inv hc hlen
      (by
        rintro i hi ⟨j, hj⟩
        rw [hF i j hj]; simp only [nodeMapOf, hj])
      (by
        intro i hi hn
        have : f[i]? = some none := by
          cases h : f[i]? with
          | none => exact absurd (List.getElem?_eq_none_iff.1 h) (by omega)
          | some x =>
            cases x with
            | none => rfl
            | some j => exact absurd ⟨j, h⟩ hn
        simp only [nodeMapOf, this])
      (by
        rintro i ⟨j, hj⟩
        rw [hF i j hj]; exact hget i j hj)
      (by
        rintro i k ⟨j, hj⟩ ⟨j', hj'⟩ he
        rw [hF i j hj, hF k j' hj'] at he
        subst he
        exact hinj i k j hj hj')
      (by
        intro i e' hne
        refine hcov i (fun h => hne (g.none_ i h e')))
    have hidx : ∀ j i, f.idxOf? (some j) = some i → f[i]? = some (some j) := by
      intro j i h
      rw [List.idxOf?_eq_some_iff] at h
      obtain ⟨hi, hx, _⟩ := h
      rw [List.getElem?_eq_getElem hi]
      simpa using hx
    have hidxn : ∀ j, f.idxOf? (some j) = none → ∀ i : Nat, f[i]? ≠ some (some j) := by
      intro j h i hi
      rw [List.idxOf?_eq_none_iff] at h
      exact h (List.mem_of_getElem? hi)
    refine ⟨m', e, h1, by simp, ?_, ?_⟩
    · intro j hj e'
      simp only [Labels.step] at hj
      cases hx : f.idxOf? (some j) with
      | none =>
        apply h3
        rintro i ⟨k, hk⟩ he
        rw [hF i k hk] at he
        subst he
        exact hidxn _ hx i hk
      | some i =>
        rw [hx] at hj
        have hi := hidx j i hx
        have := h2 i e' ⟨j, hi⟩
        rw [hF i j hi] at this
        rw [this]; exact g.none_ i hj e'
    · intro j l v hj
      simp only [Labels.step] at hj
      cases hx : f.idxOf? (some j) with
      | none => rw [hx] at hj; cases hj
      | some i =>
        rw [hx] at hj
        have hi := hidx j i hx
        have := h2 i l.isEmpty ⟨j, hi⟩
        rw [hF i j hi] at this
        rw [this]; exact g.some_ i l v hj

theorem run_ok {os : List LabelOp} : ∀ {m : ν} {s : Labels}, GoodLabels S m s → s.LegalRun fk vs os →
    ∃ m', ops.run fk m os = .ok m' ∧ GoodLabels S m' (s.run vs os) := by
  induction os with
  | nil => intro m s g _; exact ⟨m, rfl, g⟩
  | cons o os ih =>
    intro m s g hl
    obtain ⟨m1, e1, g1⟩ := g.step_ok hl.1
    obtain ⟨m2, e2, g2⟩ := ih g1 hl.2
    exact ⟨m2, by rw [NlmOps.run, e1, R.bind_ok]; exact e2, g2⟩

end GoodLabels
end Poplar
