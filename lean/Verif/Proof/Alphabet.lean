import Verif.Proof.MapDict
import Mathlib.Data.List.Nodup
import Mathlib.Data.List.Perm.Subperm
/-
  Facts about the specification of exhaustion (Spec/Alphabet.lean).
-/
namespace Poplar.Spec
open Poplar

theorem AState.newByte_iff (s : AState) (o : Op) (c : UInt8) :
    s.newByte o = some c ↔ ∃ k, o.inserts = some k ∧ BranchesAt s.dict k c ∧ c ≠ 0 ∧ c ∉ s.bytes := by
  simp only [AState.newByte]
  cases hk : o.inserts with
  | none => simp
  | some k =>
    simp only [Option.some.injEq, BranchesAt]
    by_cases h1 : s.dict = [] ∨ s.dict.get k ≠ none
    · rw [if_pos h1]
      constructor
      · intro h; cases h
      · rintro ⟨k', rfl, ⟨h2, h3, _⟩, _⟩
        rcases h1 with h1 | h1
        · exact absurd h1 h2
        · exact absurd h3 h1
    · rw [if_neg h1]
      simp only [not_or, not_not] at h1
      cases hb : branchByte s.dict k with
      | none => simp [hb]
      | some d =>
        simp only
        by_cases h2 : d = 0 ∨ d ∈ s.bytes
        · rw [if_pos h2]
          constructor
          · intro h; cases h
          · rintro ⟨k', rfl, ⟨_, _, h3⟩, h4, h5⟩
            rw [hb] at h3; injection h3 with h3; subst h3
            rcases h2 with h2 | h2
            · exact absurd h2 h4
            · exact absurd h2 h5
        · rw [if_neg h2]
          simp only [not_or] at h2
          constructor
          · intro h; injection h with h; subst h
            exact ⟨k, rfl, ⟨h1.1, h1.2, hb⟩, h2.1, h2.2⟩
          · rintro ⟨k', rfl, ⟨_, _, h3⟩, _⟩
            rw [hb] at h3; exact h3

theorem AState.run_append (vs : Nat) (s : AState) (os os' : List Op) :
    AState.run vs s (os ++ os') = (AState.run vs s os).bind (fun x => (AState.run vs x.1 os').map (fun y => (y.1, x.2 ++ y.2))) := by
  induction os generalizing s with
  | nil =>
    simp only [List.nil_append, AState.run, Option.bind_some]
    cases AState.run vs s os' <;> rfl
  | cons o os ih =>
    simp only [List.cons_append, AState.run]
    cases s.step vs o with
    | none => rfl
    | some x =>
      simp only [Option.bind_eq_bind, Option.bind_some, ih]
      cases AState.run vs x.1 os with
      | none => rfl
      | some y =>
        show Option.bind (Option.map _ (AState.run vs y.1 os')) _ = Option.map _ (AState.run vs y.1 os')
        cases AState.run vs y.1 os' <;> rfl

theorem AState.run_length {vs : Nat} : ∀ {os : List Op} {s s' : AState} {xs : List Out},
    AState.run vs s os = some (s', xs) → xs.length = os.length := by
  intro os
  induction os with
  | nil =>
    intro s s' xs e
    simp only [AState.run, Option.some.injEq, Prod.mk.injEq] at e
    rw [← e.2]; rfl
  | cons o os ih =>
    intro s s' xs e
    simp only [AState.run, Option.bind_eq_bind, Option.bind_eq_some_iff] at e
    obtain ⟨⟨s1, x1⟩, e1, ⟨s2, ys⟩, e2, e3⟩ := e
    simp only [pure, Option.some.injEq, Prod.mk.injEq] at e3
    rw [← e3.2, List.length_cons, ih e2, List.length_cons]

/-- splitting a history -/
theorem AState.run_split {vs : Nat} {os os' : List Op} {s s' : AState} {xs : List Out}
    (h : AState.run vs s (os ++ os') = some (s', xs)) :
    ∃ s1 xs1 xs2, AState.run vs s os = some (s1, xs1) ∧ AState.run vs s1 os' = some (s', xs2) ∧ xs = xs1 ++ xs2 := by
  rw [AState.run_append] at h
  simp only [Option.bind_eq_some_iff, Option.map_eq_some_iff] at h
  obtain ⟨⟨s1, xs1⟩, h1, ⟨s2, xs2⟩, h2, h3⟩ := h
  injection h3 with h3 h4
  exact ⟨s1, xs1, xs2, h1, by rw [← h3]; exact h2, h4.symm⟩

theorem AState.run_cons {vs : Nat} {o : Op} {os : List Op} {s s' : AState} {xs : List Out}
    (h : AState.run vs s (o :: os) = some (s', xs)) :
    ∃ s1 x xs1, s.step vs o = some (s1, x) ∧ AState.run vs s1 os = some (s', xs1) ∧ xs = x :: xs1 := by
  simp only [AState.run, Option.bind_eq_bind, Option.bind_eq_some_iff] at h
  obtain ⟨⟨s1, x1⟩, e1, ⟨s2, ys⟩, e2, e3⟩ := h
  simp only [pure, Option.some.injEq, Prod.mk.injEq] at e3
  exact ⟨s1, x1, ys, e1, by rw [← e3.1]; exact e2, e3.2.symm⟩

/-- registered bytes are distinct and not NUL -/
structure AState.Wf (s : AState) : Prop where
  nodup : s.bytes.Nodup
  nz : (0 : UInt8) ∉ s.bytes

theorem AState.Wf.init : AState.Wf {} := ⟨List.nodup_nil, List.not_mem_nil⟩

theorem AState.Wf.step {vs : Nat} {s s' : AState} {o : Op} {x : Out} (h : s.Wf) (e : s.step vs o = some (s', x)) : s'.Wf := by
  simp only [AState.step] at e
  cases hn : s.newByte o with
  | none =>
    rw [hn] at e; simp only [Option.some.injEq, Prod.mk.injEq] at e
    rw [← e.1]; exact ⟨h.nodup, h.nz⟩
  | some c =>
    rw [hn] at e
    obtain ⟨k, _, _, h1, h2⟩ := (s.newByte_iff o c).1 hn
    have hw : ∀ d, AState.Wf ⟨d, c :: s.bytes⟩ := fun d =>
      ⟨List.nodup_cons.2 ⟨h2, h.nodup⟩, fun h0 => (List.mem_cons.1 h0).elim (fun e => h1 e.symm) h.nz⟩
    simp only at e
    split at e
    · simp only [Option.some.injEq, Prod.mk.injEq] at e; rw [← e.1]; exact hw _
    · split at e
      · simp only [Option.some.injEq, Prod.mk.injEq] at e; rw [← e.1]; exact hw _
      · cases e

theorem AState.Wf.run {vs : Nat} : ∀ {os : List Op} {s s' : AState} {xs : List Out}, s.Wf →
    AState.run vs s os = some (s', xs) → s'.Wf := by
  intro os
  induction os with
  | nil =>
    intro s s' xs h e
    simp only [AState.run, Option.some.injEq, Prod.mk.injEq] at e
    rw [← e.1]; exact h
  | cons o os ih =>
    intro s s' xs h e
    obtain ⟨s1, x, xs1, e1, e2, _⟩ := AState.run_cons e
    exact ih (h.step e1) e2

/-- a history over at most 253 bytes besides NUL behaves like a dictionary -/
theorem AState.run_small (vs : Nat) {A : List UInt8} (hA : A.length ≤ 253) : ∀ (os : List Op) (s : AState), s.Wf →
    (∀ c ∈ s.bytes, c ∈ A) → (∀ k ∈ inserted os, ∀ c ∈ k, c ≠ 0 → c ∈ A) →
    ∃ bs, AState.run vs s os = some (⟨(Spec.run vs s.dict os).1, bs⟩, (Spec.run vs s.dict os).2) ∧ ∀ c ∈ bs, c ∈ A := by
  intro os
  induction os with
  | nil => intro s _ hs _; exact ⟨s.bytes, rfl, hs⟩
  | cons o os ih =>
    intro s hw hs hos
    have hstep : ∃ bs, s.step vs o = some (⟨(Spec.step vs s.dict o).1, bs⟩, (Spec.step vs s.dict o).2) ∧ ∀ c ∈ bs, c ∈ A := by
      simp only [AState.step]
      cases hn : s.newByte o with
      | none => exact ⟨s.bytes, rfl, hs⟩
      | some c =>
        obtain ⟨k, h1, h2, h3, h4⟩ := (s.newByte_iff o c).1 hn
        have hc : c ∈ A := hos k (by simp [inserted, h1]) c h2.mem h3
        have hlen : s.bytes.length < 253 := by
          have : (c :: s.bytes).length ≤ A.length := (List.subperm_of_subset (List.nodup_cons.2 ⟨h4, hw.nodup⟩) (by
            intro x hx
            rcases List.mem_cons.1 hx with rfl | hx
            · exact hc
            · exact hs x hx)).length_le
          simp at this; omega
        simp only [hlen, if_true]
        refine ⟨c :: s.bytes, rfl, ?_⟩
        intro x hx
        rcases List.mem_cons.1 hx with rfl | hx
        · exact hc
        · exact hs x hx
    obtain ⟨bs, e1, e2⟩ := hstep
    obtain ⟨bs', f1, f2⟩ := ih ⟨(Spec.step vs s.dict o).1, bs⟩ (hw.step e1) e2 (fun k hk => hos k (by
      simp only [inserted, List.filterMap_cons] at hk ⊢
      split
      · exact hk
      · exact List.mem_cons_of_mem _ hk))
    refine ⟨bs', ?_, f2⟩
    simp only [AState.run, e1, Option.bind_eq_bind, Option.bind_some, f1]
    rfl

/-- a history that does not insert the only unregistered byte -/
theorem AState.run_avoid (vs : Nat) {bad : UInt8} : ∀ (os : List Op) (s : AState),
    (∀ c, c ≠ 0 → c ≠ bad → c ∈ s.bytes) → (∀ k ∈ inserted os, bad ∉ k) →
    AState.run vs s os = some (⟨(Spec.run vs s.dict os).1, s.bytes⟩, (Spec.run vs s.dict os).2) := by
  intro os
  induction os with
  | nil => intro s _ _; rfl
  | cons o os ih =>
    intro s hs hos
    have hn : s.newByte o = none := by
      cases hn : s.newByte o with
      | none => rfl
      | some c =>
        exfalso
        obtain ⟨k, h1, h2, h3, h4⟩ := (s.newByte_iff o c).1 hn
        by_cases hb : c = bad
        · exact hos k (by simp [inserted, h1]) (hb ▸ h2.mem)
        · exact h4 (hs c h3 hb)
    have e1 : s.step vs o = some (⟨(Spec.step vs s.dict o).1, s.bytes⟩, (Spec.step vs s.dict o).2) := by
      simp only [AState.step, hn]
    have := ih ⟨(Spec.step vs s.dict o).1, s.bytes⟩ hs (fun k hk => hos k (by
      simp only [inserted, List.filterMap_cons] at hk ⊢
      split
      · exact hk
      · exact List.mem_cons_of_mem _ hk))
    simp only [AState.run, e1, Option.bind_eq_bind, Option.bind_some, this]
    rfl

/-- the 254th byte leaves one byte unregistered -/
theorem AState.one_left {s : AState} (h : s.Wf) (hl : s.bytes.length = 254) :
    ∃ bad, bad ≠ 0 ∧ bad ∉ s.bytes ∧ ∀ c, c ≠ 0 → c ≠ bad → c ∈ s.bytes := by
  have hall : ∀ l : List UInt8, l.Nodup → l.length ≤ 256 := by
    intro l hn
    have h1 : (l.map UInt8.toNat).Nodup := hn.map (fun a b e => UInt8.toNat_inj.1 e)
    have h2 : (l.map UInt8.toNat) ⊆ List.range 256 := by
      intro x hx
      obtain ⟨c, _, rfl⟩ := List.mem_map.1 hx
      exact List.mem_range.2 c.toNat_lt
    have := (List.subperm_of_subset h1 h2).length_le
    simpa using this
  have hex : ∃ bad, bad ∉ (0 : UInt8) :: s.bytes := by
    by_contra hc
    have h2 : List.range 256 ⊆ ((0 : UInt8) :: s.bytes).map UInt8.toNat := by
      intro x hx
      refine List.mem_map.2 ⟨UInt8.ofNat x, ?_, ?_⟩
      · by_contra hn; exact hc ⟨_, hn⟩
      · have := List.mem_range.1 hx
        simp; omega
    have := (List.subperm_of_subset List.nodup_range h2).length_le
    simp [hl] at this
  obtain ⟨bad, hb⟩ := hex
  simp only [List.mem_cons, not_or] at hb
  refine ⟨bad, hb.1, hb.2, ?_⟩
  intro c h0 hcb
  by_contra hc
  have := hall (c :: bad :: 0 :: s.bytes) (by
    simp only [List.nodup_cons, List.mem_cons, not_or]
    exact ⟨⟨hcb, h0, hc⟩, ⟨hb.1, hb.2⟩, h.nz, h.nodup⟩)
  simp [hl] at this

/-- a history either behaves like a dictionary, or up to an insertion that is refused -/
theorem AState.run_any (vs : Nat) : ∀ (os : List Op) (s : AState), s.Wf → s.bytes.length ≤ 253 →
    (∃ bs, AState.run vs s os = some (⟨(Spec.run vs s.dict os).1, bs⟩, (Spec.run vs s.dict os).2)) ∨
    ∃ os1 o k os2 s1, os = os1 ++ o :: os2 ∧ o.inserts = some k ∧ (Spec.run vs s.dict os1).1.get k = none ∧
      s1.Wf ∧ s1.bytes.length = 254 ∧ s1.dict = (Spec.run vs s.dict os1).1 ∧
      AState.run vs s (os1 ++ [o]) = some (s1, (Spec.run vs s.dict os1).2 ++ [Out.exn]) := by
  intro os
  induction os with
  | nil => intro s _ _; exact Or.inl ⟨s.bytes, rfl⟩
  | cons o os ih =>
    intro s hw hl
    have hgo : ∀ bs, s.step vs o = some (⟨(Spec.step vs s.dict o).1, bs⟩, (Spec.step vs s.dict o).2) → bs.length ≤ 253 →
        (∃ bs, AState.run vs s (o :: os) = some (⟨(Spec.run vs s.dict (o :: os)).1, bs⟩, (Spec.run vs s.dict (o :: os)).2)) ∨
        ∃ os1 o' k os2 s1, o :: os = os1 ++ o' :: os2 ∧ o'.inserts = some k ∧ (Spec.run vs s.dict os1).1.get k = none ∧
          s1.Wf ∧ s1.bytes.length = 254 ∧ s1.dict = (Spec.run vs s.dict os1).1 ∧
          AState.run vs s (os1 ++ [o']) = some (s1, (Spec.run vs s.dict os1).2 ++ [Out.exn]) := by
      intro bs e1 hlen
      rcases ih ⟨(Spec.step vs s.dict o).1, bs⟩ (hw.step e1) hlen with ⟨bs', h⟩ | ⟨os1, o', k, os2, s1, r1, r2, r3, r4, r5, r6, r7⟩
      · left
        refine ⟨bs', ?_⟩
        simp only [AState.run, e1, Option.bind_eq_bind, Option.bind_some, h]
        rfl
      · right
        refine ⟨o :: os1, o', k, os2, s1, by rw [r1]; rfl, r2, r3, r4, r5, r6, ?_⟩
        simp only [List.cons_append, AState.run, e1, Option.bind_eq_bind, Option.bind_some, r7]
        rfl
    cases hn : s.newByte o with
    | none => exact hgo s.bytes (by simp only [AState.step, hn]) hl
    | some c =>
      by_cases h253 : s.bytes.length < 253
      · exact hgo (c :: s.bytes) (by simp only [AState.step, hn, h253, if_true]) (by simp; omega)
      · right
        obtain ⟨k, h1, h2, h3, h4⟩ := (s.newByte_iff o c).1 hn
        have e1 : s.step vs o = some ({ s with bytes := c :: s.bytes }, .exn) := by
          simp only [AState.step, hn, h253, if_false]
          rw [if_pos (by omega)]
        refine ⟨[], o, k, os, { s with bytes := c :: s.bytes }, rfl, h1, h2.2.1, hw.step e1, by simp; omega, rfl, ?_⟩
        simp only [List.nil_append, AState.run, e1, Option.bind_eq_bind, Option.bind_some]
        rfl

end Poplar.Spec
