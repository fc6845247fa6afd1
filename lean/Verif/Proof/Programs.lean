import Verif.Model.Programs
import Verif.Spec.Programs
import Verif.Proof.Strings
/-
  The programs of `Model/Programs.lean` follow histories.
-/
namespace Poplar
open Spec

variable {a : Alias} {p : Params} {i : Init}

/-- operations with strings of `ss` (and, for `find`, of `os`) -/
def Uses (vs : Nat) (ss os : List (List UInt8)) (o : Op) : Prop :=
  (∃ s ∈ ss, o = .update (s ++ [0]) ∨ ∃ v : Val, v.length = vs ∧ o = .write (s ++ [0]) v) ∨
  (∃ s ∈ ss ++ os, o = .find (s ++ [0])) ∨ o = .size

theorem Insertable.mem_inserted {ss qs : List (List UInt8)} {os : List Op}
    (hu : ∀ o ∈ os, Uses p.valSize ss qs o) {k : Key} (hk : k ∈ inserted os) : ∃ s ∈ ss, k = s ++ [0] := by
  obtain ⟨o, ho, he⟩ := List.mem_filterMap.1 hk
  rcases hu o ho with ⟨s, hs, rfl | ⟨v, _, rfl⟩⟩ | ⟨s, _, rfl⟩ | rfl
  · simp only [Op.inserts, not_malformed_term, if_false, Option.some.injEq] at he
    exact ⟨s, hs, he.symm⟩
  · simp only [Op.inserts, not_malformed_term, if_false, Option.some.injEq] at he
    exact ⟨s, hs, he.symm⟩
  · cases he
  · cases he

theorem Insertable.history {ss qs : List (List UInt8)} (h : Insertable a p i ss) (hq : ∀ s ∈ qs, 0 ∉ s)
    (hq2 : ∀ s ∈ qs, s.length + 1 + p.valSize < 2 ^ 64) {os : List Op}
    (hu : ∀ o ∈ os, Uses p.valSize ss qs o) : a.history p i os = .ok (Spec.run p.valSize [] os).2 := by
  have hK : ∀ s ∈ ss ++ qs, CStrings p.valSize (s ++ [0]) := by
    intro s hs
    rcases List.mem_append.1 hs with hs | hs
    · exact ⟨⟨s, fun c hc e => h.nul s hs (e ▸ hc), rfl⟩, by simpa using h.len s hs⟩
    · exact ⟨⟨s, fun c hc e => hq s hs (e ▸ hc), rfl⟩, by simpa using hq2 s hs⟩
  have hadm : a.Admissible p i (CStrings p.valSize) os := by
    refine ⟨h.params, h.init, keySet_cstrings _, ?_, ?_⟩
    · intro o ho
      rcases hu o ho with ⟨s, hs, rfl | ⟨v, hv, rfl⟩⟩ | ⟨s, hs, rfl⟩ | rfl
      · refine ⟨?_, fun _ _ e => by cases e⟩
        intro k e; injection e with e; subst e
        exact Or.inl (hK s (by simp [hs]))
      · refine ⟨?_, fun _ _ e => by injection e with _ e; exact e ▸ hv⟩
        intro k e; injection e with e; subst e
        exact Or.inl (hK s (by simp [hs]))
      · refine ⟨?_, fun _ _ e => by cases e⟩
        intro k e; injection e with e; subst e
        exact Or.inl (hK s hs)
      · exact ⟨fun _ e => (by cases e), fun _ _ e => (by cases e)⟩
    · rcases h.assertOk with h' | h' | h'
      · exact Or.inl h'
      · exact Or.inr (Or.inl h')
      · refine Or.inr (Or.inr (Or.inl ?_))
        intro k hk hh
        obtain ⟨s, hs, rfl⟩ := Insertable.mem_inserted hu hk
        cases s with
        | nil => exact h' hs
        | cons c s =>
          simp only [List.cons_append, List.head?_cons, Option.some.injEq] at hh
          exact h.nul _ hs (by simp [hh])
  have hsm : SmallAlphabet os := by
    obtain ⟨A, A1, A2⟩ := h.alphabet
    refine ⟨A, A1, fun k hk c hc h0 => ?_⟩
    obtain ⟨s, hs, rfl⟩ := Insertable.mem_inserted hu hk
    rcases List.mem_append.1 hc with hc | hc
    · exact A2 s hs c hc
    · exact absurd (List.mem_singleton.1 hc) h0
  refine (Alias.history_spec hadm hsm).ok ?_
  intro hl
  have : nodesFor i.lambda (inserted os) ≤ nodesFor i.lambda (ss.map (· ++ [0])) := nodesFor_mono fun k hk => by
    obtain ⟨s, hs, rfl⟩ := Insertable.mem_inserted hu hk
    exact List.mem_map.2 ⟨s, hs, rfl⟩
  exact absurd (Nat.le_trans hl this) (Nat.not_le.2 h.room)

/-- `m` is the map after the operations `os` -/
def After (a : Alias) (p : Params) (m0 : Map a.Trie a.Nlm) (os : List Op) (m : Map a.Trie a.Nlm) : Prop :=
  Map.run (a.cfg p) m0 os = .ok (m, (Spec.run p.valSize [] os).2)

section
variable {ss qs : List (List UInt8)} {m0 m : Map a.Trie a.Nlm} {os : List Op} {s : List UInt8}

theorem Insertable.step (h : Insertable a p i ss) (hq : ∀ s ∈ qs, 0 ∉ s)
    (hq2 : ∀ s ∈ qs, s.length + 1 + p.valSize < 2 ^ 64) (h0 : a.new p i = .ok m0) (hu : ∀ o ∈ os, Uses p.valSize ss qs o)
    (hm : After a p m0 os m) {o : Op} (ho : Uses p.valSize ss qs o) :
    ∃ m', Map.exec (a.cfg p) m o = .ok (m', (Spec.step p.valSize (Spec.run p.valSize [] os).1 o).2) ∧ After a p m0 (os ++ [o]) m' := by
  have hh := h.history hq hq2 (os := os ++ [o]) (by
    intro o' ho'
    rcases List.mem_append.1 ho' with ho' | ho'
    · exact hu o' ho'
    · rw [List.mem_singleton.1 ho']; exact ho)
  have hr := Spec.run_append p.valSize [] os [o]
  unfold Alias.history at hh
  rw [h0, R.bind_ok, Map.run_append, hm, R.bind_ok] at hh
  unfold After
  rw [Map.run_append, hm, R.bind_ok, hr]
  rw [hr] at hh
  simp only [Map.run, Spec.run] at hh ⊢
  cases he : Map.exec (a.cfg p) m o with
  | error e => rw [he] at hh; cases hh
  | ok y =>
    obtain ⟨m', x⟩ := y
    rw [he] at hh
    simp only [R.bind_ok, R.pure_eq] at hh
    injection hh with hh
    have hx := List.append_cancel_left hh
    injection hx with hx
    refine ⟨m', by rw [hx], ?_⟩
    simp only [R.bind_ok, R.pure_eq, hx]

theorem Insertable.update (h : Insertable a p i ss) (hq : ∀ s ∈ qs, 0 ∉ s)
    (hq2 : ∀ s ∈ qs, s.length + 1 + p.valSize < 2 ^ 64) (h0 : a.new p i = .ok m0) (hu : ∀ o ∈ os, Uses p.valSize ss qs o)
    (hm : After a p m0 os m) (hs : s ∈ ss) :
    ∃ m' l, Map.update (a.cfg p) m (s ++ [0]) = .ok (m', .ptr l) ∧
      Map.load (a.cfg p) m' l = .ok (((Spec.run p.valSize [] os).1.get (s ++ [0])).getD (List.replicate p.valSize 0)) ∧
      After a p m0 (os ++ [.update (s ++ [0])]) m' ∧
      ∀ v : Val, v.length = p.valSize → ∃ m'', Map.store (a.cfg p) m' l v = .ok m'' ∧ After a p m0 (os ++ [.write (s ++ [0]) v]) m'' := by
  obtain ⟨m', e1, e2⟩ := h.step hq hq2 h0 hu hm (o := .update (s ++ [0])) (.inl ⟨s, hs, .inl rfl⟩)
  have e3 : (Spec.step p.valSize (Spec.run p.valSize [] os).1 (.update (s ++ [0]))).2 =
      .value (((Spec.run p.valSize [] os).1.get (s ++ [0])).getD (List.replicate p.valSize 0)) := by
    simp only [Spec.step, not_malformed_term, if_false]
    cases Dict.get (Spec.run p.valSize [] os).1 (s ++ [0]) <;> rfl
  rw [e3] at e1
  simp only [Map.exec] at e1
  cases hup : Map.update (a.cfg p) m (s ++ [0]) with
  | error e => rw [hup] at e1; cases e1
  | ok y =>
    obtain ⟨m1, r⟩ := y
    rw [hup, R.bind_ok] at e1
    cases r with
    | null => simp only [R.pure_eq] at e1; injection e1 with e1; injection e1 with _ e1; cases e1
    | exn => simp only [R.pure_eq] at e1; injection e1 with e1; injection e1 with _ e1; cases e1
    | ptr l =>
      simp only at e1
      cases hl : Map.load (a.cfg p) m1 l with
      | error e => rw [hl] at e1; cases e1
      | ok v =>
        rw [hl, R.bind_ok, R.pure_eq] at e1
        injection e1 with e1
        injection e1 with e1 e4
        injection e4 with e4
        subst e1
        refine ⟨m1, l, rfl, by rw [hl, e4], e2, ?_⟩
        intro w hw
        obtain ⟨m2, f1, f2⟩ := h.step hq hq2 h0 hu hm (o := .write (s ++ [0]) w) (.inl ⟨s, hs, .inr ⟨w, hw, rfl⟩⟩)
        simp only [Map.exec] at f1
        rw [hup, R.bind_ok] at f1
        simp only at f1
        cases hst : Map.store (a.cfg p) m1 l w with
        | error e => rw [hst] at f1; cases f1
        | ok m3 =>
          rw [hst, R.bind_ok, R.pure_eq] at f1
          injection f1 with f1
          injection f1 with f1 _
          exact ⟨m3, rfl, f1 ▸ f2⟩

theorem Insertable.find (h : Insertable a p i ss) (hq : ∀ s ∈ qs, 0 ∉ s)
    (hq2 : ∀ s ∈ qs, s.length + 1 + p.valSize < 2 ^ 64) (h0 : a.new p i = .ok m0) (hu : ∀ o ∈ os, Uses p.valSize ss qs o)
    (hm : After a p m0 os m) (hs : s ∈ ss ++ qs) :
    match (Spec.run p.valSize [] os).1.get (s ++ [0]) with
    | none => Map.find (a.cfg p) m (s ++ [0]) = .ok none
    | some v => ∃ l, Map.find (a.cfg p) m (s ++ [0]) = .ok (some l) ∧ Map.load (a.cfg p) m l = .ok v := by
  obtain ⟨m', e1, e2⟩ := h.step hq hq2 h0 hu hm (o := .find (s ++ [0])) (.inr (.inl ⟨s, hs, rfl⟩))
  have e3 : (Spec.step p.valSize (Spec.run p.valSize [] os).1 (.find (s ++ [0]))).2 =
      .found ((Spec.run p.valSize [] os).1.get (s ++ [0])) := by
    simp only [Spec.step, not_malformed_term, if_false]
  rw [e3] at e1
  simp only [Map.exec] at e1
  cases hf : Map.find (a.cfg p) m (s ++ [0]) with
  | error e =>
    rw [hf] at e1
    cases e <;> simp only [reduceCtorEq, Except.ok.injEq, Prod.mk.injEq, and_false] at e1
  | ok r =>
    rw [hf] at e1
    cases r with
    | none =>
      injection e1 with e1
      injection e1 with _ e1
      injection e1 with e1
      rw [← e1]
    | some l =>
      simp only at e1
      cases hl : Map.load (a.cfg p) m l with
      | error e => rw [hl] at e1; cases e1
      | ok v =>
        rw [hl, R.bind_ok, R.pure_eq] at e1
        injection e1 with e1
        injection e1 with _ e1
        injection e1 with e1
        rw [← e1]
        exact ⟨l, rfl, hl⟩

end


/-! ### the loops -/

/-- write all the values -/
def writes (kvs : List (List UInt8 × Val)) : List Op := kvs.map fun e => .write (e.1 ++ [0]) e.2

theorem writes_get_other (vs : Nat) {kvs : List (List UInt8 × Val)} (d : Dict) {s : List UInt8} (h : s ∉ kvs.map (·.1)) :
    (Spec.run vs d (writes kvs)).1.get (s ++ [0]) = d.get (s ++ [0]) := by
  induction kvs generalizing d with
  | nil => rfl
  | cons e kvs ih =>
    simp only [List.map_cons, List.mem_cons, not_or] at h
    show (Spec.run vs (Spec.step vs d (.write (e.1 ++ [0]) e.2)).1 (writes kvs)).1.get (s ++ [0]) = _
    rw [ih _ h.2]
    simp only [Spec.step, not_malformed_term, if_false]
    rw [Dict.get_set, if_neg (fun e => h.1 (List.append_cancel_right e))]

theorem writes_get (vs : Nat) {kvs : List (List UInt8 × Val)} (d : Dict) {e : List UInt8 × Val} (hn : (kvs.map (·.1)).Nodup) (h : e ∈ kvs) :
    (Spec.run vs d (writes kvs)).1.get (e.1 ++ [0]) = some e.2 := by
  induction kvs generalizing d with
  | nil => cases h
  | cons x kvs ih =>
    simp only [List.map_cons, List.nodup_cons] at hn
    show (Spec.run vs (Spec.step vs d (.write (x.1 ++ [0]) x.2)).1 (writes kvs)).1.get (e.1 ++ [0]) = _
    rcases List.mem_cons.1 h with rfl | h
    · rw [writes_get_other vs _ hn.1]
      simp only [Spec.step, not_malformed_term, if_false]
      rw [Dict.get_set, if_pos rfl]
    · exact ih _ hn.2 h

theorem writes_length (vs : Nat) {kvs : List (List UInt8 × Val)} (d : Dict) (hn : (kvs.map (·.1)).Nodup)
    (hd : ∀ e ∈ kvs, d.get (e.1 ++ [0]) = none) : (Spec.run vs d (writes kvs)).1.length = d.length + kvs.length := by
  induction kvs generalizing d with
  | nil => rfl
  | cons x kvs ih =>
    simp only [List.map_cons, List.nodup_cons] at hn
    show (Spec.run vs (Spec.step vs d (.write (x.1 ++ [0]) x.2)).1 (writes kvs)).1.length = _
    rw [ih _ hn.2]
    · simp only [Spec.step, not_malformed_term, if_false]
      rw [Dict.length_set, if_pos (hd x (by simp)), List.length_cons]
      omega
    · intro e he
      simp only [Spec.step, not_malformed_term, if_false]
      rw [Dict.get_set, if_neg, hd e (by simp [he])]
      intro h
      exact hn.1 (List.append_cancel_right h ▸ List.mem_map.2 ⟨e, he, rfl⟩)

section
variable {ss qs : List (List UInt8)} {m0 m : Map a.Trie a.Nlm} {os : List Op}

theorem uses_snoc {o : Op} (hu : ∀ o ∈ os, Uses p.valSize ss qs o) (ho : Uses p.valSize ss qs o) :
    ∀ o' ∈ os ++ [o], Uses p.valSize ss qs o' := by
  intro o' ho'
  rcases List.mem_append.1 ho' with ho' | ho'
  · exact hu o' ho'
  · rw [List.mem_singleton.1 ho']; exact ho

theorem Insertable.insertKeys (h : Insertable a p i ss) (hq : ∀ s ∈ qs, 0 ∉ s)
    (hq2 : ∀ s ∈ qs, s.length + 1 + p.valSize < 2 ^ 64) (h0 : a.new p i = .ok m0) (kvs : List (List UInt8 × Val))
    (hv : ∀ e ∈ kvs, e.2.length = p.valSize) (hs : ∀ e ∈ kvs, e.1 ∈ ss) (hn : (kvs.map (·.1)).Nodup) :
    ∀ (os : List Op) (m : Map a.Trie a.Nlm), (∀ o ∈ os, Uses p.valSize ss qs o) → After a p m0 os m →
    (∀ e ∈ kvs, (Spec.run p.valSize [] os).1.get (e.1 ++ [0]) = none) →
    ∃ m', Map.insertKeys (a.cfg p) (List.replicate p.valSize 0) m kvs = .ok (m', true) ∧ After a p m0 (os ++ writes kvs) m' ∧
      ∀ o ∈ os ++ writes kvs, Uses p.valSize ss qs o := by
  induction kvs with
  | nil => intro os m hu hm _; exact ⟨m, rfl, by simpa [writes] using hm, by simpa [writes] using hu⟩
  | cons e kvs ih =>
    intro os m hu hm hd
    obtain ⟨m1, l, e1, e2, _, e4⟩ := h.update hq hq2 h0 hu hm (hs e (by simp))
    obtain ⟨m2, f1, f2⟩ := e4 e.2 (hv e (by simp))
    simp only [List.map_cons, List.nodup_cons] at hn
    have hu' := uses_snoc (qs := qs) hu (o := .write (e.1 ++ [0]) e.2) (.inl ⟨e.1, hs e (by simp), .inr ⟨e.2, hv e (by simp), rfl⟩⟩)
    obtain ⟨m', g1, g2, g3⟩ := ih (fun e he => hv e (by simp [he])) (fun e he => hs e (by simp [he])) hn.2
      (os ++ [.write (e.1 ++ [0]) e.2]) m2 hu' f2 (by
        intro e' he'
        rw [Spec.run_append]
        simp only [Spec.run, Spec.step, not_malformed_term, if_false]
        rw [Dict.get_set, if_neg, hd e' (by simp [he'])]
        intro h
        exact hn.1 (List.append_cancel_right h ▸ List.mem_map.2 ⟨e', he', rfl⟩))
    rw [hd e (by simp), Option.getD_none] at e2
    refine ⟨m', ?_, ?_, ?_⟩
    · obtain ⟨s, v⟩ := e
      rw [Map.insertKeys, makeCharRangeS_eq, R.bind_ok, e1, R.bind_ok]
      dsimp only
      rw [e2, R.bind_ok, if_pos rfl, f1, R.bind_ok, g1]
    · rw [List.append_assoc] at g2; exact g2
    · rw [List.append_assoc] at g3; exact g3

theorem Insertable.sampleInsert (h : Insertable a p i ss) (hp : p.valSize = 4) (hq : ∀ s ∈ qs, 0 ∉ s)
    (hq2 : ∀ s ∈ qs, s.length + 1 + p.valSize < 2 ^ 64) (h0 : a.new p i = .ok m0) (ks : List (List UInt8)) (hs : ∀ s ∈ ks, s ∈ ss) :
    ∀ (j : Nat) (os : List Op) (m : Map a.Trie a.Nlm), (∀ o ∈ os, Uses p.valSize ss qs o) → After a p m0 os m →
    ∃ m', Map.sampleInsert (a.cfg p) j m ks = .ok (m', true) ∧ After a p m0 (os ++ writes (sampleValues j ks)) m' ∧
      ∀ o ∈ os ++ writes (sampleValues j ks), Uses p.valSize ss qs o := by
  induction ks with
  | nil => intro j os m hu hm; exact ⟨m, rfl, by simpa [writes, sampleValues] using hm, by simpa [writes, sampleValues] using hu⟩
  | cons s ks ih =>
    intro j os m hu hm
    have hv : (bytesOf 4 (j + 1)).length = p.valSize := by rw [hp]; rfl
    obtain ⟨m1, l, e1, e2, _, e4⟩ := h.update hq hq2 h0 hu hm (hs s (by simp))
    obtain ⟨m2, f1, f2⟩ := e4 (bytesOf 4 (j + 1)) hv
    have hu' := uses_snoc (qs := qs) hu (o := .write (s ++ [0]) (bytesOf 4 (j + 1))) (.inl ⟨s, hs s (by simp), .inr ⟨_, hv, rfl⟩⟩)
    obtain ⟨m', g1, g2, g3⟩ := ih (fun e he => hs e (by simp [he])) (j + 1) (os ++ [.write (s ++ [0]) (bytesOf 4 (j + 1))]) m2 hu' f2
    refine ⟨m', ?_, ?_, ?_⟩
    · rw [Map.sampleInsert, makeCharRangeS_eq, R.bind_ok, e1, R.bind_ok]
      dsimp only
      rw [f1, R.bind_ok, g1]
    · rw [List.append_assoc] at g2; exact g2
    · rw [List.append_assoc] at g3; exact g3

theorem Insertable.findKeys (h : Insertable a p i ss) (hq : ∀ s ∈ qs, 0 ∉ s)
    (hq2 : ∀ s ∈ qs, s.length + 1 + p.valSize < 2 ^ 64) (h0 : a.new p i = .ok m0) (hu : ∀ o ∈ os, Uses p.valSize ss qs o)
    (hm : After a p m0 os m) {kvs : List (List UInt8 × Val)} (hs : ∀ e ∈ kvs, e.1 ∈ ss)
    (hd : ∀ e ∈ kvs, (Spec.run p.valSize [] os).1.get (e.1 ++ [0]) = some e.2) : Map.findKeys (a.cfg p) m kvs = .ok true := by
  induction kvs with
  | nil => rfl
  | cons e kvs ih =>
    have := h.find hq hq2 h0 hu hm (s := e.1) (by simp [hs e (by simp)])
    rw [hd e (by simp)] at this
    obtain ⟨l, l1, l2⟩ := this
    obtain ⟨s, v⟩ := e
    rw [Map.findKeys, makeCharRangeS_eq, R.bind_ok, l1]
    dsimp only
    rw [l2, R.bind_ok, if_pos rfl]
    exact ih (fun e he => hs e (by simp [he])) (fun e he => hd e (by simp [he]))

theorem Insertable.missKeys (h : Insertable a p i ss) (hq : ∀ s ∈ qs, 0 ∉ s)
    (hq2 : ∀ s ∈ qs, s.length + 1 + p.valSize < 2 ^ 64) (h0 : a.new p i = .ok m0) (hu : ∀ o ∈ os, Uses p.valSize ss qs o)
    (hm : After a p m0 os m) {ks : List (List UInt8)} (hs : ∀ s ∈ ks, s ∈ qs)
    (hd : ∀ s ∈ ks, (Spec.run p.valSize [] os).1.get (s ++ [0]) = none) : Map.missKeys (a.cfg p) m ks = .ok true := by
  induction ks with
  | nil => rfl
  | cons s ks ih =>
    have := h.find hq hq2 h0 hu hm (s := s) (by simp [hs s (by simp)])
    rw [hd s (by simp)] at this
    rw [Map.missKeys, makeCharRangeS_eq, R.bind_ok, this]
    exact ih (fun e he => hs e (by simp [he])) (fun e he => hd e (by simp [he]))

theorem Insertable.updateKeys (h : Insertable a p i ss) (hq : ∀ s ∈ qs, 0 ∉ s)
    (hq2 : ∀ s ∈ qs, s.length + 1 + p.valSize < 2 ^ 64) (h0 : a.new p i = .ok m0) {d : Dict} (kvs : List (List UInt8 × Val))
    (hs : ∀ e ∈ kvs, e.1 ∈ ss) (hd : ∀ e ∈ kvs, d.get (e.1 ++ [0]) = some e.2) :
    ∀ (os : List Op) (m : Map a.Trie a.Nlm), (∀ o ∈ os, Uses p.valSize ss qs o) → After a p m0 os m →
    (Spec.run p.valSize [] os).1 = d →
    ∃ m' os', Map.updateKeys (a.cfg p) m kvs = .ok (m', true) ∧ After a p m0 os' m' ∧ (Spec.run p.valSize [] os').1 = d ∧
      ∀ o ∈ os', Uses p.valSize ss qs o := by
  induction kvs with
  | nil => intro os m hu hm he; exact ⟨m, os, rfl, hm, he, hu⟩
  | cons e kvs ih =>
    intro os m hu hm he
    obtain ⟨m1, l, e1, e2, e3, _⟩ := h.update hq hq2 h0 hu hm (hs e (by simp))
    have hu' := uses_snoc (qs := qs) hu (o := .update (e.1 ++ [0])) (.inl ⟨e.1, hs e (by simp), .inl rfl⟩)
    rw [he, hd e (by simp), Option.getD_some] at e2
    obtain ⟨m', os', g1, g2⟩ := ih (fun e he => hs e (by simp [he])) (fun e he => hd e (by simp [he]))
      (os ++ [.update (e.1 ++ [0])]) m1 hu' e3 (by
        rw [Spec.run_append]
        simp only [Spec.run, Spec.step, not_malformed_term, if_false, he, hd e (by simp)])
    refine ⟨m', os', ?_, g2⟩
    obtain ⟨s, v⟩ := e
    rw [Map.updateKeys, makeCharRangeS_eq, R.bind_ok, e1, R.bind_ok]
    dsimp only
    rw [e2, R.bind_ok, if_pos rfl, g1]

theorem Insertable.new (h : Insertable a p i ss) : ∃ m0, a.new p i = .ok m0 ∧ After a p m0 [] m0 := by
  have := h.history (qs := []) (os := []) (by simp) (by simp) (by simp)
  unfold Alias.history at this
  cases hn : a.new p i with
  | error e => rw [hn] at this; cases this
  | ok m0 => exact ⟨m0, rfl, rfl⟩

theorem Insertable.size (h : Insertable a p i ss) (hq : ∀ s ∈ qs, 0 ∉ s)
    (hq2 : ∀ s ∈ qs, s.length + 1 + p.valSize < 2 ^ 64) (h0 : a.new p i = .ok m0) (hu : ∀ o ∈ os, Uses p.valSize ss qs o)
    (hm : After a p m0 os m) : m.size = (Spec.run p.valSize [] os).1.length := by
  obtain ⟨m', e1, _⟩ := h.step hq hq2 h0 hu hm (o := .size) (.inr (.inr rfl))
  simp only [Map.exec, Spec.step] at e1
  injection e1 with e1
  injection e1 with _ e1
  injection e1

/-! ### bench_maps.cpp -/

/-- every key with the value 1 -/
def ones (ks : List (List UInt8)) : List (List UInt8 × Val) := ks.map fun s => (s, bytesOf 4 1)

theorem ones_get (vs : Nat) {ks : List (List UInt8)} (d : Dict) {s : List UInt8} (h : s ∈ ks) :
    (Spec.run vs d (writes (ones ks))).1.get (s ++ [0]) = some (bytesOf 4 1) := by
  induction ks generalizing d with
  | nil => cases h
  | cons x ks ih =>
    show (Spec.run vs (Spec.step vs d (.write (x ++ [0]) (bytesOf 4 1))).1 (writes (ones ks))).1.get (s ++ [0]) = _
    by_cases hs : s ∈ ks
    · exact ih _ hs
    · rcases List.mem_cons.1 h with rfl | h
      · rw [writes_get_other vs _ (by simpa [ones] using hs)]
        simp only [Spec.step, not_malformed_term, if_false]
        rw [Dict.get_set, if_pos rfl]
      · exact absurd h hs

theorem Insertable.benchInsert (h : Insertable a p i ss) (hp : p.valSize = 4) (hq : ∀ s ∈ qs, 0 ∉ s)
    (hq2 : ∀ s ∈ qs, s.length + 1 + p.valSize < 2 ^ 64) (h0 : a.new p i = .ok m0) (ks : List (List UInt8)) (hs : ∀ s ∈ ks, s ∈ ss) :
    ∀ (os : List Op) (m : Map a.Trie a.Nlm), (∀ o ∈ os, Uses p.valSize ss qs o) → After a p m0 os m →
    ∃ m', Map.benchInsert (a.cfg p) m ks = .ok (m', true) ∧ After a p m0 (os ++ writes (ones ks)) m' ∧
      ∀ o ∈ os ++ writes (ones ks), Uses p.valSize ss qs o := by
  induction ks with
  | nil => intro os m hu hm; exact ⟨m, rfl, by simpa [writes, ones] using hm, by simpa [writes, ones] using hu⟩
  | cons s ks ih =>
    intro os m hu hm
    have hv : (bytesOf 4 1).length = p.valSize := by rw [hp]; rfl
    obtain ⟨m1, l, e1, e2, _, e4⟩ := h.update hq hq2 h0 hu hm (hs s (by simp))
    obtain ⟨m2, f1, f2⟩ := e4 (bytesOf 4 1) hv
    have hu' := uses_snoc (qs := qs) hu (o := .write (s ++ [0]) (bytesOf 4 1)) (.inl ⟨s, hs s (by simp), .inr ⟨_, hv, rfl⟩⟩)
    obtain ⟨m', g1, g2, g3⟩ := ih (fun e he => hs e (by simp [he])) (os ++ [.write (s ++ [0]) (bytesOf 4 1)]) m2 hu' f2
    refine ⟨m', ?_, ?_, ?_⟩
    · rw [Map.benchInsert, makeCharRangeS_eq, R.bind_ok, e1, R.bind_ok]
      dsimp only
      rw [f1, R.bind_ok, g1]
    · rw [List.append_assoc] at g2; exact g2
    · rw [List.append_assoc] at g3; exact g3

theorem Insertable.benchSearch (h : Insertable a p i ss) (hq : ∀ s ∈ qs, 0 ∉ s)
    (hq2 : ∀ s ∈ qs, s.length + 1 + p.valSize < 2 ^ 64) (h0 : a.new p i = .ok m0) (hu : ∀ o ∈ os, Uses p.valSize ss qs o)
    (hm : After a p m0 os m) {ks : List (List UInt8)}
    (hd1 : ∀ s ∈ ks, (Spec.run p.valSize [] os).1.get (s ++ [0]) = some (bytesOf 4 1))
    (hd2 : ∀ s, s ∉ ks → (Spec.run p.valSize [] os).1.get (s ++ [0]) = none) (ls : List (List UInt8)) (hs : ∀ s ∈ ls, s ∈ qs) :
    ∀ ok ng, Map.benchSearch (a.cfg p) m ok ng ls =
      .ok (ok + ls.countP (fun s => decide (s ∈ ks)), ng + ls.countP (fun s => decide (s ∉ ks))) := by
  induction ls with
  | nil => intro ok ng; rfl
  | cons s ls ih =>
    intro ok ng
    have hi := ih (fun s h => hs s (by simp [h]))
    have hf := h.find hq hq2 h0 hu hm (s := s) (by simp [hs s (by simp)])
    rw [Map.benchSearch, makeCharRangeS_eq, R.bind_ok]
    by_cases hk : s ∈ ks
    · rw [hd1 s hk] at hf
      obtain ⟨l, l1, l2⟩ := hf
      rw [l1, R.bind_ok]
      dsimp only
      rw [l2, R.bind_ok, if_pos rfl, hi, List.countP_cons_of_pos (by simpa using hk), List.countP_cons_of_neg (by simpa using hk)]
      congr 2
      omega
    · rw [hd2 s hk] at hf
      rw [hf, R.bind_ok]
      dsimp only
      rw [hi, List.countP_cons_of_neg (by simpa using hk), List.countP_cons_of_pos (by simpa using hk)]
      congr 2
      omega

/-- one run -/
theorem Insertable.benchRun (h : Insertable a p i ss) (hp : p.valSize = 4) (hq : ∀ s ∈ qs, 0 ∉ s)
    (hq2 : ∀ s ∈ qs, s.length + 1 + p.valSize < 2 ^ 64) :
    ∃ m0 m, a.new p i = .ok m0 ∧ Map.benchInsert (a.cfg p) m0 ss = .ok (m, true) ∧
      Map.benchSearch (a.cfg p) m 0 0 qs = .ok (qs.countP (fun s => decide (s ∈ ss)), qs.countP (fun s => decide (s ∉ ss))) := by
  obtain ⟨m0, h0, h1⟩ := h.new
  obtain ⟨m1, e1, e2, e3⟩ := h.benchInsert hp hq hq2 h0 ss (fun _ hs => hs) [] m0 (by simp) h1
  rw [List.nil_append] at e2 e3
  refine ⟨m0, m1, h0, e1, ?_⟩
  have := h.benchSearch hq hq2 h0 e3 e2 (ks := ss) (fun s hs => ones_get _ _ hs) (fun s hs => by
    rw [writes_get_other _ _ (by simpa [ones] using hs)]; rfl) qs (fun _ h => h) 0 0
  rw [Nat.zero_add, Nat.zero_add] at this
  exact this

theorem Insertable.benchRuns (h : Insertable a p i ss) (hp : p.valSize = 4) (hq : ∀ s ∈ qs, 0 ∉ s)
    (hq2 : ∀ s ∈ qs, s.length + 1 + p.valSize < 2 ^ 64) (n : Nat) (first : Bool) (r : Nat × Nat)
    (hr : first = true ∧ n ≠ 0 ∨ r = (qs.countP (fun s => decide (s ∈ ss)), qs.countP (fun s => decide (s ∉ ss)))) :
    a.benchRuns p i ss qs n first r = .ok (some (qs.countP (fun s => decide (s ∈ ss)), qs.countP (fun s => decide (s ∉ ss)))) := by
  induction n generalizing first r with
  | zero => rcases hr with hr | hr
            · exact absurd rfl hr.2
            · rw [Alias.benchRuns, hr]
  | succ n ih =>
    obtain ⟨m0, m, e0, e1, e2⟩ := h.benchRun hp hq hq2
    rw [Alias.benchRuns, e0, R.bind_ok, e1, R.bind_ok]
    dsimp only
    rw [if_neg (by simp), e2, R.bind_ok, if_neg, ih false _ (.inr rfl)]
    rintro ⟨c1, c2⟩
    rcases hr with hr | hr
    · rw [hr.1] at c1; cases c1
    · exact c2 hr

end

end Poplar
