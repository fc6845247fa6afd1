import Verif.Props.C43_Stuck
import Verif.Proof.CrashFull
import Verif.Proof.DebugAssert
/-
  C43: what `update` of a new key does in a bonsai map whose tables could not be enlarged: it may return the pointer to the value
  of another key.
-/
namespace Poplar.Props
open Poplar Poplar.Spec

variable {a : Alias} {p : Params} {i : Init} {K : Key → Prop} {os : List Op} {k k0 : Key} {s : AState}
  {m1 : Map a.Trie a.Nlm} {c : CrashSite × Map a.Trie a.Nlm}

/-- **C43** A bonsai map whose tables could not be enlarged (`expand`). Let `k0` be the first key that was inserted, `b` a byte that has
been registered but with which no key starts. Then the key `b k0` is not found, but `update` of it returns the pointer to the value
of `k0`: it reads the value of `k0`, and what is written is what `find` returns for `k0` afterwards. -/
theorem C43_overwrites (h : Crashed a p i K os k s m1 c) (hc : c.1 = .expand) (h0 : (inserted os).head? = some k0) {b : UInt8} {v0 w : Val}
    (hv : s.dict.get k0 = some v0) (hb : b ∈ s.bytes) (hd : ∀ k' ∈ k :: inserted os, k'.head? ≠ some b) (hK : K (b :: k0)) (hw : w.length = p.valSize) :
    Map.exec (a.cfg p) c.2 (.find (b :: k0)) = .ok (c.2, .found none) ∧
    Map.exec (a.cfg p) c.2 (.update (b :: k0)) = .ok (c.2, .value v0) ∧
    ∃ m', Map.exec (a.cfg p) c.2 (.write (b :: k0) w) = .ok (m', .done) ∧ Map.exec (a.cfg p) m' (.find k0) = .ok (m', .found (some w)) := by
  obtain ⟨adm, ⟨ys, hs⟩, hcall, ⟨m0, xs, e0, e1⟩, hp⟩ := h
  obtain ⟨hsb, hst, hr, hp'⟩ := Alias.crash_at adm hs hcall e0 e1
  obtain ⟨hKk, ⟨c1, _, _⟩ | ⟨c1, M, hM⟩⟩ := hp' c hp
  · rw [c1] at hc; cases hc
  have hf : firstKey s.dict = some k0 := (Map.firstKey_run hs).trans h0
  obtain ⟨q1, l, n', q2, q6, q3, l', q4, q5⟩ := hM.overwrites (Alias.add_absent hM hc) hc hf ((hr.mem b).2 hb) (fun e he => hd _ (by
    have := AState.run_keys hs (List.mem_map.2 ⟨e, he, rfl⟩)
    rw [List.map_nil, List.append_nil] at this
    exact List.mem_cons_of_mem _ this)) hKk (hd k (by simp)) hK hw
  refine ⟨?_, ?_, { c.2 with nlm := n' }, ?_, ?_⟩
  · simp only [Map.exec, q1]
  · simp only [Map.exec, q2, R.bind_ok, Map.load, q6 _ hv, R.pure_eq]
  · simp only [Map.exec, q2, R.bind_ok, Map.store, q3, R.pure_eq]
  · simp only [Map.exec, q4, R.bind_ok, Map.load, q5, R.pure_eq]

private theorem step_bytes {vs : Nat} {s s' : AState} {o : Op} {x : Out} (h : s.step vs o = some (s', x)) {b : UInt8} (hb : b ∈ s.bytes) : b ∈ s'.bytes := by
  simp only [AState.step] at h
  split at h
  · cases h; exact hb
  · split at h
    · cases h; exact List.mem_cons_of_mem _ hb
    · split at h
      · cases h; exact List.mem_cons_of_mem _ hb
      · cases h

private theorem run_bytes {vs : Nat} : ∀ {os : List Op} {s s' : AState} {xs : List Out}, AState.run vs s os = some (s', xs) → ∀ b ∈ s.bytes, b ∈ s'.bytes := by
  intro os
  induction os with
  | nil => intro s s' xs h b hb; cases h; exact hb
  | cons o os ih =>
    intro s s' xs h b hb
    obtain ⟨s1, x, xs1, e1, e2, _⟩ := AState.run_cons h
    exact ih e2 b (step_bytes e1 hb)

private theorem run_keeps {vs : Nat} {k : Key} {v : Val} : ∀ {ks : List Key} {s s' : AState} {xs : List Out}, AState.run vs s (ks.map .update) = some (s', xs) →
    s.dict.get k = some v → s'.dict.get k = some v := by
  intro ks
  induction ks with
  | nil => intro s s' xs h hv; cases h; exact hv
  | cons x ks ih =>
    intro s s' xs h hv
    obtain ⟨s1, y, xs1, e1, e2, _⟩ := AState.run_cons h
    refine ih e2 ?_
    have hst : (step vs s.dict (.update x)).1.get k = some v := by
      simp only [step]
      split
      · exact hv
      · split
        · exact hv
        next hx =>
          rw [Dict.get_set, if_neg]
          · exact hv
          · rintro rfl; rw [hx] at hv; cases hv
    simp only [AState.step] at e1
    split at e1
    · cases e1; exact hst
    · split at e1
      · cases e1; exact hst
      · split at e1
        · cases e1; exact hv
        · cases e1

private theorem many_first : ∀ k ∈ stuckKeys, k.head? ≠ some 200 := by decide +kernel

private theorem inserted_updates (ks : List Key) : ∀ k ∈ inserted (ks.map .update), k ∈ ks := by
  intro k hk
  obtain ⟨o, o1, o2⟩ := List.mem_filterMap.1 hk
  obtain ⟨x, x1, rfl⟩ := List.mem_map.1 o1
  simp only [Op.inserts] at o2
  split at o2
  · cases o2
  · cases o2; exact x1

/-- it happens: the value of "\x01" is overwritten by an `update` of "\xc8\x01", a key that is not in the map -/
example (a : Alias) (hf : ¬ FkhashTrie a) : ∃ os k s m c, Crashed a tightParams .default (CStrings 4) os k s m c ∧
    Map.exec (a.cfg tightParams) c.2 (.find [1, 0]) = .ok (c.2, .found (some [0, 0, 0, 0])) ∧
    Map.exec (a.cfg tightParams) c.2 (.find [200, 1, 0]) = .ok (c.2, .found none) ∧
    ∃ m', Map.exec (a.cfg tightParams) c.2 (.write [200, 1, 0] [6, 6, 6, 0]) = .ok (m', .done) ∧
      Map.exec (a.cfg tightParams) m' (.find [1, 0]) = .ok (m', .found (some [6, 6, 6, 0])) := by
  obtain ⟨ks1, k, ks2, s, m, c, q1, q2, q3⟩ := stuck_points a hf
  obtain ⟨ys, hs⟩ := q2.spec
  obtain ⟨s1, ys1, ys2, r1, r2, _⟩ := AState.run_split hs
  have r1' : s1 = ⟨stuckDict, [200]⟩ := by
    have : AState.run tightParams.valSize {} stuckStart = some (⟨stuckDict, [200]⟩, [.value [0, 0, 0, 0], .value [0, 0, 0, 0]]) := rfl
    rw [r1] at this
    exact (Prod.mk.inj (Option.some.inj this)).1
  have hin : ∀ k' ∈ k :: inserted (stuckStart ++ ks1.map .update), k'.head? ≠ some 200 := by
    have hall : ∀ k' ∈ k :: ks1, k' ∈ stuckKeys := by
      intro k' hk'
      rw [q1]
      rcases List.mem_cons.1 hk' with h | h
      · rw [h]; exact List.mem_append_right _ (List.mem_cons_self ..)
      · exact List.mem_append_left _ h
    intro k' hk'
    rcases List.mem_cons.1 hk' with rfl | h
    · exact many_first _ (hall _ (by simp))
    · rw [inserted_append] at h
      rcases List.mem_append.1 h with h | h
      · exact (by decide : ∀ k' ∈ inserted stuckStart, k'.head? ≠ some 200) k' h
      · exact many_first _ (hall _ (List.mem_cons_of_mem _ (inserted_updates _ _ h)))
  have hv : s.dict.get [1, 0] = some [0, 0, 0, 0] := by
    have : s1.dict.get [1, 0] = some [0, 0, 0, 0] := by rw [r1']; rfl
    exact run_keeps r2 this
  have h0 : (inserted (stuckStart ++ ks1.map .update)).head? = some [1, 0] := by rw [inserted_append]; rfl
  obtain ⟨p1, p2, p3⟩ := C43_overwrites q2 q3 h0 hv (run_bytes r2 200 (by rw [r1']; simp)) hin (k0 := [1, 0]) (w := [6, 6, 6, 0]) ⟨⟨[200, 1], by decide, rfl⟩, by decide⟩ rfl
  exact ⟨_, k, s, m, c, q2, C43_keys_survive q2 (by rw [q3]; simp) (by rw [q3]; simp) hv, p1, p3⟩

end Poplar.Props
