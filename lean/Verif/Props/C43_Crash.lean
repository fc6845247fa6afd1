import Verif.Proof.CrashCount
import Verif.Proof.CrashStuck
import Verif.Proof.NlmRun
import Verif.Props.Demo
import Verif.Props.C28_Labels
/-
  C43: what is left of a map when a memory allocation fails during `update` (`std::bad_alloc`) and the caller catches the
  exception.

  `Map.updateCrash` (Model/Crash.lean) lists the allocations made by a call of `update`, each with the map as it is when
  the allocation throws. The theorems hold for every history of calls before, every key of the failing call and every allocation
  in the list.
-/
namespace Poplar.Props
open Poplar Poplar.Spec

/-- The aliases whose label store has no word of bits to say which nodes have labels: all but those with
`compact_bonsai_nlm` (poplar.hpp:45-49,59-63). -/
def NoChunkBits : Alias → Prop
  | .semiCompactBonsai | .compactBonsai => False
  | _ => True

private theorem labelSafe_iff (a : Alias) : a.labelSafe ↔ NoChunkBits a := by
  cases a <;> simp [Alias.labelSafe, NoChunkBits]

section maps
variable {a : Alias} {p : Params} {i : Init} {K : Key → Prop} {os os2 : List Op} {k : Key} {s : AState} {ys xs : List Out}
  {m0 m1 : Map a.Trie a.Nlm} {c : CrashSite × Map a.Trie a.Nlm}

/-- the setting: a history `os` and a call `update(k)` during which an allocation fails and leaves `c` -/
structure Crashed (a : Alias) (p : Params) (i : Init) (K : Key → Prop) (os : List Op) (k : Key) (s : AState)
    (m1 : Map a.Trie a.Nlm) (c : CrashSite × Map a.Trie a.Nlm) : Prop where
  /-- the history and the call are admissible -/
  adm : a.Admissible p i K (os ++ [.update k])
  /-- `s` is what the specification says after the history (dictionary and bytes registered) -/
  spec : ∃ ys, AState.run p.valSize {} os = some (s, ys)
  /-- and it gives a meaning to the call -/
  call : s.step p.valSize (.update k) ≠ none
  /-- `m1` is the map after the history -/
  reached : ∃ m0 xs, a.new p i = .ok m0 ∧ Map.run (a.cfg p) m0 os = .ok (m1, xs)
  /-- `c` is one of the allocations of `update(k)` -/
  point : c ∈ Map.updateCrash (a.cfg p) (a.crash p) m1 k

private theorem K_of (h : Crashed a p i K os k s m1 c) {k' : Key} {v : Val} (hv : s.dict.get k' = some v) : K k' := by
  obtain ⟨ys, hs⟩ := h.spec
  have hm : k' ∈ s.dict.map (·.1) := by
    clear hs h
    generalize s.dict = d at hv
    induction d with
    | nil => cases hv
    | cons e d ih =>
      simp only [Dict.get] at hv
      split at hv
      next he => simp [he]
      · exact List.mem_cons_of_mem _ (ih hv)
  have hi := AState.run_keys hs hm
  rw [List.map_nil, List.append_nil] at hi
  obtain ⟨o, o1, o2⟩ := List.mem_filterMap.1 hi
  obtain ⟨e1, _, e3⟩ := inserts_key o2
  rcases (h.adm.legal o (by simp [o1])).1 k' e1 with h1 | h1
  · exact h1
  · exact absurd h1 (inserted_not_malformed hi)

/-- **C43** A failed allocation loses none of the keys: every key inserted before is found, with its value. The
exceptions are a failure while a bonsai label store is being rebuilt (`relabel`: the trie has been rebuilt already and its node
numbers do not fit the labels any more) and a failed `insert` into a `compact_bonsai_nlm` (see `C43_labels_shifted`). -/
theorem C43_keys_survive (h : Crashed a p i K os k s m1 c) (h1 : c.1 ≠ .relabel) (h2 : c.1 = .label → NoChunkBits a)
    {k' : Key} {v : Val} (hv : s.dict.get k' = some v) : Map.exec (a.cfg p) c.2 (.find k') = .ok (c.2, .found (some v)) := by
  have hk' := K_of h hv
  obtain ⟨adm, ⟨ys, hs⟩, hcall, ⟨m0, xs, e0, e1⟩, hc⟩ := h
  obtain ⟨hsb, hst, hr, hp⟩ := Alias.crash_at adm hs hcall e0 e1
  have main : ∃ q, Map.find (a.cfg p) c.2 k' = .ok (some q) ∧ (a.cfg p).L.load c.2.nlm q = .ok v := by
    obtain ⟨hK, ⟨c1, c2, c3⟩ | ⟨c1, M, hM⟩⟩ := hp c hc
    · rw [c3] at hv; cases hv
    · rcases hM.ainv with ⟨hd, _⟩ | hA
      · rw [hd] at hv; cases hv
      · exact (hM.keep h1 (fun e => (labelSafe_iff a).2 (h2 e))).find hA hk' (by rw [hM.get _ hk']; exact hv)
  obtain ⟨q, q1, q2⟩ := main
  simp only [Map.exec, q1, Map.load, q2, R.bind_ok, R.pure_eq]

/-- **C43** `size()` is still the number of keys, unless it was the label of the new key that could not be stored: then the key has
been counted already. -/
theorem C43_size (h : Crashed a p i K os k s m1 c) :
    Map.exec (a.cfg p) c.2 .size = .ok (c.2, .count (s.dict.length + if c.1 = .label then 1 else 0)) := by
  obtain ⟨adm, ⟨ys, hs⟩, hcall, ⟨m0, xs, e0, e1⟩, hc⟩ := h
  obtain ⟨hsb, hst, hr, hp⟩ := Alias.crash_at adm hs hcall e0 e1
  show Except.ok (c.2, Out.count c.2.size) = _
  obtain ⟨hK, ⟨c1, c2, c3⟩ | ⟨c1, M, hM⟩⟩ := hp c hc
  · rw [c2, hst.size, c1]; rfl
  · rw [hM.size]

/-- what the user sees when performing a history on a map -/
def answers {τ ν : Type} (cfg : MapCfg τ ν) (m : Map τ ν) (os : List Op) : R (List Out) := do
  let (_, xs) ← Map.run cfg m os
  pure xs

/-- If a table of the trie cannot be enlarged in `add_child` (fkhash tries and the overflow tables of the compact ones), or the first `update` of a default constructed map cannot construct it, the
map is as good as before: it behaves in any further use as the specification says, as if `update(k)` had not been called.
The branching byte of `k` may have been registered already. -/
theorem C43_as_before_bytes (h : Crashed a p i K os k s m1 c) (hg : c.1 = .ctor ∨ c.1 = .grow) :
    ∃ bs, (bs = s.bytes ∨ ∃ b, b ≠ 0 ∧ BranchesAt s.dict k b ∧ b ∉ s.bytes ∧ bs = b :: s.bytes) ∧
      ∀ os2 s' zs, a.Admissible p i K (os ++ os2) → AState.run p.valSize ⟨s.dict, bs⟩ os2 = some (s', zs) →
        Returns (a.AtLimit p i (os ++ os2)) (answers (a.cfg p) c.2 os2) zs := by
  obtain ⟨adm, ⟨ys, hs⟩, hcall, ⟨m0, xs, e0, e1⟩, hc⟩ := h
  obtain ⟨hsb, hst, hr, hp⟩ := Alias.crash_at adm hs hcall e0 e1
  have main : ∃ bs, (bs = s.bytes ∨ ∃ b, b ≠ 0 ∧ BranchesAt s.dict k b ∧ b ∉ s.bytes ∧ bs = b :: s.bytes) ∧ Map.Rel c.2 bs ∧
      Map.State (a.trieSpec p i.symbBits i.capa0 hsb) (a.nlmSpec p adm.params) K c.2 s.dict := by
    obtain ⟨hK, ⟨c1, c2, c3⟩ | ⟨c1, M, hM⟩⟩ := hp c hc
    · exact ⟨s.bytes, Or.inl rfl, by rw [c2]; exact hr, by rw [c2]; exact hst⟩
    · obtain ⟨g1, g2⟩ := hM.grow (hg.resolve_left c1)
      by_cases hex : ∃ b, Map.Coded c.2 b ∧ ¬ Map.Coded m1 b
      · obtain ⟨b, b1, b2⟩ := hex
        have hb := ((g2 b).1 b1).resolve_left b2
        have hnb : b ∉ s.bytes := fun hm => b2 ((hr.mem b).2 hm)
        refine ⟨b :: s.bytes, Or.inr ⟨b, b1.2.2, hb.2, hnb, rfl⟩, ⟨List.nodup_cons.2 ⟨hnb, hr.nodup⟩, fun x => ?_⟩, Or.inr (Or.inr g1)⟩
        rw [g2 x, List.mem_cons, hr.mem x]
        constructor
        · rintro (h1 | ⟨_, h1⟩)
          · exact Or.inr h1
          · exact Or.inl (Map.branchesAt_unique h1 hb.2)
        · rintro (rfl | h1)
          · exact Or.inr hb
          · exact Or.inl h1
      · refine ⟨s.bytes, Or.inl rfl, ⟨hr.nodup, fun x => ?_⟩, Or.inr (Or.inr g1)⟩
        rw [← hr.mem x]
        constructor
        · intro hx; by_contra hn; exact hex ⟨x, hx, hn⟩
        · intro hx; exact (g2 x).2 (Or.inl hx)
  obtain ⟨bs, b1, b2, b3⟩ := main
  refine ⟨bs, b1, fun os2 s' zs h2 hz => ?_⟩
  have := Map.run_exact (b := nodesFor (2 ^ (i.symbBits - 8)) (inserted os2 ++ s.dict.map (·.1))) h2.keys (a.ok p h2.params _ _ hsb) os2 c.2 ⟨s.dict, bs⟩ b3 b2 (fun o ho => h2.legal o (by simp [ho]))
    (h2.z0.imp id (fun hz => (Map.ZeroOk.arun (s := {}) (s' := s) hs hz : Map.ZeroOk s.dict os2))) s' zs hz (Nat.le_refl _)
  unfold answers
  refine (this.mono (lim' := a.AtLimit p i (os ++ os2)) ?_ (fun _ _ h => h)).returns ?_
  · intro hN
    rw [h2.init.lambda] at hN
    refine Nat.le_trans hN (nodesFor_mono fun x hx => ?_)
    rw [inserted_append]
    rcases List.mem_append.1 hx with hx | hx
    · exact List.mem_append_right _ hx
    · have := AState.run_keys hs hx
      rw [List.map_nil, List.append_nil] at this
      exact List.mem_append_left _ this
  · rintro ⟨m', zs'⟩ _ ⟨q, _⟩
    exact Or.inl (by rw [← q]; rfl)

/-- **C43** ... in particular, if the keys are made of at most 253 byte values besides NUL, further calls return what they
would have returned if `update(k)` had not been called; repeating the call `update(k)` is one of the possibilities. -/
theorem C43_as_before (h : Crashed a p i K os k s m1 c) (hg : c.1 = .ctor ∨ c.1 = .grow) (h2 : a.Admissible p i K (os ++ os2))
    (hA : SmallAlphabet (os ++ .update k :: os2)) :
    Returns (a.AtLimit p i (os ++ os2)) (answers (a.cfg p) c.2 os2) (Spec.run p.valSize (Spec.run p.valSize [] os).1 os2).2 := by
  obtain ⟨bs, b1, b2⟩ := C43_as_before_bytes h hg
  obtain ⟨adm, ⟨ys, hs⟩, hcall, ⟨m0, xs, e0, e1⟩, hc⟩ := h
  obtain ⟨A, A1, A2⟩ := hA
  obtain ⟨bs0, r1, r2⟩ := AState.run_small p.valSize A1 os {} AState.Wf.init (fun c hc => absurd hc List.not_mem_nil)
    (fun k hk => A2 k (by rw [inserted_append]; exact List.mem_append_left _ hk))
  rw [r1] at hs
  simp only [Option.some.injEq, Prod.mk.injEq] at hs
  obtain ⟨rfl, rfl⟩ := hs
  have hw := AState.Wf.init.run r1
  obtain ⟨hsb, _, _, hp⟩ := Alias.crash_at adm r1 hcall e0 e1
  have hins : (Op.update k).inserts = some k := by
    simp [Op.inserts, not_malformed_iff.2 (adm.keys.nul k (hp c hc).1)]
  have hkA : ∀ b ∈ k, b ≠ 0 → b ∈ A := A2 k (by
    rw [inserted_append]
    exact List.mem_append_right _ (by simp [inserted, hins]))
  have hbs : (∀ b ∈ bs, b ∈ A) ∧ AState.Wf ⟨(Spec.run p.valSize [] os).1, bs⟩ := by
    rcases b1 with rfl | ⟨b, b3, b4, b5, rfl⟩
    · exact ⟨r2, hw⟩
    · refine ⟨fun x hx => ?_, List.nodup_cons.2 ⟨b5, hw.nodup⟩, fun hx => ?_⟩
      · rcases List.mem_cons.1 hx with rfl | hx
        · exact hkA _ b4.mem b3
        · exact r2 x hx
      · rcases List.mem_cons.1 hx with h1 | h1
        · exact b3 h1.symm
        · exact hw.nz h1
  obtain ⟨bs', q1, _⟩ := AState.run_small p.valSize A1 os2 ⟨(Spec.run p.valSize [] os).1, bs⟩ hbs.2 hbs.1 (fun x hx => A2 x (by
    rw [inserted_append]
    refine List.mem_append_right _ ?_
    simp only [inserted, List.filterMap_cons, hins]
    exact List.mem_cons_of_mem _ hx))
  exact b2 os2 _ _ h2 q1

/-- **C43** With a plain label store: if the label of the new key cannot be stored, the key becomes a trap: any later `find` or
`update` of it violates an assertion of the label store (without assertions: a null pointer or a position
past the end of the array of pointers is dereferenced). -/
theorem C43_failed_key (h : Crashed a p i K os k s m1 c) (ha : a = .plainBonsai ∨ a = .plainFkhash) (hl : c.1 = .label) :
    Map.find (a.cfg p) c.2 k = .error .assertion ∧ ∀ r, Map.update (a.cfg p) c.2 k ≠ .ok r := by
  obtain ⟨adm, ⟨ys, hs⟩, hcall, ⟨m0, xs, e0, e1⟩, hc⟩ := h
  obtain ⟨hsb, hst, hr, hp⟩ := Alias.crash_at adm hs hcall e0 e1
  obtain ⟨hK, ⟨c1, _, _⟩ | ⟨c1, M, hM⟩⟩ := hp c hc
  · rw [c1] at hl; cases hl
  · exact hM.failed adm.keys ((labelSafe_iff a).2 (by rcases ha with rfl | rfl <;> trivial)) (Alias.labelBad ha adm.params) hK hl

/-- **C43** ... and if it was the first key of the map, the map cannot be used at all: every `find` of a well-formed key violates the
assertion. -/
theorem C43_failed_first (h : Crashed a p i K os k s m1 c) (ha : a = .plainBonsai ∨ a = .plainFkhash) (hl : c.1 = .label)
    (hd : s.dict = []) {k' : Key} (hk : K k') : Map.find (a.cfg p) c.2 k' = .error .assertion := by
  obtain ⟨adm, ⟨ys, hs⟩, hcall, ⟨m0, xs, e0, e1⟩, hc⟩ := h
  obtain ⟨hsb, hst, hr, hp⟩ := Alias.crash_at adm hs hcall e0 e1
  obtain ⟨hK, ⟨c1, _, _⟩ | ⟨c1, M, hM⟩⟩ := hp c hc
  · rw [c1] at hl; cases hl
  · rw [hd] at hM
    exact hM.first adm.keys ((labelSafe_iff a).2 (by rcases ha with rfl | rfl <;> trivial)) (Alias.labelBad ha adm.params) hl hk

/-- **C43** If the enlarged tables of a bonsai trie cannot be allocated, or the label of a new node of a `plain_fkhash` map (a step
node or the key's own node) cannot be stored, the map never takes a new key again: whatever is called afterwards, as long as the
calls return, `size()` stays the same. -/
theorem C43_stuck (h : Crashed a p i K os k s m1 c) (hc : c.1 = .expand ∨ a = .plainFkhash ∧ (c.1 = .dummy ∨ c.1 = .label))
    {m' : Map a.Trie a.Nlm} {zs : List Out} (h2 : Map.run (a.cfg p) c.2 os2 = .ok (m', zs)) :
    Map.exec (a.cfg p) m' .size = .ok (m', .count (s.dict.length + if c.1 = .label then 1 else 0)) := by
  obtain ⟨adm, ⟨ys, hs⟩, hcall, ⟨m0, xs, e0, e1⟩, hp⟩ := h
  obtain ⟨hsb, hst, hr, hp'⟩ := Alias.crash_at adm hs hcall e0 e1
  show Except.ok (m', Out.count m'.size) = _
  obtain ⟨hK, ⟨c1, _, _⟩ | ⟨c1, M, hM⟩⟩ := hp' c hp
  · rw [c1] at hc
    rcases hc with hc | ⟨_, hc | hc⟩ <;> cases hc
  · rw [((a.stuck p).run (Alias.blocked hM hc) h2).2, hM.size]

private theorem points {m m' : Map a.Trie a.Nlm} {r : UpdOut} (h : Map.update (a.cfg p) m k = .ok (m', r)) (h1 : m'.size ≠ m.size) :
    (∃ c ∈ Map.updateCrash (a.cfg p) (a.crash p) m k, c.1 = .label) ∧
    ((a.cfg p).T.size m.trie ≠ 0 → (∀ m v s, Map.growPts (a.cfg p) (a.crash p) m v s ≠ []) → ∃ c ∈ Map.updateCrash (a.cfg p) (a.crash p) m k, c.1 = .grow) := by
  unfold Map.update at h
  unfold Map.updateCrash
  split at h
  · cases h; exact absurd rfl h1
  next hb =>
  rw [if_neg hb]
  split at h
  next hz =>
    rw [if_pos hz]
    refine ⟨?_, fun h3 => absurd hz h3⟩
    dsimp only at h
    split at h
    next hr =>
      rw [if_pos hr]
      obtain ⟨m2, e0, h⟩ := R.bind_eq_ok h
      rw [Map.onOk_ok e0]
      obtain ⟨t, e1, h⟩ := R.bind_eq_ok h
      obtain ⟨n, e2, h⟩ := R.bind_eq_ok h
      dsimp only at e1 ⊢
      rw [Map.onOk_ok e1, Map.onOk_ok e2]
      obtain ⟨c, c1, c2⟩ := Map.putLabel_pts (Alias.labelAllocs a p) h
      exact ⟨c, List.mem_append_right _ c1, c2⟩
    next hr =>
      rw [if_neg hr]
      simp only [R.pure_eq, R.bind_ok, Map.onOk] at h ⊢
      obtain ⟨t, e1, h⟩ := R.bind_eq_ok h
      obtain ⟨n, e2, h⟩ := R.bind_eq_ok h
      rw [e1]
      simp only [e2]
      obtain ⟨c, c1, c2⟩ := Map.putLabel_pts (Alias.labelAllocs a p) h
      exact ⟨c, List.mem_append_right _ c1, c2⟩
  next hz =>
    rw [if_neg hz]
    obtain ⟨n, e2, h⟩ := R.bind_eq_ok h
    rw [Map.onOk_ok e2]
    obtain ⟨q1, q2⟩ := Map.updLoop_points (Alias.labelAllocs a p) _ h h1
    exact ⟨q1, fun _ h3 => q2 h3⟩

/-- the aliases with an fkhash trie (poplar.hpp) -/
def FkhashTrie : Alias → Prop
  | .plainFkhash | .semiCompactFkhash | .compactFkhash => True
  | _ => False

/-- the aliases whose `add_child` may allocate: those with an fkhash trie, and those with overflow tables -/
def AddAllocates (a : Alias) : Prop := FkhashTrie a ∨ a = .compactBonsai

private theorem grow_points (hf : AddAllocates a) (m : Map a.Trie a.Nlm) (v s : Nat) : Map.growPts (a.cfg p) (a.crash p) m v s ≠ [] := by
  intro h
  obtain ⟨h1, h2⟩ := List.append_eq_nil_iff.1 h
  rcases hf with hf | rfl
  · cases a <;> first | exact hf.elim | cases h1
  · cases h2

/-- **C43** The failures considered are possible: if `update(k)` adds a key, there is an allocation for the label of `k` in its
course, and one for the tables of the trie before, if the map is not empty and its trie allocates in `add_child`. -/
theorem C43_points {s' : AState} {x : Out} {m2 : Map a.Trie a.Nlm} (h : a.Admissible p i K (os ++ [.update k]))
    (hs : AState.run p.valSize {} os = some (s, ys)) (hk : s.step p.valSize (.update k) = some (s', x))
    (hn : s'.dict.length = s.dict.length + 1) (h0 : a.new p i = .ok m0) (h1 : Map.run (a.cfg p) m0 os = .ok (m1, xs))
    (h2 : Map.exec (a.cfg p) m1 (.update k) = .ok (m2, x)) :
    (∃ c, Crashed a p i K os k s m1 c ∧ c.1 = .label) ∧ (AddAllocates a → s.dict ≠ [] → ∃ c, Crashed a p i K os k s m1 c ∧ c.1 = .grow) := by
  obtain ⟨hsb, st1, _, _, _⟩ := Alias.reach h.append_left hs h0 h1
  have h12 : Map.run (a.cfg p) m0 (os ++ [.update k]) = .ok (m2, xs ++ [x]) := by
    rw [Map.run_append, h1]
    simp only [R.bind_ok, Map.run, h2, R.pure_eq]
  obtain ⟨_, st2, _, _, _⟩ := Alias.reach h (AState.run_snoc hs hk) h0 h12
  have hsz : m2.size ≠ m1.size := by rw [st2.size, st1.size, hn]; omega
  obtain ⟨⟨m3, r⟩, e1, e2⟩ := R.bind_eq_ok h2
  have e3 : m3 = m2 := by
    dsimp only at e2
    split at e2
    · obtain ⟨v, _, e2⟩ := R.bind_eq_ok e2
      cases e2; rfl
    · cases e2; rfl
    · cases e2; rfl
  subst e3
  obtain ⟨⟨c, c1, c2⟩, q⟩ := points e1 hsz
  have mk : ∀ c ∈ Map.updateCrash (a.cfg p) (a.crash p) m1 k, Crashed a p i K os k s m1 c := fun c hc =>
    ⟨h, ⟨_, hs⟩, by rw [hk]; simp, ⟨_, _, h0, h1⟩, hc⟩
  refine ⟨⟨c, mk c c1, c2⟩, fun hf hd => ?_⟩
  obtain ⟨c, c1, c2⟩ := q ((a.trieSpec p i.symbBits i.capa0 hsb).inv_size _ (st1.live hd).inv.core.trie) (grow_points hf)
  exact ⟨c, mk c c1, c2⟩

/-- the number of allocations of the given sort in the course of `update(k)` -/
def allocations (a : Alias) (p : Params) (m : Map a.Trie a.Nlm) (k : Key) (site : CrashSite) : Nat :=
  ((Map.updateCrash (a.cfg p) (a.crash p) m k).filter fun c => decide (c.1 = site)).length

/-- **C43** ... and none is left out: in an fkhash map there is an allocation for every new node of the trie and for the label of
every new step node; in a bonsai map each of the two stores is rebuilt as often as `num_resize()` tells. -/
theorem C43_points_complete {s' : AState} {x : Out} {m2 : Map a.Trie a.Nlm} (h : a.Admissible p i K (os ++ [.update k]))
    (hs : AState.run p.valSize {} os = some (s, ys)) (hk : s.step p.valSize (.update k) = some (s', x))
    (hd : s.dict ≠ []) (h0 : a.new p i = .ok m0) (h1 : Map.run (a.cfg p) m0 os = .ok (m1, xs))
    (h2 : Map.exec (a.cfg p) m1 (.update k) = .ok (m2, x)) :
    (FkhashTrie a → (a.cfg p).T.size m2.trie ≤ (a.cfg p).T.size m1.trie + allocations a p m1 k .grow ∧
      m2.rateSteps.1 ≤ m1.rateSteps.1 + allocations a p m1 k .dummy) ∧
    (¬ FkhashTrie a → Map.numResize (a.cfg p) m2 = Map.numResize (a.cfg p) m1 + allocations a p m1 k .expand ∧
      Map.numResize (a.cfg p) m2 = Map.numResize (a.cfg p) m1 + allocations a p m1 k .relabel) := by
  obtain ⟨hsb, st1, _, _, _⟩ := Alias.reach h.append_left hs h0 h1
  have h12 : Map.run (a.cfg p) m0 (os ++ [.update k]) = .ok (m2, xs ++ [x]) := by
    rw [Map.run_append, h1]
    simp only [R.bind_ok, Map.run, h2, R.pure_eq]
  obtain ⟨_, st2, _, _, _⟩ := Alias.reach h (AState.run_snoc hs hk) h0 h12
  obtain ⟨⟨m3, r⟩, e1, e2⟩ := R.bind_eq_ok h2
  have e3 : m3 = m2 := by
    dsimp only at e2
    split at e2
    · obtain ⟨v, _, e2⟩ := R.bind_eq_ok e2
      cases e2; rfl
    · cases e2; rfl
    · cases e2; rfl
  subst e3
  have hz : (a.cfg p).T.size m1.trie ≠ 0 := (a.trieSpec p i.symbBits i.capa0 hsb).inv_size _ (st1.live hd).inv.core.trie
  obtain ⟨q1, q2, q3, q4⟩ := Map.update_acc (a.allocs p) e1 hz
  have hall : ∀ site, Map.npts site (Map.updateCrash (a.cfg p) (a.crash p) m1 k) = allocations a p m1 k site := fun site =>
    List.countP_eq_length_filter
  simp only [hall] at q1 q2 q3 q4
  refine ⟨fun hf => ?_, fun hf => ?_⟩
  · have hkind : (a.cfg p).T.kind = .fkhash := by cases a <;> first | rfl | exact hf.elim
    have hd2 : s'.dict ≠ [] := by
      simp only [AState.step] at hk
      split at hk
      · injection hk with hk; injection hk with hk _; rw [← hk]; exact Map.step_ne_nil _ hd
      · split at hk
        · injection hk with hk; injection hk with hk _; rw [← hk]; exact Map.step_ne_nil _ hd
        · split at hk
          · injection hk with hk; injection hk with hk _; rw [← hk]; exact hd
          · cases hk
    have n1 := (st1.live hd).nodes
    have n2 := (st2.live hd2).nodes
    have z1 := st1.size
    have z2 := st2.size
    refine ⟨?_, q1 hkind⟩
    have := q2 hkind
    omega
  · have hkind : (a.cfg p).T.kind = .bonsai := by cases a <;> first | rfl | exact absurd trivial hf
    exact ⟨q3 hkind, q4 hkind⟩

/-- **C43** ... and the first insertion into a default constructed map constructs it. -/
theorem C43_points_ctor (h : a.Admissible p i K (os ++ [.update k])) (hs : AState.run p.valSize {} os = some (s, ys))
    (hc : s.step p.valSize (.update k) ≠ none) (hm : ¬ Malformed k) (h0 : a.new p i = .ok m0) (h1 : Map.run (a.cfg p) m0 os = .ok (m1, xs))
    (hr : m1.isReady = false) : Crashed a p i K os k s m1 (.ctor, m1) := by
  refine ⟨h, ⟨_, hs⟩, hc, ⟨_, _, h0, h1⟩, ?_⟩
  obtain ⟨hsb, st1, _, _, _⟩ := Alias.reach h.append_left hs h0 h1
  have hz : (a.cfg p).T.size m1.trie = 0 := by
    rcases st1 with ⟨rfl, _, _⟩ | ⟨h, _⟩ | h
    · exact (a.ok p h.params i.symbBits i.capa0 hsb).empty
    · rw [h.ready] at hr; cases hr
    · rw [h.inv.ready] at hr; cases hr
  have hk := ((h.legal (.update k) (by simp)).1 k rfl).resolve_right hm
  unfold Map.updateCrash
  rw [if_neg (by rw [h.keys.badKey hk]; simp), if_pos hz, hr]
  simp

end maps

/-- two keys; then `update` of a third one fails -/
def crashDemo : List Op := [.write [97, 98, 99, 0] [1, 2, 3, 4], .write [97, 98, 0] [5, 6, 7, 8]]

/-- the dictionary after `crashDemo` -/
def crashDict : Dict := [([97, 98, 99, 0], [1, 2, 3, 4]), ([97, 98, 0], [5, 6, 7, 8])]

/-- the hypotheses are met for every alias: the label of "ax" cannot be stored, or the tables of the trie cannot be enlarged -/
theorem crashDemo_points (a : Alias) : ∃ s m1, s.dict = crashDict ∧
    (∃ c, Crashed a demoParams .default (CStrings 4) crashDemo [97, 120, 0] s m1 c ∧ c.1 = .label) ∧
    (AddAllocates a → ∃ c, Crashed a demoParams .default (CStrings 4) crashDemo [97, 120, 0] s m1 c ∧ c.1 = .grow) := by
  have adm : a.Admissible demoParams .default (CStrings 4) (crashDemo ++ [.update [97, 120, 0]]) :=
    demo_admissible a .default trivial _ (by decide) (by decide)
  have hs : AState.run demoParams.valSize {} crashDemo = some (⟨crashDict, []⟩, [.done, .done]) := rfl
  have hk : AState.step demoParams.valSize ⟨crashDict, []⟩ (.update [97, 120, 0]) =
      some (⟨crashDict ++ [([97, 120, 0], [0, 0, 0, 0])], [120]⟩, .value [0, 0, 0, 0]) := rfl
  obtain ⟨_, m0, e0, e1⟩ := Alias.after adm (AState.run_snoc hs hk)
  have hlim : ¬ a.AtLimit demoParams .default (crashDemo ++ [.update [97, 120, 0]]) := within a (by decide)
  cases er : Map.run (a.cfg demoParams) m0 (crashDemo ++ [.update [97, 120, 0]]) with
  | error e => rw [er] at e1; exact absurd e1.1 hlim
  | ok y =>
    rw [er] at e1
    obtain ⟨m2, zs⟩ := y
    have e1 := e1.1
    dsimp only at e1
    rw [Map.run_append] at er
    obtain ⟨⟨m1, xs⟩, r1, er⟩ := R.bind_eq_ok er
    simp only [Map.run] at er
    obtain ⟨⟨m3, ws⟩, r2, er⟩ := R.bind_eq_ok er
    obtain ⟨⟨m4, z⟩, r2, r3⟩ := R.bind_eq_ok r2
    simp only [R.bind_ok, R.pure_eq, Except.ok.injEq, Prod.mk.injEq] at er r3
    obtain ⟨_, _, _, _, hxs⟩ := Alias.reach adm.append_left hs e0 r1
    rw [← er.2, hxs, ← r3.2] at e1
    have hz : z = .value [0, 0, 0, 0] := by
      have := List.append_cancel_left e1
      injection this
    subst hz
    obtain ⟨q1, q2⟩ := C43_points adm hs hk rfl e0 r1 r2
    exact ⟨_, m1, rfl, q1, fun hf => q2 hf (by decide)⟩

/-- the first insertion into a default constructed map, when it cannot be constructed: it is empty as before -/
example (a : Alias) : ∃ m1 c, Crashed a demoParams .default (CStrings 4) [.size] [97, 120, 0] {} m1 c ∧ c.1 = .ctor ∧
    Map.exec (a.cfg demoParams) c.2 .size = .ok (c.2, .count 0) := by
  have adm : a.Admissible demoParams .default (CStrings 4) ([.size] ++ [.update [97, 120, 0]]) :=
    demo_admissible a .default trivial _ (by decide) (by decide)
  have h := C43_points_ctor (a := a) (m0 := Map.default (a.cfg demoParams)) (m1 := Map.default (a.cfg demoParams)) (s := {})
    adm rfl (by simp [AState.step, AState.newByte, Op.inserts]; decide) (by decide) rfl rfl rfl
  have := C43_size h
  exact ⟨_, _, h, rfl, this⟩

/-- the theorems applied to it: "abc" and "ab" have kept their values, and `size()` is 3 -/
example : ∃ m1 c, Crashed .plainFkhash demoParams .default (CStrings 4) crashDemo [97, 120, 0] ⟨crashDict, []⟩ m1 c ∧
    Map.exec (Alias.cfg .plainFkhash demoParams) c.2 (.find [97, 98, 99, 0]) = .ok (c.2, .found (some [1, 2, 3, 4])) ∧
    Map.exec (Alias.cfg .plainFkhash demoParams) c.2 .size = .ok (c.2, .count 3) ∧
    Map.find (Alias.cfg .plainFkhash demoParams) c.2 [97, 120, 0] = .error .assertion := by
  obtain ⟨s, m1, hs, ⟨c, h1, h2⟩, _⟩ := crashDemo_points .plainFkhash
  have e : s = ⟨crashDict, []⟩ := by
    obtain ⟨ys, h3⟩ := h1.spec
    have h4 : AState.run demoParams.valSize {} crashDemo = some (⟨crashDict, []⟩, [.done, .done]) := rfl
    rw [h3] at h4
    injection h4 with h4; injection h4
  subst e
  have := C43_size h1
  rw [h2] at this
  exact ⟨m1, c, h1, C43_keys_survive h1 (by rw [h2]; simp) (fun _ => trivial) rfl, this,
    (C43_failed_key h1 (Or.inr rfl) h2).1⟩

/-- ... and if the tables could not be enlarged, "ax" can be inserted later -/
example (a : Alias) (ha : AddAllocates a) : ∃ m1 c, Crashed a demoParams .default (CStrings 4) crashDemo [97, 120, 0] ⟨crashDict, []⟩ m1 c ∧
    answers (a.cfg demoParams) c.2 [.find [97, 120, 0], .update [97, 120, 0], .size, .find [97, 98, 0]] =
      .ok [.found none, .value [0, 0, 0, 0], .count 3, .found (some [5, 6, 7, 8])] := by
  obtain ⟨s, m1, hs, _, h⟩ := crashDemo_points a
  obtain ⟨c, h1, h2⟩ := h ha
  have e : s = ⟨crashDict, []⟩ := by
    obtain ⟨ys, h3⟩ := h1.spec
    have h4 : AState.run demoParams.valSize {} crashDemo = some (⟨crashDict, []⟩, [.done, .done]) := rfl
    rw [h3] at h4
    injection h4 with h4; injection h4
  subst e
  refine ⟨m1, c, h1, (C43_as_before h1 (Or.inr h2) (demo_admissible a .default trivial _ (by decide) (by decide))
    (small_of [97, 98, 99, 120] (by decide) (by decide))).ok (within _ (by decide))⟩

/-! ### the label stores -/

section labels
variable {c : NlmClass} {b : Nat} {os : List LabelOp} {j : Nat} {k : Key}

/-- positions that a failed `insert(j, ..)` into the class does not affect: all others, but in a `compact_bonsai_nlm` only those of
other chunks and those before `j` -/
def Unaffected (j i : Nat) : NlmClass → Prop
  | .compactBonsai W _ => i / W ≠ j / W ∨ i < j
  | _ => True

/-- node `i` answers like a node with the label `l` and the value `v` -/
def Answers {ν : Type} (ops : NlmOps ν) (m : ν) (i : Nat) (l v : List UInt8) : Prop :=
  ∀ key, (key = l ∨ (¬ key <+: l ∧ ¬ l <+: key)) →
    (key = l → ∃ p, ops.compare m i key = .ok (some p, key.length) ∧ ops.load m p = .ok v) ∧
    (key ≠ l → ops.compare m i key = .ok (none, lcp key l))

private theorem legalRun_append {fk : Bool} {vs : Nat} : ∀ {os os' : List LabelOp} {s : Labels}, s.LegalRun fk vs (os ++ os') →
    s.LegalRun fk vs os ∧ (s.run vs os).LegalRun fk vs os' := by
  intro os
  induction os with
  | nil => intro os' s h; exact ⟨trivial, h⟩
  | cons o os ih =>
    intro os' s h
    obtain ⟨h1, h2⟩ := h
    obtain ⟨h3, h4⟩ := ih h2
    exact ⟨⟨h1, h3⟩, h4⟩

private theorem good {S : NlmSpec c.ops (kindOf c.fk) c.valSize} (hmb : S.minb ≤ c.minBits) (hb : c.minBits ≤ b) (hb' : b < 64)
    (hl : (Labels.new (2 ^ b)).LegalRun c.fk c.valSize os) :
    ∃ m, c.build b os = .ok m ∧ GoodLabels S m ((Labels.new (2 ^ b)).run c.valSize os) := by
  obtain ⟨m0, e0, h0, hs0, hL0⟩ := S.make b (by omega) hb'
  have g0 : GoodLabels S m0 (Labels.new (2 ^ b)) :=
    ⟨h0, fun _ => hs0, fun i _ e => hL0 i e, fun i l v h => by cases h⟩
  obtain ⟨m, e, g⟩ := g0.run_ok hl
  exact ⟨m, by rw [NlmClass.build, e0, R.bind_ok]; exact e, g⟩

/-- **C43** A label store after any admissible history; an allocation of `insert(j, k)` or `append(k)` fails (there is at least one).
The other nodes keep their labels and values, except for those that follow `j` in its chunk of a `compact_bonsai_nlm`. -/
theorem C43_labels_kept (hc : c.Valid) (hb : c.minBits ≤ b) (hb' : b < 64)
    (hl : (Labels.new (2 ^ b)).LegalRun c.fk c.valSize (os ++ [.put j k])) :
    ∃ m, c.build b os = .ok m ∧ c.crash.label m j k ≠ [] ∧ ∀ nf ∈ c.crash.label m j k,
      ∀ i l v, ((Labels.new (2 ^ b)).run c.valSize os).at_ i = some (l, v) → Unaffected j i c → Answers c.ops nf i l v := by
  obtain ⟨hl1, ⟨hlk, hlj⟩, _⟩ := legalRun_append hl
  cases c with
  | plainBonsai vs =>
    obtain ⟨m, e, g⟩ := good (c := .plainBonsai vs) (S := PlainBonsaiNlm.spec vs) (Nat.le_refl _) hb hb' hl1
    refine ⟨m, e, by simp [NlmClass.crash, PlainBonsaiNlm.crash], fun nf hf i l v hi _ => ?_⟩
    rw [List.mem_singleton.1 hf]
    exact (PlainBonsaiNlm.spec vs).cmp g.inv (g.some_ i l v hi)
  | plainFkhash vs =>
    obtain ⟨m, e, g⟩ := good (c := .plainFkhash vs) (S := PlainFkNlm.spec vs) (Nat.le_refl _) hb hb' hl1
    refine ⟨m, e, by simp [NlmClass.crash, PlainFkNlm.crash], fun nf hf i l v hi _ => ?_⟩
    rw [List.mem_singleton.1 hf]
    exact (PlainFkNlm.spec vs).cmp g.inv (g.some_ i l v hi)
  | compactFkhash W vs =>
    have hW : 0 < W := by rcases hc.1 with h | h | h | h <;> omega
    obtain ⟨m, e, g⟩ := good (c := .compactFkhash W vs) (S := CompactFkNlm.spec W vs hW hc.2.1 hc.2.2) (Nat.le_refl _) hb hb' hl1
    refine ⟨m, e, ?_, fun nf hf i l v hi _ => ?_⟩
    · obtain ⟨m', p, e', _⟩ := (CompactFkNlm.spec W vs hW hc.2.1 hc.2.2).append rfl _ m g.inv k hlk
      exact CompactFkNlm.crash_ne_nil e'
    · rcases List.mem_append.1 hf with hf | hf
      · exact CompactFkNlm.releaseCrash_ok g.inv hf (g.some_ i l v hi)
      · exact CompactFkNlm.bufCrash_ok g.inv hf (g.some_ i l v hi)
  | compactBonsai W vs =>
    obtain ⟨m, e, g⟩ := good (c := .compactBonsai W vs) (S := CompactBonsaiNlm.spec W vs hc.1 hc.2.2) (Nat.le_refl _) hb hb' hl1
    obtain ⟨hj, hn⟩ := hlj
    refine ⟨m, e, ?_, fun nf hf i l v hi hu => ?_⟩
    · obtain ⟨m', p, e', _⟩ := (CompactBonsaiNlm.spec W vs hc.1 hc.2.2).insert rfl _ m g.inv j hj (g.none_ j hn) k hlk
      exact CompactBonsaiNlm.crash_ne_nil e'
    · obtain ⟨i1, _, gg, ho⟩ := g.inv
      have hL := g.some_ i l v hi
      obtain ⟨w, w', f1, f2, f3, f4, f5, f6, f7⟩ := CompactBonsaiNlm.crash_eq hc.1 ho (i1 ▸ hj) (g.none_ j hn) hf
      intro key hk
      obtain ⟨h1, h2⟩ := (CompactBonsaiNlm.spec W vs hc.1 hc.2.2).cmp g.inv hL key hk
      have he := CompactBonsaiNlm.crash_below hc.1 ho (i1 ▸ hj) (g.none_ j hn) hf (i := i) (e := l.isEmpty)
        (by intro hx; have := hL; simp only [CompactBonsaiNlm.spec] at this; rw [hx] at this; cases this) hu key
      refine ⟨fun e => ?_, fun e => (he.trans (h2 e))⟩
      obtain ⟨p, p1, p2⟩ := h1 e
      refine ⟨p, he.trans p1, ?_⟩
      rw [← p2]
      show CompactBonsaiNlm.load vs nf p = CompactBonsaiNlm.load vs m p
      unfold CompactBonsaiNlm.load
      rw [f6]

/-- **C43** The same for `append_dummy()`. -/
theorem C43_labels_dummy (hc : c.Valid) (hb : c.minBits ≤ b) (hb' : b < 64)
    (hl : (Labels.new (2 ^ b)).LegalRun c.fk c.valSize (os ++ [.dummy])) :
    ∃ m, c.build b os = .ok m ∧ c.crash.dummy m ≠ [] ∧ ∀ nf ∈ c.crash.dummy m,
      ∀ i l v, ((Labels.new (2 ^ b)).run c.valSize os).at_ i = some (l, v) → Answers c.ops nf i l v := by
  obtain ⟨hl1, hd, _⟩ := legalRun_append hl
  cases c with
  | plainBonsai vs => cases hd
  | compactBonsai W vs => cases hd
  | plainFkhash vs =>
    obtain ⟨m, e, g⟩ := good (c := .plainFkhash vs) (S := PlainFkNlm.spec vs) (Nat.le_refl _) hb hb' hl1
    refine ⟨m, e, by simp [NlmClass.crash, PlainFkNlm.crash], fun nf hf i l v hi => ?_⟩
    rw [List.mem_singleton.1 hf]
    exact (PlainFkNlm.spec vs).cmp g.inv (g.some_ i l v hi)
  | compactFkhash W vs =>
    have hW : 0 < W := by rcases hc.1 with h | h | h | h <;> omega
    obtain ⟨m, e, g⟩ := good (c := .compactFkhash W vs) (S := CompactFkNlm.spec W vs hW hc.2.1 hc.2.2) (Nat.le_refl _) hb hb' hl1
    refine ⟨m, e, ?_, fun nf hf i l v hi => ?_⟩
    · obtain ⟨m', e', _⟩ := (CompactFkNlm.spec W vs hW hc.2.1 hc.2.2).appendDummy rfl _ m g.inv
      change CompactFkNlm.appendDummy W m = _ at e'
      unfold CompactFkNlm.appendDummy at e'
      obtain ⟨n1, h1, _⟩ := R.bind_eq_ok e'
      intro hx
      have := (List.append_eq_nil_iff.1 hx).2
      unfold CompactFkNlm.bufCrash at this
      rw [h1] at this
      simp only [List.map_eq_nil_iff, List.range_eq_nil, List.length_eq_zero_iff] at this
      exact VByte.bytesGo_ne_nil _ _ this
    · rcases List.mem_append.1 hf with hf | hf
      · exact CompactFkNlm.releaseCrash_ok g.inv hf (g.some_ i l v hi)
      · exact CompactFkNlm.bufCrash_ok g.inv hf (g.some_ i l v hi)

/-- **C43** After a failed `insert(j, k)` into a `compact_bonsai_nlm` the labels of the chunk are shifted: `j`, and every labelled
node after `j` in the chunk, answers with the label and the value of the next labelled node. -/
theorem C43_labels_shifted {W vs : Nat} (hc : (NlmClass.compactBonsai W vs).Valid) (hb : Nat.log2 W ≤ b) (hb' : b < 64)
    (hl : (Labels.new (2 ^ b)).LegalRun false vs (os ++ [.put j k])) :
    ∃ m, (NlmClass.compactBonsai W vs).build b os = .ok m ∧ ∀ nf ∈ (NlmClass.compactBonsai W vs).crash.label m j k,
      ∀ i i' l v, (i = j ∨ j < i ∧ ((Labels.new (2 ^ b)).run vs os).at_ i ≠ none) → i < i' → i' / W = j / W →
        ((Labels.new (2 ^ b)).run vs os).at_ i' = some (l, v) →
        (∀ q, i < q → q < i' → ((Labels.new (2 ^ b)).run vs os).at_ q = none) →
        Answers (CompactBonsaiNlm.ops W vs) nf i l v := by
  obtain ⟨hl1, ⟨hlk, hlj⟩, _⟩ := legalRun_append hl
  obtain ⟨hj, hn⟩ := hlj
  obtain ⟨m, e, g⟩ := good (c := .compactBonsai W vs) (S := CompactBonsaiNlm.spec W vs hc.1 hc.2.2) (Nat.le_refl _) hb hb' hl1
  refine ⟨m, e, fun nf hf i i' l v hi hii hc' hi' hno => ?_⟩
  obtain ⟨i1, _, gg, ho⟩ := g.inv
  have hL := g.some_ i' l v hi'
  obtain ⟨w, w', f1, f2, f3, f4, f5, f6, f7⟩ := CompactBonsaiNlm.crash_eq hc.1 ho (i1 ▸ hj) (g.none_ j hn) hf
  intro key hk
  obtain ⟨h1, h2⟩ := (CompactBonsaiNlm.spec W vs hc.1 hc.2.2).cmp g.inv hL key hk
  have he := CompactBonsaiNlm.crash_above hc.1 ho (i1 ▸ hj) (g.none_ j hn) hf (i := i) (i' := i') (e := l.isEmpty)
    (by
      rcases hi with h | ⟨h, h'⟩
      · exact Or.inl h
      · refine Or.inr ⟨h, ?_⟩
        obtain ⟨⟨l2, v2⟩, hx⟩ := Option.ne_none_iff_exists'.1 h'
        have := g.some_ i l2 v2 hx
        exact ⟨l2.isEmpty, fun hy => by simp only [CompactBonsaiNlm.spec] at this; rw [hy] at this; cases this⟩)
    (by intro hx; have := hL; simp only [CompactBonsaiNlm.spec] at this; rw [hx] at this; cases this) hii hc'
    (fun q q1 q2 e => g.none_ q (hno q q1 q2) e) key
  refine ⟨fun e => ?_, fun e => (he.trans (h2 e))⟩
  obtain ⟨p, p1, p2⟩ := h1 e
  refine ⟨p, he.trans p1, ?_⟩
  rw [← p2]
  show CompactBonsaiNlm.load vs nf p = CompactBonsaiNlm.load vs m p
  unfold CompactBonsaiNlm.load
  rw [f6]

/-- **C43** ... and the last one reads past the end of the block of the chunk (or there is no block). -/
theorem C43_labels_last {W vs : Nat} (hc : (NlmClass.compactBonsai W vs).Valid) (hb : Nat.log2 W ≤ b) (hb' : b < 64)
    (hl : (Labels.new (2 ^ b)).LegalRun false vs (os ++ [.put j k])) :
    ∃ m, (NlmClass.compactBonsai W vs).build b os = .ok m ∧ ∀ nf ∈ (NlmClass.compactBonsai W vs).crash.label m j k,
      ∀ i, (i = j ∨ (i / W = j / W ∧ j < i ∧ ((Labels.new (2 ^ b)).run vs os).at_ i ≠ none)) →
        (∀ q, i < q → q / W = j / W → ((Labels.new (2 ^ b)).run vs os).at_ q = none) →
        ∀ key, CompactBonsaiNlm.compare W vs nf i key = .error .oob ∨ CompactBonsaiNlm.compare W vs nf i key = .error .assertion := by
  obtain ⟨hl1, ⟨hlk, hlj⟩, _⟩ := legalRun_append hl
  obtain ⟨hj, hn⟩ := hlj
  obtain ⟨m, e, g⟩ := good (c := .compactBonsai W vs) (S := CompactBonsaiNlm.spec W vs hc.1 hc.2.2) (Nat.le_refl _) hb hb' hl1
  refine ⟨m, e, fun nf hf i hi hno key => ?_⟩
  obtain ⟨i1, _, gg, ho⟩ := g.inv
  obtain ⟨f, f1, f2 | f2⟩ := CompactBonsaiNlm.crash_last hc.1 ho (i1 ▸ hj) (g.none_ j hn) hf (i := i)
    (by
      rcases hi with h | ⟨h0, h, h'⟩
      · exact Or.inl h
      · refine Or.inr ⟨h0, h, ?_⟩
        obtain ⟨⟨l2, v2⟩, hx⟩ := Option.ne_none_iff_exists'.1 h'
        have := g.some_ i l2 v2 hx
        exact ⟨l2.isEmpty, fun hy => by simp only [CompactBonsaiNlm.spec] at this; rw [hy] at this; cases this⟩)
    (fun q q1 q2 e => g.none_ q (hno q q1 q2) e) key
  · left; rw [f1, f2]
  · right; rw [f1, f2]

/-- three labels in a chunk of 8; the insertion of a label between the first and the second one fails: node 3 keeps "a",
node 5 has the label and value of node 6, and node 6 reads past the end -/
example : ∃ m, (NlmClass.compactBonsai 8 1).build 4 [.put 5 [98, 0], .put 3 [97, 0], .put 6 [99, 0], .write 6 [99, 0] [7]] = .ok m ∧
    ∃ nf ∈ (CompactBonsaiNlm.crash 8 1).label m 4 [120, 0],
      (∃ p, CompactBonsaiNlm.compare 8 1 nf 3 [97, 0] = .ok (some p, 2)) ∧
      CompactBonsaiNlm.compare 8 1 nf 5 [98, 0] = .ok (none, 0) ∧
      (∃ p, CompactBonsaiNlm.compare 8 1 nf 5 [99, 0] = .ok (some p, 2) ∧ CompactBonsaiNlm.load 1 nf p = .ok [7]) := by
  have hl : (Labels.new (2 ^ 4)).LegalRun false 1 ([.put 5 [98, 0], .put 3 [97, 0], .put 6 [99, 0], .write 6 [99, 0] [7]] ++ [.put 4 [120, 0]]) := by
    have cs : ∀ s : List UInt8, ∃ t : List UInt8, s ++ [0] = t ++ [0] := fun s => ⟨s, rfl⟩
    exact ⟨⟨⟨Or.inr (cs [98]), by decide⟩, by decide⟩, ⟨⟨Or.inr (cs [97]), by decide⟩, by decide⟩,
      ⟨⟨Or.inr (cs [99]), by decide⟩, by decide⟩, ⟨⟨_, rfl⟩, rfl⟩, ⟨⟨Or.inr (cs [120]), by decide⟩, by decide⟩, trivial⟩
  have hv : (NlmClass.compactBonsai 8 1).Valid := ⟨by decide, by decide, by decide⟩
  obtain ⟨m, e, hne, h1⟩ := C43_labels_kept (c := .compactBonsai 8 1) hv (by decide) (by decide) hl
  obtain ⟨m', e', h2⟩ := C43_labels_shifted hv (by decide) (by decide) hl
  rw [e] at e'; injection e' with e'; subst e'
  obtain ⟨nf, hf⟩ := List.exists_mem_of_ne_nil _ hne
  have hs := h2 nf hf 5 6 [99, 0] [7] (Or.inr ⟨by decide, by decide⟩) (by decide) (by decide) (by decide) (by intro q q1 q2; omega)
  refine ⟨m, e, nf, hf, ?_, (hs [98, 0] (Or.inr (by decide))).2 (by decide), (hs [99, 0] (Or.inl rfl)).1 rfl⟩
  obtain ⟨p, p1, _⟩ := (h1 nf hf 3 [97, 0] [0] (by decide) (Or.inr (by decide)) [97, 0] (Or.inl rfl)).1 rfl
  exact ⟨p, p1⟩

end labels
end Poplar.Props
