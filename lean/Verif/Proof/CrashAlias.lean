import Verif.Proof.CrashState
/-
  Allocation failures during `update`, for the six aliases.
-/
namespace Poplar
open Spec

theorem PlainBonsaiNlm.crash_bad (vs : Nat) {c : Nat} {n : PlainBonsaiNlm} (h : (PlainBonsaiNlm.specB vs).Inv c n) {j : Nat}
    (hL : ∀ e, (PlainBonsaiNlm.specB vs).L n j e = none) (hj : j < c) {key : List UInt8} {nf : PlainBonsaiNlm}
    (hf : nf ∈ PlainBonsaiNlm.crash.label n j key) (key' : List UInt8) : PlainBonsaiNlm.compare nf j key' = .error .assertion := by
  rw [List.mem_singleton.1 hf]
  exact PlainBonsaiNlm.compare_none (vs := vs) (m := { n with size := n.size + 1 }) h.1.2 (by show j < n.ptrs.size; rw [h.1.1]; exact hj) (hL false) key'

theorem PlainFkNlm.crash_bad {n : PlainFkNlm} {j : Nat} (hj : j = n.ptrs.size) {key : List UInt8} {nf : PlainFkNlm}
    (hf : nf ∈ PlainFkNlm.crash.label n j key) (key' : List UInt8) : PlainFkNlm.compare nf j key' = .error .assertion := by
  rw [List.mem_singleton.1 hf]
  unfold PlainFkNlm.compare
  rw [hj, R.assert, if_neg (by simp)]
  rfl

theorem VByte.bytesGo_ne_nil (k v : Nat) : VByte.bytesGo k v ≠ [] := by
  cases k with
  | zero => simp [VByte.bytesGo]
  | succ k => unfold VByte.bytesGo; split <;> simp

theorem CompactFkNlm.crash_ne_nil {W vs : Nat} {n : CompactFkNlm} {i : Nat} {key : List UInt8} {r : CompactFkNlm × Loc}
    (h : CompactFkNlm.append W vs n key = .ok r) : (CompactFkNlm.crash W vs).label n i key ≠ [] := by
  unfold CompactFkNlm.append at h
  obtain ⟨n1, h1, _⟩ := R.bind_eq_ok h
  intro hc
  have := (List.append_eq_nil_iff.1 hc).2
  unfold CompactFkNlm.bufCrash at this
  rw [h1] at this
  simp only [List.map_eq_nil_iff, List.range_eq_nil, List.length_eq_zero_iff, List.append_eq_nil_iff] at this
  exact VByte.bytesGo_ne_nil _ _ this.1.1

theorem CompactBonsaiNlm.crash_ne_nil {W vs : Nat} {n : CompactBonsaiNlm} {i : Nat} {key : List UInt8} {r : CompactBonsaiNlm × Loc}
    (h : CompactBonsaiNlm.insert W vs n i key = .ok r) : (CompactBonsaiNlm.crash W vs).label n i key ≠ [] := by
  unfold CompactBonsaiNlm.insert at h
  obtain ⟨w, h1, h⟩ := R.bind_eq_ok h
  obtain ⟨_, _, h⟩ := R.bind_eq_ok h
  obtain ⟨_, _, h⟩ := R.bind_eq_ok h
  obtain ⟨w', h2, h⟩ := R.bind_eq_ok h
  obtain ⟨ch, h3, h⟩ := R.bind_eq_ok h
  simp only [CompactBonsaiNlm.crash, h1, R.bind_ok, h2, h3]
  simp

namespace CompactFk
variable {cfg : CompactCfg} {sb : Nat} {t : CompactFk}

theorem overflow_ok (hf : cfg.OK) (h : Inv cfg sb t) {v s : Nat} {t' : CompactFk} (ht : t' ∈ overflow cfg t v s) :
    Inv cfg sb t' ∧ t.capa.bits ≤ t'.capa.bits ∧ t'.child cfg sb = t.child cfg sb ∧ t'.size = t.size := by
  unfold overflow at ht
  split at ht
  swap
  · cases ht
  next x hx =>
  rw [List.mem_singleton.1 ht]
  split at hx
  · obtain ⟨h1, h2, h3, h4, _⟩ := (h.expandSelf_post hf).of_eq hx
    exact ⟨h1, by omega, by funext a b; simp only [child, childOf, h4], h2⟩
  · cases hx; exact ⟨h, Nat.le_refl _, rfl, rfl⟩

end CompactFk

namespace Alias
variable {a : Alias} {p : Params}

theorem mapCrashSpec (a : Alias) (p : Params) (hp : p.Valid) (sb cb0 : Nat) (hsb : 0 < sb) :
    Map.MapCrashSpec (a.trieSpec p sb cb0 hsb) (a.nlmSpec p hp) (a.crash p) a.labelSafe where
  toCrashSpec := a.crashSpec p hp
  overflow := by
    cases a
    case compactBonsai =>
      intro t h v s t' ht
      rw [List.mem_singleton.1 ht]
      exact ⟨h, fun _ => rfl, rfl, fun _ => rfl⟩
    case compactFkhash =>
      intro t h v s t' ht
      obtain ⟨o1, o2, o3, o4⟩ := CompactFk.overflow_ok (v := v) (s := s) (compactOK p) h.1 ht
      refine ⟨⟨o1, Nat.le_trans h.2 o2⟩, fun q => ?_, o4, fun hk => (by cases hk)⟩
      show tpath (some 0) (t'.child _ sb) q = _
      rw [o3]; rfl
    all_goals intro t h v s t' ht; cases ht

/-- the aliases whose failed key can be seen to fail -/
theorem labelBad (ha : a = .plainBonsai ∨ a = .plainFkhash) (hp : p.Valid) : Map.LabelBad (a.nlmSpec p hp) (a.crash p) := by
  rcases ha with rfl | rfl
  · intro c n h j key hL hj _ nf hf key'
    exact PlainBonsaiNlm.crash_bad p.valSize h hL hj hf key'
  · intro c n h j key hL hj hs nf hf key'
    exact PlainFkNlm.crash_bad (hs rfl) hf key'

theorem labelAllocs (a : Alias) (p : Params) : Map.LabelAllocs (a.cfg p) (a.crash p) := by
  cases a
  · intro m m' i key r _; simp [Alias.crash, PlainBonsaiNlm.crash]
  · intro m m' i key r h
    unfold Map.putLabel at h
    split at h
    next hk => cases hk
    obtain ⟨x, h1, _⟩ := R.bind_eq_ok h
    exact CompactBonsaiNlm.crash_ne_nil h1
  · intro m m' i key r h
    unfold Map.putLabel at h
    split at h
    next hk => cases hk
    obtain ⟨x, h1, _⟩ := R.bind_eq_ok h
    exact CompactBonsaiNlm.crash_ne_nil h1
  · intro m m' i key r _; simp [Alias.crash, PlainFkNlm.crash]
  · intro m m' i key r h
    unfold Map.putLabel at h
    split at h
    swap
    next hk => cases hk
    obtain ⟨x, h1, _⟩ := R.bind_eq_ok h
    exact CompactFkNlm.crash_ne_nil h1
  · intro m m' i key r h
    unfold Map.putLabel at h
    split at h
    swap
    next hk => cases hk
    obtain ⟨x, h1, _⟩ := R.bind_eq_ok h
    exact CompactFkNlm.crash_ne_nil h1

variable {i : Init} {K : Key → Prop} {os : List Op} {k : Key} {s : AState} {ys xs : List Out} {m0 m1 : Map a.Trie a.Nlm}

/-- a map in which an allocation failed -/
theorem crash_at (h : a.Admissible p i K (os ++ [.update k])) (hs : AState.run p.valSize {} os = some (s, ys))
    (hk : s.step p.valSize (.update k) ≠ none) (h0 : a.new p i = .ok m0) (h1 : Map.run (a.cfg p) m0 os = .ok (m1, xs)) :
    ∃ hsb : 0 < i.symbBits,
      Map.State (a.trieSpec p i.symbBits i.capa0 hsb) (a.nlmSpec p h.params) K m1 s.dict ∧ Map.Rel m1 s.bytes ∧
      ∀ c ∈ Map.updateCrash (a.cfg p) (a.crash p) m1 k, K k ∧
        ((c.1 = .ctor ∧ c.2 = m1 ∧ s.dict = []) ∨ (c.1 ≠ .ctor ∧ ∃ M,
          Map.SPt (a.trieSpec p i.symbBits i.capa0 hsb) (a.nlmSpec p h.params) (a.crash p) a.labelSafe K M m1 s.dict k c)) := by
  obtain ⟨hsb, hst, hr, _, _⟩ := reach h.append_left hs h0 h1
  refine ⟨hsb, hst, hr, ?_⟩
  intro c hc
  have hl := (h.legal (.update k) (by simp)).1 k rfl
  rcases hl with hK | hbad
  swap
  · exfalso
    unfold Map.updateCrash at hc
    rw [if_pos ((badKey_iff k).2 hbad)] at hc
    cases hc
  refine ⟨hK, ?_⟩
  have hins : (Op.update k).inserts = some k := by
    have := not_malformed_iff.2 (h.keys.nul k hK)
    simp [Op.inserts, this]
  have hcode : m1.numCodes < 255 ∨ ∀ c, c ≠ 0 → BranchesAt s.dict k c → Map.Coded m1 c := by
    by_cases hlen : s.bytes.length < 254
    · left; have := hr.le hst; omega
    · right
      intro c h0 hb
      by_contra hc
      have hn := (s.newByte_iff (.update k) c).2 ⟨k, hins, hb, h0, fun hm => hc ((hr.mem c).2 hm)⟩
      apply hk
      simp only [AState.step, hn]
      rw [if_neg (by omega), if_neg (by omega)]
  have hz : (a.plainFk = false ∨ p.dbg = false) ∨ k.head? ≠ some 0 ∨ s.dict = [] ∨ ∃ l, firstKey s.dict = some (0 :: l) := by
    rcases h.z0 with hz | hz
    · exact Or.inl hz
    · exact Or.inr ((hz.arun hs).now hins)
  rcases Map.State.crash (a.mapCrashSpec p h.params _ _ hsb) h.keys (a.ok p h.params _ _ hsb) hst hK hz hcode c hc with ⟨c1, c2, c3⟩ | ⟨c1, c2⟩
  · refine Or.inl ⟨c1, c2, ?_⟩
    by_contra hd
    rw [(hst.live hd).inv.ready] at c3
    cases c3
  · exact Or.inr ⟨c1, c2⟩

end Alias
end Poplar
