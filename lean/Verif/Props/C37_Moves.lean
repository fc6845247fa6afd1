import Verif.Model.Move
import Verif.Proof.Pointers
import Verif.Proof.ResizeCount
import Verif.Props.Demo
/-
  C37: moved-from maps.
-/
namespace Poplar.Props
open Poplar Poplar.Spec

variable {a : Alias} {p : Params} {i : Init} {K : Key → Prop} {os : List Op}

private theorem trie_size (m : Map a.Trie a.Nlm) : (a.cfg p).T.size (a.trieMovedFrom m.trie) = (a.cfg p).T.size m.trie := by
  cases a <;> rfl

private theorem trie_root (m : Map a.Trie a.Nlm) (h : (a.cfg p).T.size m.trie ≠ 0) :
    ∃ r, (a.cfg p).T.getRoot (a.trieMovedFrom m.trie) = .ok r ∧ (a.plainFk = true ∨ a = .compactFkhash → r = 0) := by
  have h1 : ∀ t : PlainBonsai, t.size ≠ 0 → PlainBonsai.getRoot t.movedFrom = .ok 1 := by
    intro t h; unfold PlainBonsai.getRoot; rw [R.assert_dec (show t.movedFrom.size ≠ 0 from h)]; rfl
  have h2 : ∀ t : CompactBonsai, t.size ≠ 0 → CompactBonsai.getRoot t.movedFrom = .ok 0 := by
    intro t h; unfold CompactBonsai.getRoot; rw [R.assert_dec (show t.movedFrom.size ≠ 0 from h)]; rfl
  have h3 : ∀ t : PlainFk, t.size ≠ 0 → PlainFk.getRoot t.movedFrom = .ok 0 := by
    intro t h; unfold PlainFk.getRoot; rw [R.assert_dec (show t.movedFrom.size ≠ 0 from h)]; rfl
  have h4 : ∀ t : CompactFk, t.size ≠ 0 → CompactFk.getRoot t.movedFrom = .ok 0 := by
    intro t h; unfold CompactFk.getRoot; rw [R.assert_dec (show t.movedFrom.size ≠ 0 from h)]; rfl
  cases a
  · exact ⟨1, h1 _ h, by simp [Alias.plainFk]⟩
  · exact ⟨1, h1 _ h, by simp [Alias.plainFk]⟩
  · exact ⟨0, h2 _ h, fun _ => rfl⟩
  · exact ⟨0, h3 _ h, fun _ => rfl⟩
  · exact ⟨0, h3 _ h, fun _ => rfl⟩
  · exact ⟨0, h4 _ h, fun _ => rfl⟩

/-- the label store of a moved-from map cannot be read -/
private theorem nlm_compare (m : Map a.Trie a.Nlm) (r : Nat) (hr : a.plainFk = true ∨ a = .compactFkhash → r = 0) (k : Key) :
    ∃ e, (a.cfg p).L.compare (a.nlmMovedFrom m.nlm) r k = .error e ∧ (e = .oob ∨ e = .assertion) := by
  have hfk : ∀ n : CompactFkNlm, ∃ e, CompactFkNlm.compare p.chunkSize p.valSize n.movedFrom 0 k = .error e ∧ (e = .oob ∨ e = .assertion) := by
    intro n
    unfold CompactFkNlm.compare
    by_cases h : 0 < n.movedFrom.size
    · rw [R.assert_dec h, R.bind_ok]
      simp only [CompactFkNlm.movedFrom, Nat.zero_div, Nat.zero_mod]
      exact ⟨.oob, rfl, Or.inl rfl⟩
    · refine ⟨.assertion, ?_, Or.inr rfl⟩
      simp [R.assert, h]
  have hb : ∀ n : CompactBonsaiNlm, CompactBonsaiNlm.compare p.chunkSize p.valSize n.movedFrom r k = .error .oob := by
    intro n
    unfold CompactBonsaiNlm.compare CompactBonsaiNlm.movedFrom rd
    simp
  have hp1 : ∀ n : PlainBonsaiNlm, PlainBonsaiNlm.compare n.movedFrom r k = .error .assertion := by
    intro n; unfold PlainBonsaiNlm.compare PlainBonsaiNlm.movedFrom R.assert; simp
  have hp2 : ∀ n : PlainFkNlm, PlainFkNlm.compare n.movedFrom r k = .error .assertion := by
    intro n; unfold PlainFkNlm.compare PlainFkNlm.movedFrom R.assert; simp
  cases a
  · exact ⟨.assertion, hp1 m.nlm, Or.inr rfl⟩
  · exact ⟨.oob, hb _, Or.inl rfl⟩
  · exact ⟨.oob, hb _, Or.inl rfl⟩
  · exact ⟨.assertion, hp2 m.nlm, Or.inr rfl⟩
  · rw [hr (Or.inl rfl)]; exact hfk _
  · rw [hr (Or.inr rfl)]; exact hfk _

/-- **C37** The source of a move still reports its old `size()`, `capa_size()`; and if the map held keys, every
`find` and `update` of a well-formed key on it is undefined behaviour (it reads from an emptied vector). -/
theorem C37_moved_from (h : a.Admissible p i K os) (hA : SmallAlphabet os) {m0 m : Map a.Trie a.Nlm} {xs : List Out}
    (h0 : a.new p i = .ok m0) (hr : Map.run (a.cfg p) m0 os = .ok (m, xs)) :
    (a.movedFrom m).size = (distinct (inserted os)) ∧ Map.capaSize (a.cfg p) (a.movedFrom m) = Map.capaSize (a.cfg p) m ∧
    (inserted os ≠ [] → ∀ k, ¬ Malformed k →
      (Map.find (a.cfg p) (a.movedFrom m) k = .error .oob ∨ Map.find (a.cfg p) (a.movedFrom m) k = .error .assertion) ∧
      (Map.update (a.cfg p) (a.movedFrom m) k = .error .oob ∨ Map.update (a.cfg p) (a.movedFrom m) k = .error .assertion)) := by
  obtain ⟨bs, hs⟩ := hA.run (vs := p.valSize)
  obtain ⟨hsb, m', h1, h2⟩ := Alias.after h hs
  rw [h0] at h1; injection h1 with h1; subst h1
  rw [hr] at h2
  obtain ⟨_, hst, _⟩ := h2
  refine ⟨?_, ?_, ?_⟩
  · show m.size = _
    rw [hst.size, Spec.length_run]
  · cases a <;> rfl
  · intro hne k hk
    have hb : Map.badKey k = false := by
      have := (badKey_iff k).not.2 hk; simpa using this
    have hd : (run p.valSize [] os).1 ≠ [] := by
      intro hd
      obtain ⟨k', hk'⟩ := List.exists_mem_of_ne_nil _ hne
      have := (Spec.get_ne_none p.valSize os k').2 hk'
      rw [hd] at this
      exact this rfl
    have hL := hst.live hd
    have hz : (a.cfg p).T.size m.trie ≠ 0 := (a.trieSpec p i.symbBits i.capa0 hsb).inv_size _ hL.inv.core.trie
    have hready : (a.movedFrom m).isReady = true := hL.inv.ready
    have hz' : (a.cfg p).T.size (a.movedFrom m).trie ≠ 0 := by
      show (a.cfg p).T.size (a.trieMovedFrom m.trie) ≠ 0
      rw [trie_size]; exact hz
    obtain ⟨r, hr1, hr2⟩ := trie_root m hz
    have hr1 : (a.cfg p).T.getRoot (a.movedFrom m).trie = .ok r := hr1
    have hke : k.isEmpty = false := by
      cases k with
      | nil => exact absurd (Or.inl rfl) hk
      | cons => rfl
    obtain ⟨e, he, hor⟩ := nlm_compare (p := p) m r hr2 k
    have he : (a.cfg p).L.compare (a.movedFrom m).nlm r k = .error e := he
    have hf : Map.find (a.cfg p) (a.movedFrom m) k = .error e := by
      unfold Map.find
      simp only [hb, hready, hz', hr1, R.bind_ok, Bool.false_eq_true, if_false, Bool.not_true, decide_false, Bool.or_self]
      unfold Map.findLoop
      simp only [hke, he, Bool.false_eq_true, if_false]
      rfl
    have hu : Map.update (a.cfg p) (a.movedFrom m) k = .error e := by
      unfold Map.update
      simp only [hb, hz', hr1, R.bind_ok, Bool.false_eq_true, if_false]
      unfold Map.updLoop
      simp only [hke, he, Bool.false_eq_true, if_false]
      rfl
    rw [hf, hu]
    rcases hor with rfl | rfl
    · exact ⟨Or.inl rfl, Or.inl rfl⟩
    · exact ⟨Or.inr rfl, Or.inr rfl⟩

/-- **C37** The source of a move from a default-constructed map is again exactly a default-constructed map, and can be used
like a new one. -/
theorem C37_moved_from_default (a : Alias) (p : Params) : a.movedFrom (Map.default (a.cfg p)) = Map.default (a.cfg p) := by
  cases a <;> rfl

/-- **C37** The source of a move from a map that was constructed with `map(capa_bits, lambda)` but holds no keys: `find` gives
nullptr, and for the Bonsai aliases `update` is undefined behaviour. -/
theorem C37_moved_from_empty {cb lam : Nat} (hp : p.Valid) (hi : (Init.make cb lam).Fits) {m : Map a.Trie a.Nlm}
    (h0 : a.new p (.make cb lam) = .ok m) {k : Key} (hk : ¬ Malformed k) :
    Map.find (a.cfg p) (a.movedFrom m) k = .ok none ∧
    ((a = .plainBonsai ∨ a = .semiCompactBonsai ∨ a = .compactBonsai) →
      Map.update (a.cfg p) (a.movedFrom m) k = .error .oob) := by
  obtain ⟨hsb, m', h1, _, hz, _⟩ := a.new_ok p hp _ hi (fun _ => True)
  rw [h0] at h1; injection h1 with h1; subst h1
  have hready : (a.movedFrom m).isReady = true := by
    obtain ⟨_, _, _, _, h⟩ := Alias.new_capa (fun _ => True) hp hi h0
    exact h.1
  have hb : Map.badKey k = false := by
    have := (badKey_iff k).not.2 hk; simpa using this
  have hz' : (a.cfg p).T.size (a.movedFrom m).trie = 0 := by
    show (a.cfg p).T.size (a.trieMovedFrom m.trie) = 0
    rw [trie_size]; exact hz
  constructor
  · unfold Map.find
    simp only [hb, hz', Bool.false_eq_true, if_false]
    simp
  · intro ha
    have h1 : ∀ t : PlainBonsai, t.size = 0 → PlainBonsai.addRoot t = .ok { t with size := 1 } := by
      intro t h; unfold PlainBonsai.addRoot; rw [R.assert_dec h]; rfl
    have h2 : ∀ t : CompactBonsai, t.size = 0 → CompactBonsai.addRoot t = .ok { t with size := 1 } := by
      intro t h; unfold CompactBonsai.addRoot; rw [R.assert_dec h]; rfl
    have h3 : ∀ (n : PlainBonsaiNlm) r, PlainBonsaiNlm.insert p.valSize n.movedFrom r k = .error .oob := by
      intro n r; unfold PlainBonsaiNlm.insert PlainBonsaiNlm.movedFrom rd; simp
    have h4 : ∀ (n : CompactBonsaiNlm) r, CompactBonsaiNlm.insert p.chunkSize p.valSize n.movedFrom r k = .error .oob := by
      intro n r; unfold CompactBonsaiNlm.insert CompactBonsaiNlm.movedFrom rd; simp
    unfold Map.update
    simp only [hb, hz', hready, Bool.false_eq_true, if_false, if_true, Bool.not_true, R.pure_eq, R.bind_ok]
    rcases ha with rfl | rfl | rfl
    · have e1 : (Alias.plainBonsai.cfg p).T.addRoot (Alias.plainBonsai.movedFrom m).trie = .ok { (PlainBonsai.movedFrom m.trie) with size := 1 } := h1 _ hz'
      rw [e1, R.bind_ok]
      have e2 : ∀ t : PlainBonsai, (Alias.plainBonsai.cfg p).T.getRoot { t with size := 1 } = .ok 1 := fun _ => rfl
      rw [e2, R.bind_ok]
      have e3 := h3 m.nlm 1
      unfold Map.putLabel
      show (do let (nlm, l) ← PlainBonsaiNlm.insert p.valSize (PlainBonsaiNlm.movedFrom m.nlm) 1 k; _) = _
      rw [e3]; rfl
    · have e1 : (Alias.semiCompactBonsai.cfg p).T.addRoot (Alias.semiCompactBonsai.movedFrom m).trie = .ok { (PlainBonsai.movedFrom m.trie) with size := 1 } := h1 _ hz'
      rw [e1, R.bind_ok]
      have e2 : ∀ t : PlainBonsai, (Alias.semiCompactBonsai.cfg p).T.getRoot { t with size := 1 } = .ok 1 := fun _ => rfl
      rw [e2, R.bind_ok]
      have e3 := h4 m.nlm 1
      unfold Map.putLabel
      show (do let (nlm, l) ← CompactBonsaiNlm.insert p.chunkSize p.valSize (CompactBonsaiNlm.movedFrom m.nlm) 1 k; _) = _
      rw [e3]; rfl
    · have e1 : (Alias.compactBonsai.cfg p).T.addRoot (Alias.compactBonsai.movedFrom m).trie = .ok { (CompactBonsai.movedFrom m.trie) with size := 1 } := h2 _ hz'
      rw [e1, R.bind_ok]
      have e2 : ∀ t : CompactBonsai, (Alias.compactBonsai.cfg p).T.getRoot { t with size := 1 } = .ok 0 := fun _ => rfl
      rw [e2, R.bind_ok]
      have e3 := h4 m.nlm 0
      unfold Map.putLabel
      show (do let (nlm, l) ← CompactBonsaiNlm.insert p.chunkSize p.valSize (CompactBonsaiNlm.movedFrom m.nlm) 0 k; _) = _
      rw [e3]; rfl

/-! ### the parts of a moved-from map -/

/-- **C37** The elements of a moved-from `compact_vector` (which still reports its old size) cannot be read. -/
theorem C37_moved_from_vector (v : CompactVector) (i : Nat) :
    v.movedFrom.size = v.size ∧ (v.movedFrom.get i = .error .oob ∨ v.movedFrom.get i = .error .assertion) := by
  refine ⟨rfl, ?_⟩
  by_cases hi : i < v.size
  · left
    unfold CompactVector.get
    rw [R.assert_dec (show i < v.movedFrom.size from hi), R.bind_ok]
    dsimp only
    split <;> simp [CompactVector.movedFrom, rd]
  · right
    unfold CompactVector.get
    simp [CompactVector.movedFrom, R.assert, hi]

/-- **C37** A moved-from `standard_hash_table` still reports its old `size()`, but finds nothing, and the next `set` starts from
an empty table, as on a default-constructed object. -/
theorem C37_moved_from_sht (cfg : ShtCfg) (t : Sht) (k v : Nat) :
    t.movedFrom.size = t.size ∧ Sht.get cfg t.movedFrom k = .ok u64max ∧ Sht.set cfg t.movedFrom k v = Sht.set cfg {} k v :=
  ⟨rfl, rfl, rfl⟩

private theorem vec_get {v : CompactVector} {i x : Nat} (h : v.movedFrom.get i = .ok x) : False := by
  rcases (C37_moved_from_vector v i).2 with h1 | h1 <;> rw [h1] at h <;> cases h

/-- **C37** A moved-from `compact_hash_table` cannot be searched. -/
theorem C37_moved_from_cht (cfg : ChtCfg) (t : Cht) (k x : Nat) : Cht.get cfg t.movedFrom k ≠ .ok x := by
  intro h
  unfold Cht.get at h
  obtain ⟨_, _, h⟩ := R.bind_eq_ok h
  obtain ⟨_, _, h⟩ := R.bind_eq_ok h
  obtain ⟨_, h1, _⟩ := R.bind_eq_ok h
  unfold Cht.getVbit at h1
  obtain ⟨_, h2, _⟩ := R.bind_eq_ok h1
  exact vec_get h2

private theorem dsp_cmp {c : DspCfg} {d : DspTable} {i r : Nat} {b : Bool} (h : d.movedFrom.compareDsp c i r = .ok b) : False := by
  unfold DspTable.compareDsp at h
  obtain ⟨_, h1, _⟩ := R.bind_eq_ok h
  exact vec_get h1

/-- **C37** In the hash trie of a moved-from map that held keys no edge can be followed and no edge can be added, whatever the node
and the symbol: `find_child` and `add_child` never return. -/
theorem C37_moved_from_trie (t : a.Trie) (hz : (a.cfg p).T.size t ≠ 0) (v s : Nat) :
    (∀ x, (a.cfg p).T.findChild (a.trieMovedFrom t) v s ≠ .ok x) ∧
    (∀ x, (a.cfg p).T.addChild (a.trieMovedFrom t) v s ≠ .ok x) := by
  have pb : ∀ (cfg : PlainCfg) (t : PlainBonsai), t.size ≠ 0 →
      (∀ x, PlainBonsai.findChild cfg t.movedFrom v s ≠ .ok x) ∧ (∀ x, PlainBonsai.addChild cfg t.movedFrom v s ≠ .ok x) := by
    intro cfg t hz
    constructor
    · intro x h
      unfold PlainBonsai.findChild at h
      obtain ⟨_, _, h⟩ := R.bind_eq_ok h
      obtain ⟨_, _, h⟩ := R.bind_eq_ok h
      rw [if_neg (show ¬ t.movedFrom.size = 0 from hz)] at h
      obtain ⟨_, _, h⟩ := R.bind_eq_ok h
      obtain ⟨i, c, h⟩ := probe_body h
      unfold PlainBonsai.findBody at h
      split at h
      · cases h
      obtain ⟨_, _, h⟩ := R.bind_eq_ok h
      split at h
      · cases h
      obtain ⟨_, h, _⟩ := R.bind_eq_ok h
      exact vec_get h
    · intro x h
      unfold PlainBonsai.addChild at h
      obtain ⟨_, _, h⟩ := R.bind_eq_ok h
      obtain ⟨_, _, h⟩ := R.bind_eq_ok h
      obtain ⟨_, _, h⟩ := R.bind_eq_ok h
      obtain ⟨i, c, h⟩ := probe_body h
      unfold PlainBonsai.addBody at h
      split at h
      · cases h
      obtain ⟨_, _, h⟩ := R.bind_eq_ok h
      split at h
      · cases h
      obtain ⟨_, h, _⟩ := R.bind_eq_ok h
      exact vec_get h
  have cb : ∀ (cfg : CompactCfg) (t : CompactBonsai), t.size ≠ 0 →
      (∀ x, CompactBonsai.findChild cfg t.movedFrom v s ≠ .ok x) ∧ (∀ x, CompactBonsai.addChild cfg t.movedFrom v s ≠ .ok x) := by
    intro cfg t hz
    constructor
    · intro x h
      unfold CompactBonsai.findChild at h
      obtain ⟨_, _, h⟩ := R.bind_eq_ok h
      obtain ⟨_, _, h⟩ := R.bind_eq_ok h
      rw [if_neg (show ¬ t.movedFrom.size = 0 from hz)] at h
      obtain ⟨_, _, h⟩ := R.bind_eq_ok h
      obtain ⟨i, c, h⟩ := probe_body h
      unfold CompactBonsai.findBody at h
      obtain ⟨_, _, h⟩ := R.bind_eq_ok h
      split at h
      · cases h
      obtain ⟨_, h, _⟩ := R.bind_eq_ok h
      exact dsp_cmp h
    · intro x h
      unfold CompactBonsai.addChild at h
      obtain ⟨_, _, h⟩ := R.bind_eq_ok h
      obtain ⟨_, _, h⟩ := R.bind_eq_ok h
      obtain ⟨_, _, h⟩ := R.bind_eq_ok h
      obtain ⟨i, c, h⟩ := probe_body h
      unfold CompactBonsai.addBody at h
      obtain ⟨_, _, h⟩ := R.bind_eq_ok h
      split at h
      · cases h
      obtain ⟨_, h, _⟩ := R.bind_eq_ok h
      exact dsp_cmp h
  have pf : ∀ (cfg : PlainFkCfg) (t : PlainFk), t.size ≠ 0 →
      (∀ x, PlainFk.findChild cfg t.movedFrom v s ≠ .ok x) ∧ (∀ x, PlainFk.addChild cfg t.movedFrom v s ≠ .ok x) := by
    intro cfg t hz
    constructor
    · intro x h
      unfold PlainFk.findChild at h
      obtain ⟨_, _, h⟩ := R.bind_eq_ok h
      obtain ⟨_, _, h⟩ := R.bind_eq_ok h
      rw [if_neg (show ¬ t.movedFrom.size = 0 from hz)] at h
      obtain ⟨i, c, h⟩ := probe_body h
      unfold PlainFk.findBody at h
      obtain ⟨_, h, _⟩ := R.bind_eq_ok h
      exact vec_get h
    · intro x h
      have cont : ∀ t' : PlainFk, t' = t.movedFrom → (do
          R.assert (!cfg.dbg || t'.makeKey v s ≠ 0)
          probe t'.capa.mask (t'.addBody (t'.makeKey v s)) t'.capa.size (cfg.hash (t'.makeKey v s) &&& t'.capa.mask) 0) = .ok x → False := by
        rintro t' rfl h
        obtain ⟨_, _, h⟩ := R.bind_eq_ok h
        obtain ⟨i, c, h⟩ := probe_body h
        unfold PlainFk.addBody at h
        obtain ⟨_, h, _⟩ := R.bind_eq_ok h
        exact vec_get h
      unfold PlainFk.addChild at h
      obtain ⟨_, _, h⟩ := R.bind_eq_ok h
      obtain ⟨_, _, h⟩ := R.bind_eq_ok h
      dsimp only at h
      split at h
      · obtain ⟨_, h1, _⟩ := R.bind_eq_ok h
        unfold PlainFk.expandSelf at h1
        obtain ⟨_, _, h1⟩ := R.bind_eq_ok h1
        dsimp only at h1
        obtain ⟨_, h1, _⟩ := R.bind_eq_ok h1
        unfold SizeP2.size PlainFk.expandLoop at h1
        obtain ⟨_, h1, _⟩ := R.bind_eq_ok h1
        exact vec_get h1
      · exact cont _ rfl h
  have cf : ∀ (cfg : CompactCfg) (t : CompactFk), t.size ≠ 0 →
      (∀ x, CompactFk.findChild cfg t.movedFrom v s ≠ .ok x) ∧ (∀ x, CompactFk.addChild cfg t.movedFrom v s ≠ .ok x) := by
    intro cfg t hz
    constructor
    · intro x h
      unfold CompactFk.findChild at h
      rw [if_neg (show ¬ t.movedFrom.size = 0 from hz)] at h
      obtain ⟨_, _, h⟩ := R.bind_eq_ok h
      obtain ⟨i, c, h⟩ := probe_body h
      unfold CompactFk.findBody at h
      obtain ⟨_, h, _⟩ := R.bind_eq_ok h
      exact vec_get h
    · intro x h
      have cont : ∀ t' : CompactFk, t' = t.movedFrom → (do
          let x ← t'.hasher.hash (t'.makeKey v s)
          probe t'.capa.mask (t'.addBody cfg (x >>> t'.capa.bits)) t'.capa.size (x &&& t'.capa.mask) 0) = .ok x → False := by
        rintro t' rfl h
        obtain ⟨_, _, h⟩ := R.bind_eq_ok h
        obtain ⟨i, c, h⟩ := probe_body h
        unfold CompactFk.addBody at h
        obtain ⟨_, h, _⟩ := R.bind_eq_ok h
        exact vec_get h
      unfold CompactFk.addChild at h
      obtain ⟨_, _, h⟩ := R.bind_eq_ok h
      obtain ⟨_, _, h⟩ := R.bind_eq_ok h
      dsimp only at h
      split at h
      · obtain ⟨_, h1, _⟩ := R.bind_eq_ok h
        unfold CompactFk.expandSelf at h1
        obtain ⟨_, _, h1⟩ := R.bind_eq_ok h1
        dsimp only at h1
        obtain ⟨_, h1, _⟩ := R.bind_eq_ok h1
        unfold SizeP2.size CompactFk.expandLoop at h1
        obtain ⟨_, h1, _⟩ := R.bind_eq_ok h1
        exact vec_get h1
      · exact cont _ rfl h
  cases a
  · exact pb _ t hz
  · exact pb _ t hz
  · exact cb _ t hz
  · exact pf _ t hz
  · exact pf _ t hz
  · exact cf _ t hz

/-- the hypothesis is met: every alias has a trie with a root -/
example (a : Alias) : ∃ t : a.Trie, (a.cfg demoParams).T.size t ≠ 0 := by
  cases a
  · exact ⟨({ size := 1 } : PlainBonsai), by decide⟩
  · exact ⟨({ size := 1 } : PlainBonsai), by decide⟩
  · exact ⟨({ size := 1 } : CompactBonsai), by decide⟩
  · exact ⟨({ size := 1 } : PlainFk), by decide⟩
  · exact ⟨({ size := 1 } : PlainFk), by decide⟩
  · exact ⟨({ size := 1 } : CompactFk), by decide⟩

/-- the hypotheses are met: a map with three keys, moved from, claims to hold three keys but cannot be searched -/
example (a : Alias) : ∃ m0 m xs, a.new demoParams .default = .ok m0 ∧ Map.run (a.cfg demoParams) m0 demo = .ok (m, xs) ∧
    (a.movedFrom m).size = 3 ∧
    (Map.find (a.cfg demoParams) (a.movedFrom m) [97, 98, 0] = .error .oob ∨
     Map.find (a.cfg demoParams) (a.movedFrom m) [97, 98, 0] = .error .assertion) := by
  have hadm := demo_admissible a .default trivial demo (by decide) (by decide)
  have hA := small_of (os := demo) [97, 98, 99, 120] (by decide) (by decide)
  have hh := (Alias.history_spec hadm hA).ok (within a (by decide))
  unfold Alias.history at hh
  cases h0 : a.new demoParams .default with
  | error e => rw [h0] at hh; cases hh
  | ok m0 =>
    rw [h0, R.bind_ok] at hh
    cases h1 : Map.run (a.cfg demoParams) m0 demo with
    | error e => rw [h1] at hh; cases hh
    | ok x =>
      have := C37_moved_from hadm hA h0 h1
      exact ⟨m0, x.1, x.2, rfl, h1, this.1, (this.2.2 (by decide) [97, 98, 0] (by decide)).1⟩

end Poplar.Props
