import Verif.Model.PlainBonsaiTrie
import Verif.Proof.TrieCommon
/-
  `plain_bonsai_trie` satisfies the trie contract, for every hash function.
-/
namespace Poplar.PlainBonsai
open Poplar

/-- key stored in a slot -/
def occ (t : PlainBonsai) (i : Nat) : Option Nat :=
  if i < 2 then none else if t.table.val i = 0 then none else some (t.table.val i)

def res (i : Nat) : Bool := decide (i < 2)

def look (t : PlainBonsai) (k : Nat) : Option Nat := slotOf t.capa.size t.occ k

def child (sb : Nat) (t : PlainBonsai) (v s : Nat) : Option Nat := childOf sb t.look v s

/-- the shape of the object, whether or not it has a root -/
structure Shape (cfg : PlainCfg) (sb : Nat) (t : PlainBonsai) : Prop where
  capa : t.capa = { bits := t.capa.bits, mask := 2 ^ t.capa.bits - 1 }
  symb : t.symb = { bits := sb, mask := 2 ^ sb - 1 }
  wf : t.table.WF
  tsize : t.table.size = 2 ^ t.capa.bits
  twidth : t.table.width = t.capa.bits + sb
  minc : cfg.minCapaBits ≤ t.capa.bits
  maxs : t.maxSize = Poplar.maxSize (2 ^ t.capa.bits) cfg.maxFactor

structure Inv (cfg : PlainCfg) (sb : Nat) (t : PlainBonsai) : Prop extends Shape cfg sb t where
  lp : LP.Inv (2 ^ t.capa.bits) cfg.hash res t.occ
  size : t.size = 1 + cnt (fun i => (t.occ i).isSome) (2 ^ t.capa.bits)
  le : t.size ≤ t.maxSize
  tree : Tree 1 (t.child sb)
  root0 : t.table.val 1 = 0

structure Fresh (cfg : PlainCfg) (sb : Nat) (t : PlainBonsai) : Prop extends Shape cfg sb t where
  size : t.size = 0
  empty : ∀ i < 2 ^ t.capa.bits, t.table.val i = 0

variable {cfg : PlainCfg} {sb : Nat} {t : PlainBonsai}

theorem Shape.capa_size (h : Shape cfg sb t) : t.capa.size = 2 ^ t.capa.bits := by
  rw [h.capa]; simp only [SizeP2.size]; have := Nat.two_pow_pos t.capa.bits; omega

theorem Shape.symb_size (h : Shape cfg sb t) : t.symb.size = 2 ^ sb := by
  rw [h.symb]; simp only [SizeP2.size]; have := Nat.two_pow_pos sb; omega

theorem Shape.width_lt (h : Shape cfg sb t) : t.capa.bits + sb < 64 := by
  rw [← h.twidth]; exact h.wf.width_lt

theorem make_ok {cfg : PlainCfg} (_hf : FactorOK cfg.minCapaBits cfg.maxFactor) {capaBits sb : Nat}
    (h : max cfg.minCapaBits capaBits + sb < 64) (hpos : 0 < max cfg.minCapaBits capaBits + sb) :
    ∃ t, make cfg capaBits sb = .ok t ∧ Fresh cfg sb t ∧ t.capa.bits = max cfg.minCapaBits capaBits := by
  have hz : 2 ^ (max cfg.minCapaBits capaBits) - 1 + 1 = 2 ^ (max cfg.minCapaBits capaBits) := by
    have := Nat.two_pow_pos (max cfg.minCapaBits capaBits); omega
  obtain ⟨v, hv, hw, hs, hwd, hval⟩ := CompactVector.make_ok (size := 2 ^ (max cfg.minCapaBits capaBits)) (width := max cfg.minCapaBits capaBits + sb) hpos h
  refine ⟨_, by simp only [make, SizeP2.make_ok (show max cfg.minCapaBits capaBits < 64 by omega), SizeP2.make_ok (show sb < 64 by omega), R.bind_ok, SizeP2.size, hz, hv, R.pure_eq]; rfl, ?_, rfl⟩
  exact { capa := rfl, symb := rfl, wf := hw, tsize := hs, twidth := hwd, minc := Nat.le_max_left _ _, maxs := rfl, size := rfl, empty := hval }

/-- too wide tables are rejected -/
theorem make_fail {cfg : PlainCfg} {capaBits sb : Nat} (h : 64 ≤ max cfg.minCapaBits capaBits + sb) :
    ∃ e, make cfg capaBits sb = .error e ∧ (e = .limit ∨ e = .throw) := by
  unfold make SizeP2.make
  by_cases h1 : max cfg.minCapaBits capaBits < 64
  · simp only [if_pos h1, R.bind_ok]
    by_cases h2 : sb < 64
    · simp only [if_pos h2, R.bind_ok, CompactVector.make, if_pos h]
      exact ⟨_, rfl, by simp⟩
    · simp only [if_neg h2]; exact ⟨_, rfl, by simp⟩
  · simp only [if_neg h1]; exact ⟨_, rfl, by simp⟩

theorem cnt_res (C : Nat) : cnt res C ≤ 2 := by
  have : ∀ C, cnt res C = min C 2 := by
    intro C
    induction C with
    | zero => rfl
    | succ C ih =>
      rw [cnt, ih]
      simp only [res, decide_eq_true_eq]
      split <;> omega
  rw [this]; omega

/-- the statistics counter plays no role -/
theorem Inv.setResize (h : Inv cfg sb t) (k : Nat) : Inv cfg sb { t with numResize := k } :=
  ⟨⟨h.capa, h.symb, h.wf, h.tsize, h.twidth, h.minc, h.maxs⟩, h.lp, h.size, h.le, h.tree, h.root0⟩

theorem Fresh.addRoot (hf : FactorOK cfg.minCapaBits cfg.maxFactor) (h : Fresh cfg sb t) :
    ∃ t', t.addRoot = .ok t' ∧ Inv cfg sb t' ∧ t'.size = 1 ∧ t'.capa = t.capa ∧
      (∀ v s, t'.child sb v s = none) := by
  refine ⟨{ t with size := 1 }, by simp [PlainBonsai.addRoot, h.size, R.assert], ?_⟩
  have hC := hf.at _ h.minc
  have hocc : ∀ i < 2 ^ t.capa.bits, occ { t with size := 1 } i = none := by
    intro i hi
    simp only [occ, h.empty i hi]; split <;> simp
  have hchild : ∀ v s, child sb { t with size := 1 } v s = none := by
    intro v s
    simp only [child, childOf]
    split
    · simp only [look]
      rw [slotOf_none]
      intro i hi
      rw [hocc i (by rw [h.capa_size] at hi; exact hi)]; simp
    · rfl
  have hcong : ∀ (f g : Nat → Option Nat), (∀ i < 2 ^ t.capa.bits, f i = g i) →
      LP.Inv (2 ^ t.capa.bits) cfg.hash res g → LP.Inv (2 ^ t.capa.bits) cfg.hash res f := by
    intro f g hfg hg
    have hm : ∀ x, x % 2 ^ t.capa.bits < 2 ^ t.capa.bits := fun x => Nat.mod_lt _ (Nat.two_pow_pos _)
    refine ⟨hg.pos, ?_, ?_, ?_, ?_⟩
    · intro i hi j hj k h1 h2; rw [hfg i hi] at h1; rw [hfg j hj] at h2; exact hg.inj i hi j hj k h1 h2
    · intro i hi k h1; rw [hfg i hi] at h1; exact hg.nres i hi k h1
    · intro i hi k h1; rw [hfg i hi] at h1
      obtain ⟨u, a, b, c⟩ := hg.reach i hi k h1
      exact ⟨u, a, b, fun s hs => by rw [hfg _ (hm _)]; exact c s hs⟩
    · obtain ⟨i, a, b, c⟩ := hg.room
      exact ⟨i, a, b, by rw [hfg i a]; exact c⟩
  refine ⟨{ capa := h.capa, symb := h.symb, wf := h.wf, tsize := h.tsize, twidth := h.twidth, minc := h.minc, maxs := h.maxs, lp := ?_, size := ?_, le := ?_, tree := (Tree.empty hchild).1, root0 := h.empty 1 (by omega) }, rfl, rfl, hchild⟩
  · refine hcong _ _ hocc (LP.Inv.empty (Nat.two_pow_pos _) ⟨2, ?_, by simp [res]⟩)
    omega
  · show 1 = 1 + cnt _ _
    rw [cnt_zero]
    intro i hi; rw [hocc i hi]; rfl
  · show 1 ≤ t.maxSize
    rw [h.maxs]; omega

theorem Inv.root (h : Inv cfg sb t) : t.getRoot = .ok 1 := by
  have : t.size ≠ 0 := by rw [h.size]; omega
  simp [getRoot, this, R.assert]

theorem Inv.mod_lt (_ : Inv cfg sb t) (x : Nat) : x % 2 ^ t.capa.bits < 2 ^ t.capa.bits :=
  Nat.mod_lt _ (Nat.two_pow_pos _)

/-- the three cases of the loop body of `find_child` -/
theorem Inv.findBody_skip (h : Inv cfg sb t) {key i c : Nat}
    (hs : res i = true ∨ (res i = false ∧ ∃ k', k' ≠ key ∧ t.occ i = some k')) (hi : i < 2 ^ t.capa.bits) :
    t.findBody key i c = .ok none := by
  unfold findBody
  rw [h.root]
  simp only [R.bind_ok]
  by_cases h0 : i = 0
  · simp [h0]
  by_cases h1 : i = 1
  · simp [h1]
  have hr : res i = false := by simp [res]; omega
  rcases hs with hs | ⟨_, k', hk, ho⟩
  · rw [hr] at hs; simp at hs
  · simp only [occ] at ho
    rw [if_neg (by omega)] at ho
    split at ho
    · simp at ho
    · rename_i hv
      injection ho with ho
      rw [if_neg h0, if_neg h1, h.wf.get_ok (by rw [h.tsize]; exact hi)]
      simp only [R.bind_ok]
      rw [if_neg hv, if_neg (by rw [ho]; exact hk)]; rfl

theorem Inv.findBody_found (h : Inv cfg sb t) {key i c : Nat} (hr : res i = false)
    (ho : t.occ i = some key) (hi : i < 2 ^ t.capa.bits) : t.findBody key i c = .ok (some i) := by
  have h2 : ¬ i < 2 := by simpa [res] using hr
  unfold findBody
  rw [h.root]
  simp only [R.bind_ok]
  simp only [occ, if_neg h2] at ho
  split at ho
  · simp at ho
  · rename_i hv
    injection ho with ho
    rw [if_neg (by omega), if_neg (by omega), h.wf.get_ok (by rw [h.tsize]; exact hi)]
    simp only [R.bind_ok]
    rw [if_neg hv, if_pos ho]; rfl

theorem Inv.findBody_empty (h : Inv cfg sb t) {key i c : Nat} (hr : res i = false)
    (ho : t.occ i = none) (hi : i < 2 ^ t.capa.bits) : t.findBody key i c = .ok (some u64max) := by
  have h2 : ¬ i < 2 := by simpa [res] using hr
  unfold findBody
  rw [h.root]
  simp only [R.bind_ok]
  simp only [occ, if_neg h2] at ho
  split at ho
  · rename_i hv
    rw [if_neg (by omega), if_neg (by omega), h.wf.get_ok (by rw [h.tsize]; exact hi)]
    simp only [R.bind_ok]
    rw [if_pos hv]; rfl
  · simp at ho

theorem Inv.key_facts (h : Inv cfg sb t) {v s : Nat} (hv : v < 2 ^ t.capa.bits) (hv0 : 0 < v)
    (hs : s < 2 ^ sb) : t.makeKey v s = v * 2 ^ sb + s ∧ t.makeKey v s ≠ 0 := by
  have : t.makeKey v s = v * 2 ^ sb + s := by
    unfold makeKey
    have : t.symb.bits = sb := by rw [h.symb]
    rw [this]
    exact key_eq hv hs h.width_lt
  refine ⟨this, ?_⟩
  rw [this]
  have := Nat.mul_pos hv0 (Nat.two_pow_pos sb)
  omega

theorem Inv.child_bound (h : Inv cfg sb t) {v s i : Nat} (hc : t.child sb v s = some i) :
    2 ≤ i ∧ i < 2 ^ t.capa.bits ∧ t.occ i = some (v * 2 ^ sb + s) ∧ s < 2 ^ sb := by
  rw [child, childOf_some] at hc
  obtain ⟨h1, h2⟩ := hc
  obtain ⟨h3, h4⟩ := slotOf_some h2
  rw [h.capa_size] at h3
  refine ⟨?_, h3, h4, h1⟩
  have := h.lp.nres i h3 _ h4
  simpa [res] using this

theorem Inv.T_bound (h : Inv cfg sb t) {p : List Nat} {v : Nat}
    (hp : tpath (some 1) (t.child sb) p = some v) (hf : FactorOK cfg.minCapaBits cfg.maxFactor) :
    0 < v ∧ v < 2 ^ t.capa.bits := by
  cases p with
  | nil =>
    simp only [tpath, Option.some.injEq] at hp
    have := hf.at _ h.minc
    omega
  | cons s p =>
    rw [tpath, Option.bind_eq_some_iff] at hp
    obtain ⟨w, _, hw⟩ := hp
    have := h.child_bound hw
    omega

theorem Inv.find_ok (h : Inv cfg sb t) {v s : Nat} (hv : v < 2 ^ t.capa.bits) (hv0 : 0 < v)
    (hs : s < 2 ^ sb) : findChild cfg t v s = .ok ((t.child sb v s).getD u64max) := by
  obtain ⟨hk, hk0⟩ := h.key_facts hv hv0 hs
  have hsz : ¬ t.size = 0 := by rw [h.size]; omega
  have hmask : t.capa.mask = 2 ^ t.capa.bits - 1 := by rw [h.capa]
  unfold findChild
  rw [h.capa_size, h.symb_size, hmask]
  simp only [R.assert_dec hv, R.assert_dec hs, R.bind_ok, if_neg hsz, R.assert_dec hk0, and_mask]
  rw [hk]
  have hchild : t.child sb v s = slotOf (2 ^ t.capa.bits) t.occ (v * 2 ^ sb + s) := by
    simp only [child, childOf, if_pos hs, look, h.capa_size]
  rw [hchild]
  cases h.lp.probe (v * 2 ^ sb + s) with
  | found u hu ho hr hsk =>
    rw [slotOf_eq h.lp.inj (h.mod_lt _) ho]
    exact probe_ok (fun s' hs' => h.findBody_skip (hsk s' hs') (h.mod_lt _))
      (h.findBody_found hr ho (h.mod_lt _)) hu
  | absent u hu ho hr hsk ha =>
    rw [slotOf_none.mpr ha]
    exact probe_ok (fun s' hs' => h.findBody_skip (hsk s' hs') (h.mod_lt _))
      (h.findBody_empty hr ho (h.mod_lt _)) hu

theorem addBody_none {nodeId key i c : Nat} (h : t.findBody key i c = .ok none) :
    t.addBody nodeId key i c = .ok none := by
  unfold findBody at h
  unfold addBody
  by_cases h0 : i = 0
  · rw [if_pos h0]; rfl
  rw [if_neg h0] at h ⊢
  obtain ⟨r, hr, h⟩ := R.bind_eq_ok h
  rw [hr]; simp only [R.bind_ok]
  by_cases h1 : i = r
  · rw [if_pos h1]; rfl
  rw [if_neg h1] at h ⊢
  obtain ⟨x, hx, h⟩ := R.bind_eq_ok h
  rw [hx]; simp only [R.bind_ok]
  by_cases h2 : x = 0
  · rw [if_pos h2] at h; simp at h
  rw [if_neg h2] at h ⊢
  rw [hx] at h; simp only [R.bind_ok] at h
  by_cases h3 : x = key
  · rw [if_pos h3] at h; simp at h
  · rw [if_neg h3]; rfl

theorem addBody_found {nodeId key i c : Nat} (hi : i ≠ u64max) (h : t.findBody key i c = .ok (some i)) :
    t.addBody nodeId key i c = .ok (some (t, i, false)) := by
  unfold findBody at h
  unfold addBody
  by_cases h0 : i = 0
  · rw [if_pos h0] at h; simp at h
  rw [if_neg h0] at h ⊢
  obtain ⟨r, hr, h⟩ := R.bind_eq_ok h
  rw [hr]; simp only [R.bind_ok]
  by_cases h1 : i = r
  · rw [if_pos h1] at h; simp at h
  rw [if_neg h1] at h ⊢
  obtain ⟨x, hx, h⟩ := R.bind_eq_ok h
  rw [hx]; simp only [R.bind_ok]
  by_cases h2 : x = 0
  · rw [if_pos h2] at h; simp at h; exact absurd h.symm hi
  rw [if_neg h2] at h ⊢
  rw [hx] at h; simp only [R.bind_ok] at h
  by_cases h3 : x = key
  · rw [if_pos h3]; rfl
  · rw [if_neg h3] at h; simp at h

/-- `add_child` when the child exists -/
theorem Inv.add_exists (h : Inv cfg sb t) {v s i : Nat} (hv : v < 2 ^ t.capa.bits) (hv0 : 0 < v)
    (hs : s < 2 ^ sb) (hc : t.child sb v s = some i) : addChild cfg t v s = .ok (t, i, false) := by
  obtain ⟨hk, hk0⟩ := h.key_facts hv hv0 hs
  have hmask : t.capa.mask = 2 ^ t.capa.bits - 1 := by rw [h.capa]
  unfold addChild
  rw [h.capa_size, h.symb_size, hmask]
  simp only [R.assert_dec hv, R.assert_dec hs, R.bind_ok, R.assert_dec hk0, and_mask]
  rw [hk]
  obtain ⟨_, hiC, hocc, _⟩ := h.child_bound hc
  have hC64 : 2 ^ t.capa.bits ≤ 2 ^ 63 := Nat.pow_le_pow_right (by decide) (by have := h.width_lt; omega)
  cases h.lp.probe (v * 2 ^ sb + s) with
  | found u hu ho hr hsk =>
    have := h.lp.inj _ hiC _ (h.mod_lt _) _ hocc ho
    subst this
    exact probe_ok (fun s' hs' => addBody_none (h.findBody_skip (hsk s' hs') (h.mod_lt _)))
      (addBody_found (by unfold u64max; omega) (h.findBody_found hr ho (h.mod_lt _))) hu
  | absent u hu ho hr hsk ha => exact absurd hocc (ha i hiC)

/-- `add_child` when the child is new -/
theorem Inv.add_new (hf : FactorOK cfg.minCapaBits cfg.maxFactor)
    (h : Inv cfg sb t) {p : List Nat} {v s : Nat} (hp : tpath (some 1) (t.child sb) p = some v)
    (hs : s < 2 ^ sb) (hc : t.child sb v s = none) (hlt : t.size < t.maxSize) :
    ∃ t' i, addChild cfg t v s = .ok (t', i, true) ∧ Inv cfg sb t' ∧ t'.capa = t.capa ∧
      t'.size = t.size + 1 ∧ i < 2 ^ t.capa.bits ∧
      ∀ q, tpath (some 1) (t'.child sb) q = if q = s :: p then some i else tpath (some 1) (t.child sb) q := by
  obtain ⟨hv0, hv⟩ := h.T_bound hp hf
  obtain ⟨hk, hk0⟩ := h.key_facts hv hv0 hs
  have hmask : t.capa.mask = 2 ^ t.capa.bits - 1 := by rw [h.capa]
  have hCf := hf.at _ h.minc
  have hms := h.maxs
  have hcs : slotOf (2 ^ t.capa.bits) t.occ (v * 2 ^ sb + s) = none := by
    simpa only [child, childOf, if_pos hs, look, h.capa_size] using hc
  cases h.lp.probe (v * 2 ^ sb + s) with
  | found u hu ho hr hsk => rw [slotOf_eq h.lp.inj (h.mod_lt _) ho] at hcs; simp at hcs
  | absent u hu ho hr hsk ha =>
    have hiC := h.mod_lt (cfg.hash (v * 2 ^ sb + s) + u)
    have hins := fun room => h.lp.insert hr hu hsk ha room
    generalize hidef : (cfg.hash (v * 2 ^ sb + s) + u) % 2 ^ t.capa.bits = i at *
    have hi2 : ¬ i < 2 := by simpa [res] using hr
    have hval0 : t.table.val i = 0 := by
      simp only [occ, if_neg hi2] at ho
      split at ho
      · assumption
      · simp at ho
    have hklt : v * 2 ^ sb + s < 2 ^ t.table.width := by rw [h.twidth]; exact key_lt hv hs
    obtain ⟨tb, hset, hwf, hsz, hwd, hvals⟩ := h.wf.set_ok (i := i) (by rw [h.tsize]; exact hiC) hklt
    have hkpos : v * 2 ^ sb + s ≠ 0 := by rw [← hk]; exact hk0
    -- the new trie
    have hocc' : ∀ j < 2 ^ t.capa.bits, occ { t with table := tb, size := t.size + 1 } j =
        if j = i then some (v * 2 ^ sb + s) else t.occ j := by
      intro j hj
      simp only [occ]
      rw [hvals j (by rw [h.tsize]; exact hj)]
      by_cases hji : j = i
      · subst hji; rw [if_neg hi2, if_pos rfl, if_neg hkpos, if_pos rfl]
      · simp [hji]
    have hlook : ∀ k, look { t with table := tb, size := t.size + 1 } k =
        if k = v * 2 ^ sb + s then some i else t.look k := by
      intro k
      have hinj' : ∀ a < 2 ^ t.capa.bits, ∀ b < 2 ^ t.capa.bits, ∀ k,
          occ { t with table := tb, size := t.size + 1 } a = some k →
          occ { t with table := tb, size := t.size + 1 } b = some k → a = b := by
        intro a ha' b hb' k' h1 h2
        rw [hocc' a ha'] at h1; rw [hocc' b hb'] at h2
        split at h1 <;> split at h2
        · omega
        · injection h1 with h1; subst h1; exact absurd h2 (ha b hb')
        · injection h2 with h2; subst h2; exact absurd h1 (ha a ha')
        · exact h.lp.inj a ha' b hb' k' h1 h2
      simp only [look, h.capa_size]
      by_cases hkk : k = v * 2 ^ sb + s
      · rw [if_pos hkk, hkk]
        exact slotOf_eq hinj' hiC (by rw [hocc' i hiC]; simp)
      · rw [if_neg hkk]
        cases hsl : slotOf (2 ^ t.capa.bits) t.occ k with
        | none =>
          rw [slotOf_none] at hsl ⊢
          intro j hj
          rw [hocc' j hj]
          split
          · intro e; injection e with e; exact hkk e.symm
          · exact hsl j hj
        | some j =>
          obtain ⟨h1, h2⟩ := slotOf_some hsl
          apply slotOf_eq hinj' h1
          rw [hocc' j h1, if_neg, h2]
          rintro rfl; rw [ho] at h2; simp at h2
    have hT := h.tree.add (child' := child sb { t with table := tb, size := t.size + 1 }) (i := i) hp hc (by
        intro v' s' hcc
        obtain ⟨_, _, h3, _⟩ := h.child_bound hcc
        rw [ho] at h3; simp at h3) (by omega) (childOf_add hs hlook)
    refine ⟨{ t with table := tb, size := t.size + 1 }, i, ?_, ?_, rfl, rfl, hiC, hT.2⟩
    · unfold addChild
      rw [h.capa_size, h.symb_size, hmask]
      simp only [R.assert_dec hv, R.assert_dec hs, R.bind_ok, R.assert_dec hk0, and_mask]
      rw [hk]
      refine probe_ok (fun s' hs' => addBody_none (h.findBody_skip (hsk s' hs') (h.mod_lt _))) ?_ hu
      rw [hidef]
      unfold addBody
      rw [h.root]
      simp only [R.bind_ok]
      rw [if_neg (by omega), if_neg (by omega), h.wf.get_ok (by rw [h.tsize]; exact hiC)]
      simp only [R.bind_ok]
      rw [if_pos hval0, if_neg (by omega), hset]; rfl
    · have hcount : cnt (fun j => (occ { t with table := tb, size := t.size + 1 } j).isSome) (2 ^ t.capa.bits) =
          cnt (fun j => (t.occ j).isSome) (2 ^ t.capa.bits) + 1 := by
        apply cnt_set hiC
        · simp [ho]
        · simp [hocc' i hiC]
        · intro j hj hji; simp [hocc' j hj, hji]
      have hsize := h.size
      refine { capa := h.capa, symb := h.symb, wf := hwf, tsize := hsz.trans h.tsize, twidth := hwd.trans h.twidth, minc := h.minc, maxs := h.maxs, lp := ?_, size := ?_, le := ?_, tree := hT.1, root0 := ?_ }
      · have hroom := LP.room_of_count (C := 2 ^ t.capa.bits) (res := res) (occ := t.occ) i (by
          have := cnt_res (2 ^ t.capa.bits); omega)
        have hnew := hins hroom
        refine ⟨hnew.pos, ?_, ?_, ?_, ?_⟩
        · intro a ha' b hb' k h1 h2
          rw [hocc' a ha'] at h1; rw [hocc' b hb'] at h2
          exact hnew.inj a ha' b hb' k h1 h2
        · intro a ha' k h1; rw [hocc' a ha'] at h1; exact hnew.nres a ha' k h1
        · intro a ha' k h1; rw [hocc' a ha'] at h1
          obtain ⟨w, h2, h3, h4⟩ := hnew.reach a ha' k h1
          exact ⟨w, h2, h3, fun s' hs' => by rw [hocc' _ (h.mod_lt _)]; exact h4 s' hs'⟩
        · obtain ⟨a, h1, h2, h3⟩ := hnew.room
          exact ⟨a, h1, h2, by rw [hocc' a h1]; exact h3⟩
      · show t.size + 1 = _
        rw [hcount]; omega
      · show t.size + 1 ≤ t.maxSize
        omega
      · show tb.val 1 = 0
        rw [hvals 1 (by rw [h.tsize]; omega), if_neg (by omega)]
        exact h.root0

/-- `get_parent_and_symb` of a node other than the root -/
theorem Inv.parentSymb_ok (h : Inv cfg sb t) {v l i : Nat} (hc : t.child sb v l = some i) :
    t.getParentAndSymb i = .ok (v, l) := by
  obtain ⟨h2, hi, ho, hl⟩ := h.child_bound hc
  simp only [occ, if_neg (show ¬ i < 2 by omega)] at ho
  split at ho
  · simp at ho
  rename_i hv
  injection ho with ho
  unfold getParentAndSymb parentSymb
  rw [h.capa_size, R.assert_dec hi, R.bind_ok, h.wf.get_ok (by rw [h.tsize]; exact hi), R.bind_ok, if_neg hv, ho, h.symb,
    Nat.shiftRight_eq_div_pow, and_mask, key_div hl, key_mod hl]
  rfl

/-- `get_parent_and_symb` of the root -/
theorem Inv.parentSymb_root (hf : FactorOK cfg.minCapaBits cfg.maxFactor) (h : Inv cfg sb t) :
    t.getParentAndSymb 1 = .ok (u64max, 0) := by
  have hi : 1 < 2 ^ t.capa.bits := by have := (hf.at _ h.minc); omega
  unfold getParentAndSymb parentSymb
  rw [h.capa_size, R.assert_dec hi, R.bind_ok, h.wf.get_ok (by rw [h.tsize]; exact hi), R.bind_ok, if_pos h.root0]
  rfl

/-- `add_child` of a new child on a full table: nothing happens and `false` is returned -/
theorem Inv.add_full (hf : FactorOK cfg.minCapaBits cfg.maxFactor)
    (h : Inv cfg sb t) {p : List Nat} {v s : Nat} (hp : tpath (some 1) (t.child sb) p = some v)
    (hs : s < 2 ^ sb) (hc : t.child sb v s = none) (hfull : t.size = t.maxSize) :
    addChild cfg t v s = .ok (t, v, false) := by
  obtain ⟨hv0, hv⟩ := h.T_bound hp hf
  obtain ⟨hk, hk0⟩ := h.key_facts hv hv0 hs
  have hmask : t.capa.mask = 2 ^ t.capa.bits - 1 := by rw [h.capa]
  have hcs : slotOf (2 ^ t.capa.bits) t.occ (v * 2 ^ sb + s) = none := by
    simpa only [child, childOf, if_pos hs, look, h.capa_size] using hc
  cases h.lp.probe (v * 2 ^ sb + s) with
  | found u hu ho hr hsk => rw [slotOf_eq h.lp.inj (h.mod_lt _) ho] at hcs; simp at hcs
  | absent u hu ho hr hsk ha =>
    have hiC := h.mod_lt (cfg.hash (v * 2 ^ sb + s) + u)
    unfold addChild
    rw [h.capa_size, h.symb_size, hmask]
    simp only [R.assert_dec hv, R.assert_dec hs, R.bind_ok, R.assert_dec hk0, and_mask]
    rw [hk]
    refine probe_ok (fun s' hs' => addBody_none (h.findBody_skip (hsk s' hs') (h.mod_lt _))) ?_ hu
    have hi2 : ¬ (cfg.hash (v * 2 ^ sb + s) + u) % 2 ^ t.capa.bits < 2 := by simpa [res] using hr
    simp only [occ, if_neg hi2] at ho
    unfold addBody
    rw [h.root]
    simp only [R.bind_ok]
    rw [if_neg (by omega), if_neg (by omega), h.wf.get_ok (by rw [h.tsize]; exact hiC)]
    simp only [R.bind_ok]
    split at ho
    · rename_i hv; rw [if_pos hv, if_pos hfull]; rfl
    · simp at ho

/-! ### expand -/

theorem Inv.occ_child (h : Inv cfg sb t) {i k : Nat} (hi : i < 2 ^ t.capa.bits) (ho : t.occ i = some k) :
    t.child sb (k / 2 ^ sb) (k % 2 ^ sb) = some i := by
  rw [child, childOf_some]
  refine ⟨Nat.mod_lt _ (Nat.two_pow_pos _), ?_⟩
  rw [Nat.mul_comm, Nat.div_add_mod, look, h.capa_size]
  exact slotOf_eq h.lp.inj hi ho

theorem Inv.reach_iff (h : Inv cfg sb t) (hf : FactorOK cfg.minCapaBits cfg.maxFactor) (i : Nat) :
    (∃ p, tpath (some 1) (t.child sb) p = some i) ↔
      i < 2 ^ t.capa.bits ∧ (decide (i = 1) || (t.occ i).isSome) = true := by
  constructor
  · rintro ⟨p, hp⟩
    refine ⟨(h.T_bound hp hf).2, ?_⟩
    cases p with
    | nil => simp only [tpath, Option.some.injEq] at hp; simp [← hp]
    | cons s p =>
      rw [tpath, Option.bind_eq_some_iff] at hp
      obtain ⟨w, _, hw⟩ := hp
      have := (h.child_bound hw).2.2.1
      simp [this]
  · rintro ⟨hi, hb⟩
    simp only [Bool.or_eq_true, decide_eq_true_eq, Option.isSome_iff_exists] at hb
    rcases hb with rfl | ⟨k, hk⟩
    · exact ⟨[], rfl⟩
    · have hc := h.occ_child hi hk
      obtain ⟨p, hp⟩ := h.tree.reach _ _ _ hc
      exact ⟨(k % 2 ^ sb) :: p, by rw [tpath, hp]; exact hc⟩

theorem Inv.cnt_reach (h : Inv cfg sb t) (hf : FactorOK cfg.minCapaBits cfg.maxFactor) :
    cnt (fun i => decide (i = 1) || (t.occ i).isSome) (2 ^ t.capa.bits) = t.size := by
  have hC := hf.at _ h.minc
  rw [cnt_set (p := fun i => (t.occ i).isSome) (a := 1) (by omega) (by simp [occ]) (by simp)
    (by intro i _ hi; simp [hi]), h.size]
  omega

/-- the old table during `expand`: slots already processed hold new node ids -/
structure OldTable (t : PlainBonsai) (s : CompactVector) (D : Nat → Bool) (m : Nat → Nat) : Prop where
  wf : s.WF
  size : s.size = 2 ^ t.capa.bits
  width : s.width = t.table.width
  vals : ∀ i < 2 ^ t.capa.bits, s.val i = if D i then m i else t.table.val i

/-- the loop hypotheses hold -/
theorem Inv.expandHyp (hf : FactorOK cfg.minCapaBits cfg.maxFactor) (h : Inv cfg sb t) (hsb : 0 < sb)
    (lim : Prop) :
    ExpandHyp (fun (tb : CompactVector) i => do pure ((← tb.get i) == 0))
      (parentSymb t.capa.size t.symb) CompactVector.get CompactVector.set (addChild cfg) lim
      (2 ^ t.capa.bits) 1 2 (2 ^ (t.capa.bits + 1)) (t.child sb) (OldTable t)
      (fun t' => Inv cfg sb t' ∧ t'.capa.bits = t.capa.bits + 1)
      (fun t' => tpath (some 1) (t'.child sb)) (fun t' => t'.size)
      (Poplar.maxSize (2 ^ (t.capa.bits + 1)) cfg.maxFactor) := by
  have hw := h.width_lt
  refine { tree := h.tree, bound := fun p i hp => (h.T_bound hp hf).2, hC := ?_, hEmpty := ?_, hstart := ?_, hParent := ?_, hGet := ?_, hSet := ?_, hAdd := ?_ }
  · have : 2 ^ t.capa.bits ≤ 2 ^ 63 := Nat.pow_le_pow_right (by decide) (by omega)
    unfold u64max; omega
  · intro s D m i hS hi h2 hD
    refine ⟨s.val i == 0, by simp [hS.wf.get_ok (show i < s.size by rw [hS.size]; exact hi)], ?_⟩
    rw [hS.vals i hi, hD]
    simp only [Bool.false_eq_true, if_false, beq_eq_false_iff_ne]
    constructor
    · intro hv
      exact ⟨_, _, h.occ_child hi (show t.occ i = some (t.table.val i) by
        simp [occ, hv]; omega)⟩
    · rintro ⟨v, l, hc⟩ hv
      have := (h.child_bound hc).2.2.1
      simp [occ, hv] at this
  · intro v l i hc; exact (h.child_bound hc).1
  · intro s D m v l i hS hc hD
    obtain ⟨h2, hi, ho, hl⟩ := h.child_bound hc
    simp only [occ, if_neg (show ¬ i < 2 by omega)] at ho
    split at ho
    · simp at ho
    rename_i hv
    injection ho with ho
    unfold parentSymb
    rw [h.capa_size, h.symb]
    simp only [R.assert_dec hi, R.bind_ok, hS.wf.get_ok (show i < s.size by rw [hS.size]; exact hi)]
    rw [hS.vals i hi, hD]
    simp only [Bool.false_eq_true, if_false]
    rw [if_neg hv, ho, Nat.shiftRight_eq_div_pow, and_mask, key_div hl, key_mod hl]; rfl
  · intro s D m i hS hi hD
    rw [hS.wf.get_ok (show i < s.size by rw [hS.size]; exact hi), hS.vals i hi, hD]; rfl
  · intro s D m v l i x hS hc hD hx
    obtain ⟨h2, hi, ho, hl⟩ := h.child_bound hc
    have hx' : x < 2 ^ s.width := by
      rw [hS.width, h.twidth]
      exact Nat.lt_of_lt_of_le hx (Nat.pow_le_pow_right (by decide) (by omega))
    obtain ⟨s', hset, hwf, hsz, hwd, hvals⟩ := hS.wf.set_ok (i := i) (by rw [hS.size]; exact hi) hx'
    refine ⟨s', hset, ⟨hwf, hsz.trans hS.size, hwd.trans hS.width, ?_⟩⟩
    intro j hj
    rw [hvals j (by rw [hS.size]; exact hj)]
    by_cases hji : j = i
    · simp [hji]
    · simp [hji, hS.vals j hj]
  · intro t' p v l hN hp hn hsz hl
    obtain ⟨i0, j0, hc0⟩ := hl
    have hl' := (h.child_bound hc0).2.2.2
    obtain ⟨hI, hcb⟩ := hN
    have hcn : t'.child sb v l = none := by
      rw [tpath, hp] at hn; exact hn
    have hms := hI.maxs
    rw [hcb] at hms
    obtain ⟨t'', i, h1, h2, h3, h4, h5, h6⟩ := hI.add_new hf hp hl' hcn (by omega)
    rw [h1]
    refine ⟨rfl, ⟨h2, ?_⟩, ?_, h4, h6⟩
    · rw [h3, hcb]
    · rw [← hcb]; exact h5

/-- `expand` keeps the set of paths, renumbers the nodes and reports the renumbering. -/
theorem Inv.expand_post (hf : FactorOK cfg.minCapaBits cfg.maxFactor) (h : Inv cfg sb t) (hsb : 0 < sb) :
    Post (64 ≤ t.capa.bits + 1 + sb) (expand cfg t) (fun x =>
      Inv cfg sb x.1 ∧ x.1.size = t.size ∧ x.1.capa.bits = t.capa.bits + 1 ∧
      x.2.size = 2 ^ t.capa.bits ∧
      ∃ f : Nat → Nat,
        (∀ p i, tpath (some 1) (t.child sb) p = some i → x.2.get i = .ok (f i)) ∧
        (∀ i < 2 ^ t.capa.bits, (∀ p, tpath (some 1) (t.child sb) p ≠ some i) → x.2.get i = .ok u64max) ∧
        ∀ p, tpath (some 1) (x.1.child sb) p = (tpath (some 1) (t.child sb) p).map f) := by
  have hw := h.width_lt
  have hC := hf.at _ h.minc
  have hmc := h.minc
  have hmax : max cfg.minCapaBits (t.capa.bits + 1) = t.capa.bits + 1 := by omega
  have hsbe : t.symb.bits = sb := by rw [h.symb]
  unfold expand
  rw [hsbe]
  by_cases hlim : t.capa.bits + 1 + sb < 64
  · obtain ⟨n0, hmk, hfr, hcb⟩ := make_ok hf (capaBits := t.capa.bits + 1) (sb := sb) (by omega) (by omega)
    rw [hmax] at hcb
    obtain ⟨n1', har, hI1', hs1', hc1', hch1'⟩ := hfr.addRoot hf
    obtain ⟨n1, hn1⟩ : ∃ n1, n1 = { n1' with numResize := t.numResize + 1 } := ⟨_, rfl⟩
    have hI1 : Inv cfg sb n1 := by rw [hn1]; exact hI1'.setResize _
    have hs1 : n1.size = 1 := by rw [hn1]; exact hs1'
    have hc1 : n1.capa = n0.capa := by rw [hn1]; exact hc1'
    have hch1 : ∀ v s, n1.child sb v s = none := by rw [hn1]; exact hch1'
    have hcb1 : n1.capa.bits = t.capa.bits + 1 := by rw [hc1, hcb]
    simp only [hmk, har, R.bind_ok, ← hn1, h.root, hI1.root]
    obtain ⟨d0, hd0, hdwf, hdsz, hdbit⟩ := (BitVector.make_wf t.capa.size).1.set_ok (i := 1) (b := true) (by
      rw [(BitVector.make_wf t.capa.size).2.1, h.capa_size]; omega)
    obtain ⟨s0, hs0, hswf, hssz, hswd, hsval⟩ := h.wf.set_ok (i := 1) (x := 1) (by rw [h.tsize]; omega) (by
      rw [h.twidth]; have := Nat.pow_le_pow_right (n := 2) (by decide) (show 1 ≤ t.capa.bits + sb by omega); omega)
    simp only [hd0, hs0, R.bind_ok]
    have hbit0 : ∀ j, d0.bit j = decide (j = 1) := by
      intro j; rw [hdbit j]
      by_cases hj : j = 1
      · simp [hj]
      · simp [hj, (BitVector.make_wf t.capa.size).2.2]
    have hT1 := (Tree.empty (r := 1) hch1).2
    have I0 : ExpandInv (2 ^ t.capa.bits) 1 (t.child sb) (OldTable t)
        (fun t' => Inv cfg sb t' ∧ t'.capa.bits = t.capa.bits + 1)
        (fun t' => tpath (some 1) (t'.child sb)) (fun t' => t'.size) s0 n1 d0 (fun _ => 1) := by
      refine { dwf := hdwf, dsize := ?_, droot := by rw [hbit0]; rfl, ds := ?_, dn := ⟨hI1, hcb1⟩, dreach := ?_, map := ?_, dom := ?_, size := ?_ }
      · rw [hdsz, (BitVector.make_wf t.capa.size).2.1, h.capa_size]
      · refine ⟨hswf, hssz.trans h.tsize, hswd, ?_⟩
        intro j hj
        rw [hsval j (by rw [h.tsize]; exact hj), hbit0]
        simp
      · intro i hi; rw [hbit0] at hi; exact ⟨[], by simp at hi; simp [tpath, hi]⟩
      · intro p i hp hi
        rw [hbit0] at hi
        simp only [decide_eq_true_eq] at hi
        subst hi
        have : p = [] := h.tree.tpath_inj p [] 1 hp rfl
        subst this; rfl
      · intro p j hp
        simp only [hT1] at hp
        split at hp
        · rename_i e; subst e; exact ⟨1, rfl, by rw [hbit0]; rfl⟩
        · simp at hp
      · show n1.size = _
        rw [hs1, cnt_congr (fun i _ => hbit0 i), cnt_set (p := fun _ => false) (a := 1) (by omega) rfl (by simp) (by intro i _ hi; simp [hi]), cnt_zero (by simp)]
    have hM : ∀ D : Nat → Bool, (∀ i, D i = true → ∃ p, tpath (some 1) (t.child sb) p = some i) →
        ∀ i p, tpath (some 1) (t.child sb) p = some i → D i = false →
        cnt D (2 ^ t.capa.bits) < Poplar.maxSize (2 ^ (t.capa.bits + 1)) cfg.maxFactor := by
      intro D hD i p hp hDi
      obtain ⟨hi, hr⟩ := (h.reach_iff hf i).mp ⟨p, hp⟩
      have := cnt_lt_of (q := fun i => decide (i = 1) || (t.occ i).isSome) hi hDi hr
        (fun j _ hj => ((h.reach_iff hf j).mp (hD j hj)).2)
      rw [h.cnt_reach hf] at this
      have h1 := h.le
      rw [h.maxs] at h1
      have := maxSize_mono (mf := cfg.maxFactor) (show 2 ^ t.capa.bits ≤ 2 ^ (t.capa.bits + 1) from Nat.pow_le_pow_right (by decide) (by omega))
      omega
    have hsz0 : s0.size = 2 ^ t.capa.bits := hssz.trans h.tsize
    rw [hsz0]
    refine Post.bind (expandLoop_ok (h.expandHyp hf hsb _) hM (fuel := t.capa.size + 1) (by rw [h.capa_size]; omega)
      (2 ^ t.capa.bits - 2) 2 s0 n1 d0 (fun _ => 1) (by omega) (by omega) I0 (by
        intro j v l hc hj
        have := (h.child_bound hc).1; omega)) ?_
    rintro ⟨s', t', d'⟩ _ ⟨m', I', hdone⟩
    simp only at I' hdone ⊢
    have hall : ∀ i, (∃ p, tpath (some 1) (t.child sb) p = some i) → d'.bit i = true := by
      rintro i ⟨p, hp⟩
      cases p with
      | nil => simp only [tpath, Option.some.injEq] at hp; subst hp; exact I'.droot
      | cons s p =>
        rw [tpath, Option.bind_eq_some_iff] at hp
        obtain ⟨w, _, hw⟩ := hp
        exact hdone _ _ _ hw
    refine ⟨I'.dn.1, ?_, I'.dn.2, ?_, m', ?_, ?_, ?_⟩
    · rw [I'.size, ← h.cnt_reach hf]
      apply cnt_congr
      intro i hi
      rw [Bool.eq_iff_iff]
      constructor
      · intro hb; exact ((h.reach_iff hf i).mp (I'.dreach i hb)).2
      · intro hb; exact hall i ((h.reach_iff hf i).mpr ⟨hi, hb⟩)
    · exact I'.ds.size
    · intro p i hp
      have hb := hall i ⟨p, hp⟩
      have hi := (h.T_bound hp hf).2
      simp only [I'.dwf.get_ok (show i < d'.size by rw [I'.dsize]; exact hi), hb, R.bind_ok, if_true]
      rw [I'.ds.wf.get_ok (by rw [I'.ds.size]; exact hi), I'.ds.vals i hi, hb]; rfl
    · intro i hi hp
      have hb : d'.bit i = false := by
        cases hb : d'.bit i with
        | false => rfl
        | true => obtain ⟨p, hp'⟩ := I'.dreach i hb; exact absurd hp' (hp p)
      simp only [I'.dwf.get_ok (show i < d'.size by rw [I'.dsize]; exact hi), hb, R.bind_ok]; rfl
    · intro p
      cases hp : tpath (some 1) (t.child sb) p with
      | some i => exact I'.map p i hp (hall i ⟨p, hp⟩)
      | none =>
        cases hp' : tpath (some 1) (t'.child sb) p with
        | none => rfl
        | some j =>
          obtain ⟨i, hi, _⟩ := I'.dom p j hp'
          rw [hp] at hi; simp at hi
  · obtain ⟨e, he, hk⟩ := make_fail (cfg := cfg) (capaBits := t.capa.bits + 1) (sb := sb) (by omega)
    simp only [he]
    exact ⟨by omega, hk⟩

/-- `plain_bonsai_trie` satisfies the trie contract -/
def spec (cfg : PlainCfg) (hf : FactorOK cfg.minCapaBits cfg.maxFactor) (sb : Nat) (hsb : 0 < sb) :
    TrieSpec (ops cfg) sb (Poplar.maxSize (2 ^ (63 - sb)) cfg.maxFactor) True where
  minb := cfg.minCapaBits
  mf := cfg.maxFactor
  cb0 := 0
  make_ok := by
    intro cb _ h
    obtain ⟨t, h1, h2, h3⟩ := make_ok hf h (by omega)
    exact ⟨t, h1, h2, h3⟩
  make_fail := fun cb h => make_fail h
  capa := by
    intro t h
    rcases h with h | h
    · exact ⟨h.minc, by have := h.width_lt; simp only [ops]; omega, h.capa_size, by simp only [ops, h.size]; omega⟩
    · exact ⟨h.minc, by have := h.width_lt; simp only [ops]; omega, h.capa_size, by simp only [ops]; rw [← h.maxs]; exact h.le⟩
  Fresh := Fresh cfg sb
  Inv := Inv cfg sb
  T := fun t => tpath (some 1) (t.child sb)
  fresh_size := fun t h => h.size
  fresh_root := by
    intro t h
    obtain ⟨t', h1, h2, h3, h4, h5⟩ := h.addRoot hf
    refine ⟨t', 1, h1, h2, h2.root, (Tree.empty h5).2, h3, ?_, ?_, by simp [ops]⟩
    · have hC := hf.at _ h2.minc
      simp only [ops, needsToExpand, h2.maxs, h3, decide_eq_false_iff_not]; omega
    · simp only [ops, capaSize, h4]
  inv_root := fun t h => ⟨1, h.root, rfl⟩
  inv_size := by intro t h; simp only [ops]; rw [h.size]; omega
  T_inj := fun t h => h.tree.tpath_inj
  T_prefix := by
    intro t _ s p i hp
    rw [tpath, Option.bind_eq_some_iff] at hp
    obtain ⟨v, hv, _⟩ := hp
    exact ⟨v, hv⟩
  T_bound := by
    intro t h p i hp
    have h1 := (h.T_bound hp hf).2
    refine ⟨by simp only [ops, capaSize, h.capa_size]; exact h1, ?_⟩
    have : 2 ^ t.capa.bits ≤ 2 ^ 63 := Nat.pow_le_pow_right (by decide) (by have := h.width_lt; omega)
    unfold u64max; omega
  T_bound_fk := by intro h; simp [ops] at h
  find := by
    intro t h p v s hp hs
    obtain ⟨h0, h1⟩ := h.T_bound hp hf
    have := h.find_ok h1 h0 hs
    simp only [ops, this, tpath, hp, Option.bind_some]
  add := by
    intro t h hne p v s hp hs _
    obtain ⟨h0, h1⟩ := h.T_bound hp hf
    have hne : t.size < t.maxSize := by
      have := hne rfl
      simp only [ops, needsToExpand, decide_eq_false_iff_not] at this; omega
    have hch : tpath (some 1) (t.child sb) (s :: p) = t.child sb v s := by rw [tpath, hp]; rfl
    simp only [ops]
    cases hc : t.child sb v s with
    | some i =>
      rw [h.add_exists h1 h0 hs hc]
      refine ⟨h, ?_, ?_, ?_, ?_, ?_, ?_, ?_⟩
      · simp [hch, hc]
      · intro q
        split
        · rename_i e; rw [e, hch, hc]
        · rfl
      · intro j hj; rw [hch, hc] at hj; injection hj
      · simp
      · exact .refl _
      · intro _; exact ⟨rfl, fun _ => rfl⟩
      · simp
    | none =>
      obtain ⟨t', i, h2, h3, h4, h5, h6, h7⟩ := h.add_new hf hp hs hc hne
      rw [h2]
      refine ⟨h3, ?_, h7, ?_, ?_, ?_, ?_, ?_⟩
      · simp [hch, hc]
      · intro j hj; rw [hch, hc] at hj; simp at hj
      · simpa using h5
      · refine ⟨by simp only [capaSize, h4]; exact Nat.le_refl _, by simp only [h5]; omega, Or.inl (by simp only [capaSize, h4])⟩
      · intro _; exact ⟨by simp only [capaSize, h4], by simp⟩
      · simp
  needs := by
    intro _ t h hne
    have hne' : t.maxSize ≤ t.size := by simpa [ops, needsToExpand] using hne
    simp only [ops, capaSize, h.capa_size, ← h.maxs]; exact hne'
  expand := by
    intro _ t h hne
    have hne' : t.maxSize ≤ t.size := by simpa [ops, needsToExpand] using hne
    refine (h.expand_post hf hsb).mono (fun hl => by
      have hm := maxSize_mono (mf := cfg.maxFactor) (show 2 ^ (63 - sb) ≤ 2 ^ t.capa.bits from Nat.pow_le_pow_right (by decide) (by omega))
      rw [← h.maxs] at hm
      simp only [ops]; omega) ?_
    rintro ⟨t', nm⟩ _ ⟨h1, h2, h3, h4, f, h5, h6, h7⟩
    simp only at h1 h2 h3 h4 h5 h6 h7
    refine ⟨h1, ?_, h2, ?_, ?_, f, h5, ?_, h7⟩
    · have hC := hf.at _ h.minc
      have h8 := maxSize_double (2 ^ t.capa.bits) cfg.maxFactor
      have hle := h.le
      rw [h.maxs] at hle
      have hms := h1.maxs
      rw [h3, Nat.pow_succ, Nat.mul_comm] at hms
      simp only [ops, needsToExpand, decide_eq_false_iff_not]
      omega
    · simp only [ops, capaSize, h1.capa_size, h.capa_size, h3, Nat.pow_succ, Nat.mul_comm]
    · simp only [ops, capaSize, h.capa_size]; exact h4
    · simp only [ops, capaSize, h.capa_size]; exact h6
  expandAny := by
    intro _ t h
    refine (h.expand_post hf hsb).mono (fun hl => hl) ?_
    rintro ⟨t', nm⟩ _ ⟨h1, h2, h3, h4, f, h5, h6, h7⟩
    simp only at h1 h2 h3 h4 h5 h6 h7
    refine ⟨h1, ?_, h2, ?_, ?_, f, h5, ?_, h7⟩
    · have hC := hf.at _ h.minc
      have h8 := maxSize_double (2 ^ t.capa.bits) cfg.maxFactor
      have hle := h.le
      rw [h.maxs] at hle
      have hms := h1.maxs
      rw [h3, Nat.pow_succ, Nat.mul_comm] at hms
      simp only [ops, needsToExpand, decide_eq_false_iff_not]
      omega
    · simp only [ops, capaSize, h1.capa_size, h.capa_size, h3, Nat.pow_succ, Nat.mul_comm]
    · simp only [ops, capaSize, h.capa_size]; exact h4
    · simp only [ops, capaSize, h.capa_size]; exact h6

end Poplar.PlainBonsai
