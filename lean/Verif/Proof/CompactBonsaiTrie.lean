import Verif.Model.CompactBonsaiTrie
import Verif.Proof.Quotient
/-
  `compact_bonsai_trie` satisfies the trie contract.
-/
namespace Poplar

/-- side conditions on the parameters of the compact tries -/
def CompactCfg.OK (cfg : CompactCfg) : Prop := FactorOK cfg.minCapaBits cfg.maxFactor ∧ 12 ≤ cfg.minCapaBits ∧
  cfg.dsp.OK ∧ cfg.dsp.dsp1Bits ≤ cfg.minCapaBits

/-- slot lookup after an insertion -/
theorem slotOf_insert {C k i : Nat} {occ occ' : Nat → Option Nat} (hi : i < C)
    (inj : ∀ a < C, ∀ b < C, ∀ k, occ a = some k → occ b = some k → a = b)
    (ho : occ i = none) (ha : ∀ a < C, occ a ≠ some k)
    (h' : ∀ j < C, occ' j = if j = i then some k else occ j) (k' : Nat) :
    slotOf C occ' k' = if k' = k then some i else slotOf C occ k' := by
  have hinj' : ∀ a < C, ∀ b < C, ∀ k, occ' a = some k → occ' b = some k → a = b := by
    intro a ha' b hb' k'' h1 h2
    rw [h' a ha'] at h1; rw [h' b hb'] at h2
    split at h1 <;> split at h2
    · omega
    · injection h1 with h1; subst h1; exact absurd h2 (ha b hb')
    · injection h2 with h2; subst h2; exact absurd h1 (ha a ha')
    · exact inj a ha' b hb' k'' h1 h2
  by_cases hkk : k' = k
  · rw [if_pos hkk, hkk]
    exact slotOf_eq hinj' hi (by rw [h' i hi]; simp)
  · rw [if_neg hkk]
    cases hsl : slotOf C occ k' with
    | none =>
      rw [slotOf_none] at hsl ⊢
      intro j hj
      rw [h' j hj]
      split
      · intro e; injection e with e; exact hkk e.symm
      · exact hsl j hj
    | some j =>
      obtain ⟨h1, h2⟩ := slotOf_some hsl
      apply slotOf_eq hinj' h1
      rw [h' j h1, if_neg, h2]
      rintro rfl; rw [ho] at h2; simp at h2

namespace CompactBonsai

/-- key stored in a slot -/
def occ (cfg : CompactCfg) (sb : Nat) (t : CompactBonsai) (i : Nat) : Option Nat :=
  if i = 0 then none else if t.d.dsp cfg.dsp i = 0 then none
  else some (DspTable.keyAt cfg.dsp t.capa.bits sb t.d i (t.d.dsp cfg.dsp i - 1))

def res (i : Nat) : Bool := decide (i = 0)

def look (cfg : CompactCfg) (sb : Nat) (t : CompactBonsai) (k : Nat) : Option Nat := slotOf t.capa.size (t.occ cfg sb) k

def child (cfg : CompactCfg) (sb : Nat) (t : CompactBonsai) (v s : Nat) : Option Nat := childOf sb (t.look cfg sb) v s

structure Shape (cfg : CompactCfg) (sb : Nat) (t : CompactBonsai) : Prop where
  hasher : t.hasher = SplitMix.std (t.capa.bits + sb)
  capa : t.capa = { bits := t.capa.bits, mask := 2 ^ t.capa.bits - 1 }
  symb : t.symb = { bits := sb, mask := 2 ^ sb - 1 }
  sbpos : 0 < sb
  width_lt : t.capa.bits + sb < 64
  ok : DspTable.OK cfg.dsp t.capa.bits sb t.d
  minc : cfg.minCapaBits ≤ t.capa.bits
  maxs : t.maxSize = Poplar.maxSize (2 ^ t.capa.bits) cfg.maxFactor

structure Inv (cfg : CompactCfg) (sb : Nat) (t : CompactBonsai) : Prop extends Shape cfg sb t where
  lp : LP.Inv (2 ^ t.capa.bits) (SplitMix.H (t.capa.bits + sb)) res (t.occ cfg sb)
  size : t.size = 1 + cnt (fun i => (t.occ cfg sb i).isSome) (2 ^ t.capa.bits)
  le : t.size ≤ t.maxSize
  tree : Tree 0 (t.child cfg sb)
  dle : ∀ i < 2 ^ t.capa.bits, t.d.dsp cfg.dsp i ≤ 2 ^ t.capa.bits
  zero : ∀ i < 2 ^ t.capa.bits, t.d.dsp cfg.dsp i = 0 → t.d.table.val i = 0
  root0 : t.d.table.val 0 = 0
  dsps : t.d.sum + 1 = t.size

structure Fresh (cfg : CompactCfg) (sb : Nat) (t : CompactBonsai) : Prop extends Shape cfg sb t where
  size : t.size = 0
  empty : ∀ i < 2 ^ t.capa.bits, t.d.table.val i = 0
  dsps : t.d.sum = 0

variable {cfg : CompactCfg} {sb : Nat} {t : CompactBonsai}

theorem Shape.capa_size (h : Shape cfg sb t) : t.capa.size = 2 ^ t.capa.bits := by
  rw [h.capa]; simp only [SizeP2.size]; have := Nat.two_pow_pos t.capa.bits; omega

theorem Shape.symb_size (h : Shape cfg sb t) : t.symb.size = 2 ^ sb := by
  rw [h.symb]; simp only [SizeP2.size]; have := Nat.two_pow_pos sb; omega

theorem Shape.u_pos (h : Shape cfg sb t) : 0 < t.capa.bits + sb := by have := h.sbpos; omega

theorem make_ok {cfg : CompactCfg} (hf : cfg.OK) {capaBits sb : Nat} (hsb : 0 < sb)
    (h : max cfg.minCapaBits capaBits + sb < 64) :
    ∃ t, make cfg capaBits sb = .ok t ∧ Fresh cfg sb t ∧ t.capa.bits = max cfg.minCapaBits capaBits := by
  have h12 := hf.2.1
  have hd1 := hf.2.2.2
  have hd1' := hf.2.2.1.d1
  have hz : 2 ^ (max cfg.minCapaBits capaBits) - 1 + 1 = 2 ^ (max cfg.minCapaBits capaBits) := by
    have := Nat.two_pow_pos (max cfg.minCapaBits capaBits); omega
  obtain ⟨d, hd, hok, hval⟩ := DspTable.make_ok (cb := max cfg.minCapaBits capaBits) (sb := sb) hf.2.2.1 (by omega) (by omega) (by have := hf.2.2.2; omega)
  refine ⟨_, by simp only [make, SizeP2.make_ok (show max cfg.minCapaBits capaBits < 64 by omega), SizeP2.make_ok (show sb < 64 by omega), R.bind_ok, SizeP2.size, hz, if_pos h, SplitMix.make_ok (show 0 < max cfg.minCapaBits capaBits + sb by omega) h, hd, R.pure_eq]; rfl, ?_, rfl⟩
  exact { hasher := rfl, capa := rfl, symb := rfl, sbpos := hsb, width_lt := h, ok := hok, minc := Nat.le_max_left _ _, maxs := rfl, size := rfl, empty := hval, dsps := DspTable.make_sum hd }

theorem make_fail {cfg : CompactCfg} {capaBits sb : Nat} (h : 64 ≤ max cfg.minCapaBits capaBits + sb) :
    ∃ e, make cfg capaBits sb = .error e ∧ (e = .limit ∨ e = .throw) := by
  unfold make SizeP2.make
  by_cases h1 : max cfg.minCapaBits capaBits < 64
  · simp only [if_pos h1, R.bind_ok]
    by_cases h2 : sb < 64
    · simp only [if_pos h2, R.bind_ok, if_neg (show ¬ max cfg.minCapaBits capaBits + sb < 64 by omega)]
      exact ⟨_, rfl, by simp⟩
    · simp only [if_neg h2]; exact ⟨_, rfl, by simp⟩
  · simp only [if_neg h1]; exact ⟨_, rfl, by simp⟩

theorem cnt_res (C : Nat) : cnt res C ≤ 1 := by
  have : ∀ C, cnt res C = min C 1 := by
    intro C
    induction C with
    | zero => rfl
    | succ C ih =>
      rw [cnt, ih]
      simp only [res, decide_eq_true_eq]
      split <;> omega
  rw [this]; omega

/-- the statistics counter plays no role -/
theorem Inv.setResize (h : Inv cfg sb t) (k : Nat) : Inv cfg sb { t with numResize := k } :=
  ⟨⟨h.hasher, h.capa, h.symb, h.sbpos, h.width_lt, h.ok, h.minc, h.maxs⟩, h.lp, h.size, h.le, h.tree, h.dle, h.zero, h.root0, h.dsps⟩

theorem Fresh.addRoot (hf : cfg.OK) (h : Fresh cfg sb t) :
    ∃ t', t.addRoot = .ok t' ∧ Inv cfg sb t' ∧ t'.size = 1 ∧ t'.capa = t.capa ∧
      (∀ v s, t'.child cfg sb v s = none) := by
  refine ⟨{ t with size := 1 }, by simp [CompactBonsai.addRoot, h.size, R.assert], ?_⟩
  have hC := hf.1.at _ h.minc
  have hdsp : ∀ i < 2 ^ t.capa.bits, t.d.dsp cfg.dsp i = 0 := fun i hi => h.ok.dsp_zero hi (h.empty i hi)
  have hocc : ∀ i < 2 ^ t.capa.bits, occ cfg sb { t with size := 1 } i = none := by
    intro i hi
    simp only [occ, hdsp i hi]; split <;> simp
  have hchild : ∀ v s, child cfg sb { t with size := 1 } v s = none := by
    intro v s
    simp only [child, childOf]
    split
    · simp only [look]
      rw [slotOf_none]
      intro i hi
      rw [hocc i (by rw [h.capa_size] at hi; exact hi)]; simp
    · rfl
  refine ⟨{ toShape := { hasher := h.hasher, capa := h.capa, symb := h.symb, sbpos := h.sbpos, width_lt := h.width_lt, ok := h.ok, minc := h.minc, maxs := h.maxs }, lp := ?_, size := ?_, le := ?_, tree := (Tree.empty hchild).1, dle := ?_, zero := fun i hi _ => h.empty i hi, root0 := h.empty 0 (Nat.two_pow_pos _), dsps := congrArg (· + 1) h.dsps }, rfl, rfl, hchild⟩
  · refine LP.Inv.congr hocc (LP.Inv.empty (Nat.two_pow_pos _) ⟨1, ?_, by simp [res]⟩)
    show 1 < 2 ^ t.capa.bits
    omega
  · show 1 = 1 + cnt _ _
    rw [cnt_zero]
    intro i hi; rw [hocc i hi]; rfl
  · show 1 ≤ t.maxSize
    rw [h.maxs]; omega
  · intro i hi; show t.d.dsp cfg.dsp i ≤ _; rw [hdsp i hi]; omega

theorem Inv.root (h : Inv cfg sb t) : t.getRoot = .ok 0 := by
  have : t.size ≠ 0 := by rw [h.size]; omega
  simp [getRoot, this, R.assert]

theorem Inv.mod_lt (_ : Inv cfg sb t) (x : Nat) : x % 2 ^ t.capa.bits < 2 ^ t.capa.bits :=
  Nat.mod_lt _ (Nat.two_pow_pos _)

theorem Inv.cnt_nonzero (h : Inv cfg sb t) :
    cnt (fun i => decide (t.d.table.val i ≠ 0)) (2 ^ t.capa.bits) + 1 ≤ t.size := by
  rw [h.size]
  have := cnt_mono (p := fun i => decide (t.d.table.val i ≠ 0)) (q := fun i => (t.occ cfg sb i).isSome) (n := 2 ^ t.capa.bits) (by
    intro i hi hv
    simp only [decide_eq_true_eq] at hv
    have h0 : i ≠ 0 := by rintro rfl; exact hv h.root0
    have hd : t.d.dsp cfg.dsp i ≠ 0 := fun e => hv (h.zero i hi e)
    simp [occ, h0, hd])
  omega

theorem Inv.occ_lt (h : Inv cfg sb t) {i k : Nat} (hi : i < 2 ^ t.capa.bits) (ho : t.occ cfg sb i = some k) :
    k < 2 ^ (t.capa.bits + sb) := by
  unfold occ at ho
  split at ho
  · simp at ho
  · split at ho
    · simp at ho
    · injection ho with ho
      rw [← ho]; exact h.ok.keyAt_lt h.width_lt h.u_pos hi

/-- what the probing loops see in a slot on the probe path of `k` -/
theorem Inv.slot_view (h : Inv cfg sb t) {k s : Nat} (hk : k < 2 ^ (t.capa.bits + sb)) (hs : s < 2 ^ t.capa.bits)
    (i : Nat) (hi : i = (SplitMix.H (t.capa.bits + sb) k + s) % 2 ^ t.capa.bits) (h0 : i ≠ 0) :
    t.d.compareDsp cfg.dsp i 0 = .ok (t.occ cfg sb i).isNone ∧
    ((t.occ cfg sb i).isNone = false → t.d.compareDsp cfg.dsp i (1 + s) = .ok (decide (t.d.dsp cfg.dsp i = 1 + s)) ∧ t.d.getQuo cfg.dsp i = .ok (t.d.quo cfg.dsp i) ∧
      (decide (t.d.dsp cfg.dsp i = 1 + s) && (SplitMix.H (t.capa.bits + sb) k / 2 ^ t.capa.bits == t.d.quo cfg.dsp i)) = decide (t.occ cfg sb i = some k)) := by
  have hiC : i < 2 ^ t.capa.bits := by rw [hi]; exact h.mod_lt _
  refine ⟨?_, ?_⟩
  · rw [h.ok.compareDsp_ok hiC]
    congr 1
    by_cases hd : t.d.dsp cfg.dsp i = 0 <;> simp [occ, h0, hd]
  · intro hn
    refine ⟨h.ok.compareDsp_ok hiC, h.ok.getQuo_ok hiC, ?_⟩
    have hd : t.d.dsp cfg.dsp i ≠ 0 := by
      intro e; simp [occ, e] at hn
    have hle := h.dle i hiC
    have hm := h.ok.match_iff h.width_lt h.u_pos hk hs (dist := t.d.dsp cfg.dsp i - 1) (by omega)
    rw [← hi] at hm
    have ho : t.occ cfg sb i = some (DspTable.keyAt cfg.dsp t.capa.bits sb t.d i (t.d.dsp cfg.dsp i - 1)) := by
      unfold occ; rw [if_neg h0, if_neg hd]
    rw [ho, Bool.eq_iff_iff]
    simp only [Bool.and_eq_true, decide_eq_true_eq, beq_iff_eq, Option.some.injEq, hm]
    constructor
    · rintro ⟨a, b⟩; exact ⟨by omega, b⟩
    · rintro ⟨a, b⟩; exact ⟨by omega, b⟩

theorem Inv.findBody_eq (h : Inv cfg sb t) {k s : Nat} (hk : k < 2 ^ (t.capa.bits + sb)) (hs : s < 2 ^ t.capa.bits)
    (i : Nat) (hi : i = (SplitMix.H (t.capa.bits + sb) k + s) % 2 ^ t.capa.bits) :
    t.findBody cfg (SplitMix.H (t.capa.bits + sb) k / 2 ^ t.capa.bits) i (1 + s) =
      .ok (if i = 0 then none else if (t.occ cfg sb i).isNone then some u64max else if t.occ cfg sb i = some k then some i else none) := by
  unfold findBody
  rw [h.root, R.bind_ok]
  by_cases h0 : i = 0
  · rw [if_pos h0, if_pos h0]; rfl
  rw [if_neg h0, if_neg h0]
  obtain ⟨h1, h2⟩ := h.slot_view hk hs i hi h0
  rw [h1, R.bind_ok]
  cases hn : (t.occ cfg sb i).isNone with
  | true => rfl
  | false =>
    obtain ⟨h3, h4, h5⟩ := h2 hn
    simp only [Bool.false_eq_true, if_false]
    rw [h3, R.bind_ok, h4, R.bind_ok, h5]
    by_cases ho : t.occ cfg sb i = some k
    · simp [ho]
    · simp [ho]

theorem Inv.key_facts (h : Inv cfg sb t) {v s : Nat} (hv : v < 2 ^ t.capa.bits)
    (hs : s < 2 ^ sb) : t.makeKey v s = v * 2 ^ sb + s ∧ v * 2 ^ sb + s < 2 ^ (t.capa.bits + sb) ∧
      t.hasher.hash (t.makeKey v s) = .ok (SplitMix.H (t.capa.bits + sb) (v * 2 ^ sb + s)) := by
  have h1 : t.makeKey v s = v * 2 ^ sb + s := by
    unfold makeKey
    have : t.symb.bits = sb := by rw [h.symb]
    rw [this]
    exact key_eq hv hs h.width_lt
  have h2 := key_lt hv hs (cb := t.capa.bits)
  refine ⟨h1, h2, ?_⟩
  rw [h1, h.hasher, SplitMix.hash_eq h.u_pos h.width_lt h2]

theorem Inv.child_bound (h : Inv cfg sb t) {v s i : Nat} (hc : t.child cfg sb v s = some i) :
    1 ≤ i ∧ i < 2 ^ t.capa.bits ∧ t.occ cfg sb i = some (v * 2 ^ sb + s) ∧ s < 2 ^ sb := by
  rw [child, childOf_some] at hc
  obtain ⟨h1, h2⟩ := hc
  obtain ⟨h3, h4⟩ := slotOf_some h2
  rw [h.capa_size] at h3
  refine ⟨?_, h3, h4, h1⟩
  have := h.lp.nres i h3 _ h4
  simp [res] at this
  omega

theorem Inv.T_bound (h : Inv cfg sb t) {p : List Nat} {v : Nat}
    (hp : tpath (some 0) (t.child cfg sb) p = some v) : v < 2 ^ t.capa.bits := by
  cases p with
  | nil =>
    simp only [tpath, Option.some.injEq] at hp
    have := Nat.two_pow_pos t.capa.bits
    omega
  | cons s p =>
    rw [tpath, Option.bind_eq_some_iff] at hp
    obtain ⟨w, _, hw⟩ := hp
    exact (h.child_bound hw).2.1

theorem Inv.child_eq (h : Inv cfg sb t) {v s : Nat} (hs : s < 2 ^ sb) :
    t.child cfg sb v s = slotOf (2 ^ t.capa.bits) (t.occ cfg sb) (v * 2 ^ sb + s) := by
  simp only [child, childOf, if_pos hs, look, h.capa_size]

theorem skip_cases {C : Nat} {home : Nat → Nat} {o : Nat → Option Nat} {k u : Nat}
    (hsk : ∀ s < u, res ((home k + s) % C) = true ∨
        (res ((home k + s) % C) = false ∧ ∃ k', k' ≠ k ∧ o ((home k + s) % C) = some k')) :
    ∀ s < u, (home k + s) % C = 0 ∨ ((o ((home k + s) % C)).isNone = false ∧ o ((home k + s) % C) ≠ some k) := by
  intro s hs
  rcases hsk s hs with h1 | ⟨_, k', h2, h3⟩
  · left; simpa [res] using h1
  · right; rw [h3]; simp [h2]

theorem Inv.find_ok (h : Inv cfg sb t) {v s : Nat} (hv : v < 2 ^ t.capa.bits)
    (hs : s < 2 ^ sb) : findChild cfg t v s = .ok ((t.child cfg sb v s).getD u64max) := by
  obtain ⟨hk, hklt, hhash⟩ := h.key_facts hv hs
  have hsz : ¬ t.size = 0 := by rw [h.size]; omega
  have hmask : t.capa.mask = 2 ^ t.capa.bits - 1 := by rw [h.capa]
  unfold findChild
  rw [h.capa_size, h.symb_size, hmask]
  simp only [R.assert_dec hv, R.assert_dec hs, R.bind_ok, if_neg hsz, hhash, and_mask, Nat.shiftRight_eq_div_pow]
  rw [h.child_eq hs]
  have hskip : ∀ u < 2 ^ t.capa.bits, (∀ s' < u, (SplitMix.H (t.capa.bits + sb) (v * 2 ^ sb + s) + s') % 2 ^ t.capa.bits = 0 ∨
      ((t.occ cfg sb ((SplitMix.H (t.capa.bits + sb) (v * 2 ^ sb + s) + s') % 2 ^ t.capa.bits)).isNone = false ∧
        t.occ cfg sb ((SplitMix.H (t.capa.bits + sb) (v * 2 ^ sb + s) + s') % 2 ^ t.capa.bits) ≠ some (v * 2 ^ sb + s))) →
      ∀ s' < u, t.findBody cfg (SplitMix.H (t.capa.bits + sb) (v * 2 ^ sb + s) / 2 ^ t.capa.bits)
        ((SplitMix.H (t.capa.bits + sb) (v * 2 ^ sb + s) + s') % 2 ^ t.capa.bits) (1 + s') = .ok none := by
    intro u hu hsk s' hs'
    rw [h.findBody_eq hklt (by omega) _ rfl]
    rcases hsk s' hs' with h1 | ⟨h1, h2⟩
    · rw [if_pos h1]
    · by_cases h0 : (SplitMix.H (t.capa.bits + sb) (v * 2 ^ sb + s) + s') % 2 ^ t.capa.bits = 0
      · rw [if_pos h0]
      · rw [if_neg h0, h1, if_neg (by simp), if_neg h2]
  cases h.lp.probe (v * 2 ^ sb + s) with
  | found u hu ho hr hsk =>
    rw [slotOf_eq h.lp.inj (h.mod_lt _) ho]
    refine probe_ok (hskip u hu (skip_cases hsk)) ?_ hu
    rw [h.findBody_eq hklt hu _ rfl, if_neg (by simpa [res] using hr), ho]
    simp
  | absent u hu ho hr hsk ha =>
    rw [slotOf_none.mpr ha]
    refine probe_ok (hskip u hu (skip_cases hsk)) ?_ hu
    rw [h.findBody_eq hklt hu _ rfl, if_neg (by simpa [res] using hr), ho]
    simp

theorem Inv.addBody_skip (h : Inv cfg sb t) {n k s : Nat} (hk : k < 2 ^ (t.capa.bits + sb)) (hs : s < 2 ^ t.capa.bits)
    (i : Nat) (hi : i = (SplitMix.H (t.capa.bits + sb) k + s) % 2 ^ t.capa.bits)
    (hsk : i = 0 ∨ ((t.occ cfg sb i).isNone = false ∧ t.occ cfg sb i ≠ some k)) :
    t.addBody cfg n (SplitMix.H (t.capa.bits + sb) k / 2 ^ t.capa.bits) i (1 + s) = .ok none := by
  unfold addBody
  rw [h.root, R.bind_ok]
  by_cases h0 : i = 0
  · rw [if_pos h0]; rfl
  rcases hsk with h1 | ⟨h1, h2⟩
  · exact absurd h1 h0
  rw [if_neg h0]
  obtain ⟨h3, h4⟩ := h.slot_view hk hs i hi h0
  obtain ⟨h5, h6, h7⟩ := h4 h1
  rw [h3, R.bind_ok, h1]
  simp only [Bool.false_eq_true, if_false]
  rw [h5, R.bind_ok, h6, R.bind_ok, h7]
  simp [h2]

/-- `add_child` when the child exists -/
theorem Inv.add_exists (h : Inv cfg sb t) {v s i : Nat} (hv : v < 2 ^ t.capa.bits)
    (hs : s < 2 ^ sb) (hc : t.child cfg sb v s = some i) : addChild cfg t v s = .ok (t, i, false) := by
  obtain ⟨hk, hklt, hhash⟩ := h.key_facts hv hs
  have hmask : t.capa.mask = 2 ^ t.capa.bits - 1 := by rw [h.capa]
  unfold addChild
  rw [h.capa_size, h.symb_size, hmask]
  simp only [R.assert_dec hv, R.assert_dec hs, R.bind_ok, hhash, and_mask, Nat.shiftRight_eq_div_pow]
  obtain ⟨_, hiC, hocc, _⟩ := h.child_bound hc
  cases h.lp.probe (v * 2 ^ sb + s) with
  | found u hu ho hr hsk =>
    have := h.lp.inj _ hiC _ (h.mod_lt _) _ hocc ho
    refine probe_ok (fun s' hs' => h.addBody_skip hklt (by omega) _ rfl (skip_cases hsk s' hs')) ?_ hu
    have h0 : (SplitMix.H (t.capa.bits + sb) (v * 2 ^ sb + s) + u) % 2 ^ t.capa.bits ≠ 0 := by simpa [res] using hr
    obtain ⟨h3, h4⟩ := h.slot_view hklt hu _ rfl h0
    obtain ⟨h5, h6, h7⟩ := h4 (by rw [ho]; rfl)
    unfold addBody
    rw [h.root, R.bind_ok, if_neg h0, h3, R.bind_ok, ho]
    simp only [Option.isNone_some, Bool.false_eq_true, if_false]
    rw [h5, R.bind_ok, h6, R.bind_ok, h7, ho, ← this]
    simp
  | absent u hu ho hr hsk ha => exact absurd hocc (ha i hiC)

/-- `add_child` when the child is new -/
theorem Inv.add_new (hf : cfg.OK)
    (h : Inv cfg sb t) {p : List Nat} {v s : Nat} (hp : tpath (some 0) (t.child cfg sb) p = some v)
    (hs : s < 2 ^ sb) (hc : t.child cfg sb v s = none) (hlt : t.size < t.maxSize) :
    Post (Poplar.maxSize (2 ^ t.capa.bits) 80 < t.size) (addChild cfg t v s) (fun x =>
      x.2.2 = true ∧ Inv cfg sb x.1 ∧ x.1.capa = t.capa ∧
      x.1.size = t.size + 1 ∧ x.2.1 < 2 ^ t.capa.bits ∧
      ∀ q, tpath (some 0) (x.1.child cfg sb) q = if q = s :: p then some x.2.1 else tpath (some 0) (t.child cfg sb) q) := by
  have hv := h.T_bound hp
  have h12 := hf.2.1
  have hd1 := hf.2.2.2
  have hd1' := hf.2.2.1.d1
  have hsbp := h.sbpos
  have hmc := h.minc
  have hw := h.width_lt
  obtain ⟨hk, hklt, hhash⟩ := h.key_facts hv hs
  have hmask : t.capa.mask = 2 ^ t.capa.bits - 1 := by rw [h.capa]
  have hCf := hf.1.at _ h.minc
  have hms := h.maxs
  have hcs := h.child_eq (v := v) hs
  rw [hc] at hcs
  cases h.lp.probe (v * 2 ^ sb + s) with
  | found u hu ho hr hsk => rw [slotOf_eq h.lp.inj (h.mod_lt _) ho] at hcs; simp at hcs
  | absent u hu ho hr hsk ha =>
    have hiC := h.mod_lt (SplitMix.H (t.capa.bits + sb) (v * 2 ^ sb + s) + u)
    have hins := fun room => h.lp.insert hr hu hsk ha room
    have hHlt := SplitMix.H_lt h.u_pos h.width_lt hklt
    have hq : SplitMix.H (t.capa.bits + sb) (v * 2 ^ sb + s) / 2 ^ t.capa.bits < 2 ^ sb := by
      rw [Nat.div_lt_iff_lt_mul (Nat.two_pow_pos _), ← Nat.pow_add, Nat.add_comm sb]; exact hHlt
    obtain ⟨i, hidef⟩ : ∃ i, i = (SplitMix.H (t.capa.bits + sb) (v * 2 ^ sb + s) + u) % 2 ^ t.capa.bits := ⟨_, rfl⟩
    rw [← hidef] at ho hr hiC hins
    have hi0 : i ≠ 0 := by simpa [res] using hr
    have hdsp0 : t.d.dsp cfg.dsp i = 0 := by
      unfold occ at ho; rw [if_neg hi0] at ho
      split at ho
      · assumption
      · simp at ho
    have hval0 := h.zero i hiC hdsp0
    have hup := h.ok.updateSlot_post (by omega) (by omega) hiC hval0 hq (show 1 + u ≤ 2 ^ t.capa.bits by omega)
    have hcn := h.cnt_nonzero
    unfold addChild
    rw [h.capa_size, h.symb_size, hmask]
    simp only [R.assert_dec hv, R.assert_dec hs, R.bind_ok, hhash, and_mask, Nat.shiftRight_eq_div_pow]
    refine probe_post (t := u) (fun s' hs' => h.addBody_skip hklt (by omega) _ rfl (skip_cases hsk s' hs')) ?_ hu
    rw [← hidef]
    unfold addBody
    rw [h.root, R.bind_ok, if_neg hi0, (h.slot_view hklt hu i hidef hi0).1, R.bind_ok, ho]
    simp only [Option.isNone_none, if_true]
    rw [if_neg (by omega), h.symb_size]
    refine Post.bind (hup.mono (fun hl => by have := hl.1; omega) (fun _ _ hx => hx)) ?_
    rintro d' hds ⟨hok', hd', hq', htv', hz'⟩
    refine ⟨_, rfl, ?_⟩
    simp only
    have hkeyi : DspTable.keyAt cfg.dsp t.capa.bits sb d' i (1 + u - 1) = v * 2 ^ sb + s := by
      rw [hidef]
      refine (hok'.match_iff h.width_lt h.u_pos hklt hu (by omega)).mpr ⟨by omega, ?_⟩
      rw [← hidef, hq' i hiC, if_pos rfl]
    have hocc' : ∀ j < 2 ^ t.capa.bits, occ cfg sb { t with d := d', size := t.size + 1 } j =
        if j = i then some (v * 2 ^ sb + s) else t.occ cfg sb j := by
      intro j hj
      simp only [occ]
      rw [hd' j hj]
      by_cases hji : j = i
      · subst hji
        rw [if_neg hi0, if_pos rfl, if_neg (by omega), if_pos rfl, hkeyi]
      · simp only [hji, if_false, DspTable.keyAt, hq' j hj]
    have hlook : ∀ k, look cfg sb { t with d := d', size := t.size + 1 } k =
        if k = v * 2 ^ sb + s then some i else t.look cfg sb k := by
      intro k
      simp only [look, h.capa_size]
      exact slotOf_insert hiC h.lp.inj ho ha hocc' k
    have hT := h.tree.add (child' := child cfg sb { t with d := d', size := t.size + 1 }) (i := i) hp hc (by
        intro v' s' hcc
        obtain ⟨_, _, h3, _⟩ := h.child_bound hcc
        rw [ho] at h3; simp at h3) (by omega) (childOf_add hs hlook)
    refine ⟨trivial, ?_, trivial, trivial, hiC, hT.2⟩
    have hcount : cnt (fun j => (occ cfg sb { t with d := d', size := t.size + 1 } j).isSome) (2 ^ t.capa.bits) =
        cnt (fun j => (t.occ cfg sb j).isSome) (2 ^ t.capa.bits) + 1 := by
      apply cnt_set hiC
      · simp [ho]
      · simp [hocc' i hiC]
      · intro j hj hji; simp [hocc' j hj, hji]
    have hsize := h.size
    refine { toShape := { hasher := h.hasher, capa := h.capa, symb := h.symb, sbpos := h.sbpos, width_lt := h.width_lt, ok := hok', minc := h.minc, maxs := h.maxs }, lp := ?_, size := ?_, le := ?_, tree := hT.1, dle := ?_, zero := ?_, root0 := ?_, dsps := ?_ }
    · have hroom := LP.room_of_count (C := 2 ^ t.capa.bits) (res := res) (occ := t.occ cfg sb) i (by
        have := cnt_res (2 ^ t.capa.bits); omega)
      exact LP.Inv.congr hocc' (hins hroom)
    · show t.size + 1 = _
      rw [hcount]; omega
    · show t.size + 1 ≤ t.maxSize
      omega
    · intro j hj
      show d'.dsp cfg.dsp j ≤ 2 ^ t.capa.bits
      rw [hd' j hj]
      split
      · omega
      · exact h.dle j hj
    · intro j hj hz
      show d'.table.val j = 0
      replace hz : d'.dsp cfg.dsp j = 0 := hz
      rw [hd' j hj] at hz
      by_cases hji : j = i
      · rw [if_pos hji] at hz; omega
      · rw [if_neg hji] at hz
        rw [htv' j hj hji]; exact h.zero j hj hz
    · show d'.table.val 0 = 0
      rw [htv' 0 (Nat.two_pow_pos _) (Ne.symm hi0)]; exact h.root0
    · show d'.sum + 1 = t.size + 1
      rw [DspTable.updateSlot_sum hds, h.dsps]

/-- `add_child` of a new child on a full table: nothing happens and `false` is returned -/
theorem Inv.add_full
    (h : Inv cfg sb t) {p : List Nat} {v s : Nat} (hp : tpath (some 0) (t.child cfg sb) p = some v)
    (hs : s < 2 ^ sb) (hc : t.child cfg sb v s = none) (hfull : t.size = t.maxSize) :
    addChild cfg t v s = .ok (t, v, false) := by
  have hv := h.T_bound hp
  obtain ⟨hk, hklt, hhash⟩ := h.key_facts hv hs
  have hmask : t.capa.mask = 2 ^ t.capa.bits - 1 := by rw [h.capa]
  have hcs := h.child_eq (v := v) hs
  rw [hc] at hcs
  cases h.lp.probe (v * 2 ^ sb + s) with
  | found u hu ho hr hsk => rw [slotOf_eq h.lp.inj (h.mod_lt _) ho] at hcs; simp at hcs
  | absent u hu ho hr hsk ha =>
    unfold addChild
    rw [h.capa_size, h.symb_size, hmask]
    simp only [R.assert_dec hv, R.assert_dec hs, R.bind_ok, hhash, and_mask, Nat.shiftRight_eq_div_pow]
    refine probe_ok (fun s' hs' => h.addBody_skip hklt (by omega) _ rfl (skip_cases hsk s' hs')) ?_ hu
    have hi0 : (SplitMix.H (t.capa.bits + sb) (v * 2 ^ sb + s) + u) % 2 ^ t.capa.bits ≠ 0 := by simpa [res] using hr
    unfold addBody
    rw [h.root, R.bind_ok, if_neg hi0, (h.slot_view hklt hu _ rfl hi0).1, R.bind_ok, ho]
    simp only [Option.isNone_none, if_true]
    rw [if_pos hfull]; rfl


/-! ### expand -/

theorem Inv.occ_child (h : Inv cfg sb t) {i k : Nat} (hi : i < 2 ^ t.capa.bits) (ho : t.occ cfg sb i = some k) :
    t.child cfg sb (k / 2 ^ sb) (k % 2 ^ sb) = some i := by
  rw [child, childOf_some]
  refine ⟨Nat.mod_lt _ (Nat.two_pow_pos _), ?_⟩
  rw [Nat.mul_comm, Nat.div_add_mod, look, h.capa_size]
  exact slotOf_eq h.lp.inj hi ho

theorem Inv.reach_iff (h : Inv cfg sb t) (i : Nat) :
    (∃ p, tpath (some 0) (t.child cfg sb) p = some i) ↔
      i < 2 ^ t.capa.bits ∧ (decide (i = 0) || (t.occ cfg sb i).isSome) = true := by
  constructor
  · rintro ⟨p, hp⟩
    refine ⟨h.T_bound hp, ?_⟩
    cases p with
    | nil => simp only [tpath, Option.some.injEq] at hp; simp [← hp]
    | cons s p =>
      rw [tpath, Option.bind_eq_some_iff] at hp
      obtain ⟨w, _, hw⟩ := hp
      have := (h.child_bound hw).2.2.1
      simp [this]
  · rintro ⟨hi, hb⟩
    simp only [Bool.or_eq_true, decide_eq_true_eq, Option.isSome_iff_exists] at hb
    rcases hb with rfl | ⟨k, hk⟩
    · exact ⟨[], rfl⟩
    · have hc := h.occ_child hi hk
      obtain ⟨p, hp⟩ := h.tree.reach _ _ _ hc
      exact ⟨(k % 2 ^ sb) :: p, by rw [tpath, hp]; exact hc⟩

theorem Inv.cnt_reach (h : Inv cfg sb t) :
    cnt (fun i => decide (i = 0) || (t.occ cfg sb i).isSome) (2 ^ t.capa.bits) = t.size := by
  rw [cnt_set (p := fun i => (t.occ cfg sb i).isSome) (a := 0) (Nat.two_pow_pos _) (by simp [occ]) (by simp)
    (by intro i _ hi; simp [hi]), h.size]
  omega

/-- `get_parent_and_symb` of a node other than the root -/
theorem Inv.parentSymb_ok (h : Inv cfg sb t) {v l i : Nat} (hc : t.child cfg sb v l = some i) :
    t.parentSymb cfg t.d i = .ok (v, l) := by
  obtain ⟨h1, hi, ho, hl⟩ := h.child_bound hc
  have hd : t.d.dsp cfg.dsp i ≠ 0 := by intro e; simp [occ, e] at ho
  have hle := h.dle i hi
  unfold occ at ho
  rw [if_neg (by omega), if_neg hd] at ho
  injection ho with ho
  have hlt64 : (2 : Nat) ^ t.capa.bits < 2 ^ 64 := Nat.pow_lt_pow_right (by decide) (by have := h.width_lt; omega)
  unfold parentSymb
  rw [h.capa_size, R.assert_dec hi, R.bind_ok, h.ok.compareDsp_ok hi, R.bind_ok, if_neg (by simp [hd]), h.ok.getDsp_ok hi, R.bind_ok]
  have hs1 : sub64 (t.d.dsp cfg.dsp i) 1 = t.d.dsp cfg.dsp i - 1 := by
    unfold sub64
    rw [show t.d.dsp cfg.dsp i + (2 ^ 64 - 1) = t.d.dsp cfg.dsp i - 1 + 2 ^ 64 by omega, Nat.add_mod_right, Nat.mod_eq_of_lt (by omega)]
  have hrk := h.ok.restoreKey_ok h.width_lt h.u_pos hi (dist := t.d.dsp cfg.dsp i - 1) (by omega)
  rw [hs1, h.hasher, h.capa]
  rw [hrk, R.bind_ok, ho, h.symb, Nat.shiftRight_eq_div_pow, and_mask, key_div hl, key_mod hl]; rfl

/-- `get_parent_and_symb` of the root -/
theorem Inv.parentSymb_root (h : Inv cfg sb t) : t.getParentAndSymb cfg 0 = .ok (u64max, 0) := by
  have hi : 0 < 2 ^ t.capa.bits := Nat.two_pow_pos _
  have hd : t.d.dsp cfg.dsp 0 = 0 := h.ok.dsp_zero hi h.root0
  unfold getParentAndSymb parentSymb
  rw [h.capa_size, R.assert_dec hi, R.bind_ok, h.ok.compareDsp_ok hi, R.bind_ok, if_pos (by simp [hd])]
  rfl

/-- reading a slot only depends on that slot's word -/
theorem getDsp_congr {d : DspTable} {v : CompactVector} {i : Nat} (h : v.get i = d.table.get i) :
    DspTable.getDsp cfg.dsp { d with table := v } i = d.getDsp cfg.dsp i := by
  unfold DspTable.getDsp; rw [h]

theorem compareDsp_congr {d : DspTable} {v : CompactVector} {i r : Nat} (h : v.get i = d.table.get i) :
    DspTable.compareDsp cfg.dsp { d with table := v } i r = d.compareDsp cfg.dsp i r := by
  unfold DspTable.compareDsp; rw [h]

theorem parentSymb_congr {d : DspTable} {v : CompactVector} {i : Nat} (h : v.get i = d.table.get i)
    (hs : v.size = d.table.size) : t.parentSymb cfg { d with table := v } i = t.parentSymb cfg d i := by
  unfold parentSymb DspTable.restoreKey DspTable.getQuo
  rw [compareDsp_congr h, getDsp_congr h]
  simp only [h, hs]

/-- the old table and `map_high` during `expand`: slots already processed hold new node ids -/
structure OldTable (cfg : CompactCfg) (t : CompactBonsai) (sb : Nat) (s : CompactVector × CompactVector) (D : Nat → Bool) (m : Nat → Nat) : Prop where
  wf : s.1.WF
  size : s.1.size = 2 ^ t.capa.bits
  width : s.1.width = sb + cfg.dsp.dsp1Bits
  vals : ∀ i < 2 ^ t.capa.bits, D i = false → s.1.val i = t.d.table.val i
  high : (t.capa.bits + 1 ≤ sb + cfg.dsp.dsp1Bits ∧ s.2.size = 0 ∧ ∀ i < 2 ^ t.capa.bits, D i = true → s.1.val i = m i) ∨
    (sb + cfg.dsp.dsp1Bits < t.capa.bits + 1 ∧ s.2.WF ∧ s.2.size = 2 ^ t.capa.bits ∧ s.2.width = t.capa.bits + 1 - (sb + cfg.dsp.dsp1Bits) ∧
      ∀ i < 2 ^ t.capa.bits, D i = true → s.1.val i = m i % 2 ^ (sb + cfg.dsp.dsp1Bits) ∧ s.2.val i = m i / 2 ^ (sb + cfg.dsp.dsp1Bits))
  mlt : ∀ i < 2 ^ t.capa.bits, D i = true → m i < 2 ^ (t.capa.bits + 1)

theorem join_eq {x w c : Nat} (hx : x < 2 ^ (c + 1)) (hc : c + 1 < 64) :
    x % 2 ^ w ||| shl64 (x / 2 ^ w) w = x := by
  have h1 : x / 2 ^ w * 2 ^ w < 2 ^ 64 :=
    Nat.lt_of_le_of_lt (Nat.div_mul_le_self _ _) (Nat.lt_trans hx (Nat.pow_lt_pow_right (by decide) hc))
  rw [shl64_eq h1, Nat.or_comm, ← Nat.shiftLeft_eq, ← Nat.shiftLeft_add_eq_or_of_lt (Nat.mod_lt _ (Nat.two_pow_pos _)), Nat.shiftLeft_eq, Nat.mul_comm, Nat.div_add_mod]

theorem OldTable.get_ok {s : CompactVector × CompactVector} {D : Nat → Bool} {m : Nat → Nat} (h : OldTable cfg t sb s D m)
    (hc : t.capa.bits + 1 < 64) {i : Nat} (hi : i < 2 ^ t.capa.bits) (hD : D i = true) {mask : Nat} :
    getMapping { bits := sb + cfg.dsp.dsp1Bits, mask := mask } s i = .ok (m i) := by
  unfold getMapping
  have hg := h.wf.get_ok (i := i) (by rw [h.size]; exact hi)
  rcases h.high with ⟨_, h2, h3⟩ | ⟨_, hwf, h2, h3, h4⟩
  · rw [if_pos h2, hg, h3 i hi hD]
  · have hp := Nat.two_pow_pos t.capa.bits
    rw [if_neg (by omega), hg, R.bind_ok, hwf.get_ok (by omega), R.bind_ok, (h4 i hi hD).1, (h4 i hi hD).2, join_eq (h.mlt i hi hD) hc]; rfl

theorem OldTable.set_ok {s : CompactVector × CompactVector} {D : Nat → Bool} {m : Nat → Nat} (h : OldTable cfg t sb s D m)
    {i x : Nat} (hi : i < 2 ^ t.capa.bits) (hx : x < 2 ^ (t.capa.bits + 1)) :
    ∃ s', setMapping { bits := sb + cfg.dsp.dsp1Bits, mask := 2 ^ (sb + cfg.dsp.dsp1Bits) - 1 } s i x = .ok s' ∧
      OldTable cfg t sb s' (fun j => if j = i then true else D j) (fun j => if j = i then x else m j) := by
  have hmlt : ∀ j < 2 ^ t.capa.bits, (if j = i then true else D j) = true → (if j = i then x else m j) < 2 ^ (t.capa.bits + 1) := by
    intro j hj hD
    by_cases hji : j = i
    · simp only [hji, if_true]; exact hx
    · simp only [hji, if_false] at hD ⊢; exact h.mlt j hj hD
  unfold setMapping
  rcases h.high with ⟨h1, h2, h3⟩ | ⟨h1, hwf, h2, h3, h4⟩
  · have hxw : x < 2 ^ s.1.width := by rw [h.width]; exact Nat.lt_of_lt_of_le hx (Nat.pow_le_pow_right (by decide) h1)
    obtain ⟨s', hset, hwf', hsz, hwd, hvals⟩ := h.wf.set_ok (i := i) (by rw [h.size]; exact hi) hxw
    rw [if_pos h2, hset, R.bind_ok]
    refine ⟨_, rfl, { wf := hwf', size := hsz.trans h.size, width := hwd.trans h.width, vals := ?_, high := Or.inl ⟨h1, h2, ?_⟩, mlt := hmlt }⟩
    · intro j hj hD
      by_cases hji : j = i
      · simp [hji] at hD
      · simp only [hji, if_false] at hD
        show s'.val j = _
        rw [hvals j (by rw [h.size]; exact hj), if_neg hji]; exact h.vals j hj hD
    · intro j hj hD
      show s'.val j = _
      rw [hvals j (by rw [h.size]; exact hj)]
      by_cases hji : j = i
      · simp [hji]
      · simp only [hji, if_false] at hD ⊢; exact h3 j hj hD
  · have hp := Nat.two_pow_pos t.capa.bits
    have hlo : x &&& (2 ^ (sb + cfg.dsp.dsp1Bits) - 1) < 2 ^ s.1.width := by rw [h.width, and_mask]; exact Nat.mod_lt _ (Nat.two_pow_pos _)
    have hhi : x >>> (sb + cfg.dsp.dsp1Bits) < 2 ^ s.2.width := by
      rw [h3, Nat.shiftRight_eq_div_pow, Nat.div_lt_iff_lt_mul (Nat.two_pow_pos _), ← Nat.pow_add, Nat.sub_add_cancel (by omega)]; exact hx
    obtain ⟨s', hset, hwf', hsz, hwd, hvals⟩ := h.wf.set_ok (i := i) (by rw [h.size]; exact hi) hlo
    obtain ⟨g', gset, gwf', gsz, gwd, gvals⟩ := hwf.set_ok (i := i) (by rw [h2]; exact hi) hhi
    rw [if_neg (by omega)]
    dsimp only
    rw [hset, R.bind_ok, gset, R.bind_ok]
    refine ⟨_, rfl, { wf := hwf', size := hsz.trans h.size, width := hwd.trans h.width, vals := ?_, high := Or.inr ⟨h1, gwf', gsz.trans h2, gwd.trans h3, ?_⟩, mlt := hmlt }⟩
    · intro j hj hD
      by_cases hji : j = i
      · simp [hji] at hD
      · simp only [hji, if_false] at hD
        show s'.val j = _
        rw [hvals j (by rw [h.size]; exact hj), if_neg hji]; exact h.vals j hj hD
    · intro j hj hD
      show s'.val j = _ ∧ g'.val j = _
      rw [hvals j (by rw [h.size]; exact hj), gvals j (by rw [h2]; exact hj)]
      by_cases hji : j = i
      · simp only [hji, if_true, and_mask, Nat.shiftRight_eq_div_pow, and_self]
      · simp only [hji, if_false] at hD ⊢; exact h4 j hj hD

theorem maxSize_80 {c mf : Nat} (h : mf ≤ 100) : Poplar.maxSize (2 ^ c) mf ≤ Poplar.maxSize (2 ^ (c + 1)) 80 := by
  unfold Poplar.maxSize
  refine Nat.div_le_div_right ?_
  rw [Nat.pow_succ, Nat.mul_assoc]
  exact Nat.mul_le_mul_left _ (by omega)

/-- the loop hypotheses hold -/
theorem Inv.expandHyp (hf : cfg.OK) (h : Inv cfg sb t) (hw1 : t.capa.bits + 1 < 64)
    (lim : Prop) :
    ExpandHyp (fun (s : CompactVector × CompactVector) i => DspTable.compareDsp cfg.dsp { t.d with table := s.1 } i 0)
      (fun s => t.parentSymb cfg { t.d with table := s.1 }) (getMapping { bits := sb + cfg.dsp.dsp1Bits, mask := 2 ^ (sb + cfg.dsp.dsp1Bits) - 1 })
      (setMapping { bits := sb + cfg.dsp.dsp1Bits, mask := 2 ^ (sb + cfg.dsp.dsp1Bits) - 1 }) (addChild cfg) lim
      (2 ^ t.capa.bits) 0 1 (2 ^ (t.capa.bits + 1)) (t.child cfg sb) (OldTable cfg t sb)
      (fun t' => Inv cfg sb t' ∧ t'.capa.bits = t.capa.bits + 1)
      (fun t' => tpath (some 0) (t'.child cfg sb)) (fun t' => t'.size)
      (Poplar.maxSize (2 ^ t.capa.bits) cfg.maxFactor) := by
  have hw := h.width_lt
  have hwf : t.d.table.WF := by obtain ⟨Mc, hok⟩ := h.ok; exact hok.wf
  have htsz : t.d.table.size = 2 ^ t.capa.bits := by obtain ⟨Mc, hok⟩ := h.ok; exact hok.tsize
  have hget : ∀ {s : CompactVector × CompactVector} {D m i}, OldTable cfg t sb s D m → i < 2 ^ t.capa.bits → D i = false → s.1.get i = t.d.table.get i := by
    intro s D m i hS hi hD
    rw [hS.wf.get_ok (show i < s.1.size by rw [hS.size]; exact hi), hS.vals i hi hD, hwf.get_ok (by rw [htsz]; exact hi)]
  refine { tree := h.tree, bound := fun p i hp => h.T_bound hp, hC := ?_, hEmpty := ?_, hstart := ?_, hParent := ?_, hGet := ?_, hSet := ?_, hAdd := ?_ }
  · have : 2 ^ t.capa.bits ≤ 2 ^ 63 := Nat.pow_le_pow_right (by decide) (by omega)
    unfold u64max; omega
  · intro s D m i hS hi h2 hD
    refine ⟨decide (t.d.dsp cfg.dsp i = 0), ?_, ?_⟩
    · show DspTable.compareDsp _ _ _ _ = _
      rw [compareDsp_congr (hget hS hi hD), h.ok.compareDsp_ok hi]
    · simp only [decide_eq_false_iff_not]
      constructor
      · intro hv
        exact ⟨_, _, h.occ_child hi (show t.occ cfg sb i = some _ by unfold occ; rw [if_neg (by omega), if_neg hv])⟩
      · rintro ⟨v, l, hc⟩ hv
        have := (h.child_bound hc).2.2.1
        simp [occ, hv] at this
  · intro v l i hc; exact (h.child_bound hc).1
  · intro s D m v l i hS hc hD
    have hi := (h.child_bound hc).2.1
    show t.parentSymb cfg _ _ = _
    rw [parentSymb_congr (hget hS hi hD) (hS.size.trans htsz.symm), h.parentSymb_ok hc]
  · intro s D m i hS hi hD
    exact hS.get_ok hw1 hi hD
  · intro s D m v l i x hS hc hD hx
    exact hS.set_ok (h.child_bound hc).2.1 hx
  · intro t' p v l hN hp hn hsz hl
    obtain ⟨i0, j0, hc0⟩ := hl
    have hl' := (h.child_bound hc0).2.2.2
    obtain ⟨hI, hcb⟩ := hN
    have hcn : t'.child cfg sb v l = none := by
      rw [tpath, hp] at hn; exact hn
    have hms := hI.maxs
    rw [hcb] at hms
    have hmono := maxSize_mono (mf := cfg.maxFactor) (show 2 ^ t.capa.bits ≤ 2 ^ (t.capa.bits + 1) from Nat.pow_le_pow_right (by decide) (by omega))
    have h80 := maxSize_80 (c := t.capa.bits) (mf := cfg.maxFactor) (by have := hf.1.1; omega)
    refine (hI.add_new hf hp hl' hcn (by omega)).mono (fun hl => by rw [hcb] at hl; omega) ?_
    rintro ⟨t'', i, b⟩ - ⟨h1, h2, h3, h4, h5, h6⟩
    simp only at h1 h2 h3 h4 h5 h6 ⊢
    refine ⟨h1, ⟨h2, ?_⟩, ?_, h4, h6⟩
    · rw [h3, hcb]
    · rw [← hcb]; exact h5

/-- `expand` keeps the set of paths, renumbers the nodes and reports the renumbering. -/
theorem Inv.expand_post (hf : cfg.OK) (h : Inv cfg sb t) :
    Post (64 ≤ t.capa.bits + 1 + sb) (expand cfg t) (fun x =>
      Inv cfg sb x.1 ∧ x.1.size = t.size ∧ x.1.capa.bits = t.capa.bits + 1 ∧
      x.2.size = 2 ^ t.capa.bits ∧
      ∃ f : Nat → Nat,
        (∀ p i, tpath (some 0) (t.child cfg sb) p = some i → x.2.get i = .ok (f i)) ∧
        (∀ i < 2 ^ t.capa.bits, (∀ p, tpath (some 0) (t.child cfg sb) p ≠ some i) → x.2.get i = .ok u64max) ∧
        ∀ p, tpath (some 0) (x.1.child cfg sb) p = (tpath (some 0) (t.child cfg sb) p).map f) := by
  have hw := h.width_lt
  have hC := hf.1.at _ h.minc
  have h12 := hf.2.1
  have hd1 := hf.2.2.2
  have hd1' := hf.2.2.1.d1
  have hmc := h.minc
  have hmax : max cfg.minCapaBits (t.capa.bits + 1) = t.capa.bits + 1 := by omega
  have hsbe : t.symb.bits = sb := by rw [h.symb]
  have hwf : t.d.table.WF := by obtain ⟨Mc, hok⟩ := h.ok; exact hok.wf
  have htsz : t.d.table.size = 2 ^ t.capa.bits := by obtain ⟨Mc, hok⟩ := h.ok; exact hok.tsize
  have htwd : t.d.table.width = sb + cfg.dsp.dsp1Bits := by obtain ⟨Mc, hok⟩ := h.ok; exact hok.twidth
  unfold expand
  rw [hsbe]
  by_cases hlim : t.capa.bits + 1 + sb < 64
  · obtain ⟨n0, hmk, hfr, hcb⟩ := make_ok hf (capaBits := t.capa.bits + 1) (sb := sb) h.sbpos (by omega)
    rw [hmax] at hcb
    obtain ⟨n1', har, hI1', hs1', hc1', hch1'⟩ := hfr.addRoot hf
    obtain ⟨n1, hn1⟩ : ∃ n1, n1 = { n1' with numResize := t.numResize + 1 } := ⟨_, rfl⟩
    have hI1 : Inv cfg sb n1 := by rw [hn1]; exact hI1'.setResize _
    have hs1 : n1.size = 1 := by rw [hn1]; exact hs1'
    have hc1 : n1.capa = n0.capa := by rw [hn1]; exact hc1'
    have hch1 : ∀ v s, n1.child cfg sb v s = none := by rw [hn1]; exact hch1'
    have hcb1 : n1.capa.bits = t.capa.bits + 1 := by rw [hc1, hcb]
    rw [hmk, R.bind_ok, har, R.bind_ok]
    dsimp only
    rw [← hn1, h.root, R.bind_ok]
    obtain ⟨d0, hd0, hdwf, hdsz, hdbit⟩ := (BitVector.make_wf t.capa.size).1.set_ok (i := 0) (b := true) (by
      rw [(BitVector.make_wf t.capa.size).2.1, h.capa_size]; exact Nat.two_pow_pos _)
    rw [hd0, R.bind_ok, htwd, SizeP2.make_ok (show sb + cfg.dsp.dsp1Bits < 64 by omega), R.bind_ok, show n1'.capa.bits = t.capa.bits + 1 by rw [hc1', hcb], h.capa_size]
    have hbit0 : ∀ j, d0.bit j = decide (j = 0) := by
      intro j; rw [hdbit j]
      by_cases hj : j = 0
      · simp [hj]
      · simp [hj, (BitVector.make_wf t.capa.size).2.2]
    have hhigh : ∃ g, mapHigh (2 ^ t.capa.bits) (sb + cfg.dsp.dsp1Bits) (t.capa.bits + 1) = .ok g ∧
        OldTable cfg t sb (t.d.table, g) d0.bit (fun _ => 0) := by
      by_cases hc : sb + cfg.dsp.dsp1Bits < t.capa.bits + 1
      · obtain ⟨g, hg, gw, gs, gwd, gval⟩ := CompactVector.make_ok (size := 2 ^ t.capa.bits) (width := t.capa.bits + 1 - (sb + cfg.dsp.dsp1Bits)) (by omega) (by omega)
        refine ⟨g, by rw [mapHigh, if_pos hc, hg], { wf := hwf, size := htsz, width := htwd, vals := fun _ _ _ => rfl, high := Or.inr ⟨hc, gw, gs, gwd, ?_⟩, mlt := fun _ _ _ => Nat.two_pow_pos _ }⟩
        intro i hi hD
        rw [hbit0] at hD
        simp only [decide_eq_true_eq] at hD
        subst hD
        exact ⟨by rw [Nat.zero_mod]; exact h.root0, by rw [Nat.zero_div]; exact gval 0 hi⟩
      · refine ⟨{}, by rw [mapHigh, if_neg hc]; rfl, { wf := hwf, size := htsz, width := htwd, vals := fun _ _ _ => rfl, high := Or.inl ⟨by omega, rfl, ?_⟩, mlt := fun _ _ _ => Nat.two_pow_pos _ }⟩
        intro i hi hD
        rw [hbit0] at hD
        simp only [decide_eq_true_eq] at hD
        subst hD
        exact h.root0
    obtain ⟨g, hg, hS0⟩ := hhigh
    rw [hg, R.bind_ok]
    have hT1 := (Tree.empty (r := 0) hch1).2
    have I0 : ExpandInv (2 ^ t.capa.bits) 0 (t.child cfg sb) (OldTable cfg t sb)
        (fun t' => Inv cfg sb t' ∧ t'.capa.bits = t.capa.bits + 1)
        (fun t' => tpath (some 0) (t'.child cfg sb)) (fun t' => t'.size) (t.d.table, g) n1 d0 (fun _ => 0) := by
      refine { dwf := hdwf, dsize := ?_, droot := by rw [hbit0]; rfl, ds := hS0, dn := ⟨hI1, hcb1⟩, dreach := ?_, map := ?_, dom := ?_, size := ?_ }
      · rw [hdsz, (BitVector.make_wf t.capa.size).2.1, h.capa_size]
      · intro i hi; rw [hbit0] at hi; exact ⟨[], by simp at hi; simp [tpath, hi]⟩
      · intro p i hp hi
        rw [hbit0] at hi
        simp only [decide_eq_true_eq] at hi
        subst hi
        have : p = [] := h.tree.tpath_inj p [] 0 hp rfl
        subst this; rfl
      · intro p j hp
        simp only [hT1] at hp
        split at hp
        · rename_i e; subst e; exact ⟨0, rfl, by rw [hbit0]; rfl⟩
        · simp at hp
      · show n1.size = _
        rw [hs1, cnt_congr (fun i _ => hbit0 i), cnt_set (p := fun _ => false) (a := 0) (Nat.two_pow_pos _) rfl (by simp) (by intro i _ hi; simp [hi]), cnt_zero (by simp)]
    have hM : ∀ D : Nat → Bool, (∀ i, D i = true → ∃ p, tpath (some 0) (t.child cfg sb) p = some i) →
        ∀ i p, tpath (some 0) (t.child cfg sb) p = some i → D i = false →
        cnt D (2 ^ t.capa.bits) < Poplar.maxSize (2 ^ t.capa.bits) cfg.maxFactor := by
      intro D hD i p hp hDi
      obtain ⟨hi, hr⟩ := (h.reach_iff i).mp ⟨p, hp⟩
      have := cnt_lt_of (q := fun i => decide (i = 0) || (t.occ cfg sb i).isSome) hi hDi hr
        (fun j _ hj => ((h.reach_iff j).mp (hD j hj)).2)
      rw [h.cnt_reach] at this
      have h1 := h.le
      rw [h.maxs] at h1
      omega
    have hpos := Nat.two_pow_pos t.capa.bits
    rw [htsz]
    refine Post.bind (expandLoop_ok (h.expandHyp hf (by omega) _) hM (fuel := 2 ^ t.capa.bits + 1) (by omega)
      (2 ^ t.capa.bits - 1) 1 (t.d.table, g) n1 d0 (fun _ => 0) (by omega) (by omega) I0 (by
        intro j v l hc hj
        have := (h.child_bound hc).1; omega)) ?_
    rintro ⟨s', t', d'⟩ _ ⟨m', I', hdone⟩
    simp only at I' hdone ⊢
    have hall : ∀ i, (∃ p, tpath (some 0) (t.child cfg sb) p = some i) → d'.bit i = true := by
      rintro i ⟨p, hp⟩
      cases p with
      | nil => simp only [tpath, Option.some.injEq] at hp; subst hp; exact I'.droot
      | cons s p =>
        rw [tpath, Option.bind_eq_some_iff] at hp
        obtain ⟨w, _, hw⟩ := hp
        exact hdone _ _ _ hw
    refine ⟨I'.dn.1, ?_, I'.dn.2, ?_, m', ?_, ?_, ?_⟩
    · rw [I'.size, ← h.cnt_reach]
      apply cnt_congr
      intro i hi
      rw [Bool.eq_iff_iff]
      constructor
      · intro hb; exact ((h.reach_iff i).mp (I'.dreach i hb)).2
      · intro hb; exact hall i ((h.reach_iff i).mpr ⟨hi, hb⟩)
    · exact I'.ds.size
    · intro p i hp
      have hb := hall i ⟨p, hp⟩
      have hi := h.T_bound hp
      show nodeMapGet _ _ _ _ = _
      unfold nodeMapGet
      rw [I'.dwf.get_ok (show i < d'.size by rw [I'.dsize]; exact hi), R.bind_ok, hb, if_pos rfl]
      have := I'.ds.get_ok (by omega) hi hb (mask := 0)
      unfold getMapping at this
      rw [← I'.ds.width] at this
      exact this
    · intro i hi hp
      have hb : d'.bit i = false := by
        cases hb : d'.bit i with
        | false => rfl
        | true => obtain ⟨p, hp'⟩ := I'.dreach i hb; exact absurd hp' (hp p)
      show nodeMapGet _ _ _ _ = _
      unfold nodeMapGet
      rw [I'.dwf.get_ok (show i < d'.size by rw [I'.dsize]; exact hi), R.bind_ok, hb]; rfl
    · intro p
      cases hp : tpath (some 0) (t.child cfg sb) p with
      | some i => exact I'.map p i hp (hall i ⟨p, hp⟩)
      | none =>
        cases hp' : tpath (some 0) (t'.child cfg sb) p with
        | none => rfl
        | some j =>
          obtain ⟨i, hi, _⟩ := I'.dom p j hp'
          rw [hp] at hi; simp at hi
  · obtain ⟨e, he, hk⟩ := make_fail (cfg := cfg) (capaBits := t.capa.bits + 1) (sb := sb) (by omega)
    simp only [he]
    exact ⟨by omega, hk⟩

/-- the number of nodes below which no limit can be hit; `cb0` = `capa_bits` given to the constructor -/
def limit (cfg : CompactCfg) (sb cb0 : Nat) : Nat :=
  if cfg.maxFactor ≤ 80 then Poplar.maxSize (2 ^ (63 - sb)) cfg.maxFactor
  else min (Poplar.maxSize (2 ^ (63 - sb)) cfg.maxFactor) (Poplar.maxSize (2 ^ max cfg.minCapaBits cb0) 80)

theorem limit_le_63 (cfg : CompactCfg) (sb cb0 : Nat) : limit cfg sb cb0 ≤ Poplar.maxSize (2 ^ (63 - sb)) cfg.maxFactor := by
  unfold limit; split
  · exact Nat.le_refl _
  · exact Nat.min_le_left _ _

/-- the limit of the auxiliary table cannot be hit below `limit` nodes -/
theorem limit_le_80 {cfg : CompactCfg} {sb cb0 b n : Nat} (hb : max cfg.minCapaBits cb0 ≤ b)
    (h1 : n < Poplar.maxSize (2 ^ b) cfg.maxFactor) (h2 : Poplar.maxSize (2 ^ b) 80 < n) : limit cfg sb cb0 ≤ n := by
  unfold limit; split
  · rename_i h
    have : Poplar.maxSize (2 ^ b) cfg.maxFactor ≤ Poplar.maxSize (2 ^ b) 80 := by
      unfold Poplar.maxSize
      exact Nat.div_le_div_right (Nat.mul_le_mul_left _ h)
    omega
  · have := maxSize_mono (mf := 80) (show 2 ^ max cfg.minCapaBits cb0 ≤ 2 ^ b from Nat.pow_le_pow_right (by decide) hb)
    omega

/-- `compact_bonsai_trie` satisfies the trie contract -/
def spec0 (cfg : CompactCfg) (hf : cfg.OK) (sb : Nat) (hsb : 0 < sb) :
    TrieSpec (ops cfg) sb (limit cfg sb 0) True where
  minb := cfg.minCapaBits
  mf := cfg.maxFactor
  cb0 := 0
  make_ok := by
    intro cb _ h
    obtain ⟨t, h1, h2, h3⟩ := make_ok hf hsb h
    exact ⟨t, h1, h2, h3⟩
  make_fail := fun cb h => make_fail h
  capa := by
    intro t h
    rcases h with h | h
    · exact ⟨h.minc, by have := h.width_lt; simp only [ops]; omega, h.capa_size, by simp only [ops, h.size]; omega⟩
    · exact ⟨h.minc, by have := h.width_lt; simp only [ops]; omega, h.capa_size, by simp only [ops]; rw [← h.maxs]; exact h.le⟩
  Fresh := Fresh cfg sb
  Inv := Inv cfg sb
  T := fun t => tpath (some 0) (t.child cfg sb)
  fresh_size := fun t h => h.size
  fresh_root := by
    intro t h
    obtain ⟨t', h1, h2, h3, h4, h5⟩ := h.addRoot hf
    refine ⟨t', 0, h1, h2, h2.root, (Tree.empty h5).2, h3, ?_, ?_, by simp [ops]⟩
    · have hC := hf.1.at _ h2.minc
      simp only [ops, needsToExpand, h2.maxs, h3, decide_eq_false_iff_not]; omega
    · simp only [ops, capaSize, h4]
  inv_root := fun t h => ⟨0, h.root, rfl⟩
  inv_size := by intro t h; simp only [ops]; rw [h.size]; omega
  T_inj := fun t h => h.tree.tpath_inj
  T_prefix := by
    intro t _ s p i hp
    rw [tpath, Option.bind_eq_some_iff] at hp
    obtain ⟨v, hv, _⟩ := hp
    exact ⟨v, hv⟩
  T_bound := by
    intro t h p i hp
    have h1 := h.T_bound hp
    refine ⟨by simp only [ops, capaSize, h.capa_size]; exact h1, ?_⟩
    have : 2 ^ t.capa.bits ≤ 2 ^ 63 := Nat.pow_le_pow_right (by decide) (by have := h.width_lt; omega)
    unfold u64max; omega
  T_bound_fk := by intro h; simp [ops] at h
  find := by
    intro t h p v s hp hs
    have := h.find_ok (h.T_bound hp) hs
    simp only [ops, this, tpath, hp, Option.bind_some]
  add := by
    intro t h hne p v s hp hs _
    have h1 := h.T_bound hp
    have hne : t.size < t.maxSize := by
      have := hne rfl
      simp only [ops, needsToExpand, decide_eq_false_iff_not] at this; omega
    have hch : tpath (some 0) (t.child cfg sb) (s :: p) = t.child cfg sb v s := by rw [tpath, hp]; rfl
    simp only [ops]
    cases hc : t.child cfg sb v s with
    | some i =>
      rw [h.add_exists h1 hs hc]
      refine ⟨h, ?_, ?_, ?_, ?_, ?_, ?_, ?_⟩
      · simp [hch, hc]
      · intro q
        split
        · rename_i e; rw [e, hch, hc]
        · rfl
      · intro j hj; rw [hch, hc] at hj; injection hj
      · simp
      · exact .refl _
      · intro _; exact ⟨rfl, fun _ => rfl⟩
      · simp
    | none =>
      refine (h.add_new hf hp hs hc hne).mono ?_ ?_
      · intro hl
        exact limit_le_80 (by rw [Nat.max_zero]; exact h.minc) (by rw [← h.maxs]; exact hne) hl
      · rintro ⟨t', i, b⟩ - ⟨h2, h3, h4, h5, h6, h7⟩
        simp only at h2 h3 h4 h5 h6 h7 ⊢
        subst h2
        refine ⟨h3, ?_, h7, ?_, ?_, ?_, ?_, ?_⟩
        · simp [hch, hc]
        · intro j hj; rw [hch, hc] at hj; simp at hj
        · simpa using h5
        · refine ⟨by simp only [capaSize, h4]; exact Nat.le_refl _, by simp only [h5]; omega, Or.inl (by simp only [capaSize, h4])⟩
        · intro _; exact ⟨by simp only [capaSize, h4], by simp⟩
        · simp
  needs := by
    intro _ t h hne
    have hne' : t.maxSize ≤ t.size := by simpa [ops, needsToExpand] using hne
    simp only [ops, capaSize, h.capa_size, ← h.maxs]; exact hne'
  expand := by
    intro _ t h hne
    have hne' : t.maxSize ≤ t.size := by simpa [ops, needsToExpand] using hne
    refine (h.expand_post hf).mono (fun hl => by
      have hm := maxSize_mono (mf := cfg.maxFactor) (show 2 ^ (63 - sb) ≤ 2 ^ t.capa.bits from Nat.pow_le_pow_right (by decide) (by omega))
      rw [← h.maxs] at hm
      simp only [ops]; exact Nat.le_trans (limit_le_63 _ _ _) (by omega)) ?_
    rintro ⟨t', nm⟩ _ ⟨h1, h2, h3, h4, f, h5, h6, h7⟩
    simp only at h1 h2 h3 h4 h5 h6 h7
    refine ⟨h1, ?_, h2, ?_, ?_, f, h5, ?_, h7⟩
    · have hC := hf.1.at _ h.minc
      have h8 := maxSize_double (2 ^ t.capa.bits) cfg.maxFactor
      have hle := h.le
      rw [h.maxs] at hle
      have hms := h1.maxs
      rw [h3, Nat.pow_succ, Nat.mul_comm] at hms
      simp only [ops, needsToExpand, decide_eq_false_iff_not]
      omega
    · simp only [ops, capaSize, h1.capa_size, h.capa_size, h3, Nat.pow_succ, Nat.mul_comm]
    · simp only [ops, capaSize, h.capa_size]; exact h4
    · simp only [ops, capaSize, h.capa_size]; exact h6
  expandAny := by
    intro _ t h
    refine (h.expand_post hf).mono (fun hl => hl) ?_
    rintro ⟨t', nm⟩ _ ⟨h1, h2, h3, h4, f, h5, h6, h7⟩
    simp only at h1 h2 h3 h4 h5 h6 h7
    refine ⟨h1, ?_, h2, ?_, ?_, f, h5, ?_, h7⟩
    · have hC := hf.1.at _ h.minc
      have h8 := maxSize_double (2 ^ t.capa.bits) cfg.maxFactor
      have hle := h.le
      rw [h.maxs] at hle
      have hms := h1.maxs
      rw [h3, Nat.pow_succ, Nat.mul_comm] at hms
      simp only [ops, needsToExpand, decide_eq_false_iff_not]
      omega
    · simp only [ops, capaSize, h1.capa_size, h.capa_size, h3, Nat.pow_succ, Nat.mul_comm]
    · simp only [ops, capaSize, h.capa_size]; exact h4
    · simp only [ops, capaSize, h.capa_size]; exact h6

/-- the same, with the limit for a given initial capacity -/
def spec (cfg : CompactCfg) (hf : cfg.OK) (sb : Nat) (hsb : 0 < sb) (cb0 : Nat) :
    TrieSpec (ops cfg) sb (limit cfg sb cb0) True := by
  refine (spec0 cfg hf sb hsb).reserve cb0 rfl ?_ ?_
  · intro t h hcb hne p v s hp hs
    have h : Inv cfg sb t := h
    have hcb : cb0 ≤ t.capa.bits := hcb
    have hp : tpath (some 0) (t.child cfg sb) p = some v := hp
    have h1 := h.T_bound hp
    have hne : t.size < t.maxSize := by
      have := hne rfl
      simp only [ops, needsToExpand, decide_eq_false_iff_not] at this; omega
    simp only [ops]
    cases hc : t.child cfg sb v s with
    | some i => rw [h.add_exists h1 hs hc]; trivial
    | none =>
      refine (h.add_new hf hp hs hc hne).mono ?_ (fun _ _ _ => trivial)
      intro hl
      exact limit_le_80 (by have := h.minc; omega) (by rw [← h.maxs]; exact hne) hl
  · intro _ t h _ hne
    have h : Inv cfg sb t := h
    have hne' : t.maxSize ≤ t.size := by simpa [ops, needsToExpand] using hne
    refine (h.expand_post hf).mono (fun hl => by
      have hm := maxSize_mono (mf := cfg.maxFactor) (show 2 ^ (63 - sb) ≤ 2 ^ t.capa.bits from Nat.pow_le_pow_right (by decide) (by omega))
      rw [← h.maxs] at hm
      simp only [ops]; exact Nat.le_trans (limit_le_63 _ _ _) (by omega)) (fun _ _ _ => trivial)

end CompactBonsai
end Poplar
