import Verif.Model.CompactFkhashTrie
import Verif.Proof.CompactBonsaiTrie
/-
  `compact_fkhash_trie` satisfies the trie contract.
-/
namespace Poplar.CompactFk
open Poplar

/-- key stored in a slot -/
def occ (cfg : CompactCfg) (sb : Nat) (t : CompactFk) (i : Nat) : Option Nat :=
  if t.ids.val i = 2 ^ t.capa.bits - 1 then none else some (DspTable.keyAt cfg.dsp t.capa.bits sb t.d i (t.d.dsp cfg.dsp i))

def nores (_ : Nat) : Bool := false

/-- the finite map from keys to node ids -/
def M (cfg : CompactCfg) (sb : Nat) (t : CompactFk) (k : Nat) : Option Nat := lookv (2 ^ t.capa.bits) (t.occ cfg sb) t.ids.val k

def child (cfg : CompactCfg) (sb : Nat) (t : CompactFk) (v s : Nat) : Option Nat := childOf sb (t.M cfg sb) v s

/-- number of stored keys -/
def used (cfg : CompactCfg) (sb : Nat) (t : CompactFk) : Nat := cnt (fun i => (t.occ cfg sb i).isSome) (2 ^ t.capa.bits)

structure Core (cfg : CompactCfg) (sb : Nat) (t : CompactFk) : Prop where
  hasher : t.hasher = SplitMix.std (t.capa.bits + sb)
  capa : t.capa = { bits := t.capa.bits, mask := 2 ^ t.capa.bits - 1 }
  symb : t.symb = { bits := sb, mask := 2 ^ sb - 1 }
  sbpos : 0 < sb
  width_lt : t.capa.bits + sb < 64
  ok : DspTable.OK cfg.dsp t.capa.bits sb t.d
  iwf : t.ids.WF
  isize : t.ids.size = 2 ^ t.capa.bits
  iwidth : t.ids.width = t.capa.bits
  minc : cfg.minCapaBits ≤ t.capa.bits
  maxs : t.maxSize = Poplar.maxSize (2 ^ t.capa.bits) cfg.maxFactor
  lp : LP.Inv (2 ^ t.capa.bits) (SplitMix.H (t.capa.bits + sb)) nores (t.occ cfg sb)
  dlt : ∀ i < 2 ^ t.capa.bits, t.d.dsp cfg.dsp i < 2 ^ t.capa.bits
  zero : ∀ i < 2 ^ t.capa.bits, t.ids.val i = 2 ^ t.capa.bits - 1 → t.d.table.val i = 0
  dsps : t.d.sum = t.used cfg sb

structure Inv (cfg : CompactCfg) (sb : Nat) (t : CompactFk) : Prop extends Core cfg sb t where
  size : t.size = 1 + t.used cfg sb
  le : t.size ≤ t.maxSize
  idr : ∀ k x, t.M cfg sb k = some x → 1 ≤ x ∧ x < t.size
  idinj : ∀ k k' x, t.M cfg sb k = some x → t.M cfg sb k' = some x → k = k'
  tree : Tree 0 (t.child cfg sb)

structure Fresh (cfg : CompactCfg) (sb : Nat) (t : CompactFk) : Prop extends Core cfg sb t where
  size : t.size = 0
  empty : ∀ i < 2 ^ t.capa.bits, t.occ cfg sb i = none

variable {cfg : CompactCfg} {sb : Nat} {t : CompactFk}

theorem Core.capa_size (h : Core cfg sb t) : t.capa.size = 2 ^ t.capa.bits := by
  rw [h.capa]; simp only [SizeP2.size]; have := Nat.two_pow_pos t.capa.bits; omega

theorem Core.symb_size (h : Core cfg sb t) : t.symb.size = 2 ^ sb := by
  rw [h.symb]; simp only [SizeP2.size]; have := Nat.two_pow_pos sb; omega

theorem Core.capa_mask (h : Core cfg sb t) : t.capa.mask = 2 ^ t.capa.bits - 1 := by rw [h.capa]

theorem Core.u_pos (h : Core cfg sb t) : 0 < t.capa.bits + sb := by have := h.sbpos; omega

theorem Core.mod_lt (_ : Core cfg sb t) (x : Nat) : x % 2 ^ t.capa.bits < 2 ^ t.capa.bits :=
  Nat.mod_lt _ (Nat.two_pow_pos _)

theorem make_ok {cfg : CompactCfg} (hf : cfg.OK) {capaBits sb : Nat} (hsb : 0 < sb)
    (h : max cfg.minCapaBits capaBits + sb < 64) :
    ∃ t, make cfg capaBits sb = .ok t ∧ Fresh cfg sb t ∧ t.capa.bits = max cfg.minCapaBits capaBits := by
  have h12 := hf.2.1
  have hd1 := hf.2.2.2
  have hd1' := hf.2.2.1.d1
  have hp := Nat.two_pow_pos (max cfg.minCapaBits capaBits)
  have hz : 2 ^ (max cfg.minCapaBits capaBits) - 1 + 1 = 2 ^ (max cfg.minCapaBits capaBits) := by omega
  obtain ⟨d, hd, hok, hval⟩ := DspTable.make_ok (cb := max cfg.minCapaBits capaBits) (sb := sb) hf.2.2.1 (by omega) (by omega) (by have := hf.2.2.2; omega)
  obtain ⟨ids, hi, hiw, his, hiwd, hival⟩ := CompactVector.makeInit_ok (size := 2 ^ (max cfg.minCapaBits capaBits)) (width := max cfg.minCapaBits capaBits) (init := 2 ^ (max cfg.minCapaBits capaBits) - 1) (by omega) (by omega) (by omega)
  refine ⟨_, by simp only [make, SizeP2.make_ok (show max cfg.minCapaBits capaBits < 64 by omega), SizeP2.make_ok (show sb < 64 by omega), R.bind_ok, SizeP2.size, hz, if_pos h, SplitMix.make_ok (show 0 < max cfg.minCapaBits capaBits + sb by omega) h, hd, hi, R.pure_eq]; rfl, ?_, rfl⟩
  have hocc : ∀ i < 2 ^ (max cfg.minCapaBits capaBits), occ cfg sb { hasher := SplitMix.std (max cfg.minCapaBits capaBits + sb), d := d, ids := ids, size := 0, maxSize := Poplar.maxSize (2 ^ max cfg.minCapaBits capaBits) cfg.maxFactor, capa := { bits := max cfg.minCapaBits capaBits, mask := 2 ^ max cfg.minCapaBits capaBits - 1 }, symb := { bits := sb, mask := 2 ^ sb - 1 } } i = none := by
    intro i hi; simp only [occ, hival i hi, if_true]
  exact { hasher := rfl, capa := rfl, symb := rfl, sbpos := hsb, width_lt := h, ok := hok, iwf := hiw, isize := his, iwidth := hiwd, minc := Nat.le_max_left _ _, maxs := rfl, size := rfl, empty := hocc, dlt := fun i hi => by rw [hok.dsp_zero hi (hval i hi)]; exact hp, zero := fun i hi _ => hval i hi, lp := LP.Inv.congr hocc (LP.Inv.empty hp ⟨0, hp, rfl⟩), dsps := (DspTable.make_sum hd).trans (cnt_zero (fun i hi => by rw [hocc i hi]; rfl)).symm }

theorem make_fail {cfg : CompactCfg} {capaBits sb : Nat} (h : 64 ≤ max cfg.minCapaBits capaBits + sb) :
    ∃ e, make cfg capaBits sb = .error e ∧ (e = .limit ∨ e = .throw) := by
  unfold make SizeP2.make
  by_cases h1 : max cfg.minCapaBits capaBits < 64
  · simp only [if_pos h1, R.bind_ok]
    by_cases h2 : sb < 64
    · simp only [if_pos h2, R.bind_ok, if_neg (show ¬ max cfg.minCapaBits capaBits + sb < 64 by omega)]
      exact ⟨_, rfl, by simp⟩
    · simp only [if_neg h2]; exact ⟨_, rfl, by simp⟩
  · simp only [if_neg h1]; exact ⟨_, rfl, by simp⟩

theorem Fresh.M_none (h : Fresh cfg sb t) (k : Nat) : t.M cfg sb k = none := by
  rw [M, lookv_none]; intro i hi; rw [h.empty i hi]; simp

theorem Fresh.used_zero (h : Fresh cfg sb t) : t.used cfg sb = 0 := by
  unfold used; rw [cnt_zero]; intro i hi; rw [h.empty i hi]; rfl

theorem Core.resize (h : Core cfg sb t) (n : Nat) : Core cfg sb { t with size := n } :=
  { hasher := h.hasher, capa := h.capa, symb := h.symb, sbpos := h.sbpos, width_lt := h.width_lt, ok := h.ok, iwf := h.iwf, isize := h.isize, iwidth := h.iwidth, minc := h.minc, maxs := h.maxs, lp := h.lp, dlt := h.dlt, zero := h.zero, dsps := h.dsps }

/-- the statistics counter plays no role -/
theorem Fresh.setResize (h : Fresh cfg sb t) (k : Nat) : Fresh cfg sb { t with numResize := k } :=
  ⟨⟨h.hasher, h.capa, h.symb, h.sbpos, h.width_lt, h.ok, h.iwf, h.isize, h.iwidth, h.minc, h.maxs, h.lp, h.dlt, h.zero, h.dsps⟩, h.size, h.empty⟩

theorem Fresh.addRoot (hf : cfg.OK) (h : Fresh cfg sb t) :
    ∃ t', t.addRoot = .ok t' ∧ Inv cfg sb t' ∧ t'.size = 1 ∧ t'.capa = t.capa ∧
      (∀ v s, t'.child cfg sb v s = none) := by
  refine ⟨{ t with size := 1 }, by simp [CompactFk.addRoot, h.size, R.assert], ?_⟩
  have hM : ∀ k, M cfg sb { t with size := 1 } k = none := h.M_none
  have hchild : ∀ v s, child cfg sb { t with size := 1 } v s = none := by
    intro v s
    simp only [child, childOf]
    split
    · exact hM _
    · rfl
  have hC := hf.1.at _ h.minc
  refine ⟨{ toCore := h.toCore.resize 1, size := ?_, le := ?_, idr := ?_, idinj := ?_, tree := (Tree.empty hchild).1 }, rfl, rfl, hchild⟩
  · show 1 = 1 + t.used cfg sb
    rw [h.used_zero]
  · show 1 ≤ t.maxSize
    rw [h.maxs]; omega
  · intro k x hk; rw [hM] at hk; simp at hk
  · intro k k' x hk; rw [hM] at hk; simp at hk

theorem Inv.root (h : Inv cfg sb t) : t.getRoot = .ok 0 := by
  have : t.size ≠ 0 := by rw [h.size]; omega
  simp [getRoot, this, R.assert]

theorem occ_none {i : Nat} : t.occ cfg sb i = none ↔ t.ids.val i = 2 ^ t.capa.bits - 1 := by
  unfold occ; split <;> simp_all

theorem occ_some {i k : Nat} :
    t.occ cfg sb i = some k ↔ t.ids.val i ≠ 2 ^ t.capa.bits - 1 ∧ DspTable.keyAt cfg.dsp t.capa.bits sb t.d i (t.d.dsp cfg.dsp i) = k := by
  unfold occ; split <;> simp_all

theorem Core.get_id (h : Core cfg sb t) {i : Nat} (hi : i < 2 ^ t.capa.bits) : t.ids.get i = .ok (t.ids.val i) :=
  h.iwf.get_ok (by rw [h.isize]; exact hi)

theorem Core.cnt_nonzero (h : Core cfg sb t) :
    cnt (fun i => decide (t.d.table.val i ≠ 0)) (2 ^ t.capa.bits) ≤ t.used cfg sb := by
  unfold used
  apply cnt_mono
  intro i hi hv
  simp only [decide_eq_true_eq] at hv
  have hd : t.ids.val i ≠ 2 ^ t.capa.bits - 1 := fun e => hv (h.zero i hi e)
  simp [occ, hd]

/-- what the probing loops see in an occupied slot on the probe path of `k` -/
theorem Core.slot_view (h : Core cfg sb t) {k s : Nat} (hk : k < 2 ^ (t.capa.bits + sb)) (hs : s < 2 ^ t.capa.bits)
    (i : Nat) (hi : i = (SplitMix.H (t.capa.bits + sb) k + s) % 2 ^ t.capa.bits) (h0 : t.ids.val i ≠ 2 ^ t.capa.bits - 1) :
    t.d.compareDsp cfg.dsp i s = .ok (decide (t.d.dsp cfg.dsp i = s)) ∧ t.d.getQuo cfg.dsp i = .ok (t.d.quo cfg.dsp i) ∧
      (decide (t.d.dsp cfg.dsp i = s) && (SplitMix.H (t.capa.bits + sb) k / 2 ^ t.capa.bits == t.d.quo cfg.dsp i)) = decide (t.occ cfg sb i = some k) := by
  have hiC : i < 2 ^ t.capa.bits := by rw [hi]; exact h.mod_lt _
  refine ⟨h.ok.compareDsp_ok hiC, h.ok.getQuo_ok hiC, ?_⟩
  have hm := h.ok.match_iff h.width_lt h.u_pos hk hs (dist := t.d.dsp cfg.dsp i) (h.dlt i hiC)
  rw [← hi] at hm
  rw [Bool.eq_iff_iff]
  simp only [Bool.and_eq_true, decide_eq_true_eq, beq_iff_eq, occ_some, hm, ne_eq, h0, not_false_eq_true, true_and]

theorem Core.find_ok (h : Core cfg sb t) {key : Nat} (hk : key < 2 ^ (t.capa.bits + sb)) :
    probe t.capa.mask (t.findBody cfg (SplitMix.H (t.capa.bits + sb) key / 2 ^ t.capa.bits)) t.capa.size
      (SplitMix.H (t.capa.bits + sb) key &&& t.capa.mask) 0 = .ok ((t.M cfg sb key).getD u64max) := by
  rw [h.capa_size, h.capa_mask, and_mask]
  have hskip : ∀ u < 2 ^ t.capa.bits, (∀ s < u, nores ((SplitMix.H (t.capa.bits + sb) key + s) % 2 ^ t.capa.bits) = true ∨
      (nores ((SplitMix.H (t.capa.bits + sb) key + s) % 2 ^ t.capa.bits) = false ∧ ∃ k', k' ≠ key ∧ t.occ cfg sb ((SplitMix.H (t.capa.bits + sb) key + s) % 2 ^ t.capa.bits) = some k')) →
      ∀ s < u, t.findBody cfg (SplitMix.H (t.capa.bits + sb) key / 2 ^ t.capa.bits) ((SplitMix.H (t.capa.bits + sb) key + s) % 2 ^ t.capa.bits) (0 + s) = .ok none := by
    intro u huC hu s hs
    rcases hu s hs with h1 | ⟨_, k', hk', ho⟩
    · simp [nores] at h1
    · obtain ⟨h1, h2⟩ := occ_some.mp ho
      obtain ⟨h3, h4, h5⟩ := h.slot_view hk (by omega) _ rfl h1
      unfold findBody
      rw [h.get_id (h.mod_lt _), R.bind_ok, h.capa_mask, if_neg h1, Nat.zero_add, h3, R.bind_ok, h4, R.bind_ok, h5, ho]
      simp [hk']
  cases h.lp.probe key with
  | found u hu ho hr hsk =>
    refine probe_ok (hskip u hu hsk) ?_ hu
    rw [M, lookv_eq h.lp.inj (h.mod_lt _) ho]
    obtain ⟨h1, h2⟩ := occ_some.mp ho
    obtain ⟨h3, h4, h5⟩ := h.slot_view hk hu _ rfl h1
    unfold findBody
    rw [h.get_id (h.mod_lt _), R.bind_ok, h.capa_mask, if_neg h1, Nat.zero_add, h3, R.bind_ok, h4, R.bind_ok, h5, ho]
    simp
  | absent u hu ho hr hsk ha =>
    refine probe_ok (hskip u hu hsk) ?_ hu
    rw [M, lookv_none.mpr ha]
    unfold findBody
    rw [h.get_id (h.mod_lt _), R.bind_ok, h.capa_mask, if_pos (occ_none.mp ho)]; rfl

/-- writing a new entry into a free slot -/
theorem Core.write (h : Core cfg sb t) (hf : cfg.OK) {key id u : Nat} (hk : key < 2 ^ (t.capa.bits + sb))
    (hid : id < 2 ^ t.capa.bits - 1) (hu : u < 2 ^ t.capa.bits)
    (ho : t.occ cfg sb ((SplitMix.H (t.capa.bits + sb) key + u) % 2 ^ t.capa.bits) = none)
    (hsk : ∀ s < u, nores ((SplitMix.H (t.capa.bits + sb) key + s) % 2 ^ t.capa.bits) = true ∨
      (nores ((SplitMix.H (t.capa.bits + sb) key + s) % 2 ^ t.capa.bits) = false ∧ ∃ k', k' ≠ key ∧ t.occ cfg sb ((SplitMix.H (t.capa.bits + sb) key + s) % 2 ^ t.capa.bits) = some k'))
    (ha : ∀ i < 2 ^ t.capa.bits, t.occ cfg sb i ≠ some key) (hroom : t.used cfg sb + 1 < 2 ^ t.capa.bits) :
    Post (Poplar.maxSize (2 ^ t.capa.bits) 80 ≤ t.used cfg sb ∧
        t.updateSlot cfg ((SplitMix.H (t.capa.bits + sb) key + u) % 2 ^ t.capa.bits) (SplitMix.H (t.capa.bits + sb) key / 2 ^ t.capa.bits) u id = .error .limit)
      (t.updateSlot cfg ((SplitMix.H (t.capa.bits + sb) key + u) % 2 ^ t.capa.bits) (SplitMix.H (t.capa.bits + sb) key / 2 ^ t.capa.bits) u id) (fun t' =>
      Core cfg sb t' ∧ t'.capa = t.capa ∧ t'.maxSize = t.maxSize ∧ t'.size = t.size ∧ t'.used cfg sb = t.used cfg sb + 1 ∧
      (∀ k, t'.M cfg sb k = if k = key then some id else t.M cfg sb k) ∧
      ∀ j < 2 ^ t.capa.bits, t'.occ cfg sb j = (if j = (SplitMix.H (t.capa.bits + sb) key + u) % 2 ^ t.capa.bits then some key else t.occ cfg sb j) ∧
        t'.d.dsp cfg.dsp j = if j = (SplitMix.H (t.capa.bits + sb) key + u) % 2 ^ t.capa.bits then u else t.d.dsp cfg.dsp j) := by
  have h12 := hf.2.1
  have hd1 := hf.2.2.2
  have hd1' := hf.2.2.1.d1
  have hsbp := h.sbpos
  have hmc := h.minc
  have hw := h.width_lt
  have hi := h.mod_lt (SplitMix.H (t.capa.bits + sb) key + u)
  have hroom' := LP.room_of_count (C := 2 ^ t.capa.bits) (res := nores) (occ := t.occ cfg sb) ((SplitMix.H (t.capa.bits + sb) key + u) % 2 ^ t.capa.bits) (by
    rw [cnt_zero (p := nores) (fun _ _ => rfl)]; unfold used at hroom; omega)
  have hins := h.lp.insert rfl hu hsk ha hroom'
  have hHlt := SplitMix.H_lt h.u_pos h.width_lt hk
  have hq : SplitMix.H (t.capa.bits + sb) key / 2 ^ t.capa.bits < 2 ^ sb := by
    rw [Nat.div_lt_iff_lt_mul (Nat.two_pow_pos _), ← Nat.pow_add, Nat.add_comm sb]; exact hHlt
  obtain ⟨i, hidef⟩ : ∃ i, i = (SplitMix.H (t.capa.bits + sb) key + u) % 2 ^ t.capa.bits := ⟨_, rfl⟩
  rw [← hidef] at ho hi hins ⊢
  have hup := h.ok.updateSlot_post (by omega) (by omega) hi (h.zero i hi (occ_none.mp ho)) hq (show u ≤ 2 ^ t.capa.bits by omega)
  have hcn := h.cnt_nonzero
  unfold updateSlot
  rw [h.symb_size]
  refine Post.bind (hup.mono (fun hl => ⟨by have := hl.1; omega, by rw [hl.2]; rfl⟩) (fun _ _ hx => hx)) ?_
  rintro d' hds ⟨hok', hd', hq', htv', hz'⟩
  obtain ⟨is, hset', hwf', hsz', hwd', hvals'⟩ := h.iwf.set_ok (i := i) (x := id) (by rw [h.isize]; exact hi) (by rw [h.iwidth]; omega)
  rw [hset', R.bind_ok]
  have hkeyi : DspTable.keyAt cfg.dsp t.capa.bits sb d' i u = key := by
    rw [hidef]
    refine (hok'.match_iff h.width_lt h.u_pos hk hu hu).mpr ⟨rfl, ?_⟩
    rw [← hidef, hq' i hi, if_pos rfl]
  have hocc : ∀ j < 2 ^ t.capa.bits, occ cfg sb { t with d := d', ids := is } j = if j = i then some key else t.occ cfg sb j := by
    intro j hj
    simp only [occ]
    rw [hvals' j (by rw [h.isize]; exact hj), hd' j hj]
    by_cases hji : j = i
    · subst hji
      rw [if_pos rfl, if_neg (by omega), if_pos rfl, if_pos rfl, hkeyi]
    · simp only [hji, if_false, DspTable.keyAt, hq' j hj]
  have hused : used cfg sb { t with d := d', ids := is } = t.used cfg sb + 1 := by
    show cnt (fun j => (occ cfg sb { t with d := d', ids := is } j).isSome) (2 ^ t.capa.bits) = _
    unfold used
    apply cnt_set hi
    · simp [ho]
    · simp [hocc i hi]
    · intro j hj hji; simp [hocc j hj, hji]
  refine ⟨?_, rfl, rfl, rfl, hused, ?_, fun j hj => ⟨hocc j hj, hd' j hj⟩⟩
  · refine { hasher := h.hasher, capa := h.capa, symb := h.symb, sbpos := h.sbpos, width_lt := h.width_lt, ok := hok', iwf := hwf', isize := hsz'.trans h.isize, iwidth := hwd'.trans h.iwidth, minc := h.minc, maxs := h.maxs, lp := LP.Inv.congr hocc hins, dlt := ?_, zero := ?_, dsps := ?_ }
    · intro j hj
      show d'.dsp cfg.dsp j < 2 ^ t.capa.bits
      rw [hd' j hj]
      split
      · exact hu
      · exact h.dlt j hj
    · intro j hj hz
      show d'.table.val j = 0
      replace hz : is.val j = 2 ^ t.capa.bits - 1 := hz
      rw [hvals' j (by rw [h.isize]; exact hj)] at hz
      by_cases hji : j = i
      · rw [if_pos hji] at hz; omega
      · rw [if_neg hji] at hz
        rw [htv' j hj hji]; exact h.zero j hj hz
    · rw [hused, ← h.dsps]; exact DspTable.updateSlot_sum hds
  · exact lookv_insert h.lp.inj hi ho ha hocc (by intro j hj; exact hvals' j (by rw [h.isize]; exact hj))

theorem Core.reinsert (h : Core cfg sb t) (hf : cfg.OK) {key id : Nat} (hk : key < 2 ^ (t.capa.bits + sb))
    (hid : id < 2 ^ t.capa.bits - 1) (hM : t.M cfg sb key = none) (hroom : t.used cfg sb + 1 < 2 ^ t.capa.bits)
    (h80 : t.used cfg sb < Poplar.maxSize (2 ^ t.capa.bits) 80) :
    ∃ t', probe t.capa.mask (t.reinsertBody cfg (SplitMix.H (t.capa.bits + sb) key / 2 ^ t.capa.bits) id) t.capa.size
        (SplitMix.H (t.capa.bits + sb) key &&& t.capa.mask) 0 = .ok t' ∧
      Core cfg sb t' ∧ t'.capa = t.capa ∧ t'.used cfg sb = t.used cfg sb + 1 ∧ t'.size = t.size ∧
      ∀ k, t'.M cfg sb k = if k = key then some id else t.M cfg sb k := by
  rw [h.capa_size, h.capa_mask, and_mask]
  cases h.lp.probe key with
  | found u hu ho hr hsk =>
    rw [M, lookv_none] at hM
    exact absurd ho (hM _ (h.mod_lt _))
  | absent u hu ho hr hsk ha =>
    obtain ⟨t', h1, h2, h3, _, h4, h5, h6, _⟩ := (h.write hf hk hid hu ho hsk ha hroom).get (by omega)
    refine ⟨t', probe_ok (t := u) ?_ ?_ hu, h2, h3, h5, h4, h6⟩
    · intro s hs
      rcases hsk s hs with h6 | ⟨_, k', _, h6⟩
      · simp [nores] at h6
      · unfold reinsertBody
        rw [h.get_id (h.mod_lt _), R.bind_ok, h.capa_mask, if_neg (occ_some.mp h6).1]; rfl
    · unfold reinsertBody
      rw [h.get_id (h.mod_lt _), R.bind_ok, h.capa_mask, if_pos (occ_none.mp ho), Nat.zero_add, h1, R.bind_ok]; rfl

theorem expandLoop_ok (hf : cfg.OK) (h : Inv cfg sb t) :
    ∀ (c i : Nat) (n : CompactFk), i + c = 2 ^ t.capa.bits → Core cfg sb n →
      n.capa.bits = t.capa.bits + 1 → n.used cfg sb = cnt (fun i => (t.occ cfg sb i).isSome) i →
      (∀ k, n.M cfg sb k = lookTo (2 ^ t.capa.bits) (t.occ cfg sb) t.ids.val i k) →
      ∃ n', expandLoop cfg t c i n = .ok n' ∧ Core cfg sb n' ∧ n'.capa.bits = t.capa.bits + 1 ∧
        n'.used cfg sb = t.used cfg sb ∧ ∀ k, n'.M cfg sb k = t.M cfg sb k := by
  intro c
  induction c with
  | zero =>
    intro i n hi hn hc hu hM
    have : i = 2 ^ t.capa.bits := by omega
    subst this
    exact ⟨n, rfl, hn, hc, hu, fun k => by rw [hM, lookTo_all]; rfl⟩
  | succ c ih =>
    intro i n hi hn hc hu hM
    have hiC : i < 2 ^ t.capa.bits := by omega
    rw [expandLoop, h.get_id hiC, R.bind_ok, h.capa_mask]
    by_cases h0 : t.ids.val i = 2 ^ t.capa.bits - 1
    · rw [if_pos h0]
      have ho := occ_none (cfg := cfg) (sb := sb).mpr h0
      refine ih (i + 1) n (by omega) hn hc ?_ ?_
      · rw [cnt, hu, ho]; rfl
      · intro k; rw [hM, lookTo_skip ho]
    · rw [if_neg h0]
      obtain ⟨key, hkd⟩ : ∃ key, key = DspTable.keyAt cfg.dsp t.capa.bits sb t.d i (t.d.dsp cfg.dsp i) := ⟨_, rfl⟩
      have ho : t.occ cfg sb i = some key := occ_some.mpr ⟨h0, hkd.symm⟩
      have hw := h.width_lt
      have hkey : key < 2 ^ (t.capa.bits + sb) := by rw [hkd]; exact h.ok.keyAt_lt hw h.u_pos hiC
      have hid : t.ids.val i < 2 ^ t.capa.bits := by
        have := h.iwf.val_lt (i := i) (by rw [h.isize]; exact hiC)
        rwa [h.iwidth] at this
      have hP : 2 ^ n.capa.bits = 2 * 2 ^ t.capa.bits := by rw [hc, Nat.pow_succ, Nat.mul_comm]
      have hle : cnt (fun i => (t.occ cfg sb i).isSome) i ≤ i := cnt_le _ _
      have hkey' : key < 2 ^ (n.capa.bits + sb) :=
        Nat.lt_of_lt_of_le hkey (Nat.pow_le_pow_right (by decide) (by omega))
      have hcle : cnt (fun i => (t.occ cfg sb i).isSome) i ≤ t.used cfg sb := by
        unfold used
        clear hM hu ih ho hkd
        have : ∀ d, cnt (fun i => (t.occ cfg sb i).isSome) i ≤ cnt (fun i => (t.occ cfg sb i).isSome) (i + d) := by
          intro d
          induction d with
          | zero => exact Nat.le_refl _
          | succ d ih => rw [← Nat.add_assoc, cnt]; omega
        have := this (c + 1)
        rwa [hi] at this
      have h80 := CompactBonsai.maxSize_80 (c := t.capa.bits) (mf := cfg.maxFactor) (by have := hf.1.1; omega)
      have hms := h.maxs
      have hlem := h.le
      have hsz := h.size
      obtain ⟨n', h1, h2, h3, h4, h5, h6⟩ := hn.reinsert hf (key := key) (id := t.ids.val i)
        hkey' (by omega) (by
          rw [hM]; exact lookTo_fresh h.lp.inj hiC ho) (by omega) (by rw [hc]; omega)
      have hrk := h.ok.restoreKey_ok h.width_lt h.u_pos hiC (h.dlt i hiC)
      have hcapa := h.capa
      rw [h.ok.getDsp_ok hiC, R.bind_ok, h.hasher]
      rw [← hcapa, ← hkd] at hrk
      rw [hrk, R.bind_ok, hn.hasher, SplitMix.hash_eq hn.u_pos hn.width_lt hkey', R.bind_ok, Nat.shiftRight_eq_div_pow, h1, R.bind_ok]
      refine ih (i + 1) n' (by omega) h2 (by rw [h3, hc]) ?_ ?_
      · rw [h4, hu, cnt, ho]; rfl
      · intro k
        rw [h6, hM, lookTo_step h.lp.inj hiC ho]

theorem Inv.expandSelf_post (hf : cfg.OK) (h : Inv cfg sb t) :
    Post (Poplar.maxSize (2 ^ (63 - sb)) cfg.maxFactor ≤ t.maxSize) (expandSelf cfg t) (fun t' =>
      Inv cfg sb t' ∧ t'.size = t.size ∧ t'.capa.bits = t.capa.bits + 1 ∧ (∀ k, t'.M cfg sb k = t.M cfg sb k) ∧
      t'.size < t'.maxSize) := by
  have hw := h.width_lt
  have hC := hf.1.at _ h.minc
  have hmc := h.minc
  have hmax : max cfg.minCapaBits (t.capa.bits + 1) = t.capa.bits + 1 := by omega
  have hsbe : t.symb.bits = sb := by rw [h.symb]
  unfold expandSelf
  rw [hsbe]
  by_cases hlim : t.capa.bits + 1 + sb < 64
  · obtain ⟨n0, hmk, hfr, hcb⟩ := make_ok hf (capaBits := t.capa.bits + 1) (sb := sb) h.sbpos (by omega)
    rw [hmax] at hcb
    obtain ⟨n1, hn1⟩ : ∃ n1, n1 = { n0 with numResize := t.numResize + 1 } := ⟨_, rfl⟩
    replace hfr : Fresh cfg sb n1 := by rw [hn1]; exact hfr.setResize _
    replace hcb : n1.capa.bits = t.capa.bits + 1 := by rw [hn1]; exact hcb
    obtain ⟨n', h1, h2, h3, h4, h5⟩ := expandLoop_ok hf h (2 ^ t.capa.bits) 0 n1 (by omega) hfr.toCore hcb
      (by rw [hfr.used_zero]; rfl)
      (by intro k; rw [hfr.M_none, lookTo_zero])
    rw [hmk, R.bind_ok, h.capa_size]
    dsimp only
    rw [← hn1, h1, R.bind_ok]
    have hM : ∀ k, M cfg sb { n' with size := t.size } k = t.M cfg sb k := h5
    have hdb := maxSize_double (2 ^ t.capa.bits) cfg.maxFactor
    have hms : n'.maxSize = Poplar.maxSize (2 * 2 ^ t.capa.bits) cfg.maxFactor := by
      rw [h2.maxs, h3, Nat.pow_succ, Nat.mul_comm]
    have hle := h.le
    have hms0 := h.maxs
    have hch : child cfg sb { n' with size := t.size } = t.child cfg sb := by
      funext v s; simp only [child, childOf, hM]
    refine ⟨{ toCore := h2.resize _, size := ?_, le := ?_, idr := ?_, idinj := ?_, tree := ?_ }, rfl, h3, hM, ?_⟩
    · show t.size = 1 + n'.used cfg sb
      rw [h4, h.size]
    · show t.size ≤ n'.maxSize
      omega
    · intro k x hk; rw [hM] at hk; exact h.idr k x hk
    · intro k k' x hk hk'; rw [hM] at hk hk'; exact h.idinj k k' x hk hk'
    · rw [hch]; exact h.tree
    · show t.size < n'.maxSize
      omega
  · obtain ⟨e, he, hk⟩ := make_fail (cfg := cfg) (capaBits := t.capa.bits + 1) (sb := sb) (by omega)
    simp only [he]
    refine ⟨?_, hk⟩
    rw [h.maxs]
    exact maxSize_mono (Nat.pow_le_pow_right (by decide) (by omega))

theorem Inv.child_bound (h : Inv cfg sb t) {v s i : Nat} (hc : t.child cfg sb v s = some i) :
    1 ≤ i ∧ i < t.size ∧ s < 2 ^ sb ∧ t.M cfg sb (v * 2 ^ sb + s) = some i := by
  rw [child, childOf_some] at hc
  have := h.idr _ _ hc.2
  exact ⟨this.1, this.2, hc.1, hc.2⟩

theorem Inv.T_bound (h : Inv cfg sb t) {p : List Nat} {v : Nat}
    (hp : tpath (some 0) (t.child cfg sb) p = some v) : v < t.size := by
  cases p with
  | nil =>
    simp only [tpath, Option.some.injEq] at hp
    have := h.size
    omega
  | cons s p =>
    rw [tpath, Option.bind_eq_some_iff] at hp
    obtain ⟨w, _, hw⟩ := hp
    exact (h.child_bound hw).2.1

theorem Inv.size_lt (hf : cfg.OK) (h : Inv cfg sb t) : t.size < 2 ^ t.capa.bits - 1 := by
  have hC := hf.1.at _ h.minc
  have := h.le
  rw [h.maxs] at this
  omega

theorem Inv.key_eq' (hf : cfg.OK) (h : Inv cfg sb t) {v s : Nat} (hv : v < t.size)
    (hs : s < 2 ^ sb) : t.makeKey v s = v * 2 ^ sb + s := by
  unfold makeKey
  have hb : t.symb.bits = sb := by rw [h.symb]
  rw [hb]
  exact key_eq (by have := h.size_lt hf; omega) hs h.width_lt

/-- the probing part of `add_child` -/
theorem Inv.addProbe (hf : cfg.OK) (h : Inv cfg sb t)
    {p : List Nat} {v s : Nat} (hp : tpath (some 0) (t.child cfg sb) p = some v)
    (hs : s < 2 ^ sb) (hlt : t.size < t.maxSize) :
    Post (Poplar.maxSize (2 ^ t.capa.bits) 80 < t.size)
      (do
        let x ← t.hasher.hash (t.makeKey v s)
        probe t.capa.mask (t.addBody cfg (x >>> t.capa.bits)) t.capa.size (x &&& t.capa.mask) 0) (fun x =>
      Inv cfg sb x.1 ∧ x.1.capa = t.capa ∧ x.2.2 = (t.child cfg sb v s).isNone ∧
      x.1.size = t.size + (if x.2.2 then 1 else 0) ∧ (x.2.2 = true → x.2.1 = t.size) ∧
      (∀ j, t.child cfg sb v s = some j → x.2.1 = j) ∧
      ∀ q, tpath (some 0) (x.1.child cfg sb) q = if q = s :: p then some x.2.1 else tpath (some 0) (t.child cfg sb) q) := by
  have hv := h.T_bound hp
  have hszlt := h.size_lt hf
  have hvC : v < 2 ^ t.capa.bits := by omega
  have hk := key_lt (cb := t.capa.bits) hvC hs
  have hchs : t.child cfg sb v s = t.M cfg sb (v * 2 ^ sb + s) := by simp only [child, childOf, if_pos hs]
  have hpath : tpath (some 0) (t.child cfg sb) (s :: p) = t.child cfg sb v s := by rw [tpath, hp]; rfl
  rw [h.key_eq' hf hv hs, h.hasher, SplitMix.hash_eq h.u_pos h.width_lt hk, R.bind_ok]
  rw [h.capa_size, h.capa_mask, and_mask, Nat.shiftRight_eq_div_pow]
  have hC := hf.1.at _ h.minc
  have hms := h.maxs
  have hskip : ∀ u < 2 ^ t.capa.bits, (∀ s' < u, nores ((SplitMix.H (t.capa.bits + sb) (v * 2 ^ sb + s) + s') % 2 ^ t.capa.bits) = true ∨
      (nores ((SplitMix.H (t.capa.bits + sb) (v * 2 ^ sb + s) + s') % 2 ^ t.capa.bits) = false ∧ ∃ k', k' ≠ v * 2 ^ sb + s ∧ t.occ cfg sb ((SplitMix.H (t.capa.bits + sb) (v * 2 ^ sb + s) + s') % 2 ^ t.capa.bits) = some k')) →
      ∀ s' < u, t.addBody cfg (SplitMix.H (t.capa.bits + sb) (v * 2 ^ sb + s) / 2 ^ t.capa.bits) ((SplitMix.H (t.capa.bits + sb) (v * 2 ^ sb + s) + s') % 2 ^ t.capa.bits) (0 + s') = .ok none := by
    intro u huC hu s' hs'
    rcases hu s' hs' with h1 | ⟨_, k', hk', ho⟩
    · simp [nores] at h1
    · obtain ⟨h1, h2⟩ := occ_some.mp ho
      obtain ⟨h3, h4, h5⟩ := h.slot_view hk (s := s') (by omega) _ rfl h1
      unfold addBody
      rw [h.get_id (h.mod_lt _), R.bind_ok, h.capa_mask, if_neg h1, Nat.zero_add, h3, R.bind_ok, h4, R.bind_ok, h5, ho]
      simp [hk']
  cases h.lp.probe (v * 2 ^ sb + s) with
  | found u hu ho hr hsk =>
    have hM : t.M cfg sb (v * 2 ^ sb + s) = some (t.ids.val ((SplitMix.H (t.capa.bits + sb) (v * 2 ^ sb + s) + u) % 2 ^ t.capa.bits)) :=
      lookv_eq h.lp.inj (h.mod_lt _) ho
    obtain ⟨h1, h2⟩ := occ_some.mp ho
    obtain ⟨h3, h4, h5⟩ := h.slot_view hk hu _ rfl h1
    rw [probe_ok (a := (t, t.ids.val ((SplitMix.H (t.capa.bits + sb) (v * 2 ^ sb + s) + u) % 2 ^ t.capa.bits), false)) (hskip u hu hsk) (by
      unfold addBody
      rw [h.get_id (h.mod_lt _), R.bind_ok, h.capa_mask, if_neg h1, Nat.zero_add, h3, R.bind_ok, h4, R.bind_ok, h5, ho]
      simp) hu]
    refine ⟨h, rfl, by rw [hchs, hM]; rfl, rfl, by simp, ?_, ?_⟩
    · intro j hj; rw [hchs, hM] at hj; injection hj
    · intro q
      split
      · rename_i e; rw [e, hpath, hchs, hM]
      · rfl
  | absent u hu ho hr hsk ha =>
    have hMn : t.M cfg sb (v * 2 ^ sb + s) = none := lookv_none.mpr ha
    have hsz := h.size
    refine probe_post (t := u) (hskip u hu hsk) ?_ hu
    unfold addBody
    rw [h.get_id (h.mod_lt _), R.bind_ok, h.capa_mask, if_pos (occ_none.mp ho), Nat.zero_add]
    refine Post.bind ((h.write hf (id := t.size) hk hszlt hu ho hsk ha (by omega)).mono (fun hl => by have := hl.1; omega) (fun _ _ x => x)) ?_
    rintro t1 - ⟨h3, hcapa, hmx, hsz1, h4, h5, _⟩
    refine ⟨_, rfl, ?_⟩
    simp only
    have hch5 : ∀ k, M cfg sb { t1 with size := t1.size + 1 } k = if k = v * 2 ^ sb + s then some t.size else t.M cfg sb k := h5
    have hT := h.tree.add (child' := child cfg sb { t1 with size := t1.size + 1 }) (i := t.size) hp (by rw [hchs, hMn]) (by
        intro v' s' hcc
        have := (h.child_bound hcc).2.1
        omega) (by omega) (childOf_add hs hch5)
    rw [hchs, hMn]
    refine ⟨?_, hcapa, rfl, ?_, ?_, by simp, ?_⟩
    · refine { toCore := h3.resize _, size := ?_, le := ?_, idr := ?_, idinj := ?_, tree := hT.1 }
      · show t1.size + 1 = 1 + t1.used cfg sb
        rw [h4]; omega
      · show t1.size + 1 ≤ t1.maxSize
        omega
      · intro k x hk
        rw [hch5] at hk
        show 1 ≤ x ∧ x < t1.size + 1
        split at hk
        · injection hk with hk; omega
        · have := h.idr k x hk; omega
      · intro k k' x hk hk'
        rw [hch5] at hk hk'
        split at hk <;> split at hk'
        · omega
        · injection hk with hk; have := h.idr k' x hk'; omega
        · injection hk' with hk'; have := h.idr k x hk; omega
        · exact h.idinj k k' x hk hk'
    · simpa using hsz1
    · intro _; exact hsz1
    · rw [hsz1]; rw [hsz1] at hT; exact hT.2

theorem Inv.add_post (hf : cfg.OK) (h : Inv cfg sb t)
    {p : List Nat} {v s : Nat} (hp : tpath (some 0) (t.child cfg sb) p = some v)
    (hs : s < 2 ^ sb) {cb0 : Nat} (hcb0 : cb0 ≤ t.capa.bits) :
    Post (CompactBonsai.limit cfg sb cb0 ≤ t.size) (addChild cfg t v s) (fun x =>
      Inv cfg sb x.1 ∧ x.2.2 = (t.child cfg sb v s).isNone ∧
      x.1.size = t.size + (if x.2.2 then 1 else 0) ∧ (x.2.2 = true → x.2.1 = t.size) ∧
      (∀ j, t.child cfg sb v s = some j → x.2.1 = j) ∧
      (x.1.capa = t.capa ∨ (t.maxSize ≤ t.size ∧ x.1.capa.bits = t.capa.bits + 1)) ∧
      ∀ q, tpath (some 0) (x.1.child cfg sb) q = if q = s :: p then some x.2.1 else tpath (some 0) (t.child cfg sb) q) := by
  have hv := h.T_bound hp
  have hvC : v < 2 ^ t.capa.bits := by have := h.size_lt hf; omega
  unfold addChild
  rw [h.capa_size, h.symb_size, R.assert_dec hvC, R.bind_ok, R.assert_dec hs, R.bind_ok]
  by_cases hfull : t.maxSize ≤ t.size
  · rw [if_pos hfull]
    refine Post.bind ((h.expandSelf_post hf).mono (fun hl => Nat.le_trans (CompactBonsai.limit_le_63 _ _ _) (by omega)) (fun a _ x => x)) ?_
    rintro t1 _ ⟨hI, hsz, hcb, hM, hlt⟩
    have hch : t1.child cfg sb = t.child cfg sb := by funext a b; simp only [child, childOf, hM]
    refine (hI.addProbe hf (p := p) (v := v) (by rw [hch]; exact hp) hs hlt).mono (fun hl => ?_) ?_
    · rw [← hsz]
      exact CompactBonsai.limit_le_80 (by have := hI.minc; omega) (by rw [← hI.maxs]; exact hlt) hl
    · rintro ⟨t', i, b⟩ - ⟨h2, h3, h4, h5, h6, h7, h8⟩
      simp only at h2 h3 h4 h5 h6 h7 h8
      rw [hch] at h4 h7 h8
      rw [hsz] at h5 h6
      exact ⟨h2, h4, h5, h6, h7, Or.inr ⟨hfull, by simp only; rw [h3, hcb]⟩, h8⟩
  · rw [if_neg hfull]
    refine Post.mono (h.addProbe hf hp hs (by omega)) (fun hl => ?_) ?_
    · exact CompactBonsai.limit_le_80 (by have := h.minc; omega) (by rw [← h.maxs]; omega) hl
    · rintro ⟨t', i, b⟩ - ⟨h2, h3, h4, h5, h6, h7, h8⟩
      exact ⟨h2, h4, h5, h6, h7, Or.inl h3, h8⟩

/-- `compact_fkhash_trie` satisfies the trie contract -/
def spec0 (cfg : CompactCfg) (hf : cfg.OK) (sb : Nat) (hsb : 0 < sb) :
    TrieSpec (ops cfg) sb (CompactBonsai.limit cfg sb 0) True where
  minb := cfg.minCapaBits
  mf := cfg.maxFactor
  cb0 := 0
  make_ok := by
    intro cb _ h
    obtain ⟨t, h1, h2, h3⟩ := make_ok hf hsb h
    exact ⟨t, h1, h2, h3⟩
  make_fail := fun cb h => make_fail h
  capa := by
    intro t h
    rcases h with h | h
    · exact ⟨h.minc, by have := h.width_lt; simp only [ops]; omega, h.capa_size, by simp only [ops, h.size]; omega⟩
    · exact ⟨h.minc, by have := h.width_lt; simp only [ops]; omega, h.capa_size, by simp only [ops]; rw [← h.maxs]; exact h.le⟩
  Fresh := Fresh cfg sb
  Inv := Inv cfg sb
  T := fun t => tpath (some 0) (t.child cfg sb)
  fresh_size := fun t h => h.size
  fresh_root := by
    intro t h
    obtain ⟨t', h1, h2, h3, h4, h5⟩ := h.addRoot hf
    exact ⟨t', 0, h1, h2, h2.root, (Tree.empty h5).2, h3, rfl, by simp only [ops, h4], fun _ => rfl⟩
  inv_root := fun t h => ⟨0, h.root, rfl⟩
  inv_size := by intro t h; simp only [ops]; rw [h.size]; omega
  T_inj := fun t h => h.tree.tpath_inj
  T_prefix := by
    intro t _ s p i hp
    rw [tpath, Option.bind_eq_some_iff] at hp
    obtain ⟨v, hv, _⟩ := hp
    exact ⟨v, hv⟩
  T_bound := by
    intro t h p i hp
    have h1 := h.T_bound hp
    have h2 := h.size_lt hf
    refine ⟨by simp only [ops, h.capa_size]; omega, ?_⟩
    have : 2 ^ t.capa.bits ≤ 2 ^ 63 := Nat.pow_le_pow_right (by decide) (by have := h.width_lt; omega)
    unfold u64max; omega
  T_bound_fk := by
    intro _ t h p i hp
    exact h.T_bound hp
  find := by
    intro t h p v s hp hs
    have hv := h.T_bound hp
    have hszlt := h.size_lt hf
    have hsz : ¬ t.size = 0 := by rw [h.size]; omega
    have hk := key_lt (cb := t.capa.bits) (show v < 2 ^ t.capa.bits by omega) hs
    simp only [ops, findChild]
    rw [if_neg hsz, h.key_eq' hf hv hs, h.hasher, SplitMix.hash_eq h.u_pos h.width_lt hk, R.bind_ok, Nat.shiftRight_eq_div_pow, h.find_ok hk]
    simp only [tpath, hp, Option.bind_some, child, childOf, if_pos hs]
  add := by
    intro t h _ p v s hp hs _
    have hch : tpath (some 0) (t.child cfg sb) (s :: p) = t.child cfg sb v s := by rw [tpath, hp]; rfl
    refine (h.add_post hf hp hs (Nat.zero_le _)).imp ?_
    rintro ⟨t', i, b⟩ ⟨h2, h4, h5, h6, h7, h9, h8⟩
    rw [hch]
    refine ⟨h2, h4, h8, h7, h5, ?_, by simp [ops], fun _ => h6⟩
    simp only [ops]
    simp only at h2 h5 h9
    unfold TrieOps.Grow TrieOps.Needed
    simp only
    rw [h.capa_size, h2.capa_size]
    rcases h9 with h9 | ⟨h9', h9⟩
    · rw [h9]; exact ⟨Nat.le_refl _, by omega, Or.inl rfl⟩
    · refine ⟨Nat.pow_le_pow_right (by decide) (by omega), by omega, Or.inr ⟨2 ^ t.capa.bits, by rw [h9, Nat.pow_succ, Nat.mul_comm], Nat.le_refl _, ?_⟩⟩
      rw [← h.maxs]; omega
  needs := by intro h; simp [ops] at h
  expand := by intro h; simp [ops] at h
  expandAny := by intro h; simp [ops] at h

/-- the same, with the limit for a given initial capacity -/
def spec (cfg : CompactCfg) (hf : cfg.OK) (sb : Nat) (hsb : 0 < sb) (cb0 : Nat) :
    TrieSpec (ops cfg) sb (CompactBonsai.limit cfg sb cb0) True :=
  (spec0 cfg hf sb hsb).reserve cb0 rfl
    (fun _ h hcb _ _ _ _ hp hs => (Inv.add_post hf h hp hs hcb).imp (fun _ _ => trivial)) (by intro h; simp [ops] at h)

end Poplar.CompactFk
