import Verif.Model.PlainFkhashTrie
import Verif.Proof.HashCommon
/-
  `plain_fkhash_trie` satisfies the trie contract, for every hash function.
-/
namespace Poplar.PlainFk
open Poplar

def occ (t : PlainFk) (i : Nat) : Option Nat :=
  if t.ids.val i = 0 then none else some (t.table.val i)

def nores (_ : Nat) : Bool := false

/-- the finite map from keys to node ids -/
def M (t : PlainFk) (k : Nat) : Option Nat := lookv (2 ^ t.capa.bits) t.occ t.ids.val k

def child (sb : Nat) (t : PlainFk) (v s : Nat) : Option Nat := childOf sb t.M v s

/-- number of stored keys -/
def used (t : PlainFk) : Nat := cnt (fun i => (t.occ i).isSome) (2 ^ t.capa.bits)

structure Core (cfg : PlainFkCfg) (sb : Nat) (t : PlainFk) : Prop where
  capa : t.capa = { bits := t.capa.bits, mask := 2 ^ t.capa.bits - 1 }
  symb : t.symb = { bits := sb, mask := 2 ^ sb - 1 }
  wf : t.table.WF
  tsize : t.table.size = 2 ^ t.capa.bits
  twidth : t.table.width = t.capa.bits + sb
  iwf : t.ids.WF
  isize : t.ids.size = 2 ^ t.capa.bits
  iwidth : t.ids.width = t.capa.bits
  minc : cfg.minCapaBits ≤ t.capa.bits
  maxs : t.maxSize = Poplar.maxSize (2 ^ t.capa.bits) cfg.maxFactor
  lp : LP.Inv (2 ^ t.capa.bits) cfg.hash nores t.occ

structure Inv (cfg : PlainFkCfg) (sb : Nat) (t : PlainFk) : Prop extends Core cfg sb t where
  size : t.size = 1 + t.used
  le : t.size ≤ t.maxSize
  idr : ∀ k x, t.M k = some x → 1 ≤ x ∧ x < t.size
  idinj : ∀ k k' x, t.M k = some x → t.M k' = some x → k = k'
  tree : Tree 0 (t.child sb)
  nz : cfg.dbg = true → t.M 0 = none

structure Fresh (cfg : PlainFkCfg) (sb : Nat) (t : PlainFk) : Prop extends Core cfg sb t where
  size : t.size = 0
  empty : ∀ i < 2 ^ t.capa.bits, t.occ i = none

variable {cfg : PlainFkCfg} {sb : Nat} {t : PlainFk}

theorem Core.capa_size (h : Core cfg sb t) : t.capa.size = 2 ^ t.capa.bits := by
  rw [h.capa]; simp only [SizeP2.size]; have := Nat.two_pow_pos t.capa.bits; omega

theorem Core.symb_size (h : Core cfg sb t) : t.symb.size = 2 ^ sb := by
  rw [h.symb]; simp only [SizeP2.size]; have := Nat.two_pow_pos sb; omega

theorem Core.width_lt (h : Core cfg sb t) : t.capa.bits + sb < 64 := by
  rw [← h.twidth]; exact h.wf.width_lt

theorem Core.mod_lt (_ : Core cfg sb t) (x : Nat) : x % 2 ^ t.capa.bits < 2 ^ t.capa.bits :=
  Nat.mod_lt _ (Nat.two_pow_pos _)

theorem minCapa_pos {a b : Nat} (hf : FactorOK a b) : 0 < a := by
  rcases Nat.eq_zero_or_pos a with h | h
  · subst h; have := hf.2; omega
  · exact h

theorem make_ok {cfg : PlainFkCfg} (hf : FactorOK cfg.minCapaBits cfg.maxFactor) {capaBits sb : Nat}
    (h : max cfg.minCapaBits capaBits + sb < 64) :
    ∃ t, make cfg capaBits sb = .ok t ∧ Fresh cfg sb t ∧ t.capa.bits = max cfg.minCapaBits capaBits := by
  have hm := minCapa_pos hf
  have hz : 2 ^ (max cfg.minCapaBits capaBits) - 1 + 1 = 2 ^ (max cfg.minCapaBits capaBits) := by
    have := Nat.two_pow_pos (max cfg.minCapaBits capaBits); omega
  obtain ⟨v, hv, hw, hs, hwd, hval⟩ := CompactVector.make_ok (size := 2 ^ (max cfg.minCapaBits capaBits)) (width := max cfg.minCapaBits capaBits + sb) (by omega) h
  obtain ⟨w, hv', hw', hs', hwd', hval'⟩ := CompactVector.make_ok (size := 2 ^ (max cfg.minCapaBits capaBits)) (width := max cfg.minCapaBits capaBits) (by omega) (by omega)
  refine ⟨_, by simp only [make, SizeP2.make_ok (show max cfg.minCapaBits capaBits < 64 by omega), SizeP2.make_ok (show sb < 64 by omega), R.bind_ok, SizeP2.size, hz, hv, hv', R.pure_eq]; rfl, ?_, rfl⟩
  have hocc : ∀ i < 2 ^ (max cfg.minCapaBits capaBits), occ { table := v, ids := w, size := 0, maxSize := Poplar.maxSize (2 ^ (max cfg.minCapaBits capaBits)) cfg.maxFactor, capa := { bits := max cfg.minCapaBits capaBits, mask := 2 ^ (max cfg.minCapaBits capaBits) - 1 }, symb := { bits := sb, mask := 2 ^ sb - 1 } } i = none := by
    intro i hi; simp only [occ, hval' i hi]; rfl
  exact { capa := rfl, symb := rfl, wf := hw, tsize := hs, twidth := hwd, iwf := hw', isize := hs', iwidth := hwd', minc := Nat.le_max_left _ _, maxs := rfl, size := rfl, empty := hocc, lp := LP.Inv.congr hocc (LP.Inv.empty (Nat.two_pow_pos _) ⟨0, Nat.two_pow_pos _, rfl⟩) }

theorem make_fail {cfg : PlainFkCfg} {capaBits sb : Nat} (h : 64 ≤ max cfg.minCapaBits capaBits + sb) :
    ∃ e, make cfg capaBits sb = .error e ∧ (e = .limit ∨ e = .throw) := by
  unfold make SizeP2.make
  by_cases h1 : max cfg.minCapaBits capaBits < 64
  · simp only [if_pos h1, R.bind_ok]
    by_cases h2 : sb < 64
    · simp only [if_pos h2, R.bind_ok, CompactVector.make, if_pos h]
      exact ⟨_, rfl, by simp⟩
    · simp only [if_neg h2]; exact ⟨_, rfl, by simp⟩
  · simp only [if_neg h1]; exact ⟨_, rfl, by simp⟩

theorem Fresh.M_none (h : Fresh cfg sb t) (k : Nat) : t.M k = none := by
  rw [M, lookv_none]; intro i hi; rw [h.empty i hi]; simp

/-- the statistics counter plays no role -/
theorem Fresh.setResize (h : Fresh cfg sb t) (k : Nat) : Fresh cfg sb { t with numResize := k } :=
  ⟨⟨h.capa, h.symb, h.wf, h.tsize, h.twidth, h.iwf, h.isize, h.iwidth, h.minc, h.maxs, h.lp⟩, h.size, h.empty⟩

theorem Fresh.addRoot (hf : FactorOK cfg.minCapaBits cfg.maxFactor) (h : Fresh cfg sb t) :
    ∃ t', t.addRoot = .ok t' ∧ Inv cfg sb t' ∧ t'.size = 1 ∧ t'.capa = t.capa ∧
      (∀ v s, t'.child sb v s = none) := by
  refine ⟨{ t with size := 1 }, by simp [PlainFk.addRoot, h.size, R.assert], ?_⟩
  have hM : ∀ k, M { t with size := 1 } k = none := h.M_none
  have hchild : ∀ v s, child sb { t with size := 1 } v s = none := by
    intro v s
    simp only [child, childOf]
    split
    · exact hM _
    · rfl
  have hC := hf.at _ h.minc
  refine ⟨{ capa := h.capa, symb := h.symb, wf := h.wf, tsize := h.tsize, twidth := h.twidth, iwf := h.iwf, isize := h.isize, iwidth := h.iwidth, minc := h.minc, maxs := h.maxs, lp := h.lp, size := ?_, le := ?_, idr := ?_, idinj := ?_, tree := (Tree.empty hchild).1, nz := fun _ => hM 0 }, rfl, rfl, hchild⟩
  · show 1 = 1 + cnt _ _
    rw [cnt_zero]
    intro i hi
    have := h.empty i hi
    show (t.occ i).isSome = false
    rw [this]; rfl
  · show 1 ≤ t.maxSize
    rw [h.maxs]; omega
  · intro k x hk; rw [hM] at hk; simp at hk
  · intro k k' x hk; rw [hM] at hk; simp at hk

theorem Inv.root (h : Inv cfg sb t) : t.getRoot = .ok 0 := by
  have : t.size ≠ 0 := by rw [h.size]; omega
  simp [getRoot, this, R.assert]

theorem Core.occ_none (_ : Core cfg sb t) {i : Nat} : t.occ i = none ↔ t.ids.val i = 0 := by
  unfold occ; split <;> simp_all

theorem Core.occ_some (_ : Core cfg sb t) {i k : Nat} :
    t.occ i = some k ↔ t.ids.val i ≠ 0 ∧ t.table.val i = k := by
  unfold occ; split <;> simp_all

theorem Core.get_id (h : Core cfg sb t) {i : Nat} (hi : i < 2 ^ t.capa.bits) : t.ids.get i = .ok (t.ids.val i) :=
  h.iwf.get_ok (by rw [h.isize]; exact hi)

theorem Core.get_key (h : Core cfg sb t) {i : Nat} (hi : i < 2 ^ t.capa.bits) : t.table.get i = .ok (t.table.val i) :=
  h.wf.get_ok (by rw [h.tsize]; exact hi)

theorem Core.findBody_eq (h : Core cfg sb t) {key i c : Nat} (hi : i < 2 ^ t.capa.bits) :
    t.findBody key i c = .ok (if t.ids.val i = 0 then some u64max
      else if t.table.val i = key then some (t.ids.val i) else none) := by
  unfold findBody
  simp only [h.get_id hi, h.get_key hi, R.bind_ok]
  split
  · rfl
  · split <;> rfl

theorem Core.find_ok (h : Core cfg sb t) {key : Nat} :
    probe t.capa.mask (t.findBody key) t.capa.size (cfg.hash key &&& t.capa.mask) 0 =
      .ok ((t.M key).getD u64max) := by
  have hmask : t.capa.mask = 2 ^ t.capa.bits - 1 := by rw [h.capa]
  rw [h.capa_size, hmask, and_mask]
  have hskip : ∀ u, (∀ s < u, nores ((cfg.hash key + s) % 2 ^ t.capa.bits) = true ∨
      (nores ((cfg.hash key + s) % 2 ^ t.capa.bits) = false ∧ ∃ k', k' ≠ key ∧ t.occ ((cfg.hash key + s) % 2 ^ t.capa.bits) = some k')) →
      ∀ s < u, t.findBody key ((cfg.hash key + s) % 2 ^ t.capa.bits) (0 + s) = .ok none := by
    intro u hu s hs
    rcases hu s hs with h1 | ⟨_, k', hk, ho⟩
    · simp [nores] at h1
    · obtain ⟨h1, h2⟩ := h.occ_some.mp ho
      rw [h.findBody_eq (h.mod_lt _), if_neg h1, if_neg (by rw [h2]; exact hk)]
  cases h.lp.probe key with
  | found u hu ho hr hsk =>
    refine probe_ok (hskip u hsk) ?_ hu
    rw [M, lookv_eq h.lp.inj (h.mod_lt _) ho]
    obtain ⟨h1, h2⟩ := h.occ_some.mp ho
    rw [h.findBody_eq (h.mod_lt _), if_neg h1, if_pos h2]; rfl
  | absent u hu ho hr hsk ha =>
    refine probe_ok (hskip u hsk) ?_ hu
    rw [M, lookv_none.mpr ha]
    rw [h.findBody_eq (h.mod_lt _), if_pos (h.occ_none.mp ho)]; rfl

/-- writing a new entry into a free slot -/
theorem Core.write (h : Core cfg sb t) {key id u : Nat} (hk : key < 2 ^ (t.capa.bits + sb))
    (hid : id < 2 ^ t.capa.bits) (hid0 : id ≠ 0) (hu : u < 2 ^ t.capa.bits)
    (ho : t.occ ((cfg.hash key + u) % 2 ^ t.capa.bits) = none)
    (hsk : ∀ s < u, nores ((cfg.hash key + s) % 2 ^ t.capa.bits) = true ∨
      (nores ((cfg.hash key + s) % 2 ^ t.capa.bits) = false ∧ ∃ k', k' ≠ key ∧ t.occ ((cfg.hash key + s) % 2 ^ t.capa.bits) = some k'))
    (ha : ∀ i < 2 ^ t.capa.bits, t.occ i ≠ some key) (hroom : t.used + 1 < 2 ^ t.capa.bits) (n : Nat) :
    ∃ tb is, t.table.set ((cfg.hash key + u) % 2 ^ t.capa.bits) key = .ok tb ∧
      t.ids.set ((cfg.hash key + u) % 2 ^ t.capa.bits) id = .ok is ∧
      Core cfg sb { t with table := tb, ids := is, size := n } ∧
      used { t with table := tb, ids := is, size := n } = t.used + 1 ∧
      ∀ k, M { t with table := tb, ids := is, size := n } k = if k = key then some id else t.M k := by
  have hi := h.mod_lt (cfg.hash key + u)
  have hroom' := LP.room_of_count (C := 2 ^ t.capa.bits) (res := nores) (occ := t.occ) ((cfg.hash key + u) % 2 ^ t.capa.bits) (by
    rw [cnt_zero (p := nores) (fun _ _ => rfl)]; unfold used at hroom; omega)
  have hins := h.lp.insert rfl hu hsk ha hroom'
  generalize (cfg.hash key + u) % 2 ^ t.capa.bits = i at *
  obtain ⟨tb, hset, hwf, hsz, hwd, hvals⟩ := h.wf.set_ok (i := i) (x := key) (by rw [h.tsize]; exact hi) (by rw [h.twidth]; exact hk)
  obtain ⟨is, hset', hwf', hsz', hwd', hvals'⟩ := h.iwf.set_ok (i := i) (x := id) (by rw [h.isize]; exact hi) (by rw [h.iwidth]; exact hid)
  have hocc : ∀ j < 2 ^ t.capa.bits, occ { t with table := tb, ids := is, size := n } j = if j = i then some key else t.occ j := by
    intro j hj
    simp only [occ]
    rw [hvals j (by rw [h.tsize]; exact hj), hvals' j (by rw [h.isize]; exact hj)]
    by_cases hji : j = i
    · simp [hji, hid0]
    · simp [hji]
  refine ⟨tb, is, hset, hset', ?_, ?_, ?_⟩
  · exact { capa := h.capa, symb := h.symb, wf := hwf, tsize := hsz.trans h.tsize, twidth := hwd.trans h.twidth, iwf := hwf', isize := hsz'.trans h.isize, iwidth := hwd'.trans h.iwidth, minc := h.minc, maxs := h.maxs, lp := LP.Inv.congr hocc hins }
  · unfold used
    apply cnt_set hi
    · simp [ho]
    · simp [hocc i hi]
    · intro j hj hji; simp [hocc j hj, hji]
  · exact lookv_insert h.lp.inj hi ho ha hocc (by intro j hj; exact hvals' j (by rw [h.isize]; exact hj))

theorem Core.reinsert (h : Core cfg sb t) {key id : Nat} (hk : key < 2 ^ (t.capa.bits + sb))
    (hid : id < 2 ^ t.capa.bits) (hid0 : id ≠ 0) (hM : t.M key = none) (hroom : t.used + 1 < 2 ^ t.capa.bits) :
    ∃ t', probe t.capa.mask (t.reinsertBody key id) t.capa.size (cfg.hash key &&& t.capa.mask) 0 = .ok t' ∧
      Core cfg sb t' ∧ t'.capa = t.capa ∧ t'.used = t.used + 1 ∧ t'.size = t.size ∧
      ∀ k, t'.M k = if k = key then some id else t.M k := by
  have hmask : t.capa.mask = 2 ^ t.capa.bits - 1 := by rw [h.capa]
  rw [h.capa_size, hmask, and_mask]
  cases h.lp.probe key with
  | found u hu ho hr hsk =>
    rw [M, lookv_none] at hM
    exact absurd ho (hM _ (h.mod_lt _))
  | absent u hu ho hr hsk ha =>
    obtain ⟨tb, is, h1, h2, h3, h4, h5⟩ := h.write hk hid hid0 hu ho hsk ha hroom t.size
    refine ⟨_, probe_ok (t := u) ?_ ?_ hu, h3, rfl, h4, rfl, h5⟩
    · intro s hs
      rcases hsk s hs with h6 | ⟨_, k', _, h6⟩
      · simp [nores] at h6
      · unfold reinsertBody
        rw [h.get_id (h.mod_lt _)]
        simp only [R.bind_ok]
        rw [if_neg (h.occ_some.mp h6).1]; rfl
    · unfold reinsertBody
      rw [h.get_id (h.mod_lt _)]
      simp only [R.bind_ok]
      rw [if_pos (h.occ_none.mp ho), h1, h2]; rfl

theorem expandLoop_ok (h : Inv cfg sb t) :
    ∀ (c i : Nat) (n : PlainFk), i + c = 2 ^ t.capa.bits → Core cfg sb n →
      n.capa.bits = t.capa.bits + 1 → n.used = cnt (fun i => (t.occ i).isSome) i →
      (∀ k, n.M k = lookTo (2 ^ t.capa.bits) t.occ t.ids.val i k) →
      ∃ n', expandLoop cfg t c i n = .ok n' ∧ Core cfg sb n' ∧ n'.capa.bits = t.capa.bits + 1 ∧
        n'.used = t.used ∧ ∀ k, n'.M k = t.M k := by
  intro c
  induction c with
  | zero =>
    intro i n hi hn hc hu hM
    have : i = 2 ^ t.capa.bits := by omega
    subst this
    exact ⟨n, rfl, hn, hc, hu, fun k => by rw [hM, lookTo_all]; rfl⟩
  | succ c ih =>
    intro i n hi hn hc hu hM
    have hiC : i < 2 ^ t.capa.bits := by omega
    simp only [expandLoop, h.get_id hiC, R.bind_ok]
    by_cases h0 : t.ids.val i = 0
    · rw [if_pos h0]
      have ho := h.occ_none.mpr h0
      refine ih (i + 1) n (by omega) hn hc ?_ ?_
      · rw [cnt, hu, ho]; rfl
      · intro k; rw [hM, lookTo_skip ho]
    · rw [if_neg h0]
      have ho : t.occ i = some (t.table.val i) := h.occ_some.mpr ⟨h0, rfl⟩
      have hMi : t.M (t.table.val i) = some (t.ids.val i) := lookv_eq h.lp.inj hiC ho
      have hnz : (!cfg.dbg || decide (t.table.val i ≠ 0)) = true := by
        cases hd : cfg.dbg with
        | false => rfl
        | true =>
          simp only [Bool.not_true, Bool.false_or, decide_eq_true_eq]
          intro e
          rw [e, h.nz hd] at hMi; simp at hMi
      simp only [h.get_key hiC, R.bind_ok, R.assert_of hnz]
      have hw := h.width_lt
      have hkey : t.table.val i < 2 ^ (t.capa.bits + sb) := by
        have := h.wf.val_lt (i := i) (by rw [h.tsize]; exact hiC)
        rwa [h.twidth] at this
      have hid : t.ids.val i < 2 ^ t.capa.bits := by
        have := h.iwf.val_lt (i := i) (by rw [h.isize]; exact hiC)
        rwa [h.iwidth] at this
      have hP : 2 ^ n.capa.bits = 2 * 2 ^ t.capa.bits := by rw [hc, Nat.pow_succ, Nat.mul_comm]
      have hle : cnt (fun i => (t.occ i).isSome) i ≤ i := cnt_le _ _
      have hkey' : t.table.val i < 2 ^ (n.capa.bits + sb) :=
        Nat.lt_of_lt_of_le hkey (Nat.pow_le_pow_right (by decide) (by omega))
      obtain ⟨n', h1, h2, h3, h4, h5, h6⟩ := hn.reinsert (key := t.table.val i) (id := t.ids.val i)
        hkey' (by omega) h0 (by
          rw [hM]; exact lookTo_fresh h.lp.inj hiC ho) (by omega)
      simp only [h1, R.bind_ok]
      refine ih (i + 1) n' (by omega) h2 (by rw [h3, hc]) ?_ ?_
      · rw [h4, hu, cnt, ho]; rfl
      · intro k
        rw [h6, hM, lookTo_step h.lp.inj hiC ho]

theorem Inv.expandSelf_post (hf : FactorOK cfg.minCapaBits cfg.maxFactor) (h : Inv cfg sb t) :
    Post (Poplar.maxSize (2 ^ (63 - sb)) cfg.maxFactor ≤ t.maxSize) (expandSelf cfg t) (fun t' =>
      Inv cfg sb t' ∧ t'.size = t.size ∧ t'.capa.bits = t.capa.bits + 1 ∧ (∀ k, t'.M k = t.M k) ∧
      t'.size < t'.maxSize) := by
  have hw := h.width_lt
  have hC := hf.at _ h.minc
  have hmc := h.minc
  have hmax : max cfg.minCapaBits (t.capa.bits + 1) = t.capa.bits + 1 := by omega
  have hsbe : t.symb.bits = sb := by rw [h.symb]
  unfold expandSelf
  rw [hsbe]
  by_cases hlim : t.capa.bits + 1 + sb < 64
  · obtain ⟨n0, hmk, hfr, hcb⟩ := make_ok hf (capaBits := t.capa.bits + 1) (sb := sb) (by omega)
    rw [hmax] at hcb
    obtain ⟨n1, hn1⟩ : ∃ n1, n1 = { n0 with numResize := t.numResize + 1 } := ⟨_, rfl⟩
    replace hfr : Fresh cfg sb n1 := by rw [hn1]; exact hfr.setResize _
    replace hcb : n1.capa.bits = t.capa.bits + 1 := by rw [hn1]; exact hcb
    obtain ⟨n', h1, h2, h3, h4, h5⟩ := expandLoop_ok h (2 ^ t.capa.bits) 0 n1 (by omega) hfr.toCore hcb
      (by
        unfold used; rw [cnt_zero]; rfl
        intro i hi; rw [hfr.empty i hi]; rfl)
      (by intro k; rw [hfr.M_none, lookTo_zero])
    rw [hmk, h.capa_size]
    simp only [R.bind_ok, ← hn1, h1]
    have hM : ∀ k, M { n' with size := t.size } k = t.M k := h5
    have hdb := maxSize_double (2 ^ t.capa.bits) cfg.maxFactor
    have hms : n'.maxSize = Poplar.maxSize (2 * 2 ^ t.capa.bits) cfg.maxFactor := by
      rw [h2.maxs, h3, Nat.pow_succ, Nat.mul_comm]
    have hle := h.le
    have hms0 := h.maxs
    have hch : child sb { n' with size := t.size } = t.child sb := by
      funext v s; simp only [child, childOf, hM]
    refine ⟨{ capa := h2.capa, symb := h2.symb, wf := h2.wf, tsize := h2.tsize, twidth := h2.twidth, iwf := h2.iwf, isize := h2.isize, iwidth := h2.iwidth, minc := h2.minc, maxs := h2.maxs, lp := h2.lp, size := ?_, le := ?_, idr := ?_, idinj := ?_, tree := ?_, nz := ?_ }, rfl, h3, hM, ?_⟩
    · show t.size = 1 + n'.used
      rw [h4, h.size]
    · show t.size ≤ n'.maxSize
      omega
    · intro k x hk; rw [hM] at hk; exact h.idr k x hk
    · intro k k' x hk hk'; rw [hM] at hk hk'; exact h.idinj k k' x hk hk'
    · rw [hch]; exact h.tree
    · intro hd; rw [hM]; exact h.nz hd
    · show t.size < n'.maxSize
      omega
  · obtain ⟨e, he, hk⟩ := make_fail (cfg := cfg) (capaBits := t.capa.bits + 1) (sb := sb) (by omega)
    simp only [he]
    refine ⟨?_, hk⟩
    rw [h.maxs]
    exact maxSize_mono (Nat.pow_le_pow_right (by decide) (by omega))

theorem Inv.child_bound (h : Inv cfg sb t) {v s i : Nat} (hc : t.child sb v s = some i) :
    1 ≤ i ∧ i < t.size ∧ s < 2 ^ sb ∧ t.M (v * 2 ^ sb + s) = some i := by
  rw [child, childOf_some] at hc
  have := h.idr _ _ hc.2
  exact ⟨this.1, this.2, hc.1, hc.2⟩

theorem Inv.T_bound (h : Inv cfg sb t) {p : List Nat} {v : Nat}
    (hp : tpath (some 0) (t.child sb) p = some v) : v < t.size := by
  cases p with
  | nil =>
    simp only [tpath, Option.some.injEq] at hp
    have := h.size
    omega
  | cons s p =>
    rw [tpath, Option.bind_eq_some_iff] at hp
    obtain ⟨w, _, hw⟩ := hp
    exact (h.child_bound hw).2.1

theorem Inv.size_lt (hf : FactorOK cfg.minCapaBits cfg.maxFactor) (h : Inv cfg sb t) : t.size < 2 ^ t.capa.bits := by
  have hC := hf.at _ h.minc
  have := h.le
  rw [h.maxs] at this
  omega

theorem Inv.key_eq' (hf : FactorOK cfg.minCapaBits cfg.maxFactor) (h : Inv cfg sb t) {v s : Nat} (hv : v < t.size)
    (hs : s < 2 ^ sb) : t.makeKey v s = v * 2 ^ sb + s := by
  unfold makeKey
  have hb : t.symb.bits = sb := by rw [h.symb]
  rw [hb]
  exact key_eq (Nat.lt_trans hv (h.size_lt hf)) hs h.width_lt

/-- the probing part of `add_child` -/
theorem Inv.addProbe (hf : FactorOK cfg.minCapaBits cfg.maxFactor) (h : Inv cfg sb t)
    {p : List Nat} {v s : Nat} (hp : tpath (some 0) (t.child sb) p = some v)
    (hs : s < 2 ^ sb) (hlt : t.size < t.maxSize) (hz : cfg.dbg = false ∨ s :: p ≠ [0]) :
    ∃ t' i b, (do
        R.assert (!cfg.dbg || v * 2 ^ sb + s ≠ 0)
        probe t.capa.mask (t.addBody (v * 2 ^ sb + s)) t.capa.size (cfg.hash (v * 2 ^ sb + s) &&& t.capa.mask) 0)
        = .ok (t', i, b) ∧ Inv cfg sb t' ∧ t'.capa = t.capa ∧ b = (t.child sb v s).isNone ∧
      t'.size = t.size + (if b then 1 else 0) ∧ (b = true → i = t.size) ∧
      (∀ j, t.child sb v s = some j → i = j) ∧
      ∀ q, tpath (some 0) (t'.child sb) q = if q = s :: p then some i else tpath (some 0) (t.child sb) q := by
  have hv := h.T_bound hp
  have hvC := Nat.lt_trans hv (h.size_lt hf)
  have hmask : t.capa.mask = 2 ^ t.capa.bits - 1 := by rw [h.capa]
  have hchs : t.child sb v s = t.M (v * 2 ^ sb + s) := by simp only [child, childOf, if_pos hs]
  have hpath : tpath (some 0) (t.child sb) (s :: p) = t.child sb v s := by rw [tpath, hp]; rfl
  have hne : (!cfg.dbg || decide (v * 2 ^ sb + s ≠ 0)) = true := by
    rcases hz with hz | hz
    · rw [hz]; rfl
    · have : v * 2 ^ sb + s ≠ 0 := by
        intro e
        have he : v * 2 ^ sb + s = 0 * 2 ^ sb + 0 := by rw [e]; simp
        obtain ⟨h1, h2⟩ := key_inj hs (Nat.two_pow_pos sb) he
        subst h2; subst h1
        have := h.tree.tpath_inj p [] 0 hp rfl
        subst this; exact hz rfl
      rw [decide_eq_true this, Bool.or_true]
  rw [h.capa_size, hmask, and_mask]
  simp only [R.assert_of hne, R.bind_ok]
  have hC := hf.at _ h.minc
  have hms := h.maxs
  have hskip : ∀ u, (∀ s' < u, nores ((cfg.hash (v * 2 ^ sb + s) + s') % 2 ^ t.capa.bits) = true ∨
      (nores ((cfg.hash (v * 2 ^ sb + s) + s') % 2 ^ t.capa.bits) = false ∧ ∃ k', k' ≠ v * 2 ^ sb + s ∧ t.occ ((cfg.hash (v * 2 ^ sb + s) + s') % 2 ^ t.capa.bits) = some k')) →
      ∀ s' < u, t.addBody (v * 2 ^ sb + s) ((cfg.hash (v * 2 ^ sb + s) + s') % 2 ^ t.capa.bits) (0 + s') = .ok none := by
    intro u hu s' hs'
    rcases hu s' hs' with h1 | ⟨_, k', hk, ho⟩
    · simp [nores] at h1
    · obtain ⟨h1, h2⟩ := h.occ_some.mp ho
      unfold addBody
      simp only [h.get_id (h.mod_lt _), h.get_key (h.mod_lt _), R.bind_ok]
      rw [if_neg h1, if_neg (by rw [h2]; exact hk)]; rfl
  cases h.lp.probe (v * 2 ^ sb + s) with
  | found u hu ho hr hsk =>
    have hM : t.M (v * 2 ^ sb + s) = some (t.ids.val ((cfg.hash (v * 2 ^ sb + s) + u) % 2 ^ t.capa.bits)) :=
      lookv_eq h.lp.inj (h.mod_lt _) ho
    obtain ⟨h1, h2⟩ := h.occ_some.mp ho
    refine ⟨t, t.ids.val ((cfg.hash (v * 2 ^ sb + s) + u) % 2 ^ t.capa.bits), false, probe_ok (hskip u hsk) ?_ hu, h, rfl, by rw [hchs, hM]; rfl, rfl, by simp, ?_, ?_⟩
    · unfold addBody
      simp only [h.get_id (h.mod_lt _), h.get_key (h.mod_lt _), R.bind_ok]
      rw [if_neg h1, if_pos h2]; rfl
    · intro j hj; rw [hchs, hM] at hj; injection hj
    · intro q
      split
      · rename_i e; rw [e, hpath, hchs, hM]
      · rfl
  | absent u hu ho hr hsk ha =>
    have hMn : t.M (v * 2 ^ sb + s) = none := lookv_none.mpr ha
    have hsz := h.size
    have hsz0 : t.size ≠ 0 := by omega
    obtain ⟨tb, is, h1, h2, h3, h4, h5⟩ := h.write (id := t.size) (key_lt hvC hs) (h.size_lt hf) hsz0 hu ho hsk ha (by omega) (t.size + 1)
    have hT := h.tree.add (child' := child sb { t with table := tb, ids := is, size := t.size + 1 }) (i := t.size) hp (by rw [hchs, hMn]) (by
        intro v' s' hcc
        have := (h.child_bound hcc).2.1
        omega) (by omega) (childOf_add hs h5)
    refine ⟨{ t with table := tb, ids := is, size := t.size + 1 }, t.size, true, probe_ok (t := u) (hskip u hsk) ?_ hu, ?_, rfl, by rw [hchs, hMn]; rfl, rfl, by simp, by intro j hj; rw [hchs, hMn] at hj; simp at hj, hT.2⟩
    · unfold addBody
      simp only [h.get_id (h.mod_lt _), R.bind_ok, if_pos (h.occ_none.mp ho), R.assert_dec hsz0, h1, h2]; rfl
    · refine { toCore := h3, size := ?_, le := ?_, idr := ?_, idinj := ?_, tree := hT.1, nz := ?_ }
      · show t.size + 1 = _
        rw [h4]; omega
      · show t.size + 1 ≤ t.maxSize
        omega
      · intro k x hk
        rw [h5] at hk
        show 1 ≤ x ∧ x < t.size + 1
        split at hk
        · injection hk with hk; omega
        · have := h.idr k x hk; omega
      · intro k k' x hk hk'
        rw [h5] at hk hk'
        split at hk <;> split at hk'
        · omega
        · injection hk with hk; have := h.idr k' x hk'; omega
        · injection hk' with hk'; have := h.idr k x hk; omega
        · exact h.idinj k k' x hk hk'
      · intro hd
        rw [h5]
        rw [hd] at hne
        simp only [Bool.not_true, Bool.false_or, decide_eq_true_eq] at hne
        rw [if_neg (fun e => hne e.symm)]
        exact h.nz hd

theorem Inv.add_post (hf : FactorOK cfg.minCapaBits cfg.maxFactor) (h : Inv cfg sb t)
    {p : List Nat} {v s : Nat} (hp : tpath (some 0) (t.child sb) p = some v)
    (hs : s < 2 ^ sb) (hz : cfg.dbg = false ∨ s :: p ≠ [0]) :
    Post (Poplar.maxSize (2 ^ (63 - sb)) cfg.maxFactor ≤ t.size) (addChild cfg t v s) (fun x =>
      Inv cfg sb x.1 ∧ x.2.2 = (t.child sb v s).isNone ∧
      x.1.size = t.size + (if x.2.2 then 1 else 0) ∧ (x.2.2 = true → x.2.1 = t.size) ∧
      (∀ j, t.child sb v s = some j → x.2.1 = j) ∧
      (x.1.capa = t.capa ∨ (t.maxSize ≤ t.size ∧ x.1.capa.bits = t.capa.bits + 1)) ∧
      ∀ q, tpath (some 0) (x.1.child sb) q = if q = s :: p then some x.2.1 else tpath (some 0) (t.child sb) q) := by
  have hv := h.T_bound hp
  have hvC := Nat.lt_trans hv (h.size_lt hf)
  unfold addChild
  rw [h.capa_size, h.symb_size]
  simp only [R.assert_dec hvC, R.assert_dec hs, R.bind_ok]
  by_cases hfull : t.maxSize ≤ t.size
  · rw [if_pos hfull]
    refine Post.bind ((h.expandSelf_post hf).mono (fun hl => by omega) (fun a _ x => x)) ?_
    rintro t1 _ ⟨hI, hsz, hcb, hM, hlt⟩
    have hch : t1.child sb = t.child sb := by funext a b; simp only [child, childOf, hM]
    obtain ⟨t', i, b, h1, h2, h3, h4, h5, h6, h7, h8⟩ := hI.addProbe hf (p := p) (v := v) (by rw [hch]; exact hp) hs hlt hz
    rw [hI.key_eq' hf (by omega) hs, h1]
    rw [hch] at h4 h7 h8
    rw [hsz] at h5 h6
    exact ⟨h2, h4, h5, h6, h7, Or.inr ⟨hfull, by simp only; rw [h3, hcb]⟩, h8⟩
  · rw [if_neg hfull]
    simp only [R.pure_eq, R.bind_ok]
    obtain ⟨t', i, b, h1, h2, h3, h4, h5, h6, h7, h8⟩ := h.addProbe hf hp hs (by omega) hz
    rw [h.key_eq' hf hv hs, h1]
    exact ⟨h2, h4, h5, h6, h7, Or.inl h3, h8⟩

/-- `plain_fkhash_trie` satisfies the trie contract -/
def spec (cfg : PlainFkCfg) (hf : FactorOK cfg.minCapaBits cfg.maxFactor) (sb : Nat) :
    TrieSpec (ops cfg) sb (Poplar.maxSize (2 ^ (63 - sb)) cfg.maxFactor) (cfg.dbg = false) where
  minb := cfg.minCapaBits
  mf := cfg.maxFactor
  cb0 := 0
  make_ok := by
    intro cb _ h
    obtain ⟨t, h1, h2, h3⟩ := make_ok hf h
    exact ⟨t, h1, h2, h3⟩
  make_fail := fun cb h => make_fail h
  capa := by
    intro t h
    rcases h with h | h
    · exact ⟨h.minc, by have := h.width_lt; simp only [ops]; omega, h.capa_size, by simp only [ops, h.size]; omega⟩
    · exact ⟨h.minc, by have := h.width_lt; simp only [ops]; omega, h.capa_size, by simp only [ops]; rw [← h.maxs]; exact h.le⟩
  Fresh := Fresh cfg sb
  Inv := Inv cfg sb
  T := fun t => tpath (some 0) (t.child sb)
  fresh_size := fun t h => h.size
  fresh_root := by
    intro t h
    obtain ⟨t', h1, h2, h3, h4, h5⟩ := h.addRoot hf
    exact ⟨t', 0, h1, h2, h2.root, (Tree.empty h5).2, h3, rfl, by simp only [ops, h4], fun _ => rfl⟩
  inv_root := fun t h => ⟨0, h.root, rfl⟩
  inv_size := by intro t h; simp only [ops]; rw [h.size]; omega
  T_inj := fun t h => h.tree.tpath_inj
  T_prefix := by
    intro t _ s p i hp
    rw [tpath, Option.bind_eq_some_iff] at hp
    obtain ⟨v, hv, _⟩ := hp
    exact ⟨v, hv⟩
  T_bound := by
    intro t h p i hp
    have h1 := h.T_bound hp
    have h2 := h.size_lt hf
    refine ⟨by simp only [ops, h.capa_size]; omega, ?_⟩
    have : 2 ^ t.capa.bits ≤ 2 ^ 63 := Nat.pow_le_pow_right (by decide) (by have := h.width_lt; omega)
    unfold u64max; omega
  T_bound_fk := by
    intro _ t h p i hp
    exact h.T_bound hp
  find := by
    intro t h p v s hp hs
    have hv := h.T_bound hp
    have hvC := Nat.lt_trans hv (h.size_lt hf)
    have hsz : ¬ t.size = 0 := by rw [h.size]; omega
    simp only [ops, findChild]
    rw [h.capa_size, h.symb_size]
    simp only [R.assert_dec hvC, R.assert_dec hs, R.bind_ok, if_neg hsz]
    rw [← h.capa_size, h.key_eq' hf hv hs, h.find_ok]
    simp only [tpath, hp, Option.bind_some, child, childOf, if_pos hs]
  add := by
    intro t h _ p v s hp hs hz
    have hch : tpath (some 0) (t.child sb) (s :: p) = t.child sb v s := by rw [tpath, hp]; rfl
    refine (h.add_post hf hp hs hz).imp ?_
    rintro ⟨t', i, b⟩ ⟨h2, h4, h5, h6, h7, h9, h8⟩
    rw [hch]
    refine ⟨h2, h4, h8, h7, h5, ?_, by simp [ops], fun _ => h6⟩
    simp only [ops]
    simp only at h2 h5 h9
    unfold TrieOps.Grow TrieOps.Needed
    simp only
    rw [h.capa_size, h2.capa_size]
    rcases h9 with h9 | ⟨h9', h9⟩
    · rw [h9]; exact ⟨Nat.le_refl _, by omega, Or.inl rfl⟩
    · refine ⟨Nat.pow_le_pow_right (by decide) (by omega), by omega, Or.inr ⟨2 ^ t.capa.bits, by rw [h9, Nat.pow_succ, Nat.mul_comm], Nat.le_refl _, ?_⟩⟩
      rw [← h.maxs]; omega
  needs := by intro h; simp [ops] at h
  expand := by intro h; simp [ops] at h
  expandAny := by intro h; simp [ops] at h

end Poplar.PlainFk
