import Verif.Model.StandardHashTable
import Verif.Proof.HashCommon
/-
  `standard_hash_table` is a finite map, for every hash function.
-/
namespace Poplar.Sht
open Poplar

def slot (t : Sht) (i : Nat) : Nat × Nat := t.table.getD i (u64max, 0)

def occ (t : Sht) (i : Nat) : Option Nat := if (t.slot i).1 = u64max then none else some (t.slot i).1

def nores (_ : Nat) : Bool := false

/-- the finite map held by the table -/
def M (t : Sht) (k : Nat) : Option Nat := lookv (2 ^ t.capa.bits) t.occ (fun i => (t.slot i).2) k

def used (t : Sht) : Nat := cnt (fun i => (t.occ i).isSome) (2 ^ t.capa.bits)

structure Core (cfg : ShtCfg) (t : Sht) : Prop where
  capa : t.capa = { bits := t.capa.bits, mask := 2 ^ t.capa.bits - 1 }
  bits : t.capa.bits < 64
  tsize : t.table.size = 2 ^ t.capa.bits
  minc : cfg.minCapaBits ≤ t.capa.bits
  maxs : t.maxSize = Poplar.maxSize (2 ^ t.capa.bits) cfg.maxFactor
  lp : LP.Inv (2 ^ t.capa.bits) cfg.hash nores t.occ

/-- reachable tables -/
def Inv (cfg : ShtCfg) (t : Sht) : Prop :=
  t = {} ∨ (Core cfg t ∧ t.size = t.used ∧ t.size ≤ t.maxSize)

variable {cfg : ShtCfg} {t : Sht}

theorem Core.capa_size (h : Core cfg t) : t.capa.size = 2 ^ t.capa.bits := by
  rw [h.capa]; simp only [SizeP2.size]; have := Nat.two_pow_pos t.capa.bits; omega

theorem Core.mask (h : Core cfg t) : t.capa.mask = 2 ^ t.capa.bits - 1 := by rw [h.capa]

theorem Core.mod_lt (_ : Core cfg t) (x : Nat) : x % 2 ^ t.capa.bits < 2 ^ t.capa.bits :=
  Nat.mod_lt _ (Nat.two_pow_pos _)

theorem Core.ne_empty (h : Core cfg t) : t.table.size ≠ 0 := by
  rw [h.tsize]; have := Nat.two_pow_pos t.capa.bits; omega

theorem Core.rd (h : Core cfg t) {i : Nat} (hi : i < 2 ^ t.capa.bits) : Poplar.rd t.table i = .ok (t.slot i) := by
  rw [rd_of_lt (by rw [h.tsize]; exact hi)]
  simp [slot, Array.getD, h.tsize, hi]

theorem occ_none {i : Nat} : t.occ i = none ↔ (t.slot i).1 = u64max := by
  unfold occ; split <;> simp_all

theorem occ_some {i k : Nat} : t.occ i = some k ↔ (t.slot i).1 ≠ u64max ∧ (t.slot i).1 = k := by
  unfold occ; split <;> simp_all

theorem make_ok {capaBits : Nat} (h : max cfg.minCapaBits capaBits < 64) :
    ∃ t, make cfg capaBits = .ok t ∧ Core cfg t ∧ t.capa.bits = max cfg.minCapaBits capaBits ∧ t.size = 0 ∧
      (∀ i, t.occ i = none) := by
  have hz : 2 ^ (max cfg.minCapaBits capaBits) - 1 + 1 = 2 ^ (max cfg.minCapaBits capaBits) := by
    have := Nat.two_pow_pos (max cfg.minCapaBits capaBits); omega
  refine ⟨_, by simp only [make, SizeP2.make_ok h, R.bind_ok, SizeP2.size, hz, R.pure_eq]; rfl, ?_, rfl, rfl, ?_⟩
  · have hocc : ∀ i < 2 ^ (max cfg.minCapaBits capaBits), occ { table := Array.replicate (2 ^ (max cfg.minCapaBits capaBits)) (u64max, 0), size := 0, maxSize := Poplar.maxSize (2 ^ (max cfg.minCapaBits capaBits)) cfg.maxFactor, capa := { bits := max cfg.minCapaBits capaBits, mask := 2 ^ (max cfg.minCapaBits capaBits) - 1 } } i = none := by
      intro i hi
      simp [occ, slot, Array.getD, hi]
    exact { capa := rfl, bits := h, tsize := by simp, minc := Nat.le_max_left _ _, maxs := rfl, lp := LP.Inv.congr hocc (LP.Inv.empty (Nat.two_pow_pos _) ⟨0, Nat.two_pow_pos _, rfl⟩) }
  · intro i
    by_cases hi : i < 2 ^ (max cfg.minCapaBits capaBits) <;> simp [occ, slot, Array.getD, hi]

theorem M_none_of_empty (h : ∀ i, t.occ i = none) (k : Nat) : t.M k = none := by
  rw [M, lookv_none]; intro i hi; rw [h i]; simp

theorem used_of_empty (h : ∀ i, t.occ i = none) : t.used = 0 := by
  unfold used; rw [cnt_zero]; intro i _; rw [h i]; rfl

theorem occ_default (i : Nat) : occ {} i = none := by simp [occ, slot]

theorem Core.getBody_eq (h : Core cfg t) {key i c : Nat} (hi : i < 2 ^ t.capa.bits) :
    t.getBody key i c = .ok (if (t.slot i).1 = u64max then some u64max
      else if (t.slot i).1 = key then some (t.slot i).2 else none) := by
  unfold getBody
  rw [h.rd hi]
  simp only [R.bind_ok]
  split
  · rfl
  · split <;> rfl

theorem Core.get_ok (h : Core cfg t) {key : Nat} :
    get cfg t key = .ok ((t.M key).getD u64max) := by
  unfold get
  rw [if_neg h.ne_empty, h.capa_size, h.mask, and_mask]
  have hskip : ∀ u, (∀ s < u, nores ((cfg.hash key + s) % 2 ^ t.capa.bits) = true ∨
      (nores ((cfg.hash key + s) % 2 ^ t.capa.bits) = false ∧ ∃ k', k' ≠ key ∧ t.occ ((cfg.hash key + s) % 2 ^ t.capa.bits) = some k')) →
      ∀ s < u, t.getBody key ((cfg.hash key + s) % 2 ^ t.capa.bits) (0 + s) = .ok none := by
    intro u hu s hs
    rcases hu s hs with h1 | ⟨_, k', hk, ho⟩
    · simp [nores] at h1
    · obtain ⟨h1, h2⟩ := occ_some.mp ho
      rw [h.getBody_eq (h.mod_lt _), if_neg h1, if_neg (by rw [h2]; exact hk)]
  cases h.lp.probe key with
  | found u hu ho hr hsk =>
    refine probe_ok (hskip u hsk) ?_ hu
    rw [M, lookv_eq h.lp.inj (h.mod_lt _) ho]
    obtain ⟨h1, h2⟩ := occ_some.mp ho
    rw [h.getBody_eq (h.mod_lt _), if_neg h1, if_pos h2]; rfl
  | absent u hu ho hr hsk ha =>
    refine probe_ok (hskip u hsk) ?_ hu
    rw [M, lookv_none.mpr ha]
    rw [h.getBody_eq (h.mod_lt _), if_pos (occ_none.mp ho)]; rfl

theorem slot_set {t : Sht} {i j n : Nat} {x : Nat × Nat} (hi : i < t.table.size) :
    slot { t with table := t.table.setIfInBounds i x, size := n } j = if j = i then x else t.slot j := by
  simp only [slot, Array.getD_eq_getD_getElem?, Array.getElem?_setIfInBounds]
  by_cases h : i = j
  · subst h; simp [hi]
  · have : j ≠ i := fun e => h e.symm
    simp [h, this]

theorem Core.setBody_eq (h : Core cfg t) {key val i c : Nat} (hi : i < 2 ^ t.capa.bits) :
    t.setBody key val i c = .ok (if (t.slot i).1 = u64max then
        some ({ t with table := t.table.setIfInBounds i (key, val), size := t.size + 1 }, true)
      else if (t.slot i).1 = key then
        some ({ t with table := t.table.setIfInBounds i ((t.slot i).1, val) }, false) else none) := by
  unfold setBody
  rw [h.rd hi]
  have hw : ∀ x, wr t.table i x = .ok (t.table.setIfInBounds i x) := fun x => wr_of_lt (by rw [h.tsize]; exact hi)
  simp only [R.bind_ok, hw]
  split
  · rfl
  · split <;> rfl

theorem Core.setLoop_ok (h : Core cfg t) {key val : Nat} (hk : key ≠ u64max) (hroom : t.used + 1 < 2 ^ t.capa.bits) :
    ∃ t', setLoop cfg t key val = .ok (t', (t.M key).isNone) ∧ Core cfg t' ∧ t'.capa = t.capa ∧
      t'.used = t.used + (if (t.M key).isNone then 1 else 0) ∧
      t'.size = t.size + (if (t.M key).isNone then 1 else 0) ∧
      ∀ k, t'.M k = if k = key then some val else t.M k := by
  unfold setLoop
  rw [h.capa_size, h.mask, and_mask]
  have hskip : ∀ u, (∀ s < u, nores ((cfg.hash key + s) % 2 ^ t.capa.bits) = true ∨
      (nores ((cfg.hash key + s) % 2 ^ t.capa.bits) = false ∧ ∃ k', k' ≠ key ∧ t.occ ((cfg.hash key + s) % 2 ^ t.capa.bits) = some k')) →
      ∀ s < u, t.setBody key val ((cfg.hash key + s) % 2 ^ t.capa.bits) (0 + s) = .ok none := by
    intro u hu s hs
    rcases hu s hs with h1 | ⟨_, k', hk, ho⟩
    · simp [nores] at h1
    · obtain ⟨h1, h2⟩ := occ_some.mp ho
      rw [h.setBody_eq (h.mod_lt _), if_neg h1, if_neg (by rw [h2]; exact hk)]
  cases h.lp.probe key with
  | found u hu ho hr hsk =>
    obtain ⟨h1, h2⟩ := occ_some.mp ho
    have hM : t.M key = some (t.slot ((cfg.hash key + u) % 2 ^ t.capa.bits)).2 := lookv_eq h.lp.inj (h.mod_lt _) ho
    have hi := h.mod_lt (cfg.hash key + u)
    have hbody := h.setBody_eq (key := key) (val := val) (c := 0 + u) hi
    have hp := probe_ok (fuel := 2 ^ t.capa.bits) (hskip u hsk) (by rw [hbody, if_neg h1, if_pos h2]) hu
    refine ⟨_, by rw [hp, hM]; rfl, ?_⟩
    generalize (cfg.hash key + u) % 2 ^ t.capa.bits = i at *
    have hslot : ∀ j, slot { t with table := t.table.setIfInBounds i ((t.slot i).1, val) } j = if j = i then ((t.slot i).1, val) else t.slot j :=
      fun j => slot_set (n := t.size) (by rw [h.tsize]; exact hi)
    have hocc : ∀ j, occ { t with table := t.table.setIfInBounds i ((t.slot i).1, val) } j = t.occ j := by
      intro j
      simp only [occ, hslot]
      by_cases e : j = i
      · subst e; simp
      · simp [e]
    refine ⟨{ capa := h.capa, bits := h.bits, tsize := by simpa using h.tsize, minc := h.minc, maxs := h.maxs, lp := LP.Inv.congr (fun j _ => hocc j) h.lp }, rfl, ?_, ?_, ?_⟩
    · rw [hM]
      show cnt _ _ = cnt _ _ + 0
      exact cnt_congr (fun j _ => by rw [hocc])
    · rw [hM]; rfl
    · refine lookv_overwrite h.lp.inj hi ho (fun j _ => hocc j) ?_
      intro j _
      rw [hslot]; split <;> rfl
  | absent u hu ho hr hsk ha =>
    have h1 := occ_none.mp ho
    have hM : t.M key = none := lookv_none.mpr ha
    have hi := h.mod_lt (cfg.hash key + u)
    have hbody := h.setBody_eq (key := key) (val := val) (c := 0 + u) hi
    have hp := probe_ok (fuel := 2 ^ t.capa.bits) (hskip u hsk) (by rw [hbody, if_pos h1]) hu
    have hroom' := LP.room_of_count (C := 2 ^ t.capa.bits) (res := nores) (occ := t.occ) ((cfg.hash key + u) % 2 ^ t.capa.bits) (by
      rw [cnt_zero (p := nores) (fun _ _ => rfl)]; unfold used at hroom; omega)
    have hins := h.lp.insert rfl hu hsk ha hroom'
    refine ⟨_, by rw [hp, hM]; rfl, ?_⟩
    generalize (cfg.hash key + u) % 2 ^ t.capa.bits = i at *
    have hslot : ∀ j, slot { t with table := t.table.setIfInBounds i (key, val), size := t.size + 1 } j = if j = i then (key, val) else t.slot j :=
      fun j => slot_set (by rw [h.tsize]; exact hi)
    have hocc : ∀ j, occ { t with table := t.table.setIfInBounds i (key, val), size := t.size + 1 } j = if j = i then some key else t.occ j := by
      intro j
      simp only [occ, hslot]
      by_cases e : j = i
      · simp [e, hk]
      · simp [e]
    refine ⟨{ capa := h.capa, bits := h.bits, tsize := by simpa using h.tsize, minc := h.minc, maxs := h.maxs, lp := LP.Inv.congr (fun j _ => hocc j) hins }, rfl, ?_, ?_, ?_⟩
    · rw [hM]
      show cnt _ _ = cnt _ _ + 1
      apply cnt_set hi
      · simp [ho]
      · simp [hocc]
      · intro j hj hji; simp [hocc, hji]
    · rw [hM]; rfl
    · refine lookv_insert h.lp.inj hi ho ha (fun j _ => hocc j) ?_
      intro j _
      rw [hslot]; split <;> rfl

/-- a call of `set` that does not need to expand -/
theorem Core.setF_simple (h : Core cfg t) {f key val : Nat} (hlt : t.size < t.maxSize) :
    setF cfg (f + 1) t key val = setLoop cfg t key val := by
  simp only [setF, lazyInit, if_neg h.ne_empty, ensure, if_neg (show ¬ t.maxSize ≤ t.size by omega), R.bind_ok]

/-- the compile-time parameters of `standard_hash_table`: the `static_assert` of line 34, and `min_capa_bits` (6 in the code) -/
def Factor (cfg : ShtCfg) : Prop := 0 < cfg.maxFactor ∧ cfg.maxFactor < 100 ∧ 6 ≤ cfg.minCapaBits

theorem Factor.at (hf : Factor cfg) (cb : Nat) (h : cfg.minCapaBits ≤ cb) :
    Poplar.maxSize (2 ^ cb) cfg.maxFactor + 1 ≤ 2 ^ cb ∧
      Poplar.maxSize (2 ^ cb) cfg.maxFactor < Poplar.maxSize (2 * 2 ^ cb) cfg.maxFactor := by
  obtain ⟨h1, h2, h3⟩ := hf
  have h64 : 2 ^ 6 ≤ 2 ^ cb := Nat.pow_le_pow_right (by decide) (by omega)
  have hd := (maxSize_double (2 ^ cb) cfg.maxFactor).1
  refine ⟨?_, ?_⟩
  · unfold Poplar.maxSize
    have : 2 ^ cb * cfg.maxFactor ≤ 2 ^ cb * 99 := Nat.mul_le_mul_left _ (by omega)
    omega
  · by_cases h0 : Poplar.maxSize (2 ^ cb) cfg.maxFactor = 0
    · rw [h0]
      unfold Poplar.maxSize
      have : 2 * 2 ^ cb * 1 ≤ 2 * 2 ^ cb * cfg.maxFactor := Nat.mul_le_mul_left _ h1
      omega
    · omega

theorem expandLoop_ok (hf : Factor cfg) (h : Core cfg t) {f : Nat} :
    ∀ (c i : Nat) (n : Sht), i + c = 2 ^ t.capa.bits → Core cfg n →
      n.capa.bits = t.capa.bits + 1 → t.used < n.maxSize →
      n.used = cnt (fun i => (t.occ i).isSome) i → n.size = n.used →
      (∀ k, n.M k = lookTo (2 ^ t.capa.bits) t.occ (fun i => (t.slot i).2) i k) →
      ∃ n', expandLoop (setF cfg (f + 1)) (t.table.toList.drop i) n = .ok n' ∧ Core cfg n' ∧ n'.capa.bits = t.capa.bits + 1 ∧
        n'.used = t.used ∧ n'.size = n'.used ∧ ∀ k, n'.M k = t.M k := by
  intro c
  induction c with
  | zero =>
    intro i n hi hn hc hmax hu hsz hM
    have : i = 2 ^ t.capa.bits := by omega
    subst this
    rw [List.drop_of_length_le (by simp [h.tsize])]
    exact ⟨n, rfl, hn, hc, hu, hsz, fun k => by rw [hM, lookTo_all]; rfl⟩
  | succ c ih =>
    intro i n hi hn hc hmax hu hsz hM
    have hiC : i < 2 ^ t.capa.bits := by omega
    have hget : t.table.toList.drop i = t.slot i :: t.table.toList.drop (i + 1) := by
      rw [List.drop_eq_getElem_cons (by simpa [h.tsize] using hiC)]
      simp [slot, Array.getD, h.tsize, hiC]
    rw [hget]
    simp only [expandLoop]
    by_cases h0 : (t.slot i).1 = u64max
    · rw [if_neg (by simpa using h0)]
      have ho := occ_none.mpr h0
      refine ih (i + 1) n (by omega) hn hc hmax ?_ hsz ?_
      · rw [cnt, hu, ho]; rfl
      · intro k; rw [hM, lookTo_skip ho]
    · rw [if_pos (by simpa using h0)]
      have ho : t.occ i = some (t.slot i).1 := occ_some.mpr ⟨h0, rfl⟩
      have hMn : n.M (t.slot i).1 = none := by rw [hM]; exact lookTo_fresh h.lp.inj hiC ho
      have hlt : n.used < t.used := by
        rw [hu]
        have h1 : cnt (fun i => (t.occ i).isSome) (i + 1) ≤ t.used := by
          unfold used
          have : ∀ d, cnt (fun i => (t.occ i).isSome) (i + 1) ≤ cnt (fun i => (t.occ i).isSome) (i + 1 + d) := by
            intro d
            induction d with
            | zero => exact Nat.le_refl _
            | succ d ih =>
              show _ ≤ cnt (fun i => (t.occ i).isSome) (i + 1 + d) + _
              omega
          have := this c
          rwa [show i + 1 + c = 2 ^ t.capa.bits by omega] at this
        rw [cnt, ho] at h1
        simp at h1; omega
      rw [hn.setF_simple (by omega)]
      have hnm := hf.at _ hn.minc
      rw [← hn.maxs] at hnm
      obtain ⟨n', h1, h2, h3, h4, h5, h6⟩ := hn.setLoop_ok (val := (t.slot i).2) h0 (by omega)
      rw [h1, hMn] at *
      simp only [R.bind_ok]
      refine ih (i + 1) n' (by omega) h2 (by rw [h3, hc]) (by rw [h2.maxs, h3, ← hn.maxs]; exact hmax) ?_ ?_ ?_
      · rw [h4, hu, cnt, ho]; rfl
      · rw [h4, h5, hsz]
      · intro k
        rw [h6, hM, lookTo_step h.lp.inj hiC ho]

/-- the part of `set` before the loop -/
theorem Inv.ensured (hf : Factor cfg) (h63 : cfg.minCapaBits < 64) (h : Inv cfg t) :
    Post (Poplar.maxSize (2 ^ 63) cfg.maxFactor ≤ t.size) (lazyInit cfg t >>= fun t => ensure (setF cfg 64) cfg t) (fun t1 =>
      Core cfg t1 ∧ t1.size = t1.used ∧ t1.size < t1.maxSize ∧ (∀ k, t1.M k = t.M k) ∧ t1.size = t.size) := by
  have key' : ∀ (t0 : Sht), Core cfg t0 → t0.size = t0.used → t0.size ≤ t0.maxSize →
      (∀ k, t0.M k = t.M k) → t0.size = t.size →
      Post (Poplar.maxSize (2 ^ 63) cfg.maxFactor ≤ t.size) (ensure (setF cfg 64) cfg t0) (fun t1 =>
      Core cfg t1 ∧ t1.size = t1.used ∧ t1.size < t1.maxSize ∧ (∀ k, t1.M k = t.M k) ∧ t1.size = t.size) := by
    intro t0 hc hu hle hM0 hs0
    unfold ensure
    by_cases hfull : t0.maxSize ≤ t0.size
    · rw [if_pos hfull]
      unfold expand
      by_cases hlim : t0.capa.bits + 1 < 64
      · have hmc := hc.minc
        obtain ⟨n0, hmk, hn, hnb, hnz, hne⟩ := make_ok (cfg := cfg) (capaBits := t0.capa.bits + 1) (by omega)
        rw [hmk]
        simp only [R.bind_ok]
        have hmb : n0.capa.bits = t0.capa.bits + 1 := by rw [hnb]; omega
        have hd := maxSize_double (2 ^ t0.capa.bits) cfg.maxFactor
        have hP : 2 ^ n0.capa.bits = 2 * 2 ^ t0.capa.bits := by rw [hmb, Nat.pow_succ, Nat.mul_comm]
        have hb := hf.at _ hc.minc
        rw [← hc.maxs] at hb hd
        have hm0 : t0.maxSize < n0.maxSize := by rw [hn.maxs, hP]; exact hb.2
        obtain ⟨n', e, c', hb', hu', hs', hM'⟩ := expandLoop_ok hf hc (f := 63) (2 ^ t0.capa.bits) 0 n0 (by omega) hn hmb
          (by omega) (by rw [used_of_empty hne]; rfl) (by rw [hnz, used_of_empty hne])
          (by intro k; rw [M_none_of_empty hne, lookTo_zero])
        rw [List.drop_zero] at e
        rw [e]
        simp only [R.bind_ok]
        rw [R.assert_dec (by rw [hu, hs', hu'])]
        simp only [R.bind_ok, R.pure_eq]
        have hmax' : n'.maxSize = n0.maxSize := by rw [c'.maxs, hn.maxs, hb', hmb]
        exact ⟨c', hs', by rw [hs', hu']; omega, fun k => by rw [hM', hM0], by rw [hs', hu', ← hu, hs0]⟩
      · have hbits : t0.capa.bits = 63 := by have := hc.bits; omega
        have : make cfg (t0.capa.bits + 1) = .error .limit := by
          unfold make SizeP2.make
          rw [if_neg (by omega)]; rfl
        rw [this]
        refine ⟨?_, Or.inl rfl⟩
        rw [← hs0, ← hbits, ← hc.maxs]; exact hfull
    · rw [if_neg hfull]
      exact ⟨hc, hu, by omega, hM0, hs0⟩
  rcases h with rfl | ⟨hc, hu, hle⟩
  · have : lazyInit cfg {} = make cfg cfg.minCapaBits := rfl
    rw [this]
    obtain ⟨n0, hmk, hn, hnb, hnz, hne⟩ := make_ok (cfg := cfg) (capaBits := cfg.minCapaBits) (by omega)
    rw [hmk]
    simp only [R.bind_ok]
    exact key' n0 hn (by rw [hnz, used_of_empty hne]) (by omega)
      (fun k => by rw [M_none_of_empty hne, M_none_of_empty occ_default]) hnz
  · simp only [lazyInit, if_neg hc.ne_empty, R.bind_ok]
    exact key' t hc hu hle (fun _ => rfl) rfl

theorem set_eq {key val : Nat} : set cfg t key val =
    ((lazyInit cfg t >>= fun t => ensure (setF cfg 64) cfg t) >>= fun t => setLoop cfg t key val) := by
  unfold set setF
  cases lazyInit cfg t <;> rfl

/-- `set` on a reachable table -/
theorem Inv.set_post (hf : Factor cfg) (h63 : cfg.minCapaBits < 64) (h : Inv cfg t) {key val : Nat}
    (hk : key ≠ u64max) :
    Post (Poplar.maxSize (2 ^ 63) cfg.maxFactor ≤ t.size) (set cfg t key val) (fun x =>
      Inv cfg x.1 ∧ x.2 = (t.M key).isNone ∧ x.1.size = t.size + (if x.2 then 1 else 0) ∧
      ∀ k, x.1.M k = if k = key then some val else t.M k) := by
  rw [set_eq]
  refine Post.bind (h.ensured hf h63) ?_
  rintro t1 - ⟨h1, h2, h3, h4, h5⟩
  have hb := hf.at _ h1.minc
  rw [← h1.maxs] at hb
  obtain ⟨t2, e, c2, hcap, hu2, hs2, hM2⟩ := h1.setLoop_ok (val := val) hk (by omega)
  rw [e]
  refine ⟨Or.inr ⟨c2, by rw [hs2, hu2, h2], ?_⟩, by rw [h4], ?_, ?_⟩
  · rw [c2.maxs, hcap, ← h1.maxs, hs2]; split <;> omega
  · rw [← h5]; exact hs2
  · intro k; rw [hM2, h4]

theorem M_max : t.M u64max = none := by
  rw [M, lookv_none]
  intro i _ e
  obtain ⟨a, b⟩ := occ_some.mp e
  exact a b

/-- the reserved key: `set` writes into a slot that stays empty -/
theorem Core.setLoop_max (h : Core cfg t) {val : Nat} :
    ∃ t', setLoop cfg t u64max val = .ok (t', true) ∧ Core cfg t' ∧ t'.size = t.size + 1 ∧ ∀ k, t'.M k = t.M k := by
  have hskip : ∀ u, (∀ s < u, nores ((cfg.hash u64max + s) % 2 ^ t.capa.bits) = true ∨
      (nores ((cfg.hash u64max + s) % 2 ^ t.capa.bits) = false ∧ ∃ k', k' ≠ u64max ∧ t.occ ((cfg.hash u64max + s) % 2 ^ t.capa.bits) = some k')) →
      ∀ s < u, t.setBody u64max val ((cfg.hash u64max + s) % 2 ^ t.capa.bits) (0 + s) = .ok none := by
    intro u hu s hs
    rcases hu s hs with h1 | ⟨_, k', hk, ho⟩
    · simp [nores] at h1
    · obtain ⟨h1, h2⟩ := occ_some.mp ho
      rw [h.setBody_eq (h.mod_lt _), if_neg h1, if_neg (by rw [h2]; exact hk)]
  unfold setLoop
  rw [h.capa_size, h.mask, and_mask]
  cases h.lp.probe u64max with
  | found u hu ho hr hsk =>
    obtain ⟨h1, h2⟩ := occ_some.mp ho
    exact absurd h2 h1
  | absent u hu ho hr hsk ha =>
    have h1 := occ_none.mp ho
    have hi := h.mod_lt (cfg.hash u64max + u)
    have hbody := h.setBody_eq (key := u64max) (val := val) (c := 0 + u) hi
    have hp := probe_ok (fuel := 2 ^ t.capa.bits) (hskip u hsk) (by rw [hbody, if_pos h1]) hu
    refine ⟨_, hp, ?_⟩
    generalize (cfg.hash u64max + u) % 2 ^ t.capa.bits = i at *
    have hslot : ∀ j, slot { t with table := t.table.setIfInBounds i (u64max, val), size := t.size + 1 } j = if j = i then (u64max, val) else t.slot j :=
      fun j => slot_set (by rw [h.tsize]; exact hi)
    have hocc : ∀ j, occ { t with table := t.table.setIfInBounds i (u64max, val), size := t.size + 1 } j = t.occ j := by
      intro j
      by_cases e : j = i
      · subst e; rw [ho]; simp only [occ, hslot]; simp
      · simp only [occ, hslot]; simp [e]
    refine ⟨{ capa := h.capa, bits := h.bits, tsize := by simpa using h.tsize, minc := h.minc, maxs := h.maxs, lp := LP.Inv.congr (fun j _ => hocc j) h.lp }, rfl, ?_⟩
    intro k
    refine lookv_congr h.lp.inj (fun j _ => hocc j) ?_ k
    intro j _ hj
    simp only [hslot]
    rw [if_neg]
    intro e
    rw [e, ho] at hj; simp at hj

theorem Inv.set_max (hf : Factor cfg) (h63 : cfg.minCapaBits < 64) (h : Inv cfg t) {val : Nat} :
    Post (Poplar.maxSize (2 ^ 63) cfg.maxFactor ≤ t.size) (set cfg t u64max val) (fun x =>
      Core cfg x.1 ∧ x.2 = true ∧ x.1.size = t.size + 1 ∧ ∀ k, x.1.M k = t.M k) := by
  rw [set_eq]
  refine Post.bind (h.ensured hf h63) ?_
  rintro t1 - ⟨h1, -, -, h4, h5⟩
  obtain ⟨t2, e, c2, hs, hM⟩ := h1.setLoop_max (val := val)
  rw [e]
  exact ⟨c2, rfl, by rw [hs, h5], fun k => by rw [hM, h4]⟩

theorem Inv.make {c : Nat} (h : max cfg.minCapaBits c < 64) : ∃ t, Sht.make cfg c = .ok t ∧ Inv cfg t ∧ t.size = 0 ∧ ∀ k, t.M k = none := by
  obtain ⟨t, t1, t2, t3, t4, t5⟩ := make_ok (cfg := cfg) h
  exact ⟨t, t1, Or.inr ⟨t2, by rw [t4, used_of_empty t5], by omega⟩, t4, M_none_of_empty t5⟩

theorem Inv.get_ok (h : Inv cfg t) {key : Nat} :
    get cfg t key = .ok ((t.M key).getD u64max) := by
  rcases h with rfl | ⟨hc, _, _⟩
  · rw [M_none_of_empty occ_default]; rfl
  · exact hc.get_ok

theorem Inv.default : Inv cfg {} := Or.inl rfl

theorem M_default (k : Nat) : M {} k = none := M_none_of_empty occ_default k

end Poplar.Sht
