import Verif.Proof.ChSlot
import Verif.Proof.ChItems
import Verif.Proof.TrieCommon
/-
  compact_hash_table: reading and writing slots, and the scanning loops, in terms of positions.
-/
namespace Poplar.Cht
open Poplar

structure Core (cfg : ChtCfg) (t : Cht) : Prop where
  capa : t.capa = { bits := t.capa.bits, mask := 2 ^ t.capa.bits - 1 }
  univ : t.univ = { bits := t.univ.bits, mask := 2 ^ t.univ.bits - 1 }
  quo : t.quo = { bits := t.univ.bits - t.capa.bits, mask := 2 ^ (t.univ.bits - t.capa.bits) - 1 }
  hasher : t.hasher = SplitMix.std t.univ.bits
  cu : t.capa.bits ≤ t.univ.bits
  u0 : 0 < t.univ.bits
  u64 : t.univ.bits < 64
  fit : t.univ.bits - t.capa.bits + cfg.valBits + 2 < 64
  wf : t.table.WF
  tsize : t.table.size = 2 ^ t.capa.bits
  twidth : t.table.width = t.univ.bits - t.capa.bits + cfg.valBits + 2
  shift : t.quoShift = 2 + cfg.valBits
  inv : t.quoInvmask = not64 (shl64 (2 ^ (t.univ.bits - t.capa.bits) - 1) (2 + cfg.valBits))
  minc : cfg.minCapaBits ≤ t.capa.bits
  maxs : t.maxSize = Poplar.maxSize (2 ^ t.capa.bits) cfg.maxFactor

/-- the slot at position `p` -/
def sl (cfg : ChtCfg) (t : Cht) (p : Nat) : Slot := dec cfg.valBits (t.table.val (p % 2 ^ t.capa.bits))

def vac (cfg : ChtCfg) (t : Cht) (p : Nat) : Bool := (t.sl cfg p).x == cfg.valMask

/-- everything but the table is unchanged -/
structure Eqv (t t' : Cht) : Prop where
  capa : t'.capa = t.capa
  univ : t'.univ = t.univ
  size : t'.size = t.size

theorem Eqv.refl (t : Cht) : Eqv t t := ⟨rfl, rfl, rfl⟩

theorem Eqv.trans {a b c : Cht} (h1 : Eqv a b) (h2 : Eqv b c) : Eqv a c :=
  ⟨h2.capa.trans h1.capa, h2.univ.trans h1.univ, h2.size.trans h1.size⟩

variable {cfg : ChtCfg} {t : Cht}

theorem sl_per (p : Nat) : t.sl cfg (p + 2 ^ t.capa.bits) = t.sl cfg p := by
  unfold sl; rw [Nat.add_mod_right]

theorem sl_congr {p r : Nat} (h : p % 2 ^ t.capa.bits = r % 2 ^ t.capa.bits) : t.sl cfg p = t.sl cfg r := by
  unfold sl; rw [h]

namespace Core

theorem capa_size (h : Core cfg t) : t.capa.size = 2 ^ t.capa.bits := by
  rw [h.capa]; simp only [SizeP2.size]; have := Nat.two_pow_pos t.capa.bits; omega

theorem univ_size (h : Core cfg t) : t.univ.size = 2 ^ t.univ.bits := by
  rw [h.univ]; simp only [SizeP2.size]; have := Nat.two_pow_pos t.univ.bits; omega

theorem quo_size (h : Core cfg t) : t.quo.size = 2 ^ (t.univ.bits - t.capa.bits) := by
  rw [h.quo]; simp only [SizeP2.size]; have := Nat.two_pow_pos (t.univ.bits - t.capa.bits); omega

theorem mask (h : Core cfg t) : t.capa.mask = 2 ^ t.capa.bits - 1 := by rw [h.capa]

theorem mod_lt (_ : Core cfg t) (p : Nat) : p % 2 ^ t.capa.bits < 2 ^ t.capa.bits := Nat.mod_lt _ (Nat.two_pow_pos _)

theorem word (h : Core cfg t) (p : Nat) : t.table.get (p % 2 ^ t.capa.bits) = .ok (t.table.val (p % 2 ^ t.capa.bits)) :=
  h.wf.get_ok (by rw [h.tsize]; exact h.mod_lt p)

theorem word_lt (h : Core cfg t) (p : Nat) :
    t.table.val (p % 2 ^ t.capa.bits) < 2 ^ (t.univ.bits - t.capa.bits + cfg.valBits + 2) := by
  have := h.wf.val_lt (i := p % 2 ^ t.capa.bits) (by rw [h.tsize]; exact h.mod_lt p)
  rwa [h.twidth] at this

theorem word_lt64 (h : Core cfg t) (p : Nat) : t.table.val (p % 2 ^ t.capa.bits) < 2 ^ 64 :=
  Nat.lt_trans (h.word_lt p) (Nat.pow_lt_pow_right (by decide) h.fit)

theorem getVbit (h : Core cfg t) (p : Nat) : t.getVbit (p % 2 ^ t.capa.bits) = .ok (t.sl cfg p).v := by
  unfold Cht.getVbit sl dec
  rw [h.word p]
  simp only [R.bind_ok, R.pure_eq]
  congr 1
  generalize t.table.val (p % 2 ^ t.capa.bits) = w
  rw [Bool.eq_iff_iff, beq_iff_eq]
  constructor
  · intro e
    have := congrArg (fun n => n.testBit 1) e
    simpa [Nat.testBit_and, testBit_two] using this
  · intro e
    apply Nat.eq_of_testBit_eq
    intro i
    rw [Nat.testBit_and, testBit_two]
    by_cases hi : i = 1
    · subst hi; simp [e]
    · simp [hi]

theorem getCbit (h : Core cfg t) (p : Nat) : t.getCbit (p % 2 ^ t.capa.bits) = .ok (t.sl cfg p).c := by
  unfold Cht.getCbit sl dec
  rw [h.word p]
  simp only [R.bind_ok, R.pure_eq]
  congr 1
  generalize t.table.val (p % 2 ^ t.capa.bits) = w
  rw [Bool.eq_iff_iff, beq_iff_eq]
  constructor
  · intro e
    have := congrArg (fun n => n.testBit 0) e
    simpa [Nat.testBit_and] using this
  · intro e
    apply Nat.eq_of_testBit_eq
    intro i
    rw [Nat.testBit_and, testBit_one]
    by_cases hi : i = 0
    · subst hi; simp [e]
    · simp [hi]

theorem getQuo (h : Core cfg t) (p : Nat) : t.getQuo (p % 2 ^ t.capa.bits) = .ok (t.sl cfg p).q := by
  unfold Cht.getQuo sl dec
  rw [h.word p, h.shift]; rfl

theorem getVal (h : Core cfg t) (p : Nat) : t.getVal cfg (p % 2 ^ t.capa.bits) = .ok (t.sl cfg p).x := by
  unfold Cht.getVal sl dec ChtCfg.valMask
  rw [h.word p]
  simp only [R.bind_ok, R.pure_eq, and_mask]

theorem isVacant (h : Core cfg t) (p : Nat) : t.isVacant cfg (p % 2 ^ t.capa.bits) = .ok (t.vac cfg p) := by
  unfold Cht.isVacant
  rw [h.getVal p]; rfl

theorem q_lt (h : Core cfg t) (p : Nat) : (t.sl cfg p).q < 2 ^ (t.univ.bits - t.capa.bits) := by
  unfold sl dec
  have := h.word_lt p
  show t.table.val (p % 2 ^ t.capa.bits) >>> (2 + cfg.valBits) < _
  rw [Nat.shiftRight_eq_div_pow]
  apply Nat.div_lt_of_lt_mul
  rw [← Nat.pow_add]
  rwa [show 2 + cfg.valBits + (t.univ.bits - t.capa.bits) = t.univ.bits - t.capa.bits + cfg.valBits + 2 by omega]

theorem x_lt (p : Nat) : (t.sl cfg p).x < 2 ^ cfg.valBits := Nat.mod_lt _ (Nat.two_pow_pos _)

theorem right (h : Core cfg t) (p : Nat) : t.right (p % 2 ^ t.capa.bits) = (p + 1) % 2 ^ t.capa.bits := by
  unfold Cht.right
  rw [h.mask, and_mask_succ]

theorem left (h : Core cfg t) (p : Nat) : t.left ((p + 1) % 2 ^ t.capa.bits) = p % 2 ^ t.capa.bits := by
  have hcb : t.capa.bits < 64 := by have := h.cu; have := h.u64; omega
  have hd : 2 ^ t.capa.bits ∣ 2 ^ 64 := Nat.pow_dvd_pow 2 (by omega)
  have key : ∀ C W, C ∣ W → 1 ≤ W → ((p + 1) % C + (W - 1)) % W % C = p % C := by
    intro C W hd h1
    rw [Nat.mod_mod_of_dvd _ hd, Nat.mod_add_mod]
    obtain ⟨k, rfl⟩ := hd
    rw [show p + 1 + (C * k - 1) = p + C * k by omega, Nat.add_mul_mod_self_left]
  unfold Cht.left sub64
  rw [h.mask, and_mask]
  exact key _ _ hd (Nat.two_pow_pos 64)

/-- writing one slot -/
theorem put (h : Core cfg t) (p : Nat) {w : Nat} (hw : w < 2 ^ (t.univ.bits - t.capa.bits + cfg.valBits + 2)) :
    ∃ t', t.putSlot (p % 2 ^ t.capa.bits) w = .ok t' ∧ Core cfg t' ∧ Eqv t t' ∧
      ∀ r, t'.sl cfg r = if r % 2 ^ t.capa.bits = p % 2 ^ t.capa.bits then dec cfg.valBits w else t.sl cfg r := by
  obtain ⟨tb, h1, h2, h3, h4, h5⟩ := h.wf.set_ok (i := p % 2 ^ t.capa.bits) (x := w) (by rw [h.tsize]; exact h.mod_lt p) (by rw [h.twidth]; exact hw)
  refine ⟨{ t with table := tb }, by unfold putSlot; rw [h1]; rfl, ?_, ⟨rfl, rfl, rfl⟩, ?_⟩
  · exact { capa := h.capa, univ := h.univ, quo := h.quo, hasher := h.hasher, cu := h.cu, u0 := h.u0, u64 := h.u64, fit := h.fit, wf := h2, tsize := h3.trans h.tsize, twidth := h4.trans h.twidth, shift := h.shift, inv := h.inv, minc := h.minc, maxs := h.maxs }
  · intro r
    unfold sl
    rw [h5 _ (by rw [h.tsize]; exact h.mod_lt r)]
    split <;> rfl

theorem setVbit (h : Core cfg t) (p : Nat) (b : Bool) :
    ∃ t', t.setVbit (p % 2 ^ t.capa.bits) b = .ok t' ∧ Core cfg t' ∧ Eqv t t' ∧
      ∀ r, t'.sl cfg r = if r % 2 ^ t.capa.bits = p % 2 ^ t.capa.bits then { t.sl cfg p with v := b } else t.sl cfg r := by
  obtain ⟨t', h1, h2, h3, h4⟩ := h.put p (setV_lt (h.word_lt64 p) (by omega) (h.word_lt p) b)
  refine ⟨t', ?_, h2, h3, ?_⟩
  · unfold Cht.setVbit; rw [h.word p, R.bind_ok]; exact h1
  · intro r; rw [h4, dec_setV (h.word_lt64 p)]; rfl

theorem setCbit (h : Core cfg t) (p : Nat) (b : Bool) :
    ∃ t', t.setCbit (p % 2 ^ t.capa.bits) b = .ok t' ∧ Core cfg t' ∧ Eqv t t' ∧
      ∀ r, t'.sl cfg r = if r % 2 ^ t.capa.bits = p % 2 ^ t.capa.bits then { t.sl cfg p with c := b } else t.sl cfg r := by
  obtain ⟨t', h1, h2, h3, h4⟩ := h.put p (setC_lt (h.word_lt64 p) (by omega) (h.word_lt p) b)
  refine ⟨t', ?_, h2, h3, ?_⟩
  · unfold Cht.setCbit; rw [h.word p, R.bind_ok]; exact h1
  · intro r; rw [h4, dec_setC (h.word_lt64 p)]; rfl

theorem setVal (h : Core cfg t) (p : Nat) {x : Nat} (hx : x < 2 ^ cfg.valBits) :
    ∃ t', t.setVal cfg (p % 2 ^ t.capa.bits) x = .ok t' ∧ Core cfg t' ∧ Eqv t t' ∧
      ∀ r, t'.sl cfg r = if r % 2 ^ t.capa.bits = p % 2 ^ t.capa.bits then { t.sl cfg p with x := x } else t.sl cfg r := by
  have hf := h.fit
  obtain ⟨t', h1, h2, h3, h4⟩ := h.put p (setX_lt (h.word_lt64 p) (by omega) (h.word_lt p) hx)
  refine ⟨t', ?_, h2, h3, ?_⟩
  · unfold Cht.setVal
    rw [R.assert_dec (by unfold ChtCfg.valMask; omega), h.word p]; exact h1
  · intro r; rw [h4, dec_setX (h.word_lt64 p) (by omega) hx]; rfl

theorem setQuo (h : Core cfg t) (p : Nat) {q : Nat} (hq : q < 2 ^ (t.univ.bits - t.capa.bits)) :
    ∃ t', t.setQuo (p % 2 ^ t.capa.bits) q = .ok t' ∧ Core cfg t' ∧ Eqv t t' ∧
      ∀ r, t'.sl cfg r = if r % 2 ^ t.capa.bits = p % 2 ^ t.capa.bits then { t.sl cfg p with q := q } else t.sl cfg r := by
  have hf := h.fit
  obtain ⟨t', h1, h2, h3, h4⟩ := h.put p (setQ_lt hf (h.word_lt p) hq)
  refine ⟨t', ?_, h2, h3, ?_⟩
  · unfold Cht.setQuo
    rw [R.assert_dec (by rw [h.quo_size]; exact hq), h.word p, h.inv, h.shift]; exact h1
  · intro r; rw [h4, dec_setQ hf (h.word_lt p) hq]; rfl

theorem copyFromRight (h : Core cfg t) (p : Nat) :
    ∃ t', t.copyFromRight (p % 2 ^ t.capa.bits) = .ok t' ∧ Core cfg t' ∧ Eqv t t' ∧
      ∀ r, t'.sl cfg r = if r % 2 ^ t.capa.bits = p % 2 ^ t.capa.bits then { t.sl cfg (p + 1) with v := (t.sl cfg p).v } else t.sl cfg r := by
  obtain ⟨t', h1, h2, h3, h4⟩ := h.put p (setV_lt (h.word_lt64 (p + 1)) (by omega) (h.word_lt (p + 1)) (t.sl cfg p).v)
  refine ⟨t', ?_, h2, h3, ?_⟩
  · unfold Cht.copyFromRight; rw [h.right p, h.word (p + 1), h.getVbit p]; exact h1
  · intro r; rw [h4, dec_setV (h.word_lt64 (p + 1))]; rfl

theorem updateSlot (h : Core cfg t) (p : Nat) {q x : Nat} (hq : q < 2 ^ (t.univ.bits - t.capa.bits))
    (hx : x < 2 ^ cfg.valBits) (v c : Bool) :
    ∃ t', t.updateSlot cfg (p % 2 ^ t.capa.bits) q x v c = .ok t' ∧ Core cfg t' ∧ Eqv t t' ∧
      ∀ r, t'.sl cfg r = if r % 2 ^ t.capa.bits = p % 2 ^ t.capa.bits then { v := v, c := c, x := x, q := q } else t.sl cfg r := by
  have hf := h.fit
  obtain ⟨t', h1, h2, h3, h4⟩ := h.put p (new_lt hq hx v c)
  refine ⟨t', ?_, h2, h3, ?_⟩
  · unfold Cht.updateSlot
    rw [R.assert_dec (by rw [h.quo_size]; exact hq), R.assert_dec (by unfold ChtCfg.valMask; omega), h.shift]; exact h1
  · intro r; rw [h4, dec_new hf hq hx]

open CH in
/-- the first loop of `find_ass_cbit_` -/
theorem scanLeft (h : Core cfg t) {a : Nat} (ha : t.vac cfg a = true) :
    ∀ (k fuel num : Nat), k < fuel → (∀ r, a < r → r < a + (k + 1) → t.vac cfg r = false) →
      t.scanLeft cfg fuel ((a + (k + 1)) % 2 ^ t.capa.bits) num =
        .ok (num + ct (fun p => (t.sl cfg p).v) a (k + 1), a % 2 ^ t.capa.bits) := by
  intro k
  induction k with
  | zero =>
    intro fuel num hf hr
    obtain ⟨f, rfl⟩ : ∃ f, fuel = f + 1 := ⟨fuel - 1, by omega⟩
    have e : (if (t.sl cfg (a + (0 + 1))).v = true then num + 1 else num) = num + ct (fun p => (t.sl cfg p).v) a (0 + 1) := by
      rw [ct_succ, show ct (fun p => (t.sl cfg p).v) a 0 = 0 from rfl]
      cases (t.sl cfg (a + (0 + 1))).v <;> simp
    have hl : t.left ((a + (0 + 1)) % 2 ^ t.capa.bits) = a % 2 ^ t.capa.bits := h.left a
    unfold Cht.scanLeft
    rw [h.getVbit, R.bind_ok, hl]
    dsimp only
    rw [h.isVacant, ha, R.bind_ok, if_pos rfl, e, R.pure_eq]
  | succ k ih =>
    intro fuel num hf hr
    obtain ⟨f, rfl⟩ : ∃ f, fuel = f + 1 := ⟨fuel - 1, by omega⟩
    have e : (if (t.sl cfg (a + (k + 1 + 1))).v = true then num + 1 else num) + ct (fun p => (t.sl cfg p).v) a (k + 1) =
        num + ct (fun p => (t.sl cfg p).v) a (k + 1 + 1) := by
      rw [ct_succ (n := k + 1)]
      cases (t.sl cfg (a + (k + 1 + 1))).v <;> simp <;> omega
    have hl : t.left ((a + (k + 1 + 1)) % 2 ^ t.capa.bits) = (a + (k + 1)) % 2 ^ t.capa.bits := h.left (a + (k + 1))
    unfold Cht.scanLeft
    rw [h.getVbit, R.bind_ok, hl]
    dsimp only
    rw [h.isVacant, hr (a + (k + 1)) (by omega) (by omega), R.bind_ok, if_neg (by simp),
      ih f _ (by omega) (fun r r1 r2 => hr r r1 (by omega)), e]

open CH in
/-- the second loop of `find_ass_cbit_` -/
theorem scanRight (h : Core cfg t) {a x N : Nat} (hx : ct (fun p => (t.sl cfg p).c) a (x - a) = N)
    (hlt : ∀ y, a ≤ y → y < x → ct (fun p => (t.sl cfg p).c) a (y - a) < N) :
    ∀ (k fuel y : Nat), k < fuel → a ≤ y → y + k = x →
      t.scanRight N fuel (y % 2 ^ t.capa.bits) (ct (fun p => (t.sl cfg p).c) a (y - a)) = .ok (x % 2 ^ t.capa.bits) := by
  intro k
  induction k with
  | zero =>
    intro fuel y hf hy e
    obtain ⟨f, rfl⟩ : ∃ f, fuel = f + 1 := ⟨fuel - 1, by omega⟩
    have : y = x := by omega
    subst this
    unfold Cht.scanRight
    rw [if_neg (by omega)]
  | succ k ih =>
    intro fuel y hf hy e
    obtain ⟨f, rfl⟩ : ∃ f, fuel = f + 1 := ⟨fuel - 1, by omega⟩
    unfold Cht.scanRight
    rw [if_pos (hlt y hy (by omega)), h.right]
    dsimp only
    rw [h.getCbit, R.bind_ok]
    have := ih f (y + 1) (by omega) (by omega) (by omega)
    rw [show y + 1 - a = (y - a) + 1 by omega, ct_succ, show a + (y - a + 1) = y + 1 by omega] at this
    rw [← this]
    congr 1
    split <;> omega

/-- `do { slot_id = right_(slot_id); } while (!get_cbit_(slot_id));` -/
theorem nextCbit (h : Core cfg t) {e : Nat} (hc : (t.sl cfg (e + 1)).c = true) :
    ∀ (k fuel y : Nat), k < fuel → y + k = e → (∀ r, y < r → r ≤ e → (t.sl cfg r).c = false) →
      t.nextCbit fuel (y % 2 ^ t.capa.bits) = .ok ((e + 1) % 2 ^ t.capa.bits) := by
  intro k
  induction k with
  | zero =>
    intro fuel y hf he hr
    obtain ⟨f, rfl⟩ : ∃ f, fuel = f + 1 := ⟨fuel - 1, by omega⟩
    have : y = e := by omega
    subst this
    unfold Cht.nextCbit
    rw [h.right]
    dsimp only
    rw [h.getCbit, hc]; rfl
  | succ k ih =>
    intro fuel y hf he hr
    obtain ⟨f, rfl⟩ : ∃ f, fuel = f + 1 := ⟨fuel - 1, by omega⟩
    unfold Cht.nextCbit
    rw [h.right]
    dsimp only
    rw [h.getCbit, hr (y + 1) (by omega) (by omega)]
    simp only [R.bind_ok]
    rw [if_neg (by simp)]
    exact ih f (y + 1) (by omega) (by omega) (fun r r1 r2 => hr r (by omega) r2)

/-- `find_item_` on a collision group that ends in slot `e` -/
theorem findItem (h : Core cfg t) {e quo : Nat} (hc : (t.sl cfg (e + 1)).c = true) :
    ∀ (k fuel y : Nat), k < fuel → y + k = e → (∀ r, y < r → r ≤ e → (t.sl cfg r).c = false) →
      (∃ r, y ≤ r ∧ r ≤ e ∧ (t.sl cfg r).q = quo ∧ t.findItem quo fuel (y % 2 ^ t.capa.bits) = .ok (true, r % 2 ^ t.capa.bits)) ∨
      ((∀ r, y ≤ r → r ≤ e → (t.sl cfg r).q ≠ quo) ∧ t.findItem quo fuel (y % 2 ^ t.capa.bits) = .ok (false, (e + 1) % 2 ^ t.capa.bits)) := by
  intro k
  induction k with
  | zero =>
    intro fuel y hf he hr
    obtain ⟨f, rfl⟩ : ∃ f, fuel = f + 1 := ⟨fuel - 1, by omega⟩
    have : y = e := by omega
    subst this
    unfold Cht.findItem
    rw [h.getQuo]
    simp only [R.bind_ok]
    by_cases hq : (t.sl cfg y).q = quo
    · rw [if_pos hq]; exact Or.inl ⟨y, by omega, by omega, hq, rfl⟩
    · rw [if_neg hq, h.right]
      try dsimp only
      rw [h.getCbit, hc]
      refine Or.inr ⟨fun r r1 r2 => ?_, rfl⟩
      have : r = y := by omega
      subst this; exact hq
  | succ k ih =>
    intro fuel y hf he hr
    obtain ⟨f, rfl⟩ : ∃ f, fuel = f + 1 := ⟨fuel - 1, by omega⟩
    unfold Cht.findItem
    rw [h.getQuo]
    simp only [R.bind_ok]
    by_cases hq : (t.sl cfg y).q = quo
    · rw [if_pos hq]; exact Or.inl ⟨y, by omega, by omega, hq, rfl⟩
    · rw [if_neg hq, h.right]
      try dsimp only
      rw [h.getCbit, hr (y + 1) (by omega) (by omega)]
      simp only [R.bind_ok]
      rw [if_neg (by simp)]
      rcases ih f (y + 1) (by omega) (by omega) (fun r r1 r2 => hr r (by omega) r2) with ⟨r, r1, r2, r3, r4⟩ | ⟨r1, r2⟩
      · exact Or.inl ⟨r, by omega, r2, r3, r4⟩
      · refine Or.inr ⟨fun r q1 q2 => ?_, r2⟩
        rcases Nat.lt_or_ge y r with h1 | h1
        · exact r1 r (by omega) q2
        · have : r = y := by omega
          subst this; exact hq

end Core

/-- the displacement loop -/
theorem shiftLeft_ok : ∀ (k fuel p : Nat) (t : Cht), Core cfg t → k < fuel → k < 2 ^ t.capa.bits →
    ∃ t', shiftLeft ((p + k) % 2 ^ t.capa.bits) fuel (p % 2 ^ t.capa.bits) t = .ok t' ∧ Core cfg t' ∧ Eqv t t' ∧
      ∀ r, p ≤ r → r < p + 2 ^ t.capa.bits → t'.sl cfg r =
        if r < p + k then { t.sl cfg (r + 1) with v := (t.sl cfg r).v } else t.sl cfg r := by
  intro k
  induction k with
  | zero =>
    intro fuel p t h hf hk
    obtain ⟨f, rfl⟩ : ∃ f, fuel = f + 1 := ⟨fuel - 1, by omega⟩
    refine ⟨t, by simp [shiftLeft], h, Eqv.refl t, fun r r1 r2 => by rw [if_neg (by omega)]⟩
  | succ k ih =>
    intro fuel p t h hf hk
    obtain ⟨f, rfl⟩ : ∃ f, fuel = f + 1 := ⟨fuel - 1, by omega⟩
    have hne : p % 2 ^ t.capa.bits ≠ (p + (k + 1)) % 2 ^ t.capa.bits := by
      intro e
      have := CH.window_unique (C := 2 ^ t.capa.bits) (w := p) (p := p) (q := p + (k + 1)) (by omega) (by omega) (by omega) (by omega) e
      omega
    obtain ⟨t1, h1, h2, h3, h4⟩ := h.copyFromRight p
    have hcap : t1.capa = t.capa := h3.capa
    obtain ⟨t2, g1, g2, g3, g4⟩ := ih f (p + 1) t1 h2 (by omega) (by rw [hcap]; omega)
    rw [hcap] at g1 g4
    refine ⟨t2, ?_, g2, h3.trans g3, ?_⟩
    · unfold shiftLeft
      rw [if_pos hne, h1]
      simp only [R.bind_ok]
      rw [h.right]
      rw [show p + (k + 1) = p + 1 + k by omega]
      exact g1
    · intro r r1 r2
      have hw : ∀ s, p ≤ s → s < p + 2 ^ t.capa.bits → (s % 2 ^ t.capa.bits = p % 2 ^ t.capa.bits ↔ s = p) := by
        intro s s1 s2
        constructor
        · intro e; exact CH.window_unique (C := 2 ^ t.capa.bits) (w := p) s1 s2 (by omega) (by omega) e
        · intro e; rw [e]
      rcases Nat.lt_or_ge p r with hpr | hpr
      · have hr1 : t1.sl cfg r = t.sl cfg r := by rw [h4 r, if_neg (by rw [hw r r1 r2]; omega)]
        rw [g4 r (by omega) (by omega), hr1]
        by_cases hlt : r < p + 1 + k
        · rw [if_pos hlt, if_pos (by omega), h4 (r + 1), if_neg (by rw [hw (r + 1) (by omega) (by omega)]; omega)]
        · rw [if_neg hlt, if_neg (by omega)]
      · have : r = p := by omega
        subst this
        rw [if_pos (by omega)]
        have e1 : t2.sl cfg r = t2.sl cfg (r + 2 ^ t.capa.bits) := by
          rw [← sl_per (cfg := cfg) (t := t2) r, g3.capa, hcap]
        rw [e1, g4 _ (by omega) (by omega), if_neg (by omega), h4, if_pos (Nat.add_mod_right _ _)]

end Poplar.Cht
