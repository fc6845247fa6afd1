import Verif.Proof.ChAccess
/-
  compact_hash_table: `get` and `set` without expansion.
-/
namespace Poplar.Cht
open Poplar CH

/-- the table is laid out correctly, with ghost displacements `d` -/
structure Rep (cfg : ChtCfg) (t : Cht) (d : Nat → Nat) : Prop where
  core : Core cfg t
  lay : Lay (2 ^ t.capa.bits) (t.vac cfg) (fun p => (t.sl cfg p).v) (fun p => (t.sl cfg p).c) d
  uniq : Uniq (2 ^ t.capa.bits) (t.vac cfg) (fun p => (t.sl cfg p).q) d
  size : t.size = cnt (fun p => !t.vac cfg p) (2 ^ t.capa.bits)

/-- the table has an item with hashed key `K` and value `X` -/
def Has (cfg : ChtCfg) (t : Cht) (d : Nat → Nat) (K X : Nat) : Prop :=
  Item (2 ^ t.capa.bits) (t.vac cfg) (fun p => (t.sl cfg p).q) d (fun p => (t.sl cfg p).x) K X

variable {cfg : ChtCfg} {t : Cht} {d : Nat → Nat}

theorem vac_congr {p r : Nat} (h : p % 2 ^ t.capa.bits = r % 2 ^ t.capa.bits) : t.vac cfg p = t.vac cfg r := by
  unfold vac; rw [sl_congr h]

theorem mod_ne_max (h : Core cfg t) (p : Nat) : p % 2 ^ t.capa.bits ≠ u64max := by
  have h1 := h.mod_lt p
  have h2 : 2 ^ t.capa.bits ≤ 2 ^ 63 := Nat.pow_le_pow_right (by decide) (by have := h.cu; have := h.u64; omega)
  have h3 : u64max = 2 ^ 64 - 1 := rfl
  have h4 : (2 : Nat) ^ 63 ≤ 2 ^ 64 - 1 := by decide
  rw [h3]
  generalize (2 : Nat) ^ 64 - 1 = W at *
  generalize (2 : Nat) ^ 63 = W' at *
  omega

/-- `find_ass_cbit_` -/
theorem Rep.findAss (h : Rep cfg t d) {m : Nat} (hm : 2 ^ t.capa.bits ≤ m) (hv : t.vac cfg m = false) :
    ∃ a, a < m ∧ m < a + 2 ^ t.capa.bits ∧ t.vac cfg a = true ∧ (∀ r, a < r → r ≤ m → t.vac cfg r = false) ∧
      ((t.findAssCbit cfg (m % 2 ^ t.capa.bits) = .ok (u64max, a % 2 ^ t.capa.bits) ∧
          ∀ r, a < r → r ≤ m → (t.sl cfg r).v = false) ∨
        ∃ x e, t.findAssCbit cfg (m % 2 ^ t.capa.bits) = .ok (x % 2 ^ t.capa.bits, a % 2 ^ t.capa.bits) ∧
          a < x ∧ x ≤ e ∧ e ≤ m ∧ (t.sl cfg x).c = true ∧ t.vac cfg x = false ∧ x + d x ≤ m ∧
          (t.sl cfg (x + d x)).v = true ∧ (∀ r, x + d x < r → r ≤ m → (t.sl cfg r).v = false) ∧
          (t.sl cfg (e + 1)).c = true ∧ (∀ r, x < r → r ≤ e → (t.sl cfg r).c = false) ∧
          (∀ r, x ≤ r → r ≤ e → t.vac cfg r = false ∧ r + d r = x + d x)) := by
  obtain ⟨a, ham, hmC, hva, hrun⟩ := h.lay.left_vacant hm hv
  refine ⟨a, ham, hmC, hva, hrun, ?_⟩
  obtain ⟨k, rfl⟩ : ∃ k, m = a + (k + 1) := ⟨m - a - 1, by omega⟩
  have hscan := h.core.scanLeft hva k (2 ^ t.capa.bits) 0 (by omega) (fun r r1 r2 => hrun r r1 (by omega))
  rw [Nat.zero_add] at hscan
  unfold findAssCbit
  rw [h.core.capa_size, hscan]
  simp only [R.bind_ok]
  by_cases hN : ct (fun p => (t.sl cfg p).v) a (k + 1) = 0
  · rw [if_pos hN]
    refine Or.inl ⟨rfl, ?_⟩
    intro r r1 r2
    cases hvr : (t.sl cfg r).v with
    | false => rfl
    | true =>
      have := ct_lt (f := fun p => (t.sl cfg p).v) (a := a) (n := 0) (m := k + 1) (s := r - a) (by omega) (by omega)
        (by rw [show a + (r - a) = r by omega]; exact hvr)
      omega
  · rw [if_neg hN]
    obtain ⟨x, x1, x2, -, x4, x5, x6, x7, x8, x9, x10, x11⟩ := h.lay.assoc hva ham hmC hrun (by
      rw [show a + (k + 1) - a = k + 1 by omega]; omega)
    rw [show a + (k + 1) - a = k + 1 by omega] at x6 x7
    have hvaC : t.vac cfg (a + 2 ^ t.capa.bits) = true := by rw [h.lay.pvac]; exact hva
    obtain ⟨e, e1, e2, e3, e4, e5⟩ := h.lay.group hvaC x2 x5
    have hr := h.core.scanRight x6 x7 (x - a) (2 ^ t.capa.bits + 1) a (by omega) (Nat.le_refl _) (by omega)
    rw [Nat.sub_self, show ct (fun p => (t.sl cfg p).c) a 0 = 0 from rfl] at hr
    rw [hr]
    have := (e5 e e1 (Nat.le_refl _)).2
    exact Or.inr ⟨x, e, rfl, x1, e1, by omega, x4, x5, x8, x9, x11, e3, e4, e5⟩

/-- a position for a hashed key, in the second period -/
theorem home_pos (_ : Core cfg t) (K : Nat) :
    2 ^ t.capa.bits ≤ K % 2 ^ t.capa.bits + 2 ^ t.capa.bits ∧
    (K % 2 ^ t.capa.bits + 2 ^ t.capa.bits) % 2 ^ t.capa.bits = K % 2 ^ t.capa.bits := by
  refine ⟨by omega, ?_⟩
  rw [Nat.add_mod_right, Nat.mod_mod]

theorem modOf_eq (h : Core cfg t) (K : Nat) : t.modOf K = K % 2 ^ t.capa.bits := by
  unfold modOf; rw [h.mask, and_mask]

theorem quoOf_eq (K : Nat) : t.quoOf K = K / 2 ^ t.capa.bits := by
  unfold quoOf; rw [Nat.shiftRight_eq_div_pow]

theorem Rep.has_iff (_ : Rep cfg t d) {K X : Nat} : Has cfg t d K X ↔
    ∃ p, t.vac cfg p = false ∧ (t.sl cfg p).q = K / 2 ^ t.capa.bits ∧ (p + d p) % 2 ^ t.capa.bits = K % 2 ^ t.capa.bits ∧
      (t.sl cfg p).x = X := by
  unfold Has Item
  constructor
  · rintro ⟨p, h1, h2, h3⟩
    rw [key_eq_iff (Nat.two_pow_pos _)] at h2
    exact ⟨p, h1, h2.1, h2.2, h3⟩
  · rintro ⟨p, h1, h2, h2', h3⟩
    exact ⟨p, h1, by rw [key_eq_iff (Nat.two_pow_pos _)]; exact ⟨h2, h2'⟩, h3⟩

/-- the home of an item has its virgin bit set -/
theorem Rep.has_v (h : Rep cfg t d) {K X m : Nat} (hm : m % 2 ^ t.capa.bits = K % 2 ^ t.capa.bits) (hh : Has cfg t d K X) :
    (t.sl cfg m).v = true := by
  obtain ⟨p, h1, -, h3, -⟩ := h.has_iff.mp hh
  rw [sl_congr (hm.trans h3.symm)]
  exact h.lay.home p h1

theorem Rep.has_unique (h : Rep cfg t d) {K X Y : Nat} (h1 : Has cfg t d K X) (h2 : Has cfg t d K Y) : X = Y := by
  obtain ⟨p, a1, a2, rfl⟩ := h1
  obtain ⟨r, b1, b2, rfl⟩ := h2
  have := h.uniq p r a1 b1 (a2.trans b2.symm)
  exact congrArg Slot.x (sl_congr this)

/-- the table after `get`: the value of the item, or `nil` -/
theorem Rep.get_ok (h : Rep cfg t d) {k : Nat} (hk : k < 2 ^ t.univ.bits) :
    (∃ X, Has cfg t d (SplitMix.H t.univ.bits k) X ∧ t.get cfg k = .ok X) ∨
    ((∀ X, ¬ Has cfg t d (SplitMix.H t.univ.bits k) X) ∧ t.get cfg k = .ok u64max) := by
  have hc := h.core
  unfold Cht.get
  rw [R.assert_dec (by rw [hc.univ_size]; exact hk), R.bind_ok, hc.hasher, SplitMix.hash_eq hc.u0 hc.u64 hk, R.bind_ok]
  generalize SplitMix.H t.univ.bits k = K
  obtain ⟨hm1, hm2⟩ := home_pos hc K
  rw [modOf_eq hc, quoOf_eq]
  generalize K % 2 ^ t.capa.bits + 2 ^ t.capa.bits = m at *
  rw [← hm2, hc.getVbit m, R.bind_ok]
  cases hv : (t.sl cfg m).v with
  | false =>
    rw [if_neg (by simp)]
    refine Or.inr ⟨fun X hX => ?_, rfl⟩
    rw [h.has_v hm2 hX] at hv; simp at hv
  | true =>
    rw [if_pos rfl]
    have hvm : t.vac cfg m = false := by
      cases hx : t.vac cfg m with
      | false => rfl
      | true => have := (h.lay.blank m hx).1; simp only [hv] at this; exact absurd this (by decide)
    obtain ⟨a, a1, a2, a3, a4, a5⟩ := h.findAss hm1 hvm
    rcases a5 with ⟨-, b2⟩ | ⟨x, e, b1, b2, b3, b4, b5, b6, b7, b8, b9, b10, b11, b12⟩
    · rw [b2 m a1 (Nat.le_refl _)] at hv; simp at hv
    · have hxm : x + d x = m := by
        rcases Nat.lt_or_ge (x + d x) m with h1 | h1
        · rw [b9 m h1 (Nat.le_refl _)] at hv; simp at hv
        · omega
      rw [b1, R.bind_ok]
      simp only []
      rw [if_neg (mod_ne_max hc x), hc.capa_size]
      rcases hc.findItem (quo := K / 2 ^ t.capa.bits) b10 (e - x) (2 ^ t.capa.bits) x (by omega) (by omega) b11 with
        ⟨r, r1, r2, r3, r4⟩ | ⟨r1, r2⟩
      · rw [r4, R.bind_ok]
        simp only []
        rw [if_pos trivial, hc.getVal]
        obtain ⟨q1, q2⟩ := b12 r r1 r2
        exact Or.inl ⟨_, h.has_iff.mpr ⟨r, q1, r3, by rw [q2, hxm, hm2], rfl⟩, rfl⟩
      · rw [r2, R.bind_ok]
        simp only []
        rw [if_neg (by simp)]
        refine Or.inr ⟨fun X hX => ?_, rfl⟩
        obtain ⟨p, p1, p2, p3, p4⟩ := h.has_iff.mp hX
        obtain ⟨y, y1, y2, y3⟩ := h.lay.in_group a3 b2 b6 b5 hxm a2 b10 b3 p1 (by rw [p3, hm2])
        exact r1 y y1 y2 (by rw [sl_congr y3]; exact p2)

end Poplar.Cht
