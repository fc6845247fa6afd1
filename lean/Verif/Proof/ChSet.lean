import Verif.Proof.ChTable
/-
  compact_hash_table: `set` without expansion.
-/
namespace Poplar.Cht
open Poplar CH

variable {cfg : ChtCfg} {t : Cht} {d : Nat → Nat}

/-- another vacant slot -/
theorem Rep.other_vacant (h : Rep cfg t d) (hroom : t.size + 1 < 2 ^ t.capa.bits) (a : Nat) :
    ∃ p, t.vac cfg p = true ∧ p % 2 ^ t.capa.bits ≠ a % 2 ^ t.capa.bits := by
  have h1 := cnt_or_le (fun p => !t.vac cfg p) (fun p => p == a % 2 ^ t.capa.bits) (2 ^ t.capa.bits)
  have h2 : cnt (fun p => p == a % 2 ^ t.capa.bits) (2 ^ t.capa.bits) = cnt (fun _ => false) (2 ^ t.capa.bits) + 1 :=
    cnt_set (h.core.mod_lt a) rfl (by simp) (by intro i _ hi; simp [hi])
  rw [cnt_zero (p := fun _ => false) (fun _ _ => rfl)] at h2
  rw [← h.size] at h1
  obtain ⟨i, i1, i2⟩ := cnt_room (p := fun p => !t.vac cfg p || p == a % 2 ^ t.capa.bits) (n := 2 ^ t.capa.bits) (by omega)
  simp only [Bool.or_eq_false_iff, Bool.not_eq_false', beq_eq_false_iff_ne] at i2
  exact ⟨i, i2.1, by rw [Nat.mod_eq_of_lt i1]; exact i2.2⟩

/-- what `set` does to the items -/
def Upd (P P' : Nat → Nat → Prop) (K X : Nat) : Prop := ∀ K' Y, P' K' Y ↔ if K' = K then Y = X else P K' Y

theorem Upd.of_new {P P' : Nat → Nat → Prop} {K X : Nat} (hno : ∀ Y, ¬ P K Y)
    (h : ∀ K' Y, P' K' Y ↔ P K' Y ∨ (K' = K ∧ Y = X)) : Upd P P' K X := by
  intro K' Y
  rw [h]
  split
  · next e => subst e; simp [hno Y]
  · next e => simp [e]

/-- outcome of a step that stores `X` under the hashed key `K` -/
structure Stored (cfg : ChtCfg) (t : Cht) (d : Nat → Nat) (t' : Cht) (d' : Nat → Nat) (flag : Bool) (K X : Nat) : Prop where
  rep : Rep cfg t' d'
  capa : t'.capa = t.capa
  univ : t'.univ = t.univ
  size : t'.size = t.size + (if flag then 1 else 0)
  flag : flag = true ↔ ∀ Y, ¬ Has cfg t d K Y
  upd : Upd (Has cfg t d) (Has cfg t' d') K X

theorem Rep.of_vacant (h : Rep cfg t d) (hroom : t.size + 1 < 2 ^ t.capa.bits) {m K X : Nat}
    (hmK : m % 2 ^ t.capa.bits = K % 2 ^ t.capa.bits) (hm : t.vac cfg m = true) (hX : X < cfg.valMask) {t' : Cht}
    (hcore : Core cfg t') (hcapa : t'.capa = t.capa) (huniv : t'.univ = t.univ) (hsize : t'.size = t.size + 1)
    (hsl : ∀ r, t'.sl cfg r = if r % 2 ^ t.capa.bits = m % 2 ^ t.capa.bits then { v := true, c := true, x := X, q := K / 2 ^ t.capa.bits } else t.sl cfg r) :
    Stored cfg t d t' (fun p => if p % 2 ^ t.capa.bits = m % 2 ^ t.capa.bits then 0 else d p) true K X := by
  have hno : ∀ Y, ¬ Has cfg t d K Y := by
    intro Y hY
    have := h.has_v hmK hY
    rw [(h.lay.blank m hm).1] at this; simp at this
  have hvac : ∀ p, t'.vac cfg p = if p % 2 ^ t.capa.bits = m % 2 ^ t.capa.bits then false else t.vac cfg p := by
    intro p
    unfold vac
    rw [hsl]
    split
    · simp only [beq_eq_false_iff_ne]; omega
    · rfl
  have hK : K / 2 ^ t.capa.bits * 2 ^ t.capa.bits + m % 2 ^ t.capa.bits = K := by
    rw [hmK, Nat.mul_comm, Nat.div_add_mod]
  have hlay := h.lay.insert_vacant (d' := fun p => if p % 2 ^ t.capa.bits = m % 2 ^ t.capa.bits then 0 else d p) hm hvac
    (v' := fun p => (t'.sl cfg p).v) (c' := fun p => (t'.sl cfg p).c)
    (fun p => by rw [hsl]; split <;> rfl) (fun p => by rw [hsl]; split <;> rfl) (fun p => rfl) (h.other_vacant hroom m)
  have hit := h.lay.items_vacant (q := fun p => (t.sl cfg p).q) (x := fun p => (t.sl cfg p).x)
    (d' := fun p => if p % 2 ^ t.capa.bits = m % 2 ^ t.capa.bits then 0 else d p) hm hvac (fun p => rfl)
    (q' := fun p => (t'.sl cfg p).q) (x' := fun p => (t'.sl cfg p).x) (Q := K / 2 ^ t.capa.bits) (X := X)
    (fun p => by rw [hsl]; split <;> rfl) (fun p => by rw [hsl]; split <;> rfl)
  rw [hK] at hit
  have hcb : t'.capa.bits = t.capa.bits := by rw [hcapa]
  refine ⟨⟨hcore, by rw [hcb]; exact hlay, by rw [hcb]; exact hit.2 h.uniq hno, ?_⟩, hcapa, huniv, by simp [hsize], by simpa using hno, ?_⟩
  · rw [hsize, h.size, hcb]
    symm
    refine cnt_set (h.core.mod_lt m) ?_ ?_ ?_
    · rw [vac_congr (Nat.mod_mod m _), hm]; rfl
    · rw [hvac, if_pos (Nat.mod_mod m _)]; rfl
    · intro i hi hne
      rw [hvac, if_neg (by rw [Nat.mod_eq_of_lt hi]; exact hne)]
  · refine Upd.of_new hno ?_
    intro K' Y
    unfold Has
    rw [hcb]
    exact hit.1 K' Y

/-- overwriting the value of an item -/
theorem Rep.of_found (h : Rep cfg t d) {r K X : Nat} (hr : t.vac cfg r = false) (hq : (t.sl cfg r).q = K / 2 ^ t.capa.bits)
    (hK : (r + d r) % 2 ^ t.capa.bits = K % 2 ^ t.capa.bits) (hX : X < cfg.valMask) {t' : Cht}
    (hcore : Core cfg t') (he : Eqv t t')
    (hsl : ∀ p, t'.sl cfg p = if p % 2 ^ t.capa.bits = r % 2 ^ t.capa.bits then { t.sl cfg r with x := X } else t.sl cfg p) :
    Stored cfg t d t' d false K X := by
  have hcb : t'.capa.bits = t.capa.bits := by rw [he.capa]
  have hvac : t'.vac cfg = t.vac cfg := by
    funext p
    unfold vac
    rw [hsl]
    split
    · next e =>
      have : t.vac cfg p = false := by rw [vac_congr e]; exact hr
      unfold vac at this
      rw [this]
      simp only [beq_eq_false_iff_ne]; omega
    · rfl
  have hv : (fun p => (t'.sl cfg p).v) = fun p => (t.sl cfg p).v := by
    funext p; rw [hsl]; split
    · next e => rw [sl_congr e]
    · rfl
  have hc : (fun p => (t'.sl cfg p).c) = fun p => (t.sl cfg p).c := by
    funext p; rw [hsl]; split
    · next e => rw [sl_congr e]
    · rfl
  have hq' : (fun p => (t'.sl cfg p).q) = fun p => (t.sl cfg p).q := by
    funext p; rw [hsl]; split
    · next e => rw [sl_congr e]
    · rfl
  have hrep : Rep cfg t' d := ⟨hcore, by rw [hcb, hvac, hv, hc]; exact h.lay, by rw [hcb, hvac, hq']; exact h.uniq, by rw [he.size, h.size, hcb, hvac]⟩
  have hkr : key (2 ^ t.capa.bits) (fun p => (t.sl cfg p).q) d r = K := by rw [key_eq_iff (Nat.two_pow_pos _)]; exact ⟨hq, hK⟩
  refine ⟨hrep, he.capa, he.univ, by simp [he.size], ?_, ?_⟩
  · simp only [Bool.false_eq_true, false_iff]
    intro hn
    exact hn _ ⟨r, hr, hkr, rfl⟩
  · intro K' Y
    unfold Has
    rw [hcb, hvac, hq']
    by_cases e : K' = K
    · subst e
      rw [if_pos rfl]
      constructor
      · rintro ⟨p, p1, p2, rfl⟩
        have := h.uniq p r p1 hr (p2.trans hkr.symm)
        simp only [hsl, if_pos this]
      · rintro rfl
        exact ⟨r, hr, hkr, by simp only [hsl, if_true]⟩
    · rw [if_neg e]
      constructor
      · rintro ⟨p, p1, p2, rfl⟩
        refine ⟨p, p1, p2, ?_⟩
        have : p % 2 ^ t.capa.bits ≠ r % 2 ^ t.capa.bits := by
          intro e'
          apply e
          rw [← p2, ← hkr]
          exact per_congr (key_per (fun p => congrArg Slot.q (sl_per p)) h.lay.pd) e'
        simp only [hsl, if_neg this]
      · rintro ⟨p, p1, p2, rfl⟩
        refine ⟨p, p1, p2, ?_⟩
        have : p % 2 ^ t.capa.bits ≠ r % 2 ^ t.capa.bits := by
          intro e'
          apply e
          rw [← p2, ← hkr]
          exact per_congr (key_per (fun p => congrArg Slot.q (sl_per p)) h.lay.pd) e'
        simp only [hsl, if_neg this]

/-- position `p` moved into the window that starts at `a` -/
def win (C a p : Nat) : Nat := a + (p + (C - a % C)) % C

theorem win_per {C : Nat} (a p : Nat) : win C a (p + C) = win C a p := by
  unfold win; rw [Nat.add_right_comm, Nat.add_mod_right]

theorem win_eq {C a p : Nat} (h0 : 0 < C) (h1 : a ≤ p) (h2 : p < a + C) : win C a p = p := by
  unfold win
  have hm := Nat.mod_lt a h0
  have hd := Nat.div_add_mod a C
  have e : p + (C - a % C) = (p - a) + C * (a / C + 1) := by
    rw [Nat.mul_add, Nat.mul_one]; omega
  rw [e, Nat.add_mul_mod_self_left, Nat.mod_eq_of_lt (by omega)]
  omega

/-- inserting an item by shifting -/
theorem Rep.of_shift (h : Rep cfg t d) (hroom : t.size + 1 < 2 ^ t.capa.bits) {a e m K X : Nat} {β : Bool}
    (hno : ∀ Y, ¬ Has cfg t d K Y)
    (hmK : m % 2 ^ t.capa.bits = K % 2 ^ t.capa.bits) (hX : X < cfg.valMask)
    (hm : 2 ^ t.capa.bits ≤ m) (ham : a < m) (hmC : m < a + 2 ^ t.capa.bits) (hva : t.vac cfg a = true)
    (hrun : ∀ r, a < r → r ≤ m → t.vac cfg r = false)
    (hae : a ≤ e) (hem : e ≤ m) (hce : (t.sl cfg (e + 1)).c = true)
    (hle : a < e → e + d e ≤ m)
    (hnv : β = true → ∀ r, a < r → (a < e → e + d e < r) → r ≤ m → (t.sl cfg r).v = false)
    (ht : β = true → (t.sl cfg m).v = false) (hf : β = false → a < e ∧ e + d e = m) {t' : Cht}
    (hcore : Core cfg t') (hcapa : t'.capa = t.capa) (huniv : t'.univ = t.univ) (hsize : t'.size = t.size + 1)
    (hv : ∀ p, a ≤ p → p < a + 2 ^ t.capa.bits → (t'.sl cfg p).v = if p = m then true else (t.sl cfg p).v)
    (hc : ∀ p, a ≤ p → p < a + 2 ^ t.capa.bits → (t'.sl cfg p).c = if p < e then (t.sl cfg (p + 1)).c else if p = e then β else (t.sl cfg p).c)
    (hx : ∀ p, a ≤ p → p < a + 2 ^ t.capa.bits → (t'.sl cfg p).x = if p < e then (t.sl cfg (p + 1)).x else if p = e then X else (t.sl cfg p).x)
    (hq : ∀ p, a ≤ p → p < a + 2 ^ t.capa.bits → (t'.sl cfg p).q = if p < e then (t.sl cfg (p + 1)).q else if p = e then K / 2 ^ t.capa.bits else (t.sl cfg p).q) :
    ∃ d', Stored cfg t d t' d' true K X := by
  have hcb : t'.capa.bits = t.capa.bits := by rw [hcapa]
  have hC0 := Nat.two_pow_pos t.capa.bits
  have hsper : ∀ p, t'.sl cfg (p + 2 ^ t.capa.bits) = t'.sl cfg p := fun p => by rw [← hcb]; exact sl_per p
  obtain ⟨p0, hp0, hp0'⟩ := h.other_vacant hroom a
  obtain ⟨z, z1, z2, z3⟩ := window hC0 a p0
  have hz : t.vac cfg z = true := by rw [vac_congr z3]; exact hp0
  have hza : z ≠ a := by rintro rfl; exact hp0' z3.symm
  have hzm : m < z := by
    rcases Nat.lt_or_ge m z with h1 | h1
    · exact h1
    · rw [hrun z (by omega) h1] at hz; simp at hz
  have hmC' : m + 1 < a + 2 ^ t.capa.bits := by omega
  have ha1 : 1 ≤ a := by omega
  have hvac : ∀ p, a ≤ p → p < a + 2 ^ t.capa.bits → t'.vac cfg p = if p = a then false else t.vac cfg p := by
    intro p p1 p2
    have hxp := hx p p1 p2
    unfold vac
    by_cases hpe : p < e
    · rw [if_pos hpe] at hxp
      have h1 := hrun (p + 1) (by omega) (by omega)
      unfold vac at h1
      rw [hxp, h1]
      split
      · rfl
      · have h2 := hrun p (by omega) (by omega)
        unfold vac at h2
        rw [h2]
    · rw [if_neg hpe] at hxp
      by_cases hpe' : p = e
      · rw [if_pos hpe'] at hxp
        rw [hxp]
        have : (X == cfg.valMask) = false := by simp only [beq_eq_false_iff_ne]; omega
        rw [this]
        split
        · rfl
        · have h2 := hrun p (by omega) (by omega)
          unfold vac at h2
          rw [h2]
      · rw [if_neg hpe'] at hxp
        rw [hxp, if_neg (by omega)]
  -- the position before the window
  have hlast : ∀ p, a ≤ p + 1 → ¬ a ≤ p → p + 2 ^ t.capa.bits + 1 = a + 2 ^ t.capa.bits := by intro p _ _; omega
  have hpvac' : ∀ p, t'.vac cfg (p + 2 ^ t.capa.bits) = t'.vac cfg p := fun p => by unfold vac; rw [hsper]
  let g : Nat → Nat := fun p => if p < e then d (p + 1) + 1 else if p = e then m - e else d p
  let d' : Nat → Nat := fun p => g (win (2 ^ t.capa.bits) a p)
  have hd'per : ∀ p, d' (p + 2 ^ t.capa.bits) = d' p := fun p => by simp only [d', win_per]
  have hd' : ∀ p, a ≤ p → p < a + 2 ^ t.capa.bits → d' p = if p < e then d (p + 1) + 1 else if p = e then m - e else d p := by
    intro p p1 p2
    simp only [d', g, win_eq hC0 p1 p2]
  have hlay : Lay (2 ^ t.capa.bits) (t'.vac cfg) (fun p => (t'.sl cfg p).v) (fun p => (t'.sl cfg p).c) d' := by
    refine h.lay.insert_shift (a := a) (e := e) (m := m) (β := β) ha1 hva ham hmC' hrun hae hem hce hle hnv ht hf
      hpvac' (fun p => by rw [hsper]) (fun p => by rw [hsper]) hd'per ?_ ?_ ?_ ?_ ⟨z, by omega, z2, hz⟩
    · intro p p1 p2
      by_cases hp : a ≤ p
      · exact hvac p hp p2
      · have := hlast p p1 hp
        rw [← hpvac', hvac _ (by omega) (by omega), if_neg (by omega), if_neg (by omega), h.lay.pvac]
    · intro p p1 p2
      by_cases hp : a ≤ p
      · exact hv p hp p2
      · have := hlast p p1 hp
        rw [← hsper, hv _ (by omega) (by omega), if_neg (by omega), if_neg (by omega), sl_per]
    · intro p p1 p2
      by_cases hp : a ≤ p
      · rw [hc p hp p2]
        simp only [hp, true_and]
      · have := hlast p p1 hp
        rw [← hsper, hc _ (by omega) (by omega), if_neg (by omega), if_neg (by omega), if_neg (by omega), if_neg (by omega), sl_per]
    · intro p p1 p2
      by_cases hp : a ≤ p
      · rw [hd' p hp p2]
        simp only [hp, true_and]
      · have := hlast p p1 hp
        rw [← hd'per, hd' _ (by omega) (by omega), if_neg (by omega), if_neg (by omega), if_neg (by omega), if_neg (by omega), h.lay.pd]
  have hit := h.lay.items_shift (a := a) (e := e) (m := m) (Q := K / 2 ^ t.capa.bits) (X := X)
    (q := fun p => (t.sl cfg p).q) (x := fun p => (t.sl cfg p).x)
    (q' := fun p => (t'.sl cfg p).q) (x' := fun p => (t'.sl cfg p).x) (vac' := t'.vac cfg) (d' := d')
    hva hmC hrun hae hem (fun p => by rw [sl_per]) (fun p => by rw [sl_per]) hpvac' hd'per
    (fun p => by rw [hsper]) (fun p => by rw [hsper]) hvac hd' hq hx
  have hK : K / 2 ^ t.capa.bits * 2 ^ t.capa.bits + m % 2 ^ t.capa.bits = K := by
    rw [hmK, Nat.mul_comm, Nat.div_add_mod]
  rw [hK] at hit
  refine ⟨d', ⟨hcore, by rw [hcb]; exact hlay, by rw [hcb]; exact hit.2 h.uniq hno, ?_⟩, hcapa, huniv, by simp [hsize], by simpa using hno, ?_⟩
  · rw [hsize, h.size, hcb]
    symm
    have hvm : ∀ p, t'.vac cfg p = if p % 2 ^ t.capa.bits = a % 2 ^ t.capa.bits then false else t.vac cfg p := by
      intro p
      obtain ⟨p', w1, w2, w3⟩ := window hC0 a p
      rw [← per_congr hpvac' w3, hvac p' w1 w2, ← w3]
      by_cases e : p' = a
      · rw [if_pos e, e, if_pos rfl]
      · rw [if_neg e, if_neg, vac_congr w3]
        intro e'
        exact e (window_unique (C := 2 ^ t.capa.bits) (w := a) w1 w2 (Nat.le_refl _) (by omega) e')
    refine cnt_set (h.core.mod_lt a) ?_ ?_ ?_
    · rw [vac_congr (Nat.mod_mod a _), hva]; rfl
    · rw [hvm, if_pos (Nat.mod_mod a _)]; rfl
    · intro i hi hne
      rw [hvm, if_neg (by rw [Nat.mod_eq_of_lt hi]; exact hne)]
  · refine Upd.of_new hno ?_
    intro K' Y
    unfold Has
    rw [hcb]
    exact hit.1 K' Y

/-- writing the item into slot `e`, after setting its change bit -/
theorem Core.fill (h : Core cfg t) (e : Nat) (β : Bool) {Q X : Nat} (hQ : Q < 2 ^ (t.univ.bits - t.capa.bits)) (hX : X < 2 ^ cfg.valBits) :
    ∃ t', (t.setCbit (e % 2 ^ t.capa.bits) β >>= fun s => s.place cfg (e % 2 ^ t.capa.bits) Q X) = .ok t' ∧ Core cfg t' ∧
      t'.capa = t.capa ∧ t'.univ = t.univ ∧ t'.size = t.size + 1 ∧
      ∀ r, t'.sl cfg r = if r % 2 ^ t.capa.bits = e % 2 ^ t.capa.bits then { v := (t.sl cfg e).v, c := β, x := X, q := Q } else t.sl cfg r := by
  obtain ⟨t1, a1, a2, a3, a4⟩ := h.setCbit e β
  have c1 : t1.capa = t.capa := a3.capa
  have u1 : t1.univ = t.univ := a3.univ
  obtain ⟨t2, b1, b2, b3, b4⟩ := a2.setQuo e (q := Q) (by rw [c1, u1]; exact hQ)
  have c2 : t2.capa = t1.capa := b3.capa
  obtain ⟨t3, d1, d2, d3, d4⟩ := b2.setVal e hX
  rw [c1] at b1 b4
  rw [c2, c1] at d1 d4
  refine ⟨{ t3 with size := t3.size + 1 }, ?_, ?_, by show t3.capa = _; rw [d3.capa, c2, c1], by show t3.univ = _; rw [d3.univ, b3.univ, u1],
    by show t3.size + 1 = _; rw [d3.size, b3.size, a3.size], ?_⟩
  · rw [a1, R.bind_ok]
    unfold place
    rw [b1, R.bind_ok, d1]; rfl
  · exact { capa := d2.capa, univ := d2.univ, quo := d2.quo, hasher := d2.hasher, cu := d2.cu, u0 := d2.u0, u64 := d2.u64, fit := d2.fit, wf := d2.wf, tsize := d2.tsize, twidth := d2.twidth, shift := d2.shift, inv := d2.inv, minc := d2.minc, maxs := d2.maxs }
  · intro r
    show t3.sl cfg r = _
    rw [d4]
    by_cases e1 : r % 2 ^ t.capa.bits = e % 2 ^ t.capa.bits
    · rw [if_pos e1, if_pos e1, b4 e, if_pos rfl, a4 e, if_pos rfl]
    · rw [if_neg e1, if_neg e1, b4, if_neg e1, a4, if_neg e1]

/-- `set` after the capacity check -/
theorem Rep.setCore_ok (h : Rep cfg t d) (hroom : t.size + 1 < 2 ^ t.capa.bits) {k X : Nat} (hk : k < 2 ^ t.univ.bits)
    (hX : X < cfg.valMask) :
    ∃ t' d' flag, t.setCore cfg k X = .ok (t', flag) ∧ Stored cfg t d t' d' flag (SplitMix.H t.univ.bits k) X := by
  have hc := h.core
  have hKu : SplitMix.H t.univ.bits k < 2 ^ t.univ.bits := SplitMix.H_lt hc.u0 hc.u64 hk
  have hX' : X < 2 ^ cfg.valBits := by unfold ChtCfg.valMask at hX; omega
  unfold setCore
  rw [hc.hasher, SplitMix.hash_eq hc.u0 hc.u64 hk, R.bind_ok]
  generalize SplitMix.H t.univ.bits k = K at *
  have hQ : K / 2 ^ t.capa.bits < 2 ^ (t.univ.bits - t.capa.bits) := by
    apply Nat.div_lt_of_lt_mul
    rw [← Nat.pow_add, show t.capa.bits + (t.univ.bits - t.capa.bits) = t.univ.bits by have := hc.cu; omega]
    exact hKu
  obtain ⟨hm1, hm2⟩ := home_pos hc K
  simp only [modOf_eq hc, quoOf_eq]
  generalize K % 2 ^ t.capa.bits + 2 ^ t.capa.bits = m at *
  rw [← hm2, hc.isVacant m, R.bind_ok]
  cases hvm : t.vac cfg m with
  | true =>
    rw [if_pos rfl]
    obtain ⟨t1, a1, a2, a3, a4⟩ := hc.updateSlot m hQ hX' true true
    rw [a1]
    refine ⟨{ t1 with size := t1.size + 1 }, fun p => if p % 2 ^ t.capa.bits = m % 2 ^ t.capa.bits then 0 else d p, true, rfl, ?_⟩
    refine h.of_vacant hroom hm2 hvm hX ?_ a3.capa a3.univ (by show t1.size + 1 = _; rw [a3.size]) a4
    exact { capa := a2.capa, univ := a2.univ, quo := a2.quo, hasher := a2.hasher, cu := a2.cu, u0 := a2.u0, u64 := a2.u64, fit := a2.fit, wf := a2.wf, tsize := a2.tsize, twidth := a2.twidth, shift := a2.shift, inv := a2.inv, minc := a2.minc, maxs := a2.maxs }
  | false =>
    rw [if_neg (by simp)]
    obtain ⟨a, a1, a2, a3, a4, a5⟩ := h.findAss hm1 hvm
    -- positions of the window
    have hw : ∀ r s, a ≤ r → r < a + 2 ^ t.capa.bits → a ≤ s → s < a + 2 ^ t.capa.bits →
        (r % 2 ^ t.capa.bits = s % 2 ^ t.capa.bits ↔ r = s) := by
      intro r s r1 r2 s1 s2
      exact ⟨fun e => window_unique (C := 2 ^ t.capa.bits) (w := a) r1 r2 s1 s2 e, fun e => by rw [e]⟩
    -- a new group whose item is put into slot `e`
    have hnew : ∀ e (t1 : Cht), a ≤ e → e ≤ m → (t.sl cfg (e + 1)).c = true → (a < e → e + d e ≤ m) →
        (∀ r, a < r → (a < e → e + d e < r) → r ≤ m → (t.sl cfg r).v = false) → (t.sl cfg m).v = false →
        Core cfg t1 → Eqv t t1 →
        (∀ r, a ≤ r → r < a + 2 ^ t.capa.bits → t1.sl cfg r = if r < e then { t.sl cfg (r + 1) with v := (t.sl cfg r).v } else t.sl cfg r) →
        ∃ t' d', (t1.setVbit (m % 2 ^ t.capa.bits) true >>= fun s => s.setCbit (e % 2 ^ t.capa.bits) true >>= fun s =>
            s.place cfg (e % 2 ^ t.capa.bits) (K / 2 ^ t.capa.bits) X) = .ok t' ∧ Stored cfg t d t' d' true K X := by
      intro e t1 e1 e2 e3 e4 e5 e6 hc1 he1 hs1
      have c1 : t1.capa = t.capa := he1.capa
      have u1 : t1.univ = t.univ := he1.univ
      obtain ⟨t2, b1, b2, b3, b4⟩ := hc1.setVbit m true
      have c2 : t2.capa = t1.capa := b3.capa
      obtain ⟨t3, f1, f2, f3, f4, f5, f6⟩ := b2.fill e true (Q := K / 2 ^ t.capa.bits) (by rw [b3.univ, c2, c1, u1]; exact hQ) hX'
      rw [c1] at b1 b4
      rw [c2, c1] at f1 f6
      have hs3 : ∀ p, a ≤ p → p < a + 2 ^ t.capa.bits → t3.sl cfg p =
          { v := if p = m then true else (t.sl cfg p).v
            c := if p < e then (t.sl cfg (p + 1)).c else if p = e then true else (t.sl cfg p).c
            x := if p < e then (t.sl cfg (p + 1)).x else if p = e then X else (t.sl cfg p).x
            q := if p < e then (t.sl cfg (p + 1)).q else if p = e then K / 2 ^ t.capa.bits else (t.sl cfg p).q } := by
        intro p p1 p2
        rw [f6 p]
        have h2 : ∀ p, a ≤ p → p < a + 2 ^ t.capa.bits → t2.sl cfg p =
            { t1.sl cfg p with v := if p = m then true else (t.sl cfg p).v } := by
          intro p p1 p2
          rw [b4 p]
          by_cases hpm : p = m
          · rw [if_pos (by rw [hpm]), if_pos hpm, hpm]
          · rw [if_neg (by rw [hw p m p1 p2 (by omega) a2]; exact hpm), if_neg hpm]
            have := hs1 p p1 p2
            have hv1 : (t1.sl cfg p).v = (t.sl cfg p).v := by rw [this]; split <;> rfl
            rw [← hv1]
        by_cases hpe : p = e
        · subst hpe
          rw [if_pos rfl, h2 p p1 p2]
          simp
        · rw [if_neg (by rw [hw p e p1 p2 e1 (by omega)]; exact hpe), h2 p p1 p2, hs1 p p1 p2]
          by_cases hlt : p < e
          · simp [hlt]
          · simp [hlt, hpe]
      obtain ⟨d', hst⟩ := h.of_shift (t' := t3) (β := true) hroom (K := K) (X := X) (fun Y hY => by
          have := h.has_v hm2 hY
          rw [e6] at this; simp at this) hm2 hX hm1 a1 a2 a3 a4 e1 e2 e3 e4 (fun _ => e5) (fun _ => e6) (by simp) f2
        (by rw [f3, c2, c1]) (by rw [f4, b3.univ, u1]) (by rw [f5, b3.size, he1.size])
        (fun p p1 p2 => by rw [hs3 p p1 p2]) (fun p p1 p2 => by rw [hs3 p p1 p2]) (fun p p1 p2 => by rw [hs3 p p1 p2]) (fun p p1 p2 => by rw [hs3 p p1 p2])
      refine ⟨t3, d', ?_, hst⟩
      rw [b1, R.bind_ok]
      exact f1
    rcases a5 with ⟨b1, b2⟩ | ⟨x, e, b1, b2, b3, b4, b5, b6, b7, b8, b9, b10, b11, b12⟩
    · rw [b1, R.bind_ok]
      have hvm' := b2 m a1 (Nat.le_refl _)
      have hfirst := (h.lay.first a a3 (a4 (a + 1) (by omega) (by omega))).1
      obtain ⟨t', d', g1, g2⟩ := hnew a t (Nat.le_refl _) (by omega) hfirst (fun h => absurd h (Nat.lt_irrefl _)) (fun r r1 _ r3 => b2 r r1 r3) hvm' hc (Eqv.refl t)
        (fun r r1 r2 => by rw [if_neg (by omega)])
      obtain ⟨s1, q1, q2⟩ := R.bind_eq_ok g1
      obtain ⟨s2, q3, q4⟩ := R.bind_eq_ok q2
      refine ⟨t', d', true, ?_, g2⟩
      dsimp only
      rw [hc.getVbit m, hvm', R.bind_ok, if_neg (by simp)]
      unfold newGroup
      rw [if_neg (by simp), q1, R.bind_ok, q3, R.bind_ok, R.pure_eq, R.bind_ok]
      dsimp only
      rw [q4]; rfl
    · rw [b1, R.bind_ok]
      dsimp only
      rw [hc.getVbit m, R.bind_ok]
      have hee := b12 e b3 (Nat.le_refl _)
      -- the shift
      obtain ⟨t1, s1, s2, s3, s4⟩ := shiftLeft_ok (cfg := cfg) (e - a) (2 ^ t.capa.bits) a t hc (by omega) (by omega)
      rw [show a + (e - a) = e by omega] at s1 s4
      cases hv : (t.sl cfg m).v with
      | false =>
        rw [if_neg (by simp)]
        have hne : x + d x < m := by
          rcases Nat.lt_or_ge (x + d x) m with h1 | h1
          · exact h1
          · rw [show x + d x = m by omega, hv] at b8; simp at b8
        obtain ⟨t', d', g1, g2⟩ := hnew e t1 (by omega) b4 b10 (fun _ => by omega) (fun r r1 r2 r3 => b9 r (by have := r2 (by omega); omega) r3) hv s2 s3 s4
        obtain ⟨u1, q1, q2⟩ := R.bind_eq_ok g1
        obtain ⟨u2, q3, q4⟩ := R.bind_eq_ok q2
        refine ⟨t', d', true, ?_, g2⟩
        unfold newGroup
        rw [if_pos (mod_ne_max hc x), hc.capa_size, hc.nextCbit b10 (e - x) (2 ^ t.capa.bits) x (by omega) (by omega) b11, R.bind_ok]
        dsimp only
        rw [hc.left e, s1, R.bind_ok, q1, R.bind_ok, q3, R.bind_ok, R.pure_eq, R.bind_ok]
        dsimp only
        rw [q4]; rfl
      | true =>
        rw [if_pos rfl]
        have hxm : x + d x = m := by
          rcases Nat.lt_or_ge (x + d x) m with h1 | h1
          · rw [b9 m h1 (Nat.le_refl _)] at hv; simp at hv
          · omega
        rcases hc.findItem (quo := K / 2 ^ t.capa.bits) b10 (e - x) (2 ^ t.capa.bits) x (by omega) (by omega) b11 with
          ⟨r, r1, r2, r3, r4⟩ | ⟨r1, r2⟩
        · rw [hc.capa_size, r4, R.bind_ok]
          dsimp only
          rw [if_pos rfl]
          obtain ⟨q1, q2⟩ := b12 r r1 r2
          obtain ⟨t2, y1, y2, y3, y4⟩ := hc.setVal r hX'
          rw [y1]
          exact ⟨t2, d, false, rfl, h.of_found q1 r3 (by rw [q2, hxm, hm2]) hX y2 y3 y4⟩
        · rw [hc.capa_size, r2, R.bind_ok]
          dsimp only
          rw [if_neg (by simp)]
          have hno : ∀ Y, ¬ Has cfg t d K Y := by
            intro Y hY
            obtain ⟨p, p1, p2, p3, p4⟩ := h.has_iff.mp hY
            obtain ⟨y, y1, y2, y3⟩ := h.lay.in_group a3 b2 b6 b5 hxm a2 b10 b3 p1 (by rw [p3, hm2])
            exact r1 y y1 y2 (by rw [sl_congr y3]; exact p2)
          have c1 : t1.capa = t.capa := s3.capa
          obtain ⟨t3, f1, f2, f3, f4, f5, f6⟩ := s2.fill e false (Q := K / 2 ^ t.capa.bits) (by rw [c1, s3.univ]; exact hQ) hX'
          rw [c1] at f1 f6
          have hs3 : ∀ p, a ≤ p → p < a + 2 ^ t.capa.bits → t3.sl cfg p =
              { v := if p = m then true else (t.sl cfg p).v
                c := if p < e then (t.sl cfg (p + 1)).c else if p = e then false else (t.sl cfg p).c
                x := if p < e then (t.sl cfg (p + 1)).x else if p = e then X else (t.sl cfg p).x
                q := if p < e then (t.sl cfg (p + 1)).q else if p = e then K / 2 ^ t.capa.bits else (t.sl cfg p).q } := by
            intro p p1 p2
            have hvv : (if p = m then true else (t.sl cfg p).v) = (t.sl cfg p).v := by
              split
              · next e => rw [e, hv]
              · rfl
            rw [hvv, f6 p]
            by_cases hpe : p = e
            · subst hpe
              rw [if_pos rfl, s4 p p1 p2]
              simp
            · rw [if_neg (by rw [hw p e p1 p2 (by omega) (by omega)]; exact hpe), s4 p p1 p2]
              by_cases hlt : p < e
              · simp [hlt]
              · simp [hlt, hpe]
          obtain ⟨d', hst⟩ := h.of_shift (t' := t3) (β := false) hroom (K := K) (X := X) hno hm2 hX hm1 a1 a2 a3 a4
            (by omega) b4 b10 (fun _ => by omega) (by simp) (by simp) (fun _ => ⟨by omega, by omega⟩) f2
            (by rw [f3, c1]) (by rw [f4, s3.univ]) (by rw [f5, s3.size])
            (fun p p1 p2 => by rw [hs3 p p1 p2]) (fun p p1 p2 => by rw [hs3 p p1 p2]) (fun p p1 p2 => by rw [hs3 p p1 p2]) (fun p p1 p2 => by rw [hs3 p p1 p2])
          obtain ⟨u2, q3, q4⟩ := R.bind_eq_ok f1
          refine ⟨t3, d', true, ?_, hst⟩
          unfold growGroup
          dsimp only
          rw [hc.left e, hc.capa_size, s1, R.bind_ok, q3, R.bind_ok, R.pure_eq, R.bind_ok]
          dsimp only
          rw [q4]; rfl

end Poplar.Cht
