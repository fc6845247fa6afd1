import Verif.Proof.ChSet
/-
  compact_hash_table: `clone`.
-/
namespace Poplar.Cht
open Poplar CH

variable {cfg : ChtCfg} {t : Cht} {d : Nat → Nat} {τ : Type}

/-- what the caller of `clone` maintains: `J S n` says that the target `n` holds exactly the items `S` -/
def StepOK (cfg : ChtCfg) (t : Cht) (d : Nat → Nat) (mapper : τ → Nat → Nat → R τ) (J : (Nat → Nat → Prop) → τ → Prop) : Prop :=
  ∀ S n K X, J S n → (∀ K' X', S K' X' → Has cfg t d K' X') → Has cfg t d K X → K < 2 ^ t.univ.bits →
    ∃ n', mapper n (SplitMix.Hi t.univ.bits K) X = .ok n' ∧ J (fun K' X' => S K' X' ∨ (K' = K ∧ X' = X)) n'

/-- the items in the positions between `b` and `y` have been handled -/
def Cov (cfg : ChtCfg) (t : Cht) (d : Nat → Nat) (J : (Nat → Nat → Prop) → τ → Prop) (b y : Nat) (n : τ) : Prop :=
  ∃ S, J S n ∧ (∀ K X, S K X → Has cfg t d K X) ∧
    ∀ p, b < p → p < y → t.vac cfg p = false → S (key (2 ^ t.capa.bits) (fun p => (t.sl cfg p).q) d p) (t.sl cfg p).x

variable {J : (Nat → Nat → Prop) → τ → Prop} {mapper : τ → Nat → Nat → R τ} {b : Nat}

theorem Cov.skip {y : Nat} {n : τ} (h : Cov cfg t d J b y n) (hv : t.vac cfg y = true) : Cov cfg t d J b (y + 1) n := by
  obtain ⟨S, h1, h2, h3⟩ := h
  refine ⟨S, h1, h2, ?_⟩
  intro p p1 p2 p3
  rcases Nat.lt_or_ge p y with h4 | h4
  · exact h3 p p1 h4 p3
  · have : p = y := by omega
    subst this
    rw [hv] at p3; simp at p3

theorem Rep.key_lt (h : Rep cfg t d) (p : Nat) : key (2 ^ t.capa.bits) (fun p => (t.sl cfg p).q) d p < 2 ^ t.univ.bits := by
  unfold key
  have h1 := h.core.q_lt p
  have h2 := h.core.mod_lt (p + d p)
  have := Poplar.key_lt h1 h2
  rwa [show t.univ.bits - t.capa.bits + t.capa.bits = t.univ.bits by have := h.core.cu; omega] at this

theorem Rep.cov_step (h : Rep cfg t d) (hs : StepOK cfg t d mapper J) {y : Nat} {n : τ} (hc : Cov cfg t d J b y n)
    (hv : t.vac cfg y = false) :
    ∃ n', mapper n (SplitMix.Hi t.univ.bits (key (2 ^ t.capa.bits) (fun p => (t.sl cfg p).q) d y)) (t.sl cfg y).x = .ok n' ∧
      Cov cfg t d J b (y + 1) n' := by
  obtain ⟨S, h1, h2, h3⟩ := hc
  have hh : Has cfg t d (key (2 ^ t.capa.bits) (fun p => (t.sl cfg p).q) d y) (t.sl cfg y).x := ⟨y, hv, rfl, rfl⟩
  obtain ⟨n', e, hj⟩ := hs S n _ _ h1 h2 hh (h.key_lt y)
  refine ⟨n', e, _, hj, ?_, ?_⟩
  · rintro K X (h4 | ⟨rfl, rfl⟩)
    · exact h2 K X h4
    · exact hh
  · intro p p1 p2 p3
    rcases Nat.lt_or_ge p y with h4 | h4
    · exact Or.inl (h3 p p1 h4 p3)
    · have : p = y := by omega
      subst this
      exact Or.inr ⟨rfl, rfl⟩

/-- everything has been handled after one round -/
theorem Cov.all (h : Rep cfg t d) {y : Nat} {n : τ} (hc : Cov cfg t d J b y n) (hb : t.vac cfg b = true)
    (hy : b + 2 ^ t.capa.bits ≤ y) : ∃ S, J S n ∧ ∀ K X, S K X ↔ Has cfg t d K X := by
  obtain ⟨S, h1, h2, h3⟩ := hc
  refine ⟨S, h1, fun K X => ⟨h2 K X, ?_⟩⟩
  rintro ⟨p, p1, rfl, rfl⟩
  obtain ⟨p', w1, w2, w3⟩ := window (Nat.two_pow_pos t.capa.bits) b p
  have hne : p' ≠ b := by
    rintro rfl
    rw [vac_congr w3, p1] at hb; simp at hb
  have := h3 p' (by omega) (by omega) (by rw [vac_congr w3]; exact p1)
  rw [sl_congr w3] at this
  have hk : key (2 ^ t.capa.bits) (fun p => (t.sl cfg p).q) d p' = key (2 ^ t.capa.bits) (fun p => (t.sl cfg p).q) d p :=
    per_congr (key_per (fun p => congrArg Slot.q (sl_per p)) h.lay.pd) w3
  rw [hk] at this
  exact this

/-- a flag that records whether slot `b` was passed -/
def pass (C b : Nat) (κ : Bool) (y : Nat) : Nat → Bool
  | 0 => κ
  | k + 1 => pass C b κ y k || ((y + (k + 1)) % C == b % C)

theorem pass_shift (C b : Nat) (κ : Bool) (y : Nat) : ∀ k, pass C b (κ || ((y + 1) % C == b % C)) (y + 1) k = pass C b κ y (k + 1) := by
  intro k
  induction k with
  | zero => rfl
  | succ k ih =>
    show (pass C b _ (y + 1) k || _) = (pass C b κ y (k + 1) || _)
    rw [ih, show y + 1 + (k + 1) = y + (k + 1 + 1) by omega]

theorem pass_add (C b : Nat) (κ : Bool) (y j : Nat) : ∀ k, pass C b (pass C b κ y j) (y + j) k = pass C b κ y (j + k) := by
  intro k
  induction k with
  | zero => rfl
  | succ k ih =>
    show (pass C b _ (y + j) k || _) = (pass C b κ y (j + k) || ((y + (j + k + 1)) % C == b % C))
    rw [ih, show y + j + (k + 1) = y + (j + k + 1) by omega]

theorem pass_true (C b y : Nat) : ∀ k, pass C b true y k = true := by
  intro k
  induction k with
  | zero => rfl
  | succ k ih => show (pass C b true y k || _) = true; rw [ih]; rfl

theorem pass_false {C b y : Nat} (h1 : b < y) : ∀ k, y + k < b + C → pass C b false y k = false := by
  intro k
  induction k with
  | zero => intro _; rfl
  | succ k ih =>
    intro h
    show (pass C b false y k || _) = false
    rw [ih (by omega), Bool.false_or, beq_eq_false_iff_ne]
    intro e
    have := window_unique (C := C) (w := b) (by omega) (by omega) (Nat.le_refl _) (by omega) e
    omega

theorem pass_hit {C b y k s : Nat} (κ : Bool) (h0 : 0 < s) (hs : s ≤ k) (h : (y + s) % C = b % C) : pass C b κ y k = true := by
  induction k with
  | zero => omega
  | succ k ih =>
    show (pass C b κ y k || _) = true
    rcases Nat.lt_or_ge k s with h1 | h1
    · have : s = k + 1 := by omega
      subst this
      rw [h]; simp
    · rw [ih h1, Bool.true_or]

theorem Core.firstVacant_ok (h : Core cfg t) : ∀ (k fuel : Nat) (y : Nat), k < fuel → t.vac cfg (y + k) = true →
    ∃ z, t.vac cfg z = true ∧ t.firstVacant cfg fuel (y % 2 ^ t.capa.bits) = .ok (z % 2 ^ t.capa.bits) := by
  intro k
  induction k with
  | zero =>
    intro fuel y hf hv
    obtain ⟨f, rfl⟩ : ∃ f, fuel = f + 1 := ⟨fuel - 1, by omega⟩
    refine ⟨y, hv, ?_⟩
    unfold firstVacant
    rw [h.isVacant, R.bind_ok, show t.vac cfg y = true from hv, if_pos rfl]; rfl
  | succ k ih =>
    intro fuel y hf hv
    obtain ⟨f, rfl⟩ : ∃ f, fuel = f + 1 := ⟨fuel - 1, by omega⟩
    unfold firstVacant
    rw [h.isVacant, R.bind_ok]
    cases hy : t.vac cfg y with
    | true => rw [if_pos rfl]; exact ⟨y, hy, rfl⟩
    | false =>
      rw [if_neg (by simp), h.right]
      exact ih f (y + 1) (by omega) (by rw [show y + 1 + k = y + (k + 1) by omega]; exact hv)

theorem Core.skipVacant_ok (h : Core cfg t) : ∀ (k fuel y : Nat) (κ : Bool), k < fuel → t.vac cfg (y + k) = false →
    (∀ s, s < k → t.vac cfg (y + s) = true) →
    t.skipVacant cfg (b % 2 ^ t.capa.bits) fuel (y % 2 ^ t.capa.bits) κ = .ok ((y + k) % 2 ^ t.capa.bits, pass (2 ^ t.capa.bits) b κ y k) := by
  intro k
  induction k with
  | zero =>
    intro fuel y κ hf hv _
    obtain ⟨f, rfl⟩ : ∃ f, fuel = f + 1 := ⟨fuel - 1, by omega⟩
    unfold skipVacant
    rw [h.isVacant, R.bind_ok, show t.vac cfg y = false from hv, if_neg (by simp)]; rfl
  | succ k ih =>
    intro fuel y κ hf hv hs
    obtain ⟨f, rfl⟩ : ∃ f, fuel = f + 1 := ⟨fuel - 1, by omega⟩
    unfold skipVacant
    rw [h.isVacant, R.bind_ok, show t.vac cfg y = true from hs 0 (by omega), if_pos rfl, h.right]
    dsimp only
    rw [ih f (y + 1) _ (by omega) (by rw [show y + 1 + k = y + (k + 1) by omega]; exact hv)
      (fun s hs' => by rw [show y + 1 + s = y + (s + 1) by omega]; exact hs (s + 1) (by omega)), pass_shift,
      show y + 1 + k = y + (k + 1) by omega]

theorem Core.nextVbit_ok (h : Core cfg t) : ∀ (k fuel w : Nat), k < fuel → (t.sl cfg (w + k)).v = true →
    (∀ s, s < k → (t.sl cfg (w + s)).v = false) →
    t.nextVbit fuel (w % 2 ^ t.capa.bits) = .ok ((w + k) % 2 ^ t.capa.bits) := by
  intro k
  induction k with
  | zero =>
    intro fuel w hf hv _
    obtain ⟨f, rfl⟩ : ∃ f, fuel = f + 1 := ⟨fuel - 1, by omega⟩
    unfold nextVbit
    rw [h.getVbit, R.bind_ok, show (t.sl cfg w).v = true from hv, if_pos rfl]; rfl
  | succ k ih =>
    intro fuel w hf hv hs
    obtain ⟨f, rfl⟩ : ∃ f, fuel = f + 1 := ⟨fuel - 1, by omega⟩
    unfold nextVbit
    rw [h.getVbit, R.bind_ok, show (t.sl cfg w).v = false from hs 0 (by omega), if_neg (by simp), h.right,
      ih f (w + 1) (by omega) (by rw [show w + 1 + k = w + (k + 1) by omega]; exact hv)
      (fun s hs' => by rw [show w + 1 + s = w + (s + 1) by omega]; exact hs (s + 1) (by omega)),
      show w + 1 + k = w + (k + 1) by omega]

/-- the key computed in line 194 -/
theorem Rep.clone_key (h : Rep cfg t d) {y m : Nat} (hm : y + d y = m) :
    t.hasher.hashInv (shl64 (t.sl cfg y).q t.capa.bits ||| m % 2 ^ t.capa.bits) =
      .ok (SplitMix.Hi t.univ.bits (key (2 ^ t.capa.bits) (fun p => (t.sl cfg p).q) d y)) := by
  have hc := h.core
  rw [Poplar.key_eq (h.core.q_lt y) (h.core.mod_lt m) (by have := hc.cu; have := hc.u64; omega), hc.hasher, ← hm]
  exact SplitMix.hashInv_eq hc.u0 hc.u64 (h.key_lt y)

/-- the innermost loop -/
theorem Rep.cloneGroup_ok (h : Rep cfg t d) (hs : StepOK cfg t d mapper J) {e m : Nat} (hce : (t.sl cfg (e + 1)).c = true) :
    ∀ (k fuel y : Nat) (κ : Bool) (n : τ), k < fuel → y + k = e → (∀ r, y < r → r ≤ e → (t.sl cfg r).c = false) →
      (∀ r, y ≤ r → r ≤ e → t.vac cfg r = false ∧ r + d r = m) → Cov cfg t d J b y n →
      ∃ n', t.cloneGroup cfg mapper (b % 2 ^ t.capa.bits) (m % 2 ^ t.capa.bits) fuel (y % 2 ^ t.capa.bits) κ n =
        .ok (n', (e + 1) % 2 ^ t.capa.bits, pass (2 ^ t.capa.bits) b κ y (k + 1)) ∧ Cov cfg t d J b (e + 1) n' := by
  intro k
  induction k with
  | zero =>
    intro fuel y κ n hf he hc hr hcov
    obtain ⟨f, rfl⟩ : ∃ f, fuel = f + 1 := ⟨fuel - 1, by omega⟩
    have : y = e := by omega
    subst this
    obtain ⟨r1, r2⟩ := hr y (Nat.le_refl _) (Nat.le_refl _)
    obtain ⟨n', e1, e2⟩ := h.cov_step hs hcov r1
    refine ⟨n', ?_, e2⟩
    unfold cloneGroup
    rw [h.core.isVacant, R.bind_ok, r1, R.assert_of (by rfl), R.bind_ok, h.core.getQuo, R.bind_ok, h.clone_key r2, R.bind_ok,
      h.core.getVal, R.bind_ok, e1, R.bind_ok]
    dsimp only
    rw [h.core.right, h.core.getCbit, R.bind_ok, hce, if_pos rfl]
    rfl
  | succ k ih =>
    intro fuel y κ n hf he hc hr hcov
    obtain ⟨f, rfl⟩ : ∃ f, fuel = f + 1 := ⟨fuel - 1, by omega⟩
    obtain ⟨r1, r2⟩ := hr y (Nat.le_refl _) (by omega)
    obtain ⟨n1, e1, e2⟩ := h.cov_step hs hcov r1
    obtain ⟨n', g1, g2⟩ := ih f (y + 1) (κ || ((y + 1) % 2 ^ t.capa.bits == b % 2 ^ t.capa.bits)) n1 (by omega) (by omega)
      (fun r a1 a2 => hc r (by omega) a2) (fun r a1 a2 => hr r (by omega) a2) e2
    refine ⟨n', ?_, g2⟩
    unfold cloneGroup
    rw [h.core.isVacant, R.bind_ok, r1, R.assert_of (by rfl), R.bind_ok, h.core.getQuo, R.bind_ok, h.clone_key r2, R.bind_ok,
      h.core.getVal, R.bind_ok, e1, R.bind_ok]
    dsimp only
    rw [h.core.right, h.core.getCbit, R.bind_ok, hc (y + 1) (by omega) (by omega), if_neg (by simp), g1, pass_shift]

/-- `y` is vacant or the first slot of a group whose home is the first virgin bit from `y` on -/
def Start (cfg : ChtCfg) (t : Cht) (d : Nat → Nat) (y : Nat) : Prop :=
  t.vac cfg y = false → (t.sl cfg y).c = true ∧ ∀ s, s < d y → (t.sl cfg (y + s)).v = false

theorem Rep.start_of_vacant (h : Rep cfg t d) {y : Nat} (hv : t.vac cfg y = true) : Start cfg t d (y + 1) := by
  intro h1
  obtain ⟨a, b⟩ := h.lay.first y hv h1
  refine ⟨a, fun s hs => ?_⟩
  rw [show y + 1 + s = y + (s + 1) by omega]
  exact b (s + 1) (by omega) (by omega)

/-- the groups of one cluster -/
theorem Rep.cloneCluster_ok (h : Rep cfg t d) (hs : StepOK cfg t d mapper J) {B : Nat} (hB : t.vac cfg B = true) :
    ∀ (k fuel y w : Nat) (κ : Bool) (n : τ), k < fuel → y + k + 1 = B → B ≤ w + 2 ^ t.capa.bits → B ≤ y + 2 ^ t.capa.bits →
      t.vac cfg y = false → w ≤ y + d y → (∀ s, w + s < y + d y → (t.sl cfg (w + s)).v = false) → Cov cfg t d J b y n →
      ∃ n' z, t.cloneCluster cfg mapper (b % 2 ^ t.capa.bits) fuel (y % 2 ^ t.capa.bits) (w % 2 ^ t.capa.bits) κ n =
        .ok (n', z % 2 ^ t.capa.bits, pass (2 ^ t.capa.bits) b κ y (z - y)) ∧ Cov cfg t d J b z n' ∧ y < z ∧ z ≤ B ∧ Start cfg t d z := by
  intro k
  induction k using Nat.strongRecOn with
  | ind k ih =>
  intro fuel y w κ n hf hk hw hy hv hwy hwv hcov
  obtain ⟨f, rfl⟩ : ∃ f, fuel = f + 1 := ⟨fuel - 1, by omega⟩
  have hC := h.core
  have hhome := h.lay.hlt hB (p := y) (by omega) hv
  have hBy : B ≠ y + 2 ^ t.capa.bits := by
    intro e
    rw [e, h.lay.pvac, hv] at hB; simp at hB
  have hhv := h.lay.home y hv
  obtain ⟨j, hj⟩ : ∃ j, y + d y = w + j := ⟨y + d y - w, by omega⟩
  have hnv := hC.nextVbit_ok j (2 ^ t.capa.bits) w (by omega) (by rw [← hj]; exact hhv) (fun s hs => hwv s (by omega))
  obtain ⟨e, e1, e2, e3, e4, e5⟩ := h.lay.group hB (x := y) (by omega) hv
  obtain ⟨n1, g1, g2⟩ := h.cloneGroup_ok (b := b) hs (m := y + d y) e3 (e - y) (2 ^ t.capa.bits) y κ n (by omega) (by omega) e4 e5 hcov
  obtain ⟨ev, ed⟩ := e5 e e1 (Nat.le_refl _)
  have hrun := h.lay.run y hv
  unfold cloneCluster
  rw [hC.capa_size, hnv, R.bind_ok, ← hj, g1, R.bind_ok]
  dsimp only
  rw [hC.right]
  by_cases hend : e = y + d y
  · rw [if_neg (by rw [hend]; simp)]
    refine ⟨n1, e + 1, ?_, g2, by omega, by omega, ?_⟩
    · rw [show e + 1 - y = e - y + 1 by omega]; rfl
    · intro hz
      have hnx := h.lay.next e ev hz e3
      refine ⟨e3, fun s hs' => ?_⟩
      rw [show e + 1 + s = e + (s + 1) by omega]
      exact hnx.2 (s + 1) (by omega) (by omega)
  · have hlt : e < y + d y := by omega
    rw [if_pos (by
      intro e'
      have := window_unique (C := 2 ^ t.capa.bits) (w := y) (p := e + 1) (q := y + d y + 1) (by omega) (by omega) (by omega) (by omega) e'
      omega)]
    have hv1 : t.vac cfg (e + 1) = false := by
      have := hrun (e + 1 - y) (by omega)
      rwa [show y + (e + 1 - y) = e + 1 by omega] at this
    have hnx := h.lay.next e ev hv1 e3
    have hB1 : e + 1 < B := by
      rcases Nat.lt_or_ge (e + 1) B with h1 | h1
      · exact h1
      · have : e + 1 = B := by omega
        rw [this, hB] at hv1; simp at hv1
    obtain ⟨n', z, q1, q2, q3, q4, q5⟩ := ih (B - (e + 1) - 1) (by omega) f (e + 1) (y + d y + 1) (pass (2 ^ t.capa.bits) b κ y (e - y + 1)) n1
      (by omega) (by omega) (by omega) (by omega) hv1 (by omega) (fun s hs' => by
        have := hnx.2 (y + d y + 1 + s - e) (by omega) (by omega)
        rwa [show e + (y + d y + 1 + s - e) = y + d y + 1 + s by omega] at this) g2
    refine ⟨n', z, ?_, q2, by omega, q4, q5⟩
    rw [q1]
    have hp := pass_add (2 ^ t.capa.bits) b κ y (e - y + 1) (z - (e + 1))
    rw [show y + (e - y + 1) = e + 1 by omega, show e - y + 1 + (z - (e + 1)) = z - y by omega] at hp
    rw [hp]

/-- the outer loop -/
theorem Rep.cloneLoop_ok (h : Rep cfg t d) (hs : StepOK cfg t d mapper J) (hb : t.vac cfg b = true) {vfuel i0 : Nat}
    (hvf : 2 ^ t.capa.bits ≤ vfuel) (hi0 : t.vac cfg i0 = false) :
    ∀ (k fuel y : Nat) (n : τ), k + 1 < fuel → y + k + 1 = b + 2 ^ t.capa.bits → b < y → Start cfg t d y → Cov cfg t d J b y n →
      ∃ n' z, t.cloneLoop cfg mapper (b % 2 ^ t.capa.bits) vfuel fuel (y % 2 ^ t.capa.bits) false n = .ok n' ∧
        Cov cfg t d J b z n' ∧ b + 2 ^ t.capa.bits ≤ z := by
  intro k
  induction k using Nat.strongRecOn with
  | ind k ih =>
  intro fuel y n hf hk hby hst hcov
  obtain ⟨f, rfl⟩ : ∃ f, fuel = f + 1 := ⟨fuel - 1, by omega⟩
  have hC := h.core
  -- the next item
  obtain ⟨j, ⟨hj, hjv⟩, hmin⟩ := LP.least (p := fun j => j < 2 ^ t.capa.bits ∧ t.vac cfg (y + j) = false) (by
    obtain ⟨p, p1, p2, p3⟩ := window (Nat.two_pow_pos t.capa.bits) y i0
    exact ⟨p - y, by omega, by rw [show y + (p - y) = p by omega, vac_congr p3]; exact hi0⟩)
  have hskip : ∀ s, s < j → t.vac cfg (y + s) = true := by
    intro s hs'
    cases e : t.vac cfg (y + s) with
    | true => rfl
    | false => exact absurd ⟨by omega, e⟩ (hmin s hs')
  have hsk := hC.skipVacant_ok (b := b) j vfuel y false (by omega) hjv hskip
  have hcov1 : Cov cfg t d J b (y + j) n := by
    have : ∀ s, s ≤ j → Cov cfg t d J b (y + s) n := by
      intro s
      induction s with
      | zero => intro _; exact hcov
      | succ s ihs => intro hs'; exact (ihs (by omega)).skip (hskip s (by omega))
    exact this j (Nat.le_refl _)
  have hst1 : Start cfg t d (y + j) := by
    rcases Nat.eq_zero_or_pos j with h0 | h0
    · rw [h0]; exact hst
    · have := h.start_of_vacant (hskip (j - 1) (by omega))
      rwa [show y + (j - 1) + 1 = y + j by omega] at this
  -- the end of the cluster
  obtain ⟨l, ⟨hl, hlv⟩, hlmin⟩ := LP.least (p := fun l => l < 2 ^ t.capa.bits ∧ t.vac cfg (y + j + l) = true) (by
    obtain ⟨p, p1, p2, p3⟩ := window (Nat.two_pow_pos t.capa.bits) (y + j) b
    exact ⟨p - (y + j), by omega, by rw [show y + j + (p - (y + j)) = p by omega, vac_congr p3]; exact hb⟩)
  have hl0 : l ≠ 0 := by rintro rfl; rw [show y + j + 0 = y + j from rfl, hjv] at hlv; simp at hlv
  obtain ⟨hc1, hc2⟩ := hst1 hjv
  obtain ⟨n1, z, g1, g2, g3, g4, g5⟩ := h.cloneCluster_ok (b := b) hs hlv (l - 1) (2 ^ t.capa.bits) (y + j) (y + j) (pass (2 ^ t.capa.bits) b false y j) n
    (by omega) (by omega) (by omega) (by omega) hjv (by omega) (fun s hs' => hc2 s (by omega)) hcov1
  have hp := pass_add (2 ^ t.capa.bits) b false y j (z - (y + j))
  rw [show j + (z - (y + j)) = z - y by omega] at hp
  rw [hp] at g1
  have hbC : t.vac cfg (b + 2 ^ t.capa.bits) = true := by rw [h.lay.pvac]; exact hb
  unfold cloneLoop
  rw [if_neg (by simp), hsk, R.bind_ok]
  dsimp only
  rw [hC.getCbit, R.bind_ok, hc1, R.assert_of rfl, R.bind_ok, hC.capa_size, g1, R.bind_ok]
  dsimp only
  have hret : ∀ i m, t.cloneLoop cfg mapper (b % 2 ^ t.capa.bits) vfuel f i true m = .ok m := by
    intro i m
    obtain ⟨f', rfl⟩ : ∃ f', f = f' + 1 := ⟨f - 1, by omega⟩
    unfold cloneLoop
    rw [if_pos rfl]
  by_cases hlast : b + 2 ^ t.capa.bits ≤ z
  · have hpt : pass (2 ^ t.capa.bits) b false y (z - y) = true :=
      pass_hit (s := b + 2 ^ t.capa.bits - y) false (by omega) (by omega) (by
        rw [show y + (b + 2 ^ t.capa.bits - y) = b + 2 ^ t.capa.bits by omega, Nat.add_mod_right])
    rw [hpt, hret]
    exact ⟨n1, z, rfl, g2, hlast⟩
  · rw [pass_false hby (z - y) (by omega)]
    exact ih (b + 2 ^ t.capa.bits - z - 1) (by omega) f z n1 (by omega) (by omega) (by omega) g5 g2

/-- `clone`, up to the final assertion -/
theorem Rep.cloneWith_ok (h : Rep cfg t d) {mapper : Cht → Nat → Nat → R Cht} {J : (Nat → Nat → Prop) → Cht → Prop}
    (hs : StepOK cfg t d mapper J) {fuel : Nat} (hf : 2 ^ t.capa.bits ≤ fuel) (h2 : 2 ≤ 2 ^ t.capa.bits) (hne : t.size ≠ 0) {n : Cht}
    (hn : n.size = 0) (hmax : t.size ≤ n.maxSize) (hJ : J (fun _ _ => False) n)
    (hend : ∀ S n', J S n' → (∀ K X, S K X ↔ Has cfg t d K X) → t.size = n'.size) :
    ∃ n' S, t.cloneWith cfg fuel mapper n = .ok n' ∧ J S n' ∧ ∀ K X, S K X ↔ Has cfg t d K X := by
  have hC := h.core
  -- there is an item
  have hitem : ∃ i, t.vac cfg i = false := by
    apply Classical.byContradiction
    intro e
    apply hne
    rw [h.size]
    apply cnt_zero
    intro i _
    cases e' : t.vac cfg i with
    | true => rfl
    | false => exact absurd ⟨i, e'⟩ e
  obtain ⟨i0, hi0⟩ := hitem
  obtain ⟨p, hp⟩ := h.lay.room
  obtain ⟨p', w1, w2, w3⟩ := window (Nat.two_pow_pos t.capa.bits) 0 p
  obtain ⟨b, hb, hfv⟩ := hC.firstVacant_ok p' (2 ^ t.capa.bits) 0 (by omega) (by rw [Nat.zero_add, vac_congr w3]; exact hp)
  rw [Nat.zero_mod] at hfv
  have hb' : t.vac cfg (b % 2 ^ t.capa.bits) = true := by rw [vac_congr (Nat.mod_mod b _)]; exact hb
  have hcov0 : Cov cfg t d J b (b + 1) n := ⟨_, hJ, fun _ _ h => h.elim, fun p p1 p2 => by omega⟩
  obtain ⟨n', z, l1, l2, l3⟩ := h.cloneLoop_ok hs hb hf hi0 (2 ^ t.capa.bits - 2) (2 ^ t.capa.bits + 1) (b + 1) n (by omega) (by omega) (by omega)
    (h.start_of_vacant hb) hcov0
  obtain ⟨S, s1, s2⟩ := l2.all h hb l3
  refine ⟨n', S, ?_, s1, s2⟩
  unfold cloneWith
  rw [if_neg (by simpa using hn), if_neg (by omega), hC.capa_size, hfv, R.bind_ok, hC.right, l1, R.bind_ok,
    R.assert_dec (hend S n' s1 s2)]
  rfl

end Poplar.Cht
