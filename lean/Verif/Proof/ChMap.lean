import Verif.Proof.ChClone
/-
  compact_hash_table is a finite map.
-/
namespace Poplar

/-- counting through a bijection -/
theorem cnt_bij {P : Nat → Bool} {N : Nat} {f : Nat → Nat} : ∀ (n : Nat) (Q : Nat → Bool),
    (∀ p < n, P p = true → f p < N ∧ Q (f p) = true) →
    (∀ p < n, ∀ p' < n, P p = true → P p' = true → f p = f p' → p = p') →
    (∀ k < N, Q k = true → ∃ p < n, P p = true ∧ f p = k) → cnt P n = cnt Q N := by
  intro n
  induction n with
  | zero =>
    intro Q _ _ hs
    symm
    apply cnt_zero
    intro k hk
    cases e : Q k with
    | false => rfl
    | true => obtain ⟨p, hp, _⟩ := hs k hk e; omega
  | succ n ih =>
    intro Q hf hi hs
    cases hP : P n with
    | false =>
      have e : cnt P (n + 1) = cnt P n := by show cnt P n + _ = _; rw [hP]; rfl
      rw [e]
      refine ih Q (fun p hp => hf p (by omega)) (fun p hp p' hp' => hi p (by omega) p' (by omega)) ?_
      intro k hk hq
      obtain ⟨p, p1, p2, p3⟩ := hs k hk hq
      have : p ≠ n := by rintro rfl; rw [hP] at p2; simp at p2
      exact ⟨p, by omega, p2, p3⟩
    | true =>
      have e : cnt P (n + 1) = cnt P n + 1 := by show cnt P n + _ = _; rw [hP]; rfl
      obtain ⟨hn1, hn2⟩ := hf n (by omega) hP
      have e2 : cnt Q N = cnt (fun k => Q k && !(k == f n)) N + 1 := by
        refine cnt_set hn1 (by simp) hn2 ?_
        intro i _ hne
        simp [hne]
      rw [e, e2, ih (fun k => Q k && !(k == f n))]
      · intro p hp hPp
        obtain ⟨a, b⟩ := hf p (by omega) hPp
        refine ⟨a, ?_⟩
        have : f p ≠ f n := by intro e; have := hi p (by omega) n (by omega) hPp hP e; omega
        simp [b, this]
      · intro p hp p' hp'
        exact hi p (by omega) p' (by omega)
      · intro k hk hq
        simp only [Bool.and_eq_true, Bool.not_eq_true', beq_eq_false_iff_ne] at hq
        obtain ⟨p, p1, p2, p3⟩ := hs k hk hq.1
        have : p ≠ n := by rintro rfl; exact hq.2 p3.symm
        exact ⟨p, by omega, p2, p3⟩

namespace Cht
open CH

variable {cfg : ChtCfg} {t : Cht} {d : Nat → Nat}

theorem Rep.has_lt (h : Rep cfg t d) {K X : Nat} (hh : Has cfg t d K X) : K < 2 ^ t.univ.bits := by
  obtain ⟨p, -, rfl, -⟩ := hh
  exact h.key_lt p

/-- `size()` is the number of keys -/
theorem Rep.size_keys (h : Rep cfg t d) {Q : Nat → Bool} (hQ : ∀ K, Q K = true ↔ ∃ X, Has cfg t d K X) :
    t.size = cnt Q (2 ^ t.univ.bits) := by
  rw [h.size]
  refine cnt_bij (f := key (2 ^ t.capa.bits) (fun p => (t.sl cfg p).q) d) (2 ^ t.capa.bits) Q ?_ ?_ ?_
  · intro p _ hp
    have hp : t.vac cfg p = false := by simpa using hp
    exact ⟨h.key_lt p, (hQ _).mpr ⟨_, p, hp, rfl, rfl⟩⟩
  · intro p h1 p' h2 hp hp' e
    have := h.uniq p p' (by simpa using hp) (by simpa using hp') e
    rwa [Nat.mod_eq_of_lt h1, Nat.mod_eq_of_lt h2] at this
  · intro k hk hq
    obtain ⟨X, p, p1, p2, -⟩ := (hQ k).mp hq
    refine ⟨p % 2 ^ t.capa.bits, h.core.mod_lt p, ?_, ?_⟩
    · rw [vac_congr (Nat.mod_mod p _), p1]; rfl
    · rw [← p2]
      exact per_congr (key_per (fun p => congrArg Slot.q (sl_per p)) h.lay.pd) (Nat.mod_mod p _)

theorem Rep.size_le {t' : Cht} {d' : Nat → Nat} (h : Rep cfg t d) (h' : Rep cfg t' d') (hu : t'.univ = t.univ)
    (hh : ∀ K X, Has cfg t' d' K X → Has cfg t d K X) : t'.size ≤ t.size := by
  classical
  rw [h.size_keys (Q := fun K => decide (∃ X, Has cfg t d K X)) (by simp),
    h'.size_keys (Q := fun K => decide (∃ X, Has cfg t' d' K X)) (by simp), hu]
  apply cnt_mono
  intro K _ hK
  simp only [decide_eq_true_eq] at hK ⊢
  obtain ⟨X, hX⟩ := hK
  exact ⟨X, hh K X hX⟩

theorem Rep.size_eq {t' : Cht} {d' : Nat → Nat} (h : Rep cfg t d) (h' : Rep cfg t' d') (hu : t'.univ = t.univ)
    (hh : ∀ K X, Has cfg t' d' K X ↔ Has cfg t d K X) : t'.size = t.size := by
  have h1 := h.size_le h' hu (fun K X => (hh K X).mp)
  have h2 := h'.size_le h hu.symm (fun K X => (hh K X).mpr)
  omega

/-- the result of the constructor -/
def fresh (cfg : ChtCfg) (u c : Nat) (v : CompactVector) : Cht :=
  { hasher := SplitMix.std u
    table := v
    size := 0
    maxSize := Poplar.maxSize (2 ^ max cfg.minCapaBits c) cfg.maxFactor
    univ := { bits := u, mask := 2 ^ u - 1 }
    capa := { bits := max cfg.minCapaBits c, mask := 2 ^ max cfg.minCapaBits c - 1 }
    quo := { bits := u - max cfg.minCapaBits c, mask := 2 ^ (u - max cfg.minCapaBits c) - 1 }
    quoShift := 2 + cfg.valBits
    quoInvmask := not64 (shl64 (2 ^ (u - max cfg.minCapaBits c) - 1) (2 + cfg.valBits)) }

/-- a new table is empty -/
theorem make_ok {u c : Nat} (hcu : max cfg.minCapaBits c ≤ u) (hu0 : 0 < u) (hu : u < 64)
    (hfit : u - max cfg.minCapaBits c + cfg.valBits + 2 < 64) :
    ∃ t, make cfg u c = .ok t ∧ Rep cfg t (fun _ => 0) ∧ t.univ.bits = u ∧ t.capa.bits = max cfg.minCapaBits c ∧ t.size = 0 ∧
      ∀ K X, ¬ Has cfg t (fun _ => 0) K X := by
  have hsz : ∀ n, 2 ^ n - 1 + 1 = 2 ^ n := fun n => by have := Nat.two_pow_pos n; omega
  obtain ⟨v, v1, v2, v3, v4, v5⟩ := CompactVector.makeInit_ok (size := 2 ^ max cfg.minCapaBits c)
    (width := u - max cfg.minCapaBits c + cfg.valBits + 2) (init := shl64 cfg.valMask 2 ||| 1) (by omega) hfit init_lt
  refine ⟨fresh cfg u c v, by
    unfold make
    rw [SizeP2.make_ok hu, R.bind_ok, SizeP2.make_ok (by omega), R.bind_ok]
    dsimp only
    rw [if_pos hcu, SizeP2.make_ok (by omega), R.bind_ok, SplitMix.make_ok hu0 hu, R.bind_ok]
    simp only [SizeP2.size, hsz]
    rw [v1, R.bind_ok]
    rfl, ?_⟩
  have hcore : Core cfg (fresh cfg u c v) :=
    { capa := rfl, univ := rfl, quo := rfl, hasher := rfl, cu := hcu, u0 := hu0, u64 := hu, fit := hfit, wf := v2, tsize := v3, twidth := v4, shift := rfl, inv := rfl, minc := Nat.le_max_left _ _, maxs := rfl }
  generalize ht : fresh cfg u c v = t at hcore ⊢
  have e1 : t.capa.bits = max cfg.minCapaBits c := by rw [← ht]; rfl
  have e2 : t.univ.bits = u := by rw [← ht]; rfl
  have e3 : t.size = 0 := by rw [← ht]; rfl
  have e4 : t.table = v := by rw [← ht]; rfl
  have hsl : ∀ p, t.sl cfg p = { v := false, c := true, x := cfg.valMask, q := 0 } := by
    intro p
    unfold sl
    rw [e4, e1, v5 _ (Nat.mod_lt _ (Nat.two_pow_pos _))]
    exact dec_init (by omega)
  have hvac : ∀ p, t.vac cfg p = true := by intro p; unfold vac; rw [hsl]; simp
  refine ⟨⟨hcore, ?_, ?_, ?_⟩, e2, e1, e3, ?_⟩
  · refine { pos := Nat.two_pow_pos _, pvac := ?_, pv := ?_, pc := ?_, pd := fun _ => rfl, room := ⟨0, hvac 0⟩, run := ?_, home := ?_, blank := ?_, same := ?_, next := ?_, first := ?_ }
    · intro p; rw [hvac, hvac]
    · intro p; simp only [hsl]
    · intro p; simp only [hsl]
    · intro p hp; rw [hvac] at hp; simp at hp
    · intro p hp; rw [hvac] at hp; simp at hp
    · intro p _; simp only [hsl]; exact ⟨trivial, trivial⟩
    · intro p hp; rw [hvac] at hp; simp at hp
    · intro p hp; rw [hvac] at hp; simp at hp
    · intro p _ hp; rw [hvac] at hp; simp at hp
  · intro p _ hp; rw [hvac] at hp; simp at hp
  · rw [e3, cnt_zero]; intro i _; rw [hvac]; rfl
  · rintro K X ⟨p, hp, _⟩
    rw [hvac] at hp; simp at hp

/-- outcome of `set` -/
structure SetOK (cfg : ChtCfg) (t : Cht) (d : Nat → Nat) (t' : Cht) (d' : Nat → Nat) (flag : Bool) (K X : Nat) : Prop where
  rep : Rep cfg t' d'
  capa : t.capa.bits ≤ t'.capa.bits
  univ : t'.univ = t.univ
  size : t'.size = t.size + (if flag then 1 else 0)
  le : t'.size ≤ t'.maxSize
  flag : flag = true ↔ ∀ Y, ¬ Has cfg t d K Y
  upd : Upd (Has cfg t d) (Has cfg t' d') K X

theorem Rep.room (hf : FactorOK cfg.minCapaBits cfg.maxFactor) (h : Rep cfg t d) : 2 ≤ t.maxSize ∧ t.maxSize + 2 ≤ 2 ^ t.capa.bits := by
  have := hf.at _ h.core.minc
  rwa [← h.core.maxs] at this

/-- `set` without expansion -/
theorem Rep.setF_simple (hf : FactorOK cfg.minCapaBits cfg.maxFactor) (h : Rep cfg t d) (hlt : t.size < t.maxSize) {k X : Nat}
    (hk : k < 2 ^ t.univ.bits) (hX : X < cfg.valMask) (f : Nat) :
    ∃ t' d' flag, setF cfg (f + 1) t k X = .ok (t', flag) ∧ t'.capa = t.capa ∧ SetOK cfg t d t' d' flag (SplitMix.H t.univ.bits k) X := by
  have hr := h.room hf
  obtain ⟨t', d', flag, e, st⟩ := h.setCore_ok (by omega) hk hX
  refine ⟨t', d', flag, ?_, st.capa, st.rep, by rw [st.capa]; exact Nat.le_refl _, st.univ, st.size, ?_, st.flag, st.upd⟩
  · unfold setF ensure
    rw [R.assert_dec (by rw [h.core.univ_size]; exact hk), R.assert_dec hX, if_neg (by omega)]
    exact e
  · rw [st.rep.core.maxs, st.capa, ← h.core.maxs, st.size]; split <;> omega

theorem Hi_H {u k : Nat} (h0 : 0 < u) (h1 : u < 64) (hk : k < 2 ^ u) : SplitMix.Hi u (SplitMix.H u k) = k := by
  obtain ⟨f, g, h⟩ := SplitMix.bijection h0 h1
  obtain ⟨a1, -, a3, -, a5, -⟩ := h k hk
  have e1 : SplitMix.H u k = f k := by simp [SplitMix.H, a1]
  rw [e1]
  obtain ⟨-, b2, -⟩ := h (f k) a3
  simp [SplitMix.Hi, b2, a5]

theorem Hi_lt {u k : Nat} (h0 : 0 < u) (h1 : u < 64) (hk : k < 2 ^ u) : SplitMix.Hi u k < 2 ^ u ∧ SplitMix.H u (SplitMix.Hi u k) = k := by
  obtain ⟨f, g, h⟩ := SplitMix.bijection h0 h1
  obtain ⟨-, a2, -, a4, -, a6⟩ := h k hk
  have e1 : SplitMix.Hi u k = g k := by simp [SplitMix.Hi, a2]
  rw [e1]
  refine ⟨a4, ?_⟩
  obtain ⟨b1, -⟩ := h (g k) a4
  simp [SplitMix.H, b1, a6]

/-- a step of `clone` stores one more item -/
theorem upd_union {P P' S : Nat → Nat → Prop} {K X : Nat} (hu : Upd P P' K X) (hS : ∀ K' X', P K' X' ↔ S K' X')
    (hun : ∀ Y, S K Y → Y = X) (K' X' : Nat) : P' K' X' ↔ S K' X' ∨ (K' = K ∧ X' = X) := by
  rw [hu K' X']
  split
  · next e =>
    subst e
    constructor
    · rintro rfl; exact Or.inr ⟨rfl, rfl⟩
    · rintro (h | ⟨_, h⟩)
      · exact hun _ h
      · exact h
  · next e => rw [hS]; simp [e]

/-- the expansion in `set` -/
theorem Rep.expand_ok (hf : FactorOK cfg.minCapaBits cfg.maxFactor) (h : Rep cfg t d) (hfull : t.size = t.maxSize)
    (hcap : t.capa.bits < t.univ.bits) (f : Nat) (hX : ∀ K X, Has cfg t d K X → X < cfg.valMask) :
    ∃ t' d', ensure (setF cfg (f + 1)) cfg t = .ok t' ∧ Rep cfg t' d' ∧ t'.capa.bits = t.capa.bits + 1 ∧ t'.univ = t.univ ∧
      t'.size = t.size ∧ ∀ K X, Has cfg t' d' K X ↔ Has cfg t d K X := by
  have hc := h.core
  have hmin := hc.minc
  have hr := h.room hf
  have hfit := hc.fit
  have hmx : max cfg.minCapaBits (t.capa.bits + 1) = t.capa.bits + 1 := by omega
  obtain ⟨n, n1, n2, n3, n4, n5, n6⟩ := make_ok (cfg := cfg) (u := t.univ.bits) (c := t.capa.bits + 1) (by omega) hc.u0 hc.u64 (by omega)
  rw [hmx] at n4
  have hnu : n.univ = t.univ := by rw [n2.core.univ, n3, hc.univ]
  have hd := (maxSize_double (2 ^ t.capa.bits) cfg.maxFactor).1
  have hnm : n.maxSize = Poplar.maxSize (2 * 2 ^ t.capa.bits) cfg.maxFactor := by
    rw [n2.core.maxs, n4, Nat.pow_succ, Nat.mul_comm]
  rw [← hnm, ← hc.maxs] at hd
  have hs : StepOK cfg t d (fun n k v => do let r ← setF cfg (f + 1) n k v; pure r.1)
      (fun S m => ∃ dm, Rep cfg m dm ∧ m.capa = n.capa ∧ m.univ = t.univ ∧ ∀ K X, Has cfg m dm K X ↔ S K X) := by
    rintro S m K X ⟨dm, m1, m2, m3, m4⟩ hS hK hKu
    obtain ⟨hHi, hHHi⟩ := Hi_lt hc.u0 hc.u64 hKu
    have hle := h.size_le m1 m3 (fun K X hh => hS K X ((m4 K X).mp hh))
    have hmm : m.maxSize = n.maxSize := by rw [m1.core.maxs, n2.core.maxs, m2]
    obtain ⟨m', d', flag, e1, e2, e3⟩ := m1.setF_simple hf (by omega) (k := SplitMix.Hi t.univ.bits K) (by rw [m3]; exact hHi) (hX K X hK) f
    refine ⟨m', by dsimp only; rw [e1]; rfl, d', e3.rep, by rw [e2, m2], by rw [e3.univ, m3], ?_⟩
    have hupd := e3.upd
    rw [m3, hHHi] at hupd
    exact upd_union hupd m4 (fun Y hY => h.has_unique (hS K Y hY) hK)
  obtain ⟨t', S, g1, ⟨d', g2, g3, g4, g5⟩, g6⟩ := h.cloneWith_ok hs (fuel := 2 * 2 ^ t.capa.bits) (by omega) (by omega) (by omega) (n := n) n5 (by omega)
    ⟨_, n2, rfl, hnu, fun K X => by simp [n6 K X]⟩ (by
      rintro S n' ⟨dn, q1, q2, q3, q4⟩ q5
      exact (h.size_eq q1 q3 (fun K X => (q4 K X).trans (q5 K X))).symm)
  have hh : ∀ K X, Has cfg t' d' K X ↔ Has cfg t d K X := fun K X => (g5 K X).trans (g6 K X)
  refine ⟨t', d', ?_, g2, by rw [g3, n4], g4, h.size_eq g2 g4 hh, hh⟩
  unfold ensure
  rw [if_pos (by omega), n1, R.bind_ok, hc.capa_size]
  exact g1

/-- `set` -/
theorem Rep.setF_ok (hf : FactorOK cfg.minCapaBits cfg.maxFactor) (h : Rep cfg t d) (hle : t.size ≤ t.maxSize)
    (hcap : t.size < t.maxSize ∨ t.capa.bits < t.univ.bits) (hvals : ∀ K X, Has cfg t d K X → X < cfg.valMask) {k X : Nat}
    (hk : k < 2 ^ t.univ.bits) (hX : X < cfg.valMask) (f : Nat) :
    ∃ t' d' flag, setF cfg (f + 2) t k X = .ok (t', flag) ∧ (t'.maxSize = t.maxSize ∨ t.maxSize < t'.maxSize) ∧
      SetOK cfg t d t' d' flag (SplitMix.H t.univ.bits k) X := by
  rcases Nat.lt_or_ge t.size t.maxSize with hlt | hge
  · obtain ⟨t', d', flag, e1, e2, e3⟩ := h.setF_simple hf hlt hk hX (f + 1)
    exact ⟨t', d', flag, e1, Or.inl (by rw [e3.rep.core.maxs, e2, h.core.maxs]), e3⟩
  · have hcb : t.capa.bits < t.univ.bits := by omega
    obtain ⟨n, dn, n1, n2, n3, n4, n5, n6⟩ := h.expand_ok hf (by omega) hcb f hvals
    have hr := h.room hf
    have hr' := n2.room hf
    have hd := (maxSize_double (2 ^ t.capa.bits) cfg.maxFactor).1
    have hnm : n.maxSize = Poplar.maxSize (2 * 2 ^ t.capa.bits) cfg.maxFactor := by
      rw [n2.core.maxs, n3, Nat.pow_succ, Nat.mul_comm]
    rw [← hnm, ← h.core.maxs] at hd
    obtain ⟨t', d', flag, e, st⟩ := n2.setCore_ok (by omega) (k := k) (by rw [n4]; exact hk) hX
    have hmx : t'.maxSize = n.maxSize := by rw [st.rep.core.maxs, st.capa, n2.core.maxs]
    refine ⟨t', d', flag, ?_, Or.inr (by omega), st.rep, by rw [st.capa, n3]; omega, by rw [st.univ, n4], by rw [st.size, n5], ?_, ?_, ?_⟩
    · unfold setF
      rw [R.assert_dec (by rw [h.core.univ_size]; exact hk), R.assert_dec hX, R.bind_ok, R.bind_ok, n1]
      exact e
    · rw [hmx, st.size]; split <;> omega
    · rw [st.flag, n4]
      exact ⟨fun h' Y x => h' Y ((n6 _ Y).mpr x), fun h' Y x => h' Y ((n6 _ Y).mp x)⟩
    · intro K' Y
      rw [st.upd K' Y, n4, n6]

/-- beyond its universe the table cannot grow -/
theorem Rep.setF_limit (h : Rep cfg t d) (hfull : t.maxSize ≤ t.size) (hcap : t.capa.bits = t.univ.bits) {k X : Nat}
    (hk : k < 2 ^ t.univ.bits) (hX : X < cfg.valMask) (f : Nat) : setF cfg (f + 1) t k X = .error .limit := by
  unfold setF ensure
  rw [R.assert_dec (by rw [h.core.univ_size]; exact hk), R.assert_dec hX, if_pos hfull]
  have : make cfg t.univ.bits (t.capa.bits + 1) = .error .limit := by
    unfold make
    rw [SizeP2.make_ok h.core.u64, R.bind_ok]
    unfold SizeP2.make
    split
    · rw [R.bind_ok]
      dsimp only
      rw [if_neg (by omega)]
    · rfl
  rw [this]; rfl

/-- the table holds the finite map `M` -/
structure Holds (cfg : ChtCfg) (t : Cht) (M : Nat → Option Nat) : Prop where
  rep : ∃ d, Rep cfg t d ∧ ∀ k X, M k = some X ↔ k < 2 ^ t.univ.bits ∧ Has cfg t d (SplitMix.H t.univ.bits k) X
  le : t.size ≤ t.maxSize
  vals : ∀ k X, M k = some X → X < cfg.valMask

theorem Holds.core {M : Nat → Option Nat} (h : Holds cfg t M) : Core cfg t := h.rep.choose_spec.1.core

theorem Holds.key_lt {M : Nat → Option Nat} (h : Holds cfg t M) {k X : Nat} (e : M k = some X) : k < 2 ^ t.univ.bits := by
  obtain ⟨d, -, hM⟩ := h.rep
  exact ((hM k X).mp e).1

theorem Holds.make {u c : Nat} (hcu : max cfg.minCapaBits c ≤ u) (hu0 : 0 < u) (hu : u < 64)
    (hfit : u - max cfg.minCapaBits c + cfg.valBits + 2 < 64) :
    ∃ t, Cht.make cfg u c = .ok t ∧ Holds cfg t (fun _ => none) ∧ t.univ.bits = u ∧ t.capa.bits = max cfg.minCapaBits c ∧ t.size = 0 := by
  obtain ⟨t, t1, t2, t3, t4, t5, t6⟩ := make_ok (cfg := cfg) hcu hu0 hu hfit
  refine ⟨t, t1, ⟨⟨_, t2, ?_⟩, by omega, by simp⟩, t3, t4, t5⟩
  intro k X
  simp only [reduceCtorEq, false_iff]
  rintro ⟨-, h⟩
  exact t6 _ _ h

theorem Holds.get_ok {M : Nat → Option Nat} (h : Holds cfg t M) {k : Nat} (hk : k < 2 ^ t.univ.bits) :
    t.get cfg k = .ok ((M k).getD u64max) := by
  obtain ⟨d, hr, hM⟩ := h.rep
  rcases hr.get_ok hk with ⟨X, h1, h2⟩ | ⟨h1, h2⟩
  · rw [h2, (hM k X).mpr ⟨hk, h1⟩]; rfl
  · rw [h2]
    cases e : M k with
    | none => rfl
    | some X => exact absurd ((hM k X).mp e).2 (h1 X)

/-- `size()` is the number of keys -/
theorem Holds.size_eq {M : Nat → Option Nat} (h : Holds cfg t M) : t.size = cnt (fun k => (M k).isSome) (2 ^ t.univ.bits) := by
  obtain ⟨d, hr, hM⟩ := h.rep
  have hc := hr.core
  classical
  rw [hr.size_keys (Q := fun K => decide (∃ X, Has cfg t d K X)) (by simp)]
  refine cnt_bij (f := SplitMix.Hi t.univ.bits) _ _ ?_ ?_ ?_
  · intro K hK h1
    obtain ⟨X, hX⟩ := of_decide_eq_true h1
    obtain ⟨a, b⟩ := Hi_lt hc.u0 hc.u64 hK
    refine ⟨a, ?_⟩
    rw [(hM _ X).mpr ⟨a, by rw [b]; exact hX⟩]; rfl
  · intro K hK K' hK' _ _ e
    rw [← (Hi_lt hc.u0 hc.u64 hK).2, e, (Hi_lt hc.u0 hc.u64 hK').2]
  · intro k hk h1
    cases e : M k with
    | none => rw [e] at h1; simp at h1
    | some X =>
      refine ⟨SplitMix.H t.univ.bits k, SplitMix.H_lt hc.u0 hc.u64 hk, ?_, Hi_H hc.u0 hc.u64 hk⟩
      simp only [decide_eq_true_eq]
      exact ⟨X, ((hM k X).mp e).2⟩

theorem Holds.has_val {M : Nat → Option Nat} (h : Holds cfg t M) {d : Nat → Nat} (hr : Rep cfg t d)
    (hM : ∀ k X, M k = some X ↔ k < 2 ^ t.univ.bits ∧ Has cfg t d (SplitMix.H t.univ.bits k) X) {K X : Nat} (hh : Has cfg t d K X) :
    X < cfg.valMask := by
  have hK := hr.has_lt hh
  obtain ⟨a, b⟩ := Hi_lt hr.core.u0 hr.core.u64 hK
  exact h.vals (SplitMix.Hi t.univ.bits K) X ((hM _ X).mpr ⟨a, by rw [b]; exact hh⟩)

theorem Holds.setF_ok (hf : FactorOK cfg.minCapaBits cfg.maxFactor) {M : Nat → Option Nat} (h : Holds cfg t M)
    (hcap : t.size < t.maxSize ∨ t.capa.bits < t.univ.bits) {k X : Nat} (hk : k < 2 ^ t.univ.bits) (hX : X < cfg.valMask) (f : Nat) :
    ∃ t', setF cfg (f + 2) t k X = .ok (t', (M k).isNone) ∧ Holds cfg t' (fun j => if j = k then some X else M j) ∧
      t'.univ = t.univ ∧ t.capa.bits ≤ t'.capa.bits ∧ t'.size = t.size + (if (M k).isNone then 1 else 0) ∧
      (t'.maxSize = t.maxSize ∨ t.maxSize < t'.maxSize) := by
  obtain ⟨d, hr, hM⟩ := h.rep
  have hc := hr.core
  obtain ⟨t', d', flag, e1, e2, e3⟩ := hr.setF_ok hf h.le hcap (fun K X hh => h.has_val hr hM hh) hk hX f
  have hflag : flag = (M k).isNone := by
    cases e : M k with
    | none =>
      show flag = true
      rw [e3.flag]
      intro Y hY
      rw [(hM k Y).mpr ⟨hk, hY⟩] at e; simp at e
    | some Y =>
      show flag = false
      cases hfl : flag with
      | false => rfl
      | true => exact absurd ((hM k Y).mp e).2 (e3.flag.mp hfl Y)
  refine ⟨t', by rw [e1, hflag], ⟨⟨d', e3.rep, ?_⟩, e3.le, ?_⟩, e3.univ, e3.capa, by rw [e3.size, hflag], e2⟩
  · intro j Y
    rw [e3.univ, e3.upd]
    by_cases hj : j = k
    · subst hj
      simp only [if_true]
      constructor
      · intro e; cases e; exact ⟨hk, rfl⟩
      · rintro ⟨_, rfl⟩; rfl
    · rw [if_neg hj, hM]
      constructor
      · rintro ⟨a, b⟩
        refine ⟨a, ?_⟩
        rw [if_neg]
        · exact b
        · intro e
          exact hj (by rw [← Hi_H hc.u0 hc.u64 a, e, Hi_H hc.u0 hc.u64 hk])
      · rintro ⟨a, b⟩
        refine ⟨a, ?_⟩
        rw [if_neg] at b
        · exact b
        · intro e
          exact hj (by rw [← Hi_H hc.u0 hc.u64 a, e, Hi_H hc.u0 hc.u64 hk])
  · intro j Y
    split
    · intro e; cases e; exact hX
    · intro e; exact h.vals j Y e

theorem Holds.set_ok (hf : FactorOK cfg.minCapaBits cfg.maxFactor) {M : Nat → Option Nat} (h : Holds cfg t M)
    (hcap : t.size < t.maxSize ∨ t.capa.bits < t.univ.bits) {k X : Nat} (hk : k < 2 ^ t.univ.bits) (hX : X < cfg.valMask) :
    ∃ t', set cfg t k X = .ok (t', (M k).isNone) ∧ Holds cfg t' (fun j => if j = k then some X else M j) ∧
      t'.univ = t.univ ∧ t.capa.bits ≤ t'.capa.bits ∧ t'.size = t.size + (if (M k).isNone then 1 else 0) ∧
      (t'.maxSize = t.maxSize ∨ t.maxSize < t'.maxSize) :=
  h.setF_ok hf hcap hk hX 63

theorem Holds.set_limit {M : Nat → Option Nat} (h : Holds cfg t M) (hfull : t.maxSize ≤ t.size) (hcap : t.capa.bits = t.univ.bits) {k X : Nat}
    (hk : k < 2 ^ t.univ.bits) (hX : X < cfg.valMask) : set cfg t k X = .error .limit := by
  obtain ⟨d, hr, -⟩ := h.rep
  exact hr.setF_limit hfull hcap hk hX 64

/-- `clone` into an empty table for the same universe -/
theorem Holds.clone_ok (hf : FactorOK cfg.minCapaBits cfg.maxFactor) {M : Nat → Option Nat} (h : Holds cfg t M) (hne : t.size ≠ 0)
    {n : Cht} (hn : Holds cfg n (fun _ => none)) (hu : n.univ = t.univ) (hmax : t.size ≤ n.maxSize)
    (hcap : t.size < n.maxSize ∨ n.capa.bits < n.univ.bits) {fuel : Nat} (hfuel : 2 ^ t.capa.bits ≤ fuel) :
    ∃ n', clone cfg fuel t n = .ok n' ∧ Holds cfg n' M ∧ n'.univ = t.univ := by
  obtain ⟨d, hr, hM⟩ := h.rep
  have hc := hr.core
  have hrm := hr.room hf
  obtain ⟨dn, hnr, hnM⟩ := hn.rep
  have hnn : ∀ K X, ¬ Has cfg n dn K X := by
    intro K X hh
    have hK := hnr.has_lt hh
    obtain ⟨a, b⟩ := Hi_lt hnr.core.u0 hnr.core.u64 hK
    have := (hnM (SplitMix.Hi n.univ.bits K) X).mpr ⟨a, by rw [b]; exact hh⟩
    simp at this
  have hvals : ∀ K X, Has cfg t d K X → X < cfg.valMask := fun K X hh => h.has_val hr hM hh
  have hn0 : n.size = 0 := by rw [hn.size_eq]; exact cnt_zero (fun _ _ => rfl)
  have hs : StepOK cfg t d (fun n k v => do let r ← set cfg n k v; pure r.1)
      (fun S m => (∃ dm, Rep cfg m dm ∧ ∀ K X, Has cfg m dm K X ↔ S K X) ∧ m.univ = t.univ ∧ m.size ≤ m.maxSize ∧
        (t.size < m.maxSize ∨ (t.size ≤ m.maxSize ∧ m.capa.bits < m.univ.bits)) ∧ (∀ K X, S K X → Has cfg t d K X)) := by
    rintro S m K X ⟨⟨dm, m1, m2⟩, m3, m4, m5, m6⟩ hS hK hKu
    obtain ⟨hHi, hHHi⟩ := Hi_lt hc.u0 hc.u64 hKu
    have hle := hr.size_le m1 m3 (fun K X hh => hS K X ((m2 K X).mp hh))
    obtain ⟨m', d', flag, e1, e2, e3⟩ := m1.setF_ok hf m4 (by omega) (fun K X hh => hvals K X (hS K X ((m2 K X).mp hh)))
      (k := SplitMix.Hi t.univ.bits K) (by rw [m3]; exact hHi) (hvals K X hK) 63
    have e1' : set cfg m (SplitMix.Hi t.univ.bits K) X = .ok (m', flag) := e1
    refine ⟨m', by dsimp only; rw [e1']; rfl, ⟨d', e3.rep, ?_⟩, by rw [e3.univ, m3], e3.le, ?_, ?_⟩
    · have hupd := e3.upd
      rw [m3, hHHi] at hupd
      exact upd_union hupd m2 (fun Y hY => hr.has_unique (hS K Y hY) hK)
    · rcases e2 with e2 | e2
      · rcases m5 with m5 | ⟨m5, m5'⟩
        · exact Or.inl (by omega)
        · by_cases hlt : t.size < m'.maxSize
          · exact Or.inl hlt
          · refine Or.inr ⟨by omega, ?_⟩
            have hcb : m'.capa.bits = m.capa.bits := by
              have h1 := e3.capa
              rcases Nat.lt_or_ge m.capa.bits m'.capa.bits with h2 | h2
              · exfalso
                have hd := (maxSize_double (2 ^ m.capa.bits) cfg.maxFactor).1
                have hmono : Poplar.maxSize (2 * 2 ^ m.capa.bits) cfg.maxFactor ≤ Poplar.maxSize (2 ^ m'.capa.bits) cfg.maxFactor := by
                  apply maxSize_mono
                  rw [show 2 * 2 ^ m.capa.bits = 2 ^ (m.capa.bits + 1) by rw [Nat.pow_succ, Nat.mul_comm]]
                  exact Nat.pow_le_pow_right (by decide) h2
                rw [← m1.core.maxs] at hd
                rw [← e3.rep.core.maxs] at hmono
                have := m1.room hf
                omega
              · omega
            rw [hcb, e3.univ]; exact m5'
      · exact Or.inl (by rcases m5 with m5 | ⟨m5, _⟩ <;> omega)
    · rintro K' X' (h1 | ⟨rfl, rfl⟩)
      · exact hS K' X' h1
      · exact hK
  obtain ⟨t', S, g1, ⟨⟨d', g2, g3⟩, g4, g5, -, -⟩, g6⟩ := hr.cloneWith_ok hs hfuel (by omega) hne (n := n) hn0 hmax
    ⟨⟨dn, hnr, fun K X => by simp [hnn K X]⟩, hu, hn.le, by omega, fun _ _ h => h.elim⟩ (by
      rintro S n' ⟨⟨dn, q1, q2⟩, q3, -, -, -⟩ q5
      exact (hr.size_eq q1 q3 (fun K X => (q2 K X).trans (q5 K X))).symm)
  refine ⟨t', g1, ⟨⟨d', g2, ?_⟩, g5, h.vals⟩, g4⟩
  intro k X
  rw [g4, hM, g3, g6]

/-- `clone` of an empty table does not terminate -/
theorem Holds.clone_empty (hf : FactorOK cfg.minCapaBits cfg.maxFactor) (h : Holds cfg t (fun _ => none)) {n : Cht} (hn : n.size = 0) (fuel : Nat) :
    clone cfg fuel t n = .error .diverge := by
  obtain ⟨d, hr, hM⟩ := h.rep
  have hc := hr.core
  have hrm := hr.room hf
  have hn0 : t.size = 0 := by rw [h.size_eq]; exact cnt_zero (fun _ _ => rfl)
  have hvac : ∀ p, t.vac cfg p = true := by
    intro p
    cases e : t.vac cfg p with
    | true => rfl
    | false =>
      have := cnt_pos (p := fun p => !t.vac cfg p) (hc.mod_lt p) (by rw [vac_congr (Nat.mod_mod p _), e]; rfl)
      rw [← hr.size] at this; omega
  have hskip : ∀ (beg f p : Nat) (κ : Bool), t.skipVacant cfg beg f (p % 2 ^ t.capa.bits) κ = .error .diverge := by
    intro beg f
    induction f with
    | zero => intro p κ; rfl
    | succ f ih =>
      intro p κ
      unfold skipVacant
      rw [hc.isVacant, R.bind_ok, hvac, if_pos rfl, hc.right]
      exact ih _ _
  obtain ⟨b, hb, hfv⟩ := hc.firstVacant_ok 0 (2 ^ t.capa.bits) 0 (by omega) (hvac _)
  rw [Nat.zero_mod] at hfv
  unfold clone cloneWith
  rw [if_neg (by simpa using hn), if_neg (by omega), hc.capa_size, hfv, R.bind_ok, hc.right]
  unfold cloneLoop
  rw [if_neg (by simp), hskip]; rfl

end Cht
end Poplar
