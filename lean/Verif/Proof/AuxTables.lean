import Verif.Proof.ResizeCount
/-
  The two auxiliary tables of the compact tries are enlarged only when they are full. An argument on the
  control flow alone.
-/
namespace Poplar

theorem SizeP2.make_size {b : Nat} {s : SizeP2} (h : SizeP2.make b = .ok s) : s.size = 2 ^ b := by
  unfold SizeP2.make at h
  split at h <;> cases h
  have := Nat.two_pow_pos b
  simp only [SizeP2.size]; omega

/-- a table of `2^bits` slots holding `size` entries has been doubled, from `2^b0` slots on, only when it
was full -/
def Needed (mf b0 bits size : Nat) : Prop :=
  bits = b0 ∨ (b0 < bits ∧ Poplar.maxSize (2 ^ (bits - 1)) mf ≤ size)

theorem Needed.mono {mf b0 bits s s' : Nat} (h : Needed mf b0 bits s) (hs : s ≤ s') : Needed mf b0 bits s' := by
  rcases h with h | ⟨h1, h2⟩
  · exact Or.inl h
  · exact Or.inr ⟨h1, Nat.le_trans h2 hs⟩

/-- a table doubled because it is full -/
theorem Needed.double {mf b0 bits bits' size : Nat} (h : Needed mf b0 bits size) (hf : Poplar.maxSize (2 ^ bits) mf ≤ size)
    (h' : Needed mf (bits + 1) bits' size) : Needed mf b0 bits' size := by
  have hb : b0 ≤ bits := by rcases h with h | ⟨h, _⟩ <;> omega
  rcases h' with rfl | ⟨h1, h2⟩
  · exact Or.inr ⟨by omega, by rw [Nat.add_sub_cancel]; exact hf⟩
  · exact Or.inr ⟨by omega, h2⟩

namespace Cht

/-- what writing slots leaves alone -/
structure Fr (t t' : Cht) : Prop where
  capa : t'.capa = t.capa
  maxs : t'.maxSize = t.maxSize
  univ : t'.univ = t.univ
  size : t.size ≤ t'.size

variable {cfg : ChtCfg} {t t' : Cht}

theorem Fr.refl (t : Cht) : Fr t t := ⟨rfl, rfl, rfl, Nat.le_refl _⟩

theorem Fr.trans {a b c : Cht} (h : Fr a b) (h' : Fr b c) : Fr a c :=
  ⟨h'.capa.trans h.capa, h'.maxs.trans h.maxs, h'.univ.trans h.univ, Nat.le_trans h.size h'.size⟩

theorem putSlot_fr {i x : Nat} (h : t.putSlot i x = .ok t') : Fr t t' := by
  obtain ⟨_, _, h⟩ := R.bind_eq_ok h
  cases h; exact ⟨rfl, rfl, rfl, Nat.le_refl _⟩

theorem setQuo_fr {i q : Nat} (h : t.setQuo i q = .ok t') : Fr t t' := by
  obtain ⟨_, _, h⟩ := R.bind_eq_ok h
  obtain ⟨_, _, h⟩ := R.bind_eq_ok h
  exact putSlot_fr h

theorem setVal_fr {i v : Nat} (h : t.setVal cfg i v = .ok t') : Fr t t' := by
  obtain ⟨_, _, h⟩ := R.bind_eq_ok h
  obtain ⟨_, _, h⟩ := R.bind_eq_ok h
  exact putSlot_fr h

theorem setVbit_fr {i : Nat} {b : Bool} (h : t.setVbit i b = .ok t') : Fr t t' := by
  obtain ⟨_, _, h⟩ := R.bind_eq_ok h
  exact putSlot_fr h

theorem setCbit_fr {i : Nat} {b : Bool} (h : t.setCbit i b = .ok t') : Fr t t' := by
  obtain ⟨_, _, h⟩ := R.bind_eq_ok h
  exact putSlot_fr h

theorem copyFromRight_fr {i : Nat} (h : t.copyFromRight i = .ok t') : Fr t t' := by
  obtain ⟨_, _, h⟩ := R.bind_eq_ok h
  obtain ⟨_, _, h⟩ := R.bind_eq_ok h
  exact putSlot_fr h

theorem updateSlot_fr {i q v : Nat} {vb cb : Bool} (h : t.updateSlot cfg i q v vb cb = .ok t') : Fr t t' := by
  obtain ⟨_, _, h⟩ := R.bind_eq_ok h
  obtain ⟨_, _, h⟩ := R.bind_eq_ok h
  exact putSlot_fr h

theorem shiftLeft_fr {target : Nat} : ∀ (fuel : Nat) {i : Nat} {t t' : Cht}, shiftLeft target fuel i t = .ok t' → Fr t t' := by
  intro fuel
  induction fuel with
  | zero => intro i t t' h; cases h
  | succ fuel ih =>
    intro i t t' h
    unfold shiftLeft at h
    split at h
    · obtain ⟨t1, h1, h⟩ := R.bind_eq_ok h
      exact (copyFromRight_fr h1).trans (ih h)
    · cases h; exact Fr.refl _

theorem place_fr {i q v : Nat} (h : t.place cfg i q v = .ok t') : Fr t t' := by
  obtain ⟨t1, h1, h⟩ := R.bind_eq_ok h
  obtain ⟨t2, h2, h⟩ := R.bind_eq_ok h
  cases h
  have := (setQuo_fr h1).trans (setVal_fr h2)
  exact ⟨this.capa, this.maxs, this.univ, Nat.le_succ_of_le this.size⟩

theorem newGroup_fr {m s e : Nat} {x : Cht × Nat} (h : t.newGroup m s e = .ok x) : Fr t x.1 := by
  unfold newGroup at h
  split at h
  · obtain ⟨s1, _, h⟩ := R.bind_eq_ok h
    dsimp only at h
    obtain ⟨t1, h1, h⟩ := R.bind_eq_ok h
    obtain ⟨t2, h2, h⟩ := R.bind_eq_ok h
    obtain ⟨t3, h3, h⟩ := R.bind_eq_ok h
    cases h
    exact ((shiftLeft_fr _ h1).trans (setVbit_fr h2)).trans (setCbit_fr h3)
  · obtain ⟨t2, h2, h⟩ := R.bind_eq_ok h
    obtain ⟨t3, h3, h⟩ := R.bind_eq_ok h
    cases h
    exact (setVbit_fr h2).trans (setCbit_fr h3)

theorem growGroup_fr {s e : Nat} {x : Cht × Nat} (h : t.growGroup s e = .ok x) : Fr t x.1 := by
  unfold growGroup at h
  dsimp only at h
  obtain ⟨t1, h1, h⟩ := R.bind_eq_ok h
  obtain ⟨t2, h2, h⟩ := R.bind_eq_ok h
  cases h
  exact (shiftLeft_fr _ h1).trans (setCbit_fr h2)

theorem setCore_fr {k v : Nat} {x : Cht × Bool} (h : t.setCore cfg k v = .ok x) : Fr t x.1 := by
  obtain ⟨y, _, h⟩ := R.bind_eq_ok h
  dsimp only at h
  obtain ⟨b, _, h⟩ := R.bind_eq_ok h
  split at h
  · obtain ⟨t1, h1, h⟩ := R.bind_eq_ok h
    cases h
    have := updateSlot_fr h1
    exact ⟨this.capa, this.maxs, this.univ, Nat.le_succ_of_le this.size⟩
  · obtain ⟨⟨s, e⟩, _, h⟩ := R.bind_eq_ok h
    dsimp only at h
    obtain ⟨b, _, h⟩ := R.bind_eq_ok h
    split at h
    · obtain ⟨⟨f, s1⟩, _, h⟩ := R.bind_eq_ok h
      dsimp only at h
      split at h
      · obtain ⟨t1, h1, h⟩ := R.bind_eq_ok h
        cases h; exact setVal_fr h1
      · obtain ⟨⟨t1, s2⟩, h1, h⟩ := R.bind_eq_ok h
        dsimp only at h
        obtain ⟨t2, h2, h⟩ := R.bind_eq_ok h
        cases h; exact (growGroup_fr h1).trans (place_fr h2)
    · obtain ⟨⟨t1, s2⟩, h1, h⟩ := R.bind_eq_ok h
      dsimp only at h
      obtain ⟨t2, h2, h⟩ := R.bind_eq_ok h
      cases h; exact (newGroup_fr h1).trans (place_fr h2)

section
variable {τ : Type} {Q : τ → Prop} {mapper : τ → Nat → Nat → R τ} (hm : ∀ {n n' k v}, Q n → mapper n k v = .ok n' → Q n')
include hm

theorem cloneGroup_inv {beg ini : Nat} : ∀ (fuel : Nat) {i : Nat} {c : Bool} {n : τ} {x : τ × Nat × Bool}, Q n →
    t.cloneGroup cfg mapper beg ini fuel i c n = .ok x → Q x.1 := by
  intro fuel
  induction fuel with
  | zero => intro i c n x _ h; cases h
  | succ fuel ih =>
    intro i c n x hq h
    obtain ⟨_, _, h⟩ := R.bind_eq_ok h
    obtain ⟨_, _, h⟩ := R.bind_eq_ok h
    obtain ⟨_, _, h⟩ := R.bind_eq_ok h
    obtain ⟨_, _, h⟩ := R.bind_eq_ok h
    obtain ⟨_, _, h⟩ := R.bind_eq_ok h
    obtain ⟨n1, h1, h⟩ := R.bind_eq_ok h
    dsimp only at h
    obtain ⟨b, _, h⟩ := R.bind_eq_ok h
    split at h
    · cases h; exact hm hq h1
    · exact ih (hm hq h1) h

theorem cloneCluster_inv {beg : Nat} : ∀ (fuel : Nat) {i ini : Nat} {c : Bool} {n : τ} {x : τ × Nat × Bool}, Q n →
    t.cloneCluster cfg mapper beg fuel i ini c n = .ok x → Q x.1 := by
  intro fuel
  induction fuel with
  | zero => intro i ini c n x _ h; cases h
  | succ fuel ih =>
    intro i ini c n x hq h
    obtain ⟨_, _, h⟩ := R.bind_eq_ok h
    obtain ⟨⟨n1, i1, c1⟩, h1, h⟩ := R.bind_eq_ok h
    dsimp only at h
    have hq1 := cloneGroup_inv hm _ hq h1
    split at h
    · exact ih hq1 h
    · cases h; exact hq1

theorem cloneLoop_inv {beg vfuel : Nat} : ∀ (fuel : Nat) {i : Nat} {c : Bool} {n n' : τ}, Q n →
    t.cloneLoop cfg mapper beg vfuel fuel i c n = .ok n' → Q n' := by
  intro fuel
  induction fuel with
  | zero => intro i c n n' _ h; cases h
  | succ fuel ih =>
    intro i c n n' hq h
    unfold cloneLoop at h
    split at h
    · cases h; exact hq
    · obtain ⟨⟨i1, c1⟩, _, h⟩ := R.bind_eq_ok h
      dsimp only at h
      obtain ⟨_, _, h⟩ := R.bind_eq_ok h
      obtain ⟨_, _, h⟩ := R.bind_eq_ok h
      obtain ⟨⟨n1, i2, c2⟩, h1, h⟩ := R.bind_eq_ok h
      exact ih (cloneCluster_inv hm _ hq h1) h

end

theorem cloneWith_inv {Q : Cht → Prop} {mapper : Cht → Nat → Nat → R Cht} (hm : ∀ {n n' k v}, Q n → mapper n k v = .ok n' → Q n')
    {fuel : Nat} {n n' : Cht} (hq : Q n) (h : t.cloneWith cfg fuel mapper n = .ok n') : Q n' ∧ n'.size = t.size := by
  unfold cloneWith at h
  split at h
  · cases h
  · split at h
    · cases h
    · obtain ⟨_, _, h⟩ := R.bind_eq_ok h
      obtain ⟨n1, h1, h⟩ := R.bind_eq_ok h
      obtain ⟨_, h2, h⟩ := R.bind_eq_ok h
      cases h
      refine ⟨cloneLoop_inv hm _ hq h1, ?_⟩
      unfold R.assert at h2
      split at h2
      · rename_i h3; simpa using Eq.symm (of_decide_eq_true h3)
      · cases h2

/-- enlarged only as needed, starting with `2^b0` slots -/
def Tight (cfg : ChtCfg) (b0 : Nat) (t : Cht) : Prop :=
  t.maxSize = Poplar.maxSize (2 ^ t.capa.bits) cfg.maxFactor ∧ Needed cfg.maxFactor b0 t.capa.bits t.size

theorem make_tight {u c : Nat} (h : make cfg u c = .ok t) : Tight cfg (max cfg.minCapaBits c) t := by
  obtain ⟨a, _, h⟩ := R.bind_eq_ok h
  obtain ⟨b, h1, h⟩ := R.bind_eq_ok h
  split at h
  · obtain ⟨_, _, h⟩ := R.bind_eq_ok h
    obtain ⟨_, _, h⟩ := R.bind_eq_ok h
    obtain ⟨_, _, h⟩ := R.bind_eq_ok h
    cases h
    have e1 := SizeP2.make_bits h1
    have e2 := SizeP2.make_size h1
    exact ⟨by dsimp only; rw [e1, e2], Or.inl e1⟩
  · cases h

theorem setF_tight : ∀ (f : Nat) {b0 : Nat} {t : Cht} {k v : Nat} {x : Cht × Bool}, cfg.minCapaBits ≤ b0 → Tight cfg b0 t →
    setF cfg f t k v = .ok x → Tight cfg b0 x.1 := by
  intro f
  induction f with
  | zero => intro b0 t k v x _ _ h; cases h
  | succ f ih =>
    intro b0 t k v x hb ht h
    obtain ⟨_, _, h⟩ := R.bind_eq_ok h
    obtain ⟨_, _, h⟩ := R.bind_eq_ok h
    obtain ⟨t1, h1, h⟩ := R.bind_eq_ok h
    have ht1 : Tight cfg b0 t1 := by
      unfold ensure at h1
      split at h1
      · rename_i hfull
        obtain ⟨n, hn, h1⟩ := R.bind_eq_ok h1
        have hb0 : b0 ≤ t.capa.bits := by rcases ht.2 with e | ⟨e, _⟩ <;> omega
        have hn := make_tight hn
        rw [Nat.max_eq_right (by omega)] at hn
        obtain ⟨q1, q2⟩ := cloneWith_inv (Q := Tight cfg (t.capa.bits + 1)) (by
          intro n n' k v hq h
          obtain ⟨r, h2, h⟩ := R.bind_eq_ok h
          cases h
          exact ih (by omega) hq h2) hn h1
        refine ⟨q1.1, ?_⟩
        rw [q2]
        exact ht.2.double (by rw [← ht.1]; exact hfull) (by rw [← q2]; exact q1.2)
      · cases h1; exact ht
    have fr := setCore_fr h
    refine ⟨by rw [fr.capa, fr.maxs]; exact ht1.1, ?_⟩
    rw [fr.capa]; exact ht1.2.mono fr.size

theorem set_tight {b0 k v : Nat} {x : Cht × Bool} (hb : cfg.minCapaBits ≤ b0) (ht : Tight cfg b0 t) (h : set cfg t k v = .ok x) :
    Tight cfg b0 x.1 := setF_tight 65 hb ht h

end Cht

namespace Sht
variable {cfg : ShtCfg} {t t' : Sht}

/-- enlarged only as needed, starting with `2^b0` slots -/
def Tight (cfg : ShtCfg) (b0 : Nat) (t : Sht) : Prop :=
  t.maxSize = Poplar.maxSize (2 ^ t.capa.bits) cfg.maxFactor ∧ Needed cfg.maxFactor b0 t.capa.bits t.size

theorem make_tight {c : Nat} (h : make cfg c = .ok t) : Tight cfg (max cfg.minCapaBits c) t ∧ t.table.size ≠ 0 := by
  obtain ⟨b, h1, h⟩ := R.bind_eq_ok h
  cases h
  have e1 := SizeP2.make_bits h1
  have e2 := SizeP2.make_size h1
  refine ⟨⟨by dsimp only; rw [e1, e2], Or.inl e1⟩, ?_⟩
  rw [Array.size_replicate, e2]
  have := Nat.two_pow_pos (max cfg.minCapaBits c)
  omega

theorem expandLoop_inv {Q : Sht → Prop} {set : Sht → Nat → Nat → R (Sht × Bool)}
    (hs : ∀ {n k v x}, Q n → set n k v = .ok x → Q x.1) : ∀ (l : List (Nat × Nat)) {n n' : Sht}, Q n →
    expandLoop set l n = .ok n' → Q n' := by
  intro l
  induction l with
  | nil => intro n n' hq h; cases h; exact hq
  | cons s l ih =>
    intro n n' hq h
    unfold expandLoop at h
    split at h
    · obtain ⟨r, h1, h⟩ := R.bind_eq_ok h
      exact ih (hs hq h1) h
    · exact ih hq h

theorem wr_len {i : Nat} {x : Nat × Nat} {a b : Array (Nat × Nat)} (h : wr a i x = .ok b) : b.size = a.size := by
  unfold wr at h
  split at h <;> cases h
  exact Array.size_setIfInBounds

theorem setLoop_fr {k v : Nat} {x : Sht × Bool} (h : setLoop cfg t k v = .ok x) :
    x.1.capa = t.capa ∧ x.1.maxSize = t.maxSize ∧ t.size ≤ x.1.size ∧ x.1.table.size = t.table.size := by
  obtain ⟨i, c, h⟩ := probe_body h
  obtain ⟨s, _, h⟩ := R.bind_eq_ok h
  split at h
  · obtain ⟨_, hw, h⟩ := R.bind_eq_ok h
    cases h; exact ⟨rfl, rfl, Nat.le_succ _, wr_len hw⟩
  · split at h
    · obtain ⟨_, hw, h⟩ := R.bind_eq_ok h
      cases h; exact ⟨rfl, rfl, Nat.le_refl _, wr_len hw⟩
    · cases h

theorem setF_tight : ∀ (f : Nat) {b0 : Nat} {t : Sht} {k v : Nat} {x : Sht × Bool}, cfg.minCapaBits ≤ b0 →
    (Tight cfg b0 t ∧ t.table.size ≠ 0) ∨ (t = {} ∧ b0 = cfg.minCapaBits) → setF cfg f t k v = .ok x →
    Tight cfg b0 x.1 ∧ x.1.table.size ≠ 0 := by
  intro f
  induction f with
  | zero => intro b0 t k v x _ _ h; cases h
  | succ f ih =>
    intro b0 t k v x hb ht h
    obtain ⟨t0, h0, h⟩ := R.bind_eq_ok h
    obtain ⟨t1, h1, h⟩ := R.bind_eq_ok h
    have ht0 : Tight cfg b0 t0 ∧ t0.table.size ≠ 0 := by
      unfold lazyInit at h0
      rcases ht with ht | ⟨rfl, rfl⟩
      · rw [if_neg ht.2] at h0; cases h0; exact ht
      · rw [if_pos (show (Sht.table {}).size = 0 from rfl)] at h0
        have := make_tight h0
        rwa [Nat.max_self] at this
    clear ht h0
    have ht1 : Tight cfg b0 t1 ∧ t1.table.size ≠ 0 := by
      obtain ⟨ht, hne⟩ := ht0
      unfold ensure at h1
      split at h1
      · rename_i hfull
        obtain ⟨n, hn, h1⟩ := R.bind_eq_ok h1
        obtain ⟨n1, hn1, h1⟩ := R.bind_eq_ok h1
        obtain ⟨_, h2, h1⟩ := R.bind_eq_ok h1
        cases h1
        have hb0 : b0 ≤ t0.capa.bits := by rcases ht.2 with e | ⟨e, _⟩ <;> omega
        have hn := make_tight hn
        rw [Nat.max_eq_right (by omega)] at hn
        obtain ⟨q1, q3⟩ := expandLoop_inv (Q := fun n => Tight cfg (t0.capa.bits + 1) n ∧ n.table.size ≠ 0) (by
          intro n k v x hq h
          exact ih (by omega) (Or.inl hq) h) _ hn hn1
        have q2 : t1.size = t0.size := by
          unfold R.assert at h2
          split at h2
          · rename_i h3; simpa using Eq.symm (of_decide_eq_true h3)
          · cases h2
        refine ⟨⟨q1.1, ?_⟩, q3⟩
        rw [q2]
        exact ht.2.double (by rw [← ht.1]; exact hfull) (by rw [← q2]; exact q1.2)
      · cases h1; exact ⟨ht, hne⟩
    obtain ⟨a1, a2, a3, a4⟩ := setLoop_fr h
    refine ⟨⟨by rw [a1, a2]; exact ht1.1.1, ?_⟩, by rw [a4]; exact ht1.2⟩
    rw [a1]; exact ht1.1.2.mono a3

/-- not used yet, or enlarged only as needed -/
def Tight0 (cfg : ShtCfg) (t : Sht) : Prop := t = {} ∨ (Tight cfg cfg.minCapaBits t ∧ t.table.size ≠ 0)

theorem set_tight {k v : Nat} {x : Sht × Bool} (ht : Tight0 cfg t) (h : set cfg t k v = .ok x) : Tight0 cfg x.1 :=
  Or.inr (setF_tight 65 (Nat.le_refl _) (ht.elim (fun h => Or.inr ⟨h, rfl⟩) Or.inl) h)

end Sht

namespace DspTable

/-- both auxiliary tables are only as large as needed -/
def Tight (c : DspCfg) (d : DspTable) : Prop := Cht.Tight c.cht 12 d.cht ∧ Sht.Tight0 ShtCfg.std d.map

theorem make_tight {k : DspCfg} {c s : SizeP2} {d : DspTable} (h : make k c s = .ok d) : Tight k d := by
  obtain ⟨v, _, h⟩ := R.bind_eq_ok h
  obtain ⟨t, h1, h⟩ := R.bind_eq_ok h
  cases h
  exact ⟨Cht.make_tight h1, Or.inl rfl⟩

theorem countDsp_tight {k : DspCfg} {d : DspTable} (e : Nat) (hd : Tight k d) : Tight k (d.countDsp k e) := by
  unfold countDsp
  split
  · exact hd
  · split
    · exact hd
    · exact hd

theorem updateSlot_tight {k : DspCfg} {d d' : DspTable} {s i q x : Nat} (hd : Tight k d) (h : d.updateSlot k s i q x = .ok d') : Tight k d' := by
  obtain ⟨_, _, h⟩ := R.bind_eq_ok h
  obtain ⟨_, _, h⟩ := R.bind_eq_ok h
  obtain ⟨_, _, h⟩ := R.bind_eq_ok h
  dsimp only at h
  split at h
  · obtain ⟨_, _, h⟩ := R.bind_eq_ok h
    cases h; exact countDsp_tight x hd
  · split at h
    · obtain ⟨r, h1, h⟩ := R.bind_eq_ok h
      obtain ⟨_, _, h⟩ := R.bind_eq_ok h
      cases h; exact countDsp_tight x ⟨Cht.set_tight (by exact Nat.le_refl 12) hd.1 h1, hd.2⟩
    · obtain ⟨r, h1, h⟩ := R.bind_eq_ok h
      obtain ⟨_, _, h⟩ := R.bind_eq_ok h
      cases h; exact countDsp_tight x ⟨hd.1, Sht.set_tight hd.2 h1⟩

end DspTable

namespace CompactBonsai

theorem make_tight {cfg : CompactCfg} {cb sb : Nat} {t : CompactBonsai} (h : make cfg cb sb = .ok t) : t.d.Tight cfg.dsp := by
  obtain ⟨c, h1, h⟩ := R.bind_eq_ok h
  obtain ⟨s, _, h⟩ := R.bind_eq_ok h
  split at h
  · obtain ⟨_, _, h⟩ := R.bind_eq_ok h
    obtain ⟨d, h2, h⟩ := R.bind_eq_ok h
    cases h
    exact DspTable.make_tight h2
  · cases h

theorem addRoot_tight {cfg : CompactCfg} {t t' : CompactBonsai} (hq : t.d.Tight cfg.dsp) (h : t.addRoot = .ok t') : t'.d.Tight cfg.dsp := by
  obtain ⟨_, _, h⟩ := R.bind_eq_ok h
  cases h
  exact hq

theorem addChild_tight {cfg : CompactCfg} {t : CompactBonsai} {v s : Nat} {x : CompactBonsai × Nat × Bool} (hq : t.d.Tight cfg.dsp)
    (h : addChild cfg t v s = .ok x) : x.1.d.Tight cfg.dsp := by
  obtain ⟨_, _, h⟩ := R.bind_eq_ok h
  obtain ⟨_, _, h⟩ := R.bind_eq_ok h
  obtain ⟨_, _, h⟩ := R.bind_eq_ok h
  obtain ⟨i, c, h⟩ := probe_body h
  unfold addBody at h
  obtain ⟨_, _, h⟩ := R.bind_eq_ok h
  split at h
  · cases h
  · obtain ⟨_, _, h⟩ := R.bind_eq_ok h
    split at h
    · split at h
      · cases h; exact hq
      · obtain ⟨d, h1, h⟩ := R.bind_eq_ok h
        cases h; exact DspTable.updateSlot_tight hq h1
    · obtain ⟨_, _, h⟩ := R.bind_eq_ok h
      obtain ⟨_, _, h⟩ := R.bind_eq_ok h
      split at h
      · cases h; exact hq
      · cases h

theorem expand_tight {cfg : CompactCfg} {t : CompactBonsai} {x : CompactBonsai × NodeMap} (h : expand cfg t = .ok x) :
    x.1.d.Tight cfg.dsp := by
  obtain ⟨n0, h0, h⟩ := R.bind_eq_ok h
  obtain ⟨n1, h1, h⟩ := R.bind_eq_ok h
  dsimp only at h
  obtain ⟨_, _, h⟩ := R.bind_eq_ok h
  obtain ⟨_, _, h⟩ := R.bind_eq_ok h
  obtain ⟨_, _, h⟩ := R.bind_eq_ok h
  obtain ⟨_, _, h⟩ := R.bind_eq_ok h
  obtain ⟨⟨s', t', d'⟩, h2, h⟩ := R.bind_eq_ok h
  cases h
  refine expandLoop_inv (Q := fun t : CompactBonsai => t.d.Tight cfg.dsp) ?_ _ ?_ h2
  · exact fun hq h => addChild_tight hq h
  · have := addRoot_tight (make_tight h0) h1
    exact this

/-- `Counts`, and the auxiliary tables stay as small as needed -/
theorem counts_tight (cfg : CompactCfg) : (ops cfg).Counts cfg.minCapaBits (fun b0 t => Cnt cfg b0 t ∧ t.d.Tight cfg.dsp) where
  out := fun h => (counts cfg).out h.1
  make := fun h => ⟨(counts cfg).make h, make_tight h⟩
  root := fun hq h => ⟨(counts cfg).root hq.1 h, addRoot_tight hq.2 h⟩
  add := fun hq h => ⟨(counts cfg).add hq.1 h, addChild_tight hq.2 h⟩
  expand := fun hk _ _ _ hq h => ⟨(counts cfg).expand hk hq.1 h, expand_tight h⟩

end CompactBonsai

namespace CompactFk

theorem make_tight {cfg : CompactCfg} {cb sb : Nat} {t : CompactFk} (h : make cfg cb sb = .ok t) : t.d.Tight cfg.dsp := by
  obtain ⟨c, h1, h⟩ := R.bind_eq_ok h
  obtain ⟨s, _, h⟩ := R.bind_eq_ok h
  split at h
  · obtain ⟨_, _, h⟩ := R.bind_eq_ok h
    obtain ⟨d, h2, h⟩ := R.bind_eq_ok h
    obtain ⟨_, _, h⟩ := R.bind_eq_ok h
    cases h
    exact DspTable.make_tight h2
  · cases h

theorem addRoot_tight {cfg : CompactCfg} {t t' : CompactFk} (hq : t.d.Tight cfg.dsp) (h : t.addRoot = .ok t') : t'.d.Tight cfg.dsp := by
  obtain ⟨_, _, h⟩ := R.bind_eq_ok h
  cases h
  exact hq

theorem updateSlot_tight {cfg : CompactCfg} {t t' : CompactFk} {i q d v : Nat} (hq : t.d.Tight cfg.dsp) (h : t.updateSlot cfg i q d v = .ok t') : t'.d.Tight cfg.dsp := by
  obtain ⟨_, h1, h⟩ := R.bind_eq_ok h
  obtain ⟨_, _, h⟩ := R.bind_eq_ok h
  cases h; exact DspTable.updateSlot_tight hq h1

theorem expandLoop_tight {cfg : CompactCfg} {t : CompactFk} : ∀ (c : Nat) {i : Nat} {n n' : CompactFk}, n.d.Tight cfg.dsp →
    expandLoop cfg t c i n = .ok n' → n'.d.Tight cfg.dsp := by
  intro c
  induction c with
  | zero => intro i n n' hq h; cases h; exact hq
  | succ c ih =>
    intro i n n' hq h
    obtain ⟨_, _, h⟩ := R.bind_eq_ok h
    split at h
    · exact ih hq h
    · obtain ⟨_, _, h⟩ := R.bind_eq_ok h
      obtain ⟨_, _, h⟩ := R.bind_eq_ok h
      obtain ⟨_, _, h⟩ := R.bind_eq_ok h
      obtain ⟨n1, h1, h⟩ := R.bind_eq_ok h
      refine ih ?_ h
      obtain ⟨i1, c1, h1⟩ := probe_body h1
      obtain ⟨_, _, h1⟩ := R.bind_eq_ok h1
      split at h1
      · obtain ⟨n2, h2, h1⟩ := R.bind_eq_ok h1
        cases h1
        exact updateSlot_tight hq h2
      · cases h1

theorem expandSelf_tight {cfg : CompactCfg} {t t' : CompactFk} (h : expandSelf cfg t = .ok t') : t'.d.Tight cfg.dsp := by
  obtain ⟨n0, h0, h⟩ := R.bind_eq_ok h
  dsimp only at h
  obtain ⟨n1, h1, h⟩ := R.bind_eq_ok h
  cases h
  have h0 := make_tight h0
  have h1 := expandLoop_tight _ (by exact h0) h1
  exact h1

theorem addChild_tight {cfg : CompactCfg} {t : CompactFk} {v s : Nat} {x : CompactFk × Nat × Bool} (hq : t.d.Tight cfg.dsp)
    (h : addChild cfg t v s = .ok x) : x.1.d.Tight cfg.dsp := by
  obtain ⟨_, _, h⟩ := R.bind_eq_ok h
  obtain ⟨_, _, h⟩ := R.bind_eq_ok h
  have cont : ∀ t1 : CompactFk, t1.d.Tight cfg.dsp → (t1.hasher.hash (t1.makeKey v s) >>= fun y =>
      probe t1.capa.mask (t1.addBody cfg (y >>> t1.capa.bits)) t1.capa.size (y &&& t1.capa.mask) 0) = .ok x → x.1.d.Tight cfg.dsp := by
    intro t1 hq1 h
    obtain ⟨_, _, h⟩ := R.bind_eq_ok h
    obtain ⟨i, c, h⟩ := probe_body h
    obtain ⟨_, _, h⟩ := R.bind_eq_ok h
    split at h
    · obtain ⟨t2, h2, h⟩ := R.bind_eq_ok h
      cases h
      have h2 := updateSlot_tight hq1 h2
      exact h2
    · obtain ⟨_, _, h⟩ := R.bind_eq_ok h
      obtain ⟨_, _, h⟩ := R.bind_eq_ok h
      split at h
      · cases h; exact hq1
      · cases h
  dsimp only at h
  split at h
  · obtain ⟨t1, h1, h⟩ := R.bind_eq_ok h
    exact cont t1 (expandSelf_tight h1) h
  · rw [R.pure_eq, R.bind_ok] at h
    exact cont t hq h

/-- `Counts`, and the auxiliary tables stay as small as needed -/
theorem counts_tight (cfg : CompactCfg) : (ops cfg).Counts cfg.minCapaBits (fun b0 t => Cnt cfg b0 t ∧ t.d.Tight cfg.dsp) where
  out := fun h => (counts cfg).out h.1
  make := fun h => ⟨(counts cfg).make h, make_tight h⟩
  root := fun hq h => ⟨(counts cfg).root hq.1 h, addRoot_tight hq.2 h⟩
  add := fun hq h => ⟨(counts cfg).add hq.1 h, addChild_tight hq.2 h⟩
  expand := by intro h; cases h

end CompactFk

theorem Map.run_reach {a : Alias} {p : Params} {i : Init} {m m' : Map a.Trie a.Nlm} {os : List Spec.Op} {xs : List Spec.Out}
    {Q : Nat → a.Trie → Prop} (C : (a.cfg p).T.Counts 16 Q)
    (h0 : a.new p i = .ok m) (h1 : Map.run (a.cfg p) m os = .ok (m', xs)) (hr : m'.isReady = true) : ∃ b0, Q b0 m'.trie := by
  cases i with
  | default =>
    cases h0
    have hm : Map.Counting (a.cfg p) 16 Q 16 (Map.default (a.cfg p)) :=
      ⟨(by intro h; cases h), fun _ => ⟨rfl, by cases a <;> rfl⟩⟩
    exact ⟨_, (Map.run_cnt C os hm h1).1 hr⟩
  | make cb lam =>
    obtain ⟨q1, q2⟩ := Map.make_cnt C h0
    have hm : Map.Counting (a.cfg p) 16 Q (max 16 cb) m :=
      ⟨fun _ => q1, by intro h; rw [q2] at h; cases h⟩
    exact ⟨_, (Map.run_cnt C os hm h1).1 hr⟩

end Poplar
