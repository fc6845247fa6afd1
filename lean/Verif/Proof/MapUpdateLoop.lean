import Verif.Proof.MapUpdate
/-
  The main loop of `update`.
-/
namespace Poplar.Map
open Spec Poplar

variable {τ ν : Type} {cfg : MapCfg τ ν} {sb N vs : Nat} {z0 : Prop} {U : List UInt8 → Prop}

section
variable (TS : TrieSpec cfg.T sb N z0) (NS : NlmSpec cfg.L cfg.T.kind vs)

/-- the walk ended at a missing branch on the byte `c` -/
def StuckAt (M : BP → Option LV) (w : BP × List UInt8) (c : UInt8) : Prop := M w.1 = none ∧ ∃ mt q, w.1 = (mt, c) :: q

/-- result of `update` for a key whose walk ends at `w` -/
def UpdRes (U : List UInt8 → Prop) (m : Map τ ν) (w : BP × List UInt8) (m' : Map τ ν) : UpdOut → Prop
  | .ptr l => PtrAt TS NS m' l w.1 ∧
      ((MM TS NS U m w.1 ≠ none ∧ MM TS NS U m' = MM TS NS U m ∧ m'.size = m.size) ∨
       (MM TS NS U m w.1 = none ∧ MM TS NS U m' = upd (MM TS NS U m) w.1 (w.2, List.replicate vs 0) ∧ m'.size = m.size + 1))
  | .null => False
  | .exn => MM TS NS U m w.1 = none ∧ m.numCodes = 254 ∧ m'.numCodes = 255 ∧ MM TS NS U m' = MM TS NS U m ∧ m'.size = m.size

structure UpdPost (U : List UInt8 → Prop) (m : Map τ ν) (w : BP × List UInt8) (key : List UInt8) (m' : Map τ ν) (r : UpdOut) : Prop where
  inv : SInv TS NS U m'
  lam : m'.lambda = m.lambda
  capa : cfg.T.Grow TS.mf m.trie m'.trie
  keys : m'.size + m'.numSteps + cfg.T.size m.trie = m.size + m.numSteps + cfg.T.size m'.trie
  known : ∀ c, cdOf m'.codes c ≠ 255 ↔ cdOf m.codes c ≠ 255 ∨ StuckAt (MM TS NS U m) w c
  keep : ∀ c, cdOf m.codes c < 255 → cdOf m'.codes c = cdOf m.codes c
  exn : r = .exn ↔ ∃ c, StuckAt (MM TS NS U m) w c ∧ cdOf m.codes c = 255 ∧ m.numCodes = 254
  num : ∀ l, r = .ptr l → m.numCodes < 255 → m'.numCodes < 255
  stab : Stab TS NS m.trie m.nlm m'.trie m'.nlm
  nost : key.length ≤ m.lambda → NoStep TS NS m.trie m.nlm → NoStep TS NS m'.trie m'.nlm
  res : UpdRes TS NS U m w m' r
  idle : MM TS NS U m w.1 ≠ none ∨ r = .exn → Idling cfg m m'
  put : MM TS NS U m w.1 = none → r ≠ .exn → ∃ m2 v, Idling cfg m m2 ∧ putLabel cfg m2 v w.2 = .ok (m', r)
  same : MM TS NS U m w.1 ≠ none → m'.nlm = m.nlm ∧ TS.T m'.trie = TS.T m.trie
  grown : Grown (TS.T m.trie) (TS.T m'.trie) (cfg.T.size m.trie) (cfg.T.size m'.trie) (NewAt m'.lambda (cdOf m'.codes) w.1)
end

variable {TS : TrieSpec cfg.T sb N z0} {NS : NlmSpec cfg.L cfg.T.kind vs}

theorem SInv.assign {m : Map τ ν} (h : SInv TS NS U m) {c : UInt8} (hc : cdOf m.codes c = 255)
    (hn : m.numCodes < 255) :
    SInv TS NS U { m with codes := m.codes.setIfInBounds c.toNat (m.numCodes % 256), numCodes := m.numCodes + 1 } ∧
    MM TS NS U { m with codes := m.codes.setIfInBounds c.toNat (m.numCodes % 256), numCodes := m.numCodes + 1 } = MM TS NS U m := by
  obtain ⟨h1, h2⟩ := h.codes.assign hc hn
  obtain ⟨h3, h4⟩ := h.shape.code h1.inj h2 (Lp := Lp TS NS m.trie m.nlm) (fun p e hp => lp_ne hp)
  have h5 : MM TS NS U { m with codes := m.codes.setIfInBounds c.toNat (m.numCodes % 256), numCodes := m.numCodes + 1 } = MM TS NS U m := by
    simp only [MM, h4]
  refine ⟨⟨h.ready, h.sb8, h.lam, h1, h.core, h.fk, h3, ?_, ?_⟩, h5⟩
  swap
  · rw [h5]; exact h.cnt.mono h2 (fun _ h => h) (fun _ _ v hv => ⟨v, hv⟩)
  intro bp hb hT
  rw [h5]
  obtain ⟨hk, _⟩ := h.shape.known (k := 0) h1.inj h2 hb (by simpa using hT)
  obtain ⟨hf, _⟩ := flat_congr (lam := m.lambda) hk h2
  exact h.lab bp hk (by rw [← hf]; exact hT)

/-- the last part of an iteration: `map.hpp:177-194` -/
theorem updTail {m : Map τ ν} (hU : KeySet vs U) (h : SInv TS NS U m) {bp : BP} {mt : Nat} {c : UInt8} {rest : List UInt8} {node : Nat}
    (hkn : Known (cdOf m.codes) bp) (hc : cdOf m.codes c < 255)
    (hn : TS.T m.trie (List.replicate (mt / m.lambda) 255 ++ flat m.lambda (cdOf m.codes) bp) = some node)
    (hrest : KeyAt U (MM TS NS U m) ((mt, c) :: bp) rest)
    (hz : z0 ∨ flat m.lambda (cdOf m.codes) ((mt, c) :: bp) ≠ [0])
    {lim : Prop} (hlim0 : N ≤ cfg.T.size m.trie → lim)
    (hlim : MM TS NS U m ((mt, c) :: bp) = none → N ≤ cfg.T.size m.trie + 1 → lim)
    {kold : Map τ ν → Nat → R (Map τ ν × UpdOut)} {Q : Map τ ν × UpdOut → Prop}
    (hnew : ∀ m' l, SInv TS NS U m' → m'.lambda = m.lambda → m'.codes = m.codes → m'.numCodes = m.numCodes →
      m'.size = m.size + 1 → m'.numSteps = m.numSteps → cfg.T.size m'.trie = cfg.T.size m.trie + 1 → cfg.T.Grow TS.mf m.trie m'.trie →
      MM TS NS U m ((mt, c) :: bp) = none →
      MM TS NS U m' = upd (MM TS NS U m) ((mt, c) :: bp) (rest, List.replicate vs 0) →
      PtrAt TS NS m' l ((mt, c) :: bp) → Stab TS NS m.trie m.nlm m'.trie m'.nlm →
      (NoStep TS NS m.trie m.nlm → NoStep TS NS m'.trie m'.nlm) →
      (∃ m2 v, Idling cfg m m2 ∧ putLabel cfg m2 v rest = .ok (m', .ptr l)) →
      Grown (TS.T m.trie) (TS.T m'.trie) (cfg.T.size m.trie) (cfg.T.size m'.trie) (fun q => q = flat m.lambda (cdOf m.codes) ((mt, c) :: bp)) →
      Q (m', .ptr l))
    (hold : ∀ t' v', SInv TS NS U { m with trie := t' } → MM TS NS U { m with trie := t' } = MM TS NS U m →
      cfg.T.size t' = cfg.T.size m.trie → cfg.T.Grow TS.mf m.trie t' → Stab TS NS m.trie m.nlm t' m.nlm →
      (NoStep TS NS m.trie m.nlm → NoStep TS NS t' m.nlm) →
      TS.T m.trie (flat m.lambda (cdOf m.codes) ((mt, c) :: bp)) ≠ none →
      TS.T t' (flat m.lambda (cdOf m.codes) ((mt, c) :: bp)) = some v' → TS.T t' = TS.T m.trie →
      Post lim (kold { m with trie := t' } v') Q) :
    Post lim (do
      let symb ← makeSymb cfg m c (mt % m.lambda)
      let x ← cfg.T.addChild m.trie node symb
      if x.2.2 then
        let y ← expandIfNeeded cfg { m with trie := x.1 } x.2.1
        R.assert (cfg.T.kind = .bonsai || y.2 = cfg.L.size y.1.nlm)
        putLabel cfg { y.1 with size := y.1.size + 1 } y.2 rest
      else kold { m with trie := x.1 } x.2.1) Q := by
  have hjl : mt % m.lambda < m.lambda := Nat.mod_lt _ h.lam_pos
  rw [h.makeSymb hc hjl]
  simp only [R.bind_ok]
  have hflat : (cdOf m.codes c + 256 * (mt % m.lambda)) :: (List.replicate (mt / m.lambda) 255 ++ flat m.lambda (cdOf m.codes) bp)
        = flat m.lambda (cdOf m.codes) ((mt, c) :: bp) := rfl
  have hBn : TS.T m.trie (flat m.lambda (cdOf m.codes) ((mt, c) :: bp)) = none → ∀ q e, (mt, c) :: bp <:+ q →
      byBranch m.lambda (cdOf m.codes) (Lp TS NS m.trie m.nlm) q e = none := by
    intro hT q e hq
    simp only [byBranch]
    split
    · apply lp_none
      by_contra hx
      obtain ⟨r, hr⟩ := flat_suffix (lam := m.lambda) (code := cdOf m.codes) hq
      rw [hr] at hx
      exact h.core.prefix_rep hx hT
    · rfl
  refine add_post (NS := NS) (m := m) (knew := fun m1 v1 => do
      R.assert (cfg.T.kind = .bonsai || v1 = cfg.L.size m1.nlm)
      putLabel cfg { m1 with size := m1.size + 1 } v1 rest) (kold := kold) h.core hn (h.symb_lt (by omega) hjl) hz hlim0
    (fun hT => hlim (hBn hT _ _ (List.suffix_refl _))) ?_ ?_
  · intro t1 n1 v1 hN
    have hassert : R.assert (cfg.T.kind = .bonsai || v1 = cfg.L.size n1) = .ok () := by
      apply R.assert_of
      rcases kind_cases cfg.T.kind with hk | hk
      · simp [hk]
      · obtain ⟨f1, f2⟩ := hN.fk hk
        rw [f1, f2, h.fk hk]; simp
    simp only [hassert, R.bind_ok]
    obtain ⟨n2, l, p1, p2, p3, p4, p6, p5, p7⟩ := putLabel_ok (m := { m with trie := t1, nlm := n1, size := m.size + 1 }) (NS := NS)
      hN.core hN.node hN.lab (fun hk => by
        obtain ⟨f1, f2⟩ := hN.fk hk
        simp only; rw [f1, f2, h.fk hk]) (hrest.ok hU)
    rw [p1]
    rw [hflat] at p5 p7 hN
    have hkn' : Known (cdOf m.codes) ((mt, c) :: bp) := Known.cons.2 ⟨hc, hkn⟩
    simp only at p2 p3 p4 p5 p6
    have hLp : ∀ q e, q ≠ flat m.lambda (cdOf m.codes) ((mt, c) :: bp) → Lp TS NS t1 n2 q e = Lp TS NS m.trie m.nlm q e := by
      intro q e hq; rw [p7 q e hq]; exact hN.labs q e
    have hLpf : Lp TS NS t1 n2 (flat m.lambda (cdOf m.codes) ((mt, c) :: bp)) false ≠ none := by
      have h1 : Lp TS NS t1 n2 (flat m.lambda (cdOf m.codes) ((mt, c) :: bp)) rest.isEmpty ≠ none := by rw [p5]; simp
      simp only [Lp, hN.node, Option.bind_some] at h1 ⊢
      exact NS.flag _ _ _ h1
    have hBn := hBn hN.wasNone
    have hnone : MM TS NS U m ((mt, c) :: bp) = none := hBn _ _ (List.suffix_refl _)
    have hMM : MM TS NS U { m with trie := t1, nlm := n2, size := m.size + 1 } =
        upd (MM TS NS U m) ((mt, c) :: bp) (rest, List.replicate vs 0) := by
      refine link_new hU hrest hBn ?_ ?_
      · simp only [byBranch, hkn', if_true]; exact p5
      · intro q e hq
        simp only [byBranch]
        by_cases hb : Known (cdOf m.codes) q
        · simp only [hb, if_true]
          refine hLp _ _ ?_
          intro e2
          exact hq (flat_inj (k := 0) (k' := 0) h.codes.inj hb hkn' (by simpa using e2)).2
        · simp only [hb, if_false]
    refine hnew _ l ⟨h.ready, h.sb8, h.lam, h.codes, p2, ?_, ?_, ?_, ?_⟩ rfl rfl rfl rfl rfl hN.size hN.capa hnone hMM ⟨v1, hN.node, p3⟩ (hN.stab.trans p6) ?_ ⟨{ m with trie := t1, nlm := n1, size := m.size + 1 }, v1, ⟨0, rfl, hN.idle⟩, p1⟩ (.one hN.paths hN.wasNone rfl hN.size)
    · intro hk
      obtain ⟨f1, f2⟩ := hN.fk hk
      simp only [p4 hk, hN.size]; rw [f1, h.fk hk]
    · intro q hq
      rcases (hN.paths q).1 hq with h1 | h1
      · obtain ⟨k, b, s1, s2, s3⟩ := h.shape q h1
        refine ⟨k, b, s1, s2, ?_⟩
        simp only
        rw [hLp]
        · exact s3
        · intro e; rw [e] at h1; exact h1 hN.wasNone
      · exact ⟨0, (mt, c) :: bp, hkn', by rw [h1]; rfl, by simp only; rw [h1]; simpa using hLpf⟩
    · intro b hb hT
      rw [hMM]
      simp only [upd]
      split
      · simp
      next hne =>
        refine h.lab b hb ?_
        rcases (hN.paths _).1 hT with h1 | h1
        · exact h1
        · exact absurd (flat_inj (k := 0) (k' := 0) h.codes.inj hb hkn' (by simpa using h1)).2 hne
    · rw [hMM]
      simp only [hN.size]
      refine h.cnt.add (fun _ _ => rfl) (fun q hq => (hN.paths q).2 (Or.inl hq)) ?_ (bp := (mt, c) :: bp) (j := 0) hkn' ?_ ?_ ?_
      · intro b l0 v0 hb
        refine ⟨v0, ?_⟩
        simp only [upd]
        rw [if_neg]
        · exact hb
        · rintro rfl; rw [hnone] at hb; cases hb
      · exact ⟨rest, List.replicate vs 0, by simp [upd], by simp⟩
      · exact hN.wasNone
      · simp only [List.replicate_zero, List.nil_append]; rw [hN.node]; simp
    · intro hns q hq
      by_cases hqe : q = flat m.lambda (cdOf m.codes) ((mt, c) :: bp)
      · subst hqe; exact hLpf
      · simp only
        rw [hLp _ _ hqe]
        rcases (hN.paths q).1 hq with h1 | h1
        · exact hns q h1
        · exact absurd h1 hqe
  · intro t1 v1 hc1 hE hv1 hT1 hsz hcapa
    have hLp : Lp TS NS t1 m.nlm = Lp TS NS m.trie m.nlm := by
      funext q e; simp only [Lp, hT1]
    refine hold t1 v1 ⟨h.ready, h.sb8, h.lam, h.codes, hc1, ?_, ?_, ?_, ?_⟩ ?_ hsz hcapa (.of_T (fun q i hi => by rw [hT1]; exact hi))
      (fun hns q hq => by rw [hLp]; exact hns q (by rw [← hT1]; exact hq)) hE hv1 (funext hT1)
    · intro hk; simp only [hsz]; exact h.fk hk
    · simp only [hT1, hLp]; exact h.shape
    · simp only [hT1, MM, hLp]; exact h.lab
    · have : TS.T t1 = TS.T m.trie := funext hT1
      simp only [this, hsz, MM, hLp]; exact h.cnt
    · simp only [MM, hLp]

/-- below `lambda` there are no steps -/
theorem updSteps_lt {fuel : Nat} {m : Map τ ν} {node mt : Nat} (h : mt < m.lambda) :
    updSteps cfg (fuel + 1) m node mt = .ok (m, node, mt) := by
  simp only [updSteps]
  rw [if_neg (by omega)]; rfl

theorem updLoop_ok (fuel : Nat) : ∀ {m : Map τ ν} (_ : SInv TS NS U m) (_ : AInv vs U (MM TS NS U m)) (bp : BP) (node : Nat)
    (key : List UInt8) (lim : Prop) (B : Nat), key.length < fuel → KeyAt U (MM TS NS U m) bp key →
    Known (cdOf m.codes) bp → TS.T m.trie (flat m.lambda (cdOf m.codes) bp) = some node →
    (m.numCodes < 255 ∨ ∀ c, StuckAt (MM TS NS U m) (walk (MM TS NS U m) bp key) c → cdOf m.codes c < 255) →
    (z0 ∨ bp ≠ [] ∨ key.head? ≠ some 0 ∨ ∃ l v, MM TS NS U m [] = some (0 :: l, v)) → Bound (MM TS NS U m) m.lambda B →
    (N ≤ B → lim) → (MM TS NS U m (walk (MM TS NS U m) bp key).1 = none → N ≤ B + 1 → lim) →
    Post lim (updLoop cfg fuel m node key) (fun x => UpdPost TS NS U m (walk (MM TS NS U m) bp key) key x.1 x.2) := by
  induction fuel with
  | zero => intro m _ _ bp node key lim B hf; omega
  | succ fuel ih =>
    intro m h hA bp node key lim B hf hkey hkn hn hcodes hz hB hlim0 hlim1
    have hne := h.mm_some hkn (by rw [hn]; simp)
    obtain ⟨⟨l, v⟩, hlv⟩ := Option.ne_none_iff_exists'.1 hne
    obtain ⟨e0, hL⟩ := h.at_node hlv hn
    have hlab := (hA.lab _ _ _ hlv).1
    have hcmp := NS.compare _ _ h.core.nlm node _ l v hL key (hkey.sep hA.univ hlab)
    simp only [updLoop]
    by_cases he : key = l
    · obtain ⟨p, hp1, hp2⟩ := hcmp.1 he
      subst he
      rw [walk_eq hlv, hp1]
      have hfin : UpdPost TS NS U m (bp, key) key m (.ptr p) :=
        ⟨h, rfl, .refl _, rfl, fun c => ⟨Or.inl, fun hc => hc.elim id (fun hs => absurd hs.1 hne)⟩, fun _ _ => rfl,
          ⟨fun e => (by cases e), fun ⟨_, hs, _⟩ => absurd hs.1 hne⟩, fun _ _ hn => hn, .refl _ _, fun _ hns => hns,
          ⟨⟨node, hn, hp2⟩, Or.inl ⟨hne, rfl, rfl⟩⟩, fun _ => .refl _, fun hx => absurd hx hne, fun _ => ⟨rfl, rfl⟩, .refl⟩
      cases hemp : key.isEmpty <;> simp only [R.bind_ok, if_true, if_false, Bool.false_eq_true] <;> exact hfin
    · obtain ⟨hlt, hk2⟩ := hA.step hlv hkey he
      have hlt2 : lcp key l < l.length := by
        rw [lcp_comm]; exact (hkey.sep hA.univ hlab).symm.lcp_lt (Ne.symm he)
      rw [walk_step hlv he hlt] at hcodes hlim1 ⊢
      rw [hcmp.2 he]
      have hemp : key.isEmpty = false := by
        cases key with
        | nil => simp at hlt
        | cons => rfl
      simp only [hemp, Bool.false_eq_true, if_false, R.bind_ok]
      rw [advance, if_pos (by omega)]
      simp only [R.bind_ok]
      generalize hmt : lcp key l = mt at *
      generalize hbc : key[mt] = c at *
      have hcmem : c ∈ key := by rw [← hbc]; exact List.getElem_mem _
      have hrmem : ∀ x ∈ key.drop (mt + 1), x ∈ key := fun x hx => List.mem_of_mem_drop hx
      have hdrop : key.drop mt = c :: key.drop (mt + 1) := by
        rw [List.drop_eq_getElem_cons hlt, hbc]
      simp only [hdrop]
      refine Post.bind (updSteps_ok (TS := TS) (NS := NS) (mt + 1) h bp 0 node mt lim B (by omega) hkn (by simpa using hn)
        ⟨l, v, hlv, by omega⟩ hB hlim0) ?_
      rintro ⟨m1, node1, j1⟩ heqs ⟨s1, s2, s3, s5, s6, s9, s7, s8, s10, s11, s12⟩
      have hid := updSteps_idle _ heqs
      have hm1 : key.length ≤ m.lambda → m1 = m := by
        intro hle
        rw [updSteps_lt (by omega)] at heqs
        injection heqs with heqs
        injection heqs with heqs _
        exact heqs.symm
      simp only [Nat.zero_add] at s1 s2 s3 s5 s6 s7 s8 s9 s10 s11 s12 ⊢
      have hsame : MM TS NS U m ((mt, c) :: bp) ≠ none → m1.nlm = m.nlm ∧ TS.T m1.trie = TS.T m.trie := fun hx => s11 (by
        obtain ⟨e, he⟩ := (h.mm_path hx).2
        rw [he] at hx
        exact h.core.prefix_rep (q := [_]) (lp_ne hx))
      have hcd : cdOf m1.codes = cdOf m.codes := by rw [s2.codes]
      have hstep : ∀ (cd : UInt8 → Nat) (b : BP), (∀ d, cdOf m.codes d < 255 → cd d = cdOf m.codes d) → ((mt, c) :: bp) <:+ b →
          Grown (TS.T m.trie) (TS.T m1.trie) (cfg.T.size m.trie) (cfg.T.size m1.trie) (NewAt m.lambda cd b) := by
        intro cd b h1 h2
        refine s12.imp fun q hq => Or.inr ?_
        obtain ⟨i, i1, i2⟩ := hq
        exact ⟨mt, c, bp, i, h2, i1, by rw [i2, (flat_congr (lam := m.lambda) hkn h1).1]⟩
      rw [s1.codes.rd]
      simp only [R.bind_ok]
      have hz' : z0 ∨ bp ≠ [] ∨ mt ≠ 0 ∨ c ≠ 0 := by
        rcases hz with hz | hz | hz | ⟨l0, v0, hz⟩
        · exact Or.inl hz
        · exact Or.inr (Or.inl hz)
        · right; right
          by_cases h0 : mt = 0
          · right
            rintro rfl
            subst h0
            apply hz
            rw [← hbc]
            cases key with
            | nil => simp at hlt
            | cons x key => simp
          · exact Or.inl h0
        · by_cases hbp : bp = []
          · subst hbp
            rw [hz] at hlv
            injection hlv with hlv
            injection hlv with hlv _
            right; right
            by_cases h0 : mt = 0
            · right
              rintro rfl
              subst h0 hlv
              cases key with
              | nil => simp at hlt
              | cons x key => simp only [List.getElem_cons_zero] at hbc; subst hbc; simp [lcp] at hmt
            · exact Or.inl h0
          · exact Or.inr (Or.inl hbp)
      have hz1 : z0 ∨ flat m.lambda (cdOf m.codes) ((mt, c) :: bp) ≠ [0] ∨ cdOf m.codes c = 255 := by
        rcases hz' with hz | hz | hz
        · exact Or.inl hz
        · right; left; intro e; simp only [flat] at e
          injection e with e1 e2
          have := List.append_eq_nil_iff.1 e2
          cases bp with
          | nil => exact hz rfl
          | cons y b => simp [flat] at this
        · by_cases h0 : c = 0
          · right; left
            intro e; simp only [flat] at e
            injection e with e1 e2
            have e3 := List.append_eq_nil_iff.1 e2
            have e4 : mt / m.lambda = 0 := by simpa using e3.1
            have e5 : mt % m.lambda = 0 := by omega
            have e6 : mt = 0 := by
              have := Nat.div_add_mod mt m.lambda; rw [e4, e5] at this; omega
            rcases hz with hz | hz
            · exact hz e6
            · exact hz h0
          · by_cases h1 : cdOf m.codes c = 255
            · exact Or.inr (Or.inr h1)
            · right; left
              intro e; simp only [flat] at e
              injection e with e1 e2
              have : cdOf m.codes c = cdOf m.codes 0 := by rw [h.codes.zero]; omega
              exact h0 (h.codes.inj c 0 (by have := h.codes.le255 c; omega) this)
      -- the part after the code table update
      have hmain : ∀ m2 : Map τ ν, SInv TS NS U m2 → MM TS NS U m2 = MM TS NS U m → m2.lambda = m.lambda → m2.size = m.size → m2.numSteps = m1.numSteps →
          m2.trie = m1.trie → m2.nlm = m1.nlm → cdOf m2.codes c < 255 →
          (∀ d, cdOf m2.codes d ≠ 255 ↔ cdOf m.codes d ≠ 255 ∨ d = c) → (cdOf m.codes c = 255 → m.numCodes ≠ 254) →
          (∀ d, cdOf m.codes d < 255 → cdOf m2.codes d = cdOf m.codes d) →
          (z0 ∨ flat m2.lambda (cdOf m2.codes) ((mt, c) :: bp) ≠ [0]) →
          (cdOf m.codes c < 255 → m2.numCodes = m.numCodes ∧ m2.codes = m.codes) →
          (m.numCodes < 255 → m2.numCodes < 255) →
          Post lim (do
            let symb ← makeSymb cfg m2 c (mt % m2.lambda)
            let x ← cfg.T.addChild m2.trie node1 symb
            if x.2.2 then
              let y ← expandIfNeeded cfg { m2 with trie := x.1 } x.2.1
              R.assert (cfg.T.kind = .bonsai || y.2 = cfg.L.size y.1.nlm)
              putLabel cfg { y.1 with size := y.1.size + 1 } y.2 (key.drop (mt + 1))
            else updLoop cfg fuel { m2 with trie := x.1 } x.2.1 (key.drop (mt + 1)))
          (fun x => UpdPost TS NS U m (walk (MM TS NS U m) ((mt, c) :: bp) (key.drop (mt + 1))) key x.1 x.2) := by
        intro m2 i2 e1 e2 e3 e15 e4 e13 e5 e6 e14 e7 e8 e9 e12
        obtain ⟨hkf, hkk⟩ := flat_congr (lam := m.lambda) hkn e7
        have hid2 : Idling cfg m1 m2 := ⟨0, e15, by rw [e13]; exact .refl _⟩
        have hle : cfg.T.size m2.trie ≤ B := i2.cnt.le (by rw [e1, e2]; exact hB)
        refine updTail (kold := fun m3 v3 => updLoop cfg fuel m3 v3 (key.drop (mt + 1))) hA.univ i2 hkk e5 ?_ (by rw [e1]; exact hk2) e8 (fun hN => hlim0 (Nat.le_trans hN hle)) (fun hx hN => hlim1 ?_ (by omega)) ?_ ?_
        · rw [e2, hkf, e4]; exact s7
        · rw [e1] at hx; rw [walk_none hx]; exact hx
        · intro m3 l3 q1 q2 q3 q4 q5 q13 q6 q7 q8 q9 q10 q11 q12 q14 q15
          rw [e4, e13] at q11 q12
          rw [e1] at q8 q9
          have hst : ∀ d, StuckAt (MM TS NS U m) (walk (MM TS NS U m) ((mt, c) :: bp) (key.drop (mt + 1))) d ↔ d = c := by
            intro d
            rw [walk_none q8]
            constructor
            · rintro ⟨_, _, _, e⟩
              injection e with e _
              injection e with _ e
              exact e.symm
            · rintro rfl; exact ⟨q8, mt, bp, rfl⟩
          refine ⟨q1, q2.trans e2, ?_, ?_, ?_, ?_, ⟨fun e => (by cases e), ?_⟩, fun _ _ hn => by rw [q4]; exact e12 hn, s9.trans q11, fun hle hns => q12 (by rw [hm1 hle]; exact hns), ?_, ?_, ?_, ?_, ?_⟩
          · show cfg.T.Grow TS.mf m.trie m3.trie
            rw [e4] at q7; exact s5.trans q7
          · rw [q5, q13, q6, e3, e15, e4]; omega
          · intro d; rw [q3, hst]; exact e6 d
          · rw [q3]; exact e7
          · rintro ⟨d, d1, d2, d3⟩
            rw [hst] at d1; subst d1
            exact absurd d3 (e14 d2)
          · rw [walk_none q8]
            exact ⟨q10, Or.inr ⟨q8, q9, by rw [q5, e3]⟩⟩
          · rw [walk_none q8]; rintro (hx | hx)
            · exact absurd q8 hx
            · cases hx
          · rw [walk_none q8]; intro _ _
            obtain ⟨m5, v5, z1, z2⟩ := q14
            exact ⟨m5, v5, (hid.trans hid2).trans z1, z2⟩
          · rw [walk_none q8]; intro hx; exact absurd q8 hx
          · rw [walk_none q8, q2, q3, e2]
            rw [e2, e4] at q15
            exact (hstep _ _ e7 (List.suffix_refl _)).trans (q15.imp fun q hq => Or.inl hq)
        · intro t3 v3 q1 q2 q3 q4 q7 q8 q5 q6 q9
          rw [e4, e13] at q7 q8
          -- the child existed: no code was assigned
          have hcold : cdOf m.codes c < 255 := by
            have hEm : TS.T m1.trie (flat m2.lambda (cdOf m2.codes) ((mt, c) :: bp)) ≠ none := by
              rw [← e4]; exact q5
            have := (s1.shape.known (code' := cdOf m2.codes) i2.codes.inj (fun d hd => by rw [hcd] at hd ⊢; exact e7 d hd)
              (k := 0) (bp := (mt, c) :: bp) (Known.cons.2 ⟨e5, hkk⟩) (by simp only [List.replicate_zero, List.nil_append]; rw [s2.lam, ← e2]; exact hEm)).1
            have := (Known.cons.1 this).1
            rw [hcd] at this; exact this
          obtain ⟨e10, e11⟩ := e9 hcold
          refine (ih q1 (by rw [q2, e1]; exact hA) ((mt, c) :: bp) v3 (key.drop (mt + 1)) lim B (by simp; omega) (by rw [q2, e1]; exact hk2)
            (Known.cons.2 ⟨e5, hkk⟩) q6 ?_ (Or.inr (Or.inl (by simp))) (by rw [q2, e1]; simp only [e2]; exact hB) hlim0 (by rw [q2, e1]; exact hlim1)).imp ?_
          · rw [q2, e1]
            simp only [e10, e11]
            exact hcodes
          · rintro ⟨m4, r4⟩ ⟨w1, w2, w4, w11, w5, w6, w7, w9, w10, w12, w8, w13, w14, w15, w16⟩
            have hid3 : ∀ m5 : Map τ ν, Idling cfg { m2 with trie := t3 } m5 → Idling cfg m m5 := fun m5 h5 =>
              (hid.trans hid2).trans (Idling.trans ⟨0, rfl, .refl _⟩ h5)
            simp only [q2, e1, q3, e4, List.length_drop] at w1 w2 w4 w5 w6 w7 w8 w9 w10 w11 w12 w13 w14 w15 w16 ⊢
            rw [e13] at w10 w12
            have w11' : m4.size + m4.numSteps + cfg.T.size m.trie = m.size + m.numSteps + cfg.T.size m4.trie := by
              clear w7; rw [e3, e15] at w11; omega
            have hlen : key.length ≤ m.lambda → key.length - (mt + 1) ≤ m2.lambda := by clear w7; omega
            refine ⟨w1, w2.trans e2, ?_, w11', ?_, ?_, ?_, fun l hl hn => w9 l hl (e12 hn), s9.trans (q7.trans w10), fun hle hns => w12 (hlen hle) (q8 (by rw [hm1 hle]; exact hns)), ?_, fun hx => hid3 _ (w13 hx), fun hx1 hx2 => ?_, fun hx => ?_, ?_⟩
            · rw [e4] at q4; exact s5.trans (q4.trans w4)
            · intro d; rw [w5 d, e11]
            · intro d hd
              rw [w6 d (by rw [e7 d hd]; exact hd), e7 d hd]
            · rw [w7, e10, e11]
            · cases r4 with
              | ptr l4 =>
                simp only [UpdRes] at w8 ⊢; rw [q2, e1] at w8; simp only [e3] at w8; exact w8
              | null => exact w8
              | exn => simp only [UpdRes] at w8 ⊢; rw [q2, e1] at w8; simp only [e3, e10] at w8; exact w8
            · obtain ⟨m5, v5, z1, z2⟩ := w14 hx1 hx2
              exact ⟨m5, v5, hid3 _ z1, z2⟩
            · obtain ⟨x1, x2⟩ := w15 hx
              obtain ⟨x3, x4⟩ := hsame (by intro hn; rw [walk_none hn] at hx; exact hx hn)
              exact ⟨x1.trans (e13.trans x3), by rw [x2, q9, e4, x4]⟩
            · rw [q9, e4] at w16
              rw [w2, e2] at w16 ⊢
              refine Grown.trans (hstep _ _ (fun d hd => by rw [w6 d (by rw [e7 d hd]; exact hd), e7 d hd]) ?_) w16
              exact (walk_post hA _ _ hk2).1
      by_cases hunk : cdOf m1.codes c = 255
      · have hnone : MM TS NS U m ((mt, c) :: bp) = none := by
          by_contra hx
          have := (Known.cons.1 (h.mm_path hx).1).1
          rw [hcd] at hunk; simp only at this; omega
        have hn1 : m1.numCodes < 255 := by
          rw [s2.numCodes]
          rcases hcodes with hc | hc
          · exact hc
          · have := hc c ⟨by rw [walk_none hnone]; exact hnone, mt, bp, by rw [walk_none hnone]⟩; rw [hcd] at hunk; omega
        obtain ⟨a1, a2⟩ := s1.assign hunk hn1
        obtain ⟨_, a4⟩ := s1.codes.assign hunk hn1
        have hset := cdOf_set s1.codes.size c
        have a5 : cdOf (m1.codes.setIfInBounds c.toNat (m1.numCodes % 256)) c = m1.numCodes := by
          rw [hset, if_pos rfl, Nat.mod_eq_of_lt (by omega)]
        simp only [hunk, if_true, decide_true, Bool.true_and]
        rw [wr_of_lt (by rw [s1.codes.size]; exact c.toNat_lt)]
        simp only [R.bind_ok, R.pure_eq]
        have hk1 : ∀ d, cdOf (m1.codes.setIfInBounds c.toNat (m1.numCodes % 256)) d ≠ 255 ↔ cdOf m.codes d ≠ 255 ∨ d = c := by
          intro d
          rw [hset, hcd]
          split
          next e => simp only [e, or_true, iff_true]; rw [Nat.mod_eq_of_lt (by omega)]; omega
          next e => simp [e]
        have hk3 : ∀ d, cdOf m.codes d < 255 → cdOf (m1.codes.setIfInBounds c.toNat (m1.numCodes % 256)) d = cdOf m.codes d := by
          intro d hd; rw [← hcd] at hd ⊢; exact a4 d hd
        by_cases hex : 255 = m1.numCodes + 1
        · simp only [hex, decide_true, if_true]
          have hst : ∀ d, StuckAt (MM TS NS U m) (walk (MM TS NS U m) ((mt, c) :: bp) (key.drop (mt + 1))) d ↔ d = c := by
            intro d
            rw [walk_none hnone]
            constructor
            · rintro ⟨_, _, _, e⟩
              injection e with e _
              injection e with _ e
              exact e.symm
            · rintro rfl; exact ⟨hnone, mt, bp, rfl⟩
          refine ⟨a1, s2.lam, s5, by have := s2.size; simp only; omega, fun d => by rw [hst]; exact hk1 d, hk3, ⟨fun _ => ⟨c, (hst c).2 rfl, by rw [← hcd]; exact hunk, by rw [s2.numCodes] at hex; omega⟩, fun _ => rfl⟩, fun l hl => (by cases hl), s9, fun hle hns => (by rw [hm1 hle]; exact hns), ?_, fun _ => hid.trans ⟨0, rfl, .refl _⟩, fun _ hx => absurd rfl hx, fun hx => by rw [walk_none hnone] at hx; exact absurd hnone hx, by rw [walk_none hnone]; simp only [s2.lam]; exact hstep _ _ hk3 (List.suffix_refl _)⟩
          rw [walk_none hnone]
          exact ⟨hnone, by rw [s2.numCodes] at hex; omega, by simp only; omega, by rw [a2, s3], s2.size⟩
        · simp only [hex, decide_false, Bool.false_eq_true, if_false]
          have := hmain { m1 with codes := m1.codes.setIfInBounds c.toNat (m1.numCodes % 256), numCodes := m1.numCodes + 1 }
            a1 (by rw [a2, s3]) s2.lam s2.size rfl rfl rfl (by simp only; omega) hk1 (fun _ => by rw [s2.numCodes] at hex; omega) hk3 ?_ (fun hx => by rw [hcd] at hunk; omega) (fun _ => by simp only; omega)
          · have hj : mt % m1.lambda = j1 := by rw [s2.lam, s8]
            simp only [hj] at this
            exact this
          · right
            simp only [flat]
            intro e
            injection e with e1 e2
            have h0 := s1.codes.pos
            have : cdOf (m1.codes.setIfInBounds c.toNat (m1.numCodes % 256)) c = 0 := by omega
            omega
      · have hc1 : cdOf m.codes c < 255 := by
          rw [← hcd]; have := s1.codes.le255 c; omega
        simp only [hunk, if_false, decide_false, Bool.false_and, Bool.false_eq_true, R.pure_eq, R.bind_ok]
        have := hmain m1 s1 s3 s2.lam s2.size rfl rfl rfl (by rw [hcd]; exact hc1) (fun d => by
            rw [hcd]
            constructor
            · exact Or.inl
            · rintro (h1 | rfl)
              · exact h1
              · omega) (fun h1 => by omega)
          (fun d _ => by rw [hcd]) (by
            rw [s2.lam, hcd]
            rcases hz1 with hz1 | hz1 | hz1
            · exact Or.inl hz1
            · exact Or.inr hz1
            · omega) (fun _ => ⟨s2.numCodes, s2.codes⟩) (fun hn => by rw [s2.numCodes]; exact hn)
        have hj : mt % m1.lambda = j1 := by rw [s2.lam, s8]
        rw [hj] at this
        exact this

end Poplar.Map
