import Verif.Proof.MapDict
import Verif.Model.Crash
/-
  What an allocation failure during `update` leaves behind.
-/
namespace Poplar
open Spec

/-- `compare` and `load` at the node `i` behave as for a node with the label `l` and the value `v` -/
def Cmp {ν : Type} (ops : NlmOps ν) (n : ν) (i : Nat) (l v : List UInt8) : Prop :=
  ∀ key, Sep key l → (key = l → ∃ p, ops.compare n i key = .ok (some p, key.length) ∧ ops.load n p = .ok v) ∧
    (key ≠ l → ops.compare n i key = .ok (none, lcp key l))

theorem NlmSpec.cmp {ν : Type} {ops : NlmOps ν} {kind : Kind} {vs : Nat} (NS : NlmSpec ops kind vs) {c : Nat} {n : ν}
    (h : NS.Inv c n) {i : Nat} {e : Bool} {l v : List UInt8} (hL : NS.L n i e = some (l, v)) : Cmp ops n i l v := by
  intro key hs
  obtain ⟨h1, h2⟩ := NS.compare c n h i e l v hL key hs
  refine ⟨fun he => ?_, h2⟩
  obtain ⟨p, p1, p2⟩ := h1 he
  exact ⟨p, p1, NS.load c n h p i e l v p2 hL⟩

/-- what is asked of the remains of a label store -/
structure CrashSpec {ν : Type} {ops : NlmOps ν} {kind : Kind} {vs : Nat} (NS : NlmSpec ops kind vs) (C : CrashOps ν)
    (safe : Prop) : Prop where
  dummy : kind = .fkhash → ∀ c n, NS.Inv c n → ∀ nf ∈ C.dummy n, ∀ i e l v, NS.L n i e = some (l, v) → Cmp ops nf i l v
  label : safe → ∀ c n, NS.Inv c n → ∀ j key, OkLabel vs key → (∀ e, NS.L n j e = none) → (kind = .bonsai → j < c) →
    (kind = .fkhash → j = ops.size n) → ∀ nf ∈ C.label n j key,
    ∀ i e l v, NS.L n i e = some (l, v) → Cmp ops nf i l v

namespace Map
variable {τ ν : Type} {cfg : MapCfg τ ν} {sb N vs : Nat} {z0 : Prop} {U : List UInt8 → Prop}

section
variable (TS : TrieSpec cfg.T sb N z0)
/-- all the nodes of `M` are still there -/
structure Keep (M : BP → Option LV) (m : Map τ ν) : Prop where
  ready : m.isReady = true
  sb8 : 8 ≤ sb ∧ sb < 64
  lam : m.lambda = 2 ^ (sb - 8)
  codes : ∃ n, CodeInv m.codes n
  trie : TS.Inv m.trie
  node : ∀ bp l v, M bp = some (l, v) → Known (cdOf m.codes) bp ∧
    ∃ i, TS.T m.trie (flat m.lambda (cdOf m.codes) bp) = some i ∧ Cmp cfg.L m.nlm i l v
end

/-- what is asked of the remains of the trie and of the label store -/
structure MapCrashSpec (TS : TrieSpec cfg.T sb N z0) (NS : NlmSpec cfg.L cfg.T.kind vs) (C : MapCrash τ ν) (safe : Prop) : Prop
    extends CrashSpec NS C.toCrashOps safe where
  overflow : ∀ t, TS.Inv t → ∀ v s, ∀ t' ∈ C.overflow t v s, TS.Inv t' ∧ (∀ q, TS.T t' q = TS.T t q) ∧
    cfg.T.size t' = cfg.T.size t ∧ (cfg.T.kind = .bonsai → t' = t)

variable {TS : TrieSpec cfg.T sb N z0} {NS : NlmSpec cfg.L cfg.T.kind vs}

theorem SInv.keep {m : Map τ ν} (h : SInv TS NS U m) {t : τ} {n : ν} {M : BP → Option LV} (hM : MM TS NS U m = M) (ht : TS.Inv t)
    (hq : ∀ q e l v, Lp TS NS m.trie m.nlm q e = some (l, v) → ∃ i, TS.T t q = some i ∧ Cmp cfg.L n i l v) {k s : Nat} :
    Keep TS M { m with trie := t, nlm := n, numSteps := k, size := s } := by
  subst hM
  refine ⟨h.ready, h.sb8, h.lam, ⟨_, h.codes⟩, ht, fun bp l v hb => ?_⟩
  obtain ⟨h1, e, h2⟩ := h.mm_path (by rw [hb]; simp)
  exact ⟨h1, hq _ e l v (by rw [← h2]; exact hb)⟩

theorem SInv.keep_self {m : Map τ ν} (h : SInv TS NS U m) : Keep TS (MM TS NS U m) m := by
  refine h.keep (n := m.nlm) (k := m.numSteps) (s := m.size) rfl h.core.trie ?_
  intro q e l v hq
  simp only [Lp] at hq
  cases hT : TS.T m.trie q with
  | none => rw [hT] at hq; cases hq
  | some i =>
    rw [hT] at hq
    exact ⟨i, rfl, NS.cmp h.core.nlm hq⟩

theorem Keep.lam_pos {M : BP → Option LV} {m : Map τ ν} (h : Keep TS M m) : 0 < m.lambda := by
  rw [h.lam]; exact Nat.pow_pos (by decide)

theorem Keep.step_lt {M : BP → Option LV} {m : Map τ ν} (h : Keep TS M m) : 255 < 2 ^ sb := by
  have : 2 ^ 8 ≤ 2 ^ sb := Nat.pow_le_pow_right (by decide) h.sb8.1
  omega

theorem Keep.symb_lt {M : BP → Option LV} {m : Map τ ν} (h : Keep TS M m) {c j : Nat} (hc : c < 256) (hj : j < m.lambda) :
    c + 256 * j < 2 ^ sb := by
  rw [h.lam] at hj
  have : 2 ^ sb = 256 * 2 ^ (sb - 8) := by
    rw [show 256 = 2 ^ 8 from rfl, ← Nat.pow_add]; congr 1; have := h.sb8.1; omega
  rw [this]; omega

theorem Keep.makeSymb {M : BP → Option LV} {m : Map τ ν} (h : Keep TS M m) {c : UInt8} (hc : cdOf m.codes c < 255) {j : Nat}
    (hj : j < m.lambda) : makeSymb cfg m c j = .ok (cdOf m.codes c + 256 * j) := by
  obtain ⟨n, hcd⟩ := h.codes
  have h1 := h.symb_lt (c := cdOf m.codes c) (by omega) hj
  have h2 : 2 ^ sb ≤ 2 ^ 63 := Nat.pow_le_pow_right (by decide) (by have := h.sb8.2; omega)
  have h3 : shl64 j 8 = j * 2 ^ 8 := shl64_eq (by omega)
  have h4 : cdOf m.codes c ≠ 255 := by omega
  simp only [Map.makeSymb, hcd.rd, R.bind_ok]
  rw [R.assert_of (by simp [h4]), h3]
  simp only [R.bind_ok, R.pure_eq]
  have h5 : cdOf m.codes c ||| j * 2 ^ 8 = cdOf m.codes c + 256 * j := by
    rw [Nat.or_comm, Nat.mul_comm, ← Nat.two_pow_add_eq_or_of_lt (i := 8) (by omega)]
    omega
  rw [h5]

theorem prefix_rep {t : τ} (h : TS.Inv t) {p q : List Nat} (hp : TS.T t (q ++ p) ≠ none) : TS.T t p ≠ none := by
  induction q with
  | nil => exact hp
  | cons s q ih =>
    apply ih
    obtain ⟨i, hi⟩ := Option.ne_none_iff_exists'.1 hp
    obtain ⟨v, hv⟩ := TS.T_prefix t h _ _ _ hi
    show TS.T t (List.append q p) ≠ none
    rw [hv]; simp

/-- the step loop of `find`, where the nodes are there -/
theorem Keep.findSteps_ok {M : BP → Option LV} {m : Map τ ν} (h : Keep TS M m) {p : List Nat} (fuel : Nat) : ∀ (j node mt : Nat),
    mt < fuel → TS.T m.trie (List.replicate j 255 ++ p) = some node →
    TS.T m.trie (List.replicate (j + mt / m.lambda) 255 ++ p) ≠ none →
    ∃ i, findSteps cfg m fuel node mt = .ok (some (i, mt % m.lambda)) ∧
      TS.T m.trie (List.replicate (j + mt / m.lambda) 255 ++ p) = some i := by
  induction fuel with
  | zero => intro j node mt hf; omega
  | succ fuel ih =>
    intro j node mt hf hn hne
    simp only [findSteps]
    by_cases hle : m.lambda ≤ mt
    · have hl := h.lam_pos
      have hdiv : mt / m.lambda = (mt - m.lambda) / m.lambda + 1 := Nat.div_eq_sub_div hl hle
      have hmod : mt % m.lambda = (mt - m.lambda) % m.lambda := Nat.mod_eq_sub_mod hle
      have hrep : List.replicate (j + mt / m.lambda) 255 ++ p =
          List.replicate (j + 1 + (mt - m.lambda) / m.lambda) 255 ++ p := by rw [hdiv]; congr 2; omega
      rw [if_pos hle, stepSymb, TS.find m.trie h.trie _ node 255 hn h.step_lt]
      simp only [R.bind_ok]
      rw [hrep] at hne ⊢
      rw [hmod]
      cases hc : TS.T m.trie (255 :: (List.replicate j 255 ++ p)) with
      | none =>
        exfalso
        rw [Nat.add_comm (j + 1), List.replicate_add, List.append_assoc] at hne
        exact prefix_rep h.trie hne hc
      | some i =>
        have hi := (TS.T_bound m.trie h.trie _ i hc).2
        simp only [Option.getD_some]
        rw [if_neg (by omega)]
        exact ih (j + 1) i (mt - m.lambda) (by omega) hc hne
    · rw [if_neg hle]
      rw [Nat.div_eq_of_lt (by omega), Nat.mod_eq_of_lt (by omega)]
      exact ⟨node, rfl, hn⟩

/-- `find` gets to the end of the walk if there is a node -/
theorem Keep.reach {M : BP → Option LV} {m : Map τ ν} (h : Keep TS M m) (hA : AInv vs U M) (fuel : Nat) :
    ∀ (bp : BP) (node : Nat) (key : List UInt8) (i : Nat), key.length < fuel → KeyAt U M bp key →
    TS.T m.trie (flat m.lambda (cdOf m.codes) bp) = some node →
    Known (cdOf m.codes) (walk M bp key).1 →
    TS.T m.trie (flat m.lambda (cdOf m.codes) (walk M bp key).1) = some i →
    ∃ fuel', (walk M bp key).2.length < fuel' ∧
      findLoop cfg m fuel node key = findLoop cfg m fuel' i (walk M bp key).2 := by
  induction fuel with
  | zero => intro bp node key i hf; omega
  | succ fuel ih =>
    intro bp node key i hf hkey hn hkw hi
    cases hb : M bp with
    | none =>
      rw [walk_none hb] at hi ⊢
      rw [hn] at hi
      injection hi with hi
      exact ⟨fuel + 1, hf, by rw [hi]⟩
    | some lv =>
      obtain ⟨l, v⟩ := lv
      by_cases he : key = l
      · subst he
        rw [walk_eq hb] at hi ⊢
        rw [hn] at hi
        injection hi with hi
        exact ⟨fuel + 1, hf, by rw [hi]⟩
      · obtain ⟨hlt, hk2⟩ := hA.step hb hkey he
        obtain ⟨hkn, i0, hi0, hcmp⟩ := h.node bp l v hb
        rw [hn] at hi0
        injection hi0 with hi0
        subst hi0
        have hcmp := (hcmp key (hkey.sep hA.univ (hA.lab _ _ _ hb).1)).2 he
        rw [walk_step hb he hlt] at hi hkw ⊢
        have hsuf := (walk_post hA _ _ hk2).1
        have hemp : key.isEmpty = false := by
          cases key with
          | nil => simp at hlt
          | cons => rfl
        generalize hmt : lcp key l = mt at *
        generalize hbc : key[mt] = c at *
        obtain ⟨r, hr⟩ := flat_suffix (lam := m.lambda) (code := cdOf m.codes) hsuf
        have hT : TS.T m.trie (flat m.lambda (cdOf m.codes) ((mt, c) :: bp)) ≠ none :=
          prefix_rep h.trie (q := r) (by rw [← hr, hi]; simp)
        have hclt : cdOf m.codes c < 255 := hkw (mt, c) (hsuf.subset (by simp))
        have hT2 : TS.T m.trie (List.replicate (0 + mt / m.lambda) 255 ++ flat m.lambda (cdOf m.codes) bp) ≠ none := by
          rw [Nat.zero_add]
          refine prefix_rep h.trie (q := [cdOf m.codes c + 256 * (mt % m.lambda)]) ?_
          exact hT
        obtain ⟨i1, s1, s2⟩ := h.findSteps_ok (mt + 1) 0 node mt (by omega) (by simpa using hn) hT2
        rw [Nat.zero_add] at s2
        have hdrop : key.drop mt = c :: key.drop (mt + 1) := by
          rw [List.drop_eq_getElem_cons hlt, hbc]
        have hjl : mt % m.lambda < m.lambda := Nat.mod_lt _ h.lam_pos
        obtain ⟨i2, hi2⟩ := Option.ne_none_iff_exists'.1 hT
        have hfc : cfg.T.findChild m.trie i1 (cdOf m.codes c + 256 * (mt % m.lambda)) = .ok i2 := by
          rw [TS.find m.trie h.trie _ i1 _ s2 (h.symb_lt (by omega) hjl)]
          rw [show (cdOf m.codes c + 256 * (mt % m.lambda)) :: (List.replicate (mt / m.lambda) 255 ++ flat m.lambda (cdOf m.codes) bp)
              = flat m.lambda (cdOf m.codes) ((mt, c) :: bp) from rfl, hi2]
          rfl
        have hb2 := (TS.T_bound m.trie h.trie _ i2 hi2).2
        obtain ⟨fuel', f1, f2⟩ := ih ((mt, c) :: bp) i2 (key.drop (mt + 1)) i (by simp; omega) hk2 hi2 hkw hi
        refine ⟨fuel', f1, ?_⟩
        rw [← f2]
        obtain ⟨nc, hcd⟩ := h.codes
        simp only [findLoop]
        simp only [hemp, Bool.false_eq_true, if_false]
        rw [hcmp]
        simp only [R.bind_ok]
        rw [advance, if_pos (by omega)]
        simp only [R.bind_ok, s1, hdrop, hcd.rd]
        rw [if_neg (by omega), h.makeSymb hclt hjl]
        simp only [R.bind_ok, hfc]
        rw [if_neg (by omega)]

/-- the keys of `M` are found, with their values -/
theorem Keep.find {M : BP → Option LV} {m : Map τ ν} (h : Keep TS M m) (hA : AInv vs U M) {k v : List UInt8} (hk : U k)
    (hv : dict M k = some v) : ∃ p, Map.find cfg m k = .ok (some p) ∧ cfg.L.load m.nlm p = .ok v := by
  have hb : badKey k = false := hA.univ.badKey hk
  obtain ⟨r, r1, r2⟩ := TS.inv_root m.trie h.trie
  have hz := TS.inv_size m.trie h.trie
  obtain ⟨w1, w2, w3⟩ := walk_post hA [] k hk
  rw [dict] at hv
  rcases w3 with w3 | ⟨v', w3⟩
  · rw [w3] at hv; cases hv
  rw [w3] at hv
  injection hv with hv
  simp only at hv
  subst hv
  obtain ⟨n1, i, n2, n3⟩ := h.node _ _ _ w3
  obtain ⟨fuel', f1, f2⟩ := h.reach hA (k.length + 1) [] r k i (by omega) hk (by simpa [flat] using r2) n1 n2
  obtain ⟨p, p1, p2⟩ := (n3 _ (Or.inl rfl)).1 rfl
  refine ⟨p, ?_, p2⟩
  unfold Map.find
  simp only [hb, Bool.false_eq_true, if_false, h.ready, Bool.not_true, Bool.false_or, hz, decide_false, r1, R.bind_ok]
  rw [f2]
  cases fuel' with
  | zero => omega
  | succ fuel' =>
    simp only [findLoop, p1, R.bind_ok]
    split <;> rfl

section
variable (TS NS)
/-- `m'` is `m` with more step nodes -/
structure Eqv (U : List UInt8 → Prop) (m m' : Map τ ν) : Prop where
  inv : SInv TS NS U m'
  mm : MM TS NS U m' = MM TS NS U m
  same : Same m m'
  steps : cfg.T.size m'.trie + m.numSteps = cfg.T.size m.trie + m'.numSteps

/-- `m'` is `m`, possibly with more step nodes and a code for the byte on which the key leaves the trie -/
structure GrowPt (U : List UInt8 → Prop) (m : Map τ ν) (w : BP × List UInt8) (m' : Map τ ν) : Prop where
  inv : SInv TS NS U m'
  mm : MM TS NS U m' = MM TS NS U m
  lam : m'.lambda = m.lambda
  size : m'.size = m.size
  steps : cfg.T.size m'.trie + m.numSteps = cfg.T.size m.trie + m'.numSteps
  known : ∀ c, cdOf m'.codes c ≠ 255 → cdOf m.codes c ≠ 255 ∨ StuckAt (MM TS NS U m) w c
  keep : ∀ c, cdOf m.codes c < 255 → cdOf m'.codes c = cdOf m.codes c
  num : m.numCodes < 255 → m'.numCodes < 255

/-- the node of the key is there, but its label is not -/
structure LabelPt (C : MapCrash τ ν) (M : BP → Option LV) (w : BP × List UInt8) (m' : Map τ ν) : Prop where
  none : M w.1 = none
  known : Known (cdOf m'.codes) w.1
  nex : cfg.T.kind = .bonsai → cfg.T.needsToExpand m'.trie = false
  node : ∃ i n, TS.T m'.trie (flat m'.lambda (cdOf m'.codes) w.1) = some i ∧ NS.Inv (cfg.T.capaSize m'.trie) n ∧
    (∀ e, NS.L n i e = Option.none) ∧ (cfg.T.kind = .fkhash → i = cfg.L.size n) ∧ i < cfg.T.capaSize m'.trie ∧ OkLabel vs w.2 ∧
    m'.nlm ∈ C.label n i w.2

/-- `m2` is `m'` with one more node, a step node or the node of the key -/
structure OneMore (w : BP × List UInt8) (m' m2 : Map τ ν) : Prop where
  lam : m2.lambda = m'.lambda
  codes : m2.codes = m'.codes
  nlm : m2.nlm = m'.nlm
  old : ∀ q i, TS.T m'.trie q = some i → TS.T m2.trie q = some i
  only : ∀ q, TS.T m2.trie q ≠ Option.none → TS.T m'.trie q ≠ Option.none ∨ (∃ r, q = 255 :: r) ∨ q = flat m'.lambda (cdOf m'.codes) w.1

/-- the points at which an allocation fails -/
structure Pt (C : MapCrash τ ν) (safe : Prop) (U : List UInt8 → Prop) (m : Map τ ν) (w : BP × List UInt8)
    (c : CrashSite × Map τ ν) : Prop where
  ctor : c.1 ≠ .ctor
  keep : c.1 ≠ .relabel → (c.1 = .label → safe) → Keep TS (MM TS NS U m) c.2
  size : c.2.size = m.size + (if c.1 = .label then 1 else 0)
  grow : c.1 = .grow → GrowPt TS NS U m w c.2
  label : c.1 = .label → LabelPt TS NS C (MM TS NS U m) w c.2
  full : c.1 = .expand → cfg.T.kind = .bonsai ∧ cfg.T.needsToExpand c.2.trie = true
  only : c.1 = .expand → ∃ m', GrowPt TS NS U m w m' ∧ OneMore TS w m' c.2
  ahead : cfg.T.kind = .fkhash → c.1 = .dummy ∨ c.1 = .label → ∃ n, (c.2.nlm ∈ C.dummy n ∨ ∃ j key, c.2.nlm ∈ C.label n j key) ∧
    cfg.T.size c.2.trie = cfg.L.size n + 1
end

theorem Eqv.refl {m : Map τ ν} (h : SInv TS NS U m) : Eqv TS NS U m m := ⟨h, rfl, ⟨rfl, rfl, rfl, rfl, rfl⟩, rfl⟩

theorem GrowPt.of_eqv {m m' m2 : Map τ ν} {w : BP × List UInt8} (h : Eqv TS NS U m m') (hp : GrowPt TS NS U m' w m2) :
    GrowPt TS NS U m w m2 := by
  obtain ⟨g1, g2, g3, g4, g5, g6, g7, g8⟩ := hp
  have := h.steps
  refine ⟨g1, g2.trans h.mm, g3.trans h.same.lam, g4.trans h.same.size, by omega, ?_, ?_, ?_⟩
  · intro d hd
    have := g6 d hd
    rwa [h.mm, h.same.codes] at this
  · rw [h.same.codes] at g7; exact g7
  · rw [h.same.numCodes] at g8; exact g8

theorem Pt.of_eqv {C : MapCrash τ ν} {safe : Prop} {m m' : Map τ ν} {w : BP × List UInt8} {c : CrashSite × Map τ ν}
    (h : Eqv TS NS U m m') (hp : Pt TS NS C safe U m' w c) : Pt TS NS C safe U m w c := by
  obtain ⟨p1, p2, p3, p4, p5, p6, p8, p7⟩ := hp
  rw [h.mm] at p2 p5
  refine ⟨p1, p2, by rw [p3, h.same.size], fun hc => (p4 hc).of_eqv h, p5, p6, fun hc => ?_, p7⟩
  obtain ⟨m2, q1, q2⟩ := p8 hc
  exact ⟨m2, q1.of_eqv h, q2⟩

theorem GrowPt.refl {m : Map τ ν} {w : BP × List UInt8} (h : SInv TS NS U m) : GrowPt TS NS U m w m :=
  ⟨h, rfl, rfl, rfl, rfl, fun _ hc => Or.inl hc, fun _ _ => rfl, id⟩

/-- another trie with the same nodes -/
theorem SInv.retrie {m : Map τ ν} (h : SInv TS NS U m) {t : τ} (ht : TS.Inv t) (hT : ∀ q, TS.T t q = TS.T m.trie q)
    (hsz : cfg.T.size t = cfg.T.size m.trie) (hb : cfg.T.kind = .bonsai → t = m.trie) :
    SInv TS NS U { m with trie := t } ∧ MM TS NS U { m with trie := t } = MM TS NS U m := by
  have hLp : Lp TS NS t m.nlm = Lp TS NS m.trie m.nlm := by
    funext q e; simp only [Lp, hT]
  have hMM : MM TS NS U { m with trie := t } = MM TS NS U m := by simp only [MM, hLp]
  refine ⟨⟨h.ready, h.sb8, h.lam, h.codes, ⟨ht, ?_, ?_, ?_⟩, ?_, ?_, ?_, ?_⟩, hMM⟩
  · rcases kind_cases cfg.T.kind with hk | hk
    · rw [hb hk]; exact h.core.nlm
    · exact NS.inv_fk hk _ _ _ h.core.nlm
  · intro hk; rw [hb hk]; exact h.core.nex hk
  · intro i e hi; simp only [hT]; exact h.core.labT i e hi
  · intro hk; simp only [hsz]; exact h.fk hk
  · simp only [hT, hLp]; exact h.shape
  · rw [hMM]; simp only [hT]; exact h.lab
  · have : TS.T t = TS.T m.trie := funext hT
    rw [hMM]; simp only [this, hsz]; exact h.cnt

/-- `add_child` throws -/
theorem growPts_pt {C : MapCrash τ ν} {safe : Prop} (hC : MapCrashSpec TS NS C safe) {m m' : Map τ ν} {w : BP × List UInt8} (h : GrowPt TS NS U m w m')
    {v s : Nat} {c : CrashSite × Map τ ν} (hc : c ∈ growPts cfg C m' v s) : Pt TS NS C safe U m w c := by
  unfold growPts at hc
  have main : ∀ m2, GrowPt TS NS U m w m2 → Pt TS NS C safe U m w (.grow, m2) := by
    intro m2 h
    refine ⟨by simp, fun _ _ => ?_, by simp [h.size], fun _ => h, fun e => (by cases e), fun e => (by cases e), fun e => (by cases e), fun _ e => (by rcases e with e | e <;> cases e)⟩
    rw [← h.mm]; exact h.inv.keep_self
  rcases List.mem_append.1 hc with hc | hc
  · split at hc
    · rw [List.mem_singleton.1 hc]; exact main _ h
    · cases hc
  · obtain ⟨t, t1, rfl⟩ := List.mem_map.1 hc
    obtain ⟨o1, o2, o3, o4⟩ := hC.overflow m'.trie h.inv.core.trie v s t t1
    obtain ⟨r1, r2⟩ := h.inv.retrie o1 o2 o3 o4
    exact main _ ⟨r1, r2.trans h.mm, h.lam, h.size, by simp only [o3]; exact h.steps, h.known, h.keep, h.num⟩

theorem mem_onOk {α β : Type} {x : R α} {f : α → List β} {b : β} (h : b ∈ onOk x f) : ∃ a, x = .ok a ∧ b ∈ f a := by
  cases x with
  | ok a => exact ⟨a, rfl, h⟩
  | error e => cases h

theorem SInv.lp_node {m : Map τ ν} (h : SInv TS NS U m) {q : List Nat} {e : Bool} {l v : List UInt8}
    (hq : Lp TS NS m.trie m.nlm q e = some (l, v)) : ∃ i, TS.T m.trie q = some i ∧ NS.L m.nlm i e = some (l, v) ∧
      Cmp cfg.L m.nlm i l v := by
  simp only [Lp] at hq
  cases hT : TS.T m.trie q with
  | none => rw [hT] at hq; cases hq
  | some i =>
    rw [hT] at hq
    exact ⟨i, rfl, hq, NS.cmp h.core.nlm hq⟩

/-- the expansion of the trie throws -/
theorem expandPts_pt {C : MapCrash τ ν} {safe : Prop} {m m' : Map τ ν} {w : BP × List UInt8} (h : GrowPt TS NS U m w m')
    {t : τ} (ht : TS.Inv t) (hT : ∀ q i, TS.T m'.trie q = some i → TS.T t q = some i)
    (hN : ∀ q, TS.T t q ≠ none → TS.T m'.trie q ≠ none ∨ (∃ r, q = 255 :: r) ∨ q = flat m'.lambda (cdOf m'.codes) w.1)
    {c : CrashSite × Map τ ν} (hc : c ∈ expandPts cfg { m' with trie := t }) : Pt TS NS C safe U m w c := by
  unfold expandPts at hc
  split at hc
  · cases hc
  next hkb =>
    split at hc
    next hne =>
      rcases List.mem_cons.1 hc with rfl | hc
      · refine ⟨by simp, fun _ _ => ?_, by simp [h.size], fun e => (by cases e), fun e => (by cases e), fun _ => ⟨hkb, hne⟩,
          fun _ => ⟨m', h, rfl, rfl, rfl, hT, hN⟩, fun _ e => (by rcases e with e | e <;> cases e)⟩
        refine h.inv.keep (n := m'.nlm) (k := m'.numSteps) (s := m'.size) h.mm ht (fun q e l v hq => ?_)
        obtain ⟨i, i1, _, i2⟩ := h.inv.lp_node hq
        exact ⟨i, hT _ _ i1, i2⟩
      · obtain ⟨x, _, hx⟩ := mem_onOk hc
        simp only [List.mem_singleton] at hx
        subst hx
        exact ⟨by simp, fun e => absurd rfl e, by simp [h.size], fun e => (by cases e), fun e => (by cases e), fun e => (by cases e), fun e => (by cases e), fun _ e => (by rcases e with e | e <;> cases e)⟩
    · cases hc

/-- the points of the step loop -/
theorem stepsCrash_pt {C : MapCrash τ ν} {safe : Prop} (hC : MapCrashSpec TS NS C safe) {w : BP × List UInt8} (fuel : Nat) :
    ∀ {m : Map τ ν} (_ : SInv TS NS U m) (bp : BP) (j node mt B : Nat),
    mt < fuel → Known (cdOf m.codes) bp →
    TS.T m.trie (List.replicate j 255 ++ flat m.lambda (cdOf m.codes) bp) = some node →
    (∃ l v, MM TS NS U m bp = some (l, v) ∧ j * m.lambda + mt ≤ l.length - 1) → Bound (MM TS NS U m) m.lambda B →
    ∀ c ∈ stepsCrash cfg C fuel m node mt, Pt TS NS C safe U m w c := by
  induction fuel with
  | zero => intro m _ bp j node mt B hf; omega
  | succ fuel ih =>
    intro m h bp j node mt B hf hkn hn hlab0 hB c hc
    unfold stepsCrash at hc
    split at hc
    swap
    · cases hc
    next hle =>
    have hl := h.lam_pos
    have hadd := TS.add m.trie h.core.trie h.core.nex _ node stepSymb hn h.step_lt (Or.inr (by simp [stepSymb]))
    rcases List.mem_append.1 hc with hc | hc
    · exact growPts_pt hC (.refl h) hc
    obtain ⟨⟨t1, v1, isNew⟩, ha, hc⟩ := mem_onOk hc
    obtain ⟨a1, a2, a3, a4, a5, a6, a7, a8⟩ := hadd.of_eq ha
    dsimp only at a1 a2 a3 a4 a5 a6 a7 a8 hc
    -- what follows after this step
    have hgo : ∀ m' : Map τ ν, ∀ v', updSteps cfg (m.lambda + 1) m node m.lambda = .ok (m', v', 0) →
        c ∈ stepsCrash cfg C fuel m' v' (mt - m.lambda) → Pt TS NS C safe U m w c := by
      intro m' v' he hc'
      obtain ⟨l, v, g1, g2⟩ := hlab0
      obtain ⟨s1, s2, s3, _, _, _, s4, _, s5, _⟩ := (updSteps_ok (TS := TS) (NS := NS) (m.lambda + 1) h bp j node m.lambda True B (by omega) hkn hn
        ⟨l, v, g1, by omega⟩ hB (fun _ => trivial)).of_eq he
      dsimp only at s1 s2 s3 s4 s5
      rw [Nat.div_self hl] at s4
      refine Pt.of_eqv ⟨s1, s3, s2, s5⟩ (ih s1 bp (j + 1) v' (mt - m.lambda) B (by omega) (by rw [s2.codes]; exact hkn)
        (by rw [s2.lam, s2.codes]; exact s4) ⟨l, v, by rw [s3]; exact g1, ?_⟩ (by rw [s3, s2.lam]; exact hB) c hc')
      rw [s2.lam, Nat.add_mul, Nat.one_mul]; omega
    have hzero : ∀ m' : Map τ ν, ∀ v', m'.lambda = m.lambda → updSteps cfg m.lambda m' v' (m.lambda - m.lambda) = .ok (m', v', 0) := by
      intro m' v' he
      rw [Nat.sub_self]
      obtain ⟨k, hk⟩ : ∃ k, m.lambda = k + 1 := ⟨m.lambda - 1, by omega⟩
      rw [hk]
      exact updSteps_lt (by omega)
    have hstep : updSteps cfg (m.lambda + 1) m node m.lambda = if isNew then (do
          let y ← expandIfNeeded cfg { m with trie := t1 } v1
          match cfg.T.kind with
          | .fkhash =>
            R.assert (y.2 = cfg.L.size y.1.nlm)
            let nlm ← cfg.L.appendDummy y.1.nlm
            updSteps cfg m.lambda { y.1 with numSteps := y.1.numSteps + 1, nlm := nlm } y.2 (m.lambda - y.1.lambda)
          | .bonsai => updSteps cfg m.lambda { y.1 with numSteps := y.1.numSteps + 1 } y.2 (m.lambda - y.1.lambda))
        else updSteps cfg m.lambda { m with trie := t1 } v1 (m.lambda - m.lambda) := by
      conv_lhs => unfold updSteps
      rw [if_pos (Nat.le_refl _), ha]
      rfl
    have hpost := updSteps_ok (TS := TS) (NS := NS) (m.lambda + 1) h bp j node m.lambda True B (by omega) hkn hn
        (by obtain ⟨l, v, g1, g2⟩ := hlab0; exact ⟨l, v, g1, by omega⟩) hB (fun _ => trivial)
    rw [hstep] at hpost hgo
    cases isNew with
    | false =>
      simp only [Bool.false_eq_true, if_false] at hc hgo
      exact hgo _ _ (hzero _ _ rfl) hc
    | true =>
      simp only [if_true] at hc hgo hpost
      have hnone : TS.T m.trie (stepSymb :: (List.replicate j 255 ++ flat m.lambda (cdOf m.codes) bp)) = none := by
        simpa using a2.symm
      have hTold : ∀ q i, TS.T m.trie q = some i → TS.T t1 q = some i := by
        intro q i hq; rw [a3 q, if_neg]
        · exact hq
        · intro e; rw [e, hnone] at hq; cases hq
      rcases List.mem_append.1 hc with hc | hc
      · refine expandPts_pt (.refl h) a1 hTold (fun q hq => ?_) hc
        rw [a3 q] at hq
        by_cases e : q = stepSymb :: (List.replicate j 255 ++ flat m.lambda (cdOf m.codes) bp)
        · exact Or.inr (Or.inl ⟨_, e⟩)
        · rw [if_neg e] at hq; exact Or.inl hq
      obtain ⟨⟨m2, v2⟩, he, hc5⟩ := mem_onOk hc
      rw [he] at hgo hpost
      simp only [R.bind_ok] at hgo hpost
      rcases kind_cases cfg.T.kind with hk | hk
      · have hlam : m2.lambda = m.lambda := by
          simp only [expandIfNeeded, hk] at he
          split at he
          · injection he with he
            injection he with he _
            rw [← he]
          · obtain ⟨x, _, he⟩ := R.bind_eq_ok he
            obtain ⟨y, _, he⟩ := R.bind_eq_ok he
            obtain ⟨z, _, he⟩ := R.bind_eq_ok he
            injection he with he
            injection he with he _
            rw [← he]
        simp only [hk] at hc5 hgo
        rw [hlam] at hc5 hgo
        exact hgo _ _ (hzero _ _ rfl) hc5
      · have he2 : (m2, v2) = ({ m with trie := t1 }, v1) := by
          simp only [expandIfNeeded, hk] at he
          injection he with he
          exact he.symm
        injection he2 with e1 e2
        subst e1 e2
        simp only [hk] at hc5 hgo hpost
        rcases List.mem_append.1 hc5 with hc | hc
        · obtain ⟨nf, n1, n2⟩ := List.mem_map.1 hc
          subst n2
          refine ⟨by simp, fun _ _ => ?_, by simp, fun e => (by cases e), fun e => (by cases e), fun e => (by cases e), fun e => (by cases e),
            fun _ _ => ⟨m.nlm, Or.inl n1, by rw [h.fk hk]; simpa using a5⟩⟩
          refine h.keep (n := nf) (k := m.numSteps + 1) (s := m.size) rfl a1 (fun q e l v hq => ?_)
          obtain ⟨i, i1, i3, _⟩ := h.lp_node hq
          exact ⟨i, hTold _ _ i1, hC.dummy hk _ _ h.core.nlm nf n1 i e l v i3⟩
        · obtain ⟨n2, hd, hc⟩ := mem_onOk hc
          rw [hd] at hgo hpost
          by_cases has : v2 = cfg.L.size m.nlm
          · rw [R.assert_dec has] at hgo
            simp only [R.bind_ok] at hgo
            exact hgo _ _ (hzero _ _ rfl) hc
          · exfalso
            rw [R.assert, if_neg (by simpa using has)] at hpost
            have := hpost.2
            rcases this with h1 | h1 <;> cases h1

/-- `add_child` adds a node -/
theorem SInv.add_new {m : Map τ ν} (h : SInv TS NS U m) {p : List Nat} {v s : Nat} (hv : TS.T m.trie p = some v) (hs : s < 2 ^ sb)
    (hz : z0 ∨ s :: p ≠ [0]) {t : τ} {v1 : Nat} (ha : cfg.T.addChild m.trie v s = .ok (t, v1, true)) {m' : Map τ ν} {v' : Nat}
    (he : expandIfNeeded cfg { m with trie := t } v1 = .ok (m', v')) :
    NewNode (TS := TS) (NS := NS) m.trie m.nlm (s :: p) m'.trie m'.nlm v' ∧ m' = { m with trie := m'.trie, nlm := m'.nlm } := by
  have := add_post (NS := NS) (β := Map τ ν × Nat) (m := m) h.core hv hs hz (lim := True) (fun _ => trivial) (fun _ _ => trivial)
    (knew := fun m v => .ok (m, v)) (kold := fun _ _ => .error .throw)
    (Q := fun y => NewNode (TS := TS) (NS := NS) m.trie m.nlm (s :: p) y.1.trie y.1.nlm y.2 ∧ y.1 = { m with trie := y.1.trie, nlm := y.1.nlm })
    (fun t' n' v' hN => ⟨hN, rfl⟩) (fun _ _ _ _ _ _ _ _ => ⟨trivial, Or.inr rfl⟩)
  rw [ha] at this
  simp only [R.bind_ok, if_true] at this
  rw [he] at this
  exact this

/-- `add_child` finds the node -/
theorem SInv.add_old {m : Map τ ν} (h : SInv TS NS U m) {p : List Nat} {v s : Nat} (hv : TS.T m.trie p = some v) (hs : s < 2 ^ sb)
    (hz : z0 ∨ s :: p ≠ [0]) {t : τ} {v1 : Nat} (ha : cfg.T.addChild m.trie v s = .ok (t, v1, false)) :
    Eqv TS NS U m { m with trie := t } ∧ TS.T m.trie (s :: p) ≠ none ∧ TS.T t (s :: p) = some v1 := by
  have := add_post (NS := NS) (β := Map τ ν × Nat) (m := m) h.core hv hs hz (lim := True) (fun _ => trivial) (fun _ _ => trivial)
    (knew := fun _ _ => .error .throw) (kold := fun m v => .ok (m, v))
    (Q := fun y => Eqv TS NS U m y.1 ∧ TS.T m.trie (s :: p) ≠ none ∧ TS.T y.1.trie (s :: p) = some y.2)
    (fun t' n' v' hN => ⟨trivial, Or.inr rfl⟩) ?_
  · rw [ha] at this
    exact this
  · intro t1 v1 hc1 hE hv1 hT1 hsz hcapa
    have hLp : Lp TS NS t1 m.nlm = Lp TS NS m.trie m.nlm := by
      funext q e; simp only [Lp, hT1]
    have hMM : MM TS NS U { m with trie := t1 } = MM TS NS U m := by simp only [MM, hLp]
    refine ⟨⟨⟨h.ready, h.sb8, h.lam, h.codes, hc1, ?_, ?_, ?_, ?_⟩, hMM, ⟨rfl, rfl, rfl, rfl, rfl⟩, by simp only [hsz]⟩, hE, hv1⟩
    · intro hk; simp only [hsz]; exact h.fk hk
    · simp only [hT1, hLp]; exact h.shape
    · rw [hMM]; simp only [hT1]; exact h.lab
    · have : TS.T t1 = TS.T m.trie := funext hT1
      rw [hMM]; simp only [this, hsz]; exact h.cnt

/-- the first symbol is 0 only if the first label starts with NUL -/
theorem first_symb {z0 : Prop} {m : Map τ ν} {nc : Nat} (h : CodeInv m.codes nc) {M : BP → Option LV} {bp : BP} {key l v : List UInt8} {mt : Nat} {c : UInt8}
    (hlv : M bp = some (l, v)) (hlt : mt < key.length) (hmt : lcp key l = mt) (hbc : key[mt] = c)
    (hz : z0 ∨ bp ≠ [] ∨ key.head? ≠ some 0 ∨ ∃ l v, M [] = some (0 :: l, v)) :
    z0 ∨ flat m.lambda (cdOf m.codes) ((mt, c) :: bp) ≠ [0] ∨ cdOf m.codes c = 255 := by
  have hz' : z0 ∨ bp ≠ [] ∨ mt ≠ 0 ∨ c ≠ 0 := by
    rcases hz with hz | hz | hz | ⟨l0, v0, hz⟩
    · exact Or.inl hz
    · exact Or.inr (Or.inl hz)
    · right; right
      by_cases h0 : mt = 0
      · right
        rintro rfl
        subst h0
        apply hz
        rw [← hbc]
        cases key with
        | nil => simp at hlt
        | cons x key => simp
      · exact Or.inl h0
    · by_cases hbp : bp = []
      · subst hbp
        rw [hz] at hlv
        injection hlv with hlv
        injection hlv with hlv _
        right; right
        by_cases h0 : mt = 0
        · right
          rintro rfl
          subst h0 hlv
          cases key with
          | nil => simp at hlt
          | cons x key => simp only [List.getElem_cons_zero] at hbc; subst hbc; simp [lcp] at hmt
        · exact Or.inl h0
      · exact Or.inr (Or.inl hbp)
  have hz1 : z0 ∨ flat m.lambda (cdOf m.codes) ((mt, c) :: bp) ≠ [0] ∨ cdOf m.codes c = 255 := by
    rcases hz' with hz | hz | hz
    · exact Or.inl hz
    · right; left; intro e; simp only [flat] at e
      injection e with e1 e2
      have := List.append_eq_nil_iff.1 e2
      cases bp with
      | nil => exact hz rfl
      | cons y b => simp [flat] at this
    · by_cases h0 : c = 0
      · right; left
        intro e; simp only [flat] at e
        injection e with e1 e2
        have e3 := List.append_eq_nil_iff.1 e2
        have e4 : mt / m.lambda = 0 := by simpa using e3.1
        have e5 : mt % m.lambda = 0 := by omega
        have e6 : mt = 0 := by
          have := Nat.div_add_mod mt m.lambda; rw [e4, e5] at this; omega
        rcases hz with hz | hz
        · exact hz e6
        · exact hz h0
      · by_cases h1 : cdOf m.codes c = 255
        · exact Or.inr (Or.inr h1)
        · right; left
          intro e; simp only [flat] at e
          injection e with e1 e2
          have : cdOf m.codes c = cdOf m.codes 0 := by rw [h.zero]; omega
          exact h0 (h.inj c 0 (by have := h.le255 c; omega) this)
  exact hz1

/-- the points of the main loop -/
theorem loopCrash_pt {C : MapCrash τ ν} {safe : Prop} (hC : MapCrashSpec TS NS C safe) (fuel : Nat) :
    ∀ {m : Map τ ν} (_ : SInv TS NS U m) (_ : AInv vs U (MM TS NS U m)) (bp : BP) (node : Nat)
    (key : List UInt8) (B : Nat), key.length < fuel → KeyAt U (MM TS NS U m) bp key →
    Known (cdOf m.codes) bp → TS.T m.trie (flat m.lambda (cdOf m.codes) bp) = some node →
    (m.numCodes < 255 ∨ ∀ c, StuckAt (MM TS NS U m) (walk (MM TS NS U m) bp key) c → cdOf m.codes c < 255) →
    (z0 ∨ bp ≠ [] ∨ key.head? ≠ some 0 ∨ ∃ l v, MM TS NS U m [] = some (0 :: l, v)) → Bound (MM TS NS U m) m.lambda B →
    ∀ c ∈ loopCrash cfg C fuel m node key, Pt TS NS C safe U m (walk (MM TS NS U m) bp key) c := by
  induction fuel with
  | zero => intro m _ _ bp node key B hf; omega
  | succ fuel ih =>
    intro m h hA bp node key B hf hkey hkn hn hcodes hz hB pt hpt
    have hne := h.mm_some hkn (by rw [hn]; simp)
    obtain ⟨⟨l, v⟩, hlv⟩ := Option.ne_none_iff_exists'.1 hne
    obtain ⟨e0, hL⟩ := h.at_node hlv hn
    have hlab := (hA.lab _ _ _ hlv).1
    have hcmp := NS.compare _ _ h.core.nlm node _ l v hL key (hkey.sep hA.univ hlab)
    unfold loopCrash at hpt
    split at hpt
    · cases hpt
    obtain ⟨⟨vptr, mt0⟩, hcm, hpt⟩ := mem_onOk hpt
    dsimp only at hpt
    by_cases he : key = l
    · obtain ⟨p, hp1, hp2⟩ := hcmp.1 he
      rw [hp1] at hcm
      injection hcm with hcm
      injection hcm with hcm _
      subst hcm
      cases hpt
    · obtain ⟨hlt, hk2⟩ := hA.step hlv hkey he
      have hlt2 : lcp key l < l.length := by
        rw [lcp_comm]; exact (hkey.sep hA.univ hlab).symm.lcp_lt (Ne.symm he)
      rw [walk_step hlv he hlt] at hcodes ⊢
      rw [hcmp.2 he] at hcm
      injection hcm with hcm
      injection hcm with hcm hmt0
      subst hcm
      dsimp only at hpt
      generalize hmt : lcp key l = mt at *
      subst hmt0
      generalize hbc : key[mt] = c at *
      have hdrop : key.drop mt = c :: key.drop (mt + 1) := by
        rw [List.drop_eq_getElem_cons hlt, hbc]
      rw [advance, if_pos (by omega), hdrop] at hpt
      have hz1 := first_symb h.codes hlv hlt hmt hbc hz
      rcases List.mem_append.1 (show pt ∈ _ ++ _ from hpt) with hpt | hpt
      · exact stepsCrash_pt hC (mt + 1) h bp 0 node mt B (by omega) hkn (by simpa using hn) ⟨l, v, hlv, by omega⟩ hB pt hpt
      obtain ⟨⟨m1, node1, j1⟩, hsteps, hpt⟩ := mem_onOk hpt
      obtain ⟨s1, s2, s3, s5, s6, s9, s7, s8, s10, _⟩ := (updSteps_ok (TS := TS) (NS := NS) (mt + 1) h bp 0 node mt True B (by omega) hkn (by simpa using hn)
        ⟨l, v, hlv, by omega⟩ hB (fun _ => trivial)).of_eq hsteps
      simp only [Nat.zero_add] at s1 s2 s3 s5 s6 s7 s8 s9 s10 hpt
      have hcd : cdOf m1.codes = cdOf m.codes := by rw [s2.codes]
      rw [s1.codes.rd] at hpt
      simp only [onOk] at hpt
      have hmain : ∀ m2 : Map τ ν, SInv TS NS U m2 → MM TS NS U m2 = MM TS NS U m → m2.lambda = m.lambda → m2.size = m.size → m2.numSteps = m1.numSteps →
          m2.trie = m1.trie → m2.nlm = m1.nlm → cdOf m2.codes c < 255 →
          (∀ d, cdOf m2.codes d ≠ 255 ↔ cdOf m.codes d ≠ 255 ∨ d = c) →
          (∀ d, cdOf m.codes d < 255 → cdOf m2.codes d = cdOf m.codes d) →
          (z0 ∨ flat m2.lambda (cdOf m2.codes) ((mt, c) :: bp) ≠ [0]) →
          (cdOf m.codes c < 255 → m2.numCodes = m.numCodes ∧ m2.codes = m.codes) →
          (m.numCodes < 255 → m2.numCodes < 255) →
          (cdOf m.codes c = 255 → MM TS NS U m ((mt, c) :: bp) = none) →
          pt ∈ (onOk (makeSymb cfg m2 c j1) fun symb =>
            growPts cfg C m2 node1 symb ++ onOk (cfg.T.addChild m2.trie node1 symb) fun (trie, node, isNew) =>
              let m := { m2 with trie := trie }
              if isNew then
                expandPts cfg m ++ onOk (expandIfNeeded cfg m node) fun (m, node) =>
                  labelPts C { m with size := m.size + 1 } node (key.drop (mt + 1))
              else loopCrash cfg C fuel m node (key.drop (mt + 1))) →
          Pt TS NS C safe U m (walk (MM TS NS U m) ((mt, c) :: bp) (key.drop (mt + 1))) pt := by
        intro m2 i2 e1 e2 e3 e15 e4 e13 e5 e6 e7 e8 e9 e12 e16 hpt
        obtain ⟨hkf, hkk⟩ := flat_congr (lam := m.lambda) hkn e7
        have hjl : mt % m2.lambda < m2.lambda := Nat.mod_lt _ i2.lam_pos
        have hj : j1 = mt % m2.lambda := by rw [s8, e2]
        have hn1 : TS.T m2.trie (List.replicate (mt / m2.lambda) 255 ++ flat m2.lambda (cdOf m2.codes) bp) = some node1 := by
          rw [e2, hkf, e4]; exact s7
        rw [hj, i2.makeSymb e5 hjl] at hpt
        have hgp : GrowPt TS NS U m (walk (MM TS NS U m) ((mt, c) :: bp) (key.drop (mt + 1))) m2 := by
          refine ⟨i2, e1, e2, e3, by rw [e4, e15]; exact s10, fun d hd => ?_, e7, e12⟩
          rcases (e6 d).1 hd with h1 | h1
          · exact Or.inl h1
          · by_cases h2 : cdOf m.codes c = 255
            · right
              have := e16 h2
              rw [walk_none this]
              exact ⟨this, mt, bp, by rw [h1]⟩
            · rw [h1]; exact Or.inl h2
        rcases List.mem_append.1 (show pt ∈ _ ++ _ from hpt) with hpt | hpt
        · exact growPts_pt hC hgp hpt
        obtain ⟨⟨t1, v1, isNew⟩, ha, hpt⟩ := mem_onOk hpt
        dsimp only at hpt
        obtain ⟨a1, a2, a3, a4, a5, a6, a7, a8⟩ := (TS.add m2.trie i2.core.trie i2.core.nex _ node1 _ hn1 (i2.symb_lt (by omega) hjl) e8).of_eq ha
        dsimp only at a1 a2 a3 a4 a5 a6 a7 a8
        have hkn' : Known (cdOf m2.codes) ((mt, c) :: bp) := Known.cons.2 ⟨e5, hkk⟩
        cases isNew with
        | true =>
          simp only [if_true] at hpt
          have hnone : TS.T m2.trie (flat m2.lambda (cdOf m2.codes) ((mt, c) :: bp)) = none := by
            simpa [flat] using a2.symm
          have hTold : ∀ q i, TS.T m2.trie q = some i → TS.T t1 q = some i := by
            intro q i hq; rw [a3 q, if_neg]
            · exact hq
            · intro e
              rw [e] at hq
              have h0 := hnone
              rw [flat, hq] at h0
              cases h0
          have hMn : MM TS NS U m ((mt, c) :: bp) = none := by
            rw [← e1]
            by_contra hx
            obtain ⟨e, he⟩ := (i2.mm_path hx).2
            rw [he] at hx
            exact lp_ne hx hnone
          rcases List.mem_append.1 hpt with hpt | hpt
          · refine expandPts_pt hgp a1 hTold (fun q hq => ?_) hpt
            rw [a3 q] at hq
            by_cases e : q = (cdOf m2.codes c + 256 * (mt % m2.lambda)) :: (List.replicate (mt / m2.lambda) 255 ++ flat m2.lambda (cdOf m2.codes) bp)
            · right; right
              rw [walk_none hMn]
              exact e
            · rw [if_neg e] at hq; exact Or.inl hq
          obtain ⟨⟨m3, v3⟩, hex, hpt⟩ := mem_onOk hpt
          obtain ⟨hN, hm3⟩ := i2.add_new hn1 (i2.symb_lt (by omega) hjl) e8 ha hex
          obtain ⟨nf, nf1, nf2⟩ := List.mem_map.1 hpt
          subst nf2
          have hOk : OkLabel vs (key.drop (mt + 1)) := hk2.ok hA.univ
          have hfk : cfg.T.kind = .fkhash → v3 = cfg.L.size m3.nlm := by
            intro hk
            obtain ⟨f1, f2⟩ := hN.fk hk
            rw [f1, f2, i2.fk hk]
          have hv3 := (TS.T_bound _ hN.core.trie _ _ hN.node).1
          refine ⟨by simp, fun _ hs => ?_, by rw [hm3]; simp [e3], fun e => (by cases e), fun _ => ?_, fun e => (by cases e), fun e => (by cases e),
            fun hk _ => ⟨m3.nlm, Or.inr ⟨_, _, nf1⟩, ?_⟩⟩
          · have := i2.keep (t := m3.trie) (n := nf) (k := m2.numSteps) (s := m2.size + 1) e1 hN.core.trie (fun q e l v hq => ?_)
            · rw [hm3]; exact this
            · rw [← hN.labs] at hq
              simp only [Lp] at hq
              cases hT : TS.T m3.trie q with
              | none => rw [hT] at hq; cases hq
              | some i =>
                rw [hT] at hq
                exact ⟨i, rfl, hC.label (hs rfl) _ _ hN.core.nlm v3 _ hOk hN.lab (fun _ => hv3) hfk nf nf1 i e l v hq⟩
          · rw [walk_none hMn]
            rw [hm3]
            exact ⟨hMn, hkn', hN.core.nex, v3, m3.nlm, hN.node, hN.core.nlm, hN.lab, hfk, hv3, hOk, nf1⟩
          · have := hN.size
            rw [(hN.fk hk).1, i2.fk hk]; exact this
        | false =>
          simp only [Bool.false_eq_true, if_false] at hpt
          obtain ⟨q1, q2, q3⟩ := i2.add_old hn1 (i2.symb_lt (by omega) hjl) e8 ha
          have hcold : cdOf m.codes c < 255 := by
            have hEm : TS.T m1.trie (flat m2.lambda (cdOf m2.codes) ((mt, c) :: bp)) ≠ none := by
              rw [← e4]; exact q2
            have := (s1.shape.known (code' := cdOf m2.codes) i2.codes.inj (fun d hd => by rw [hcd] at hd ⊢; exact e7 d hd)
              (k := 0) (bp := (mt, c) :: bp) hkn' (by simp only [List.replicate_zero, List.nil_append]; rw [s2.lam, ← e2]; exact hEm)).1
            have := (Known.cons.1 this).1
            rw [hcd] at this; exact this
          obtain ⟨e10, e11⟩ := e9 hcold
          have hmm3 : MM TS NS U { m2 with trie := t1 } = MM TS NS U m := q1.mm.trans e1
          have hE : Eqv TS NS U m { m2 with trie := t1 } := by
            refine ⟨q1.inv, hmm3, ⟨?_, e2, e11, e10, e3⟩, ?_⟩
            · exact i2.ready.trans h.ready.symm
            · have := q1.steps
              simp only at this ⊢
              rw [e4] at this; omega
          have := ih q1.inv (by rw [hmm3]; exact hA) ((mt, c) :: bp) v1 (key.drop (mt + 1)) B (by simp; omega) (by rw [hmm3]; exact hk2)
            hkn' q3 (by rw [hmm3]; simp only [e10, e11]; exact hcodes) (Or.inr (Or.inl (by simp))) (by rw [hmm3]; simp only [e2]; exact hB) pt hpt
          rw [hmm3] at this
          exact this.of_eqv hE
      by_cases hunk : cdOf m1.codes c = 255
      · have hnone : MM TS NS U m ((mt, c) :: bp) = none := by
          by_contra hx
          have := (Known.cons.1 (h.mm_path hx).1).1
          rw [hcd] at hunk; simp only at this; omega
        have hn1 : m1.numCodes < 255 := by
          rw [s2.numCodes]
          rcases hcodes with hc | hc
          · exact hc
          · have := hc c ⟨by rw [walk_none hnone]; exact hnone, mt, bp, by rw [walk_none hnone]⟩; rw [hcd] at hunk; omega
        obtain ⟨a1, a2⟩ := s1.assign hunk hn1
        obtain ⟨_, a4⟩ := s1.codes.assign hunk hn1
        have hset := cdOf_set s1.codes.size c
        have a5 : cdOf (m1.codes.setIfInBounds c.toNat (m1.numCodes % 256)) c = m1.numCodes := by
          rw [hset, if_pos rfl, Nat.mod_eq_of_lt (by omega)]
        simp only [hunk, if_true, decide_true, Bool.true_and] at hpt
        rw [wr_of_lt (by rw [s1.codes.size]; exact c.toNat_lt)] at hpt
        simp only [R.bind_ok, R.pure_eq] at hpt
        have hk1 : ∀ d, cdOf (m1.codes.setIfInBounds c.toNat (m1.numCodes % 256)) d ≠ 255 ↔ cdOf m.codes d ≠ 255 ∨ d = c := by
          intro d
          rw [hset, hcd]
          split
          next e => simp only [e, or_true, iff_true]; rw [Nat.mod_eq_of_lt (by omega)]; omega
          next e => simp [e]
        have hk3 : ∀ d, cdOf m.codes d < 255 → cdOf (m1.codes.setIfInBounds c.toNat (m1.numCodes % 256)) d = cdOf m.codes d := by
          intro d hd; rw [← hcd] at hd ⊢; exact a4 d hd
        by_cases hex : 255 = m1.numCodes + 1
        · simp only [hex, decide_true, if_true] at hpt
          cases hpt
        · simp only [hex, decide_false, Bool.false_eq_true, if_false] at hpt
          refine hmain { m1 with codes := m1.codes.setIfInBounds c.toNat (m1.numCodes % 256), numCodes := m1.numCodes + 1 }
            a1 (by rw [a2, s3]) s2.lam s2.size rfl rfl rfl (by simp only; omega) hk1 hk3 ?_ (fun hx => by rw [hcd] at hunk; omega) (fun _ => by simp only; omega) (fun _ => hnone) hpt
          right
          simp only [flat]
          intro e
          injection e with e1 e2
          have h0 := s1.codes.pos
          have : cdOf (m1.codes.setIfInBounds c.toNat (m1.numCodes % 256)) c = 0 := by omega
          omega
      · have hc1 : cdOf m.codes c < 255 := by
          rw [← hcd]; have := s1.codes.le255 c; omega
        simp only [hunk, if_false, decide_false, Bool.false_and, Bool.false_eq_true, R.pure_eq] at hpt
        refine hmain m1 s1 s3 s2.lam s2.size rfl rfl rfl (by rw [hcd]; exact hc1) (fun d => by
            rw [hcd]
            constructor
            · exact Or.inl
            · rintro (h1 | rfl)
              · exact h1
              · omega)
          (fun d _ => by rw [hcd]) (by
            rw [s2.lam, hcd]
            rcases hz1 with hz1 | hz1 | hz1
            · exact Or.inl hz1
            · exact Or.inr hz1
            · omega) (fun _ => ⟨s2.numCodes, s2.codes⟩) (fun hn => by rw [s2.numCodes]; exact hn) (fun h1 => by omega) hpt

end Map
end Poplar
