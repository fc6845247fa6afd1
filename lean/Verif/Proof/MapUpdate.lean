import Verif.Proof.MapInv
import Verif.Proof.Grown
/-
  `find` and `update` on a map satisfying the invariant.
-/
namespace Poplar.Map
open Spec Poplar

variable {τ ν : Type} {cfg : MapCfg τ ν} {sb N vs : Nat} {z0 : Prop} {U : List UInt8 → Prop}
variable {TS : TrieSpec cfg.T sb N z0} {NS : NlmSpec cfg.L cfg.T.kind vs}

section
variable (TS NS) in
/-- the part of the invariant that `find` needs; it survives the insertion of a lost key -/
structure FInv (U : List UInt8 → Prop) (n : Nat) (m : Map τ ν) : Prop where
  ready : m.isReady = true
  sb8 : 8 ≤ sb ∧ sb < 64
  lam : m.lambda = 2 ^ (sb - 8)
  codes : CodeInv m.codes n
  core : Core TS NS m.trie m.nlm
  lab : ∀ bp, Known (cdOf m.codes) bp → TS.T m.trie (flat m.lambda (cdOf m.codes) bp) ≠ none → MM TS NS U m bp ≠ none
end

theorem SInv.toF {m : Map τ ν} (h : SInv TS NS U m) : FInv TS NS U m.numCodes m := by
  exact ⟨h.ready, h.sb8, h.lam, h.codes, h.core, h.lab⟩

theorem FInv.lam_pos {n : Nat} {m : Map τ ν} (h : FInv TS NS U n m) : 0 < m.lambda := by
  rw [h.lam]; exact Nat.pow_pos (by decide)

theorem FInv.step_lt {n : Nat} {m : Map τ ν} (h : FInv TS NS U n m) : 255 < 2 ^ sb := by
  have : 2 ^ 8 ≤ 2 ^ sb := Nat.pow_le_pow_right (by decide) h.sb8.1
  omega

theorem FInv.symb_lt {n : Nat} {m : Map τ ν} (h : FInv TS NS U n m) {c j : Nat} (hc : c < 256) (hj : j < m.lambda) :
    c + 256 * j < 2 ^ sb := by
  rw [h.lam] at hj
  have : 2 ^ sb = 256 * 2 ^ (sb - 8) := by
    rw [show 256 = 2 ^ 8 from rfl, ← Nat.pow_add]; congr 1; have := h.sb8.1; omega
  rw [this]; omega

theorem FInv.makeSymb {n : Nat} {m : Map τ ν} (h : FInv TS NS U n m) {c : UInt8} (hc : cdOf m.codes c < 255) {j : Nat}
    (hj : j < m.lambda) : makeSymb cfg m c j = .ok (cdOf m.codes c + 256 * j) := by
  have h1 := h.symb_lt (c := cdOf m.codes c) (by omega) hj
  have h2 : 2 ^ sb ≤ 2 ^ 63 := Nat.pow_le_pow_right (by decide) (by have := h.sb8.2; omega)
  have h3 : shl64 j 8 = j * 2 ^ 8 := shl64_eq (by omega)
  have h4 : cdOf m.codes c ≠ 255 := by omega
  simp only [Map.makeSymb, h.codes.rd, R.bind_ok]
  rw [R.assert_of (by simp [h4]), h3]
  simp only [R.bind_ok, R.pure_eq]
  have h5 : cdOf m.codes c ||| j * 2 ^ 8 = cdOf m.codes c + 256 * j := by
    rw [Nat.or_comm, Nat.mul_comm, ← Nat.two_pow_add_eq_or_of_lt (i := 8) (by omega)]
    omega
  rw [h5]

theorem FInv.mm_path {n : Nat} {m : Map τ ν} (_h : FInv TS NS U n m) {bp : BP} (hb : MM TS NS U m bp ≠ none) :
    Known (cdOf m.codes) bp ∧ ∃ e, MM TS NS U m bp = Lp TS NS m.trie m.nlm (flat m.lambda (cdOf m.codes) bp) e := by
  simp only [MM, link, byBranch] at hb ⊢
  split at hb
  next hk => exact ⟨hk, _, by rw [if_pos hk]⟩
  next => exact absurd rfl hb

/-- a branch node has a label -/
theorem FInv.mm_some {n : Nat} {m : Map τ ν} (h : FInv TS NS U n m) {bp : BP} (hk : Known (cdOf m.codes) bp)
    (hT : TS.T m.trie (flat m.lambda (cdOf m.codes) bp) ≠ none) : MM TS NS U m bp ≠ none := h.lab bp hk hT

theorem FInv.at_node {n : Nat} {m : Map τ ν} (h : FInv TS NS U n m) {bp : BP} {l v : List UInt8} {node : Nat}
    (hb : MM TS NS U m bp = some (l, v))
    (hn : TS.T m.trie (flat m.lambda (cdOf m.codes) bp) = some node) :
    ∃ e, NS.L m.nlm node e = some (l, v) := by
  obtain ⟨e, he⟩ := (h.mm_path (by rw [hb]; simp)).2
  rw [hb, Lp, hn] at he
  exact ⟨e, he.symm⟩

/-- the step loop of `find` -/
theorem FInv.findSteps_ok {n : Nat} {m : Map τ ν} (h : FInv TS NS U n m) {p : List Nat} (fuel : Nat) : ∀ (j node mt : Nat),
    mt < fuel → TS.T m.trie (List.replicate j 255 ++ p) = some node →
    ∃ r, findSteps cfg m fuel node mt = .ok r ∧
      (r = none → TS.T m.trie (List.replicate (j + mt / m.lambda) 255 ++ p) = none) ∧
      (∀ x, r = some x → TS.T m.trie (List.replicate (j + mt / m.lambda) 255 ++ p) = some x.1 ∧ x.2 = mt % m.lambda) := by
  induction fuel with
  | zero => intro j node mt hf; omega
  | succ fuel ih =>
    intro j node mt hf hn
    simp only [findSteps]
    by_cases hle : m.lambda ≤ mt
    · have hl := h.lam_pos
      have hdiv : mt / m.lambda = (mt - m.lambda) / m.lambda + 1 := Nat.div_eq_sub_div hl hle
      have hmod : mt % m.lambda = (mt - m.lambda) % m.lambda := Nat.mod_eq_sub_mod hle
      have hrep : List.replicate (j + mt / m.lambda) 255 ++ p =
          List.replicate (j + 1 + (mt - m.lambda) / m.lambda) 255 ++ p := by rw [hdiv]; congr 2; omega
      rw [if_pos hle, stepSymb, TS.find m.trie h.core.trie _ node 255 hn h.step_lt]
      simp only [R.bind_ok]
      rw [hrep, hmod]
      cases hc : TS.T m.trie (255 :: (List.replicate j 255 ++ p)) with
      | none =>
        refine ⟨none, by simp, fun _ => ?_, fun x hx => by cases hx⟩
        by_contra hne
        rw [Nat.add_comm (j + 1), List.replicate_add, List.append_assoc] at hne
        exact h.core.prefix_rep hne hc
      | some i =>
        have hi := (TS.T_bound m.trie h.core.trie _ i hc).2
        simp only [Option.getD_some]
        rw [if_neg (by omega)]
        exact ih (j + 1) i (mt - m.lambda) (by omega) hc
    · rw [if_neg hle]
      refine ⟨some (node, mt), rfl, fun e => (by cases e), fun x hx => ?_⟩
      injection hx with hx
      subst hx
      rw [Nat.div_eq_of_lt (by omega), Nat.mod_eq_of_lt (by omega)]
      exact ⟨hn, rfl⟩

theorem isEmpty_cases (key : List UInt8) : key = [] ∨ ∃ c r, key = c :: r := by cases key <;> simp

/-- the pointer returned by `find` and `update` belongs to the node of the key -/
def PtrAt (TS : TrieSpec cfg.T sb N z0) (NS : NlmSpec cfg.L cfg.T.kind vs) (m : Map τ ν) (l : Loc) (bp : BP) : Prop :=
  ∃ i, TS.T m.trie (flat m.lambda (cdOf m.codes) bp) = some i ∧ NS.At m.nlm l i

theorem FInv.findLoop_ok {n : Nat} {m : Map τ ν} (h : FInv TS NS U n m) (hA : AInv vs U (MM TS NS U m)) (fuel : Nat) :
    ∀ (bp : BP) (node : Nat) (key : List UInt8), key.length < fuel → KeyAt U (MM TS NS U m) bp key →
    Known (cdOf m.codes) bp → TS.T m.trie (flat m.lambda (cdOf m.codes) bp) = some node →
    ∃ r, findLoop cfg m fuel node key = .ok r ∧
      (r = none → MM TS NS U m (walk (MM TS NS U m) bp key).1 = none) ∧
      (∀ l, r = some l → MM TS NS U m (walk (MM TS NS U m) bp key).1 ≠ none ∧ PtrAt TS NS m l (walk (MM TS NS U m) bp key).1) := by
  induction fuel with
  | zero => intro bp node key hf; omega
  | succ fuel ih =>
    intro bp node key hf hkey hkn hn
    have hne := h.mm_some hkn (by rw [hn]; simp)
    obtain ⟨⟨l, v⟩, hlv⟩ := Option.ne_none_iff_exists'.1 hne
    obtain ⟨e0, hL⟩ := h.at_node hlv hn
    have hlab := (hA.lab _ _ _ hlv).1
    have hcmp := NS.compare _ _ h.core.nlm node _ l v hL key (hkey.sep hA.univ hlab)
    simp only [findLoop]
    by_cases he : key = l
    · obtain ⟨p, hp1, hp2⟩ := hcmp.1 he
      subst he
      rw [walk_eq hlv, hp1]
      refine ⟨some p, by simp, fun e => (by cases e), ?_⟩
      intro l' hl'
      injection hl' with hl'
      subst hl'
      exact ⟨hne, node, hn, hp2⟩
    · obtain ⟨hlt, hk2⟩ := hA.step hlv hkey he
      rw [walk_step hlv he hlt, hcmp.2 he]
      have hemp : key.isEmpty = false := by
        cases key with
        | nil => simp at hlt
        | cons => rfl
      simp only [hemp, Bool.false_eq_true, if_false, R.bind_ok]
      rw [advance, if_pos (by omega)]
      simp only [R.bind_ok]
      obtain ⟨r, hr1, hr2, hr3⟩ := h.findSteps_ok (p := flat m.lambda (cdOf m.codes) bp) (lcp key l + 1) 0 node (lcp key l)
        (by omega) (by simpa using hn)
      simp only [Nat.zero_add] at hr2 hr3
      rw [hr1]
      generalize hmt : lcp key l = mt at *
      generalize hbc : key[mt] = c at *
      have hbp : MM TS NS U m ((mt, c) :: bp) ≠ none →
          TS.T m.trie (flat m.lambda (cdOf m.codes) ((mt, c) :: bp)) ≠ none := by
        intro hx
        obtain ⟨e, he⟩ := (h.mm_path hx).2
        rw [he] at hx
        exact lp_ne hx
      cases r with
      | none =>
        have hnone : MM TS NS U m ((mt, c) :: bp) = none := by
          by_contra hx
          exact h.core.prefix (hbp hx) (hr2 rfl)
        refine ⟨none, by simp, fun _ => ?_, fun l hl => by cases hl⟩
        rw [walk_none hnone]; exact hnone
      | some x =>
        obtain ⟨node', j⟩ := x
        obtain ⟨hn', hj⟩ := hr3 _ rfl
        simp only at hn' hj
        have hdrop : key.drop mt = c :: key.drop (mt + 1) := by
          rw [List.drop_eq_getElem_cons hlt, hbc]
        simp only [hdrop, R.bind_ok, h.codes.rd]
        by_cases hcode : cdOf m.codes c = 255
        · have hnone : MM TS NS U m ((mt, c) :: bp) = none := by
            by_contra hx
            have := (Known.cons.1 (h.mm_path hx).1).1
            simp only at this; omega
          rw [if_pos hcode]
          refine ⟨none, rfl, fun _ => ?_, fun l hl => by cases hl⟩
          rw [walk_none hnone]; exact hnone
        · have hclt : cdOf m.codes c < 255 := by have := h.codes.le255 c; omega
          have hjl : j < m.lambda := by rw [hj]; exact Nat.mod_lt _ h.lam_pos
          rw [if_neg hcode, h.makeSymb hclt hjl]
          simp only [R.bind_ok]
          rw [TS.find m.trie h.core.trie _ node' _ hn' (h.symb_lt (by omega) hjl)]
          have hflat : (cdOf m.codes c + 256 * j) :: (List.replicate (mt / m.lambda) 255 ++ flat m.lambda (cdOf m.codes) bp)
              = flat m.lambda (cdOf m.codes) ((mt, c) :: bp) := by simp only [flat]; rw [hj]
          rw [hflat]
          simp only [R.bind_ok]
          cases hch : TS.T m.trie (flat m.lambda (cdOf m.codes) ((mt, c) :: bp)) with
          | none =>
            have hnone : MM TS NS U m ((mt, c) :: bp) = none := by
              by_contra hx; exact hbp hx hch
            refine ⟨none, by simp, fun _ => ?_, fun l hl => by cases hl⟩
            rw [walk_none hnone]; exact hnone
          | some i =>
            have hi := (TS.T_bound m.trie h.core.trie _ i hch).2
            simp only [Option.getD_some]
            rw [if_neg (by omega)]
            exact ih _ i _ (by simp; omega) hk2 (Known.cons.2 ⟨hclt, hkn⟩) hch

theorem SInv.lam_pos {m : Map τ ν} (h : SInv TS NS U m) : 0 < m.lambda := h.toF.lam_pos

theorem SInv.step_lt {m : Map τ ν} (h : SInv TS NS U m) : 255 < 2 ^ sb := h.toF.step_lt

theorem SInv.symb_lt {m : Map τ ν} (h : SInv TS NS U m) {c j : Nat} (hc : c < 256) (hj : j < m.lambda) :
    c + 256 * j < 2 ^ sb := h.toF.symb_lt hc hj

theorem SInv.makeSymb {m : Map τ ν} (h : SInv TS NS U m) {c : UInt8} (hc : cdOf m.codes c < 255) {j : Nat}
    (hj : j < m.lambda) : makeSymb cfg m c j = .ok (cdOf m.codes c + 256 * j) := h.toF.makeSymb hc hj

theorem SInv.mm_path {m : Map τ ν} (h : SInv TS NS U m) {bp : BP} (hb : MM TS NS U m bp ≠ none) :
    Known (cdOf m.codes) bp ∧ ∃ e, MM TS NS U m bp = Lp TS NS m.trie m.nlm (flat m.lambda (cdOf m.codes) bp) e := h.toF.mm_path hb

theorem SInv.mm_some {m : Map τ ν} (h : SInv TS NS U m) {bp : BP} (hk : Known (cdOf m.codes) bp)
    (hT : TS.T m.trie (flat m.lambda (cdOf m.codes) bp) ≠ none) : MM TS NS U m bp ≠ none := h.toF.mm_some hk hT

theorem SInv.at_node {m : Map τ ν} (h : SInv TS NS U m) {bp : BP} {l v : List UInt8} {node : Nat}
    (hb : MM TS NS U m bp = some (l, v))
    (hn : TS.T m.trie (flat m.lambda (cdOf m.codes) bp) = some node) :
    ∃ e, NS.L m.nlm node e = some (l, v) := h.toF.at_node hb hn

/-- what the step loop of `update` keeps -/
structure Same (m m' : Map τ ν) : Prop where
  ready : m'.isReady = m.isReady
  lam : m'.lambda = m.lambda
  codes : m'.codes = m.codes
  numCodes : m'.numCodes = m.numCodes
  size : m'.size = m.size

theorem updSteps_ok (fuel : Nat) : ∀ {m : Map τ ν} (_ : SInv TS NS U m) (bp : BP) (j node mt : Nat) (lim : Prop) (B : Nat),
    mt < fuel → Known (cdOf m.codes) bp →
    TS.T m.trie (List.replicate j 255 ++ flat m.lambda (cdOf m.codes) bp) = some node →
    (∃ l v, MM TS NS U m bp = some (l, v) ∧ j * m.lambda + mt ≤ l.length - 1) → Bound (MM TS NS U m) m.lambda B →
    (N ≤ B → lim) →
    Post lim (updSteps cfg fuel m node mt) (fun x => SInv TS NS U x.1 ∧ Same m x.1 ∧
      MM TS NS U x.1 = MM TS NS U m ∧
      cfg.T.Grow TS.mf m.trie x.1.trie ∧
      (∀ q, TS.T m.trie q ≠ none → TS.T x.1.trie q ≠ none) ∧
      Stab TS NS m.trie m.nlm x.1.trie x.1.nlm ∧
      TS.T x.1.trie (List.replicate (j + mt / m.lambda) 255 ++ flat m.lambda (cdOf m.codes) bp) = some x.2.1 ∧
      x.2.2 = mt % m.lambda ∧
      cfg.T.size x.1.trie + m.numSteps = cfg.T.size m.trie + x.1.numSteps ∧
      (TS.T m.trie (List.replicate (j + mt / m.lambda) 255 ++ flat m.lambda (cdOf m.codes) bp) ≠ none → x.1.nlm = m.nlm ∧ TS.T x.1.trie = TS.T m.trie) ∧
      Grown (TS.T m.trie) (TS.T x.1.trie) (cfg.T.size m.trie) (cfg.T.size x.1.trie)
        (fun q => ∃ i, i ≤ j + mt / m.lambda ∧ q = List.replicate i 255 ++ flat m.lambda (cdOf m.codes) bp)) := by
  induction fuel with
  | zero => intro m _ bp j node mt lim B hf; omega
  | succ fuel ih =>
    intro m h bp j node mt lim B hf hkn hn hlab0 hB hlim
    simp only [updSteps]
    have hl := h.lam_pos
    by_cases hle : m.lambda ≤ mt
    · have hdiv : mt / m.lambda = (mt - m.lambda) / m.lambda + 1 := Nat.div_eq_sub_div hl hle
      have hmod : mt % m.lambda = (mt - m.lambda) % m.lambda := Nat.mod_eq_sub_mod hle
      have hrep : ∀ p : List Nat, List.replicate (j + mt / m.lambda) 255 ++ p =
          List.replicate (j + 1 + (mt - m.lambda) / m.lambda) 255 ++ p := by
        intro p; rw [hdiv]; congr 2; omega
      rw [if_pos hle]
      simp only [hrep, hmod]
      -- continuation after the node is there
      have hcont : ∀ m1 : Map τ ν, ∀ node1, SInv TS NS U m1 → Same m m1 → MM TS NS U m1 = MM TS NS U m →
          cfg.T.Grow TS.mf m.trie m1.trie →
          (∀ q, TS.T m.trie q ≠ none → TS.T m1.trie q ≠ none) → Stab TS NS m.trie m.nlm m1.trie m1.nlm →
          TS.T m1.trie (List.replicate (j + 1) 255 ++ flat m.lambda (cdOf m.codes) bp) = some node1 →
          cfg.T.size m1.trie + m.numSteps = cfg.T.size m.trie + m1.numSteps →
          (TS.T m.trie (List.replicate (j + 1) 255 ++ flat m.lambda (cdOf m.codes) bp) ≠ none → m1.nlm = m.nlm ∧ TS.T m1.trie = TS.T m.trie) →
          Grown (TS.T m.trie) (TS.T m1.trie) (cfg.T.size m.trie) (cfg.T.size m1.trie)
            (fun q => q = List.replicate (j + 1) 255 ++ flat m.lambda (cdOf m.codes) bp) →
          Post lim (updSteps cfg fuel m1 node1 (mt - m.lambda)) (fun x => SInv TS NS U x.1 ∧ Same m x.1 ∧
            MM TS NS U x.1 = MM TS NS U m ∧
            cfg.T.Grow TS.mf m.trie x.1.trie ∧
            (∀ q, TS.T m.trie q ≠ none → TS.T x.1.trie q ≠ none) ∧
            Stab TS NS m.trie m.nlm x.1.trie x.1.nlm ∧
            TS.T x.1.trie (List.replicate (j + 1 + (mt - m.lambda) / m.lambda) 255 ++ flat m.lambda (cdOf m.codes) bp) = some x.2.1 ∧
            x.2.2 = (mt - m.lambda) % m.lambda ∧
            cfg.T.size x.1.trie + m.numSteps = cfg.T.size m.trie + x.1.numSteps ∧
            (TS.T m.trie (List.replicate (j + 1 + (mt - m.lambda) / m.lambda) 255 ++ flat m.lambda (cdOf m.codes) bp) ≠ none → x.1.nlm = m.nlm ∧ TS.T x.1.trie = TS.T m.trie) ∧
            Grown (TS.T m.trie) (TS.T x.1.trie) (cfg.T.size m.trie) (cfg.T.size x.1.trie)
              (fun q => ∃ i, i ≤ j + mt / m.lambda ∧ q = List.replicate i 255 ++ flat m.lambda (cdOf m.codes) bp)) := by
        intro m1 node1 s1 s2 s3 s5 s6 s8 s7 s9 s10 s11
        refine (ih s1 bp (j + 1) node1 (mt - m.lambda) lim B (by omega) (by rw [s2.codes]; exact hkn)
          (by rw [s2.lam, s2.codes]; exact s7) ?_ (by rw [s3, s2.lam]; exact hB) hlim).imp ?_
        · obtain ⟨l0, v0, g1, g2⟩ := hlab0
          refine ⟨l0, v0, by rw [s3]; exact g1, ?_⟩
          rw [s2.lam, Nat.add_mul, Nat.one_mul]; omega
        rintro ⟨m2, node2, j2⟩ ⟨a1, a2, a3, a5, a6, a9, a7, a8, a10, a11, a12⟩
        simp only at a1 a2 a3 a5 a6 a7 a8 a9 a10 a11 a12 ⊢
        rw [s2.lam, s2.codes] at a7 a11 a12
        rw [s2.lam] at a8
        exact ⟨a1, ⟨a2.ready.trans s2.ready, a2.lam.trans s2.lam, a2.codes.trans s2.codes, a2.numCodes.trans s2.numCodes,
          a2.size.trans s2.size⟩, a3.trans s3, s5.trans a5, fun q hq => a6 q (s6 q hq), s8.trans a9, a7, a8, by omega,
          fun hx => by
            have b1 := a11 (s6 _ hx)
            rw [Nat.add_comm (j + 1), List.replicate_add, List.append_assoc] at hx
            have b2 := s10 (h.core.prefix_rep hx)
            exact ⟨b1.1.trans b2.1, b1.2.trans b2.2⟩,
          (s11.imp fun q hq => ⟨j + 1, by rw [hdiv]; exact Nat.add_le_add_left (Nat.le_add_left _ _) _, hq⟩).trans (a12.imp fun q hq => by
            obtain ⟨i, i1, i2⟩ := hq
            exact ⟨i, by omega, i2⟩)⟩
      have hgood : Good (MM TS NS U m) m.lambda (bp, j + 1) := by
        obtain ⟨l0, v0, g1, g2⟩ := hlab0
        exact ⟨l0, v0, g1, by simp only [Nat.add_mul, Nat.one_mul]; omega⟩
      refine add_post (NS := NS) (m := m)
        (knew := fun m1 node1 => match cfg.T.kind with
          | .fkhash => do
            R.assert (node1 = cfg.L.size m1.nlm)
            let nlm ← cfg.L.appendDummy m1.nlm
            updSteps cfg fuel { m1 with nlm := nlm, numSteps := m1.numSteps + 1 } node1 (mt - m1.lambda)
          | .bonsai => updSteps cfg fuel { m1 with numSteps := m1.numSteps + 1 } node1 (mt - m1.lambda))
        (kold := fun m1 node1 => updSteps cfg fuel m1 node1 (mt - m1.lambda))
        h.core hn h.step_lt (Or.inr (by simp)) (fun hN => hlim (Nat.le_trans hN (h.cnt.le hB)))
        (fun hnone hN => hlim (Nat.le_trans hN (h.cnt.lt hB hgood hnone))) ?_ ?_
      · intro t1 n1 v1 hN1
        have hshape : Shape m.lambda (cdOf m.codes) (fun p => TS.T t1 p ≠ none) (fun p => Lp TS NS t1 n1 p false) := by
          intro q hq
          simp only [hN1.labs]
          rcases (hN1.paths q).1 hq with h1 | h1
          · exact h.shape q h1
          · refine ⟨j + 1, bp, hkn, by rw [h1]; rfl, ?_⟩
            rw [h1, lp_none hN1.wasNone]; simp
        have hLp1 : Lp TS NS t1 n1 = Lp TS NS m.trie m.nlm := funext fun q => funext (hN1.labs q)
        have hMM : MM TS NS U { m with trie := t1, nlm := n1 } = MM TS NS U m := by
          simp only [MM, hLp1]
        have hlab : ∀ b, Known (cdOf m.codes) b → TS.T t1 (flat m.lambda (cdOf m.codes) b) ≠ none →
            MM TS NS U { m with trie := t1, nlm := n1 } b ≠ none := by
          intro b hb hT
          rw [hMM]
          rcases (hN1.paths _).1 hT with h1 | h1
          · exact h.lab b hb h1
          · exfalso
            have := (flat_inj (lam := m.lambda) (k := 0) (k' := j + 1) h.codes.inj hb hkn (by simpa [List.replicate_succ] using h1)).1
            omega
        have hcnt : Counted m.lambda (cdOf m.codes) (TS.T t1) (MM TS NS U { m with trie := t1, nlm := n1 }) (cfg.T.size t1) := by
          rw [hN1.size, hMM]
          refine h.cnt.add (fun _ _ => rfl) (fun q hq => (hN1.paths q).2 (Or.inl hq)) (fun _ _ v hv => ⟨v, hv⟩) (bp := bp) (j := j + 1) hkn hgood hN1.wasNone ?_
          exact (hN1.paths _).2 (Or.inr rfl)
        rcases kind_cases cfg.T.kind with hk | hk
        · simp only [hk]
          refine hcont { m with trie := t1, nlm := n1, numSteps := m.numSteps + 1 } v1 ⟨h.ready, h.sb8, h.lam, h.codes, hN1.core, ?_, hshape, hlab, hcnt⟩ ⟨rfl, rfl, rfl, rfl, rfl⟩
            hMM hN1.capa (fun q hq => (hN1.paths q).2 (Or.inl hq)) hN1.stab hN1.node (by have := hN1.size; simp only; omega) (fun hx => absurd hN1.wasNone hx)
            (.one hN1.paths hN1.wasNone rfl hN1.size)
          intro h'; rw [hk] at h'; cases h'
        · obtain ⟨f1, f2⟩ := hN1.fk hk
          subst f1
          simp only [hk]
          rw [R.assert_dec (by rw [f2, h.fk hk])]
          obtain ⟨n2, d1, d2, d3, d5, d4⟩ := NS.appendDummy hk _ _ hN1.core.nlm
          simp only [R.bind_ok, d1]
          have hLp2 : Lp TS NS t1 n2 = Lp TS NS t1 m.nlm := by
            funext q e; simp only [Lp, d4]
          refine hcont { m with trie := t1, nlm := n2, numSteps := m.numSteps + 1 } v1 ⟨h.ready, h.sb8, h.lam, h.codes,
            ⟨hN1.core.trie, d2, hN1.core.nex, fun i e hi => hN1.core.labT i e (by rw [← d4]; exact hi)⟩, ?_, ?_, ?_, ?_⟩ ⟨rfl, rfl, rfl, rfl, rfl⟩
            ?_ hN1.capa (fun q hq => (hN1.paths q).2 (Or.inl hq))
            (hN1.stab.trans (fun hs l q ⟨i, i1, i2⟩ => ⟨i, i1, d5 hs l i i2⟩)) hN1.node (by have := hN1.size; simp only; omega) (fun hx => absurd hN1.wasNone hx)
            (.one hN1.paths hN1.wasNone rfl hN1.size)
          · intro _; simp only [d3, hN1.size, h.fk hk]
          · rw [hLp2]; exact hshape
          · simp only [MM, hLp2]; exact hlab
          · simp only [MM, hLp2]; exact hcnt
          · simp only [MM, hLp2]; exact hMM
      · intro t1 v1 hc1 hE hv1 hT1 hsz hcapa
        have hLp : Lp TS NS t1 m.nlm = Lp TS NS m.trie m.nlm := by
          funext q e; simp only [Lp, hT1]
        refine hcont { m with trie := t1 } v1 ⟨h.ready, h.sb8, h.lam, h.codes, hc1, ?_, ?_, ?_, ?_⟩ ⟨rfl, rfl, rfl, rfl, rfl⟩
          ?_ hcapa (fun q hq => by simp only [hT1]; exact hq) (.of_T (fun q i hi => by rw [hT1]; exact hi)) hv1 (by simp only [hsz]) (fun _ => ⟨rfl, funext hT1⟩) (.of_eq (funext hT1) hsz)
        · intro hk; simp only [hsz]; exact h.fk hk
        · simp only [hT1, hLp]; exact h.shape
        · simp only [hT1, MM, hLp]; exact h.lab
        · have : TS.T t1 = TS.T m.trie := funext hT1
          simp only [this, hsz, MM, hLp]; exact h.cnt
        · simp only [MM, hLp]
    · rw [if_neg hle]
      rw [Nat.div_eq_of_lt (by omega), Nat.mod_eq_of_lt (by omega)]
      exact ⟨h, ⟨rfl, rfl, rfl, rfl, rfl⟩, rfl, .refl _, fun q hq => hq, .refl _ _, hn, rfl, rfl, fun _ => ⟨rfl, rfl⟩, .refl⟩

end Poplar.Map
