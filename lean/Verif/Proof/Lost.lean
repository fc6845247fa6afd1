import Verif.Proof.MapDict
/-
  `update` of a key that needs a byte code when all 255 codes are taken (map.hpp:168-172 with
  `num_codes_ = 255`): the key is stored under the reserved code and lost.
-/
namespace Poplar
open Spec

/-- like `Post`, with any predicate on the faults -/
def PostE {α : Type} (E : Fault → Prop) (x : R α) (Q : α → Prop) : Prop :=
  match x with
  | .ok a => Q a
  | .error e => E e

theorem Post.toE {α : Type} {lim : Prop} {E : Fault → Prop} {x : R α} {Q : α → Prop} (h : Post lim x Q)
    (hE : lim → E .limit ∧ E .throw) : PostE E x Q := by
  cases x with
  | ok a => exact h
  | error e =>
    obtain ⟨h1, h2⟩ := h
    obtain ⟨h3, h4⟩ := hE h1
    rcases h2 with rfl | rfl
    · exact h3
    · exact h4

theorem PostE.bind {α β : Type} {E : Fault → Prop} {x : R α} {f : α → R β} {Q : α → Prop} {P : β → Prop}
    (hx : PostE E x Q) (hf : ∀ a, x = .ok a → Q a → PostE E (f a) P) : PostE E (x >>= f) P := by
  cases x with
  | error e => exact hx
  | ok a => exact hf a rfl hx

theorem PostE.imp {α : Type} {E : Fault → Prop} {x : R α} {Q P : α → Prop} (h : PostE E x Q) (hi : ∀ a, Q a → P a) :
    PostE E x P := by
  cases x with
  | error e => exact h
  | ok a => exact hi a h

namespace Map
variable {τ ν : Type} {cfg : MapCfg τ ν} {sb N vs : Nat} {z0 : Prop} {U : List UInt8 → Prop}
variable {TS : TrieSpec cfg.T sb N z0} {NS : NlmSpec cfg.L cfg.T.kind vs}

/-- `add_post` with arbitrary faults in the continuations -/
theorem add_postE {β : Type} {m : Map τ ν} (hc : Core TS NS m.trie m.nlm)
    {p : List Nat} {v s : Nat} (hv : TS.T m.trie p = some v) (hs : s < 2 ^ sb) (hz : z0 ∨ s :: p ≠ [0])
    {E : Fault → Prop} (hlim : N ≤ cfg.T.size m.trie + 1 → E .limit ∧ E .throw)
    {knew kold : Map τ ν → Nat → R β} {Q : β → Prop}
    (hnew : ∀ t' n' v', NewNode (TS := TS) (NS := NS) m.trie m.nlm (s :: p) t' n' v' →
      PostE E (knew { m with trie := t', nlm := n' } v') Q)
    (hold : ∀ t' v', Core TS NS t' m.nlm → TS.T m.trie (s :: p) ≠ none → TS.T t' (s :: p) = some v' →
      (∀ q, TS.T t' q = TS.T m.trie q) → cfg.T.size t' = cfg.T.size m.trie →
      PostE E (kold { m with trie := t' } v') Q) :
    PostE E (cfg.T.addChild m.trie v s >>= fun x =>
      if x.2.2 then expandIfNeeded cfg { m with trie := x.1 } x.2.1 >>= fun y => knew y.1 y.2
      else kold { m with trie := x.1 } x.2.1) Q := by
  have h := add_post (β := R β) (NS := NS) (m := m) hc hv hs hz (lim := N ≤ cfg.T.size m.trie + 1) (fun h => Nat.le_succ_of_le h) (fun _ h => h)
    (knew := fun a b => .ok (knew a b)) (kold := fun a b => .ok (kold a b)) (Q := fun x => PostE E x Q)
    (fun t n v hN => hnew t n v hN) (fun t v h1 h2 h3 h4 h5 _ => hold t v h1 h2 h3 h4 h5)
  have e : (cfg.T.addChild m.trie v s >>= fun x =>
      if x.2.2 then expandIfNeeded cfg { m with trie := x.1 } x.2.1 >>= fun y => knew y.1 y.2
      else kold { m with trie := x.1 } x.2.1) =
      ((cfg.T.addChild m.trie v s >>= fun x =>
      if x.2.2 then expandIfNeeded cfg { m with trie := x.1 } x.2.1 >>= fun y => (.ok (knew y.1 y.2) : R (R β))
      else .ok (kold { m with trie := x.1 } x.2.1)) >>= id) := by
    cases cfg.T.addChild m.trie v s with
    | error e => rfl
    | ok x =>
      simp only [R.bind_ok]
      cases x.2.2 with
      | false => rfl
      | true =>
        simp only [if_true]
        cases expandIfNeeded cfg { m with trie := x.1 } x.2.1 with
        | error e => rfl
        | ok y => rfl
  rw [e]
  exact (h.toE hlim).bind (fun a _ ha => ha)

section
variable (TS NS)

/-- the key was stored, but not where `find` looks for it -/
structure LostPost (U : List UInt8 → Prop) (m m' : Map τ ν) (r : UpdOut) : Prop where
  rel : cfg.dbg = false
  inv : FInv TS NS U 255 m'
  size : m'.size = m.size + 1
  same : MM TS NS U m' = MM TS NS U m
  num : m'.numCodes = 256
  codes : ∀ c, cdOf m'.codes c = cdOf m.codes c
  ptr : ∃ l, r = .ptr l ∧ cfg.L.load m'.nlm l = .ok (List.replicate vs 0)
end

theorem updLoop_lost (fuel : Nat) : ∀ {m : Map τ ν} (_ : SInv TS NS U m) (_ : AInv vs U (MM TS NS U m)) (bp : BP) (node : Nat)
    (key : List UInt8) (E : Fault → Prop) (c : UInt8) (B : Nat), key.length < fuel → KeyAt U (MM TS NS U m) bp key →
    Known (cdOf m.codes) bp → TS.T m.trie (flat m.lambda (cdOf m.codes) bp) = some node →
    m.numCodes = 255 → StuckAt (MM TS NS U m) (walk (MM TS NS U m) bp key) c → cdOf m.codes c = 255 →
    (z0 ∨ bp ≠ [] ∨ key.head? ≠ some 0 ∨ ∃ l v, MM TS NS U m [] = some (0 :: l, v)) →
    Bound (MM TS NS U m) m.lambda B → (N ≤ B + 1 → E .limit ∧ E .throw) → (cfg.dbg = true → E .assertion) →
    (¬ (NoStep TS NS m.trie m.nlm ∧ key.length ≤ m.lambda) → E .assertion) →
    PostE E (updLoop cfg fuel m node key) (fun x => LostPost TS NS U m x.1 x.2) := by
  induction fuel with
  | zero => intro m _ _ bp node key E c B hf; omega
  | succ fuel ih =>
    intro m h hA bp node key E c0 B hf hkey hkn hn hnum hstuck hc0 hz hB hlim hdbg hstep
    have hne := h.mm_some hkn (by rw [hn]; simp)
    obtain ⟨⟨l, v⟩, hlv⟩ := Option.ne_none_iff_exists'.1 hne
    obtain ⟨e0, hL⟩ := h.at_node hlv hn
    have hlab := (hA.lab _ _ _ hlv).1
    have hcmp := NS.compare _ _ h.core.nlm node _ l v hL key (hkey.sep hA.univ hlab)
    have he : key ≠ l := by
      rintro rfl
      rw [walk_eq hlv] at hstuck
      exact hne hstuck.1
    simp only [updLoop]
    obtain ⟨hlt, hk2⟩ := hA.step hlv hkey he
    have hlt2 : lcp key l < l.length := by
      rw [lcp_comm]; exact (hkey.sep hA.univ hlab).symm.lcp_lt (Ne.symm he)
    rw [walk_step hlv he hlt] at hstuck
    rw [hcmp.2 he]
    have hemp : key.isEmpty = false := by
      cases key with
      | nil => simp at hlt
      | cons => rfl
    simp only [hemp, Bool.false_eq_true, if_false, R.bind_ok]
    rw [advance, if_pos (by omega)]
    simp only [R.bind_ok]
    generalize hmt : lcp key l = mt at *
    generalize hbc : key[mt] = c at *
    have hdrop : key.drop mt = c :: key.drop (mt + 1) := by
      rw [List.drop_eq_getElem_cons hlt, hbc]
    simp only [hdrop]
    have hrest0 : c ≠ 0 → key.drop (mt + 1) ≠ [] := by
      intro hc he
      have hkl : key.length ≤ mt + 1 := List.drop_eq_nil_iff.1 he
      rcases (hkey.ok hA.univ).1 with e | ⟨s, e⟩
      · rw [e] at hlt; simp at hlt
      · subst e
        simp only [List.length_append, List.length_cons, List.length_nil] at hkl hlt
        have : mt = s.length := by omega
        subst this
        apply hc
        rw [← hbc]; simp
    refine ((updSteps_ok (TS := TS) (NS := NS) (mt + 1) h bp 0 node mt _ B (by omega) hkn (by simpa using hn) ⟨l, v, hlv, by omega⟩ hB id).toE
        (fun hN => hlim (by omega))).bind ?_
    rintro ⟨m1, node1, j1⟩ heqs ⟨s1, s2, s3, s5, s6, s9, s7, s8, s10⟩
    have hm1 : key.length ≤ m.lambda → m1 = m := by
      intro hle
      rw [updSteps_lt (by omega)] at heqs
      injection heqs with heqs
      injection heqs with heqs _
      exact heqs.symm
    simp only [Nat.zero_add] at s1 s2 s3 s5 s6 s7 s8 s9 ⊢
    have hcd : cdOf m1.codes = cdOf m.codes := by rw [s2.codes]
    have hle1 : cfg.T.size m1.trie ≤ B := s1.cnt.le (by rw [s3, s2.lam]; exact hB)
    have hjl : j1 < m1.lambda := by rw [s8, s2.lam]; exact Nat.mod_lt _ h.lam_pos
    rw [s1.codes.rd]
    simp only [R.bind_ok]
    by_cases hunk : cdOf m1.codes c = 255
    · -- the byte without a code
      simp only [hunk, if_true, decide_true, Bool.true_and]
      rw [wr_of_lt (by rw [s1.codes.size]; exact c.toNat_lt)]
      simp only [R.bind_ok, R.pure_eq]
      have hn1 : m1.numCodes = 255 := by rw [s2.numCodes, hnum]
      simp only [hn1, show (255 % 256 : Nat) = 255 by decide, show ¬ (255 = 255 + 1) by decide, decide_false, Bool.false_eq_true, if_false]
      have hset := cdOf_set s1.codes.size c
      have hsame : ∀ d, cdOf (m1.codes.setIfInBounds c.toNat 255) d = cdOf m1.codes d := by
        intro d; rw [hset]; split
        next e => rw [e, hunk]
        next => rfl
      have hsame' : cdOf (m1.codes.setIfInBounds c.toNat 255) = cdOf m1.codes := funext hsame
      have hci : CodeInv (m1.codes.setIfInBounds c.toNat 255) 255 := by
        have hc1 := s1.codes
        rw [hn1] at hc1
        exact ⟨by simp [hc1.size], by rw [hsame]; exact hc1.zero, by rw [hsame']; exact hc1.rng, by rw [hsame']; exact hc1.inj, by omega, by omega,
          by rw [hsame']; exact hc1.count⟩
      have hcne : c ≠ 0 := by
        rintro rfl
        rw [s1.codes.zero] at hunk; omega
      have hrest := hrest0 hcne
      cases hd : cfg.dbg with
      | true =>
        have : makeSymb cfg { m1 with codes := m1.codes.setIfInBounds c.toNat 255, numCodes := 255 + 1 } c j1 = .error .assertion := by
          simp only [Map.makeSymb, hci.rd, R.bind_ok, hsame, hunk, hd]
          rfl
        simp only [this]
        exact hdbg hd
      | false =>
        have hsl := s1.symb_lt (c := 255) (by omega) hjl
        have hsym : makeSymb cfg { m1 with codes := m1.codes.setIfInBounds c.toNat 255, numCodes := 255 + 1 } c j1 = .ok (255 + 256 * j1) := by
          have h2 : 2 ^ sb ≤ 2 ^ 63 := Nat.pow_le_pow_right (by decide) (by have := h.sb8.2; omega)
          have h3 : shl64 j1 8 = j1 * 2 ^ 8 := shl64_eq (by omega)
          simp only [Map.makeSymb, hci.rd, R.bind_ok, hsame, hunk, hd]
          rw [R.assert_of (by simp), h3]
          simp only [R.bind_ok, R.pure_eq]
          have h5 : 255 ||| j1 * 2 ^ 8 = 255 + 256 * j1 := by
            rw [Nat.or_comm, Nat.mul_comm, ← Nat.two_pow_add_eq_or_of_lt (i := 8) (by omega)]
            omega
          rw [h5]
        simp only [hsym, R.bind_ok]
        have hnoflat : ∀ b, Known (cdOf m1.codes) b → flat m1.lambda (cdOf m1.codes) b ≠
            (255 + 256 * j1) :: (List.replicate (mt / m.lambda) 255 ++ flat m.lambda (cdOf m.codes) bp) := by
          intro b hb e
          cases b with
          | nil => simp [flat] at e
          | cons x b =>
            obtain ⟨mt', c'⟩ := x
            simp only [flat] at e
            injection e with e _
            have := (Known.cons.1 hb).1
            simp only at this; omega
        refine add_postE (NS := NS) (m := { m1 with codes := m1.codes.setIfInBounds c.toNat 255, numCodes := 255 + 1 })
          (knew := fun m2 v2 => do
            R.assert (cfg.T.kind = .bonsai || v2 = cfg.L.size m2.nlm)
            putLabel cfg { m2 with size := m2.size + 1 } v2 (key.drop (mt + 1)))
          (kold := fun m2 v2 => updLoop cfg fuel m2 v2 (key.drop (mt + 1)))
          s1.core s7 hsl (Or.inr (by simp)) (fun hN => hlim (by simp only at hN; omega)) ?_ ?_
        · intro t2 n2 v2 hN
          simp only at hN ⊢
          have hassert : R.assert (cfg.T.kind = .bonsai || v2 = cfg.L.size n2) = .ok () := by
            apply R.assert_of
            rcases kind_cases cfg.T.kind with hk | hk
            · simp [hk]
            · obtain ⟨f1, f2⟩ := hN.fk hk
              rw [f1, f2, s1.fk hk]; simp
          simp only [hassert, R.bind_ok]
          obtain ⟨n3, l3, p1, p2, p3, p4, p6, p5, p7⟩ := putLabel_ok
            (m := { m1 with codes := m1.codes.setIfInBounds c.toNat 255, numCodes := 255 + 1, trie := t2, nlm := n2, size := m1.size + 1 }) (NS := NS)
            hN.core hN.node hN.lab (fun hk => by
              obtain ⟨f1, f2⟩ := hN.fk hk
              simp only; rw [f1, f2, s1.fk hk]) (hk2.ok hA.univ)
          rw [p1]
          simp only at p2 p3 p4 p5 p6
          have hLp : ∀ b e, Known (cdOf m1.codes) b → Lp TS NS t2 n3 (flat m1.lambda (cdOf m1.codes) b) e =
              Lp TS NS m1.trie m1.nlm (flat m1.lambda (cdOf m1.codes) b) e := by
            intro b e hb
            rw [p7 _ _ (hnoflat b hb)]; exact hN.labs _ _
          have hMM : byBranch m1.lambda (cdOf m1.codes) (Lp TS NS t2 n3) = byBranch m1.lambda (cdOf m1.codes) (Lp TS NS m1.trie m1.nlm) := by
            funext b e
            simp only [byBranch]
            by_cases hb : Known (cdOf m1.codes) b
            · simp only [hb, if_true]; exact hLp b e hb
            · simp only [hb, if_false]
          have hMM' : MM TS NS U { m1 with codes := m1.codes.setIfInBounds c.toNat 255, numCodes := 255 + 1, trie := t2, nlm := n3, size := m1.size + 1 } = MM TS NS U m1 := by
            simp only [MM, hsame', hMM]
          refine ⟨hd, ⟨s1.ready, s1.sb8, s1.lam, hci, p2, ?_⟩, by simp only [s2.size], by rw [hMM', s3], rfl, fun d => by
            simp only; rw [hsame, hcd], l3, rfl, ?_⟩
          · intro b hb hT
            rw [hMM']
            simp only [hsame'] at hb hT
            apply s1.mm_some hb
            rcases (hN.paths _).1 hT with h1 | h1
            · exact h1
            · exact absurd h1 (hnoflat b hb)
          · simp only [Lp, hN.node, Option.bind_some] at p5
            exact NS.load _ _ p2.nlm l3 v2 _ _ _ p3 p5
        · -- the reserved code leads to a step node
          intro t2 v2 hc2 hE hv2 hT2 hsz
          simp only at hE hv2 hT2 hsz ⊢
          obtain ⟨k', bp', g1, g2, g3⟩ := s1.shape _ hE
          have hk' : k' ≠ 0 := by
            rintro rfl
            exact hnoflat bp' g1 (by simpa using g2.symm)
          have hnolab : Lp TS NS m1.trie m1.nlm ((255 + 256 * j1) :: (List.replicate (mt / m.lambda) 255 ++ flat m.lambda (cdOf m.codes) bp)) false = none := by
            by_contra hx; exact hk' (g3.2 hx)
          have hEa : E .assertion := by
            apply hstep
            rintro ⟨hns, hle⟩
            rw [hm1 hle] at hE hnolab
            exact hns _ hE hnolab
          have hcn : cfg.L.compare m1.nlm v2 (key.drop (mt + 1)) = .error .assertion := by
            refine NS.compare_none _ _ hc2.nlm v2 ?_ (fun _ => (TS.T_bound _ hc2.trie _ _ hv2).1) (fun hk => ?_) _ hrest
            · rw [hT2] at hv2
              simp only [Lp, hv2, Option.bind_some] at hnolab
              exact hnolab
            · rw [s1.fk hk, ← hsz]
              exact TS.T_bound_fk hk _ hc2.trie _ _ hv2
          cases fuel with
          | zero => omega
          | succ f =>
            have h1 : (key.drop (mt + 1)).isEmpty = false := by
              cases hx : key.drop (mt + 1) with
              | nil => exact absurd hx hrest
              | cons => rfl
            simp only [updLoop, h1, Bool.false_eq_true, if_false, hcn]
            exact hEa
    · -- a byte with a code: the child exists
      have hc1 : cdOf m.codes c < 255 := by
        rw [← hcd]; have := s1.codes.le255 c; omega
      have hMMc : MM TS NS U m ((mt, c) :: bp) ≠ none := by
        intro hx
        rw [walk_none hx] at hstuck
        obtain ⟨_, mt', q', e⟩ := hstuck
        injection e with e _
        injection e with _ e
        rw [← e] at hc0; omega
      simp only [hunk, if_false, decide_false, Bool.false_and, Bool.false_eq_true, R.pure_eq, R.bind_ok]
      rw [s1.makeSymb (by rw [hcd]; exact hc1) hjl]
      simp only [R.bind_ok]
      have hflat : (cdOf m1.codes c + 256 * j1) :: (List.replicate (mt / m.lambda) 255 ++ flat m.lambda (cdOf m.codes) bp)
          = flat m.lambda (cdOf m.codes) ((mt, c) :: bp) := by simp only [flat]; rw [s8, hcd]
      have hTm : TS.T m1.trie (flat m.lambda (cdOf m.codes) ((mt, c) :: bp)) ≠ none := by
        apply s6
        obtain ⟨_, e1, he1⟩ := h.mm_path hMMc
        rw [he1] at hMMc
        exact lp_ne hMMc
      refine add_postE (NS := NS) (m := m1)
          (knew := fun m2 v2 => do
            R.assert (cfg.T.kind = .bonsai || v2 = cfg.L.size m2.nlm)
            putLabel cfg { m2 with size := m2.size + 1 } v2 (key.drop (mt + 1)))
          (kold := fun m2 v2 => updLoop cfg fuel m2 v2 (key.drop (mt + 1)))
          s1.core s7 (s1.symb_lt (by rw [hcd]; omega) hjl) ?_ (fun hN => hlim (by omega)) ?_ ?_
      · rcases hz with hz | hz | hz | ⟨l0, v0, hz⟩
        · exact Or.inl hz
        · right
          intro e
          injection e with _ e2
          have := List.append_eq_nil_iff.1 e2
          cases bp with
          | nil => exact hz rfl
          | cons y b => simp [flat] at this
        all_goals
          right
          intro e
          injection e with e1 e2
          have e3 := List.append_eq_nil_iff.1 e2
          have hbp : bp = [] := by
            cases bp with
            | nil => rfl
            | cons y b => simp [flat] at e3
          have e4 : mt / m.lambda = 0 := by simpa using e3.1
          have e5 : mt % m.lambda = 0 := by rw [← s8]; omega
          have e6 : mt = 0 := by
            have := Nat.div_add_mod mt m.lambda; rw [e4, e5] at this; omega
          have ec : c = 0 := by
            have : cdOf m.codes c = cdOf m.codes 0 := by rw [h.codes.zero]; rw [← hcd]; omega
            exact h.codes.inj c 0 hc1 this
          subst hbp e6 ec
          cases key with
          | nil => simp at hlt
          | cons x key =>
            simp only [List.getElem_cons_zero] at hbc
            subst hbc
            first
              | exact hz rfl
              | (rw [hz] at hlv
                 injection hlv with hlv
                 injection hlv with hlv _
                 subst hlv
                 simp [lcp] at hmt)
      · intro t2 n2 v2 hN
        have := hN.wasNone
        rw [hflat] at this
        exact absurd this hTm
      · intro t2 v2 hc2 hE hv2 hT2 hsz
        rw [hflat] at hv2
        have hLp : Lp TS NS t2 m1.nlm = Lp TS NS m1.trie m1.nlm := by
          funext q e; simp only [Lp, hT2]
        have hI2 : SInv TS NS U { m1 with trie := t2 } := by
          refine ⟨s1.ready, s1.sb8, s1.lam, s1.codes, hc2, ?_, ?_, ?_, ?_⟩
          · intro hk; simp only [hsz]; exact s1.fk hk
          · simp only [hT2, hLp]; exact s1.shape
          · simp only [hT2, MM, hLp]; exact s1.lab
          · have : TS.T t2 = TS.T m1.trie := funext hT2
            simp only [this, hsz, MM, hLp]; exact s1.cnt
        have hMM2 : MM TS NS U { m1 with trie := t2 } = MM TS NS U m := by
          rw [← s3]; simp only [MM, hLp]
        refine (ih hI2 (by rw [hMM2]; exact hA) ((mt, c) :: bp) v2 (key.drop (mt + 1)) E c0 B (by simp; omega) (by rw [hMM2]; exact hk2)
          (by simp only [hcd]; exact Known.cons.2 ⟨hc1, hkn⟩) (by simp only [s2.lam, hcd]; exact hv2) (by simp only [s2.numCodes]; exact hnum)
          (by rw [hMM2]; exact hstuck) (by simp only [hcd]; exact hc0) (Or.inr (Or.inl (by simp))) (by rw [hMM2]; simp only [s2.lam]; exact hB) hlim hdbg (fun hs => hstep ?_)).imp ?_
        · rintro ⟨hns, hle⟩
          apply hs
          simp only [hm1 hle, List.length_drop]
          refine ⟨fun q hq => ?_, by omega⟩
          rw [hm1 hle] at hLp hT2
          rw [hLp]; exact hns q (by rw [← hT2]; exact hq)
        · rintro ⟨m4, r4⟩ ⟨w1, w2, w3, w4, w5, w6, w7⟩
          simp only at w2 w3 w4 w5 w6 w7
          exact ⟨w1, w2, by rw [w3, s2.size], by rw [w4, hMM2], w5, fun d => by rw [w6, hcd], w7⟩

/-- `update` of a key that branches off at a byte without a code, when all codes are taken -/
theorem Live.updLost {m : Map τ ν} {d : Dict} (h : Live TS NS U m d) {k : Key} (hk : U k) {E : Fault → Prop} {c : UInt8}
    (hnum : m.numCodes = 255) (hb : BranchesAt d k c) (h0 : c ≠ 0) (hc : ¬ Coded m c)
    (hz : z0 ∨ k.head? ≠ some 0 ∨ ∃ l, firstKey d = some (0 :: l))
    (hlim : N ≤ nodesFor (2 ^ (sb - 8)) (k :: d.map (·.1)) → E .limit ∧ E .throw) (hdbg : cfg.dbg = true → E .assertion)
    (hstep : ¬ (NoStep TS NS m.trie m.nlm ∧ k.length ≤ 2 ^ (sb - 8)) → E .assertion) :
    PostE E (update cfg m k) (fun x => LostPost TS NS U m x.1 x.2) := by
  have hbk : badKey k = false := h.ainv.univ.badKey hk
  obtain ⟨r, r1, r2⟩ := TS.inv_root m.trie h.inv.core.trie
  have hsz := TS.inv_size m.trie h.inv.core.trie
  unfold update
  simp only [hbk, Bool.false_eq_true, if_false, hsz, r1, R.bind_ok]
  refine updLoop_lost (k.length + 1) h.inv h.ainv [] r k E c _ (by omega) hk Known.nil (by simpa [flat] using r2) hnum
    ((h.stuck hk c).2 hb) ?_ ?_ h.bound (fun hN => hlim ?_) hdbg (by rw [h.inv.lam]; exact hstep)
  · by_contra hn
    exact hc ⟨h.inv.ready, hn, h0⟩
  · rcases hz with hz | hz | ⟨l0, hz⟩
    · exact Or.inl hz
    · exact Or.inr (Or.inr (Or.inl hz))
    · right; right; right
      have := h.root
      rw [hz] at this
      cases h3 : MM TS NS U m [] with
      | none => rw [h3] at this; cases this
      | some x =>
        obtain ⟨x1, x2⟩ := x
        rw [h3] at this
        simp only [Option.map_some, Option.some.injEq] at this
        exact ⟨l0, x2, by rw [this]⟩
  · rw [h.inv.lam] at hN
    refine Nat.le_trans hN (nodesFor_new (k := k) (fun x hx => by simp only [List.mem_cons]; exact Or.inr hx) ?_ (by simp))
    intro hm
    obtain ⟨e, e1, e2⟩ := List.mem_map.1 hm
    exact Dict.get_mem.2 ⟨e, e1, e2⟩ hb.2.1

/-- what `find` sees afterwards -/
theorem LostPost.find {m m' : Map τ ν} {r : UpdOut} {d : Dict} (h : LostPost TS NS U m m' r) (hL : Live TS NS U m d) {k : Key}
    (hk : U k) : exec cfg m' (.find k) = .ok (m', .found (d.get k)) := by
  have hb : badKey k = false := hL.ainv.univ.badKey hk
  have hA : AInv vs U (MM TS NS U m') := by rw [h.same]; exact hL.ainv
  obtain ⟨r, r1, r2⟩ := TS.inv_root m'.trie h.inv.core.trie
  have hz := TS.inv_size m'.trie h.inv.core.trie
  obtain ⟨x, x1, x2, x3⟩ := h.inv.findLoop_ok hA (k.length + 1) [] r k (by omega) hk Known.nil (by simpa [flat] using r2)
  have hf : Map.find cfg m' k = .ok x := by
    unfold Map.find
    simp only [hb, Bool.false_eq_true, if_false, h.inv.ready, Bool.not_true, Bool.false_or, hz, decide_false, r1, R.bind_ok, x1]
  have hget : d.get k = (MM TS NS U m' (walk (MM TS NS U m') [] k).1).map (·.2) := by
    rw [← hL.get k hk, h.same]; rfl
  simp only [exec, hf]
  cases x with
  | none => rw [hget, x2 rfl]; rfl
  | some l =>
    obtain ⟨y1, ⟨i, p1, p2⟩⟩ := x3 l rfl
    obtain ⟨⟨lb, v⟩, hv⟩ := Option.ne_none_iff_exists'.1 y1
    obtain ⟨e0, he0⟩ := h.inv.at_node hv p1
    have hl : Map.load cfg m' l = .ok v := NS.load _ _ h.inv.core.nlm l i _ lb v p2 he0
    rw [hget, hv]
    simp only [hl, R.bind_ok, R.pure_eq, Option.map_some]

end Map
end Poplar
