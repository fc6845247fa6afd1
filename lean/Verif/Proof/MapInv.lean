import Verif.Proof.MapBase
/-
  Invariant of `map`, and the elementary steps of `update`.
-/
namespace Poplar.Map
open Spec Poplar

variable {τ ν : Type} {cfg : MapCfg τ ν} {sb N vs : Nat} {z0 : Prop} {U : List UInt8 → Prop}

section
variable (TS : TrieSpec cfg.T sb N z0) (NS : NlmSpec cfg.L cfg.T.kind vs)

/-- label and value by trie path and flag -/
def Lp (t : τ) (n : ν) (p : List Nat) (e : Bool) : Option LV := (TS.T t p).bind (fun i => NS.L n i e)

/-- the pointer points to the value of the node reached by the path -/
def Pth (t : τ) (n : ν) (l : Loc) (p : List Nat) : Prop := ∃ i, TS.T t p = some i ∧ NS.At n l i

/-- pointers stay valid -/
def Stab (t : τ) (n : ν) (t' : τ) (n' : ν) : Prop := NS.stable → ∀ l p, Pth TS NS t n l p → Pth TS NS t' n' l p

/-- trie and labels fit together -/
structure Core (t : τ) (n : ν) : Prop where
  trie : TS.Inv t
  nlm : NS.Inv (cfg.T.capaSize t) n
  nex : cfg.T.kind = .bonsai → cfg.T.needsToExpand t = false
  labT : ∀ i e, NS.L n i e ≠ none → ∃ p, TS.T t p = some i

/-- labels and values by branch path; `U` is the set of keys -/
noncomputable def MM (U : List UInt8 → Prop) (m : Map τ ν) : BP → Option LV :=
  link U (byBranch m.lambda (cdOf m.codes) (Lp TS NS m.trie m.nlm))

/-- there are no step nodes -/
def NoStep (t : τ) (n : ν) : Prop := ∀ p, TS.T t p ≠ none → Lp TS NS t n p false ≠ none

/-- the place of a node: `x.2` steps below the branch node `x.1`, whose label is long enough -/
def Good (M : BP → Option LV) (lam : Nat) (x : BP × Nat) : Prop := ∃ l v, M x.1 = some (l, v) ∧ x.2 * lam ≤ l.length - 1

/-- there are at most `B` places for nodes -/
def Bound (M : BP → Option LV) (lam B : Nat) : Prop := ∀ Q : List (BP × Nat), Q.Nodup → (∀ x ∈ Q, Good M lam x) → Q.length ≤ B

/-- every node of the trie is at one of the places for nodes -/
def Counted (lam : Nat) (cd : UInt8 → Nat) (T : List Nat → Option Nat) (M : BP → Option LV) (n : Nat) : Prop :=
  ∃ Q : List (BP × Nat), Q.Nodup ∧ Q.length = n ∧
    ∀ x ∈ Q, Known cd x.1 ∧ T (List.replicate x.2 255 ++ flat lam cd x.1) ≠ none ∧ Good M lam x

theorem Counted.le {lam B n : Nat} {cd : UInt8 → Nat} {T : List Nat → Option Nat} {M : BP → Option LV}
    (h : Counted lam cd T M n) (hB : Bound M lam B) : n ≤ B := by
  obtain ⟨Q, h1, rfl, h3⟩ := h
  exact hB Q h1 (fun x hx => (h3 x hx).2.2)

theorem Counted.lt {lam B n : Nat} {cd : UInt8 → Nat} {T : List Nat → Option Nat} {M : BP → Option LV}
    (h : Counted lam cd T M n) (hB : Bound M lam B) {bp : BP} {j : Nat} (hg : Good M lam (bp, j))
    (hT : T (List.replicate j 255 ++ flat lam cd bp) = none) : n + 1 ≤ B := by
  obtain ⟨Q, h1, rfl, h3⟩ := h
  refine hB ((bp, j) :: Q) (List.nodup_cons.2 ⟨fun hm => (h3 _ hm).2.1 hT, h1⟩) ?_
  intro x hx
  rcases List.mem_cons.1 hx with rfl | hx
  · exact hg
  · exact (h3 x hx).2.2

theorem Counted.mono {lam n : Nat} {cd cd' : UInt8 → Nat} {T T' : List Nat → Option Nat} {M M' : BP → Option LV}
    (h : Counted lam cd T M n) (hcd : ∀ c, cd c < 255 → cd' c = cd c) (hT : ∀ q, T q ≠ none → T' q ≠ none)
    (hM : ∀ bp l v, M bp = some (l, v) → ∃ v', M' bp = some (l, v')) : Counted lam cd' T' M' n := by
  obtain ⟨Q, h1, h2, h3⟩ := h
  refine ⟨Q, h1, h2, fun x hx => ?_⟩
  obtain ⟨g1, g2, l, v, g3, g4⟩ := h3 x hx
  obtain ⟨f1, f2⟩ := flat_congr (lam := lam) g1 hcd
  obtain ⟨v', hv⟩ := hM _ _ _ g3
  exact ⟨f2, by rw [f1]; exact hT _ g2, l, v', hv, g4⟩

theorem Counted.add {lam n : Nat} {cd cd' : UInt8 → Nat} {T T' : List Nat → Option Nat} {M M' : BP → Option LV}
    (h : Counted lam cd T M n) (hcd : ∀ c, cd c < 255 → cd' c = cd c) (hT : ∀ q, T q ≠ none → T' q ≠ none)
    (hM : ∀ bp l v, M bp = some (l, v) → ∃ v', M' bp = some (l, v')) {bp : BP} {j : Nat} (hk : Known cd bp)
    (hg : Good M' lam (bp, j)) (h0 : T (List.replicate j 255 ++ flat lam cd bp) = none)
    (h1 : T' (List.replicate j 255 ++ flat lam cd bp) ≠ none) : Counted lam cd' T' M' (n + 1) := by
  have h0' : ∀ Q : List (BP × Nat), (∀ x ∈ Q, T (List.replicate x.2 255 ++ flat lam cd x.1) ≠ none) → (bp, j) ∉ Q :=
    fun Q hQ hm => hQ _ hm h0
  obtain ⟨Q, q1, q2, q3⟩ := h
  have hn := h0' Q (fun x hx => (q3 x hx).2.1)
  obtain ⟨f1, f2⟩ := flat_congr (lam := lam) hk hcd
  refine ⟨(bp, j) :: Q, List.nodup_cons.2 ⟨hn, q1⟩, by simp [q2], fun x hx => ?_⟩
  rcases List.mem_cons.1 hx with rfl | hx
  · exact ⟨f2, by rw [f1]; exact h1, hg⟩
  · obtain ⟨g1, g2, l, v, g3, g4⟩ := q3 x hx
    obtain ⟨f1, f2⟩ := flat_congr (lam := lam) g1 hcd
    obtain ⟨v', hv⟩ := hM _ _ _ g3
    exact ⟨f2, by rw [f1]; exact hT _ g2, l, v', hv, g4⟩

structure SInv (U : List UInt8 → Prop) (m : Map τ ν) : Prop where
  ready : m.isReady = true
  sb8 : 8 ≤ sb ∧ sb < 64
  lam : m.lambda = 2 ^ (sb - 8)
  codes : CodeInv m.codes m.numCodes
  core : Core TS NS m.trie m.nlm
  fk : cfg.T.kind = .fkhash → cfg.L.size m.nlm = cfg.T.size m.trie
  shape : Shape m.lambda (cdOf m.codes) (fun p => TS.T m.trie p ≠ none) (fun p => Lp TS NS m.trie m.nlm p false)
  lab : ∀ bp, Known (cdOf m.codes) bp → TS.T m.trie (flat m.lambda (cdOf m.codes) bp) ≠ none → MM TS NS U m bp ≠ none
  cnt : Counted m.lambda (cdOf m.codes) (TS.T m.trie) (MM TS NS U m) (cfg.T.size m.trie)
end

variable {TS : TrieSpec cfg.T sb N z0} {NS : NlmSpec cfg.L cfg.T.kind vs}

theorem lp_none {t : τ} {n : ν} {p : List Nat} {e : Bool} (h : TS.T t p = none) : Lp TS NS t n p e = none := by
  simp [Lp, h]

theorem lp_ne {t : τ} {n : ν} {p : List Nat} {e : Bool} (h : Lp TS NS t n p e ≠ none) : TS.T t p ≠ none :=
  fun e => h (lp_none e)

theorem Core.prefix {t : τ} {n : ν} (h : Core TS NS t n) {s : Nat} {p : List Nat}
    (hp : TS.T t (s :: p) ≠ none) : TS.T t p ≠ none := by
  obtain ⟨i, hi⟩ := Option.ne_none_iff_exists'.1 hp
  obtain ⟨v, hv⟩ := TS.T_prefix t h.trie _ _ _ hi
  rw [hv]; simp

theorem Core.prefix_rep {t : τ} {n : ν} (h : Core TS NS t n) {p q : List Nat}
    (hp : TS.T t (q ++ p) ≠ none) : TS.T t p ≠ none := by
  induction q with
  | nil => exact hp
  | cons s q ih => exact ih (h.prefix hp)

/-- `n'` is `n` rebuilt, or with nodes added that have no label: `j` is the number of step nodes -/
inductive Unlabelled (L : NlmOps ν) (kind : Kind) : Nat → ν → ν → Prop
  | refl (n : ν) : Unlabelled L kind 0 n n
  | expand {j : Nat} {n n1 n2 : ν} {nm : NodeMap} : Unlabelled L kind j n n1 → L.expand n1 nm = .ok n2 → Unlabelled L kind j n n2
  | dummy {j : Nat} {n n1 n2 : ν} : Unlabelled L kind j n n1 → L.appendDummy n1 = .ok n2 → Unlabelled L kind (j + 1) n n2
  | step {j : Nat} {n n1 : ν} : kind = .bonsai → Unlabelled L kind j n n1 → Unlabelled L kind (j + 1) n n1

theorem Unlabelled.trans {L : NlmOps ν} {kind : Kind} {j j' : Nat} {n n1 n2 : ν} (h : Unlabelled L kind j n n1)
    (h' : Unlabelled L kind j' n1 n2) : Unlabelled L kind (j + j') n n2 := by
  induction h' with
  | refl _ => exact h
  | expand _ e ih => exact .expand (ih h) e
  | dummy _ e ih => exact .dummy (ih h) e
  | step e _ ih => exact .step e (ih h)

/-- no label has been stored on the way from `m` to `m'` -/
def Idling (cfg : MapCfg τ ν) (m m' : Map τ ν) : Prop :=
  ∃ j, m'.numSteps = m.numSteps + j ∧ Unlabelled cfg.L cfg.T.kind j m.nlm m'.nlm

theorem Idling.refl (m : Map τ ν) : Idling cfg m m := ⟨0, rfl, .refl _⟩

theorem Idling.trans {a b c : Map τ ν} (h : Idling cfg a b) (h' : Idling cfg b c) : Idling cfg a c := by
  obtain ⟨j, h1, h2⟩ := h
  obtain ⟨j', h1', h2'⟩ := h'
  exact ⟨j + j', by omega, h2.trans h2'⟩

theorem expandIfNeeded_idle {m m' : Map τ ν} {v v' : Nat} (h : expandIfNeeded cfg m v = .ok (m', v')) : Idling cfg m m' := by
  unfold expandIfNeeded at h
  split at h
  · cases h; exact .refl _
  · split at h
    · cases h; exact .refl _
    · obtain ⟨⟨t, nm⟩, _, h⟩ := R.bind_eq_ok h
      dsimp only at h
      obtain ⟨w, _, h⟩ := R.bind_eq_ok h
      obtain ⟨n, h1, h⟩ := R.bind_eq_ok h
      cases h
      exact ⟨0, rfl, .expand (.refl _) h1⟩

theorem updSteps_idle : ∀ (fuel : Nat) {m m' : Map τ ν} {v v' t t' : Nat},
    updSteps cfg fuel m v t = .ok (m', v', t') → Idling cfg m m' := by
  intro fuel
  induction fuel with
  | zero => intro m m' v v' t t' h; cases h
  | succ fuel ih =>
    intro m m' v v' t t' h
    unfold updSteps at h
    split at h
    · obtain ⟨⟨t1, v1, b⟩, _, h⟩ := R.bind_eq_ok h
      dsimp only at h
      have h0 : Idling cfg m { m with trie := t1 } := ⟨0, rfl, .refl _⟩
      split at h
      · obtain ⟨⟨m2, v2⟩, he, h⟩ := R.bind_eq_ok h
        dsimp only at h
        have h1 := h0.trans (expandIfNeeded_idle he)
        split at h
        · obtain ⟨_, _, h⟩ := R.bind_eq_ok h
          obtain ⟨n, hn, h⟩ := R.bind_eq_ok h
          have h2 : Idling cfg m2 { m2 with nlm := n, numSteps := m2.numSteps + 1 } := ⟨1, rfl, .dummy (.refl _) hn⟩
          exact (h1.trans h2).trans (ih h)
        · rename_i hk
          have h2 : Idling cfg m2 { m2 with numSteps := m2.numSteps + 1 } := ⟨1, rfl, .step hk (.refl _)⟩
          exact (h1.trans h2).trans (ih h)
      · exact h0.trans (ih h)
    · cases h; exact .refl _

theorem putLabel_steps {m m' : Map τ ν} {v : Nat} {k : List UInt8} {r : UpdOut} (h : putLabel cfg m v k = .ok (m', r)) :
    m'.numSteps = m.numSteps := by
  unfold putLabel at h
  split at h
  · obtain ⟨⟨n, l⟩, h1, h⟩ := R.bind_eq_ok h
    cases h; rfl
  · obtain ⟨⟨n, l⟩, h1, h⟩ := R.bind_eq_ok h
    cases h; rfl

/-- what a new node changes -/
structure NewNode (t : τ) (n : ν) (p : List Nat) (t' : τ) (n' : ν) (v' : Nat) : Prop where
  core : Core TS NS t' n'
  wasNone : TS.T t p = none
  node : TS.T t' p = some v'
  paths : ∀ q, TS.T t' q ≠ none ↔ TS.T t q ≠ none ∨ q = p
  labs : ∀ q e, Lp TS NS t' n' q e = Lp TS NS t n q e
  lab : ∀ e, NS.L n' v' e = none
  size : cfg.T.size t' = cfg.T.size t + 1
  fk : cfg.T.kind = .fkhash → n' = n ∧ v' = cfg.T.size t
  capa : cfg.T.Grow TS.mf t t'
  stab : Stab TS NS t n t' n'
  idle : Unlabelled cfg.L cfg.T.kind 0 n n'

theorem Stab.refl (t : τ) (n : ν) : Stab TS NS t n t n := fun _ _ _ h => h

theorem Stab.trans {t t' t'' : τ} {n n' n'' : ν} (h1 : Stab TS NS t n t' n') (h2 : Stab TS NS t' n' t'' n'') :
    Stab TS NS t n t'' n'' := fun hs l p h => h2 hs l p (h1 hs l p h)

theorem Stab.of_T {t t' : τ} {n : ν} (h : ∀ q i, TS.T t q = some i → TS.T t' q = some i) : Stab TS NS t n t' n :=
  fun _ _ _ ⟨i, h1, h2⟩ => ⟨i, h _ _ h1, h2⟩

theorem kind_cases (k : Kind) : k = .bonsai ∨ k = .fkhash := by cases k <;> simp

/-- the common part of `map.hpp:157-159` and `177-178`: `if (add_child(...)) expand_if_needed_(...)` -/
theorem add_post {β : Type} {m : Map τ ν} (hc : Core TS NS m.trie m.nlm)
    {p : List Nat} {v s : Nat} (hv : TS.T m.trie p = some v) (hs : s < 2 ^ sb) (hz : z0 ∨ s :: p ≠ [0])
    {lim : Prop} (hlim0 : N ≤ cfg.T.size m.trie → lim) (hlim : TS.T m.trie (s :: p) = none → N ≤ cfg.T.size m.trie + 1 → lim)
    {knew kold : Map τ ν → Nat → R β} {Q : β → Prop}
    (hnew : ∀ t' n' v', NewNode (TS := TS) (NS := NS) m.trie m.nlm (s :: p) t' n' v' →
      Post lim (knew { m with trie := t', nlm := n' } v') Q)
    (hold : ∀ t' v', Core TS NS t' m.nlm → TS.T m.trie (s :: p) ≠ none → TS.T t' (s :: p) = some v' →
      (∀ q, TS.T t' q = TS.T m.trie q) → cfg.T.size t' = cfg.T.size m.trie →
      cfg.T.Grow TS.mf m.trie t' →
      Post lim (kold { m with trie := t' } v') Q) :
    Post lim (cfg.T.addChild m.trie v s >>= fun x =>
      if x.2.2 then expandIfNeeded cfg { m with trie := x.1 } x.2.1 >>= fun y => knew y.1 y.2
      else kold { m with trie := x.1 } x.2.1) Q := by
  refine Post.bind ((TS.add m.trie hc.trie hc.nex p v s hv hs hz).mono hlim0 (fun a _ h => h)) ?_
  rintro ⟨t1, v1, isNew⟩ _ ⟨h1, h2, h3, h4, h5, h5b, h6, h7⟩
  simp only at h1 h2 h3 h4 h5 h5b h6 h7 ⊢
  cases hnone : TS.T m.trie (s :: p) with
  | some j =>
    rw [hnone] at h2
    simp at h2
    subst h2
    simp only [Bool.false_eq_true, if_false] at h5 ⊢
    have hj : v1 = j := h4 j hnone
    have hT : ∀ q, TS.T t1 q = TS.T m.trie q := by
      intro q; rw [h3 q]; split
      next h => rw [h, hnone, hj]
      next => rfl
    refine hold t1 v1 ⟨h1, ?_, ?_, ?_⟩ (by rw [hnone]; simp) (by rw [hT, hnone, hj]) hT (by omega) h5b
    · rcases kind_cases cfg.T.kind with hk | hk
      · rw [(h6 hk).1]; exact hc.nlm
      · exact NS.inv_fk hk _ _ _ hc.nlm
    · intro hk; rw [(h6 hk).2 rfl]; exact hc.nex hk
    · intro i e hi; simp only [hT]; exact hc.labT i e hi
  | none =>
    rw [hnone] at h2
    simp at h2
    subst h2
    simp only [if_true] at h5 ⊢
    have hTold : ∀ q i, TS.T m.trie q = some i → TS.T t1 q = some i := by
      intro q i hq; rw [h3 q, if_neg]
      · exact hq
      · intro e; rw [e, hnone] at hq; cases hq
    have hT1 : TS.T t1 (s :: p) = some v1 := by rw [h3]; simp
    have hpaths : ∀ q, TS.T t1 q ≠ none ↔ TS.T m.trie q ≠ none ∨ q = s :: p := by
      intro q; rw [h3 q]; split
      next h => simp [h]
      next h => simp [h]
    have hLv1 : ∀ e, NS.L m.nlm v1 e = none := by
      intro e
      by_contra hne
      obtain ⟨q, hq⟩ := hc.labT _ _ hne
      have := TS.T_inj t1 h1 q (s :: p) v1 (hTold q _ hq) hT1
      rw [this, hnone] at hq; cases hq
    have hLp1 : ∀ q e, Lp TS NS t1 m.nlm q e = Lp TS NS m.trie m.nlm q e := by
      intro q e; simp only [Lp]; rw [h3 q]; split
      next h => rw [h, hnone]; simpa using hLv1 _
      next => rfl
    have hlab1 : ∀ i e, NS.L m.nlm i e ≠ none → ∃ q, TS.T t1 q = some i := by
      intro i e hi; obtain ⟨q, hq⟩ := hc.labT i e hi; exact ⟨q, hTold q i hq⟩
    rcases kind_cases cfg.T.kind with hk | hk
    · -- bonsai
      have hcap := (h6 hk).1
      simp only [expandIfNeeded, hk]
      by_cases hne : cfg.T.needsToExpand t1 = true
      · simp only [hne, Bool.not_true, Bool.false_eq_true, if_false]
        have hE := TS.expand hk t1 h1 hne
        rw [bind_assoc]
        refine Post.bind (hE.mono (fun h => hlim hnone (by omega)) (fun a _ h => h)) ?_
        rintro ⟨t2, nm⟩ _ ⟨e1, e2, e3, e4, e5, f, e6, e7, e8⟩
        simp only at e1 e2 e3 e4 e5 e6 e7 e8 ⊢
        have hnode : nm.get v1 = .ok (f v1) := e6 _ _ hT1
        simp only [hnode, R.bind_ok]
        have hcapa2 := TS.capa t2 (Or.inr e1)
        have h2c : 2 * cfg.T.capaSize t1 < 2 ^ 64 := by
          rw [← e4, hcapa2.2.2.1]
          exact Nat.pow_lt_pow_right (by decide) hcapa2.2.1
        have hfi : ∀ i j, (∃ q, TS.T t1 q = some i) → (∃ q, TS.T t1 q = some j) → f i = f j → i = j := by
          rintro i j ⟨q, hq⟩ ⟨q', hq'⟩ hf
          have a1 : TS.T t2 q = some (f i) := by rw [e8, hq]; rfl
          have a2 : TS.T t2 q' = some (f i) := by rw [e8, hq', hf]; rfl
          have a3 := TS.T_inj t2 e1 _ _ _ a1 a2
          subst a3; rw [hq] at hq'; exact Option.some.inj hq'
        have hX := NS.expand hk (cfg.T.capaSize t1) m.nlm nm (fun i => ∃ q, TS.T t1 q = some i) f
          (by rw [hcap]; exact hc.nlm) h2c e5
          (fun i _ ⟨q, hq⟩ => e6 q i hq)
          (fun i hi hn => e7 i hi (fun q hq => hn ⟨q, hq⟩))
          (fun i ⟨q, hq⟩ => ⟨(TS.T_bound t1 h1 q i hq).1, by
            rw [← e4]; exact (TS.T_bound t2 e1 q (f i) (by rw [e8, hq]; rfl)).1⟩)
          hfi hlab1
        obtain ⟨n', x1, x2, x5, x3, x4⟩ := hX
        have hT2 : TS.T t2 (s :: p) = some (f v1) := by rw [e8, hT1]; rfl
        simp only [x1, R.bind_ok, R.pure_eq]
        refine hnew t2 n' (f v1) ⟨⟨e1, by rw [e4]; exact x2, fun _ => e2, ?_⟩, hnone, hT2, ?_, ?_, ?_, by omega, ?_,
          h5b.trans ⟨by omega, by omega, Or.inr ⟨_, e4, Nat.le_refl _, by rw [e3]; exact TS.needs hk t1 h1 hne⟩⟩, ?_, .expand (.refl _) x1⟩
        · intro j e hj
          by_contra hcon
          apply hj
          apply x4
          rintro i ⟨q, hq⟩ rfl
          exact hcon ⟨q, by rw [e8, hq]; rfl⟩
        · intro q; rw [e8, ← hpaths q]; simp
        · intro q e
          rw [← hLp1 q]; simp only [Lp]; rw [e8]
          cases hq : TS.T t1 q with
          | none => rfl
          | some i => simp only [Option.map_some, Option.bind_some]; exact x3 i _ ⟨q, hq⟩
        · intro e; rw [x3 v1 e ⟨_, hT1⟩]; exact hLv1 e
        · intro h; rw [hk] at h; cases h
        · rintro hs l q ⟨i, i1, i2⟩
          exact ⟨f i, by rw [e8, hTold q i i1]; rfl, x5 hs l i i2⟩
      · have hne' : cfg.T.needsToExpand t1 = false := by simpa using hne
        simp only [hne', Bool.not_false, if_true, R.pure_eq, R.bind_ok]
        exact hnew t1 m.nlm v1 ⟨⟨h1, by rw [hcap]; exact hc.nlm, fun _ => hne', hlab1⟩, hnone, hT1, hpaths, hLp1, hLv1,
          by omega, fun h => by (rw [hk] at h; cases h), h5b, .of_T hTold, .refl _⟩
    · simp only [expandIfNeeded, hk, R.pure_eq, R.bind_ok]
      exact hnew t1 m.nlm v1 ⟨⟨h1, NS.inv_fk hk _ _ _ hc.nlm, fun h => by (rw [hk] at h; cases h), hlab1⟩, hnone, hT1,
        hpaths, hLp1, hLv1, by omega, fun _ => ⟨rfl, h7 hk rfl⟩, h5b, .of_T hTold, .refl _⟩

/-- `putLabel` stores the label at the node -/
theorem putLabel_ok {m : Map τ ν} (hc : Core TS NS m.trie m.nlm) {p : List Nat} {v : Nat}
    (hv : TS.T m.trie p = some v) (hl : ∀ e, NS.L m.nlm v e = none)
    (hfk : cfg.T.kind = .fkhash → v = cfg.L.size m.nlm) {key : List UInt8} (hk : OkLabel vs key) :
    ∃ n' l, putLabel cfg m v key = .ok ({ m with nlm := n' }, .ptr l) ∧ Core TS NS m.trie n' ∧ NS.At n' l v ∧
      (cfg.T.kind = .fkhash → cfg.L.size n' = cfg.L.size m.nlm + 1) ∧ Stab TS NS m.trie m.nlm m.trie n' ∧
      Lp TS NS m.trie n' p key.isEmpty = some (key, List.replicate vs 0) ∧
      ∀ q e, q ≠ p → Lp TS NS m.trie n' q e = Lp TS NS m.trie m.nlm q e := by
  have hfin : ∀ n', NS.L n' v key.isEmpty = some (key, List.replicate vs 0) → (∀ j e, j ≠ v → NS.L n' j e = NS.L m.nlm j e) →
      (∀ i e, NS.L n' i e ≠ none → ∃ q, TS.T m.trie q = some i) ∧
      Lp TS NS m.trie n' p key.isEmpty = some (key, List.replicate vs 0) ∧
      ∀ q e, q ≠ p → Lp TS NS m.trie n' q e = Lp TS NS m.trie m.nlm q e := by
    intro n' h0 h
    refine ⟨?_, by simp only [Lp, hv, Option.bind_some, h0], ?_⟩
    · intro i e hi
      by_cases he : i = v
      · exact ⟨p, by rw [he]; exact hv⟩
      · rw [h i e he] at hi; exact hc.labT i e hi
    · intro q e hne
      simp only [Lp]
      cases hq : TS.T m.trie q with
      | none => rfl
      | some i =>
        simp only [Option.bind_some]
        rw [h]
        intro e2; subst e2; exact hne (TS.T_inj _ hc.trie _ _ _ hq hv)
  rcases kind_cases cfg.T.kind with hkd | hkd
  · obtain ⟨n', l, h1, h2, h3, h7, h4, h4'⟩ := NS.insert hkd _ m.nlm hc.nlm v (TS.T_bound _ hc.trie _ _ hv).1 hl key hk
    obtain ⟨h5, h6⟩ := hfin n' h4 h4'
    exact ⟨n', l, by simp only [putLabel, hkd, h1, R.bind_ok, R.pure_eq], ⟨hc.trie, h2, hc.nex, h5⟩, h3,
      fun h => by (rw [hkd] at h; cases h), fun hs l q ⟨i, i1, i2⟩ => ⟨i, i1, h7 hs l i i2⟩, h6⟩
  · obtain ⟨n', l, h1, h2, h3, h4, h8, h5, h5'⟩ := NS.append hkd _ m.nlm hc.nlm key hk
    rw [← hfk hkd] at h3 h5 h5'
    obtain ⟨h6, h7⟩ := hfin n' h5 h5'
    exact ⟨n', l, by simp only [putLabel, hkd, h1, R.bind_ok, R.pure_eq], ⟨hc.trie, h2, hc.nex, h6⟩, h3,
      fun _ => h4, fun hs l q ⟨i, i1, i2⟩ => ⟨i, i1, h8 hs l i i2⟩, h7⟩

end Poplar.Map
