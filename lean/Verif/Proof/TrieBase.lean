import Verif.Model.TrieBase
import Verif.Proof.LinearProbing
import Verif.Proof.BitVector
/-
  Lemmas shared by the four tries: the probe loop, the abstract tree of node ids, `expand`.
-/
namespace Poplar

/-! ### the probe loop -/

theorem and_mask_succ (i b : Nat) : (i % 2 ^ b + 1) &&& (2 ^ b - 1) = (i + 1) % 2 ^ b := by
  rw [and_mask, Nat.add_mod, Nat.mod_mod, ← Nat.add_mod]

theorem probe_post_aux {α : Type} {lim : Prop} {Q : α → Prop} {b h c0 t : Nat}
    {body : Nat → Nat → R (Option α)}
    (hs : ∀ s < t, body ((h + s) % 2 ^ b) (c0 + s) = .ok none)
    (ht : Post lim (body ((h + t) % 2 ^ b) (c0 + t)) (fun r => ∃ a, r = some a ∧ Q a)) :
    ∀ (n s fuel : Nat), s + n = t → n < fuel →
      Post lim (probe (2 ^ b - 1) body fuel ((h + s) % 2 ^ b) (c0 + s)) Q := by
  intro n
  induction n with
  | zero =>
    intro s fuel hst hf
    obtain ⟨f, rfl⟩ : ∃ f, fuel = f + 1 := ⟨fuel - 1, by omega⟩
    have : s = t := by omega
    subst this
    rw [probe]
    refine Post.bind ht ?_
    rintro r _ ⟨a, rfl, ha⟩
    exact ha
  | succ n ih =>
    intro s fuel hst hf
    obtain ⟨f, rfl⟩ : ∃ f, fuel = f + 1 := ⟨fuel - 1, by omega⟩
    rw [probe, hs s (by omega)]
    simp only [R.bind_ok]
    rw [and_mask_succ]
    have := ih (s + 1) f (by omega) (by omega)
    rw [← Nat.add_assoc, ← Nat.add_assoc] at this
    exact this

theorem probe_post {α : Type} {lim : Prop} {Q : α → Prop} {b h c0 t fuel : Nat}
    {body : Nat → Nat → R (Option α)}
    (hs : ∀ s < t, body ((h + s) % 2 ^ b) (c0 + s) = .ok none)
    (ht : Post lim (body ((h + t) % 2 ^ b) (c0 + t)) (fun r => ∃ a, r = some a ∧ Q a))
    (hf : t < fuel) : Post lim (probe (2 ^ b - 1) body fuel (h % 2 ^ b) c0) Q := by
  have := probe_post_aux hs ht t 0 fuel (by omega) hf
  simpa using this

theorem probe_ok {α : Type} {b h c0 t fuel : Nat} {a : α}
    {body : Nat → Nat → R (Option α)}
    (hs : ∀ s < t, body ((h + s) % 2 ^ b) (c0 + s) = .ok none)
    (ht : body ((h + t) % 2 ^ b) (c0 + t) = .ok (some a))
    (hf : t < fuel) : probe (2 ^ b - 1) body fuel (h % 2 ^ b) c0 = .ok a := by
  have := probe_post (lim := False) (Q := fun x => x = a) hs (by rw [ht]; exact ⟨a, rfl, rfl⟩) hf
  obtain ⟨x, h1, rfl⟩ := this.get (by simp)
  exact h1

/-! ### the abstract tree -/

/-- the node reached from `root` by a path of symbols, deepest symbol first -/
def tpath (root : Option Nat) (child : Nat → Nat → Option Nat) : List Nat → Option Nat
  | [] => root
  | s :: p => (tpath root child p).bind (fun v => child v s)

/-- nodes form a tree rooted at `r` -/
structure Tree (r : Nat) (child : Nat → Nat → Option Nat) : Prop where
  noroot : ∀ v s, child v s ≠ some r
  inj : ∀ v s v' s' i, child v s = some i → child v' s' = some i → v = v' ∧ s = s'
  reach : ∀ v s i, child v s = some i → ∃ p, tpath (some r) child p = some v

theorem Tree.tpath_inj {r : Nat} {child : Nat → Nat → Option Nat} (h : Tree r child) :
    ∀ p q i, tpath (some r) child p = some i → tpath (some r) child q = some i → p = q := by
  intro p
  induction p with
  | nil =>
    intro q i h1 h2
    cases q with
    | nil => rfl
    | cons s q =>
      simp only [tpath, Option.some.injEq] at h1
      rw [tpath, Option.bind_eq_some_iff] at h2
      obtain ⟨v, _, h2⟩ := h2
      subst h1; exact absurd h2 (h.noroot v s)
  | cons s p ih =>
    intro q i h1 h2
    rw [tpath, Option.bind_eq_some_iff] at h1
    obtain ⟨v, h1a, h1b⟩ := h1
    cases q with
    | nil =>
      simp only [tpath, Option.some.injEq] at h2
      subst h2; exact absurd h1b (h.noroot v s)
    | cons s' q =>
      rw [tpath, Option.bind_eq_some_iff] at h2
      obtain ⟨v', h2a, h2b⟩ := h2
      obtain ⟨rfl, rfl⟩ := h.inj _ _ _ _ _ h1b h2b
      rw [ih q v h1a h2a]

/-- adding a fresh child -/
theorem Tree.add {r : Nat} {child child' : Nat → Nat → Option Nat} (h : Tree r child)
    {p : List Nat} {v s i : Nat} (hp : tpath (some r) child p = some v)
    (hn : child v s = none) (hf : ∀ v' s', child v' s' ≠ some i) (hir : i ≠ r)
    (hc : ∀ v' s', child' v' s' = if v' = v ∧ s' = s then some i else child v' s') :
    Tree r child' ∧ ∀ q, tpath (some r) child' q =
      if q = s :: p then some i else tpath (some r) child q := by
  have hreach_i : ∀ q, tpath (some r) child q ≠ some i := by
    intro q hq
    cases q with
    | nil => simp only [tpath, Option.some.injEq] at hq; exact hir hq.symm
    | cons s' q =>
      rw [tpath, Option.bind_eq_some_iff] at hq
      obtain ⟨w, _, hw⟩ := hq; exact hf w s' hw
  have hnone_i : ∀ s', child i s' = none := by
    intro s'
    cases hci : child i s' with
    | none => rfl
    | some j => obtain ⟨q, hq⟩ := h.reach i s' j hci; exact absurd hq (hreach_i q)
  have hvi : i ≠ v := by rintro rfl; exact hreach_i p hp
  have hpath : ∀ q, tpath (some r) child' q =
      if q = s :: p then some i else tpath (some r) child q := by
    intro q
    induction q with
    | nil => rw [if_neg (by simp)]; rfl
    | cons s' q ih =>
      rw [tpath, ih]
      by_cases hq : q = s :: p
      · rw [if_pos hq, if_neg (by intro e; injection e with _ e2; rw [hq] at e2; have := congrArg List.length e2; simp at this)]
        subst hq
        simp only [Option.bind_some, tpath, hp]
        rw [hc, if_neg (by rintro ⟨rfl, _⟩; exact hvi rfl), hnone_i, hn]; rfl
      · rw [if_neg hq]
        by_cases hq2 : s' :: q = s :: p
        · injection hq2 with e1 e2
          subst e1; subst e2
          simp [hp, hc]
        · rw [if_neg hq2]
          rw [tpath]
          cases hqv : tpath (some r) child q with
          | none => rfl
          | some w =>
            simp only [Option.bind_some]
            rw [hc, if_neg]
            rintro ⟨rfl, rfl⟩
            have := h.tpath_inj _ _ _ hqv hp
            subst this; exact hq2 rfl
  refine ⟨⟨?_, ?_, ?_⟩, hpath⟩
  · intro v' s'
    rw [hc]; split
    · simpa using hir
    · exact h.noroot v' s'
  · intro v1 s1 v2 s2 j h1 h2
    rw [hc] at h1 h2
    split at h1 <;> split at h2
    · rename_i a b; exact ⟨a.1.trans b.1.symm, a.2.trans b.2.symm⟩
    · injection h1 with h1; subst h1; exact absurd h2 (hf v2 s2)
    · injection h2 with h2; subst h2; exact absurd h1 (hf v1 s1)
    · exact h.inj _ _ _ _ _ h1 h2
  · intro v' s' j h1
    rw [hc] at h1
    split at h1
    · rename_i a
      refine ⟨p, ?_⟩
      rw [hpath, if_neg (by intro e; have := congrArg List.length e; simp at this), hp, a.1]
    · obtain ⟨q, hq⟩ := h.reach v' s' j h1
      refine ⟨q, ?_⟩
      rw [hpath, if_neg, hq]
      intro e
      rw [e, tpath, hp, Option.bind_some, hn] at hq
      simp at hq

/-- a tree whose nodes are below `C` has depth below `C` -/
theorem Tree.depth {r : Nat} {child : Nat → Nat → Option Nat} (h : Tree r child) {C : Nat}
    (hb : ∀ p i, tpath (some r) child p = some i → i < C) :
    ∀ p i, tpath (some r) child p = some i → p.length < C := by
  have key : ∀ p i, tpath (some r) child p = some i →
      ∃ S : Nat → Bool, cnt S C = p.length + 1 ∧
        ∀ j, S j = true → ∃ l q, p = l ++ q ∧ tpath (some r) child q = some j := by
    intro p
    induction p with
    | nil =>
      intro i hi
      refine ⟨fun j => decide (j = i), ?_, ?_⟩
      · rw [cnt_set (p := fun _ => false) (hb _ _ hi) rfl (by simp) (by intro k _ hk; simp [hk]), cnt_zero (by simp)]
        simp
      · intro j hj
        simp only [decide_eq_true_eq] at hj
        subst hj; exact ⟨[], [], rfl, hi⟩
    | cons s p ih =>
      intro i hi
      have hi' := hi
      rw [tpath, Option.bind_eq_some_iff] at hi
      obtain ⟨v, hv, _⟩ := hi
      obtain ⟨S, hS, hSq⟩ := ih v hv
      have hSi : S i = false := by
        cases hsi : S i with
        | false => rfl
        | true =>
          obtain ⟨l, q, e, hq⟩ := hSq i hsi
          have := h.tpath_inj _ _ _ hi' hq
          rw [e] at this
          have := congrArg List.length this
          simp at this; omega
      refine ⟨fun j => if j = i then true else S j, ?_, ?_⟩
      · rw [cnt_set (p := S) (hb _ _ hi') hSi (by simp) (by intro k _ hk; simp [hk]), hS]
        simp
      · intro j hj
        by_cases hji : j = i
        · subst hji; exact ⟨[], s :: p, rfl, hi'⟩
        · simp only [hji, if_false] at hj
          obtain ⟨l, q, e, hq⟩ := hSq j hj
          exact ⟨s :: l, q, by rw [e]; rfl, hq⟩
  intro p i hi
  obtain ⟨S, hS, _⟩ := key p i hi
  have := cnt_le S C
  omega

/-! ### bonsai `expand` -/

/-- `path` lists undone nodes going down from the node with path `q` -/
def Down (T : List Nat → Option Nat) (D : Nat → Bool) : List Nat → List (Nat × Nat) → Prop
  | _, [] => True
  | q, (n, l) :: rest => T (l :: q) = some n ∧ D n = false ∧ Down T D (l :: q) rest

section Expand

variable {σ τ : Type} {isEmpty : σ → Nat → R Bool} {parent : σ → Nat → R (Nat × Nat)}
  {getMap : σ → Nat → R Nat} {setMap : σ → Nat → Nat → R σ}
  {addChild : τ → Nat → Nat → R (τ × Nat × Bool)} {fuel : Nat}

/-- What the expansion loop needs to know about the old table, the new trie and the tree. -/
structure ExpandHyp (isEmpty : σ → Nat → R Bool) (parent : σ → Nat → R (Nat × Nat))
    (getMap : σ → Nat → R Nat) (setMap : σ → Nat → Nat → R σ)
    (addChild : τ → Nat → Nat → R (τ × Nat × Bool))
    (lim : Prop) (C r start B : Nat) (child : Nat → Nat → Option Nat)
    (S : σ → (Nat → Bool) → (Nat → Nat) → Prop)
    (N : τ → Prop) (T' : τ → List Nat → Option Nat) (size' : τ → Nat) (M : Nat) : Prop where
  tree : Tree r child
  bound : ∀ p i, tpath (some r) child p = some i → i < C
  hC : C ≤ u64max
  -- the old table
  hEmpty : ∀ s D m i, S s D m → i < C → start ≤ i → D i = false →
    ∃ b, isEmpty s i = .ok b ∧ (b = false ↔ ∃ v l, child v l = some i)
  hstart : ∀ v l i, child v l = some i → start ≤ i
  hParent : ∀ s D m v l i, S s D m → child v l = some i → D i = false → parent s i = .ok (v, l)
  hGet : ∀ s D m i, S s D m → i < C → D i = true → getMap s i = .ok (m i)
  hSet : ∀ s D m v l i x, S s D m → child v l = some i → D i = false → x < B →
    ∃ s', setMap s i x = .ok s' ∧ S s' (fun j => if j = i then true else D j) (fun j => if j = i then x else m j)
  -- the new trie
  hAdd : ∀ t p v l, N t → T' t p = some v → T' t (l :: p) = none → size' t < M →
    (∃ i j, child i l = some j) →
    Post lim (addChild t v l) (fun x => x.2.2 = true ∧ N x.1 ∧ x.2.1 < B ∧ size' x.1 = size' t + 1 ∧
      ∀ q, T' x.1 q = if q = l :: p then some x.2.1 else T' t q)

variable {lim : Prop} {C r start B : Nat} {child : Nat → Nat → Option Nat}
  {S : σ → (Nat → Bool) → (Nat → Nat) → Prop}
  {N : τ → Prop} {T' : τ → List Nat → Option Nat} {size' : τ → Nat} {M : Nat}

/-- loop invariant -/
structure ExpandInv (C r : Nat) (child : Nat → Nat → Option Nat)
    (S : σ → (Nat → Bool) → (Nat → Nat) → Prop)
    (N : τ → Prop) (T' : τ → List Nat → Option Nat) (size' : τ → Nat)
    (s : σ) (t : τ) (done : BitVector) (m : Nat → Nat) : Prop where
  dwf : done.WF
  dsize : done.size = C
  droot : done.bit r = true
  ds : S s done.bit m
  dn : N t
  dreach : ∀ i, done.bit i = true → ∃ p, tpath (some r) child p = some i
  map : ∀ p i, tpath (some r) child p = some i → done.bit i = true → T' t p = some (m i)
  dom : ∀ p j, T' t p = some j → ∃ i, tpath (some r) child p = some i ∧ done.bit i = true
  size : size' t = cnt done.bit C

theorem climb_ok (H : ExpandHyp isEmpty parent getMap setMap addChild lim C r start B child S N T' size' M)
    {s : σ} {t : τ} {done : BitVector} {m : Nat → Nat}
    (I : ExpandInv C r child S N T' size' s t done m) :
    ∀ (p : List Nat) (fuel i : Nat) (acc : List (Nat × Nat)), p.length < fuel →
      tpath (some r) child p = some i → done.bit i = false →
      Down (tpath (some r) child) done.bit p acc →
      ∃ top path q, climb (parent s) done fuel i acc = .ok (top, path) ∧
        tpath (some r) child q = some top ∧ done.bit top = true ∧
        Down (tpath (some r) child) done.bit q path ∧ (∀ x ∈ acc, x ∈ path) ∧ (∃ l, (i, l) ∈ path) := by
  intro p
  induction p with
  | nil =>
    intro fuel i acc _ hi hd _
    simp only [tpath, Option.some.injEq] at hi
    subst hi; rw [I.droot] at hd; simp at hd
  | cons l p ih =>
    intro fuel i acc hf hi hd hdown
    obtain ⟨f, rfl⟩ : ∃ f, fuel = f + 1 := ⟨fuel - 1, by omega⟩
    have hi' := hi
    rw [tpath, Option.bind_eq_some_iff] at hi
    obtain ⟨v, hv, hc⟩ := hi
    have hvC := H.bound _ _ hv
    have hv64 : v ≠ u64max := by have := H.hC; omega
    simp only [climb, H.hParent _ _ _ _ _ _ I.ds hc hd, R.bind_ok, R.assert_dec hv64,
      I.dwf.get_ok (show v < done.size by rw [I.dsize]; exact hvC)]
    have hdown' : Down (tpath (some r) child) done.bit p ((i, l) :: acc) := ⟨hi', hd, hdown⟩
    by_cases hdv : done.bit v = true
    · rw [if_pos hdv]
      exact ⟨v, _, p, rfl, hv, hdv, hdown', fun x hx => List.mem_cons_of_mem _ hx, l, by simp⟩
    · rw [if_neg hdv]
      obtain ⟨top, path, q, h1, h2, h3, h4, h5, _⟩ := ih f v ((i, l) :: acc) (by simp at hf; omega) hv (by simpa using hdv) hdown'
      exact ⟨top, path, q, h1, h2, h3, h4, fun x hx => h5 x (by simp [hx]), l, h5 _ (by simp)⟩

theorem descend_ok (H : ExpandHyp isEmpty parent getMap setMap addChild lim C r start B child S N T' size' M)
    (hM : ∀ D : Nat → Bool, (∀ i, D i = true → ∃ p, tpath (some r) child p = some i) →
      ∀ i p, tpath (some r) child p = some i → D i = false → cnt D C < M) :
    ∀ (path : List (Nat × Nat)) (s : σ) (t : τ) (done : BitVector) (m : Nat → Nat) (top : Nat) (q : List Nat),
      ExpandInv C r child S N T' size' s t done m →
      tpath (some r) child q = some top → done.bit top = true →
      Down (tpath (some r) child) done.bit q path →
      Post lim (descend setMap addChild path s t done (m top)) (fun x => ∃ m',
        ExpandInv C r child S N T' size' x.1 x.2.1 x.2.2 m' ∧
        (∀ i, done.bit i = true → x.2.2.bit i = true) ∧ (∀ y ∈ path, x.2.2.bit y.1 = true)) := by
  intro path
  induction path with
  | nil =>
    intro s t done m top q I _ _ _
    exact ⟨m, I, fun i h => h, by simp⟩
  | cons y path ih =>
    obtain ⟨n, l⟩ := y
    intro s t done m top q I hq hd hdown
    obtain ⟨hn, hnd, hrest⟩ := hdown
    rw [descend]
    have hchild : child top l = some n := by
      rw [tpath, hq] at hn; exact hn
    have hTq : T' t q = some (m top) := I.map q top hq hd
    have hTn : T' t (l :: q) = none := by
      cases hT : T' t (l :: q) with
      | none => rfl
      | some j =>
        obtain ⟨i, hi, hdi⟩ := I.dom _ _ hT
        rw [hn] at hi; injection hi with hi; subst hi; rw [hnd] at hdi; simp at hdi
    have hsz : size' t < M := by rw [I.size]; exact hM _ I.dreach n _ hn hnd
    refine Post.bind (H.hAdd t q (m top) l I.dn hTq hTn hsz ⟨_, _, hchild⟩) ?_
    rintro ⟨t', nn, b⟩ _ ⟨_, hN', hB, hs', hT'⟩
    simp only at hN' hB hs' hT' ⊢
    obtain ⟨s', hset, hS'⟩ := H.hSet s _ m top l n nn I.ds hchild hnd hB
    simp only [hset, R.bind_ok]
    have hnC := H.bound _ _ hn
    obtain ⟨done', hdset, hdwf, hdsz, hdbit⟩ := I.dwf.set_ok (b := true) (show n < done.size by rw [I.dsize]; exact hnC)
    simp only [hdset, R.bind_ok]
    have hbit : done'.bit = fun j => if j = n then true else done.bit j := by
      funext j; exact hdbit j
    have I' : ExpandInv C r child S N T' size' s' t' done' (fun j => if j = n then nn else m j) := by
      refine ⟨hdwf, hdsz.trans I.dsize, ?_, by rw [hbit]; exact hS', hN', ?_, ?_, ?_, ?_⟩
      · rw [hdbit]; split
        · rfl
        · exact I.droot
      · intro i hi
        rw [hdbit] at hi
        by_cases hin : i = n
        · subst hin; exact ⟨_, hn⟩
        · rw [if_neg hin] at hi; exact I.dreach i hi
      · intro p i hp hi
        rw [hT']
        by_cases hin : i = n
        · subst hin
          have := H.tree.tpath_inj _ _ _ hp hn
          rw [if_pos this]; simp
        · rw [hdbit, if_neg hin] at hi
          rw [if_neg, I.map p i hp hi]
          · simp [hin]
          · rintro rfl; rw [hn] at hp; injection hp with hp; exact hin hp.symm
      · intro p j hp
        rw [hT'] at hp
        split at hp
        · rename_i e; subst e; exact ⟨n, hn, by rw [hdbit]; simp⟩
        · obtain ⟨i, h1, h2⟩ := I.dom p j hp
          exact ⟨i, h1, by rw [hdbit, h2]; simp⟩
      · rw [hs', I.size, hbit]
        exact (cnt_set hnC hnd (by simp) (by intro i _ hi; simp [hi])).symm
    have hdown' : Down (tpath (some r) child) done'.bit (l :: q) path := by
      -- deeper nodes differ from n
      have gen : ∀ (path : List (Nat × Nat)) (q' : List Nat), (l :: q).length ≤ q'.length →
          Down (tpath (some r) child) done.bit q' path →
          Down (tpath (some r) child) done'.bit q' path := by
        intro path
        induction path with
        | nil => intro _ _ _; trivial
        | cons y path ih2 =>
          obtain ⟨n2, l2⟩ := y
          intro q' hlen h
          obtain ⟨h1, h2, h3⟩ := h
          refine ⟨h1, ?_, ih2 _ (by simp at hlen ⊢; omega) h3⟩
          rw [hdbit, if_neg, h2]
          rintro rfl
          have := congrArg List.length (H.tree.tpath_inj _ _ _ h1 hn)
          simp at this hlen; omega
      exact gen path (l :: q) (Nat.le_refl _) hrest
    have := ih s' t' done' (fun j => if j = n then nn else m j) n (l :: q) I' hn (by rw [hdbit]; simp) hdown'
    simp only [if_true] at this
    refine this.imp ?_
    rintro ⟨s2, t2, d2⟩ ⟨m2, h1, h2, h3⟩
    simp only at h1 h2 h3 ⊢
    refine ⟨m2, h1, fun i hi => h2 i (by rw [hdbit, hi]; simp), ?_⟩
    intro y hy
    rcases List.mem_cons.mp hy with rfl | hy
    · exact h2 n (by rw [hdbit]; simp)
    · exact h3 y hy

theorem expandLoop_ok (H : ExpandHyp isEmpty parent getMap setMap addChild lim C r start B child S N T' size' M)
    (hM : ∀ D : Nat → Bool, (∀ i, D i = true → ∃ p, tpath (some r) child p = some i) →
      ∀ i p, tpath (some r) child p = some i → D i = false → cnt D C < M)
    (hfuel : C ≤ fuel) :
    ∀ (n i : Nat) (s : σ) (t : τ) (done : BitVector) (m : Nat → Nat), i + n = C → start ≤ i →
      ExpandInv C r child S N T' size' s t done m →
      (∀ j v l, child v l = some j → j < i → done.bit j = true) →
      Post lim (expandLoop isEmpty parent getMap setMap addChild fuel n i s t done) (fun x => ∃ m',
        ExpandInv C r child S N T' size' x.1 x.2.1 x.2.2 m' ∧
        (∀ j v l, child v l = some j → x.2.2.bit j = true)) := by
  intro n
  induction n with
  | zero =>
    intro i s t done m hi _ I hd
    refine ⟨m, I, fun j v l hj => hd j v l hj ?_⟩
    obtain ⟨p, hp⟩ := H.tree.reach v l j hj
    have : tpath (some r) child (l :: p) = some j := by rw [tpath, hp]; exact hj
    have := H.bound _ _ this
    omega
  | succ n ih =>
    intro i s t done m hi hst I hd
    have hiC : i < C := by omega
    rw [expandLoop, I.dwf.get_ok (show i < done.size by rw [I.dsize]; exact hiC)]
    simp only [R.bind_ok]
    by_cases hdi : done.bit i = true
    · rw [if_pos hdi]
      simp only [R.pure_eq, R.bind_ok, if_true]
      refine ih (i + 1) s t done m (by omega) (by omega) I ?_
      intro j v l hj hlt
      by_cases hji : j = i
      · subst hji; exact hdi
      · exact hd j v l hj (by omega)
    · rw [if_neg hdi]
      have hdi' : done.bit i = false := by simpa using hdi
      obtain ⟨b, hb, hbe⟩ := H.hEmpty s _ m i I.ds hiC hst hdi'
      simp only [hb, R.bind_ok]
      cases b with
      | true =>
        simp only [if_true]
        refine ih (i + 1) s t done m (by omega) (by omega) I ?_
        intro j v l hj hlt
        by_cases hji : j = i
        · subst hji
          have := hbe.mpr ⟨v, l, hj⟩; simp at this
        · exact hd j v l hj (by omega)
      | false =>
        simp only [Bool.false_eq_true, if_false]
        obtain ⟨v, l, hc⟩ := hbe.mp rfl
        obtain ⟨p, hp⟩ := H.tree.reach v l i hc
        have hpi : tpath (some r) child (l :: p) = some i := by rw [tpath, hp]; exact hc
        have hlen := H.tree.depth H.bound _ _ hpi
        obtain ⟨top, path, q, h1, h2, h3, h4, _, l', h5⟩ := climb_ok H I (l :: p) fuel i [] (by omega) hpi hdi' trivial
        simp only [h1, R.bind_ok, H.hGet _ _ _ _ I.ds (H.bound _ _ h2) h3]
        refine Post.bind (descend_ok H hM path s t done m top q I h2 h3 h4) ?_
        rintro ⟨s', t', done'⟩ _ ⟨m', I', hmono, hpath⟩
        simp only at I' hmono hpath ⊢
        refine ih (i + 1) s' t' done' m' (by omega) (by omega) I' ?_
        intro j v l hj hlt
        by_cases hji : j = i
        · subst hji; exact hpath _ h5
        · exact hmono j (hd j v l hj (by omega))

end Expand

end Poplar
