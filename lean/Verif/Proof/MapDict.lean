import Verif.Proof.MapUpdateLoop
import Verif.Proof.NodesFor
import Verif.Proof.BitTools
import Verif.Model.MapRun
import Verif.Spec.Stored
/-
  `map` is a dictionary: constructors, `find`, `update` and whole histories.
-/
namespace Poplar
open Spec

/-! ### facts about the specification -/

theorem Spec.Dict.get_set (d : Dict) (k : Key) (v : Val) (key : Key) :
    (d.set k v).get key = if key = k then some v else d.get key := by
  induction d with
  | nil =>
    simp only [Dict.set, Dict.get]
    by_cases h : key = k
    · simp [h]
    · simp [h, Ne.symm h]
  | cons x d ih =>
    obtain ⟨k', v'⟩ := x
    simp only [Dict.set]
    by_cases h : k' = k
    · subst h
      rw [if_pos rfl]
      simp only [Dict.get]
      by_cases h2 : k' = key
      · simp [h2]
      · simp [h2, Ne.symm h2]
    · rw [if_neg h]
      simp only [Dict.get]
      by_cases h2 : k' = key
      · subst h2; simp [h]
      · simp [h2, ih]

theorem Spec.Dict.length_set (d : Dict) (k : Key) (v : Val) :
    (d.set k v).length = if d.get k = none then d.length + 1 else d.length := by
  induction d with
  | nil => simp [Dict.set, Dict.get]
  | cons x d ih =>
    obtain ⟨k', v'⟩ := x
    simp only [Dict.set, Dict.get]
    by_cases h : k' = k
    · simp [h]
    · simp only [if_neg h, List.length_cons, ih]; split <;> rfl

theorem Spec.Dict.set_set (d : Dict) (k : Key) (v w : Val) : (d.set k v).set k w = d.set k w := by
  induction d with
  | nil => simp [Dict.set]
  | cons x d ih =>
    obtain ⟨k', v'⟩ := x
    simp only [Dict.set]
    by_cases h : k' = k
    · simp [h, Dict.set]
    · simp [h, Dict.set, ih]

theorem Spec.Dict.get_mem {d : Dict} {k : Key} : d.get k ≠ none ↔ ∃ e ∈ d, e.1 = k := by
  induction d with
  | nil => simp [Dict.get]
  | cons x d ih =>
    obtain ⟨k', v'⟩ := x
    simp only [Dict.get]
    by_cases h : k' = k
    · simp [h]
    · simp only [h, if_false]; rw [ih]; simp [h]

theorem Spec.Dict.mem_set {d : Dict} {k : Key} {v : Val} {e : Key × Val} (h : e ∈ d.set k v) :
    e.1 = k ∨ ∃ e' ∈ d, e'.1 = e.1 := by
  have h1 : (d.set k v).get e.1 ≠ none := Dict.get_mem.2 ⟨e, h, rfl⟩
  rw [Dict.get_set] at h1
  by_cases he : e.1 = k
  · exact Or.inl he
  · rw [if_neg he] at h1; exact Or.inr (Dict.get_mem.1 h1)

/-- the first key of a dictionary -/
def firstKey (d : Dict) : Option Key := d.head?.map (·.1)

theorem firstKey_set {d : Dict} (k : Key) (v : Val) : firstKey (d.set k v) = if d = [] then some k else firstKey d := by
  cases d with
  | nil => rfl
  | cons x d =>
    obtain ⟨k', v'⟩ := x
    simp only [Dict.set]
    by_cases h : k' = k
    · simp [h, firstKey]
    · simp [h, firstKey]

theorem branchPos_spec (d : Dict) (k : Key) : (∀ e ∈ d, lcp k e.1 ≤ branchPos d k) ∧
    (d ≠ [] → ∃ e ∈ d, lcp k e.1 = branchPos d k) := by
  induction d with
  | nil => simp
  | cons x d ih =>
    simp only [branchPos, List.foldr_cons] at ih ⊢
    refine ⟨?_, fun _ => ?_⟩
    · intro e he
      rcases List.mem_cons.1 he with rfl | he
      · exact Nat.le_max_left _ _
      · exact Nat.le_trans (ih.1 e he) (Nat.le_max_right _ _)
    · rcases Nat.le_total (lcp k x.1) (d.foldr (fun e n => max (lcp k e.1) n) 0) with hle | hle
      · by_cases hd : d = []
        · subst hd; exact ⟨x, by simp, by simp⟩
        · obtain ⟨e, e1, e2⟩ := ih.2 hd
          exact ⟨e, by simp [e1], by rw [e2]; omega⟩
      · exact ⟨x, by simp, by omega⟩

theorem badKey_iff (key : List UInt8) : Map.badKey key = true ↔ Malformed key := by
  unfold Map.badKey Malformed
  cases h : key.getLast? with
  | none => simp only [true_iff]; left; exact List.getLast?_eq_none_iff.1 h
  | some c =>
    obtain ⟨s, rfl⟩ := List.getLast?_eq_some_iff.1 h
    constructor
    · intro hc; right; exact ⟨s, c, rfl, by simpa using hc⟩
    · rintro (h1 | ⟨s', c', h1, h2⟩)
      · simp at h1
      · have := List.append_inj_right' h1 rfl
        injection this with h3 _
        simp [h3, h2]

theorem CString.not_malformed {k : List UInt8} (h : CString k) : ¬ Malformed k := by
  obtain ⟨s, _, rfl⟩ := h
  rintro (h1 | ⟨s', c', h1, h2⟩)
  · simp at h1
  · have := List.append_inj_right' h1 rfl
    injection this with h3 _
    exact h2 h3.symm

theorem not_malformed_iff {k : List UInt8} : ¬ Malformed k ↔ ∃ s, k = s ++ [0] := by
  constructor
  · intro h
    cases hk : k.getLast? with
    | none => exact absurd (Or.inl (List.getLast?_eq_none_iff.1 hk)) h
    | some c =>
      obtain ⟨s, rfl⟩ := List.getLast?_eq_some_iff.1 hk
      by_cases hc : c = 0
      · exact ⟨s, by rw [hc]⟩
      · exact absurd (Or.inr ⟨s, c, rfl, hc⟩) h
  · rintro ⟨s, rfl⟩ (h1 | ⟨s', c', h1, h2⟩)
    · simp at h1
    · have := List.append_inj_right' h1 rfl
      injection this with h3 _
      exact h2 h3.symm

theorem _root_.Poplar.Spec.KeySet.badKey {vs : Nat} {U : List UInt8 → Prop} (hU : KeySet vs U) {k : List UInt8} (hk : U k) : Map.badKey k = false := by
  have := (badKey_iff k).not.2 (not_malformed_iff.2 (hU.nul k hk)); simpa using this

theorem _root_.Poplar.Spec.KeySet.ne_nil {vs : Nat} {U : List UInt8 → Prop} (hU : KeySet vs U) {k : List UInt8} (hk : U k) : k ≠ [] := by
  obtain ⟨s, rfl⟩ := hU.nul k hk; simp

theorem _root_.Poplar.Spec.keySet_cstrings (vs : Nat) : KeySet vs (CStrings vs) :=
  ⟨fun _ h => by obtain ⟨⟨s, _, h⟩, _⟩ := h; exact ⟨s, h⟩, fun _ h => h.2, fun _ _ h1 h2 => h1.1.sep h2.1⟩

theorem isPower2_iff (n : Nat) : isPower2 n = true ↔ ∃ l, n = 2 ^ l := by
  have h := Nat.ne_zero_and_sub_one_eq_zero_iff_isPowerOfTwo (n := n)
  rw [Nat.isPowerOfTwo] at h
  rw [← h]; simp [isPower2]

theorem cnt_mem_le (A : List UInt8) (n : Nat) (hn : n ≤ 256) : cnt (fun i => decide (UInt8.ofNat i ∈ A)) n ≤ A.length := by
  induction A with
  | nil => rw [cnt_zero] <;> simp
  | cons a A ih =>
    have h1 : cnt (fun i => decide (UInt8.ofNat i = a)) n ≤ 1 := by
      clear ih
      have : ∀ m ≤ n, cnt (fun i => decide (UInt8.ofNat i = a)) m = if a.toNat < m then 1 else 0 := by
        intro m hm
        induction m with
        | zero => simp [cnt]
        | succ m ih =>
          rw [cnt, ih (by omega)]
          by_cases h : UInt8.ofNat m = a
          · have ha : a.toNat = m := by rw [← h]; simp; omega
            simp [h, ha]
          · have ha : a.toNat ≠ m := by intro e; apply h; rw [← e]; simp
            simp only [h, decide_false, Bool.false_eq_true, if_false]
            split <;> split <;> omega
      rw [this n (Nat.le_refl _)]; split <;> omega
    have h2 := cnt_or_le (fun i => decide (UInt8.ofNat i = a)) (fun i => decide (UInt8.ofNat i ∈ A)) n
    have h3 : cnt (fun i => decide (UInt8.ofNat i ∈ a :: A)) n =
        cnt (fun i => decide (UInt8.ofNat i = a) || decide (UInt8.ofNat i ∈ A)) n := by
      apply cnt_congr; intro i _; simp
    rw [h3, List.length_cons]; omega

theorem Spec.inserts_of_key {o : Op} {k : Key} (h1 : o.key? = some k) (h2 : 0 < o.cost) (h3 : ¬ Malformed k) :
    o.inserts = some k := by
  cases o with
  | find k' => exact absurd h2 (by simp [Op.cost])
  | size => exact absurd h2 (by simp [Op.cost])
  | update k' => injection h1 with h1; subst h1; simp [Op.inserts, h3]
  | write k' v => injection h1 with h1; subst h1; simp [Op.inserts, h3]

theorem Spec.inserts_key {o : Op} {k : Key} (h : o.inserts = some k) :
    o.key? = some k ∧ o.cost = k.length ∧ ¬ Malformed k := by
  cases o with
  | find k' => cases h
  | size => cases h
  | update k' =>
    simp only [Op.inserts] at h
    split at h
    · cases h
    next hm => injection h with h; subst h; exact ⟨rfl, rfl, hm⟩
  | write k' v =>
    simp only [Op.inserts] at h
    split at h
    · cases h
    next hm => injection h with h; subst h; exact ⟨rfl, rfl, hm⟩

namespace Map
variable {τ ν : Type} {cfg : MapCfg τ ν} {sb N vs : Nat} {z0 : Prop} {U : List UInt8 → Prop}

section
variable (TS : TrieSpec cfg.T sb N z0) (NS : NlmSpec cfg.L cfg.T.kind vs)

/-- a map just constructed by `map(capa_bits, lambda)` -/
structure FreshM (m : Map τ ν) : Prop where
  ready : m.isReady = true
  sb8 : 8 ≤ sb ∧ sb < 64
  lam : m.lambda = 2 ^ (sb - 8)
  codes : CodeInv m.codes m.numCodes
  num : m.numCodes = 1
  trie : TS.Fresh m.trie
  nlm : NS.Inv (cfg.T.capaSize m.trie) m.nlm
  noLab : ∀ i e, NS.L m.nlm i e = none
  fk : cfg.L.size m.nlm = 0
  size : m.size = 0
  steps : m.numSteps = 0

/-- a non-empty map holding the dictionary `d` -/
structure Live (U : List UInt8 → Prop) (m : Map τ ν) (d : Dict) : Prop where
  inv : SInv TS NS U m
  ainv : AInv vs U (MM TS NS U m)
  get : ∀ key, U key → dict (MM TS NS U m) key = d.get key
  size : m.size = d.length
  keys : ∀ e ∈ d, U e.1
  nodes : cfg.T.size m.trie = m.size + m.numSteps
  root : (MM TS NS U m []).map (·.1) = firstKey d

/-- `m` holds the dictionary `d` -/
def State (U : List UInt8 → Prop) (m : Map τ ν) (d : Dict) : Prop :=
  (m = default cfg ∧ (sb = 13 ∧ TS.cb0 = 0) ∧ d = []) ∨ (FreshM TS NS m ∧ d = []) ∨ Live TS NS U m d

/-- the byte has been given a code -/
def Coded (m : Map τ ν) (c : UInt8) : Prop := m.isReady = true ∧ cdOf m.codes c ≠ 255 ∧ c ≠ 0

/-- number of trie nodes -/
def nodes (m : Map τ ν) : Nat := cfg.T.size m.trie

/-- the pointer points to the value of the key -/
def PtrTo (U : List UInt8 → Prop) (m : Map τ ν) (l : Loc) (k : Key) : Prop :=
  PtrAt TS NS m l (walk (MM TS NS U m) [] k).1 ∧ MM TS NS U m (walk (MM TS NS U m) [] k).1 ≠ none

/-- pointers stay valid -/
def PStab (U : List UInt8 → Prop) (m m' : Map τ ν) : Prop := ∀ l k, U k → PtrTo TS NS U m l k → PtrTo TS NS U m' l k

/-- the dictionary after a successful `update(k)` -/
def afterUpdate (vs : Nat) (d : Dict) (k : Key) : Dict :=
  match d.get k with
  | some _ => d
  | none => d.set k (List.replicate vs 0)

/-- how readiness and capacity evolve -/
def CapaTo (m m' : Map τ ν) : Prop :=
  (m.isReady = true → m'.isReady = true ∧ cfg.T.Grow TS.mf m.trie m'.trie) ∧
  (m.isReady = false → m'.isReady = false ∨ (m'.isReady = true ∧ cfg.T.Needed TS.mf (2 ^ TS.minb) m'.trie))

theorem CapaTo.refl (m : Map τ ν) : CapaTo TS m m := ⟨fun h => ⟨h, .refl _⟩, Or.inl⟩

variable {TS} in
theorem CapaTo.trans {a b c : Map τ ν} (h1 : CapaTo TS a b) (h2 : CapaTo TS b c) : CapaTo TS a c := by
  refine ⟨fun h => ?_, fun h => ?_⟩
  · obtain ⟨p1, p2⟩ := h1.1 h
    obtain ⟨q1, q2⟩ := h2.1 p1
    exact ⟨q1, p2.trans q2⟩
  · rcases h1.2 h with p | ⟨p1, p2⟩
    · exact h2.2 p
    · obtain ⟨q1, q2⟩ := h2.1 p1
      exact Or.inr ⟨q1, p2.grow q2⟩

/-- what `update(k)` does to the nodes of a non-empty map and to what they stand for; `b`: the branch at which the key ends -/
structure TreeStep (U : List UInt8 → Prop) (m : Map τ ν) (d : Dict) (k : Key) (m' : Map τ ν) (r : UpdOut) (b : BP × List UInt8) : Prop where
  keep : ∀ c, cdOf m.codes c < 255 → cdOf m'.codes c = cdOf m.codes c
  grown : Grown (TS.T m.trie) (TS.T m'.trie) (cfg.T.size m.trie) (cfg.T.size m'.trie) (NewAt m'.lambda (cdOf m'.codes) b.1)
  old : MM TS NS U m b.1 ≠ none ∨ r = .exn → MM TS NS U m' = MM TS NS U m
  new : MM TS NS U m b.1 = none → r ≠ .exn → MM TS NS U m' = upd (MM TS NS U m) b.1 (b.2, List.replicate vs 0)

/-- the map after the first `update` -/
structure TreeFirst (U : List UInt8 → Prop) (k : Key) (m' : Map τ ν) : Prop where
  size : cfg.T.size m'.trie = 1
  paths : ∀ q, TS.T m'.trie q ≠ none ↔ q = []
  labs : MM TS NS U m' = fun bp => if bp = [] then some (k, List.replicate vs 0) else none

/-- what `update(k)` guarantees -/
structure UpdateOk (U : List UInt8 → Prop) (m : Map τ ν) (d : Dict) (k : Key) (m' : Map τ ν) (r : UpdOut) : Prop where
  capa : CapaTo TS m m'
  coded : ∀ c, Coded m' c ↔ Coded m c ∨ (c ≠ 0 ∧ BranchesAt d k c)
  exn : r = .exn ↔ ∃ c, c ≠ 0 ∧ BranchesAt d k c ∧ ¬ Coded m c ∧ m.numCodes = 254
  num : ∀ l, r = .ptr l → m.numCodes < 255 → m'.numCodes < 255
  stab : NS.stable → Live TS NS U m d → PStab TS NS U m m'
  nost : k.length ≤ 2 ^ (sb - 8) → (d ≠ [] → NoStep TS NS m.trie m.nlm) → NoStep TS NS m'.trie m'.nlm
  res : (∃ l, r = .ptr l ∧ Live TS NS U m' (afterUpdate vs d k) ∧ PtrTo TS NS U m' l k) ∨
    (r = .exn ∧ Live TS NS U m' d ∧ d.get k = none ∧ m.numCodes = 254 ∧ m'.numCodes = 255)
  idle : d.get k ≠ none ∨ r = .exn → Idling cfg m m'
  put : d.get k = none → r ≠ .exn → ∃ m1 m2 v, (m1 = m ∨ m = default cfg ∧ make cfg 0 32 = .ok m1) ∧ Idling cfg m1 m2 ∧
    putLabel cfg m2 v (storedPart (d.map (·.1)) k) = .ok (m', r)
  same : d.get k ≠ none → m'.nlm = m.nlm ∧ PStab TS NS U m m'
  tree : Live TS NS U m d → TreeStep TS NS U m d k m' r (walk (MM TS NS U m) [] k)
  first : d = [] → TreeFirst TS NS U k m'

end

theorem _root_.Poplar.Spec.sharedLen_keys (d : Dict) (k : Key) : sharedLen (d.map (·.1)) k = branchPos d k := by
  unfold sharedLen branchPos; rw [List.foldr_map]

theorem _root_.Poplar.Spec.BranchesAt.mem {d : Dict} {k : Key} {c : UInt8} (h : BranchesAt d k c) : c ∈ k := List.mem_of_getElem? h.2.2

/-- where the walk stops is where the key branches off -/
theorem Live.stuck {TS : TrieSpec cfg.T sb N z0} {NS : NlmSpec cfg.L cfg.T.kind vs} {m : Map τ ν} {d : Dict}
    (h : Live TS NS U m d) {k : Key} (hk : U k) (c : UInt8) :
    StuckAt (MM TS NS U m) (walk (MM TS NS U m) [] k) c ↔ BranchesAt d k c := by
  have hd : d ≠ [] := by
    rintro rfl
    have h1 := h.root
    have h2 := h.ainv.root
    cases h3 : MM TS NS U m [] with
    | none => exact h2 h3
    | some x => rw [h3] at h1; cases h1
  have hget : ∀ y, d.get y ≠ none → U y ∧ dict (MM TS NS U m) y ≠ none := by
    intro y hy
    obtain ⟨e, e1, rfl⟩ := Dict.get_mem.1 hy
    have := h.keys e e1
    exact ⟨this, by rw [h.get _ this]; exact hy⟩
  have hn : MM TS NS U m (walk (MM TS NS U m) [] k).1 = none ↔ d.get k = none := by
    rw [← h.get k hk, dict]; simp
  have hmain : MM TS NS U m (walk (MM TS NS U m) [] k).1 = none →
      ∃ mt c q, (walk (MM TS NS U m) [] k).1 = (mt, c) :: q ∧ branchByte d k = some c := by
    intro h1
    obtain ⟨mt, c, q, n, g1, g2, _, g3, y, g4, g5, g6⟩ := walk_branch h.ainv hk h1
    refine ⟨mt, c, q, g1, ?_⟩
    obtain ⟨b1, b2⟩ := branchPos_spec d k
    obtain ⟨e, e1, e2⟩ := b2 hd
    have hle : branchPos d k ≤ n := by
      obtain ⟨k1, k2⟩ := hget e.1 (Dict.get_mem.2 ⟨e, e1, rfl⟩)
      rw [← e2]; exact g3 _ k1 k2
    have hge : n ≤ branchPos d k := by
      obtain ⟨e', e3, e4⟩ := Dict.get_mem.1 (show d.get y ≠ none by rw [← h.get y g4]; exact g5)
      rw [← g6, ← e4]; exact b1 e' e3
    rw [branchByte, Nat.le_antisymm hle hge]; exact g2
  constructor
  · rintro ⟨h1, mt, q, h2⟩
    refine ⟨hd, hn.1 h1, ?_⟩
    obtain ⟨mt', c', q', g1, g2⟩ := hmain h1
    rw [h2] at g1
    injection g1 with g1 _
    injection g1 with _ g1
    rw [g1]; exact g2
  · rintro ⟨_, h1, h2⟩
    have h1 := hn.2 h1
    obtain ⟨mt', c', q', g1, g2⟩ := hmain h1
    rw [h2] at g2; injection g2 with g2
    exact ⟨h1, mt', q', by rw [g1, g2]⟩

/-- what remains of the key where the walk stops is the part to be stored -/
theorem Live.rest {TS : TrieSpec cfg.T sb N z0} {NS : NlmSpec cfg.L cfg.T.kind vs} {m : Map τ ν} {d : Dict}
    (h : Live TS NS U m d) {k : Key} (hk : U k) (hn : d.get k = none) :
    (walk (MM TS NS U m) [] k).2 = storedPart (d.map (·.1)) k := by
  have hd : d ≠ [] := by
    rintro rfl
    have h1 := h.root
    have h2 := h.ainv.root
    cases h3 : MM TS NS U m [] with
    | none => exact h2 h3
    | some x => rw [h3] at h1; cases h1
  have h1 : MM TS NS U m (walk (MM TS NS U m) [] k).1 = none := by
    rw [← h.get k hk, dict] at hn; simpa using hn
  obtain ⟨mt, c, q, n, g1, g2, g0, g3, y, g4, g5, g6⟩ := walk_branch h.ainv hk h1
  obtain ⟨b1, b2⟩ := branchPos_spec d k
  obtain ⟨e, e1, e2⟩ := b2 hd
  have hle : branchPos d k ≤ n := by
    have k1 := h.keys e e1
    rw [← e2]
    exact g3 _ k1 (by rw [h.get _ k1]; exact Dict.get_mem.2 ⟨e, e1, rfl⟩)
  have hge : n ≤ branchPos d k := by
    obtain ⟨e', e3, e4⟩ := Dict.get_mem.1 (show d.get y ≠ none by rw [← h.get y g4]; exact g5)
    rw [← g6, ← e4]; exact b1 e' e3
  unfold storedPart
  rw [if_neg (by simpa using hd), sharedLen_keys, g0, Nat.le_antisymm hle hge]

variable {TS : TrieSpec cfg.T sb N z0} {NS : NlmSpec cfg.L cfg.T.kind vs}

theorem make_ok (hsb : 8 ≤ sb) (hmin : NS.minb ≤ TS.minb) {cb : Nat} (hcb0 : TS.cb0 ≤ cb) (hcb : max TS.minb cb + sb < 64) :
    ∃ m, make cfg cb (2 ^ (sb - 8)) = .ok m ∧ FreshM TS NS m ∧ cfg.T.capaBits m.trie = max TS.minb cb := by
  have hp : isPower2 (2 ^ (sb - 8)) = true := (isPower2_iff _).2 ⟨_, rfl⟩
  obtain ⟨t, t1, t2, t3⟩ := TS.make_ok cb hcb0 hcb
  have hc := TS.capa t (Or.inl t2)
  obtain ⟨n, n1, n2, n3, n4⟩ := NS.make (cfg.T.capaBits t) (by omega) hc.2.1
  refine ⟨{ isReady := true, lambda := 2 ^ (sb - 8), trie := t, nlm := n, codes := (Array.replicate 256 255).setIfInBounds 0 0, numCodes := 1 }, ?_, ?_, t3⟩
  · unfold make
    rw [BitTools.ceilLog2_pow (by omega)]
    simp only [hp, Bool.not_true, Bool.false_eq_true, if_false, R.bind_ok]
    rw [show 8 + (sb - 8) = sb by omega, t1]
    simp only [R.bind_ok, n1]
    rw [wr_of_lt (by simp)]
    simp only [R.bind_ok, R.pure_eq]
  · have hcd := CodeInv.init
    generalize (Array.replicate 256 255).setIfInBounds 0 0 = cs at hcd
    exact ⟨rfl, ⟨hsb, by omega⟩, rfl, hcd, rfl, t2, by rw [hc.2.2.1]; exact n2, n4, n3, rfl, rfl⟩

theorem make_fail (hsb : 8 ≤ sb) (hsb' : sb - 8 < 64) {cb : Nat} (hcb : 64 ≤ max TS.minb cb + sb) :
    ∃ e, make cfg cb (2 ^ (sb - 8)) = .error e ∧ (e = .limit ∨ e = .throw) := by
  have hp : isPower2 (2 ^ (sb - 8)) = true := (isPower2_iff _).2 ⟨_, rfl⟩
  obtain ⟨e, e1, e2⟩ := TS.make_fail cb hcb
  refine ⟨e, ?_, e2⟩
  unfold make
  rw [BitTools.ceilLog2_pow hsb']
  simp only [hp, Bool.not_true, Bool.false_eq_true, if_false, R.bind_ok]
  rw [show 8 + (sb - 8) = sb by omega, e1]; rfl

theorem FreshM.not_coded {m : Map τ ν} (h : FreshM TS NS m) (c : UInt8) : ¬ Coded m c := by
  rintro ⟨_, h1, h2⟩
  rcases h.codes.rng c with h3 | h3
  · exact h1 h3
  · rw [h.num] at h3
    exact h2 (h.codes.inj c 0 (by omega) (by rw [h.codes.zero]; omega))

/-- the first `update` -/
theorem FreshM.first {m : Map τ ν} (hU : KeySet vs U) (h : FreshM TS NS m) {k : Key} (hk : U k) :
    ∃ m' l, (do
      let trie ← cfg.T.addRoot m.trie
      let node ← cfg.T.getRoot trie
      putLabel cfg { m with size := m.size + 1, trie := trie } node k) = .ok (m', .ptr l) ∧
      UpdateOk TS NS U m [] k m' (.ptr l) := by
  obtain ⟨t, r, t1, t2, t3, t4, t5, t6, t7, t8⟩ := TS.fresh_root m.trie h.trie
  have hcore : Core TS NS t m.nlm := ⟨t2, by rw [t7]; exact h.nlm, fun _ => t6, fun i e hi => absurd (h.noLab i e) hi⟩
  have hkn := hU.ne_nil hk
  obtain ⟨n', l, p1, p2, p3, p4, _, p5, p6⟩ := putLabel_ok (m := { m with size := m.size + 1, trie := t }) (NS := NS) (p := []) (v := r)
    hcore (by simp [t4]) (h.noLab r) (fun hkd => by simp only [h.fk]; exact t8 hkd) ⟨Or.inr (hU.nul k hk), hU.len k hk⟩
  have hemp : k.isEmpty = false := by
    cases k with
    | nil => exact absurd rfl hkn
    | cons => rfl
  rw [hemp] at p5
  simp only at p2 p3 p4 p5 p6
  refine ⟨{ m with size := m.size + 1, trie := t, nlm := n' }, l, ?_, ?_⟩
  · rw [t1]; simp only [R.bind_ok, t3]; exact p1
  have hLp : ∀ q e, q ≠ [] → Lp TS NS t n' q e = none := by
    intro q e hq; rw [p6 q e hq]
    simp only [Lp]
    cases TS.T t q with
    | none => rfl
    | some i => exact h.noLab i _
  have hTe : ∀ p, TS.T t p ≠ none → p = [] := by
    intro p hp
    simp only [t4] at hp; by_contra hc; simp [hc] at hp
  have hMM : MM TS NS U { m with size := m.size + 1, trie := t, nlm := n' } = (fun bp => if bp = [] then some (k, List.replicate vs 0) else none) := by
    symm
    refine link_unique (fun bp => ?_)
    cases bp with
    | nil =>
      have : ¬ U [] := fun h => hU.ne_nil h rfl
      simp [byBranch, flat, Known.nil, KeyAt, this, p5]
    | cons x bp =>
      obtain ⟨a, b⟩ := x
      simp only [byBranch]
      rw [if_neg (by simp)]
      split
      · rw [hLp _ _ (by simp [flat])]
      · rfl
  have hI : SInv TS NS U { m with size := m.size + 1, trie := t, nlm := n' } := by
    refine ⟨h.ready, h.sb8, h.lam, h.codes, p2, ?_, ?_, ?_, ?_⟩
    · intro hkd; simp only [p4 hkd, h.fk, t5]
    · intro p hp
      have := hTe p hp
      subst this
      exact ⟨0, [], Known.nil, rfl, by simp [p5]⟩
    · intro bp _ hT
      have := hTe _ hT
      rw [hMM]
      cases bp with
      | nil => simp
      | cons x bp => obtain ⟨a, b⟩ := x; simp [flat] at this
    · refine ⟨[([], 0)], by simp, by simp [t5], ?_⟩
      intro x hx
      simp only [List.mem_singleton] at hx
      subst hx
      exact ⟨Known.nil, by simp [flat, t4], k, List.replicate vs 0, by rw [hMM]; simp, by simp⟩
  obtain ⟨d1, d2⟩ := dict_root (v := List.replicate vs 0) hU hk (by simp)
  refine ⟨⟨fun _ => ⟨h.ready, by rw [t7], by rw [TS.fresh_size _ h.trie]; exact Nat.zero_le _, Or.inl t7⟩, fun hr => by rw [h.ready] at hr; cases hr⟩, ?_, ⟨fun e => (by cases e), fun ⟨_, _, hb, _⟩ => absurd rfl hb.1⟩, fun _ _ hn => hn, fun _ hL => ?_, fun _ _ => ?_, Or.inl ⟨l, rfl, ?_, ?_⟩,
    fun hx => hx.elim (fun hx => absurd rfl hx) (fun hx => by cases hx), fun _ _ => ⟨m, { m with size := m.size + 1, trie := t }, r, Or.inl rfl, ⟨0, rfl, .refl _⟩, p1⟩, fun hx => absurd rfl hx,
    fun hL => absurd (TS.fresh_size _ h.trie) (TS.inv_size _ hL.inv.core.trie), fun _ => ⟨t5, fun q => ⟨hTe q, fun e => by rw [e]; simp [t4]⟩, hMM⟩⟩
  · intro c
    exact ⟨fun hc => Or.inl hc, fun hc => hc.elim id (fun hb => absurd rfl hb.2.1)⟩
  · exact absurd (TS.fresh_size _ h.trie) (TS.inv_size _ hL.inv.core.trie)
  · intro p hp
    rw [hTe p hp]
    simp [p5]
  · refine ⟨hI, by rw [hMM]; exact d1, ?_, ?_, ?_, by simp only [h.size, h.steps, t5], ?_⟩
    · intro key hkey; rw [hMM, d2 key hkey]
      simp only [afterUpdate, Dict.get, Dict.set]
      by_cases he : key = k
      · simp [he]
      · simp [he, Ne.symm he]
    · simp [afterUpdate, Dict.get, Dict.set, h.size]
    · intro e he
      simp only [afterUpdate, Dict.get, Dict.set, List.mem_cons, List.not_mem_nil, or_false] at he
      rw [he]; exact hk
    · rw [hMM]; simp [afterUpdate, Dict.get, Dict.set, firstKey]
  · have hw : walk (MM TS NS U { m with size := m.size + 1, trie := t, nlm := n' }) [] k = ([], k) := by
      rw [hMM]; exact walk_eq (v := List.replicate vs 0) (by simp)
    simp only [PtrTo, hw]
    refine ⟨⟨r, by simp [flat, t4], p3⟩, ?_⟩
    rw [hMM]; simp

theorem Live.find {m : Map τ ν} {d : Dict} (h : Live TS NS U m d) {k : Key} (hk : U k) :
    (d.get k = none ∧ Map.find cfg m k = .ok none) ∨
    ∃ l, Map.find cfg m k = .ok (some l) ∧ PtrTo TS NS U m l k := by
  have hU := h.ainv.univ
  have hb : badKey k = false := hU.badKey hk
  obtain ⟨r, r1, r2⟩ := TS.inv_root m.trie h.inv.core.trie
  have hz := TS.inv_size m.trie h.inv.core.trie
  obtain ⟨x, x1, x2, x3⟩ := h.inv.toF.findLoop_ok h.ainv (k.length + 1) [] r k (by omega) hk Known.nil (by simpa [flat] using r2)
  unfold Map.find
  simp only [hb, Bool.false_eq_true, if_false, h.inv.ready, Bool.not_true, Bool.false_or, hz, decide_false, r1, R.bind_ok, x1]
  cases x with
  | none =>
    left
    refine ⟨?_, rfl⟩
    rw [← h.get k hk, dict, x2 rfl]; rfl
  | some l =>
    right
    obtain ⟨y1, y2⟩ := x3 l rfl
    exact ⟨l, rfl, y2, y1⟩

theorem Live.load {m : Map τ ν} {d : Dict} (h : Live TS NS U m d) {k : Key} (hk : U k) {l : Loc}
    (hp : PtrTo TS NS U m l k) : ∃ v, d.get k = some v ∧ Map.load cfg m l = .ok v ∧ v.length = vs := by
  obtain ⟨⟨i, p1, p2⟩, p3⟩ := hp
  obtain ⟨⟨lb, v⟩, hv⟩ := Option.ne_none_iff_exists'.1 p3
  refine ⟨v, ?_, ?_, (h.ainv.lab _ _ _ hv).2⟩
  · rw [← h.get k hk, dict, hv]; rfl
  · obtain ⟨e, he⟩ := h.inv.at_node hv p1
    exact NS.load _ _ h.inv.core.nlm l i e lb v p2 he

theorem Live.store {m : Map τ ν} {d : Dict} (h : Live TS NS U m d) {k : Key} (hk : U k) {l : Loc}
    (hp : PtrTo TS NS U m l k) {w : Val} (hw : w.length = vs) :
    ∃ n', Map.store cfg m l w = .ok { m with nlm := n' } ∧ Live TS NS U { m with nlm := n' } (d.set k w) ∧
      PStab TS NS U m { m with nlm := n' } ∧ (NoStep TS NS m.trie m.nlm → NoStep TS NS m.trie n') ∧
      ∀ b, (MM TS NS U { m with nlm := n' } b).map (·.1) = (MM TS NS U m b).map (·.1) := by
  obtain ⟨⟨i, p1, p2⟩, p3⟩ := hp
  obtain ⟨⟨lb, v⟩, hv⟩ := Option.ne_none_iff_exists'.1 p3
  obtain ⟨e0, hL⟩ := h.inv.at_node hv p1
  obtain ⟨n', n1, n2, n3, n5, n4, n6⟩ := NS.store _ _ h.inv.core.nlm l i _ lb v w p2 hL hw
  have hkn := (h.inv.mm_path p3).1
  have hLpe : ∀ e, Lp TS NS m.trie n' (flat m.lambda (cdOf m.codes) (walk (MM TS NS U m) [] k).1) e =
      (Lp TS NS m.trie m.nlm (flat m.lambda (cdOf m.codes) (walk (MM TS NS U m) [] k).1) e).map (fun x => (x.1, w)) := by
    intro e; simp only [Lp, p1, Option.bind_some, n4]
  have hLp : ∀ q e, q ≠ flat m.lambda (cdOf m.codes) (walk (MM TS NS U m) [] k).1 → Lp TS NS m.trie n' q e = Lp TS NS m.trie m.nlm q e := by
    intro q e hq
    simp only [Lp]
    cases hq2 : TS.T m.trie q with
    | none => rfl
    | some j =>
      simp only [Option.bind_some]
      rw [n6]
      intro e2; subst e2; exact hq (TS.T_inj _ h.inv.core.trie _ _ _ hq2 p1)
  have hnone : ∀ q, Lp TS NS m.trie n' q false ≠ none ↔ Lp TS NS m.trie m.nlm q false ≠ none := by
    intro q
    by_cases e : q = flat m.lambda (cdOf m.codes) (walk (MM TS NS U m) [] k).1
    · rw [e, hLpe]; simp
    · rw [hLp q _ e]
  have hMM : MM TS NS U { m with nlm := n' } = upd (MM TS NS U m) (walk (MM TS NS U m) [] k).1 (lb, w) := by
    refine link_store hv ?_ ?_
    · intro e; simp only [byBranch, hkn, if_true]; exact hLpe e
    · intro q e hq
      simp only [byBranch]
      by_cases hb : Known (cdOf m.codes) q
      · simp only [hb, if_true]
        refine hLp _ _ ?_
        intro e2
        exact hq (flat_inj (k := 0) (k' := 0) h.inv.codes.inj hb hkn (by simpa using e2)).2
      · simp only [hb, if_false]
  obtain ⟨d1, d2⟩ := dict_store h.ainv hk hv hw
  refine ⟨n', ?_, ⟨⟨h.inv.ready, h.inv.sb8, h.inv.lam, h.inv.codes, ⟨h.inv.core.trie, n2, h.inv.core.nex, ?_⟩, ?_, ?_, ?_, ?_⟩, by rw [hMM]; exact d1, ?_, ?_, ?_, h.nodes, ?_⟩, ?_, fun hns q hq => (hnone q).2 (hns q hq), fun b => ?_⟩
  rotate_right
  · rw [hMM]; simp only [Poplar.upd]; split
    next e => rw [e, hv]; rfl
    next => rfl
  · simp only [Map.store, n1, R.bind_ok, R.pure_eq]
  · intro j e hj
    by_cases he : j = i
    · exact ⟨_, by rw [he]; exact p1⟩
    · rw [n6 j e he] at hj; exact h.inv.core.labT j e hj
  · intro hkd; simp only [n3]; exact h.inv.fk hkd
  · intro p hp
    obtain ⟨k', bp, s1, s2, s3⟩ := h.inv.shape p hp
    exact ⟨k', bp, s1, s2, s3.trans (hnone p).symm⟩
  · intro b hb hT
    rw [hMM]
    simp only [Poplar.upd]
    split
    · simp
    · exact h.inv.lab b hb hT
  · rw [hMM]
    refine h.inv.cnt.mono (fun _ _ => rfl) (fun _ h => h) ?_
    intro b l0 v0 hb
    simp only [Poplar.upd]
    split
    next e => rw [e, hv] at hb; injection hb with hb; injection hb with hb _; exact ⟨w, by rw [hb]⟩
    next => exact ⟨v0, hb⟩
  · intro key hkey
    rw [hMM, d2 key hkey, Dict.get_set, h.get key hkey]
  · simp only [h.size, Dict.length_set]
    have : d.get k ≠ none := by rw [← h.get k hk, dict, hv]; simp
    rw [if_neg this]
  · intro e he
    rcases Dict.mem_set he with h1 | ⟨e', h1, h2⟩
    · rw [h1]; exact hk
    · rw [← h2]; exact h.keys e' h1
  · have hd : d ≠ [] := by
      rintro rfl
      have : Dict.get [] k ≠ none := by rw [← h.get k hk, dict, hv]; simp
      exact this rfl
    rw [firstKey_set, if_neg hd, ← h.root, hMM]
    simp only [Poplar.upd]; split
    next e => rw [e, hv]; rfl
    next => rfl
  · rintro l' k' hk' ⟨⟨j, j1, j2⟩, j3⟩
    have hw : walk (MM TS NS U { m with nlm := n' }) [] k' = walk (MM TS NS U m) [] k' := by
      refine walk_lab_congr h.ainv ?_ [] k' hk'
      intro q; rw [hMM]; simp only [Poplar.upd]; split
      next e => rw [e, hv]; rfl
      next => rfl
    rw [PtrTo, hw]
    refine ⟨⟨j, j1, n5 l' j j2⟩, ?_⟩
    rw [hMM]; simp only [Poplar.upd]; split
    · simp
    · exact j3

theorem Live.bound {m : Map τ ν} {d : Dict} (h : Live TS NS U m d) :
    Bound (MM TS NS U m) m.lambda (nodesFor m.lambda (d.map (·.1))) := by
  refine bound_of h.ainv h.inv.lam_pos ?_
  intro y hy hd
  rw [h.get y hy] at hd
  obtain ⟨e, e1, e2⟩ := Dict.get_mem.1 hd
  exact List.mem_map.2 ⟨e, e1, e2⟩

theorem Live.nodes_le {m : Map τ ν} {d : Dict} (h : Live TS NS U m d) :
    cfg.T.size m.trie ≤ nodesFor (2 ^ (sb - 8)) (d.map (·.1)) := by
  have := h.inv.cnt.le h.bound
  rwa [h.inv.lam] at this

theorem State.nodes_le {m : Map τ ν} {d : Dict} (h : State TS NS U m d) (hempty : cfg.T.size cfg.T.empty = 0) :
    cfg.T.size m.trie ≤ nodesFor (2 ^ (sb - 8)) (d.map (·.1)) := by
  rcases h with ⟨rfl, _, rfl⟩ | ⟨h, rfl⟩ | h
  · show cfg.T.size cfg.T.empty ≤ _; rw [hempty]; exact Nat.zero_le _
  · rw [TS.fresh_size _ h.trie]; exact Nat.zero_le _
  · exact h.nodes_le

theorem Live.upd {m : Map τ ν} {d : Dict} (h : Live TS NS U m d) {k : Key} (hk : U k)
    (hz : z0 ∨ k.head? ≠ some 0 ∨ ∃ l, firstKey d = some (0 :: l)) (hc : m.numCodes < 255 ∨ ∀ c, c ≠ 0 → BranchesAt d k c → Coded m c) :
    Post (N ≤ nodesFor (2 ^ (sb - 8)) (k :: d.map (·.1))) (update cfg m k) (fun x => UpdateOk TS NS U m d k x.1 x.2) := by
  have hb : badKey k = false := h.ainv.univ.badKey hk
  obtain ⟨r, r1, r2⟩ := TS.inv_root m.trie h.inv.core.trie
  have hsz := TS.inv_size m.trie h.inv.core.trie
  unfold update
  simp only [hb, Bool.false_eq_true, if_false, hsz, r1, R.bind_ok]
  refine (updLoop_ok (k.length + 1) h.inv h.ainv [] r k _ _ (by omega) hk Known.nil (by simpa [flat] using r2) ?_ ?_ h.bound ?_ ?_).imp ?_
  · rcases hc with hc | hc
    · exact Or.inl hc
    · right
      intro c hcm
      by_cases h0 : c = 0
      · rw [h0, h.inv.codes.zero]; decide
      · have := (hc c h0 ((h.stuck hk c).1 hcm)).2.1
        have := h.inv.codes.le255 c; omega
  · rcases hz with hz | hz | ⟨l0, hz⟩
    · exact Or.inl hz
    · exact Or.inr (Or.inr (Or.inl hz))
    · right; right; right
      have := h.root
      rw [hz] at this
      cases h3 : MM TS NS U m [] with
      | none => rw [h3] at this; cases this
      | some x =>
        obtain ⟨x1, x2⟩ := x
        rw [h3] at this
        simp only [Option.map_some, Option.some.injEq] at this
        exact ⟨l0, x2, by rw [this]⟩
  · intro hN
    rw [h.inv.lam] at hN
    exact Nat.le_trans hN (nodesFor_mono fun x hx => by simp only [List.mem_cons]; exact Or.inr hx)
  · intro hnone hN
    rw [h.inv.lam] at hN
    refine Nat.le_trans hN (nodesFor_new (k := k) (fun x hx => by simp only [List.mem_cons]; exact Or.inr hx) ?_ (by simp))
    intro hm
    obtain ⟨e, e1, e2⟩ := List.mem_map.1 hm
    have := Dict.get_mem.2 ⟨e, e1, e2⟩
    rw [← h.get k hk, dict, hnone] at this
    exact this rfl
  · rintro ⟨m', x⟩ hU
    simp only at hU ⊢
    have hcodedIn : ∀ c, Coded m' c ↔ Coded m c ∨ (c ≠ 0 ∧ BranchesAt d k c) := by
      intro c
      simp only [Coded, h.inv.ready, hU.inv.ready, true_and]
      rw [hU.known c, h.stuck hk c]
      tauto
    have hexn : x = .exn ↔ ∃ c, c ≠ 0 ∧ BranchesAt d k c ∧ ¬ Coded m c ∧ m.numCodes = 254 := by
      rw [hU.exn]
      constructor
      · rintro ⟨c, c1, c2, c3⟩
        refine ⟨c, ?_, (h.stuck hk c).1 c1, fun hc => hc.2.1 c2, c3⟩
        rintro rfl; rw [h.inv.codes.zero] at c2; omega
      · rintro ⟨c, c0, c1, c2, c3⟩
        refine ⟨c, (h.stuck hk c).2 c1, ?_, c3⟩
        by_contra hc
        exact c2 ⟨h.inv.ready, hc, c0⟩
    have hmm0 : (MM TS NS U m' []).map (·.1) = firstKey d := by
      have hres := hU.res
      rw [← h.root]
      cases x with
      | null => exact hres.elim
      | exn => rw [hres.2.2.2.1]
      | ptr l =>
        rcases hres.2 with ⟨_, e2, _⟩ | ⟨e1, e2, _⟩
        · rw [e2]
        · rw [e2]; simp only [Poplar.upd]
          rw [if_neg]
          intro e; rw [← e] at e1; exact h.ainv.root e1
    have hdne : d ≠ [] := by
      rintro rfl
      have h1 := h.root
      have h2 := h.ainv.root
      cases h3 : MM TS NS U m [] with
      | none => exact h2 h3
      | some x => rw [h3] at h1; cases h1
    have hnodes : cfg.T.size m'.trie = m'.size + m'.numSteps := by have := hU.keys; have := h.nodes; omega
    refine ⟨⟨fun _ => ⟨hU.inv.ready, hU.capa⟩, fun hr => by rw [h.inv.ready] at hr; cases hr⟩, hcodedIn, hexn, hU.num, ?_, fun hle hns => hU.nost (by rw [h.inv.lam]; exact hle) (hns hdne), ?_, ?_, ?_, ?_, fun _ => ⟨hU.keep, hU.grown, ?_, ?_⟩, fun e => absurd e hdne⟩
    rotate_right
    · intro h1 h2
      have hres := hU.res
      cases x with
      | null => exact hres.elim
      | exn => exact absurd rfl h2
      | ptr l =>
        rcases hres.2 with ⟨e1, _, _⟩ | ⟨_, e2, _⟩
        · exact absurd h1 e1
        · exact e2
    rotate_right
    · intro h1
      have hres := hU.res
      cases x with
      | null => exact hres.elim
      | exn => exact hres.2.2.2.1
      | ptr l =>
        rcases hres.2 with ⟨_, e2, _⟩ | ⟨e1, _, _⟩
        · exact e2
        · exact absurd e1 (h1.resolve_right (by intro e; cases e))
    rotate_right
    · intro hn
      have h1 : MM TS NS U m (walk (MM TS NS U m) [] k).1 ≠ none := by
        rw [← h.get k hk, dict] at hn; simpa using hn
      obtain ⟨y1, y2⟩ := hU.same h1
      refine ⟨y1, ?_⟩
      rintro l' k' hk' ⟨⟨j, j1, j2⟩, j3⟩
      obtain ⟨hkf, _⟩ := flat_congr (lam := m.lambda) (h.inv.mm_path j3).1 hU.keep
      have hMM : MM TS NS U m' = MM TS NS U m := by
        have hres := hU.res
        cases x with
        | null => exact hres.elim
        | exn => exact hres.2.2.2.1
        | ptr l =>
          rcases hres.2 with ⟨_, e2, _⟩ | ⟨e1, e2, _⟩
          · exact e2
          · exact absurd e1 h1
      rw [PtrTo, hMM]
      refine ⟨⟨j, ?_, by rw [y1]; exact j2⟩, j3⟩
      rw [hU.lam, hkf, y2]; exact j1
    rotate_right
    · intro hn hx
      have h1 : MM TS NS U m (walk (MM TS NS U m) [] k).1 = none := by
        rw [← h.get k hk, dict] at hn; simpa using hn
      obtain ⟨m2, v, z1, z2⟩ := hU.put h1 hx
      rw [h.rest hk hn] at z2
      exact ⟨m, m2, v, Or.inl rfl, z1, z2⟩
    rotate_right
    · intro hn
      refine hU.idle (hn.imp (fun hn => ?_) id)
      rw [← h.get k hk, dict] at hn; simpa using hn
    · rintro hs _ l' k' hk' ⟨⟨j, j1, j2⟩, j3⟩
      obtain ⟨hkf, _⟩ := flat_congr (lam := m.lambda) (h.inv.mm_path j3).1 hU.keep
      have hgo : walk (MM TS NS U m') [] k' = walk (MM TS NS U m) [] k' → MM TS NS U m' (walk (MM TS NS U m) [] k').1 ≠ none →
          PtrTo TS NS U m' l' k' := by
        intro w1 w2
        rw [PtrTo, w1]
        refine ⟨?_, w2⟩
        rw [PtrAt, hU.lam, hkf]
        exact hU.stab hs l' _ ⟨j, j1, j2⟩
      have hsame : MM TS NS U m' = MM TS NS U m → PtrTo TS NS U m' l' k' := fun e => hgo (by rw [e]) (by rw [e]; exact j3)
      have hres := hU.res
      cases x with
      | null => exact hres.elim
      | exn => exact hsame hres.2.2.2.1
      | ptr l =>
        rcases hres.2 with ⟨_, e2, _⟩ | ⟨e1, e2, _⟩
        · exact hsame e2
        · have hne : (walk (MM TS NS U m) [] k').1 ≠ (walk (MM TS NS U m) [] k).1 := fun e => j3 (by rw [e]; exact e1)
          apply hgo
          · rw [e2]
            exact walk_upd_ne h.ainv (fun q hq => by simp [Poplar.upd, hq]) e1 [] k' hk' hne
          · rw [e2]; simp only [Poplar.upd, if_neg hne]; exact j3
    have hres := hU.res
    cases x with
    | null => exact hres.elim
    | exn =>
      obtain ⟨e1, e2, e3, e4, e5⟩ := hres
      right
      refine ⟨rfl, ⟨hU.inv, by rw [e4]; exact h.ainv, ?_, by rw [e5]; exact h.size, h.keys, hnodes, hmm0⟩, ?_, e2, e3⟩
      · intro key hkey; rw [e4]; exact h.get key hkey
      · rw [← h.get k hk, dict, e1]; rfl
    | ptr l =>
      obtain ⟨e0, e1⟩ := hres
      left
      refine ⟨l, rfl, ?_⟩
      rcases e1 with ⟨e1, e2, e3⟩ | ⟨e1, e2, e3⟩
      · have hget : d.get k ≠ none := by
          rw [← h.get k hk, dict]; simpa using e1
        obtain ⟨v, hv⟩ := Option.ne_none_iff_exists'.1 hget
        refine ⟨⟨hU.inv, by rw [e2]; exact h.ainv, ?_, ?_, ?_, hnodes, ?_⟩, by rw [PtrTo, e2]; exact ⟨e0, e1⟩⟩
        · intro key hkey; rw [e2, afterUpdate, hv]; exact h.get key hkey
        · rw [e3, afterUpdate, hv]; exact h.size
        · rw [afterUpdate, hv]; exact h.keys
        · rw [afterUpdate, hv]; exact hmm0
      · have hget : d.get k = none := by
          rw [← h.get k hk, dict, e1]; rfl
        obtain ⟨d1, d2⟩ := dict_insert h.ainv hk e1 (v := List.replicate vs 0) (by simp)
        refine ⟨⟨hU.inv, by rw [e2]; exact d1, ?_, ?_, ?_, hnodes, ?_⟩, ?_⟩
        · intro key hkey; rw [e2, d2 key hkey, afterUpdate, hget]
          simp only [Dict.get_set]; rw [h.get key hkey]
        · rw [e3, afterUpdate, hget]; simp only [Dict.length_set, hget, if_true, h.size]
        · rw [afterUpdate, hget]
          intro e he
          rcases Dict.mem_set he with h1 | ⟨e', h1, h2⟩
          · rw [h1]; exact hk
          · rw [← h2]; exact h.keys e' h1
        · rw [afterUpdate, hget]
          simp only [firstKey_set, if_neg hdne]; exact hmm0
        · have hw : walk (Poplar.upd (MM TS NS U m) (walk (MM TS NS U m) [] k).1 ((walk (MM TS NS U m) [] k).2, List.replicate vs 0)) [] k
              = walk (MM TS NS U m) [] k := by
            rw [walk_upd_eq h.ainv _ e1 [] k hk rfl, walk_eq (v := List.replicate vs 0) (by simp [Poplar.upd])]
          rw [PtrTo, e2, hw]
          exact ⟨e0, by simp [Poplar.upd]⟩

theorem State.upd {m : Map τ ν} {d : Dict} (hU : KeySet vs U) (h : State TS NS U m d) (hempty : cfg.T.size cfg.T.empty = 0)
    (hmin : NS.minb ≤ TS.minb) (hmin64 : TS.minb + 13 < 64)
    {k : Key} (hk : U k)
    (hz : z0 ∨ k.head? ≠ some 0 ∨ d = [] ∨ ∃ l, firstKey d = some (0 :: l))
    (hc : m.numCodes < 255 ∨ ∀ c, c ≠ 0 → BranchesAt d k c → Coded m c) :
    Post (N ≤ nodesFor (2 ^ (sb - 8)) (k :: d.map (·.1))) (update cfg m k) (fun x => UpdateOk TS NS U m d k x.1 x.2) := by
  have hb : badKey k = false := hU.badKey hk
  rcases h with ⟨rfl, ⟨hsb, hcb0⟩, rfl⟩ | ⟨h, rfl⟩ | h
  · obtain ⟨m1, m2, m3, m4⟩ := make_ok (TS := TS) (NS := NS) (cb := 0) (by omega) hmin (by omega) (by simp only [Nat.max_zero]; omega)
    subst hsb
    obtain ⟨m', l, f1, f2⟩ := FreshM.first hU m3 hk
    have hd1 : (default cfg : Map τ ν).trie = cfg.T.empty := rfl
    have hd2 : (default cfg : Map τ ν).isReady = false := rfl
    unfold update
    rw [hd1, hd2]
    simp only [hb, Bool.false_eq_true, if_false, hempty, if_true, Bool.not_false]
    rw [show (32 : Nat) = 2 ^ (13 - 8) from rfl, m2]
    simp only [R.bind_ok]
    rw [f1]
    have hz1 := TS.fresh_size _ m3.trie
    refine ⟨⟨fun h => (by cases h), fun _ => Or.inr ?_⟩, ?_, ⟨fun e => (by cases e), fun ⟨_, _, hb, _⟩ => absurd rfl hb.1⟩, fun l hl _ => f2.num l hl (by rw [m3.num]; omega), ?_, fun hle _ => f2.nost hle (fun h => absurd rfl h), f2.res.elim Or.inl (fun h => (by cases h.1)),
      fun hx => hx.elim (fun hx => absurd rfl hx) (fun hx => by cases hx), fun _ _ => ?_, fun hx => absurd rfl hx,
      fun hL => absurd hempty (TS.inv_size _ hL.inv.core.trie), f2.first⟩
    rotate_right
    · obtain ⟨m5, m6, v, z1, z2, z3⟩ := f2.put rfl (by intro hx; cases hx)
      rcases z1 with rfl | ⟨z1, _⟩
      · exact ⟨_, m6, v, Or.inr ⟨rfl, m2⟩, z2, z3⟩
      · rw [z1] at m3; have := m3.ready; cases this
    · obtain ⟨g1, g2⟩ := f2.capa.1 m3.ready
      refine ⟨g1, TrieOps.Needed.grow (Or.inl ?_) g2⟩
      rw [(TS.capa _ (Or.inl m3.trie)).2.2.1, m4, Nat.max_zero]
    · intro c
      constructor
      · intro hc
        rcases (f2.coded c).1 hc with h1 | h1
        · exact absurd h1 (m3.not_coded c)
        · exact Or.inr h1
      · rintro (hc | hc)
        · cases hc.1
        · exact absurd rfl hc.2.1
    · intro _ hL; exact absurd hempty (TS.inv_size _ hL.inv.core.trie)
  · have hz1 := TS.fresh_size _ h.trie
    obtain ⟨m', l, f1, f2⟩ := FreshM.first hU h hk
    unfold update
    simp only [hb, Bool.false_eq_true, if_false, hz1, if_true, h.ready, Bool.not_true, R.bind_ok, R.pure_eq]
    simp only [h.ready] at f1
    rw [f1]
    exact f2
  · refine h.upd hk ?_ hc
    rcases hz with hz | hz | hz | hz
    · exact Or.inl hz
    · exact Or.inr (Or.inl hz)
    · exfalso
      subst hz
      have h1 := h.root
      have h2 := h.ainv.root
      cases h3 : MM TS NS U m [] with
      | none => exact h2 h3
      | some x => rw [h3] at h1; cases h1
    · exact Or.inr (Or.inr hz)

theorem State.find {m : Map τ ν} {d : Dict} (hU : KeySet vs U) (h : State TS NS U m d) {k : Key} (hk : U k) :
    (d.get k = none ∧ Map.find cfg m k = .ok none) ∨
    ∃ l, Map.find cfg m k = .ok (some l) ∧ Live TS NS U m d ∧ PtrTo TS NS U m l k := by
  have hb : badKey k = false := hU.badKey hk
  rcases h with ⟨rfl, hsb, rfl⟩ | ⟨h, rfl⟩ | h
  · left
    refine ⟨rfl, ?_⟩
    have hd2 : (default cfg : Map τ ν).isReady = false := rfl
    unfold Map.find
    simp only [hb, hd2]; rfl
  · left
    refine ⟨rfl, ?_⟩
    have hz1 := TS.fresh_size _ h.trie
    unfold Map.find
    simp [hb, hz1]
  · rcases h.find hk with h1 | ⟨l, h1, h2⟩
    · exact Or.inl h1
    · exact Or.inr ⟨l, h1, h, h2⟩

theorem State.size {m : Map τ ν} {d : Dict} (h : State TS NS U m d) : m.size = d.length := by
  rcases h with ⟨rfl, hsb, rfl⟩ | ⟨h, rfl⟩ | h
  · rfl
  · exact h.size
  · exact h.size

theorem State.numCodes_le {m : Map τ ν} {d : Dict} (h : State TS NS U m d) {A : List UInt8}
    (hA : ∀ c, Coded m c → c ∈ A) : m.numCodes ≤ A.length + 1 := by
  have hgen : ∀ m : Map τ ν, m.isReady = true → CodeInv m.codes m.numCodes → (∀ c, Coded m c → c ∈ A) → m.numCodes ≤ A.length + 1 := by
    intro m hr hc hA
    rw [← hc.count]
    have := cnt_mem_le (0 :: A) 256 (Nat.le_refl _)
    rw [List.length_cons] at this
    refine Nat.le_trans (cnt_mono ?_) this
    intro i hi hcd
    simp only [decide_eq_true_eq, List.mem_cons] at hcd ⊢
    by_cases h0 : UInt8.ofNat i = 0
    · exact Or.inl h0
    · exact Or.inr (hA _ ⟨hr, hcd, h0⟩)
  rcases h with ⟨rfl, hsb, rfl⟩ | ⟨h, rfl⟩ | h
  · show 0 ≤ _; omega
  · exact hgen m h.ready h.codes hA
  · exact hgen m h.inv.ready h.inv.codes hA

/-- the operation needs one byte code more than there are -/
def Exhausts (m : Map τ ν) (d : Dict) (o : Op) : Prop :=
  ∃ k c, o.inserts = some k ∧ c ≠ 0 ∧ BranchesAt d k c ∧ ¬ Coded m c ∧ m.numCodes = 254

/-- what a user operation guarantees -/
structure ExecOk (TS : TrieSpec cfg.T sb N z0) (NS : NlmSpec cfg.L cfg.T.kind vs) (U : List UInt8 → Prop)
    (m : Map τ ν) (d : Dict) (o : Op) (m' : Map τ ν) (x : Out) : Prop where
  capa : CapaTo TS m m'
  coded : ∀ c, Coded m' c ↔ Coded m c ∨ (c ≠ 0 ∧ ∃ k, o.inserts = some k ∧ BranchesAt d k c)
  stab : NS.stable → Live TS NS U m d → PStab TS NS U m m'
  nost : (∀ k, o.inserts = some k → k.length ≤ 2 ^ (sb - 8)) → (d ≠ [] → NoStep TS NS m.trie m.nlm) →
    (o.inserts = none ∧ m' = m) ∨ NoStep TS NS m'.trie m'.nlm
  res : (¬ Exhausts m d o ∧ x = (step vs d o).2 ∧ State TS NS U m' (step vs d o).1 ∧ (m.numCodes < 255 → m'.numCodes < 255)) ∨
    (Exhausts m d o ∧ x = .exn ∧ State TS NS U m' d ∧ m.numCodes = 254 ∧ m'.numCodes = 255)

theorem ExecOk.same {m : Map τ ν} {d : Dict} {o : Op} {x : Out} (h : State TS NS U m d) (h0 : o.inserts = none)
    (h1 : x = (step vs d o).2) (h2 : (step vs d o).1 = d) : ExecOk TS NS U m d o m x :=
  ⟨.refl TS _, fun _ => ⟨Or.inl, fun hc => hc.elim id (fun ⟨_, _, hk, _⟩ => by rw [h0] at hk; cases hk)⟩,
    fun _ _ _ _ _ h => h, fun _ _ => Or.inl ⟨h0, rfl⟩, Or.inl ⟨fun ⟨_, _, hk, _⟩ => (by rw [h0] at hk; cases hk), h1, by rw [h2]; exact h, fun h => h⟩⟩

/-- a user operation does what the specification says, unless the byte codes are exhausted -/
theorem exec_ok {m : Map τ ν} {d : Dict} (hUn : KeySet vs U) (h : State TS NS U m d) (hempty : cfg.T.size cfg.T.empty = 0)
    (hmin : NS.minb ≤ TS.minb) (hmin64 : TS.minb + 13 < 64) {o : Op} (ho : o.Legal vs U)
    (hz : z0 ∨ ∀ k, o.inserts = some k → k.head? ≠ some 0 ∨ d = [] ∨ ∃ l, firstKey d = some (0 :: l))
    (hcode : ∀ k, o.inserts = some k → m.numCodes < 255 ∨ ∀ c, c ≠ 0 → BranchesAt d k c → Coded m c) :
    Post (N ≤ nodesFor (2 ^ (sb - 8)) (o.inserts.toList ++ d.map (·.1))) (exec cfg m o) (fun x => ExecOk TS NS U m d o x.1 x.2) := by
  have hkeyAt : ∀ k, o.key? = some k → ¬ Malformed k → U k := by
    intro k hk hm
    exact (ho.1 k hk).resolve_right hm
  have hupd : ∀ k, o.inserts = some k →
      Post (N ≤ nodesFor (2 ^ (sb - 8)) (o.inserts.toList ++ d.map (·.1))) (update cfg m k) (fun x => UpdateOk TS NS U m d k x.1 x.2) := by
    intro k hk
    obtain ⟨k1, k2, k3⟩ := Spec.inserts_key hk
    rw [hk]
    exact State.upd hUn h hempty hmin hmin64 (hkeyAt k k1 k3) (hz.imp id (fun hz => hz k hk)) (hcode k hk)
  have hcd : ∀ k m' r, o.inserts = some k → UpdateOk TS NS U m d k m' r →
      ∀ c, Coded m' c ↔ Coded m c ∨ (c ≠ 0 ∧ ∃ k, o.inserts = some k ∧ BranchesAt d k c) := by
    intro k m' r hk hU c
    rw [hU.coded c, hk]
    simp
  have hex : ∀ k m' r, o.inserts = some k → UpdateOk TS NS U m d k m' r → (r = .exn ↔ Exhausts m d o) := by
    intro k m' r hk hU
    rw [hU.exn, Exhausts, hk]
    simp only [Option.some.injEq]
    constructor
    · rintro ⟨c, hc⟩; exact ⟨k, c, rfl, hc⟩
    · rintro ⟨k', c, rfl, hc⟩; exact ⟨c, hc⟩
  have hexn : ∀ k m', o.inserts = some k → UpdateOk TS NS U m d k m' .exn →
      Live TS NS U m' d → m.numCodes = 254 → m'.numCodes = 255 →
      ExecOk TS NS U m d o m' .exn := by
    intro k m' hk hU h1 h3 h4
    exact ⟨hU.capa, hcd k m' _ hk hU, hU.stab, fun h1 h2 => Or.inr (hU.nost (h1 k hk) h2),
      Or.inr ⟨(hex k m' _ hk hU).1 rfl, rfl, Or.inr (Or.inr h1), h3, h4⟩⟩
  cases o with
  | size =>
    simp only [exec]
    exact .same h rfl (by rw [h.size]; rfl) rfl
  | find k =>
    simp only [exec]
    by_cases hm : Malformed k
    · have hb := (badKey_iff k).2 hm
      have : Map.find cfg m k = .error .throw := by unfold Map.find; rw [if_pos hb]
      rw [this]
      exact .same h rfl (by simp only [step, if_pos hm]) (by simp only [step, if_pos hm])
    · have hk := hkeyAt k rfl hm
      rcases State.find hUn h hk with ⟨h1, h2⟩ | ⟨l, h1, h2, h3⟩
      · rw [h2]
        exact .same h rfl (by simp only [step, if_neg hm, h1]) (by simp only [step, if_neg hm])
      · obtain ⟨v, v1, v2, _⟩ := h2.load hk h3
        rw [h1]
        simp only [v2, R.bind_ok, R.pure_eq]
        exact .same h rfl (by simp only [step, if_neg hm, v1]) (by simp only [step, if_neg hm])
  | update k =>
    simp only [exec]
    by_cases hm : Malformed k
    · have hb := (badKey_iff k).2 hm
      have : update cfg m k = .ok (m, .exn) := by unfold update; rw [if_pos hb]; rfl
      rw [this]
      exact .same h (by simp [Op.inserts, hm]) (by simp only [step, if_pos hm]) (by simp only [step, if_pos hm])
    · have hk := hkeyAt k rfl hm
      have hin : (Op.update k).inserts = some k := by simp [Op.inserts, hm]
      refine Post.bind (hupd k hin) ?_
      rintro ⟨m', r⟩ _ hU
      simp only at hU
      rcases hU.res with ⟨l, h1, h2, h3⟩ | ⟨h1, h2, h3, h4, h5⟩
      · subst h1
        obtain ⟨v, v1, v2, _⟩ := h2.load hk h3
        simp only [v2, R.bind_ok, R.pure_eq]
        refine ⟨hU.capa, hcd k m' _ hin hU, hU.stab, fun h1 h2 => Or.inr (hU.nost (h1 k hin) h2), Or.inl ⟨fun he => ?_, ?_⟩⟩
        · cases (hex k m' _ hin hU).2 he
        simp only [step, if_neg hm]
        simp only [afterUpdate] at h2 v1
        cases hg : d.get k with
        | some w =>
          rw [hg] at h2 v1
          simp only at h2 v1
          rw [hg] at v1; injection v1 with v1
          exact ⟨by rw [v1], Or.inr (Or.inr h2), hU.num l rfl⟩
        | none =>
          rw [hg] at h2 v1
          simp only [Dict.get_set, if_true] at h2 v1
          injection v1 with v1
          exact ⟨by rw [v1], Or.inr (Or.inr h2), hU.num l rfl⟩
      · subst h1
        exact hexn k m' hin hU h2 h4 h5
  | write k w =>
    simp only [exec]
    by_cases hm : Malformed k
    · have hb := (badKey_iff k).2 hm
      have : update cfg m k = .ok (m, .exn) := by unfold update; rw [if_pos hb]; rfl
      rw [this]
      exact .same h (by simp [Op.inserts, hm]) (by simp only [step, if_pos hm]) (by simp only [step, if_pos hm])
    · have hk := hkeyAt k rfl hm
      have hin : (Op.write k w).inserts = some k := by simp [Op.inserts, hm]
      refine Post.bind (hupd k hin) ?_
      rintro ⟨m', r⟩ _ hU
      simp only at hU
      rcases hU.res with ⟨l, h1, h2, h3⟩ | ⟨h1, h2, h3, h4, h5⟩
      · subst h1
        obtain ⟨n', s1, s2, s3, s4, _⟩ := h2.store hk h3 (ho.2 k w rfl)
        simp only [s1, R.bind_ok, R.pure_eq]
        refine ⟨hU.capa, hcd k m' _ hin hU, fun hs hL l k hk hp => s3 l k hk (hU.stab hs hL l k hk hp), fun h1 h2 => Or.inr (s4 (hU.nost (h1 k hin) h2)), Or.inl ⟨fun he => ?_, ?_⟩⟩
        · cases (hex k m' _ hin hU).2 he
        simp only [step, if_neg hm]
        refine ⟨trivial, Or.inr (Or.inr ?_), hU.num l rfl⟩
        have : (afterUpdate vs d k).set k w = d.set k w := by
          rw [afterUpdate]
          cases hg : d.get k with
          | some x => rfl
          | none => exact Dict.set_set _ _ _ _
        rw [← this]; exact s2
      · subst h1
        exact hexn k m' hin hU h2 h4 h5

end Map
end Poplar
