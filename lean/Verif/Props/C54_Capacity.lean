import Verif.Props.C53_Lambda
import Verif.Proof.Room
import Verif.Spec.Capacity
/-
  C54: the capacity, exactly. It depends on nothing but the number of nodes (so, by C53, the keys, the order in which they were inserted first,
  and `lambda`), the capacity asked for, and `MaxFactor`.
-/
namespace Poplar.Props
open Poplar Poplar.Spec

variable {a : Alias} {p : Params} {i : Init} {K : Key → Prop} {os : List Op} {m0 m : Map a.Trie a.Nlm} {xs : List Out}

private theorem initial_pos (i : Init) : 2 ^ 16 ≤ initialCapa i := by
  cases i with
  | default => exact Nat.le_refl _
  | make cb lam => exact Nat.pow_le_pow_right (by decide) (Nat.le_max_left _ _)

private theorem load_mono {mf c0 j k : Nat} (h : j ≤ k) : load mf c0 j ≤ load mf c0 k :=
  Nat.div_le_div_right (Nat.mul_le_mul_left _ (Nat.mul_le_mul_left _ (Nat.pow_le_pow_right (by decide) h)))

private theorem load_lt {mf c0 j k : Nat} (hm : 0 < mf) (hc : 2 ^ 16 ≤ c0) (h : j < k) : load mf c0 j < load mf c0 k := by
  refine Nat.lt_of_lt_of_le ?_ (load_mono (Nat.succ_le_of_lt h))
  have h1 : 2 ^ 16 * 1 ≤ c0 * 2 ^ j := Nat.mul_le_mul hc (Nat.two_pow_pos j)
  have h2 : 1 * (2 ^ 16 * 1) ≤ mf * (c0 * 2 ^ j) := Nat.mul_le_mul hm h1
  have h3 : mf * (c0 * 2 ^ (j + 1)) = 2 * (mf * (c0 * 2 ^ j)) := by rw [Nat.pow_succ, ← Nat.mul_assoc c0, Nat.mul_comm _ 2, Nat.mul_left_comm]
  simp only [load, Nat.succ_eq_add_one, h3]
  omega

/-- every smaller capacity was full -/
private theorem below_full (h : a.Admissible p i K os) (hs : Supported p.valSize os) (h0 : a.new p i = .ok m0)
    (h1 : Map.run (a.cfg p) m0 os = .ok (m, xs)) (hr : m.isReady = true) :
    ∀ j < Map.numResize (a.cfg p) m, load p.maxFactor (initialCapa i) j ≤ (a.cfg p).T.size m.trie := by
  intro j hj
  have e1 := C42_num_resize h hs h0 h1 hr
  have hp := initial_pos i
  obtain ⟨r, hn⟩ : ∃ r, Map.numResize (a.cfg p) m = r + 1 := ⟨_, (Nat.sub_add_cancel (by omega)).symm⟩
  rw [hn, Nat.pow_succ, ← Nat.mul_assoc] at e1
  have hq : initialCapa i ≤ initialCapa i * 2 ^ r := Nat.le_mul_of_pos_right _ (Nat.two_pow_pos _)
  refine Nat.le_trans (load_mono (show j ≤ r by omega)) ?_
  rcases C17_capacity_needed h hs h0 h1 hr with e | ⟨c, c1, c2, c3⟩
  · omega
  · have hc : c = initialCapa i * 2 ^ r := by omega
    subst hc
    exact c3

/-- **C54** How often a Bonsai map has doubled its table, exactly: as often as is needed to have fewer nodes than `MaxFactor` per cent of the slots. -/
theorem C54_doublings_bonsai (hk : (a.cfg p).T.kind = .bonsai) (h : a.Admissible p i K os) (hs : Supported p.valSize os) (h0 : a.new p i = .ok m0)
    (h1 : Map.run (a.cfg p) m0 os = .ok (m, xs)) (hr : m.isReady = true) :
    DoublingsBelow p.maxFactor (initialCapa i) ((a.cfg p).T.size m.trie) (Map.numResize (a.cfg p) m) := by
  refine ⟨?_, fun j hj => Nat.not_lt_of_le (below_full h hs h0 h1 hr j hj)⟩
  have e1 := C42_num_resize h hs h0 h1 hr
  obtain ⟨s, zs, hs⟩ := hs
  obtain ⟨hsb, r1, _⟩ := Alias.reach h hs h0 h1
  have := Alias.state_room h.params hsb hk r1 hr
  show _ < p.maxFactor * (initialCapa i * 2 ^ Map.numResize (a.cfg p) m) / 100
  rw [← e1, Nat.mul_comm p.maxFactor]
  exact this

/-- **C54** How often an fkhash map has doubled its table: as often as is needed to have at most, or fewer than, `MaxFactor` per cent of the slots
as nodes. (The two differ only if the nodes are exactly `MaxFactor` per cent of the initial capacity or of one of its doubles. The table
is then doubled by the next call that adds a node, or only looks for one on its way to add one: overwriting a value may double the table.) -/
theorem C54_doublings_fkhash (h : a.Admissible p i K os) (hs : Supported p.valSize os) (h0 : a.new p i = .ok m0)
    (h1 : Map.run (a.cfg p) m0 os = .ok (m, xs)) (hr : m.isReady = true) :
    DoublingsUpTo p.maxFactor (initialCapa i) ((a.cfg p).T.size m.trie) (Map.numResize (a.cfg p) m) ∨
    DoublingsBelow p.maxFactor (initialCapa i) ((a.cfg p).T.size m.trie) (Map.numResize (a.cfg p) m) := by
  have hb := below_full h hs h0 h1 hr
  have e1 := C42_num_resize h hs h0 h1 hr
  have hp := initial_pos i
  have hle : (a.cfg p).T.size m.trie ≤ load p.maxFactor (initialCapa i) (Map.numResize (a.cfg p) m) := by
    obtain ⟨b, _, _, _, b4⟩ := C17_capacity h hs h0 h1 hr
    unfold load; rw [← e1]; omega
  generalize hR : Map.numResize (a.cfg p) m = R at *
  generalize (a.cfg p).T.size m.trie = n at *
  by_cases hq : ∃ j, j < R ∧ n = load p.maxFactor (initialCapa i) j
  · obtain ⟨j, hj, hn⟩ := hq
    refine Or.inr ⟨?_, fun k hk => Nat.not_lt_of_le (hb k hk)⟩
    rw [hn]; exact load_lt p.factor_ok.1 hp hj
  · refine Or.inl ⟨hle, fun k hk hle => ?_⟩
    have := hb k hk
    exact hq ⟨k, hk, by omega⟩

/-- **C54** `capa_size()` of a Bonsai map, exactly, as a function of the keys, their order, `lambda`, the initial capacity and `MaxFactor`. -/
theorem C54_capacity_bonsai (hk : (a.cfg p).T.kind = .bonsai) (h : a.Admissible p i K os) (hA : SmallAlphabet os) (h0 : a.new p i = .ok m0)
    (h1 : Map.run (a.cfg p) m0 os = .ok (m, xs)) (hr : m.isReady = true) :
    ∃ r, DoublingsBelow p.maxFactor (initialCapa i) (nodeCount i.lambda (keysInOrder os)) r ∧
      Map.numResize (a.cfg p) m = r ∧ Map.capaSize (a.cfg p) m = initialCapa i * 2 ^ r := by
  obtain ⟨bs, f⟩ := hA.run (vs := p.valSize)
  exact ⟨_, C53_node_count h hA h0 h1 ▸ C54_doublings_bonsai hk h ⟨_, _, f⟩ h0 h1 hr, rfl, C42_num_resize h ⟨_, _, f⟩ h0 h1 hr⟩

/-- **C54** `capa_size()` of an fkhash map, up to the case of nodes that are exactly `MaxFactor` per cent of the slots. -/
theorem C54_capacity_fkhash (h : a.Admissible p i K os) (hA : SmallAlphabet os) (h0 : a.new p i = .ok m0)
    (h1 : Map.run (a.cfg p) m0 os = .ok (m, xs)) (hr : m.isReady = true) :
    ∃ r, (DoublingsUpTo p.maxFactor (initialCapa i) (nodeCount i.lambda (keysInOrder os)) r ∨
        DoublingsBelow p.maxFactor (initialCapa i) (nodeCount i.lambda (keysInOrder os)) r) ∧
      Map.numResize (a.cfg p) m = r ∧ Map.capaSize (a.cfg p) m = initialCapa i * 2 ^ r := by
  obtain ⟨bs, f⟩ := hA.run (vs := p.valSize)
  exact ⟨_, C53_node_count h hA h0 h1 ▸ C54_doublings_fkhash h ⟨_, _, f⟩ h0 h1 hr, rfl, C42_num_resize h ⟨_, _, f⟩ h0 h1 hr⟩

variable {K1 K2 : Key → Prop} {a1 a2 : Alias} {p1 p2 : Params} {i1 i2 : Init} {os1 os2 : List Op} {m1 n1 : Map a1.Trie a1.Nlm} {xs1 : List Out}
  {m2 n2 : Map a2.Trie a2.Nlm} {xs2 : List Out}

/-- **C54** Two maps of any types with the same keys, first inserted in the same order, the same `lambda`, `MaxFactor` and initial capacity have the same
capacity, unless one of them is an fkhash map and the nodes are exactly `MaxFactor` per cent of the initial capacity or one of its doubles. -/
theorem C54_same_capacity (h1 : a1.Admissible p1 i1 K1 os1) (h2 : a2.Admissible p2 i2 K2 os2) (hA1 : SmallAlphabet os1) (hA2 : SmallAlphabet os2)
    (hk : keysInOrder os1 = keysInOrder os2) (hl : i1.lambda = i2.lambda) (hc : initialCapa i1 = initialCapa i2) (hm : p1.maxFactor = p2.maxFactor)
    (hx : (a1.cfg p1).T.kind = .bonsai ∧ (a2.cfg p2).T.kind = .bonsai ∨
      ∀ j, nodeCount i1.lambda (keysInOrder os1) ≠ load p1.maxFactor (initialCapa i1) j)
    (e1 : a1.new p1 i1 = .ok m1) (g1 : Map.run (a1.cfg p1) m1 os1 = .ok (n1, xs1))
    (e2 : a2.new p2 i2 = .ok m2) (g2 : Map.run (a2.cfg p2) m2 os2 = .ok (n2, xs2)) (r1 : n1.isReady = true) (r2 : n2.isReady = true) :
    Map.capaSize (a1.cfg p1) n1 = Map.capaSize (a2.cfg p2) n2 ∧ Map.numResize (a1.cfg p1) n1 = Map.numResize (a2.cfg p2) n2 := by
  have key : ∃ r s, DoublingsBelow p1.maxFactor (initialCapa i1) (nodeCount i1.lambda (keysInOrder os1)) r ∧
      DoublingsBelow p1.maxFactor (initialCapa i1) (nodeCount i1.lambda (keysInOrder os1)) s ∧
      Map.numResize (a1.cfg p1) n1 = r ∧ Map.capaSize (a1.cfg p1) n1 = initialCapa i1 * 2 ^ r ∧
      Map.numResize (a2.cfg p2) n2 = s ∧ Map.capaSize (a2.cfg p2) n2 = initialCapa i1 * 2 ^ s := by
    rcases hx with ⟨x1, x2⟩ | hx
    · obtain ⟨r, c1, c2, c3⟩ := C54_capacity_bonsai x1 h1 hA1 e1 g1 r1
      obtain ⟨s, d1, d2, d3⟩ := C54_capacity_bonsai x2 h2 hA2 e2 g2 r2
      rw [← hk, ← hl, ← hc, ← hm] at d1
      rw [← hc] at d3
      exact ⟨r, s, c1, d1, c2, c3, d2, d3⟩
    · obtain ⟨r, c1, c2, c3⟩ := C54_capacity_fkhash h1 hA1 e1 g1 r1
      obtain ⟨s, d1, d2, d3⟩ := C54_capacity_fkhash h2 hA2 e2 g2 r2
      rw [← hk, ← hl, ← hc, ← hm] at d1
      rw [← hc] at d3
      have conv : ∀ {r}, DoublingsUpTo p1.maxFactor (initialCapa i1) (nodeCount i1.lambda (keysInOrder os1)) r →
          DoublingsBelow p1.maxFactor (initialCapa i1) (nodeCount i1.lambda (keysInOrder os1)) r := fun {r} hd =>
        ⟨Nat.lt_of_le_of_ne hd.1 (hx r), fun j hj hlt => hd.2 j hj (Nat.le_of_lt hlt)⟩
      exact ⟨r, s, c1.elim conv id, d1.elim conv id, c2, c3, d2, d3⟩
  obtain ⟨r, s, k1, k2, k3, k4, k5, k6⟩ := key
  have := k1.unique k2
  subst this
  exact ⟨by rw [k4, k6], by rw [k3, k5]⟩

/-- **C54** A Bonsai map with a larger `lambda` never needs a larger capacity than one with the same keys, inserted in the same order. -/
theorem C54_larger_lambda (b1 : (a1.cfg p1).T.kind = .bonsai) (b2 : (a2.cfg p2).T.kind = .bonsai)
    (h1 : a1.Admissible p1 i1 K1 os1) (h2 : a2.Admissible p2 i2 K2 os2) (hA1 : SmallAlphabet os1) (hA2 : SmallAlphabet os2)
    (hk : keysInOrder os1 = keysInOrder os2) (hl : i1.lambda ≤ i2.lambda) (hc : initialCapa i1 = initialCapa i2) (hm : p1.maxFactor = p2.maxFactor)
    (e1 : a1.new p1 i1 = .ok m1) (g1 : Map.run (a1.cfg p1) m1 os1 = .ok (n1, xs1))
    (e2 : a2.new p2 i2 = .ok m2) (g2 : Map.run (a2.cfg p2) m2 os2 = .ok (n2, xs2)) (r1 : n1.isReady = true) (r2 : n2.isReady = true) :
    Map.capaSize (a2.cfg p2) n2 ≤ Map.capaSize (a1.cfg p1) n1 := by
  obtain ⟨bs, f1⟩ := hA1.run (vs := p1.valSize)
  obtain ⟨bs, f2⟩ := hA2.run (vs := p2.valSize)
  have c := C54_doublings_bonsai b1 h1 ⟨_, _, f1⟩ e1 g1 r1
  have d := C54_doublings_bonsai b2 h2 ⟨_, _, f2⟩ e2 g2 r2
  have hn := (C53_larger_lambda h1 h2 hA1 hA2 hk hl e1 g1 e2 g2).1
  rw [C42_num_resize h1 ⟨_, _, f1⟩ e1 g1 r1, C42_num_resize h2 ⟨_, _, f2⟩ e2 g2 r2, ← hc]
  rw [← hc, ← hm] at d
  refine Nat.mul_le_mul_left _ (Nat.pow_le_pow_right (by decide) (Nat.le_of_not_lt fun hlt => ?_))
  exact d.2 _ hlt (Nat.lt_of_le_of_lt hn c.1)

/-- the capacity of 58982 to 117963 nodes, at a load of 90 per cent, is `2^17` -/
example : DoublingsBelow 90 (2 ^ 16) 58982 1 ∧ DoublingsBelow 90 (2 ^ 16) 117963 1 ∧ DoublingsBelow 90 (2 ^ 16) 58981 0 ∧
    DoublingsUpTo 90 (2 ^ 16) 58982 0 := by
  have l0 : load 90 (2 ^ 16) 0 = 58982 := by decide
  have l1 : load 90 (2 ^ 16) 1 = 117964 := by decide
  have hj : ∀ j, j < 1 → j = 0 := fun j h => by omega
  have lt0 : 58981 < load 90 (2 ^ 16) 0 := by rw [l0]; decide
  have le0 : 58982 ≤ load 90 (2 ^ 16) 0 := Nat.le_of_eq l0.symm
  have lt1 : 117963 < load 90 (2 ^ 16) 1 := by rw [l1]; decide
  refine ⟨⟨Nat.lt_trans (by decide) lt1, fun j h => ?_⟩, ⟨lt1, fun j h => ?_⟩, ⟨lt0, fun j h => absurd h (Nat.not_lt_zero j)⟩,
    ⟨le0, fun j h => absurd h (Nat.not_lt_zero j)⟩⟩
  · rw [hj j h]; show ¬ 58982 < load 90 (2 ^ 16) 0
    rw [l0]; decide
  · rw [hj j h]; show ¬ 117963 < load 90 (2 ^ 16) 0
    rw [l0]; decide

/-- the hypotheses are met: two types of maps with the same keys, and the nodes are no load of `MaxFactor` per cent -/
example (a1 a2 : Alias) : ∃ m1 n1 xs1 m2 n2 xs2, a1.Admissible demoParams .default (CStrings 4) demo ∧
    a2.Admissible demoParams .default (CStrings 4) demo ∧ SmallAlphabet demo ∧
    a1.new demoParams .default = .ok m1 ∧ Map.run (a1.cfg demoParams) m1 demo = .ok (n1, xs1) ∧
    a2.new demoParams .default = .ok m2 ∧ Map.run (a2.cfg demoParams) m2 demo = .ok (n2, xs2) ∧ n1.isReady = true ∧ n2.isReady = true ∧
    (∀ j, nodeCount (Init.lambda .default) (keysInOrder demo) ≠ load demoParams.maxFactor (initialCapa .default) j) ∧
    Map.capaSize (a1.cfg demoParams) n1 = Map.capaSize (a2.cfg demoParams) n2 := by
  have hA : SmallAlphabet demo := small_of [97, 98, 99, 120] (by decide) (by decide)
  obtain ⟨bs, hb⟩ := hA.run (vs := 4)
  have run (a : Alias) : a.Admissible demoParams .default (CStrings 4) demo ∧ ∃ m n xs, a.new demoParams .default = .ok m ∧
      Map.run (a.cfg demoParams) m demo = .ok (n, xs) ∧ n.isReady = true := by
    have h := demo_admissible a .default trivial demo (by decide) (by decide)
    obtain ⟨hsb, m0, e1, e2⟩ := Alias.after h hb
    obtain ⟨⟨m1, xs⟩, e3, _, e5, _⟩ := e2.get (within a (by decide))
    exact ⟨h, m0, m1, xs, e1, e3, (e5.live (show (Spec.run 4 [] demo).1 ≠ [] by decide)).inv.ready⟩
  obtain ⟨h1, m1, n1, xs1, e1, g1, r1⟩ := run a1
  obtain ⟨h2, m2, n2, xs2, e2, g2, r2⟩ := run a2
  have hx : ∀ j, nodeCount (Init.lambda .default) (keysInOrder demo) ≠ load demoParams.maxFactor (initialCapa .default) j := by
    intro j
    have c1 : load demoParams.maxFactor (initialCapa .default) 0 = 58982 := by decide
    have c2 : nodeCount (Init.lambda .default) (keysInOrder demo) < 58982 := by decide
    have := load_mono (mf := demoParams.maxFactor) (c0 := initialCapa .default) (Nat.zero_le j)
    omega
  exact ⟨m1, n1, xs1, m2, n2, xs2, h1, h2, hA, e1, g1, e2, g2, r1, r2, hx,
    (C54_same_capacity h1 h2 hA hA rfl rfl rfl rfl (Or.inr hx) e1 g1 e2 g2 r1 r2).1⟩

end Poplar.Props
