import Verif.Proof.Rebase
import Verif.Props.Demo
import Verif.Proof.Double
import Verif.Proof.Pointers
/-
  C15: value pointers of the plain maps are stable. C17: capacity.
-/
namespace Poplar.Props
open Poplar Poplar.Spec

variable {a : Alias} {p : Params} {i : Init} {K : Key → Prop} {os1 os2 : List Op} {k : Key}
  {m0 m1 m2 m3 : Map a.Trie a.Nlm} {xs ys : List Out} {l : Loc}

private theorem key_of (hl : (Op.update k).Legal p.valSize K) (hk : ¬ Malformed k) : K k :=
  (hl.1 k rfl).resolve_right hk

/-- **C15** A pointer `l` returned by `update(k)` or `find(k)` on a plain map after a history `os1` still
designates the value of `k` after any further history `os2`, refused insertions included: reading through it gives
the value of `k` in the dictionary, and writing through it is the same as writing to `k`. -/
theorem C15_pointers_stable_any (ha : a = .plainBonsai ∨ a = .plainFkhash)
    (h : a.Admissible p i K (os1 ++ .update k :: os2)) {s : AState} {zs : List Out}
    (hs : AState.run p.valSize {} (os1 ++ .update k :: os2) = some (s, zs)) (hk : ¬ Malformed k)
    (h0 : a.new p i = .ok m0) (h1 : Map.run (a.cfg p) m0 os1 = .ok (m1, xs))
    (h2 : Map.update (a.cfg p) m1 k = .ok (m2, .ptr l) ∨ (Map.find (a.cfg p) m1 k = .ok (some l) ∧ m2 = m1))
    (h3 : Map.run (a.cfg p) m2 os2 = .ok (m3, ys)) :
    (∃ v, s.dict.get k = some v ∧ Map.load (a.cfg p) m3 l = .ok v) ∧
    ∀ w, w.length = p.valSize → ∃ m4, Map.store (a.cfg p) m3 l w = .ok m4 ∧
      ∀ k', K k' → Map.exec (a.cfg p) m4 (.find k') =
        .ok (m4, .found ((s.dict.set k w).get k')) := by
  have hkey : K k := key_of (h.legal (.update k) (by simp)) hk
  have hst : (a.nlmSpec p h.params).stable := by
    rcases ha with rfl | rfl <;> exact trivial
  obtain ⟨s1, xs1, xs2, f1, f2, _⟩ := AState.run_split hs
  obtain ⟨s2, x2, xs3, g1, g2, _⟩ := AState.run_cons f2
  obtain ⟨hsb, r1, r2, _, _⟩ := Alias.reach h.append_left f1 h0 h1
  have h' : a.Admissible p i K ((os1 ++ [.update k]) ++ os2) := by simpa using h
  have hsn : AState.run p.valSize {} (os1 ++ [.update k]) = some (s2, xs1 ++ [x2]) := AState.run_snoc f1 g1
  obtain ⟨q1, q2, q3⟩ := Alias.ptr_here h f1 g1 hk hsb r1 r2 h2
  obtain ⟨_, _, _, _, t⟩ := Alias.cont h' hsn g2 hsb (Or.inr (Or.inr q1)) q2 h3
  obtain ⟨t1, t2⟩ := t hst q1
  obtain ⟨u1, u2⟩ := Alias.ptr_use h.params hsb hkey t2 (t1 l k hkey q3)
  refine ⟨u1, ?_⟩
  intro w hw
  obtain ⟨m4, e1, e2⟩ := u2 w hw
  exact ⟨m4, e1, e2⟩

/-- **C15** The same for keys over at most 253 byte values, where the contents of the dictionary are just the values
last written. -/
theorem C15_pointers_stable (ha : a = .plainBonsai ∨ a = .plainFkhash)
    (h : a.Admissible p i K (os1 ++ .update k :: os2)) (hA : SmallAlphabet (os1 ++ .update k :: os2)) (hk : ¬ Malformed k)
    (h0 : a.new p i = .ok m0) (h1 : Map.run (a.cfg p) m0 os1 = .ok (m1, xs))
    (h2 : Map.update (a.cfg p) m1 k = .ok (m2, .ptr l) ∨ (Map.find (a.cfg p) m1 k = .ok (some l) ∧ m2 = m1))
    (h3 : Map.run (a.cfg p) m2 os2 = .ok (m3, ys)) :
    (∃ v, lastValue p.valSize k (os1 ++ .update k :: os2).reverse = some v ∧ Map.load (a.cfg p) m3 l = .ok v) ∧
    ∀ w, w.length = p.valSize → ∃ m4, Map.store (a.cfg p) m3 l w = .ok m4 ∧
      ∀ k', K k' → Map.exec (a.cfg p) m4 (.find k') =
        .ok (m4, .found (lastValue p.valSize k' ((os1 ++ Op.update k :: os2) ++ [Op.write k w]).reverse)) := by
  obtain ⟨bs, hb⟩ := hA.run (vs := p.valSize)
  obtain ⟨u1, u2⟩ := C15_pointers_stable_any ha h hb hk h0 h1 h2 h3
  constructor
  · obtain ⟨v, v1, v2⟩ := u1
    exact ⟨v, by rw [← Spec.get_run]; exact v1, v2⟩
  · intro w hw
    obtain ⟨m4, e1, e2⟩ := u2 w hw
    refine ⟨m4, e1, ?_⟩
    intro k' hk'
    rw [e2 k' hk', ← Spec.get_run, Spec.run_append p.valSize [] (os1 ++ Op.update k :: os2) [Op.write k w]]
    simp only [Spec.run, step, hk, if_false]

/-- the situation of C15 arises: within the limits all the calls succeed -/
theorem C15_hypotheses_met {a : Alias}
    (h : a.Admissible p i K (os1 ++ .update k :: os2)) (hA : SmallAlphabet (os1 ++ .update k :: os2)) (hk : ¬ Malformed k)
    (hl : ¬ a.AtLimit p i (os1 ++ .update k :: os2)) :
    ∃ m0 m1 xs m2 l m3 ys, a.new p i = .ok m0 ∧ Map.run (a.cfg p) m0 os1 = .ok (m1, xs) ∧
      Map.update (a.cfg p) m1 k = .ok (m2, .ptr l) ∧ Map.run (a.cfg p) m2 os2 = .ok (m3, ys) := by
  obtain ⟨bs, hb⟩ := hA.run (vs := p.valSize)
  obtain ⟨hsb, m0, e1, e2⟩ := Alias.after h hb
  obtain ⟨⟨m, zs⟩, e3, e4, _⟩ := e2.get hl
  rw [Map.run_append] at e3
  cases hr : Map.run (a.cfg p) m0 os1 with
  | error e => rw [hr] at e3; cases e3
  | ok y =>
    obtain ⟨m1, xs⟩ := y
    rw [hr] at e3
    simp only [R.bind_ok, Map.run, Map.exec] at e3
    cases hu : Map.update (a.cfg p) m1 k with
    | error e => rw [hu] at e3; cases e3
    | ok y =>
      obtain ⟨m2, r⟩ := y
      have hlen : xs.length = (Spec.run p.valSize [] os1).2.length := by
        obtain ⟨bs', hb'⟩ := hA.left.run (vs := p.valSize)
        obtain ⟨_, m', h1', h2'⟩ := Alias.after h.append_left hb'
        rw [e1] at h1'; injection h1' with h1'; subst h1'
        rw [hr] at h2'
        exact congrArg List.length h2'.1
      have hspec : ∀ x y : List Out, zs = xs ++ x → y = x → x.head? = ((Spec.run p.valSize (Spec.run p.valSize [] os1).1 (.update k :: os2)).2).head? := by
        intro x y hx hy
        rw [Spec.run_append] at e4
        simp only at e4
        rw [hx] at e4
        rw [List.append_inj_right e4 hlen]
      have hne : ((Spec.run p.valSize (Spec.run p.valSize [] os1).1 (.update k :: os2)).2).head? ≠ some .exn ∧
          ((Spec.run p.valSize (Spec.run p.valSize [] os1).1 (.update k :: os2)).2).head? ≠ some .null := by
        simp only [Spec.run, step, hk, if_false, List.head?_cons]
        cases Dict.get (Spec.run p.valSize [] os1).1 k <;> simp
      rw [hu] at e3
      simp only [R.bind_ok] at e3
      cases r with
      | null =>
        simp only [R.pure_eq, R.bind_ok] at e3
        cases h3 : Map.run (a.cfg p) m2 os2 with
        | error e => rw [h3] at e3; cases e3
        | ok w =>
          rw [h3] at e3
          simp only [R.bind_ok] at e3
          injection e3 with e3; injection e3 with _ e3
          have := hspec _ _ e3.symm rfl
          simp only [List.head?_cons] at this
          exact absurd this.symm hne.2
      | exn =>
        simp only [R.pure_eq, R.bind_ok] at e3
        cases h3 : Map.run (a.cfg p) m2 os2 with
        | error e => rw [h3] at e3; cases e3
        | ok w =>
          rw [h3] at e3
          simp only [R.bind_ok] at e3
          injection e3 with e3; injection e3 with _ e3
          have := hspec _ _ e3.symm rfl
          simp only [List.head?_cons] at this
          exact absurd this.symm hne.1
      | ptr l =>
        simp only at e3
        cases hld : Map.load (a.cfg p) m2 l with
        | error e => rw [hld] at e3; cases e3
        | ok v =>
          rw [hld] at e3
          simp only [R.pure_eq, R.bind_ok] at e3
          cases h3 : Map.run (a.cfg p) m2 os2 with
          | error e => rw [h3] at e3; cases e3
          | ok w => exact ⟨m0, m1, xs, m2, l, w.1, w.2, e1, hr, hu, h3⟩

example (a : Alias) := C15_hypotheses_met (os1 := demo) (os2 := demo) (k := [97, 98, 98, 0])
  (demo_admissible a .default trivial (demo ++ .update [97, 98, 98, 0] :: demo) (by decide) (by decide))
  (small_of [97, 98, 99, 120] (by decide) (by decide)) (by decide) (within a (by decide))

/-- **C17** Once constructed, `capa_size()` is a power of two, at least `2^16`, and the trie has at most `MaxFactor`
(in the aliases 90) per cent that many nodes (`nodes * 100 ≤ MaxFactor * capa`). -/
theorem C17_capacity (h : a.Admissible p i K os1) (hs : Supported p.valSize os1)
    (h0 : a.new p i = .ok m0) (h1 : Map.run (a.cfg p) m0 os1 = .ok (m1, xs)) (hr : m1.isReady = true) :
    ∃ b, 16 ≤ b ∧ b < 64 ∧ Map.capaSize (a.cfg p) m1 = 2 ^ b ∧
      (a.cfg p).T.size m1.trie * 100 ≤ p.maxFactor * Map.capaSize (a.cfg p) m1 := by
  obtain ⟨s, zs, hs⟩ := hs
  obtain ⟨hsb, r1, _⟩ := Alias.reach h hs h0 h1
  obtain ⟨b, b1, b2, b3, b4⟩ := Alias.capa_inv h.params hsb r1 hr
  refine ⟨b, b1, b2, b3, ?_⟩
  show _ ≤ p.maxFactor * (a.cfg p).T.capaSize m1.trie
  rw [b3]
  simp only [maxSize] at b4
  rw [Nat.mul_comm p.maxFactor]
  omega

/-- **C17** `capa_size()` never decreases. -/
theorem C17_capacity_monotone (h : a.Admissible p i K (os1 ++ os2)) (hs : Supported p.valSize (os1 ++ os2))
    (h0 : a.new p i = .ok m0) (h1 : Map.run (a.cfg p) m0 os1 = .ok (m1, xs))
    (h2 : Map.run (a.cfg p) m1 os2 = .ok (m2, ys)) (hr : m1.isReady = true) :
    Map.capaSize (a.cfg p) m1 ≤ Map.capaSize (a.cfg p) m2 := by
  obtain ⟨s, zs, hs⟩ := hs
  obtain ⟨s1, xs1, xs2, f1, f2, _⟩ := AState.run_split hs
  obtain ⟨hsb, r1, r2, _⟩ := Alias.reach h.append_left f1 h0 h1
  exact ((Alias.cont h f1 f2 hsb r1 r2 h2).2.2.2.1.1 hr).2.1

/-- the capacity requested by the user: `2^16`, or `2^capa_bits` if that is more -/
def initialCapa : Init → Nat
  | .default => 2 ^ 16
  | .make cb _ => 2 ^ max 16 cb

/-- **C17** The capacity grows only when needed: it is the initial one, or half of it was full, that is, the trie has
at least `MaxFactor` per cent (rounded down) of half of it as nodes. -/
theorem C17_capacity_needed (h : a.Admissible p i K os1) (hs : Supported p.valSize os1)
    (h0 : a.new p i = .ok m0) (h1 : Map.run (a.cfg p) m0 os1 = .ok (m1, xs)) (hr : m1.isReady = true) :
    Map.capaSize (a.cfg p) m1 = initialCapa i ∨ ∃ c, Map.capaSize (a.cfg p) m1 = 2 * c ∧ initialCapa i ≤ c ∧
      p.maxFactor * c / 100 ≤ (a.cfg p).T.size m1.trie := by
  obtain ⟨s, zs, hs⟩ := hs
  obtain ⟨hsb, r, q1, q2, q3⟩ := Alias.new_capa K h.params h.init h0
  have hcap := (Alias.cont (os := []) (os' := os1) h rfl hs hsb q1 q2 h1).2.2.2.1
  have key : (a.cfg p).T.Needed p.maxFactor (initialCapa i) m1.trie := by
    cases i with
    | default =>
      rcases hcap.2 q3 with e | ⟨_, e⟩
      · rw [hr] at e; cases e
      · rw [Alias.mf, Alias.minb] at e; exact e
    | make cb lam =>
      have e := (hcap.1 q3.1).2.2.2
      rw [Alias.mf, q3.2] at e; exact e
  rcases key with e | ⟨c, e1, e2, e3⟩
  · exact Or.inl e
  · exact Or.inr ⟨c, e1, e2, by rw [Nat.mul_comm]; exact e3⟩

/-- **C17** The trie never has more nodes than the keys stored need: one per key, and one more for every `lambda` bytes of a
key after its first. In particular an insertion that was refused does not count (its nodes are shared), and overwriting a value
costs nothing. So the size limit `Alias.nodeLimit` concerns the distinct keys inserted. -/
theorem C17_nodes_le (h : a.Admissible p i K os1) {s : AState} {ys : List Out} (hs : AState.run p.valSize {} os1 = some (s, ys))
    (h0 : a.new p i = .ok m0) (h1 : Map.run (a.cfg p) m0 os1 = .ok (m1, xs)) :
    (a.cfg p).T.size m1.trie ≤ nodesFor i.lambda (s.dict.map (·.1)) := by
  obtain ⟨hsb, _, _, r3, _⟩ := Alias.reach h hs h0 h1
  exact r3

/-- **C17** ... hence at most the number of key bytes inserted. -/
theorem C17_nodes_le_bytes (h : a.Admissible p i K os1) (hs : Supported p.valSize os1)
    (h0 : a.new p i = .ok m0) (h1 : Map.run (a.cfg p) m0 os1 = .ok (m1, xs)) :
    (a.cfg p).T.size m1.trie ≤ cost os1 := by
  obtain ⟨s, zs, hs⟩ := hs
  refine Nat.le_trans (C17_nodes_le h hs h0 h1) (Nat.le_trans (nodesFor_mono fun k hk => ?_) (nodesFor_le_cost i.lambda os1))
  simpa using AState.run_keys hs hk

/-- **C17** There are at least as many trie nodes as keys (so a map with `n` keys has a capacity of at least `n * 100 / 90`). -/
theorem C17_keys_le_nodes (h : a.Admissible p i K os1) (hs : Supported p.valSize os1)
    (h0 : a.new p i = .ok m0) (h1 : Map.run (a.cfg p) m0 os1 = .ok (m1, xs)) :
    m1.size ≤ (a.cfg p).T.size m1.trie := by
  obtain ⟨s, zs, hs⟩ := hs
  obtain ⟨hsb, r1, _, r3, _⟩ := Alias.reach h hs h0 h1
  rcases r1 with ⟨rfl, _, _⟩ | ⟨r1, _⟩ | r1
  · exact Nat.zero_le _
  · rw [r1.size]; exact Nat.zero_le _
  · have := r1.nodes; omega

/-- **C17** The counters of keys, step nodes and trie nodes (`uint64_t` in the code) are below 2^63, so that none of them ever overflows. -/
theorem C17_counters (h : a.Admissible p i K os1) (hs : Supported p.valSize os1)
    (h0 : a.new p i = .ok m0) (h1 : Map.run (a.cfg p) m0 os1 = .ok (m1, xs)) :
    m1.size + m1.numSteps = (a.cfg p).T.size m1.trie ∧ (a.cfg p).T.size m1.trie < 2 ^ 63 := by
  have hs' := hs
  obtain ⟨s, zs, hs⟩ := hs
  obtain ⟨hsb, r1, _, r3, _⟩ := Alias.reach h hs h0 h1
  have e : m1.size + m1.numSteps = (a.cfg p).T.size m1.trie := by
    rcases r1 with ⟨rfl, _, _⟩ | ⟨r1, rd⟩ | r1
    · cases a <;> rfl
    · rw [r1.size, r1.steps]
      rw [rd] at r3
      exact (Nat.le_zero.1 r3).symm
    · exact r1.nodes.symm
  refine ⟨e, ?_⟩
  cases hr : m1.isReady with
  | true =>
    obtain ⟨b, _, b2, b3, b4⟩ := C17_capacity h hs' h0 h1 hr
    have hp : 2 ^ b ≤ 2 ^ 63 := Nat.pow_le_pow_right (by decide) (by omega)
    have hm := p.factor_ok.2
    rw [b3] at b4
    have : p.maxFactor * 2 ^ b ≤ 99 * 2 ^ b := Nat.mul_le_mul_right _ (by omega)
    have : 0 < 2 ^ b := Nat.two_pow_pos b
    omega
  | false =>
    rcases r1 with ⟨rfl, _, _⟩ | ⟨r1, _⟩ | r1
    · rw [← e]; show 0 + 0 < _; decide
    · rw [r1.ready] at hr; cases hr
    · rw [r1.inv.ready] at hr; cases hr

/-- **C01/C07** The size limit is that of the *current* capacity: a map that has capacity `2^b` after some history, however
it got it, goes on giving the answers of a dictionary while the keys need fewer nodes than `nodeLimit` says for `2^b`
(for the compact maps: 80 % of `2^b`). -/
theorem C01_room (h : a.Admissible p i K (os1 ++ os2)) (hA : SmallAlphabet (os1 ++ os2))
    (h0 : a.new p i = .ok m0) (h1 : Map.run (a.cfg p) m0 os1 = .ok (m1, xs)) (hr : m1.isReady = true) {b : Nat}
    (hb : Map.capaSize (a.cfg p) m1 = 2 ^ b) (hl : nodesFor i.lambda (inserted (os1 ++ os2)) < a.nodeLimit p i.symbBits b) :
    ∃ m2, Map.run (a.cfg p) m1 os2 = .ok (m2, (Spec.run p.valSize (Spec.run p.valSize [] os1).1 os2).2) := by
  obtain ⟨bs, hs⟩ := hA.run (vs := p.valSize)
  obtain ⟨bs1, hs1⟩ := hA.left.run (vs := p.valSize)
  rw [AState.run_append, hs1] at hs
  simp only [Option.bind_some] at hs
  cases hs2 : AState.run p.valSize ⟨(Spec.run p.valSize [] os1).1, bs1⟩ os2 with
  | none => rw [hs2] at hs; cases hs
  | some y =>
    obtain ⟨s', ys'⟩ := y
    rw [hs2] at hs
    simp only [Spec.run_append, Option.map_some, Option.some.injEq, Prod.mk.injEq] at hs
    have hys := List.append_cancel_left hs.2
    obtain ⟨⟨m2, zs⟩, e1, e2⟩ := (Alias.cont_room h hs1 hs2 h0 h1 hr hb).get (Nat.not_le.2 hl)
    exact ⟨m2, by rw [e1, ← hys, ← e2]⟩

/-- the situation of C17 arises -/
example (a : Alias) : ∃ m0 m1 xs, a.new demoParams .default = .ok m0 ∧ Map.run (a.cfg demoParams) m0 demo = .ok (m1, xs) ∧
    Supported 4 demo ∧ m1.isReady = true := by
  have hA : SmallAlphabet demo := small_of [97, 98, 99, 120] (by decide) (by decide)
  obtain ⟨bs, hb⟩ := hA.run (vs := 4)
  have h := demo_admissible a .default trivial demo (by decide) (by decide)
  obtain ⟨hsb, m0, e1, e2⟩ := Alias.after h hb
  obtain ⟨⟨m1, xs⟩, e3, _, e5, _⟩ := e2.get (within a (by decide))
  exact ⟨m0, m1, xs, e1, e3, ⟨_, _, hb⟩, (e5.live (show (Spec.run 4 [] demo).1 ≠ [] by decide)).inv.ready⟩

/-- the hypotheses of `C01_room` are met: `demo` leaves a map with `2^16` slots, and there is room for `demo` again -/
example (a : Alias) : ∃ m0 m1 xs, a.new demoParams .default = .ok m0 ∧ Map.run (a.cfg demoParams) m0 demo = .ok (m1, xs) ∧
    m1.isReady = true ∧ Map.capaSize (a.cfg demoParams) m1 = 2 ^ 16 ∧
    nodesFor (Init.lambda .default) (inserted (demo ++ demo)) < a.nodeLimit demoParams (Init.symbBits .default) 16 := by
  have hA : SmallAlphabet demo := small_of [97, 98, 99, 120] (by decide) (by decide)
  obtain ⟨bs, hb⟩ := hA.run (vs := 4)
  have h := demo_admissible a .default trivial demo (by decide) (by decide)
  obtain ⟨hsb, m0, e1, e2⟩ := Alias.after h hb
  obtain ⟨⟨m1, xs⟩, e3, _, e5, _, e6⟩ := e2.get (within a (by decide))
  have hr := (e5.live (show (Spec.run 4 [] demo).1 ≠ [] by decide)).inv.ready
  have h6 : nodesFor 32 ((Spec.run 4 [] demo).1.map (·.1)) < 100 := by decide
  refine ⟨m0, m1, xs, e1, e3, hr, ?_, by cases a <;> decide⟩
  rcases C17_capacity_needed h ⟨_, _, hb⟩ e1 e3 hr with e | ⟨c, _, c2, c3⟩
  · exact e
  · have e6 : (a.cfg demoParams).T.size m1.trie ≤ nodesFor 32 ((Spec.run 4 [] demo).1.map (·.1)) := e6
    have : 2 ^ 16 ≤ c := c2
    have c3 : 90 * c / 100 ≤ _ := c3
    omega

/-- **C17** The floating-point computation of the 90 % (80 %) limit in the code, done in IEEE doubles with the product
reduced modulo `2^64`, is the exact floor used in the theorems, for all tables of up to `2^45` slots. -/
theorem C17_max_size_double {capa mf : Nat} (hc : capa ≤ 2 ^ 45) (hm : mf < 100) :
    maxSizeDouble capa mf = capa * mf / 100 := maxSizeDouble_eq hc hm

/-- **C17** The capacities are powers of two, and for these the computation is exact further on: up to `2^49` slots
for every load limit that the classes accept, and up to `2^52` slots for the 90 % of the aliases. (Both domains are finite; all their
members are evaluated.) -/
theorem C17_max_size_double_pow {k mf : Nat} (hk : k ≤ 49 ∧ mf < 100 ∨ k ≤ 52 ∧ mf = 90) :
    maxSizeDouble (2 ^ k) mf = 2 ^ k * mf / 100 := by
  have h1 : ∀ k < 50, ∀ mf < 100, maxSizeDouble (2 ^ k) mf = 2 ^ k * mf / 100 := by decide +kernel
  have h2 : ∀ k < 53, maxSizeDouble (2 ^ k) 90 = 2 ^ k * 90 / 100 := by decide +kernel
  rcases hk with ⟨a, b⟩ | ⟨a, rfl⟩
  · exact h1 k (by omega) mf b
  · exact h2 k (by omega)

/-- both bounds are the largest possible -/
example : maxSizeDouble (2 ^ 50) 54 ≠ 2 ^ 50 * 54 / 100 ∧ maxSizeDouble (2 ^ 53) 90 ≠ 2 ^ 53 * 90 / 100 := by decide +kernel

/-- the computation is not exact in general: at `2^53` slots it is rounded up -/
example : maxSizeDouble (2 ^ 16) 90 = 58982 ∧ maxSizeDouble (2 ^ 53) 90 = 2 ^ 53 * 90 / 100 + 1 := by decide +kernel

end Poplar.Props
