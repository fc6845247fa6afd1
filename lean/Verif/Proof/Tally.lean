import Verif.Proof.LabelCost
import Verif.Proof.LabelBytes
/-
  What the label maps count, exactly: a quantity that changes only when a label is stored or a node without label is
  appended is determined by the parts stored of the keys (`storedParts`) and the number of step nodes.
-/
namespace Poplar
open Spec

/-- `μ` is combined with `f` of the length of every label stored, and with `d` for every node without label -/
structure Tally {ν : Type} (L : NlmOps ν) (kind : Kind) (vs : Nat) (μ : ν → Nat) (op : Nat → Nat → Nat) (f : Nat → Nat) (d : Nat) : Prop where
  unit : ∀ x, op x 0 = x
  swap : ∀ x y z, op (op x y) z = op (op x z) y
  rep : ∀ x j, op (op x (d * j)) d = op x (d * (j + 1))
  empty : μ L.empty = 0
  make : ∀ {b n}, L.make b = .ok n → μ n = 0
  insert : ∀ {n i k n' l}, k.length + vs < 2 ^ 64 → L.insert n i k = .ok (n', l) → μ n' = op (μ n) (f k.length)
  append : ∀ {n k n' l}, k.length + vs < 2 ^ 64 → L.append n k = .ok (n', l) → μ n' = op (μ n) (f k.length)
  dummy : ∀ {n n'}, L.appendDummy n = .ok n' → μ n' = op (μ n) d
  expand : ∀ {n nm n'}, L.expand n nm = .ok n' → μ n' = μ n
  store : ∀ {n l v n'}, L.store n l v = .ok n' → μ n' = μ n
  step : kind = .bonsai → d = 0

/-! ### the stored parts -/

theorem Spec.storedFrom_append (b ks : List Key) (k : Key) : storedFrom b (ks ++ [k]) = storedFrom b ks ++ [storedPart (b ++ ks) k] := by
  induction ks generalizing b with
  | nil => simp [storedFrom]
  | cons x ks ih => simp [storedFrom, ih]

theorem Spec.storedParts_append (ks : List Key) (k : Key) : storedParts (ks ++ [k]) = storedParts ks ++ [storedPart ks k] := by
  rw [storedParts, storedFrom_append]; rfl

theorem Spec.storedPart_length_le (ks : List Key) (k : Key) : (storedPart ks k).length ≤ k.length := by
  unfold storedPart
  split
  · exact Nat.le_refl _
  · rw [List.length_drop]; omega

namespace Map
variable {τ ν : Type} {cfg : MapCfg τ ν} {vs : Nat} {μ : ν → Nat} {op : Nat → Nat → Nat} {f : Nat → Nat} {d : Nat}

theorem Unlabelled.tally {L : NlmOps ν} {kind : Kind} (M : Tally L kind vs μ op f d) {j : Nat} {n n' : ν} (h : Unlabelled L kind j n n') :
    μ n' = op (μ n) (d * j) := by
  induction h with
  | refl n => rw [Nat.mul_zero, M.unit]
  | expand _ e ih => rw [M.expand e, ih]
  | dummy _ e ih => rw [M.dummy e, ih, M.rep]
  | step e _ ih => rw [ih, M.step e, Nat.zero_mul, Nat.zero_mul]

theorem putLabel_tally (M : Tally cfg.L cfg.T.kind vs μ op f d) {m m' : Map τ ν} {v : Nat} {k : List UInt8} {r : UpdOut}
    (hk : k.length + vs < 2 ^ 64) (h : putLabel cfg m v k = .ok (m', r)) : μ m'.nlm = op (μ m.nlm) (f k.length) := by
  unfold putLabel at h
  split at h
  · obtain ⟨⟨n, l⟩, h1, h⟩ := R.bind_eq_ok h
    cases h
    exact M.append hk h1
  · obtain ⟨⟨n, l⟩, h1, h⟩ := R.bind_eq_ok h
    cases h
    exact M.insert hk h1

/-- the quantity, for labels `ls` and the step nodes of the map -/
def Tallied (μ : ν → Nat) (op : Nat → Nat → Nat) (f : Nat → Nat) (d : Nat) (m : Map τ ν) (ls : List Key) : Prop :=
  μ m.nlm = op (ls.foldl (fun x l => op x (f l.length)) 0) (d * m.numSteps)

theorem op_rep (M : Tally cfg.L cfg.T.kind vs μ op f d) (x i j : Nat) : op (op x (d * i)) (d * j) = op x (d * (i + j)) := by
  induction j with
  | zero => rw [Nat.mul_zero, M.unit]; rfl
  | succ j ih => rw [← M.rep, ih, M.rep]; rfl

theorem Tallied.idle (M : Tally cfg.L cfg.T.kind vs μ op f d) {m m' : Map τ ν} {ls : List Key} (h : Tallied μ op f d m ls)
    (hi : Idling cfg m m') : Tallied μ op f d m' ls := by
  obtain ⟨j, e, hi⟩ := hi
  unfold Tallied at h ⊢
  rw [hi.tally M, h, e, op_rep M]

theorem Tallied.put (M : Tally cfg.L cfg.T.kind vs μ op f d) {m m' : Map τ ν} {ls : List Key} (h : Tallied μ op f d m ls)
    {v : Nat} {k : List UInt8} {r : UpdOut} (hk : k.length + vs < 2 ^ 64) (hp : putLabel cfg m v k = .ok (m', r)) :
    Tallied μ op f d m' (ls ++ [k]) := by
  unfold Tallied at h ⊢
  rw [putLabel_tally M hk hp, h, putLabel_steps hp, List.foldl_append, M.swap]
  rfl

theorem make_tally (M : Tally cfg.L cfg.T.kind vs μ op f d) {b lam : Nat} {m : Map τ ν} (h : make cfg b lam = .ok m) :
    Tallied μ op f d m [] := by
  unfold make at h
  split at h
  · cases h
  · obtain ⟨x, _, h⟩ := R.bind_eq_ok h
    obtain ⟨t, _, h⟩ := R.bind_eq_ok h
    obtain ⟨n, hn, h⟩ := R.bind_eq_ok h
    obtain ⟨cs, _, h⟩ := R.bind_eq_ok h
    cases h
    unfold Tallied
    dsimp only
    rw [M.make hn]; exact (M.unit 0).symm

theorem default_tally (M : Tally cfg.L cfg.T.kind vs μ op f d) : Tallied μ op f d (default cfg) [] := by
  unfold Tallied
  show μ cfg.L.empty = op 0 (d * 0)
  rw [M.empty]; exact (M.unit 0).symm

end Map

namespace Alias
variable {a : Alias} {p : Params} {i : Init} {K : Key → Prop} {os : List Op}

/-- what an `update` does that is the next step of a history -/
theorem updateOk {o : Op} (h : a.Admissible p i K (os ++ [o])) {s s' : AState} {ys : List Out} {x : Out}
    (hs : AState.run p.valSize {} os = some (s, ys)) (hx : s.step p.valSize o = some (s', x)) {k : Key} (hk : o.inserts = some k)
    (hsb : 0 < i.symbBits) {m m' : Map a.Trie a.Nlm} {r : UpdOut}
    (r1 : Map.State (a.trieSpec p i.symbBits i.capa0 hsb) (a.nlmSpec p h.params) K m s.dict) (r2 : Map.Rel m s.bytes)
    (hu : Map.update (a.cfg p) m k = .ok (m', r)) :
    K k ∧ Map.UpdateOk (a.trieSpec p i.symbBits i.capa0 hsb) (a.nlmSpec p h.params) K m s.dict k m' r := by
  have hkey : K k := by
    have hl := h.legal o (by simp)
    cases o with
    | find _ => cases hk
    | size => cases hk
    | update k' =>
      simp only [Op.inserts] at hk
      split at hk
      · cases hk
      · rename_i hm; cases hk; exact (hl.1 _ rfl).resolve_right hm
    | write k' v =>
      simp only [Op.inserts] at hk
      split at hk
      · cases hk
      · rename_i hm; cases hk; exact (hl.1 _ rfl).resolve_right hm
  have hz1 : (a.plainFk = false ∨ p.dbg = false) ∨ (k.head? ≠ some 0 ∨ s.dict = [] ∨ ∃ l, firstKey s.dict = some (0 :: l)) :=
    h.z0.imp id (fun hz => (hz.arun hs).now hk)
  have hc : m.numCodes < 255 ∨ ∀ c, c ≠ 0 → BranchesAt s.dict k c → Map.Coded m c := by
    by_cases hlen : s.bytes.length < 254
    · left; have := r2.le r1; omega
    · right
      intro c h0 hb
      by_contra hc
      have hn := (s.newByte_iff o c).2 ⟨k, hk, hb, h0, fun hm => hc ((r2.mem c).2 hm)⟩
      simp only [AState.step, hn] at hx
      rw [if_neg (by omega), if_neg (by omega)] at hx
      cases hx
  have hu' := r1.upd h.keys (a.ok p h.params _ i.capa0 hsb).empty (a.ok p h.params _ i.capa0 hsb).min (a.ok p h.params _ i.capa0 hsb).min64 hkey hz1 hc
  rw [hu] at hu'
  exact ⟨hkey, hu'⟩

/-- the keys after an operation -/
theorem _root_.Poplar.Spec.AState.step_keys_op {vs : Nat} {s s' : AState} {o : Op} {x : Out} (h : s.step vs o = some (s', x)) :
    (s'.dict.length = s.dict.length ∧ s'.dict.map (·.1) = s.dict.map (·.1)) ∨
    ∃ k, o.inserts = some k ∧ s'.dict.length = s.dict.length + 1 ∧ s'.dict.map (·.1) = s.dict.map (·.1) ++ [k] := by
  have key : ∀ d : Dict, ((Spec.step vs d o).1.length = d.length ∧ (Spec.step vs d o).1.map (·.1) = d.map (·.1)) ∨
      ∃ k, o.inserts = some k ∧ (Spec.step vs d o).1.length = d.length + 1 ∧ (Spec.step vs d o).1.map (·.1) = d.map (·.1) ++ [k] := by
    intro d
    have hset : ∀ k v, o.inserts = some k → ((d.set k v).length = d.length ∧ (d.set k v).map (·.1) = d.map (·.1)) ∨
        ∃ k', o.inserts = some k' ∧ (d.set k v).length = d.length + 1 ∧ (d.set k v).map (·.1) = d.map (·.1) ++ [k'] := by
      intro k v hk
      rcases Dict.set_keys d k v with h | ⟨h1, h2⟩
      · exact Or.inl h
      · exact Or.inr ⟨k, hk, h1, h2⟩
    cases o with
    | find k => simp only [Spec.step]; split <;> exact Or.inl ⟨rfl, rfl⟩
    | size => exact Or.inl ⟨rfl, rfl⟩
    | update k =>
      simp only [Spec.step]
      split
      · exact Or.inl ⟨rfl, rfl⟩
      · rename_i hm
        split
        · exact Or.inl ⟨rfl, rfl⟩
        · exact hset _ _ (by simp [Op.inserts, hm])
    | write k v =>
      simp only [Spec.step]
      split
      · exact Or.inl ⟨rfl, rfl⟩
      · rename_i hm
        exact hset _ _ (by simp [Op.inserts, hm])
  unfold AState.step at h
  split at h
  · injection h with h; injection h with h _; subst h; exact key _
  · split at h
    · injection h with h; injection h with h _; subst h; exact key _
    · split at h
      · injection h with h; injection h with h _; subst h; exact Or.inl ⟨rfl, rfl⟩
      · cases h

/-- what one operation does to the labels: `update` of a key to be inserted, then possibly a store; or nothing -/
theorem exec_shape {τ ν : Type} {cfg : MapCfg τ ν} {m m' : Map τ ν} {o : Op} {x : Out} (h : Map.exec cfg m o = .ok (m', x)) :
    m' = m ∨ ∃ k m1 r, o.inserts = some k ∧ Map.update cfg m k = .ok (m1, r) ∧
      (m' = m1 ∨ ∃ l v, r = .ptr l ∧ o = .write k v ∧ Map.store cfg m1 l v = .ok m') := by
  have hbad : ∀ k m1 r, Map.update cfg m k = .ok (m1, r) → Malformed k → m1 = m := by
    intro k m1 r hu hm
    unfold Map.update at hu
    rw [if_pos ((Poplar.badKey_iff k).2 hm)] at hu
    cases hu; rfl
  cases o with
  | find k =>
    left
    simp only [Map.exec] at h
    split at h
    · cases h; rfl
    · cases h
    · cases h; rfl
    · obtain ⟨v, _, h⟩ := R.bind_eq_ok h
      cases h; rfl
  | size => cases h; exact Or.inl rfl
  | update k =>
    obtain ⟨⟨m1, r⟩, h1, h⟩ := R.bind_eq_ok h
    have e : m' = m1 := by
      dsimp only at h
      split at h
      · obtain ⟨v, _, h⟩ := R.bind_eq_ok h
        cases h; rfl
      · cases h; rfl
      · cases h; rfl
    by_cases hm : Malformed k
    · left; rw [e]; exact hbad _ _ _ h1 hm
    · exact Or.inr ⟨k, m1, r, by simp [Op.inserts, hm], h1, Or.inl e⟩
  | write k v =>
    obtain ⟨⟨m1, r⟩, h1, h⟩ := R.bind_eq_ok h
    by_cases hm : Malformed k
    · left
      have e := hbad _ _ _ h1 hm
      unfold Map.update at h1
      rw [if_pos ((Poplar.badKey_iff k).2 hm)] at h1
      cases h1
      cases h; rfl
    · refine Or.inr ⟨k, m1, r, by simp [Op.inserts, hm], h1, ?_⟩
      dsimp only at h
      split at h
      · obtain ⟨m2, h2, h⟩ := R.bind_eq_ok h
        cases h
        exact Or.inr ⟨_, _, rfl, rfl, h2⟩
      · cases h; exact Or.inl rfl
      · cases h; exact Or.inl rfl

/-- the tally of a map is that of the stored parts of its keys and of its step nodes -/
theorem tally {μ : a.Nlm → Nat} {op : Nat → Nat → Nat} {f : Nat → Nat} {d : Nat} (M : Tally (a.cfg p).L (a.cfg p).T.kind p.valSize μ op f d)
    {m0 : Map a.Trie a.Nlm} (h0 : a.new p i = .ok m0) (os : List Op) : a.Admissible p i K os →
    ∀ {s : AState} {ys : List Out}, AState.run p.valSize {} os = some (s, ys) → ∀ {m : Map a.Trie a.Nlm} {xs : List Out},
    Map.run (a.cfg p) m0 os = .ok (m, xs) → Map.Tallied μ op f d m (storedParts (s.dict.map (·.1))) := by
  induction os using List.reverseRecOn with
  | nil =>
    intro _ s ys hs m xs h1
    cases h1
    cases hs
    cases i with
    | default => cases h0; exact Map.default_tally M
    | make cb lam => exact Map.make_tally M h0
  | append_singleton os o ih =>
    intro h s ys hs m xs h1
    have hl := h.append_left
    obtain ⟨s1, xs1, xs2, f1, f2, _⟩ := AState.run_split hs
    obtain ⟨s2, x, xs3, f3, f4, _⟩ := AState.run_cons f2
    cases f4
    have h2 := h1
    rw [Map.run_append] at h2
    obtain ⟨⟨m1, zs⟩, g1, h2⟩ := R.bind_eq_ok h2
    obtain ⟨⟨m2, ws⟩, g2, h2⟩ := R.bind_eq_ok h2
    cases h2
    obtain ⟨⟨m3, x3⟩, g3, g2⟩ := R.bind_eq_ok g2
    cases g2
    have hi := ih hl f1 g1
    obtain ⟨hsb, r1, rr1, _⟩ := Alias.reach hl f1 h0 g1
    obtain ⟨hsb', r2, _⟩ := Alias.reach h hs h0 h1
    have e1 := r1.size
    have e2 := r2.size
    have hkeys := AState.step_keys_op f3
    rcases exec_shape g3 with rfl | ⟨k, m4, r, k1, k2, k3⟩
    · rcases hkeys with ⟨_, k2⟩ | ⟨k, _, k1, _⟩
      · rw [k2]; exact hi
      · omega
    · obtain ⟨hK, hu⟩ := updateOk h f1 f3 k1 hsb r1 rr1 k2
      -- writing through the pointer changes nothing
      have hst : m.size = m4.size ∧ ∀ ls, Map.Tallied μ op f d m4 ls → Map.Tallied μ op f d m ls := by
        rcases k3 with rfl | ⟨l, v, _, _, k3⟩
        · exact ⟨rfl, fun _ h => h⟩
        · obtain ⟨n, h3, k3⟩ := R.bind_eq_ok k3
          cases k3
          refine ⟨rfl, fun ls h => ?_⟩
          unfold Map.Tallied at h ⊢
          dsimp only
          rw [M.store h3]; exact h
      refine hst.2 _ ?_
      have hsz := hst.1
      by_cases hn : s1.dict.get k = none
      · by_cases hx : r = .exn
        · -- refused
          have hz : m4.size = s1.dict.length := by
            rcases hu.res with ⟨l, e, _⟩ | ⟨_, e, _⟩
            · rw [hx] at e; cases e
            · exact e.size
          rcases hkeys with ⟨_, k5⟩ | ⟨k', _, k5, _⟩
          · rw [k5]; exact hi.idle M (hu.idle (Or.inr hx))
          · omega
        · -- added
          have hz : m4.size = s1.dict.length + 1 := by
            rcases hu.res with ⟨l, _, e, _⟩ | ⟨e, _⟩
            · rw [e.size, Map.afterUpdate, hn]; dsimp only; rw [Dict.length_set, if_pos hn]
            · exact absurd e hx
          rcases hkeys with ⟨k5, _⟩ | ⟨k', k4, _, k5⟩
          · omega
          · rw [k1] at k4; cases k4
            rw [k5, storedParts_append]
            obtain ⟨m5, m6, v, z1, z2, z3⟩ := hu.put hn hx
            have hlen : (storedPart (s1.dict.map (·.1)) k).length + p.valSize < 2 ^ 64 := by
              have := h.keys.len k hK
              have := storedPart_length_le (s1.dict.map (·.1)) k
              omega
            refine Map.Tallied.put M (Map.Tallied.idle M ?_ z2) hlen z3
            rcases z1 with rfl | ⟨z1, z4⟩
            · exact hi
            · have hd : s1.dict = [] := by
                have : m1.size = 0 := by rw [z1]; rfl
                exact List.length_eq_zero_iff.1 (by omega)
              rw [hd]
              exact Map.make_tally M z4
      · have hz : m4.size = s1.dict.length := by
          rcases hu.res with ⟨l, _, e, _⟩ | ⟨_, e, _⟩
          · rw [e.size, Map.afterUpdate]
            cases hg : s1.dict.get k with
            | none => exact absurd hg hn
            | some v => rfl
          · exact e.size
        rcases hkeys with ⟨_, k5⟩ | ⟨k', _, k5, _⟩
        · rw [k5]; exact hi.idle M (hu.idle (Or.inl hn))
        · omega

end Alias

/-! ### the four label maps -/

/-- how the bytes `B`, the sum `S` and the maximum `X` of the lengths of the labels and `size()` change -/
structure Counts {ν : Type} (L : NlmOps ν) (kind : Kind) (vs : Nat) (B S X : ν → Nat) (f : Nat → Nat) (d : Nat) : Prop where
  empty : B L.empty = 0 ∧ S L.empty = 0 ∧ X L.empty = 0 ∧ L.size L.empty = 0
  make : ∀ {b n}, L.make b = .ok n → B n = 0 ∧ S n = 0 ∧ X n = 0 ∧ L.size n = 0
  insert : ∀ {n i k n' l}, k.length + vs < 2 ^ 64 → L.insert n i k = .ok (n', l) →
    B n' = B n + f k.length ∧ S n' = S n + k.length ∧ X n' = max (X n) k.length ∧ L.size n' = L.size n + 1
  append : ∀ {n k n' l}, k.length + vs < 2 ^ 64 → L.append n k = .ok (n', l) →
    B n' = B n + f k.length ∧ S n' = S n + k.length ∧ X n' = max (X n) k.length ∧ L.size n' = L.size n + 1
  dummy : ∀ {n n'}, L.appendDummy n = .ok n' → B n' = B n + d ∧ S n' = S n ∧ X n' = X n ∧ L.size n' = L.size n + if kind = .bonsai then 0 else 1
  expand : ∀ {n nm n'}, L.expand n nm = .ok n' → B n' = B n ∧ S n' = S n ∧ X n' = X n ∧ L.size n' = L.size n
  store : ∀ {n l v n'}, L.store n l v = .ok n' → B n' = B n ∧ S n' = S n ∧ X n' = X n ∧ L.size n' = L.size n
  step : kind = .bonsai → d = 0

namespace Counts
variable {ν : Type} {L : NlmOps ν} {kind : Kind} {vs : Nat} {B S X : ν → Nat} {f : Nat → Nat} {d : Nat}

theorem bytes (C : Counts L kind vs B S X f d) : Tally L kind vs B (· + ·) f d where
  unit := fun _ => rfl
  swap := fun x y z => by omega
  rep := fun x j => by rw [Nat.mul_add]; omega
  empty := C.empty.1
  make := fun h => (C.make h).1
  insert := fun h h' => (C.insert h h').1
  append := fun h h' => (C.append h h').1
  dummy := fun h => (C.dummy h).1
  expand := fun h => (C.expand h).1
  store := fun h => (C.store h).1
  step := C.step

theorem sum (C : Counts L kind vs B S X f d) : Tally L kind vs S (· + ·) id 0 where
  unit := fun _ => rfl
  swap := fun x y z => by omega
  rep := fun x j => by omega
  empty := C.empty.2.1
  make := fun h => (C.make h).2.1
  insert := fun h h' => (C.insert h h').2.1
  append := fun h h' => (C.append h h').2.1
  dummy := fun h => (C.dummy h).2.1
  expand := fun h => (C.expand h).2.1
  store := fun h => (C.store h).2.1
  step := fun _ => rfl

theorem max (C : Counts L kind vs B S X f d) : Tally L kind vs X Nat.max id 0 where
  unit := fun x => Nat.max_zero x
  swap := fun x y z => Nat.max_right_comm x y z
  rep := fun x j => by rw [Nat.zero_mul, Nat.zero_mul]; exact Nat.max_zero _
  empty := C.empty.2.2.1
  make := fun h => (C.make h).2.2.1
  insert := fun h h' => (C.insert h h').2.2.1
  append := fun h h' => (C.append h h').2.2.1
  dummy := fun h => (C.dummy h).2.2.1.trans (Nat.max_zero _).symm
  expand := fun h => (C.expand h).2.2.1
  store := fun h => (C.store h).2.2.1
  step := fun _ => rfl

theorem size (C : Counts L kind vs B S X f d) : Tally L kind vs L.size (· + ·) (fun _ => 1) (if kind = .bonsai then 0 else 1) where
  unit := fun _ => rfl
  swap := fun x y z => by omega
  rep := fun x j => by rw [Nat.mul_add]; omega
  empty := C.empty.2.2.2
  make := fun h => (C.make h).2.2.2
  insert := fun h h' => (C.insert h h').2.2.2
  append := fun h h' => (C.append h h').2.2.2
  dummy := fun h => (C.dummy h).2.2.2
  expand := fun h => (C.expand h).2.2.2
  store := fun h => (C.store h).2.2.2
  step := fun h => if_pos h

end Counts

theorem VByte.sizeGo_groups : ∀ (k n v : Nat), v < 128 ^ (k + 1) → sizeGo k n v + 1 = n + groups7 v := by
  intro k
  induction k with
  | zero => intro n v h; unfold sizeGo groups7; rw [if_pos (by simpa using h)]
  | succ k ih =>
    intro n v h
    unfold sizeGo groups7
    split
    · rename_i h1
      rw [if_neg (by omega)]
      have e : v >>> 7 = v / 128 := Nat.shiftRight_eq_div_pow v 7
      have := ih (n + 1) (v / 128) (Nat.div_lt_of_lt_mul (by rw [Nat.pow_succ, Nat.mul_comm] at h; exact h))
      rw [e]
      omega
    · rw [if_pos (by omega)]

theorem VByte.size_groups {v : Nat} (h : v < 2 ^ 64) : size v = groups7 v := by
  have := sizeGo_groups fuel 1 v (Nat.lt_trans h (by decide))
  unfold size; omega

theorem PlainBonsaiNlm.counts (vs : Nat) : Counts (PlainBonsaiNlm.ops vs) .bonsai vs (·.labelBytes) (·.sumLength) (·.maxLength) (· + vs) 0 where
  empty := ⟨rfl, rfl, rfl, rfl⟩
  make := by
    intro b n h
    unfold ops make at h
    dsimp only at h
    split at h <;> cases h
    exact ⟨rfl, rfl, rfl, rfl⟩
  insert := by
    intro n i k n' l _ h
    obtain ⟨_, _, h⟩ := R.bind_eq_ok h
    obtain ⟨_, _, h⟩ := R.bind_eq_ok h
    dsimp only at h
    obtain ⟨_, _, h⟩ := R.bind_eq_ok h
    obtain ⟨_, _, h⟩ := R.bind_eq_ok h
    obtain ⟨_, _, h⟩ := R.bind_eq_ok h
    cases h; exact ⟨rfl, rfl, rfl, rfl⟩
  append := by intro n k n' l _ h; cases h
  dummy := by intro n n' h; cases h
  expand := by
    intro n nm n' h
    obtain ⟨_, _, h⟩ := R.bind_eq_ok h
    obtain ⟨_, _, h⟩ := R.bind_eq_ok h
    cases h; exact ⟨rfl, rfl, rfl, rfl⟩
  store := by
    intro n l v n' h
    unfold ops store at h
    dsimp only at h
    split at h
    · cases h
    · obtain ⟨_, _, h⟩ := R.bind_eq_ok h
      cases h; exact ⟨rfl, rfl, rfl, rfl⟩
  step := fun _ => rfl

theorem PlainFkNlm.counts (vs : Nat) : Counts (PlainFkNlm.ops vs) .fkhash vs (·.labelBytes) (·.sumLength) (·.maxLength) (· + vs) 0 where
  empty := ⟨rfl, rfl, rfl, rfl⟩
  make := by
    intro b n h
    unfold ops make at h
    dsimp only at h
    split at h <;> cases h
    exact ⟨rfl, rfl, rfl, rfl⟩
  insert := by intro n i k n' l _ h; cases h
  append := by
    intro n k n' l _ h
    unfold ops append at h
    dsimp only at h
    obtain ⟨_, _, h⟩ := R.bind_eq_ok h
    obtain ⟨_, _, h⟩ := R.bind_eq_ok h
    cases h; exact ⟨rfl, rfl, rfl, Array.size_push _⟩
  dummy := by intro n n' h; cases h; exact ⟨rfl, rfl, rfl, Array.size_push _⟩
  expand := by intro n nm n' h; cases h
  store := by
    intro n l v n' h
    unfold ops store at h
    dsimp only at h
    split at h
    · cases h
    · obtain ⟨_, _, h⟩ := R.bind_eq_ok h
      cases h; exact ⟨rfl, rfl, rfl, rfl⟩
  step := fun h => by cases h

theorem CompactBonsaiNlm.counts (W vs : Nat) :
    Counts (CompactBonsaiNlm.ops W vs) .bonsai vs (·.labelBytes) (·.sumLength) (·.maxLength) (entryCost vs) 0 where
  empty := ⟨rfl, rfl, rfl, rfl⟩
  make := by
    intro b n h
    unfold ops make at h
    dsimp only at h
    split at h <;> cases h
    exact ⟨rfl, rfl, rfl, rfl⟩
  insert := by
    intro n i k n' l hk h
    obtain ⟨_, _, h⟩ := R.bind_eq_ok h
    obtain ⟨_, _, h⟩ := R.bind_eq_ok h
    obtain ⟨_, _, h⟩ := R.bind_eq_ok h
    obtain ⟨_, _, h⟩ := R.bind_eq_ok h
    obtain ⟨_, _, h⟩ := R.bind_eq_ok h
    dsimp only at h
    rw [lab_len] at h
    have hs := VByte.size_groups (v := k.length - 1 + vs) (by omega)
    have e : VByte.size (k.length - 1 + vs) + (k.length - 1) + vs = entryCost vs k.length := by unfold entryCost; omega
    rw [e] at h
    obtain ⟨_, _, h⟩ := R.bind_eq_ok h
    split at h
    · obtain ⟨_, _, h⟩ := R.bind_eq_ok h
      obtain ⟨_, _, h⟩ := R.bind_eq_ok h
      obtain ⟨_, _, h⟩ := R.bind_eq_ok h
      obtain ⟨_, _, h⟩ := R.bind_eq_ok h
      cases h
      exact ⟨rfl, rfl, rfl, rfl⟩
    · obtain ⟨_, _, h⟩ := R.bind_eq_ok h
      obtain ⟨_, _, h⟩ := R.bind_eq_ok h
      obtain ⟨_, _, h⟩ := R.bind_eq_ok h
      obtain ⟨_, _, h⟩ := R.bind_eq_ok h
      obtain ⟨_, _, h⟩ := R.bind_eq_ok h
      obtain ⟨_, _, h⟩ := R.bind_eq_ok h
      obtain ⟨_, _, h⟩ := R.bind_eq_ok h
      obtain ⟨_, _, h⟩ := R.bind_eq_ok h
      cases h
      exact ⟨rfl, rfl, rfl, rfl⟩
  append := by intro n k n' l _ h; cases h
  dummy := by intro n n' h; cases h
  expand := by
    intro n nm n' h
    obtain ⟨_, _, h⟩ := R.bind_eq_ok h
    obtain ⟨_, _, h⟩ := R.bind_eq_ok h
    obtain ⟨_, _, h⟩ := R.bind_eq_ok h
    obtain ⟨_, _, h⟩ := R.bind_eq_ok h
    cases h; exact ⟨rfl, rfl, rfl, rfl⟩
  store := by
    intro n l v n' h
    unfold ops store at h
    dsimp only at h
    split at h
    · cases h
    · obtain ⟨_, _, h⟩ := R.bind_eq_ok h
      cases h; exact ⟨rfl, rfl, rfl, rfl⟩
  step := fun _ => rfl

theorem CompactFkNlm.nextSlot_lengths {W : Nat} {m m' : CompactFkNlm} (h : nextSlot W m = .ok m') :
    m'.sumLength = m.sumLength ∧ m'.maxLength = m.maxLength ∧ m'.size = m.size + 1 := by
  unfold nextSlot at h
  dsimp only at h
  split at h
  · unfold releaseBuf at h
    dsimp only at h
    obtain ⟨_, _, h⟩ := R.bind_eq_ok h
    cases h
    exact ⟨rfl, rfl, rfl⟩
  · cases h; exact ⟨rfl, rfl, rfl⟩

theorem CompactFkNlm.counts (W vs : Nat) :
    Counts (CompactFkNlm.ops W vs) .fkhash vs total (·.sumLength) (·.maxLength) (entryCost vs) 1 where
  empty := ⟨rfl, rfl, rfl, rfl⟩
  make := by
    intro b n h
    unfold ops make at h
    dsimp only at h
    split at h <;> cases h
    exact ⟨rfl, rfl, rfl, rfl⟩
  insert := by intro n i k n' l _ h; cases h
  append := by
    intro n k n' l hk h
    obtain ⟨m1, h1, h⟩ := R.bind_eq_ok h
    have e := nextSlot_total h1
    obtain ⟨e1, e2, e3⟩ := nextSlot_lengths h1
    dsimp only at h
    rw [lab_len] at h
    cases h
    have hs := VByte.size_groups (v := k.length - 1 + vs) (by omega)
    rw [VByte.size_eq] at hs
    rw [← e, ← e1, ← e2]
    refine ⟨?_, rfl, rfl, e3⟩
    unfold total entryCost VByte.append
    simp only [List.length_append, List.length_take, List.length_replicate]
    omega
  dummy := by
    intro n n' h
    obtain ⟨m1, h1, h⟩ := R.bind_eq_ok h
    have e := nextSlot_total h1
    obtain ⟨e1, e2, e3⟩ := nextSlot_lengths h1
    cases h
    rw [← e, ← e1, ← e2]
    refine ⟨?_, rfl, rfl, e3⟩
    unfold total VByte.append
    simp only [List.length_append]
    have : (VByte.bytesGo VByte.fuel 0).length = 1 := rfl
    omega
  expand := by intro n nm n' h; cases h
  store := by
    intro n l v n' h
    unfold ops store at h
    dsimp only at h
    split at h
    · split at h
      · obtain ⟨_, h1, h⟩ := R.bind_eq_ok h
        cases h
        exact ⟨by simp only [total, overwrite_len _ h1], rfl, rfl, rfl⟩
      · cases h
    · obtain ⟨_, _, h⟩ := R.bind_eq_ok h
      cases h; exact ⟨rfl, rfl, rfl, rfl⟩
  step := fun h => by cases h

/-- the six aliases -/
theorem Alias.labelCounts (a : Alias) (p : Params) :
    Counts (a.cfg p).L (a.cfg p).T.kind p.valSize (fun n => a.labelBytes n + a.buffered n) a.sumLength a.maxLength
      (fun l => labelCost a p.valSize (List.replicate l 0)) (stepCost a) := by
  have e : ∀ l, (List.replicate l (0 : UInt8)).length = l := fun l => List.length_replicate
  cases a <;> simp only [labelCost, e]
  · exact PlainBonsaiNlm.counts p.valSize
  · exact CompactBonsaiNlm.counts p.chunkSize p.valSize
  · exact CompactBonsaiNlm.counts p.chunkSize p.valSize
  · exact PlainFkNlm.counts p.valSize
  · exact CompactFkNlm.counts p.chunkSize p.valSize
  · exact CompactFkNlm.counts p.chunkSize p.valSize

end Poplar
