import Verif.Props.C43_Crash
import Verif.Props.C42_Stats
/-
  C43: a bonsai map does run into the failures of `C43_stuck`, whenever its tables have to be enlarged.
-/
namespace Poplar.Props
open Poplar Poplar.Spec

variable {a : Alias} {p : Params} {i : Init} {K : Key → Prop}

/-- **C43** If `num_resize()` of a bonsai map changes in the course of a series of insertions, then there is one among them during which
the allocation of the enlarged tables of the trie can fail. -/
theorem C43_points_resize (hf : ¬ FkhashTrie a) : ∀ (ks : List Key) {os : List Op} {s s2 : AState} {ys ys2 xs xs2 : List Out}
    {m0 m1 m2 : Map a.Trie a.Nlm}, a.Admissible p i K (os ++ ks.map .update) →
    AState.run p.valSize {} os = some (s, ys) → AState.run p.valSize s (ks.map .update) = some (s2, ys2) → s.dict ≠ [] →
    a.new p i = .ok m0 → Map.run (a.cfg p) m0 os = .ok (m1, xs) → Map.run (a.cfg p) m1 (ks.map .update) = .ok (m2, xs2) →
    Map.numResize (a.cfg p) m2 ≠ Map.numResize (a.cfg p) m1 →
    ∃ ks1 k ks2 s' m c, ks = ks1 ++ k :: ks2 ∧ Crashed a p i K (os ++ ks1.map .update) k s' m c ∧ c.1 = .expand := by
  intro ks
  induction ks with
  | nil =>
    intro os s s2 ys ys2 xs xs2 m0 m1 m2 _ _ _ _ _ _ h hn
    cases h
    exact absurd rfl hn
  | cons k ks ih =>
    intro os s s2 ys ys2 xs xs2 m0 m1 m2 adm hs hs2 hd e0 e1 e2 hn
    rw [List.map_cons] at adm hs2 e2
    have adm1 : a.Admissible p i K (os ++ [.update k]) := by
      rw [← List.singleton_append, ← List.append_assoc] at adm
      exact adm.append_left
    obtain ⟨⟨m, x⟩, f1, e2⟩ := R.bind_eq_ok e2
    obtain ⟨⟨m', zs⟩, f2, e2⟩ := R.bind_eq_ok e2
    cases e2
    simp only [AState.run] at hs2
    obtain ⟨⟨s1, y⟩, g1, hs2⟩ := Option.bind_eq_some_iff.1 hs2
    obtain ⟨⟨s3, zs'⟩, g2, hs2⟩ := Option.bind_eq_some_iff.1 hs2
    cases hs2
    have hs1 := AState.run_snoc hs g1
    have e12 : Map.run (a.cfg p) m0 (os ++ [.update k]) = .ok (m, xs ++ [x]) := by
      rw [Map.run_append, e1]
      simp only [R.bind_ok, Map.run, f1, R.pure_eq]
    have hx : x = y := by
      have q1 := (Alias.reach adm1 hs1 e0 e12).2.2.2.2
      have q2 := (Alias.reach adm1.append_left hs e0 e1).2.2.2.2
      rw [q2] at q1
      have := List.append_cancel_left q1
      injection this
    subst hx
    by_cases hr : Map.numResize (a.cfg p) m = Map.numResize (a.cfg p) m1
    · have hd1 : s1.dict ≠ [] := by
        simp only [AState.step] at g1
        split at g1
        · injection g1 with g1; injection g1 with g1 _; rw [← g1]; exact Map.step_ne_nil _ hd
        · split at g1
          · injection g1 with g1; injection g1 with g1 _; rw [← g1]; exact Map.step_ne_nil _ hd
          · split at g1
            · injection g1 with g1; injection g1 with g1 _; rw [← g1]; exact hd
            · cases g1
      obtain ⟨ks1, k', ks2, s', mm, c, r1, r2, r3⟩ := ih (os := os ++ [.update k]) (by rw [List.append_assoc]; exact adm) hs1 g2 hd1 e0 e12 f2 (by rw [hr]; exact hn)
      refine ⟨k :: ks1, k', ks2, s', mm, c, by rw [r1]; rfl, ?_, r3⟩
      rw [List.append_assoc] at r2
      exact r2
    · obtain ⟨_, q⟩ := C43_points_complete adm1 hs g1 hd e0 e1 f1
      obtain ⟨q, _⟩ := q hf
      have : allocations a p m1 k .expand ≠ 0 := by intro h; rw [h] at q; exact hr q
      obtain ⟨c, hc⟩ := List.exists_mem_of_length_pos (Nat.pos_of_ne_zero this)
      obtain ⟨c1, c2⟩ := List.mem_filter.1 hc
      refine ⟨[], k, ks, s, m1, c, rfl, ⟨by simpa using adm1, ⟨ys, by simpa using hs⟩, by rw [g1]; simp, ⟨m0, xs, e0, by simpa using e1⟩, c1⟩, by simpa using c2⟩

/-- 700 different keys of two bytes -/
def stuckKeys : List Key := (List.range 700).map fun n => [UInt8.ofNat (1 + n / 40), UInt8.ofNat (1 + n % 40), 0]

/-- two insertions before -/
def stuckStart : List Op := [.update [1, 0], .update [1, 200, 0]]

/-- the dictionary after `stuckStart` -/
def stuckDict : Dict := [([1, 0], [0, 0, 0, 0]), ([1, 200, 0], [0, 0, 0, 0])]

/-- `MaxFactor` 1: the first tables are full with 655 nodes -/
def tightParams : Params := { valSize := 4, dbg := true, maxFactor := 1 }

private theorem many_legal : ((stuckStart ++ stuckKeys.map .update : List Op)).all (legalB 4) = true := by decide +kernel
private theorem many_head : ∀ k ∈ inserted (stuckStart ++ stuckKeys.map .update), k.head? ≠ some 0 := by decide +kernel
private theorem many_small : SmallAlphabet (stuckStart ++ stuckKeys.map .update) :=
  small_of (200 :: (List.range 40).map fun n => UInt8.ofNat (1 + n)) (by decide) (by decide +kernel)
private theorem many_cost : cost (stuckStart ++ stuckKeys.map .update) < 50000 := by decide +kernel

private theorem run_new (vs : Nat) : ∀ (ks : List Key) (d : Dict), (∀ k ∈ ks, ¬ Malformed k) → ks.Nodup → (∀ k ∈ ks, d.get k = none) →
    (Spec.run vs d (ks.map .update)).1.length = d.length + ks.length := by
  intro ks
  induction ks with
  | nil => intro d _ _ _; rfl
  | cons k ks ih =>
    intro d h1 h2 h3
    have hk : d.get k = none := h3 k (by simp)
    have hst : step vs d (.update k) = (d.set k (List.replicate vs 0), .value (List.replicate vs 0)) := by
      simp only [step, h1 k (by simp), if_false, hk]
    simp only [List.map_cons, Spec.run, hst, List.length_cons]
    rw [ih (d.set k (List.replicate vs 0)) (fun x hx => h1 x (by simp [hx])) (List.nodup_cons.1 h2).2 ?_, Dict.length_set, if_pos hk]
    · omega
    · intro x hx
      rw [Dict.get_set, if_neg, h3 x (by simp [hx])]
      rintro rfl
      exact (List.nodup_cons.1 h2).1 hx

/-- the number of a key of `stuckKeys` -/
private def numOf : Key → Nat
  | c :: d :: _ => (c.toNat - 1) * 40 + (d.toNat - 1)
  | _ => 0

private theorem many_nodup : stuckKeys.Nodup := by
  have h : stuckKeys.map numOf = List.range 700 := by decide +kernel
  have := @List.nodup_range 700
  rw [← h] at this
  exact List.Nodup.of_map _ this

private theorem many_fresh : (∀ k ∈ stuckKeys, ¬ Malformed k) ∧ ∀ k ∈ stuckKeys, Dict.get stuckDict k = none := by
  refine ⟨by decide +kernel, by decide +kernel⟩

private theorem many_length : stuckKeys.length = 700 := by simp [stuckKeys]

private theorem first_len {os : List Op} {n : Nat} (h : (Spec.run 4 stuckDict os).1.length = n) :
    (Spec.run 4 [] (stuckStart ++ os)).1.length = n := h

private theorem many_len : (Spec.run 4 [] (stuckStart ++ stuckKeys.map .update)).1.length = 702 :=
  first_len ((run_new 4 stuckKeys stuckDict many_fresh.1 many_nodup many_fresh.2).trans (by rw [many_length]; rfl))

theorem stuck_example (ks : List Key) (many_legal : ((stuckStart ++ ks.map .update : List Op)).all (legalB 4) = true)
    (many_head : ∀ k ∈ inserted (stuckStart ++ ks.map .update), k.head? ≠ some 0)
    (many_small : SmallAlphabet (stuckStart ++ ks.map .update))
    (many_cost : cost (stuckStart ++ ks.map .update) < 50000)
    (many_len : (Spec.run 4 [] (stuckStart ++ ks.map .update)).1.length = 702)
    (a : Alias) (hf : ¬ FkhashTrie a) : ∃ ks1 k ks2 s m c, ks = ks1 ++ k :: ks2 ∧
    Crashed a tightParams .default (CStrings 4) (stuckStart ++ ks1.map .update) k s m c ∧ c.1 = .expand := by
  have adm : a.Admissible tightParams .default (CStrings 4) (stuckStart ++ ks.map .update) :=
    ⟨⟨by decide, by decide, by decide⟩, trivial, keySet_cstrings 4, legal_of many_legal, Or.inr (Or.inr (Or.inl many_head))⟩
  obtain ⟨bs, hb⟩ := many_small.run (vs := 4)
  have hlim : ¬ a.AtLimit tightParams .default (stuckStart ++ ks.map .update) := by
    have : 50000 ≤ a.nodeLimit tightParams 13 (Init.capa0 .default) := by cases a <;> decide
    intro hl
    have := hl.cost
    have := many_cost
    simp only [Init.symbBits] at *
    omega
  obtain ⟨hsb, m0, e0, e⟩ := Alias.after adm hb
  obtain ⟨⟨m2, xs⟩, e2, _, st2, _⟩ := e.get hlim
  have ready2 := (st2.live (by rw [← List.length_pos_iff, many_len]; decide)).inv.ready
  have len2 : m2.size = 702 := by rw [st2.size, many_len]
  have e2' := e2
  rw [Map.run_append] at e2
  obtain ⟨⟨m1, xs1⟩, e1, e2⟩ := R.bind_eq_ok e2
  obtain ⟨⟨m3, xs2⟩, e3, e2⟩ := R.bind_eq_ok e2
  cases e2
  have hb' := hb
  obtain ⟨s1, ys1, ys2, r1, r2, _⟩ := AState.run_split (os := stuckStart) hb'
  have r1' : s1 = ⟨stuckDict, [200]⟩ := by
    have : AState.run 4 {} stuckStart = some (⟨stuckDict, [200]⟩, [.value [0, 0, 0, 0], .value [0, 0, 0, 0]]) := rfl
    rw [r1] at this
    injection this with this; injection this
  have adm1 : a.Admissible tightParams .default (CStrings 4) stuckStart := Alias.Admissible.append_left (os' := ks.map .update) adm
  have hd : s1.dict ≠ [] := by rw [r1']; decide
  have hn : Map.numResize (a.cfg tightParams) m2 ≠ Map.numResize (a.cfg tightParams) m1 := by
    have st1 := (Alias.reach adm1 r1 e0 e1).2.1
    have ready1 := (st1.live hd).inv.ready
    have z1 : Map.numResize (a.cfg tightParams) m1 = 0 := by
      cases hz : Map.numResize (a.cfg tightParams) m1 with
      | zero => rfl
      | succ r =>
        have := C42_num_resize_log adm1 r1 e0 e1 ready1 hz
        rw [r1'] at this
        have h1 : 0 < 2 ^ r := Nat.two_pow_pos r
        have h2 : nodesFor (Init.lambda .default) [[1, 0], [1, 200, 0]] ≤ 4 := by decide
        change 1 * (2 ^ 16 * 2 ^ r) / 100 ≤ nodesFor (Init.lambda .default) [[1, 0], [1, 200, 0]] at this
        omega
    have c1 := C42_num_resize adm ⟨_, _, hb⟩ e0 e2' ready2
    have c2 := C17_keys_le_nodes adm ⟨_, _, hb⟩ e0 e2'
    obtain ⟨b, _, _, _, c3⟩ := C17_capacity adm ⟨_, _, hb⟩ e0 e2' ready2
    intro hz
    rw [hz, z1] at c1
    rw [c1] at c3
    change _ ≤ 1 * (2 ^ 16 * 2 ^ 0) at c3
    omega
  exact C43_points_resize hf ks (os := stuckStart) adm r1 r2 hd e0 e1 e3 hn

/-- the hypotheses of `C43_stuck` are met in every bonsai map: 702 keys are inserted, and one of the insertions fails when the tables
are full -/
theorem stuck_points (a : Alias) (hf : ¬ FkhashTrie a) : ∃ ks1 k ks2 s m c, stuckKeys = ks1 ++ k :: ks2 ∧
    Crashed a tightParams .default (CStrings 4) (stuckStart ++ ks1.map .update) k s m c ∧ c.1 = .expand :=
  stuck_example stuckKeys many_legal many_head many_small many_cost many_len a hf

/-- ... no new key is taken afterwards -/
example (a : Alias) (hf : ¬ FkhashTrie a) : ∃ ks1 k ks2 s m c, stuckKeys = ks1 ++ k :: ks2 ∧
    Crashed a tightParams .default (CStrings 4) (stuckStart ++ ks1.map .update) k s m c ∧ c.1 = .expand ∧
    ∀ os2 m' zs, Map.run (a.cfg tightParams) c.2 os2 = .ok (m', zs) →
      Map.exec (a.cfg tightParams) m' .size = .ok (m', .count s.dict.length) := by
  obtain ⟨ks1, k, ks2, s, m, c, q1, q2, q3⟩ := stuck_points a hf
  refine ⟨ks1, k, ks2, s, m, c, q1, q2, q3, fun os2 m' zs h => ?_⟩
  have := C43_stuck q2 (Or.inl q3) h
  rw [q3] at this
  exact this

end Poplar.Props
