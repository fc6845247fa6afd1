import Verif.Props.C15_Pointers
import Verif.Proof.Between
/-
  C47: value pointers of all maps are valid until the next insertion.
-/
namespace Poplar.Props
open Poplar Poplar.Spec

variable {a : Alias} {p : Params} {i : Init} {K : Key → Prop} {os1 os2 : List Op} {k : Key}
  {m0 m1 m2 m3 : Map a.Trie a.Nlm} {xs ys : List Out} {l : Loc}

/-- **C47** In all six maps, a pointer `l` returned by `update(k)` or `find(k)` after a history `os1` is valid as long as no key is inserted,
whatever else is done: let `os2` be any history of `find`s, `size`s, and `update`s and writes to keys that are already in the
map (or malformed). Then `find(k)` still returns the same pointer, reading through it gives the value of `k`, and
writing through it is the same as writing to `k`. -/
theorem C47_pointers_until_insertion_any (h : a.Admissible p i K (os1 ++ .update k :: os2)) (hk : ¬ Malformed k)
    {s2 : AState} {zs2 : List Out} (hs2 : AState.run p.valSize {} (os1 ++ [.update k]) = some (s2, zs2))
    (hold : ∀ o ∈ os2, ∀ k', o.inserts = some k' → s2.dict.get k' ≠ none)
    {s : AState} {zs : List Out} (hs : AState.run p.valSize {} (os1 ++ .update k :: os2) = some (s, zs))
    (h0 : a.new p i = .ok m0) (h1 : Map.run (a.cfg p) m0 os1 = .ok (m1, xs))
    (h2 : Map.update (a.cfg p) m1 k = .ok (m2, .ptr l) ∨ (Map.find (a.cfg p) m1 k = .ok (some l) ∧ m2 = m1))
    (h3 : Map.run (a.cfg p) m2 os2 = .ok (m3, ys)) :
    Map.find (a.cfg p) m3 k = .ok (some l) ∧
    (∃ v, s.dict.get k = some v ∧ Map.load (a.cfg p) m3 l = .ok v) ∧
    ∀ w, w.length = p.valSize → ∃ m4, Map.store (a.cfg p) m3 l w = .ok m4 ∧
      ∀ k', K k' → Map.exec (a.cfg p) m4 (.find k') = .ok (m4, .found ((s.dict.set k w).get k')) := by
  have hkey : K k := ((h.legal (.update k) (by simp)).1 k rfl).resolve_right hk
  obtain ⟨s1, xs1, xs2, f1, f2, _⟩ := AState.run_split hs
  obtain ⟨s2', x2, xs3, g1, g2, _⟩ := AState.run_cons f2
  have hsn : AState.run p.valSize {} (os1 ++ [.update k]) = some (s2', xs1 ++ [x2]) := AState.run_snoc f1 g1
  rw [hs2] at hsn
  injection hsn with hsn
  injection hsn with e1 e2
  subst e1
  obtain ⟨hsb, r1, r2, _, _⟩ := Alias.reach h.append_left f1 h0 h1
  have h' : a.Admissible p i K ((os1 ++ [.update k]) ++ os2) := by simpa using h
  obtain ⟨q1, q2, q3⟩ := Alias.ptr_here h f1 g1 hk hsb r1 r2 h2
  obtain ⟨t1, t2, t3, _⟩ := Alias.between hs2 hsb os2 h' q1 q2 hold g2 h3
  have hptr := t3 l k hkey q3
  obtain ⟨u1, u2⟩ := Alias.ptr_use h.params hsb hkey t1 hptr
  refine ⟨?_, u1, u2⟩
  rcases Map.State.find h.keys (Or.inr (Or.inr t1)) hkey with ⟨hn, _⟩ | ⟨l', e1, _, e3⟩
  · obtain ⟨v, hv, _⟩ := u1
    rw [hv] at hn; cases hn
  · rw [e1, Alias.ptr_one h.params hsb e3 hptr]

/-- **C47** The same for keys over at most 253 byte values: nothing is inserted if all keys used by `os2` are `k` or used before. -/
theorem C47_pointers_until_insertion (h : a.Admissible p i K (os1 ++ .update k :: os2)) (hA : SmallAlphabet (os1 ++ .update k :: os2))
    (hk : ¬ Malformed k) (hold : ∀ k' ∈ inserted os2, k' = k ∨ k' ∈ inserted os1)
    (h0 : a.new p i = .ok m0) (h1 : Map.run (a.cfg p) m0 os1 = .ok (m1, xs))
    (h2 : Map.update (a.cfg p) m1 k = .ok (m2, .ptr l) ∨ (Map.find (a.cfg p) m1 k = .ok (some l) ∧ m2 = m1))
    (h3 : Map.run (a.cfg p) m2 os2 = .ok (m3, ys)) :
    Map.find (a.cfg p) m3 k = .ok (some l) ∧
    (∃ v, lastValue p.valSize k (os1 ++ .update k :: os2).reverse = some v ∧ Map.load (a.cfg p) m3 l = .ok v) ∧
    ∀ w, w.length = p.valSize → ∃ m4, Map.store (a.cfg p) m3 l w = .ok m4 ∧
      ∀ k', K k' → Map.exec (a.cfg p) m4 (.find k') =
        .ok (m4, .found (lastValue p.valSize k' ((os1 ++ Op.update k :: os2) ++ [Op.write k w]).reverse)) := by
  obtain ⟨bs, hb⟩ := hA.run (vs := p.valSize)
  have hA2 : SmallAlphabet (os1 ++ [.update k]) := by
    have : SmallAlphabet ((os1 ++ [.update k]) ++ os2) := by simpa using hA
    exact this.left
  obtain ⟨bs2, hb2⟩ := hA2.run (vs := p.valSize)
  obtain ⟨u0, u1, u2⟩ := C47_pointers_until_insertion_any h hk hb2 (by
    intro o ho k' hk'
    rw [show ((Spec.run p.valSize [] (os1 ++ [.update k])).1.get k' ≠ none) = _ from propext (Spec.get_ne_none p.valSize _ k')]
    rw [Spec.inserted_append, List.mem_append]
    rcases hold k' (List.mem_filterMap.2 ⟨o, ho, hk'⟩) with rfl | hm
    · right; simp [inserted, Op.inserts, hk]
    · exact Or.inl hm) hb h0 h1 h2 h3
  refine ⟨u0, ?_, ?_⟩
  · obtain ⟨v, v1, v2⟩ := u1
    exact ⟨v, by rw [← Spec.get_run]; exact v1, v2⟩
  · intro w hw
    obtain ⟨m4, e1, e2⟩ := u2 w hw
    refine ⟨m4, e1, ?_⟩
    intro k' hk'
    rw [e2 k' hk', ← Spec.get_run, Spec.run_append p.valSize [] (os1 ++ Op.update k :: os2) [Op.write k w]]
    simp only [Spec.run, step, hk, if_false]

/-- the hypotheses are met: a pointer to the value of `"abb"`, inserted after the history `demo`, is good after doing `demo` again -/
example (a : Alias) : ∃ m0 m1 xs m2 l m3 ys, a.new demoParams .default = .ok m0 ∧ Map.run (a.cfg demoParams) m0 demo = .ok (m1, xs) ∧
    Map.update (a.cfg demoParams) m1 [97, 98, 98, 0] = .ok (m2, .ptr l) ∧ Map.run (a.cfg demoParams) m2 demo = .ok (m3, ys) ∧
    Map.find (a.cfg demoParams) m3 [97, 98, 98, 0] = .ok (some l) ∧ Map.load (a.cfg demoParams) m3 l = .ok [0, 0, 0, 0] := by
  have h := demo_admissible a .default trivial (demo ++ .update [97, 98, 98, 0] :: demo) (by decide) (by decide)
  have hA : SmallAlphabet (demo ++ .update [97, 98, 98, 0] :: demo) := small_of [97, 98, 99, 120] (by decide) (by decide)
  obtain ⟨m0, m1, xs, m2, l, m3, ys, e1, e2, e3, e4⟩ := C15_hypotheses_met h hA (by decide) (within a (by decide))
  obtain ⟨u0, ⟨v, v1, v2⟩, _⟩ := C47_pointers_until_insertion h hA (by decide) (by decide) e1 e2 (Or.inl e3) e4
  have hv : lastValue 4 [97, 98, 98, 0] (demo ++ Op.update [97, 98, 98, 0] :: demo).reverse = some [0, 0, 0, 0] := by decide
  have v1 : lastValue 4 [97, 98, 98, 0] (demo ++ Op.update [97, 98, 98, 0] :: demo).reverse = some v := v1
  rw [hv] at v1
  injection v1 with v1
  subst v1
  exact ⟨m0, m1, xs, m2, l, m3, ys, e1, e2, e3, e4, u0, v2⟩

end Poplar.Props
