import Verif.Props.Demo
import Verif.Proof.Offsets
import Verif.Proof.Prefixes
/-
  C46: the value pointers are not aligned for the value type.
-/
namespace Poplar.Props
open Poplar Poplar.Spec

/-- **C46** In a plain map the value of a key is right behind what is stored of the key, at the beginning of a heap block of its own:
after any history, `find` of the `j`-th key inserted returns a pointer whose offset in its block is the length of the `j`-th part.
The offset is that length and not a multiple of the alignment of the value type. -/
theorem C46_offsets {a : Alias} {p : Params} {i : Init} {K : Key → Prop} {os : List Op} {m0 m1 : Map a.Trie a.Nlm} {xs : List Out}
    (ha : a = .plainBonsai ∨ a = .plainFkhash) (h : a.Admissible p i K os) {s : AState} {ys : List Out}
    (hs : AState.run p.valSize {} os = some (s, ys))
    (h0 : a.new p i = .ok m0) (h1 : Map.run (a.cfg p) m0 os = .ok (m1, xs))
    {j : Nat} {k q : Key} (hk : (s.dict.map (·.1))[j]? = some k) (hq : (storedParts (s.dict.map (·.1)))[j]? = some q) :
    ∃ b, Map.find (a.cfg p) m1 k = .ok (some ⟨.heap b, q.length⟩) := by
  obtain ⟨hsb, r1, _⟩ := Alias.reach h hs h0 h1
  obtain ⟨b, hb⟩ := Alias.offsets ha h0 os h hs h1 hsb j k q hk hq
  have hne : s.dict ≠ [] := by intro e; rw [e] at hk; simp at hk
  have hL := r1.live hne
  have hmem : k ∈ s.dict.map (·.1) := List.mem_of_getElem? hk
  have hK : K k := by
    obtain ⟨e, e1, e2⟩ := List.mem_map.1 hmem
    rw [← e2]; exact hL.keys e e1
  rcases r1.find h.keys hK with ⟨hn, _⟩ | ⟨l, e1, _, e3⟩
  · exact absurd hmem (Dict.get_eq_none.1 hn)
  · exact ⟨b, by rw [e1, Alias.ptr_unique ha h.params hsb e3 hb]⟩

/-- **C46** In all six maps: the value of the first key is in a block of its own or at the beginning of a buffer, behind the
label and, in the compact maps, the length of the label. -/
theorem C46_first_offset (a : Alias) (p : Params) (hp : p.Valid) (i : Init) (hi : i.Fits) {k : Key} (hk : ¬ Malformed k)
    (hlen : k.length + p.valSize < 2 ^ 64) :
    ∃ m0 m1 blk, a.new p i = .ok m0 ∧
      Map.update (a.cfg p) m0 k = .ok (m1, .ptr ⟨blk, labelCost a p.valSize k - p.valSize⟩) :=
  Alias.first_offset a p hp i hi hk hlen

private theorem groups7_succ (n : Nat) : groups7 (n + 1) = groups7 n ∨ groups7 (n + 1) = groups7 n + 1 ∧ groups7 (n + 2) = groups7 (n + 1) := by
  induction n using Nat.strongRecOn with
  | ind n ih =>
    by_cases h1 : n + 1 < 128
    · left
      rw [groups7, if_pos h1, groups7, if_pos (by omega)]
    · by_cases h2 : n < 128
      · have : n = 127 := by omega
        subst this
        right
        constructor <;> simp [groups7]
      · have e1 : groups7 (n + 1) = 1 + groups7 ((n + 1) / 128) := by rw [groups7, if_neg (by omega)]
        have e2 : groups7 (n + 2) = 1 + groups7 ((n + 2) / 128) := by rw [groups7, if_neg (by omega)]
        have e0 : groups7 n = 1 + groups7 (n / 128) := by rw [groups7, if_neg (by omega)]
        rw [e0, e1, e2]
        by_cases h3 : (n + 1) / 128 = n / 128
        · left; rw [h3]
        · have h4 : (n + 1) / 128 = n / 128 + 1 := by omega
          have h5 : (n + 2) / 128 = n / 128 + 1 := by omega
          rw [h4, h5]
          rcases ih (n / 128) (by omega) with h | ⟨h, _⟩
          · left; rw [h]
          · right; constructor <;> omega

private theorem dvd_succ {A n : Nat} (hA : 2 ≤ A) (h : A ∣ n) (h' : A ∣ n + 1) : False := by
  have := (Nat.dvd_add_right h).1 h'
  have := Nat.le_of_dvd (by decide) this
  omega

/-- **C46** For every map type, size of the value type, chunk size and way to construct the map, and for every alignment `A` of at least two there is
a key of at most two characters whose value, right after it was inserted as the first key, is not at a multiple of `A`, if all blocks that `new` returns are.
Dereferencing the pointer that `update` returns is then undefined behaviour for a value type with that alignment. -/
theorem C46_unaligned (a : Alias) (p : Params) (hp : p.Valid) (hvs : p.valSize + 3 < 2 ^ 64) (i : Init) (hi : i.Fits)
    {A : Nat} (hA : 2 ≤ A) :
    ∃ k : Key, CString k ∧ k.length ≤ 3 ∧ ∃ m0 m1 l, a.new p i = .ok m0 ∧ Map.update (a.cfg p) m0 k = .ok (m1, .ptr l) ∧
      ∀ addr : Blk → Nat, (∀ b, A ∣ addr b) → ¬ A ∣ addr l.blk + l.off := by
  suffices hmain : ∃ k : Key, (k = [0] ∨ k = [97, 0] ∨ k = [97, 97, 0]) ∧ ¬ A ∣ labelCost a p.valSize k - p.valSize by
    obtain ⟨k, hk, hd⟩ := hmain
    have hM : ¬ Malformed k := by rcases hk with rfl | rfl | rfl <;> decide
    have hl : k.length ≤ 3 := by rcases hk with rfl | rfl | rfl <;> decide
    have hc : CString k := by
      rcases hk with rfl | rfl | rfl
      · exact ⟨[], by simp, rfl⟩
      · exact ⟨[97], by simp, rfl⟩
      · exact ⟨[97, 97], by simp, rfl⟩
    obtain ⟨m0, m1, blk, e1, e2⟩ := C46_first_offset a p hp i hi hM (by omega)
    exact ⟨k, hc, hl, m0, m1, _, e1, e2, fun addr ha hd' => hd ((Nat.dvd_add_right (ha _)).1 hd')⟩
  have hplain : ¬ A ∣ 1 := fun h => by have := Nat.le_of_dvd (by decide) h; omega
  have hcomp : ∀ g : Key → Nat, (∀ k : Key, g k = groups7 (k.length - 1 + p.valSize) + (k.length - 1 + p.valSize)) →
      ∃ k : Key, (k = [0] ∨ k = [97, 0] ∨ k = [97, 97, 0]) ∧ ¬ A ∣ g k - p.valSize := by
    intro g hg
    by_contra hc
    have hall : ∀ k : Key, (k = [0] ∨ k = [97, 0] ∨ k = [97, 97, 0]) → A ∣ g k - p.valSize :=
      fun k hk => by_contra fun hn => hc ⟨k, hk, hn⟩
    have e0 := hall [0] (by simp)
    have e1 := hall [97, 0] (by simp)
    have e2 := hall [97, 97, 0] (by simp)
    rw [hg] at e0 e1 e2
    simp only [List.length_cons, List.length_nil] at e0 e1 e2
    rw [show (0 + 1 - 1 + p.valSize) = p.valSize by omega] at e0
    rw [show (0 + 1 + 1 - 1 + p.valSize) = p.valSize + 1 by omega] at e1
    rw [show (0 + 1 + 1 + 1 - 1 + p.valSize) = p.valSize + 2 by omega] at e2
    rcases groups7_succ p.valSize with h | ⟨h1, h2⟩
    · rw [h] at e1
      exact dvd_succ hA e0 (by rw [show groups7 p.valSize + p.valSize - p.valSize + 1 = groups7 p.valSize + (p.valSize + 1) - p.valSize by omega]; exact e1)
    · rw [h2] at e2
      exact dvd_succ hA e1 (by
        rw [show groups7 (p.valSize + 1) + (p.valSize + 1) - p.valSize + 1 = groups7 (p.valSize + 1) + (p.valSize + 2) - p.valSize by omega]; exact e2)
  cases a with
  | plainBonsai => exact ⟨[0], Or.inl rfl, by simp only [labelCost]; rw [show [(0 : UInt8)].length + p.valSize - p.valSize = 1 by simp]; exact hplain⟩
  | plainFkhash => exact ⟨[0], Or.inl rfl, by simp only [labelCost]; rw [show [(0 : UInt8)].length + p.valSize - p.valSize = 1 by simp]; exact hplain⟩
  | semiCompactBonsai => exact hcomp _ fun _ => rfl
  | compactBonsai => exact hcomp _ fun _ => rfl
  | semiCompactFkhash => exact hcomp _ fun _ => rfl
  | compactFkhash => exact hcomp _ fun _ => rfl

/-- the hypotheses are met: the values of `"abc"`, `"ab"` and `"ax"` in a plain map of `int`s are at offsets 4, 0 and 1 -/
example (a : Alias) (ha : a = .plainBonsai ∨ a = .plainFkhash) : ∃ m0 m1 xs b b' b'', a.new demoParams .default = .ok m0 ∧
    Map.run (a.cfg demoParams) m0 demo = .ok (m1, xs) ∧
    Map.find (a.cfg demoParams) m1 [97, 98, 99, 0] = .ok (some ⟨.heap b, 4⟩) ∧
    Map.find (a.cfg demoParams) m1 [97, 98, 0] = .ok (some ⟨.heap b', 0⟩) ∧
    Map.find (a.cfg demoParams) m1 [97, 120, 0] = .ok (some ⟨.heap b'', 1⟩) := by
  have hA : SmallAlphabet demo := small_of [97, 98, 99, 120] (by decide) (by decide)
  obtain ⟨bs, hb⟩ := hA.run (vs := 4)
  have h := demo_admissible a .default trivial demo (by decide) (by decide)
  obtain ⟨hsb, m0, e1, e2⟩ := Alias.after h hb
  obtain ⟨⟨m1, xs⟩, e3, _⟩ := e2.get (within a (by decide))
  obtain ⟨b, h1⟩ := C46_offsets ha h hb e1 e3 (j := 0) (k := [97, 98, 99, 0]) (q := [97, 98, 99, 0]) (by show ((Spec.run 4 [] demo).1.map (·.1))[0]? = _; decide) (by show (storedParts ((Spec.run 4 [] demo).1.map (·.1)))[0]? = _; decide)
  obtain ⟨b', h2⟩ := C46_offsets ha h hb e1 e3 (j := 1) (k := [97, 98, 0]) (q := []) (by show ((Spec.run 4 [] demo).1.map (·.1))[1]? = _; decide) (by show (storedParts ((Spec.run 4 [] demo).1.map (·.1)))[1]? = _; decide)
  obtain ⟨b'', h3⟩ := C46_offsets ha h hb e1 e3 (j := 2) (k := [97, 120, 0]) (q := [0]) (by show ((Spec.run 4 [] demo).1.map (·.1))[2]? = _; decide) (by show (storedParts ((Spec.run 4 [] demo).1.map (·.1)))[2]? = _; decide)
  exact ⟨m0, m1, xs, b, b', b'', e1, e3, h1, h2, h3⟩

/-- and the premises of `C46_unaligned` for a map of `int`s -/
example (a : Alias) : ∃ k : Key, CString k ∧ k.length ≤ 3 ∧ ∃ m0 m1 l, a.new demoParams .default = .ok m0 ∧
    Map.update (a.cfg demoParams) m0 k = .ok (m1, .ptr l) ∧ ∀ addr : Blk → Nat, (∀ b, 4 ∣ addr b) → ¬ 4 ∣ addr l.blk + l.off :=
  C46_unaligned a demoParams demo_valid (by decide) .default trivial (by decide)

end Poplar.Props
