import Verif.Proof.NlmRun
/-
  C28: the four node label maps.

  `c` is any of the four classes with any value size (and chunk size 8, 16, 32 or 64); the user labels nodes, skips
  positions, writes values and expands the map (Spec/Labels.lean, Model/NlmRun.lean).
-/
namespace Poplar

/-- template arguments for which the class can be instantiated, and values that fit in memory -/
def NlmClass.Valid : NlmClass → Prop
  | plainBonsai _ | plainFkhash _ => True
  | compactBonsai W vs | compactFkhash W vs => (W = 8 ∨ W = 16 ∨ W = 32 ∨ W = 64) ∧ 0 < vs ∧ vs + 1 < 2 ^ 64

/-- the smallest constructor argument `capa_bits` (a bonsai label map needs at least one chunk) -/
def NlmClass.minBits : NlmClass → Nat
  | compactBonsai W _ => Nat.log2 W
  | _ => 0

namespace Props
open Poplar Poplar.Spec

private def specOf (c : NlmClass) (hc : c.Valid) : (S : NlmSpec c.ops (kindOf c.fk) c.valSize) ×' (S.minb ≤ c.minBits) :=
  match c with
  | .plainBonsai vs => ⟨PlainBonsaiNlm.spec vs, Nat.le_refl _⟩
  | .compactBonsai W vs => ⟨CompactBonsaiNlm.spec W vs hc.1 hc.2.2, Nat.le_refl _⟩
  | .plainFkhash vs => ⟨PlainFkNlm.spec vs, Nat.le_refl _⟩
  | .compactFkhash W vs => ⟨CompactFkNlm.spec W vs (by rcases hc.1 with h | h | h | h <;> omega) hc.2.1 hc.2.2, Nat.le_refl _⟩

variable {c : NlmClass} {b : Nat} {os : List LabelOp}

/-- **C28** Every admissible history succeeds (no access outside a block, through a released pointer or a failed
assertion); afterwards `compare` of node `i`, whose label is `l` and whose value is `v`, with a key returns a pointer to
`v` (and the length of the key) if the key equals `l`, and otherwise null and the length of the longest common prefix. Labels and
keys may contain NUL bytes; the key is not a proper prefix of the label or conversely, as is the case for the comparisons made
by `map` (two C strings, in particular, are never proper prefixes of each other). -/
theorem C28_compare (hc : c.Valid) (hb : c.minBits ≤ b) (hb' : b < 64)
    (hl : (Labels.new (2 ^ b)).LegalRun c.fk c.valSize os) :
    ∃ m, c.build b os = .ok m ∧
      ∀ i l v, ((Labels.new (2 ^ b)).run c.valSize os).at_ i = some (l, v) →
        ∀ key, (key = l ∨ (¬ key <+: l ∧ ¬ l <+: key)) →
          (key = l → ∃ p, c.ops.compare m i key = .ok (some p, key.length) ∧ c.ops.load m p = .ok v) ∧
          (key ≠ l → c.ops.compare m i key = .ok (none, lcp key l)) := by
  obtain ⟨S, hmb⟩ := specOf c hc
  obtain ⟨m0, e0, h0, hs0, hL0⟩ := S.make b (by omega) hb'
  have g0 : GoodLabels S m0 (Labels.new (2 ^ b)) :=
    ⟨h0, fun _ => hs0, fun i _ e => hL0 i e, fun i l v h => by cases h⟩
  obtain ⟨m, e, g⟩ := g0.run_ok hl
  refine ⟨m, by rw [NlmClass.build, e0, R.bind_ok]; exact e, ?_⟩
  intro i l v hi key he
  obtain ⟨h1, h2⟩ := g.lcompare hi he
  exact ⟨fun h => let ⟨p, hp, _, hq⟩ := h1 h; ⟨p, hp, hq⟩, h2⟩

/-- new positions of the 16 positions -/
def demoMove : List (Option Nat) :=
  [none, none, none, some 20, some 7, some 6, none, none, none, none, some 5, none, none, none, none, none]

/-- a history of a bonsai label map: two labels in one chunk inserted in descending order, a label of another chunk, an empty
label, a write, an expansion that permutes the positions, and a label with an interior NUL -/
def demoLabels : List LabelOp :=
  [.put 5 [97, 98, 0], .put 3 [0], .put 10 [98, 0], .put 4 [], .write 5 [97, 98, 0] [1, 2, 3, 4],
   .expand demoMove,
   .put 21 [0, 99, 0]]

/-- the hypotheses are met -/
theorem demoLabels_legal : (Labels.new (2 ^ 4)).LegalRun false 4 demoLabels := by
  have cs : ∀ s : List UInt8, ∃ t : List UInt8, s ++ [0] = t ++ [0] := fun s => ⟨s, rfl⟩
  refine ⟨⟨⟨Or.inr (cs [97, 98]), by decide⟩, by decide⟩, ⟨⟨Or.inr (cs []), by decide⟩, by decide⟩,
    ⟨⟨Or.inr (cs [98]), by decide⟩, by decide⟩, ⟨⟨Or.inl rfl, by decide⟩, by decide⟩, ⟨⟨_, rfl⟩, rfl⟩,
    ⟨rfl, rfl, by decide, ?_, ?_, ?_⟩, ⟨⟨Or.inr (cs [0, 99]), by decide⟩, by decide⟩, trivial⟩
  · intro j hj
    have : ∀ x ∈ demoMove, ∀ j ∈ x, j < 32 := by decide
    exact this _ hj j rfl
  · intro i j k hi hj
    have h1 := (List.getElem?_eq_some_iff.1 hi).1
    have h2 := (List.getElem?_eq_some_iff.1 hj).1
    have : ∀ i j : Fin 16, demoMove[i.1]? = demoMove[j.1]? → demoMove[i.1]? ≠ some none → i.1 = j.1 := by decide
    exact this ⟨i, h1⟩ ⟨j, h2⟩ (hi.trans hj.symm) (by rw [hi]; simp)
  · intro i hi
    simp only [Labels.step, Labels.new] at hi
    by_cases h3 : i = 3
    · subst h3; exact ⟨20, rfl⟩
    by_cases h4 : i = 4
    · subst h4; exact ⟨7, rfl⟩
    by_cases h5 : i = 5
    · subst h5; exact ⟨6, rfl⟩
    by_cases h6 : i = 10
    · subst h6; exact ⟨5, rfl⟩
    simp [h3, h4, h5, h6] at hi

/-- the theorem applied to the history, for a compact bonsai label map with chunks of 8: the value written for the label "ab"
is found at its new position 6, "b" and "ab" do not match, "aa" matches one byte of "ab",
and "\0b" one byte of "\0c" -/
example : ∃ m, (NlmClass.compactBonsai 8 4).build 4 demoLabels = .ok m ∧
    (∃ p, CompactBonsaiNlm.compare 8 4 m 6 [97, 98, 0] = .ok (some p, 3) ∧ CompactBonsaiNlm.load 4 m p = .ok [1, 2, 3, 4]) ∧
    CompactBonsaiNlm.compare 8 4 m 6 [97, 97, 0] = .ok (none, 1) ∧
    CompactBonsaiNlm.compare 8 4 m 5 [97, 98, 0] = .ok (none, 0) ∧
    CompactBonsaiNlm.compare 8 4 m 21 [0, 98, 0] = .ok (none, 1) := by
  obtain ⟨m, e, h⟩ := C28_compare (c := .compactBonsai 8 4) (b := 4) ⟨by decide, by decide, by decide⟩ (by decide) (by decide)
    demoLabels_legal
  exact ⟨m, e, (h 6 [97, 98, 0] [1, 2, 3, 4] (by decide) [97, 98, 0] (Or.inl rfl)).1 rfl,
    (h 6 [97, 98, 0] [1, 2, 3, 4] (by decide) [97, 97, 0] (Or.inr (by decide))).2 (by decide),
    (h 5 [98, 0] [0, 0, 0, 0] (by decide) [97, 98, 0] (Or.inr (by decide))).2 (by decide),
    (h 21 [0, 99, 0] [0, 0, 0, 0] (by decide) [0, 98, 0] (Or.inr (by decide))).2 (by decide)⟩

/-- a history of an fkhash label map -/
def demoLabelsFk : List LabelOp :=
  [.put 0 [97, 98, 0], .dummy, .put 2 [], .put 3 [0], .write 0 [97, 98, 0] [1, 2, 3, 4]]

theorem demoLabelsFk_legal : (Labels.new (2 ^ 4)).LegalRun true 4 demoLabelsFk := by
  have cs : ∀ s : List UInt8, ∃ t : List UInt8, s ++ [0] = t ++ [0] := fun s => ⟨s, rfl⟩
  exact ⟨⟨⟨Or.inr (cs [97, 98]), by decide⟩, by decide⟩, rfl, ⟨⟨Or.inl rfl, by decide⟩, by decide⟩,
    ⟨⟨Or.inr (cs []), by decide⟩, by decide⟩, ⟨⟨_, rfl⟩, rfl⟩, trivial⟩

end Props
end Poplar
