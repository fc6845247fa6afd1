import Verif.Model.Strings
import Verif.Proof.History
/-
  String histories are histories of the terminated keys.
-/
namespace Poplar
open Spec

theorem strlen_ok {mem : List UInt8} (h : 0 ∈ mem) : strlen mem = .ok (mem.takeWhile (· ≠ 0)).length := by
  induction mem with
  | nil => cases h
  | cons c r ih =>
    unfold strlen
    by_cases hc : c = 0
    · subst hc; simp
    · rw [if_neg hc, ih (by rcases List.mem_cons.1 h with h | h; exact absurd h.symm hc; exact h), R.bind_ok]
      simp [hc]

theorem strlen_oob {mem : List UInt8} (h : 0 ∉ mem) : strlen mem = .error .oob := by
  induction mem with
  | nil => rfl
  | cons c r ih =>
    unfold strlen
    rw [if_neg (by rintro rfl; simp at h), ih (by intro hc; exact h (by simp [hc]))]
    rfl

theorem takeWhile_nul {mem : List UInt8} (h : 0 ∈ mem) :
    ∃ r, mem = mem.takeWhile (· ≠ 0) ++ 0 :: r := by
  induction mem with
  | nil => cases h
  | cons c r ih =>
    by_cases hc : c = 0
    · subst hc; exact ⟨r, by simp⟩
    · obtain ⟨q, hq⟩ := ih (by rcases List.mem_cons.1 h with h | h; exact absurd h.symm hc; exact h)
      exact ⟨q, by simpa [hc] using hq⟩

theorem not_mem_takeWhile (mem : List UInt8) : 0 ∉ mem.takeWhile (· ≠ 0) := by
  induction mem with
  | nil => simp
  | cons c r ih =>
    by_cases hc : c = 0
    · simp [hc]
    · simp only [List.takeWhile_cons, decide_eq_true_eq, hc, not_false_eq_true, if_true, ne_eq, List.mem_cons, not_or]
      exact ⟨fun e => hc e.symm, by simpa using ih⟩

theorem makeCharRangeS_eq (s : List UInt8) : makeCharRangeS s = .ok (s ++ [0]) := by
  unfold makeCharRangeS bytesAt
  rw [if_pos (by simp), List.take_of_length_le (by simp)]

theorem makeCharRangeC_eq {mem : List UInt8} (h : 0 ∈ mem) : makeCharRangeC mem = .ok (mem.takeWhile (· ≠ 0) ++ [0]) := by
  obtain ⟨r, hr⟩ := takeWhile_nul h
  unfold makeCharRangeC bytesAt
  rw [strlen_ok h, R.bind_ok]
  generalize mem.takeWhile (· ≠ 0) = s at hr ⊢
  subst hr
  rw [if_pos (by simp)]
  congr 1
  rw [show s ++ 0 :: r = (s ++ [0]) ++ r by simp]
  exact List.take_left' (by simp)

theorem range_ok {k : KeySrc} (h : k.Legal) : KeySrc.range k = .ok (k.chars ++ [0]) := by
  cases k with
  | string s => exact makeCharRangeS_eq s
  | cstr mem => exact makeCharRangeC_eq h

theorem KeySrc.Legal.nul {k : KeySrc} (h : k.Legal) : 0 ∉ k.chars := by
  cases k with
  | string s => exact h
  | cstr mem => exact not_mem_takeWhile mem

theorem cstring_chars {k : KeySrc} (h : k.Legal) : CString (k.chars ++ [0]) :=
  ⟨k.chars, fun _ hc e => KeySrc.Legal.nul h (e ▸ hc), rfl⟩

theorem not_malformed_term (s : List UInt8) : ¬ Malformed (s ++ [0]) := by
  rintro (h | ⟨t, c, h, hc⟩)
  · simp at h
  · have := List.append_inj_right' h rfl
    injection this with this
    exact hc this.symm

/-- the operation on the terminated key -/
def Spec.SOp.toOp : SOp → Op
  | .find k => .find (k.chars ++ [0])
  | .update k => .update (k.chars ++ [0])
  | .write k v => .write (k.chars ++ [0]) v
  | .size => .size

theorem Map.srun_eq {τ ν : Type} (cfg : MapCfg τ ν) : ∀ (os : List SOp) (m : Map τ ν),
    (∀ o ∈ os, ∀ k, o.key? = some k → k.Legal) → Map.srun cfg m os = Map.run cfg m (os.map SOp.toOp)
  | [], _, _ => rfl
  | o :: os, m, h => by
    have he : Map.sexec cfg m o = Map.exec cfg m o.toOp := by
      cases o with
      | find k => rw [sexec, range_ok (h _ List.mem_cons_self k rfl), R.bind_ok]; rfl
      | update k => rw [sexec, range_ok (h _ List.mem_cons_self k rfl), R.bind_ok]; rfl
      | write k v => rw [sexec, range_ok (h _ List.mem_cons_self k rfl), R.bind_ok]; rfl
      | size => rfl
    simp only [Map.srun, Map.run, List.map_cons, he]
    cases Map.exec cfg m o.toOp with
    | error e => rfl
    | ok x =>
      simp only [R.bind_ok]
      rw [Map.srun_eq cfg os x.1 (fun o ho => h o (by simp [ho]))]

/-- the entries with terminated keys -/
def Spec.Dict.term (d : Dict) : Dict := d.map (fun e => (e.1 ++ [0], e.2))

theorem Spec.Dict.term_get (d : Dict) (k : List UInt8) : d.term.get (k ++ [0]) = d.get k := by
  induction d with
  | nil => rfl
  | cons e d ih =>
    show Dict.get ((e.1 ++ [0], e.2) :: Dict.term d) _ = _
    simp only [Dict.get, ih]
    by_cases h : e.1 = k
    · simp [h]
    · rw [if_neg h, if_neg (fun hc => h (List.append_cancel_right hc))]

theorem Spec.Dict.term_set (d : Dict) (k : List UInt8) (v : Val) : d.term.set (k ++ [0]) v = (d.set k v).term := by
  induction d with
  | nil => rfl
  | cons e d ih =>
    show Dict.set ((e.1 ++ [0], e.2) :: Dict.term d) _ _ = _
    simp only [Dict.set, ih]
    by_cases h : e.1 = k
    · simp [h, Dict.term]
    · rw [if_neg h, if_neg (fun hc => h (List.append_cancel_right hc))]; rfl

theorem Spec.sstep_eq (vs : Nat) (d : Dict) (o : SOp) :
    step vs d.term o.toOp = ((sstep vs d o).1.term, (sstep vs d o).2) := by
  cases o with
  | find k => simp only [SOp.toOp, step, sstep, not_malformed_term, if_false, Dict.term_get]
  | update k =>
    simp only [SOp.toOp, step, sstep, not_malformed_term, if_false, Dict.term_get]
    cases d.get k.chars with
    | some v => rfl
    | none => simp only [Dict.term_set]
  | write k v => simp only [SOp.toOp, step, sstep, not_malformed_term, if_false, Dict.term_set]
  | size => simp only [SOp.toOp, step, sstep, Dict.term, List.length_map]

theorem Spec.srun_eq (vs : Nat) : ∀ (os : List SOp) (d : Dict),
    run vs d.term (os.map SOp.toOp) = ((srun vs d os).1.term, (srun vs d os).2)
  | [], _ => rfl
  | o :: os, d => by
    simp only [run, srun, List.map_cons, sstep_eq, srun_eq vs os]

theorem Spec.inserted_toOp (os : List SOp) : inserted (os.map SOp.toOp) = (sinserted os).map (· ++ [0]) := by
  induction os with
  | nil => rfl
  | cons o os ih =>
    simp only [inserted, sinserted] at ih ⊢
    cases o <;> simp [List.filterMap_cons, SOp.toOp, Op.inserts, SOp.inserts, not_malformed_term, ih]

theorem Spec.SOp.Legal.toOp {vs : Nat} {o : SOp} (h : o.Legal vs) : o.toOp.Legal vs (CStrings vs) := by
  constructor
  · intro k hk
    left
    cases o with
    | size => cases hk
    | find q => injection hk with hk; subst hk; exact ⟨cstring_chars (h.1 q rfl).1, by have := (h.1 q rfl).2; simpa using this⟩
    | update q => injection hk with hk; subst hk; exact ⟨cstring_chars (h.1 q rfl).1, by have := (h.1 q rfl).2; simpa using this⟩
    | write q v => injection hk with hk; subst hk; exact ⟨cstring_chars (h.1 q rfl).1, by have := (h.1 q rfl).2; simpa using this⟩
  · intro k v e
    cases o <;> cases e
    exact h.2 _ _ rfl

end Poplar
