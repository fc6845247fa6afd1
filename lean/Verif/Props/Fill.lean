import Verif.Props.Demo
/-
  A family of histories that use up byte values, and what the specification says about them.
-/
namespace Poplar.Props
open Poplar Poplar.Spec

/-- insert the one-byte strings of `l` -/
def fillKeys (l : List UInt8) : List Op := l.map (fun c => .update [c, 0])

/-- the entries of one-byte strings -/
def ones (vs : Nat) (l : List UInt8) : Dict := l.map (fun c => ([c, 0], List.replicate vs 0))

theorem get_ones (vs : Nat) (l : List UInt8) (c : UInt8) (h : c ∉ l) : (ones vs l).get [c, 0] = none := by
  induction l with
  | nil => rfl
  | cons b l ih =>
    simp only [List.mem_cons, not_or] at h
    simp only [ones, List.map_cons, Dict.get]
    rw [if_neg (by intro e; injection e with e _; exact h.1 e.symm)]
    exact ih h.2

theorem get_ones_long (vs : Nat) (l : List UInt8) (c d : UInt8) (k : Key) (h : d ≠ 0) : (ones vs l).get (c :: d :: k) = none := by
  induction l with
  | nil => rfl
  | cons b l ih =>
    simp only [ones, List.map_cons, Dict.get]
    rw [if_neg (by intro e; injection e with _ e; injection e with e _; exact h e.symm)]
    exact ih

theorem set_ones_length (vs : Nat) (l : List UInt8) (c d : UInt8) (k : Key) (v : Val) (h : d ≠ 0) :
    (ones vs l).set (c :: d :: k) v = ones vs l ++ [(c :: d :: k, v)] := by
  induction l with
  | nil => rfl
  | cons b l ih =>
    simp only [ones, List.map_cons, Dict.set, List.cons_append]
    rw [if_neg (by intro e; injection e with _ e; injection e with e _; exact h e.symm)]
    exact congrArg _ ih

theorem set_ones (vs : Nat) (l : List UInt8) (c : UInt8) (h : c ∉ l) :
    (ones vs l).set [c, 0] (List.replicate vs 0) = ones vs (l ++ [c]) := by
  induction l with
  | nil => rfl
  | cons b l ih =>
    simp only [List.mem_cons, not_or] at h
    simp only [ones, List.map_cons, Dict.set, List.cons_append]
    rw [if_neg (by intro e; injection e with e _; exact h.1 e.symm)]
    exact congrArg _ (ih h.2)

theorem branchPos_ones (vs : Nat) (l : List UInt8) (c : UInt8) (k : Key) (h : c ∉ l) : branchPos (ones vs l) (c :: k) = 0 := by
  induction l with
  | nil => rfl
  | cons b l ih =>
    simp only [List.mem_cons, not_or] at h
    have := ih h.2
    simp only [ones, branchPos, List.map_cons, List.foldr_cons] at this ⊢
    rw [this]
    simp [lcp, h.1]

theorem branchPos_ones_mem (vs : Nat) (l : List UInt8) (c d : UInt8) (k : Key) (h : c ∈ l) (hd : d ≠ 0) :
    branchPos (ones vs l) (c :: d :: k) = 1 := by
  have hle : ∀ l : List UInt8, branchPos (ones vs l) (c :: d :: k) ≤ 1 := by
    intro l
    induction l with
    | nil => exact Nat.zero_le _
    | cons b l ih =>
      simp only [ones, branchPos, List.map_cons, List.foldr_cons] at ih ⊢
      have : lcp (c :: d :: k) [b, 0] ≤ 1 := by
        simp only [lcp, hd, if_false]; split <;> omega
      omega
  induction l with
  | nil => cases h
  | cons b l ih =>
    have h1 := hle (b :: l)
    rcases List.mem_cons.1 h with rfl | h
    · simp only [ones, branchPos, List.map_cons, List.foldr_cons] at h1 ⊢
      have : lcp (c :: d :: k) [c, 0] = 1 := by simp [lcp, hd]
      omega
    · have h2 := ih h
      simp only [ones, branchPos, List.map_cons, List.foldr_cons] at h1 h2 ⊢
      omega

/-- the specification on a history of one-byte strings -/
theorem run_fill (vs : Nat) : ∀ (l D bs : List UInt8), D ≠ [] → (∀ c ∈ l, c ≠ 0 ∧ c ∉ D) → l.Nodup → (∀ b ∈ bs, b ∈ D) →
    bs.length + l.length ≤ 253 →
    AState.run vs ⟨ones vs D, bs⟩ (fillKeys l) =
      some (⟨ones vs (D ++ l), l.reverse ++ bs⟩, List.replicate l.length (.value (List.replicate vs 0))) := by
  intro l
  induction l with
  | nil => intro D bs _ _ _ _ _; simp [fillKeys, AState.run]
  | cons c l ih =>
    intro D bs hD hl hn hb hlen
    obtain ⟨hc0, hcD⟩ := hl c (by simp)
    have hm : ¬ Malformed [c, 0] := by
      rintro (h | ⟨s, d, h1, h2⟩)
      · cases h
      · have h3 : [c] ++ [0] = s ++ [d] := h1
        have := List.append_inj_right' h3 rfl
        injection this with h4
        exact h2 h4.symm
    have hne : ones vs D ≠ [] := by simp [ones, hD]
    have hbr : BranchesAt (ones vs D) [c, 0] c :=
      ⟨hne, get_ones vs D c hcD, by rw [branchByte, branchPos_ones vs D c _ hcD]; rfl⟩
    have hnb : AState.newByte ⟨ones vs D, bs⟩ (.update [c, 0]) = some c :=
      (AState.newByte_iff _ _ _).2 ⟨_, by simp [Op.inserts, hm], hbr, hc0, fun h => hcD (hb c h)⟩
    simp only [List.length_cons] at hlen
    have hstep : AState.step vs ⟨ones vs D, bs⟩ (.update [c, 0]) =
        some (⟨ones vs (D ++ [c]), c :: bs⟩, .value (List.replicate vs 0)) := by
      simp only [AState.step, hnb]
      rw [if_pos (by omega)]
      simp only [step, hm, if_false, get_ones vs D c hcD, set_ones vs D c hcD]
    obtain ⟨hcl, hnl⟩ := List.nodup_cons.1 hn
    have hrec := ih (D ++ [c]) (c :: bs) (by simp) (by
        intro d hd
        refine ⟨(hl d (by simp [hd])).1, ?_⟩
        simp only [List.mem_append, List.mem_singleton, not_or]
        exact ⟨(hl d (by simp [hd])).2, fun e => hcl (e ▸ hd)⟩) hnl (by
        intro b hb'
        rcases List.mem_cons.1 hb' with rfl | hb'
        · simp
        · simp [hb b hb']) (by simp only [List.length_cons]; omega)
    simp only [fillKeys, List.map_cons, AState.run, Option.bind_eq_bind]
    rw [hstep]
    simp only [Option.bind_some]
    rw [show List.map (fun c => Op.update [c, 0]) l = fillKeys l from rfl, hrec]
    simp [List.replicate_succ]

theorem fill_inserted (l : List UInt8) : inserted (fillKeys l) = l.map (fun c => [c, 0]) := by
  induction l with
  | nil => rfl
  | cons c l ih =>
    have hm : ¬ Malformed [c, 0] := by
      rintro (h | ⟨s, d, h1, h2⟩)
      · cases h
      · have h3 : [c] ++ [0] = s ++ [d] := h1
        have := List.append_inj_right' h3 rfl
        injection this with h4
        exact h2 h4.symm
    simp only [fillKeys, inserted, List.map_cons, List.filterMap_cons, Op.inserts, hm, if_false]
    exact congrArg _ ih

theorem fill_cost (l : List UInt8) : cost (fillKeys l) = 2 * l.length := by
  induction l with
  | nil => rfl
  | cons c l ih =>
    simp only [cost, fillKeys, List.map_cons, List.sum_cons, Op.cost, List.length_cons, List.length_nil] at ih ⊢
    omega

/-- the byte values 2 .. 254 -/
def bytes253 : List UInt8 := (List.range 253).map (fun c => UInt8.ofNat (c + 2))

/-- a history that uses up 253 byte values -/
def fill : List Op := fillKeys (1 :: bytes253)

theorem bytes253_mem (c : UInt8) : c ∈ bytes253 ↔ 2 ≤ c.toNat ∧ c.toNat ≤ 254 := by
  simp only [bytes253, List.mem_map, List.mem_range]
  constructor
  · rintro ⟨n, hn, rfl⟩
    simp only [UInt8.toNat_ofNat']
    omega
  · rintro ⟨h1, h2⟩
    refine ⟨c.toNat - 2, by omega, ?_⟩
    rw [show c.toNat - 2 + 2 = c.toNat by omega]
    simp

theorem bytes253_nodup : bytes253.Nodup := by
  rw [bytes253]
  refine List.Nodup.map_on ?_ List.nodup_range
  intro x hx y hy e
  rw [List.mem_range] at hx hy
  have := congrArg UInt8.toNat e
  simp only [UInt8.toNat_ofNat'] at this
  omega

theorem bytes253_length : bytes253.length = 253 := by simp [bytes253]

/-- the first string uses up no byte value -/
theorem run_fill1 (vs : Nat) (l : List UInt8) (hl : ∀ c ∈ l, c ≠ 0 ∧ c ≠ 1) (hn : l.Nodup) (hlen : l.length ≤ 253) :
    AState.run vs {} (fillKeys (1 :: l)) =
      some (⟨ones vs (1 :: l), l.reverse⟩, List.replicate (l.length + 1) (.value (List.replicate vs 0))) := by
  have h := run_fill vs l [1] [] (by simp) (fun c hc => ⟨(hl c hc).1, by simpa using (hl c hc).2⟩) hn (by simp) (by simpa using hlen)
  have h0 : AState.step vs {} (.update [1, 0]) = some (⟨ones vs [1], []⟩, .value (List.replicate vs 0)) := by
    have hm : ¬ Malformed [1, 0] := by decide
    simp [AState.step, AState.newByte, step, Op.inserts, hm, Dict.get, Dict.set, ones]
  simp only [fillKeys, List.map_cons, AState.run, Option.bind_eq_bind]
  rw [h0]
  simp only [Option.bind_some]
  rw [show List.map (fun c => Op.update [c, 0]) l = fillKeys l from rfl, h]
  simp [List.replicate_succ]

/-- what the specification says about `fill` -/
theorem run_fill253 (vs : Nat) : AState.run vs {} fill =
    some (⟨ones vs (1 :: bytes253), bytes253.reverse⟩, List.replicate 254 (.value (List.replicate vs 0))) := by
  have h := run_fill1 vs bytes253 (by
    intro c hc
    rw [bytes253_mem] at hc
    constructor <;> (rintro rfl; simp at hc)) bytes253_nodup (by simp [bytes253_length])
  rw [bytes253_length] at h
  exact h

theorem fill_legal {vs : Nat} (hv : 2 + vs < 2 ^ 64) : ∀ o ∈ fill, o.Legal vs (CStrings vs) := by
  intro o ho
  simp only [fill, fillKeys, List.mem_map] at ho
  obtain ⟨c, hc, rfl⟩ := ho
  refine ⟨?_, fun k v e => by cases e⟩
  intro k hk
  injection hk with hk
  subst hk
  left
  refine ⟨⟨[c], ?_, rfl⟩, by simpa using hv⟩
  simp only [List.mem_singleton]
  rintro d rfl rfl
  rcases List.mem_cons.1 hc with h | h
  · cases h
  · rw [bytes253_mem] at h; simp at h

theorem fill_no_zero : ∀ k ∈ inserted fill, k.head? ≠ some 0 := by
  rw [fill, fill_inserted]
  intro k h
  obtain ⟨c, hm, rfl⟩ := List.mem_map.1 h
  simp only [List.head?_cons, ne_eq, Option.some.injEq]
  rintro rfl
  rcases List.mem_cons.1 hm with h | h
  · cases h
  · rw [bytes253_mem] at h; simp at h

theorem fill_total : cost fill = 508 := by
  rw [fill, fill_cost]; simp [bytes253_length]

end Poplar.Props
