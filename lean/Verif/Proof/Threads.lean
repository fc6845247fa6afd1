import Verif.Proof.ReadsFind
import Verif.Spec.Threads
import Verif.Proof.Between
/-
  Threads that use one map: what each has seen, and what it still has to do.
-/
namespace Poplar.Threads
open Poplar Spec

variable {β : Type} {K : Key → Prop} {vs : Nat} {ptr : Key → Option Loc} {Rd Wr own : Key → Prop}

/-- not a byte of the value of a key -/
def Out (K : Key → Prop) (vs : Nat) (ptr : Key → Option Loc) (q : Loc) : Prop :=
  ∀ k l j, K k → ptr k = some l → j < vs → q ≠ l.plus j

/-- different keys have their values at different addresses -/
def Disj (K : Key → Prop) (vs : Nat) (ptr : Key → Option Loc) : Prop :=
  ∀ k k' l l' j j', K k → K k' → k ≠ k' → ptr k = some l → ptr k' = some l' → j < vs → j' < vs → l.plus j ≠ l'.plus j'

/-- the memory holds the values of the dictionary, as far as the keys satisfying `own` are concerned -/
def Agree (K : Key → Prop) (vs : Nat) (ptr : Key → Option Loc) (μ : Loc → R UInt8) (own : Key → Prop) (d : Dict) : Prop :=
  ∀ k, K k → own k → (ptr k = none → d.get k = none) ∧
    ∀ l, ptr k = some l → ∃ v, d.get k = some v ∧ v.length = vs ∧ ∀ j < vs, μ (l.plus j) = keyAt v j

/-- `Runs` with the number of steps -/
inductive RunsN (K : Key → Prop) (vs : Nat) (ptr : Key → Option Loc) (own Wr : Key → Prop) (L : Key → Nat) :
    Nat → Dict → Thread β → β → Dict → Prop
  | done {d : Dict} {x : β} : RunsN K vs ptr own Wr L 0 d (.done x) x d
  | find {n : Nat} {d d' : Dict} {x : β} {k : Key} {next : Option Loc → Thread β} (hk : K k)
      (h : RunsN K vs ptr own Wr L n d (next (ptr k)) x d') : RunsN K vs ptr own Wr L (n + L k + 2) d (.find k next) x d'
  | load {n : Nat} {d d' : Dict} {x : β} {k : Key} {l : Loc} {v : Val} {next : Val → Thread β} (hk : K k) (hr : own k)
      (hl : ptr k = some l) (hv : d.get k = some v)
      (h : RunsN K vs ptr own Wr L n d (next v) x d') : RunsN K vs ptr own Wr L (n + vs + 2) d (.load l next) x d'
  | store {n : Nat} {d d' : Dict} {x : β} {k : Key} {l : Loc} {v : Val} {next : Thread β} (hk : K k) (hw : Wr k)
      (hl : ptr k = some l) (hv : v.length = vs)
      (h : RunsN K vs ptr own Wr L n (d.set k v) next x d') : RunsN K vs ptr own Wr L (n + v.length + 1) d (.store l v next) x d'

theorem _root_.Poplar.Spec.Runs.count {L : Key → Nat} {d d' : Dict} {c : Thread β} {x : β} (h : Runs K vs ptr Rd Wr d c x d') :
    ∃ n, RunsN K vs ptr (fun k => Rd k ∨ Wr k) Wr L n d c x d' := by
  induction h with
  | done => exact ⟨_, .done⟩
  | find hk _ ih => obtain ⟨n, ih⟩ := ih; exact ⟨_, .find hk ih⟩
  | load hk hr hl hv _ ih => obtain ⟨n, ih⟩ := ih; exact ⟨_, .load hk hr hl hv ih⟩
  | store hk hw hl hv _ ih => obtain ⟨n, ih⟩ := ih; exact ⟨_, .store hk hw hl hv ih⟩

/-- what is known about a thread when the memory is `μ` -/
inductive Good (K : Key → Prop) (vs : Nat) (ptr : Key → Option Loc) (own Wr : Key → Prop) (L : Key → Nat) (μ : Loc → R UInt8) :
    Nat → Thread β → β → Dict → Prop
  | at {n : Nat} {d d' : Dict} {c : Thread β} {x : β} (h : RunsN K vs ptr own Wr L n d c x d') (ha : Agree K vs ptr μ own d) :
      Good K vs ptr own Wr L μ n c x d'
  | scan {n : Nat} {d d' : Dict} {r : Reads (Option Loc)} {o : Option Loc} {next : Option Loc → Thread β} {x : β}
      (hw : r.Within (Out K vs ptr) μ) (hr : r.run μ = .ok o)
      (h : RunsN K vs ptr own Wr L n d (next o) x d') (ha : Agree K vs ptr μ own d) :
      Good K vs ptr own Wr L μ (n + r.len μ + 1) (.scan r next) x d'
  | fetch {n i rem : Nat} {d d' : Dict} {k : Key} {l : Loc} {v : Val} {next : Val → Thread β} {x : β} (hk : K k) (hr : own k)
      (hl : ptr k = some l) (hv : d.get k = some v) (hi : i + rem = vs)
      (h : RunsN K vs ptr own Wr L n d (next v) x d') (ha : Agree K vs ptr μ own d) :
      Good K vs ptr own Wr L μ (n + rem + 1) (.fetch (l.plus i) rem (v.take i) next) x d'
  | store {n : Nat} {d d' : Dict} {k : Key} {l : Loc} {pre w : Val} {next : Thread β} {x : β} (hk : K k) (hw : Wr k)
      (hl : ptr k = some l) (hv : (pre ++ w).length = vs)
      (hpre : ∀ j < pre.length, μ (l.plus j) = keyAt pre j) (hany : ∀ j < vs, ∃ y, μ (l.plus j) = .ok y)
      (h : RunsN K vs ptr own Wr L n (d.set k (pre ++ w)) next x d') (ha : Agree K vs ptr μ (fun k' => own k' ∧ k' ≠ k) d) :
      Good K vs ptr own Wr L μ (n + w.length + 1) (.store (l.plus pre.length) w next) x d'

theorem plus_zero (l : Loc) : l.plus 0 = l := rfl
theorem plus_next (l : Loc) (i : Nat) : (l.plus i).next = l.plus (i + 1) := rfl
theorem plus_inj {l : Loc} {i j : Nat} (h : l.plus i = l.plus j) : i = j := by
  simp only [Loc.plus, Loc.mk.injEq] at h; omega

theorem Agree.congr {μ μ' : Loc → R UInt8} {d : Dict} (h : Agree K vs ptr μ own d)
    (he : ∀ k l j, K k → own k → ptr k = some l → j < vs → μ' (l.plus j) = μ (l.plus j)) : Agree K vs ptr μ' own d := by
  intro k hk ho
  obtain ⟨h1, h2⟩ := h k hk ho
  refine ⟨h1, fun l hl => ?_⟩
  obtain ⟨v, v1, v2, v3⟩ := h2 l hl
  exact ⟨v, v1, v2, fun j hj => by rw [he k l j hk ho hl hj, v3 j hj]⟩

section
variable {L : Key → Nat} {μ : Loc → R UInt8} {n : Nat} {c : Thread β} {x : β} {d' : Dict}

theorem Good.congr {μ' : Loc → R UInt8} (hsub : ∀ k, Wr k → own k) (h : Good K vs ptr own Wr L μ n c x d') (ho : ∀ q, Out K vs ptr q → μ' q = μ q)
    (he : ∀ k l j, K k → own k → ptr k = some l → j < vs → μ' (l.plus j) = μ (l.plus j)) :
    Good K vs ptr own Wr L μ' n c x d' := by
  cases h with
  | «at» h ha => exact .at h (ha.congr he)
  | scan hw hr h ha =>
    obtain ⟨e1, e2⟩ := Reads.congr hw ho
    rw [← Reads.len_congr hw ho]
    exact .scan e1 (e2.trans hr) h (ha.congr he)
  | fetch hk hr hl hv hi h ha => exact .fetch hk hr hl hv hi h (ha.congr he)
  | store hk hw hl hv hpre hany h ha =>
    refine .store hk hw hl hv (fun j hj => ?_) (fun j hj => ?_) h (ha.congr fun k l j hk ho => he k l j hk ho.1)
    · rw [he _ _ _ hk (hsub _ hw) hl (by rw [List.length_append] at hv; omega), hpre j hj]
    · rw [he _ _ _ hk (hsub _ hw) hl hj]; exact hany j hj

theorem Good.writes (h : Good K vs ptr own Wr L μ n c x d') {q : Loc} (hq : c.writes = some q) :
    ∃ k l j, K k ∧ Wr k ∧ ptr k = some l ∧ j < vs ∧ q = l.plus j := by
  cases h with
  | «at» h ha =>
    cases h with
    | done => cases hq
    | find => cases hq
    | load => cases hq
    | @store _ _ _ _ k l v _ hk hw hl hv h =>
      cases v with
      | nil => cases hq
      | cons b v => cases hq; exact ⟨k, q, 0, hk, hw, hl, by rw [← hv]; simp, rfl⟩
  | scan => cases hq
  | fetch => cases hq
  | @store _ _ _ k l pre w _ _ hk hw hl hv hpre hany h ha =>
    cases w with
    | nil => cases hq
    | cons b w => cases hq; exact ⟨k, l, pre.length, hk, hw, hl, by rw [← hv]; simp, rfl⟩

theorem Good.reads (h : Good K vs ptr own Wr L μ n c x d') {q : Loc} (hq : c.reads = some q) :
    Out K vs ptr q ∨ ∃ k l j, K k ∧ own k ∧ ptr k = some l ∧ j < vs ∧ q = l.plus j := by
  cases h with
  | «at» h ha => cases h <;> cases hq
  | @scan _ _ _ r _ _ _ hw =>
    cases r with
    | ret => cases hq
    | read l f => cases hq; exact Or.inl hw.1
  | @fetch _ i rem _ _ k l v _ _ hk hr hl hv hi =>
    cases rem with
    | zero => cases hq
    | succ rem => cases hq; exact Or.inr ⟨k, l, i, hk, hr, hl, by omega, rfl⟩
  | store => cases hq

theorem Good.done {y : β} (h : Good K vs ptr own Wr L μ n (.done y) x d') : y = x ∧ Agree K vs ptr μ own d' := by
  cases h with
  | «at» h ha => cases h; exact ⟨rfl, ha⟩

theorem Good.zero (h : Good K vs ptr own Wr L μ 0 c x d') : c = .done x := by
  generalize hn : (0 : Nat) = n at h
  cases h with
  | «at» h ha =>
    cases h with
    | done => rfl
    | find => omega
    | load => omega
    | store => omega
  | scan => omega
  | fetch => omega
  | store => omega

end

section
variable {τ ν : Type} {cfg : MapCfg τ ν} {sb N : Nat} {z0 : Prop} {B : ByteOps ν} {NS : NlmSpec cfg.L cfg.T.kind vs}
variable {L : Key → Nat} {F : Key → Reads (Option Loc)} {n : Nat} {c : Thread β} {x : β} {d' : Dict}

/-- the next step changes nothing but a byte the thread may write -/
structure Moved (B : ByteOps ν) (c : Thread β) (m m' : Map τ ν) : Prop where
  nlm : m' = { m with nlm := m'.nlm }
  code : B.compare m'.nlm = B.compare m.nlm
  mem : ∀ q, c.writes ≠ some q → B.byte m'.nlm q = B.byte m.nlm q

theorem Moved.same (m : Map τ ν) : Moved B c m m := ⟨rfl, rfl, fun _ _ => rfl⟩

/-- the bytes of a value being written -/
theorem store_step (hB : ByteSpec B NS) (hd : Disj K vs ptr) {m : Map τ ν} {d : Dict} {k : Key} {l : Loc} {pre w : Val} {next : Thread β}
    (hk : K k) (hw : Wr k) (hl : ptr k = some l) (hv : (pre ++ w).length = vs)
    (hpre : ∀ j < pre.length, B.byte m.nlm (l.plus j) = keyAt pre j) (hany : ∀ j < vs, ∃ y, B.byte m.nlm (l.plus j) = .ok y)
    (h : RunsN K vs ptr own Wr L n (d.set k (pre ++ w)) next x d') (ha : Agree K vs ptr (B.byte m.nlm) (fun k' => own k' ∧ k' ≠ k) d) :
    ∃ m' c', Thread.step cfg B vs m (.store (l.plus pre.length) w next) = .ok (m', c') ∧
      Good K vs ptr own Wr L (B.byte m'.nlm) (n + w.length) c' x d' ∧ Moved B (.store (l.plus pre.length) w next) m m' := by
  cases w with
  | nil =>
    refine ⟨m, next, rfl, .at h ?_, .same m⟩
    rw [List.append_nil] at hv ⊢
    intro k' hk' ho
    rw [Dict.get_set]
    by_cases e : k' = k
    · subst e
      rw [if_pos rfl]
      refine ⟨fun e => (by rw [hl] at e; cases e), fun l' hl' => ?_⟩
      rw [hl] at hl'; cases hl'
      exact ⟨pre, rfl, hv, fun j hj => hpre j (by omega)⟩
    · rw [if_neg e]
      exact ha k' hk' ⟨ho, e⟩
  | cons b w =>
    have hlt : pre.length < vs := by rw [← hv]; simp
    obtain ⟨y, hy⟩ := hany _ hlt
    obtain ⟨n', n1, n2, n3⟩ := hB.put m.nlm (l.plus pre.length) b y hy
    refine ⟨{ m with nlm := n' }, .store (l.plus (pre.length + 1)) w next, ?_, ?_, rfl, n3, ?_⟩
    · show (do pure (← Map.store cfg m _ [b], _) : R (Map τ ν × Thread β)) = _
      rw [Map.store, n1]; rfl
    · have hlen : pre.length + 1 = (pre ++ [b]).length := by simp
      rw [hlen, show n + (b :: w).length = n + w.length + 1 by simp; omega]
      have happ : pre ++ b :: w = (pre ++ [b]) ++ w := by simp
      rw [happ] at h hv
      refine .store hk hw hl hv (fun j hj => ?_) (fun j hj => ?_) h (ha.congr ?_)
      · dsimp only
        rw [n2]
        by_cases e : j = pre.length
        · subst e
          rw [if_pos rfl, keyAt]; simp
        · have hj' : j < pre.length := by simp at hj; omega
          rw [if_neg (fun e' => e (plus_inj e')), hpre j hj', keyAt, keyAt, List.getElem?_append_left hj']
      · dsimp only
        rw [n2]
        split
        · exact ⟨b, rfl⟩
        · exact hany j hj
      · intro k' l' j' hk' ho hl' hj'
        dsimp only
        rw [n2, if_neg (hd k' k l' l j' pre.length hk' hk ho.2 hl' hl hj' hlt)]
    · intro q hq
      dsimp only
      rw [n2, if_neg]
      rintro rfl
      exact hq rfl

theorem Good.step (hB : ByteSpec B NS) (hd : Disj K vs ptr) (hsub : ∀ k, Wr k → own k) {m : Map τ ν}
    (hF : ∀ k, K k → (Map.findR cfg B m k).Within (Out K vs ptr) (B.byte m.nlm) ∧ (Map.findR cfg B m k).run (B.byte m.nlm) = .ok (ptr k) ∧
      (Map.findR cfg B m k).len (B.byte m.nlm) = L k)
    (h : Good K vs ptr own Wr L (B.byte m.nlm) n c x d') :
    ∃ m' c', c.step cfg B vs m = .ok (m', c') ∧ Good K vs ptr own Wr L (B.byte m'.nlm) (n - 1) c' x d' ∧ Moved B c m m' := by
  cases h with
  | «at» h ha =>
    cases h with
    | done => exact ⟨m, _, rfl, .at .done ha, .same m⟩
    | @find n _ _ _ k next hk h =>
      obtain ⟨h1, h2, h3⟩ := hF k hk
      refine ⟨m, _, rfl, ?_, .same m⟩
      rw [show n + L k + 2 - 1 = n + L k + 1 by omega, ← h3]
      exact .scan h1 h2 h ha
    | @load n _ _ _ k l v next hk hr hl hv h =>
      refine ⟨m, _, rfl, ?_, .same m⟩
      have := Good.fetch (i := 0) (rem := vs) (next := next) hk hr hl hv (by omega) h ha
      exact this
    | @store n d _ _ k l v next hk hw hl hv h =>
      have := store_step (pre := []) hB hd hk hw hl hv (fun j hj => by simp at hj) (fun j hj => ?_) h
        (fun k' hk' ho => ha k' hk' ho.1)
      · obtain ⟨m', c', e1, e2, e3⟩ := this
        exact ⟨m', c', e1, e2, e3⟩
      · obtain ⟨v', _, v2, v3⟩ := (ha k hk (hsub k hw)).2 l hl
        rw [v3 j hj, keyAt, List.getElem?_eq_getElem (show j < v'.length by omega)]
        exact ⟨_, rfl⟩
  | @scan n d _ r o next _ hw hr h ha =>
    cases r with
    | ret x =>
      have hx : x = .ok o := hr
      subst hx
      exact ⟨m, _, rfl, .at h ha, .same m⟩
    | read l f =>
      simp only [Reads.run] at hr
      obtain ⟨b, hb, hr⟩ := R.bind_eq_ok hr
      refine ⟨m, .scan (f b) next, ?_, ?_, .same m⟩
      · show (do pure (m, Thread.scan (f (← B.byte m.nlm l)) next) : R (Map τ ν × Thread β)) = _
        rw [hb]; rfl
      · have hlen : (Reads.read l f).len (B.byte m.nlm) = (f b).len (B.byte m.nlm) + 1 := by
          simp only [Reads.len, hb]
        rw [hlen]
        exact .scan (hw.2 b hb) hr h ha
  | @fetch n i rem d _ k l v next _ hk hr hl hv hi h ha =>
    obtain ⟨v', v1, v2, v3⟩ := (ha k hk hr).2 l hl
    rw [hv] at v1; cases v1
    cases rem with
    | zero =>
      refine ⟨m, next v, ?_, .at h ha, .same m⟩
      show Except.ok (m, next (v.take i)) = _
      rw [List.take_of_length_le (by omega)]
    | succ rem =>
      have hiv : i < v.length := by omega
      have hb := v3 i (by omega)
      rw [keyAt, List.getElem?_eq_getElem hiv] at hb
      refine ⟨m, .fetch (l.plus (i + 1)) rem (v.take (i + 1)) next, ?_, ?_, .same m⟩
      · show (do pure (m, Thread.fetch (l.plus i).next rem (v.take i ++ [← B.byte m.nlm (l.plus i)]) next) : R (Map τ ν × Thread β)) = _
        rw [hb, plus_next, List.take_succ_eq_append_getElem hiv]; rfl
      · exact .fetch hk hr hl hv (by omega) h ha
  | store hk hw hl hv hpre hany h ha =>
    obtain ⟨m', c', e1, e2, e3⟩ := store_step hB hd hk hw hl hv hpre hany h ha
    exact ⟨m', c', e1, e2, e3⟩

/-- the starting point: an unshared map -/
structure Start (cfg : MapCfg τ ν) (B : ByteOps ν) (K : Key → Prop) (vs : Nat) (ptr : Key → Option Loc) (m : Map τ ν) : Prop where
  disj : Disj K vs ptr
  within : ∀ k, K k → (Map.findR cfg B m k).Within (Out K vs ptr) (B.byte m.nlm)
  run : ∀ k, K k → (Map.findR cfg B m k).run (B.byte m.nlm) = .ok (ptr k)

/-- what all threads may change -/
structure Shared (K : Key → Prop) (vs : Nat) (ptr : Key → Option Loc) (B : ByteOps ν) (W : Key → Prop) (m m' : Map τ ν) : Prop where
  nlm : m' = { m with nlm := m'.nlm }
  code : B.compare m'.nlm = B.compare m.nlm
  mem : ∀ q, (∀ k l j, K k → W k → ptr k = some l → j < vs → q ≠ l.plus j) → B.byte m'.nlm q = B.byte m.nlm q

theorem Shared.findR {W : Key → Prop} {m m' : Map τ ν} (h : Shared K vs ptr B W m m') (k : Key) : Map.findR cfg B m' k = Map.findR cfg B m k := by
  rw [h.nlm]
  exact Map.findR_nlm m h.code k

theorem Start.later {W : Key → Prop} {m m' : Map τ ν} (h0 : Start cfg B K vs ptr m) (h : Shared K vs ptr B W m m') {k : Key} (hk : K k) :
    (Map.findR cfg B m' k).Within (Out K vs ptr) (B.byte m'.nlm) ∧ (Map.findR cfg B m' k).run (B.byte m'.nlm) = .ok (ptr k) ∧
      (Map.findR cfg B m' k).len (B.byte m'.nlm) = (Map.findR cfg B m k).len (B.byte m.nlm) := by
  have he : ∀ q, Out K vs ptr q → B.byte m'.nlm q = B.byte m.nlm q :=
    fun q hq => h.mem q fun k l j hk _ hl hj => hq k l j hk hl hj
  rw [h.findR]
  obtain ⟨e1, e2⟩ := Reads.congr (h0.within k hk) he
  exact ⟨e1, e2.trans (h0.run k hk), Reads.len_congr (h0.within k hk) he⟩

theorem run_ok {ι : Type} [DecidableEq ι] (hB : ByteSpec B NS) {m : Map τ ν} (h0 : Start cfg B K vs ptr m)
    {Rd Wr : ι → Key → Prop} (hc : ∀ t u k, t ≠ u → Wr t k → ¬ Rd u k ∧ ¬ Wr u k) {x : ι → β} {d : ι → Dict} (sched : List ι) :
    ∀ (m1 : Map τ ν) (ts : ι → Thread β) (n : ι → Nat), Shared K vs ptr B (fun k => ∃ t, Wr t k) m m1 →
    (∀ t, Good K vs ptr (fun k => Rd t k ∨ Wr t k) (Wr t) (fun k => (Map.findR cfg B m k).len (B.byte m.nlm)) (B.byte m1.nlm) (n t) (ts t) (x t) (d t)) →
    ∃ m2 ts2, runThreads cfg B vs sched m1 ts = .ok (m2, ts2) ∧ Shared K vs ptr B (fun k => ∃ t, Wr t k) m m2 ∧
      ∀ t, Good K vs ptr (fun k => Rd t k ∨ Wr t k) (Wr t) (fun k => (Map.findR cfg B m k).len (B.byte m.nlm)) (B.byte m2.nlm)
        (n t - sched.count t) (ts2 t) (x t) (d t) := by
  induction sched with
  | nil => intro m1 ts n hS hG; exact ⟨m1, ts, rfl, hS, hG⟩
  | cons t sched ih =>
    intro m1 ts n hS hG
    obtain ⟨m2, c, e1, e2, e3⟩ := (hG t).step hB h0.disj (fun k hk => Or.inr hk) (fun k hk => h0.later hS hk)
    have hS2 : Shared K vs ptr B (fun k => ∃ t, Wr t k) m m2 := by
      refine ⟨?_, e3.code.trans hS.code, fun q hq => ?_⟩
      · rw [e3.nlm, hS.nlm]
      · rw [e3.mem q, hS.mem q hq]
        intro hw
        obtain ⟨k, l, j, k1, k2, k3, k4, k5⟩ := (hG t).writes hw
        exact hq k l j k1 ⟨t, k2⟩ k3 k4 k5
    have hG2 : ∀ u, Good K vs ptr (fun k => Rd u k ∨ Wr u k) (Wr u) (fun k => (Map.findR cfg B m k).len (B.byte m.nlm)) (B.byte m2.nlm)
        (if u = t then n t - 1 else n u) (if u = t then c else ts u) (x u) (d u) := by
      intro u
      by_cases e : u = t
      · subst e
        simp only [if_true]
        exact e2
      · simp only [if_neg e]
        refine (hG u).congr (fun k hk => Or.inr hk) (fun q hq => e3.mem q fun hw => ?_) (fun k l j hk ho hl hj => e3.mem _ fun hw => ?_)
        · obtain ⟨k, l, j, k1, k2, k3, k4, k5⟩ := (hG t).writes hw
          exact hq k l j k1 k3 k4 k5
        · obtain ⟨k', l', j', k1, k2, k3, k4, k5⟩ := (hG t).writes hw
          refine h0.disj k k' l l' j j' hk k1 ?_ hl k3 hj k4 k5
          rintro rfl
          obtain ⟨c1, c2⟩ := hc t u k (Ne.symm e) k2
          exact ho.elim c1 c2
    obtain ⟨m3, ts3, f1, f2, f3⟩ := ih m2 (fun u => if u = t then c else ts u) (fun u => if u = t then n t - 1 else n u) hS2 hG2
    · refine ⟨m3, ts3, ?_, f2, fun u => ?_⟩
      · simp only [runThreads, e1, R.bind_ok]
        exact f1
      · have := f3 u
        by_cases e : u = t
        · subst e
          rw [if_pos rfl] at this
          rw [List.count_cons_self, show n u - (sched.count u + 1) = n u - 1 - sched.count u by omega]
          exact this
        · rw [if_neg e] at this
          rw [List.count_cons_of_ne (Ne.symm e)]
          exact this

end

/-! ### maps after a history -/

section
variable {τ ν : Type} {cfg : MapCfg τ ν} {sb N : Nat} {z0 : Prop} {B : ByteOps ν}
variable {TS : TrieSpec cfg.T sb N z0} {NS : NlmSpec cfg.L cfg.T.kind vs}

/-- the value `find(k)` returns a pointer to -/
theorem found (hB : ByteSpec B NS) {m : Map τ ν} {k : Key} {o : Option Loc} (h1 : (Map.findR cfg B m k).run (B.byte m.nlm) = .ok o)
    {r : Option Val} (h2 : o = none → r = none)
    (h3 : ∀ l, o = some l → ∃ v, r = some v ∧ v.length = vs ∧ ∀ j < vs, B.byte m.nlm (l.plus j) = keyAt v j) :
    Map.exec cfg m (.find k) = .ok (m, .found r) := by
  rw [Map.findR_run hB.run] at h1
  cases o with
  | none => rw [h2 rfl]; simp only [Map.exec, h1]
  | some l =>
    obtain ⟨v, rfl, v2, v3⟩ := h3 l rfl
    have := (hB.load m.nlm l v).2 ⟨v2, v3⟩
    simp only [Map.exec, h1, Map.load, this]; rfl

theorem start (hB : ByteSpec B NS) (hU : KeySet vs K) {m : Map τ ν} {d : Dict} (h : Map.State TS NS K m d)
    (hptr : ∀ k, K k → Map.find cfg m k = .ok (ptr k)) :
    Start cfg B K vs ptr m ∧ Agree K vs ptr (B.byte m.nlm) (fun _ => True) d := by
  have hag : Agree K vs ptr (B.byte m.nlm) (fun _ => True) d := by
    intro k hk _
    have e := hptr k hk
    rcases Map.State.find hU h hk with ⟨h1, h2⟩ | ⟨l, h2, h3, h4⟩
    · rw [e] at h2
      injection h2 with h2
      exact ⟨fun _ => h1, fun l hl => (by rw [h2] at hl; cases hl)⟩
    · rw [e] at h2
      injection h2 with h2
      refine ⟨fun hn => (by rw [h2] at hn; cases hn), fun l' hl => ?_⟩
      rw [h2] at hl; cases hl
      obtain ⟨v, v1, v2, v3⟩ := h3.load hk h4
      obtain ⟨w1, w2⟩ := (hB.load m.nlm l v).1 v2
      exact ⟨v, v1, w1, w2⟩
  have hto : ∀ k l, K k → ptr k = some l → Map.Live TS NS K m d ∧ Map.PtrTo TS NS K m l k := by
    intro k l hk hl
    have e := hptr k hk
    rcases Map.State.find hU h hk with ⟨h1, h2⟩ | ⟨l', h2, h3, h4⟩
    · rw [e, hl] at h2; cases h2
    · rw [e, hl] at h2; cases h2
      exact ⟨h3, h4⟩
  refine ⟨⟨?_, ?_, ?_⟩, hag⟩
  · intro k k' l l' j j' hk hk' hne hl hl' hj hj' heq
    obtain ⟨hL, hp⟩ := hto k l hk hl
    obtain ⟨_, hp'⟩ := hto k' l' hk' hl'
    obtain ⟨v', v1, v2, v3⟩ := hL.load hk' hp'
    have hj2 : j' < v'.length := by omega
    obtain ⟨n', s1, s2, s3, _⟩ := hL.store hk hp (w := List.replicate vs (v'[j'] + 1)) (by simp)
    obtain ⟨w, w1, w2, w3⟩ := s2.load hk (s3 _ _ hk hp)
    obtain ⟨w', w1', w2', w3'⟩ := s2.load hk' (s3 _ _ hk' hp')
    rw [Dict.get_set, if_pos rfl] at w1
    cases w1
    rw [Dict.get_set, if_neg (Ne.symm hne), v1] at w1'
    cases w1'
    have q1 := ((hB.load _ _ _).1 w2).2 j hj
    have q2 := ((hB.load _ _ _).1 w2').2 j' hj'
    rw [heq, q2, keyAt, keyAt, List.getElem?_eq_getElem hj2, List.getElem?_replicate_of_lt hj] at q1
    simp only [Except.ok.injEq] at q1
    have := congrArg UInt8.toNat q1
    rw [UInt8.toNat_add] at this
    have h256 := (v'[j']).toNat_lt
    simp at this
    omega
  · intro k hk
    refine Map.State.findR_within hB hU h hk _ fun hL q hq k l j hk hl hj e => ?_
    obtain ⟨_, ⟨i, _, hA⟩, _⟩ := hto k l hk hl
    subst e
    rcases hq l i hA rfl with h | h
    · simp only [Loc.plus] at h; omega
    · simp only [Loc.plus] at h; omega
  · intro k hk
    rw [Map.findR_run hB.run, hptr k hk]

end

end Poplar.Threads
