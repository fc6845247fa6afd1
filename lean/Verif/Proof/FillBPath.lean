import Verif.Proof.FillBCheck
import Verif.Proof.FillStage
/-
  What the checks of `FillBCheck.lean` mean.
-/
namespace Poplar.FillB
open Poplar.Fill (h29 rot Elit E chkGap psym)

theorem mem_EB {i : Nat} : i ∈ EB ↔ i = 0 ∨ i ∈ E := by rw [Fill.E_eq]; exact List.mem_cons

/-- what is known of an entry -/
structure Ent (lo f r e : Nat) : Prop where
  p1 : 1 ≤ e / 1024
  p2 : e / 1024 ≤ 200
  c1 : 1 ≤ e % 32
  c2 : e % 32 ≤ 25
  d1 : h29 (entryKey e) % 65536 + lo ≤ f
  d2 : f < h29 (entryKey e) % 65536 + 141
  r : r ≤ rot (h29 (entryKey e))

/-- The entries `es` are put one after the other into the free slots from `f` to `f' - 1`. -/
inductive Path (lo : Nat) : Nat → Nat → List Nat → Nat → Nat → Prop
  | nil {f r} : Path lo f r [] f r
  | gap {f r es f' r'} : f ∈ EB → Path lo (f + 1) r es f' r' → Path lo f r es f' r'
  | up {f r r2 es f' r'} : r ≤ r2 → Path lo f r2 es f' r' → Path lo f r es f' r'
  | put {f r e es f' r'} : f ∉ EB → Ent lo f r e → Path lo (f + 1) (rot (h29 (entryKey e)) + 1) es f' r' → Path lo f r (e :: es) f' r'

theorem Path.append {lo f r es f1 r1 es' f2 r2} (h : Path lo f r es f1 r1) (h' : Path lo f1 r1 es' f2 r2) :
    Path lo f r (es ++ es') f2 r2 := by
  induction h with
  | nil => exact h'
  | gap a _ ih => exact .gap a (ih h')
  | up a _ ih => exact .up a (ih h')
  | put a b _ ih => exact .put a b (ih h')

/-- the entries of a segment -/
def decE : Nat → Nat → List Nat
  | 0, _ => []
  | n + 1, code => code % 1048576 :: decE n (code / 1048576)

/-- the entries of the segments -/
def decS (l : List (Nat × Nat × Nat × Nat)) : List Nat := l.flatMap (fun s => decE s.2.1 s.2.2.2)

theorem chkE_path {lo r1 : Nat} : ∀ (n f r code : Nat), (∀ x ∈ EB, x < f ∨ f + n ≤ x) → chkE lo r1 n f r code = true →
    Path lo f r (decE n code) (f + n) r1 := by
  intro n
  induction n with
  | zero =>
    intro f r code _ h
    exact .up (Nat.le_of_ble_eq_true h) .nil
  | succ n ih =>
    intro f r code hE h
    rw [chkE, Bool.and_eq_true] at h
    obtain ⟨h1, h2⟩ := h
    simp only [okE, Bool.and_eq_true, Nat.ble_eq, Nat.blt_eq] at h1
    refine .put (fun hm => by have := hE f hm; omega) ⟨by omega, by omega, by omega, by omega, by omega, by omega, by omega⟩ ?_
    have := ih (f + 1) _ _ (fun x hx => by have := hE x hx; omega) h2
    rwa [show f + 1 + n = f + (n + 1) by omega] at this

theorem chkGap_path {lo r : Nat} : ∀ (n a : Nat), chkGap EB a n = true → Path lo a r [] (a + n) r := by
  intro n
  induction n with
  | zero => intro a _; exact .nil
  | succ n ih =>
    intro a h
    rw [chkGap, Bool.and_eq_true] at h
    have := ih (a + 1) h.2
    rw [show a + 1 + n = a + (n + 1) by omega] at this
    exact .gap (List.contains_iff_mem.mp h.1) this

/-- the bound at the beginning of the segments -/
def headR (r1 : Nat) : List (Nat × Nat × Nat × Nat) → Nat
  | [] => r1
  | (_, _, r, _) :: _ => r

theorem chkS_path {lo f1 r1 : Nat} : ∀ (l : List (Nat × Nat × Nat × Nat)) (f0 : Nat), chkS EB lo f1 r1 f0 l = true →
    Path lo f0 (headR r1 l) (decS l) f1 r1 := by
  intro l
  induction l with
  | nil =>
    intro f0 h
    rw [chkS, Bool.and_eq_true, Nat.ble_eq] at h
    have := chkGap_path (lo := lo) (r := r1) _ _ h.2
    rwa [show f0 + (f1 - f0) = f1 by omega] at this
  | cons s l ih =>
    obtain ⟨f, n, r, code⟩ := s
    intro f0 h
    replace h : (Nat.ble f0 f && chkGap EB f0 (f - f0) && EB.all (fun x => Nat.blt x f || Nat.ble (f + n) x) &&
        chkE lo (headR r1 l) n f r code && chkS EB lo f1 r1 (f + n) l) = true := by
      cases l with
      | nil => exact h
      | cons s l => exact h
    simp only [Bool.and_eq_true, Nat.ble_eq, List.all_eq_true, Bool.or_eq_true, Nat.blt_eq] at h
    obtain ⟨⟨⟨⟨a, b⟩, c⟩, d⟩, e⟩ := h
    have g := chkGap_path (lo := lo) (r := r) _ _ b
    rw [show f0 + (f - f0) = f by omega] at g
    have h2 := chkE_path _ _ _ _ c d
    have h3 := ih _ e
    have h4 : Path lo f0 r ([] ++ (decE n code ++ decS l)) f1 r1 := by
      exact g.append (h2.append h3)
    exact h4

/-- the entries of the beginning -/
def ents0 : List Nat := decS seg0
/-- all the other entries -/
def ents1 : List Nat := decS seg1 ++ (decS seg2 ++ (decS seg3 ++ (decS seg4 ++ (decS seg5 ++ (decS seg6 ++ (decS seg7 ++ (decS seg8 ++ (decS seg9 ++ decS seg10))))))))

theorem path0 : Path 0 0 0 ents0 26 99500 := chkS_path seg0 0 chk0

theorem path1 : Path 14 26 99500 ents1 52616 430049345 := by
  have h1 := chkS_path seg1 26 chk1
  have h2 := chkS_path seg2 _ chk2
  have h3 := chkS_path seg3 _ chk3
  have h4 := chkS_path seg4 _ chk4
  have h5 := chkS_path seg5 _ chk5
  have h6 := chkS_path seg6 _ chk6
  have h7 := chkS_path seg7 _ chk7
  have h8 := chkS_path seg8 _ chk8
  have h9 := chkS_path seg9 _ chk9
  have h10 := chkS_path seg10 _ chk10
  exact h1.append (h2.append (h3.append (h4.append (h5.append (h6.append (h7.append (h8.append (h9.append h10))))))))

theorem decE_length (n code : Nat) : (decE n code).length = n := by
  induction n generalizing code with
  | zero => rfl
  | succ n ih => simp [decE, ih]

end Poplar.FillB
