import Verif.Proof.Basic
/-
  Counting slots that satisfy a predicate; a "result satisfies" predicate with a limit condition.
-/
namespace Poplar

/-- number of `i < n` with `p i` -/
def cnt (p : Nat → Bool) : Nat → Nat
  | 0 => 0
  | n + 1 => cnt p n + (if p n then 1 else 0)

theorem cnt_le (p : Nat → Bool) (n : Nat) : cnt p n ≤ n := by
  induction n with
  | zero => simp [cnt]
  | succ n ih => simp only [cnt]; split <;> omega

theorem cnt_congr {p q : Nat → Bool} {n : Nat} (h : ∀ i < n, p i = q i) : cnt p n = cnt q n := by
  induction n with
  | zero => rfl
  | succ n ih => simp only [cnt]; rw [ih (fun i hi => h i (by omega)), h n (by omega)]

theorem cnt_zero {p : Nat → Bool} {n : Nat} (h : ∀ i < n, p i = false) : cnt p n = 0 := by
  induction n with
  | zero => rfl
  | succ n ih => simp only [cnt]; rw [ih (fun i hi => h i (by omega)), h n (by omega)]; simp

theorem cnt_set {p q : Nat → Bool} {n a : Nat} (ha : a < n) (hp : p a = false) (hq : q a = true)
    (h : ∀ i < n, i ≠ a → q i = p i) : cnt q n = cnt p n + 1 := by
  induction n with
  | zero => omega
  | succ n ih =>
    simp only [cnt]
    by_cases hn : a = n
    · subst hn
      rw [hp, hq, cnt_congr (fun i hi => h i (by omega) (by omega))]; simp
    · rw [ih (by omega) (fun i hi => h i (by omega)), h n (by omega) (fun e => hn e.symm)]; omega

theorem cnt_mono {p q : Nat → Bool} {n : Nat} (h : ∀ i < n, p i = true → q i = true) :
    cnt p n ≤ cnt q n := by
  induction n with
  | zero => simp [cnt]
  | succ n ih =>
    simp only [cnt]
    have h1 := ih (fun i hi => h i (by omega))
    have h2 := h n (by omega)
    by_cases hp : p n = true
    · simp [hp, h2 hp, h1]
    · simp [hp]; omega

theorem cnt_lt_of {p q : Nat → Bool} {n a : Nat} (ha : a < n) (hp : p a = false) (hq : q a = true)
    (h : ∀ i < n, p i = true → q i = true) : cnt p n < cnt q n := by
  have : cnt (fun i => if i = a then true else p i) n = cnt p n + 1 :=
    cnt_set ha hp (by simp) (fun i _ hi => by simp [hi])
  have h2 : cnt (fun i => if i = a then true else p i) n ≤ cnt q n := by
    apply cnt_mono
    intro i hi
    by_cases hia : i = a
    · simp [hia, hq]
    · simpa [hia] using h i hi
  omega

theorem cnt_room {p : Nat → Bool} {n : Nat} (h : cnt p n < n) : ∃ i, i < n ∧ p i = false := by
  induction n with
  | zero => omega
  | succ n ih =>
    simp only [cnt] at h
    by_cases hp : p n = true
    · obtain ⟨i, h1, h2⟩ := ih (by simp [hp] at h; exact h)
      exact ⟨i, by omega, h2⟩
    · exact ⟨n, by omega, by simpa using hp⟩

theorem cnt_or_le (p q : Nat → Bool) (n : Nat) : cnt (fun i => p i || q i) n ≤ cnt p n + cnt q n := by
  induction n with
  | zero => simp [cnt]
  | succ n ih =>
    simp only [cnt]
    by_cases h1 : p n = true <;> by_cases h2 : q n = true <;> simp [h1, h2] <;> omega

theorem cnt_pos {p : Nat → Bool} {n a : Nat} (ha : a < n) (hp : p a = true) : 0 < cnt p n := by
  induction n with
  | zero => omega
  | succ n ih =>
    simp only [cnt]
    by_cases h : a = n
    · subst h; simp [hp]
    · have := ih (by omega); omega

/-- `Post lim x Q`: either `x` returns normally and the result satisfies `Q`, or it hits a size
limit (`Fault.limit`, or an exception thrown by a constructor) and the condition `lim` holds. In
particular no `assert` fails, nothing is accessed out of bounds and every loop terminates. -/
def Post {α : Type} (lim : Prop) (x : R α) (Q : α → Prop) : Prop :=
  match x with
  | .ok a => Q a
  | .error e => lim ∧ (e = .limit ∨ e = .throw)

theorem Post.ok {α : Type} {lim : Prop} {a : α} {Q : α → Prop} (h : Q a) : Post lim (.ok a) Q := h

theorem Post.bind {α β : Type} {lim : Prop} {x : R α} {f : α → R β} {Q : α → Prop} {P : β → Prop}
    (hx : Post lim x Q) (hf : ∀ a, x = .ok a → Q a → Post lim (f a) P) : Post lim (x >>= f) P := by
  cases x with
  | error e => exact hx
  | ok a => exact hf a rfl hx

theorem Post.mono {α : Type} {lim lim' : Prop} {x : R α} {Q P : α → Prop}
    (hx : Post lim x Q) (hl : lim → lim') (h : ∀ a, x = .ok a → Q a → P a) : Post lim' x P := by
  cases x with
  | error e => exact ⟨hl hx.1, hx.2⟩
  | ok a => exact h a rfl hx

theorem Post.imp {α : Type} {lim : Prop} {x : R α} {Q P : α → Prop}
    (hx : Post lim x Q) (h : ∀ a, Q a → P a) : Post lim x P := hx.mono id (fun a _ => h a)

theorem Post.get {α : Type} {lim : Prop} {x : R α} {Q : α → Prop} (h : Post lim x Q) (hl : ¬ lim) :
    ∃ a, x = .ok a ∧ Q a := by
  cases x with
  | error e => exact absurd h.1 hl
  | ok a => exact ⟨a, rfl, h⟩

theorem Post.of_ok {α : Type} {lim : Prop} {x : R α} {Q : α → Prop} (h : ∃ a, x = .ok a ∧ Q a) :
    Post lim x Q := by
  obtain ⟨a, rfl, h⟩ := h; exact h

theorem Post.of_eq {α : Type} {lim : Prop} {x : R α} {a : α} {Q : α → Prop} (h : Post lim x Q)
    (e : x = .ok a) : Q a := by
  subst e; exact h

end Poplar
