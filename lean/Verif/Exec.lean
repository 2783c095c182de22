/-
Outcome monad, checked memory accesses and counted loops.

This file models no particular function of /repo.  It fixes how a C++ call is
represented: it either returns a value, throws a `std::runtime_error`, or runs into
undefined behaviour (an access outside a buffer, a dereference of `end()`, an integer
division by zero, ...).  A theorem of the form `f … = .ok r` therefore also says that
the call is memory safe.
-/

namespace Verif

/-- Outcome of a C++ call. -/
inductive Exec (α : Type _) where
  /-- normal return -/
  | ok (a : α)
  /-- a C++ exception left the call -/
  | throw (msg : String)
  /-- undefined behaviour was reached -/
  | ub
  deriving Repr, DecidableEq

namespace Exec

/-- Sequential composition: exceptions and undefined behaviour end the computation. -/
def bind {α β : Type _} (e : Exec α) (f : α → Exec β) : Exec β :=
  match e with
  | ok a => f a
  | throw m => throw m
  | ub => ub

instance : Monad Exec where
  pure := ok
  bind := bind

@[simp] theorem bind_ok {α β : Type _} (a : α) (f : α → Exec β) :
    (Exec.ok a >>= f) = f a := rfl
@[simp] theorem bind_throw {α β : Type _} (m : String) (f : α → Exec β) :
    ((Exec.throw m : Exec α) >>= f) = Exec.throw m := rfl
@[simp] theorem bind_ub {α β : Type _} (f : α → Exec β) :
    ((Exec.ub : Exec α) >>= f) = Exec.ub := rfl
@[simp] theorem pure_eq_ok {α : Type _} (a : α) : (pure a : Exec α) = ok a := rfl

/-- The call returns normally and its result satisfies `Q`. -/
def Returns {α : Type _} (e : Exec α) (Q : α → Prop) : Prop := ∃ a, e = ok a ∧ Q a

theorem Returns.mono {α : Type _} {e : Exec α} {Q R : α → Prop}
    (h : e.Returns Q) (hi : ∀ a, Q a → R a) : e.Returns R := by
  obtain ⟨a, h1, h2⟩ := h
  exact ⟨a, h1, hi a h2⟩

theorem Returns.bind {α β : Type _} {e : Exec α} {f : α → Exec β} {Q : α → Prop}
    {R : β → Prop} (h : e.Returns Q) (hf : ∀ a, Q a → (f a).Returns R) :
    (e >>= f).Returns R := by
  obtain ⟨a, rfl, h2⟩ := h
  exact hf a h2

theorem Returns.ok {α : Type _} {a : α} {Q : α → Prop} (h : Q a) :
    (Exec.ok a).Returns Q := ⟨a, rfl, h⟩

end Exec

/-- Checked read `l[i]` of a raw buffer. -/
def rd {α : Type _} (l : List α) (i : Nat) : Exec α :=
  match l[i]? with
  | some a => .ok a
  | none => .ub

/-- Checked write `l[i] = a` of a raw buffer. -/
def wr {α : Type _} (l : List α) (i : Nat) (a : α) : Exec (List α) :=
  if i < l.length then .ok (l.set i a) else .ub

theorem rd_ok {α : Type _} {l : List α} {i : Nat} (h : i < l.length) :
    rd l i = .ok l[i] := by
  simp [rd, h]

theorem rd_of_some {α : Type _} {l : List α} {i : Nat} {a : α} (h : l[i]? = some a) :
    rd l i = .ok a := by
  simp [rd, h]

theorem wr_ok {α : Type _} {l : List α} {i : Nat} (h : i < l.length) (a : α) :
    wr l i a = .ok (l.set i a) := by
  simp [wr, h]

/-- `for (i = i0; i < i0 + k; ++i) s = body i s`. -/
def forFrom {σ : Type _} (i0 : Nat) : Nat → σ → (Nat → σ → Exec σ) → Exec σ
  | 0, s, _ => .ok s
  | k + 1, s, body => body i0 s >>= fun s' => forFrom (i0 + 1) k s' body

/-- `for (i = 0; i < n; ++i) s = body i s`. -/
def forUp {σ : Type _} (n : Nat) (s : σ) (body : Nat → σ → Exec σ) : Exec σ :=
  forFrom 0 n s body

theorem forFrom_returns {σ : Type _} {body : Nat → σ → Exec σ} (P : Nat → σ → Prop) :
    ∀ (k i0 : Nat) (s : σ), P i0 s →
      (∀ i s, i0 ≤ i → i < i0 + k → P i s → (body i s).Returns (P (i + 1))) →
      (forFrom i0 k s body).Returns (P (i0 + k)) := by
  intro k
  induction k with
  | zero => intro i0 s h _; exact ⟨s, rfl, by simpa using h⟩
  | succ k ih =>
    intro i0 s h step
    refine Exec.Returns.bind (step i0 s (Nat.le_refl _) (by omega) h) ?_
    intro s' hs'
    have := ih (i0 + 1) s' hs' (fun i t h1 h2 hp => step i t (by omega) (by omega) hp)
    rw [show i0 + (k + 1) = i0 + 1 + k by omega]
    exact this

/-- Invariant rule for counted loops. -/
theorem forUp_returns {σ : Type _} {n : Nat} {s : σ} {body : Nat → σ → Exec σ}
    (P : Nat → σ → Prop) (h0 : P 0 s)
    (step : ∀ i s, i < n → P i s → (body i s).Returns (P (i + 1))) :
    (forUp n s body).Returns (P n) := by
  have := forFrom_returns (body := body) P n 0 s h0
    (fun i t _ h2 hp => step i t (by omega) hp)
  simpa [forUp] using this

theorem forFrom_congr {σ : Type _} {b1 b2 : Nat → σ → Exec σ} :
    ∀ (k i0 : Nat) (s : σ), (∀ i s, i0 ≤ i → i < i0 + k → b1 i s = b2 i s) →
      forFrom i0 k s b1 = forFrom i0 k s b2 := by
  intro k
  induction k with
  | zero => intros; rfl
  | succ k ih =>
    intro i0 s h
    simp only [forFrom]
    rw [h i0 s (Nat.le_refl _) (by omega)]
    congr 1
    funext s'
    exact ih (i0 + 1) s' (fun i t h1 h2 => h i t (by omega) (by omega))

theorem forFrom_append {σ : Type _} {body : Nat → σ → Exec σ} :
    ∀ (k l i0 : Nat) (s : σ), forFrom i0 (k + l) s body
      = (forFrom i0 k s body >>= fun s' => forFrom (i0 + k) l s' body) := by
  intro k
  induction k with
  | zero => intro l i0 s; simp [forFrom]
  | succ k ih =>
    intro l i0 s
    rw [show k + 1 + l = (k + l) + 1 by omega]
    simp only [forFrom]
    cases body i0 s with
    | ok a => simp only [Exec.bind_ok]; rw [ih, show i0 + 1 + k = i0 + (k + 1) by omega]
    | throw m => rfl
    | ub => rfl

theorem forUp_succ {σ : Type _} {n : Nat} {s : σ} {body : Nat → σ → Exec σ} :
    forUp (n + 1) s body = (forUp n s body >>= fun s' => body n s') := by
  unfold forUp
  rw [forFrom_append n 1 0 s]
  congr 1
  funext s'
  simp only [forFrom, Nat.zero_add]
  cases body n s' <;> rfl

@[simp] theorem forUp_zero {σ : Type _} {s : σ} {body : Nat → σ → Exec σ} :
    forUp 0 s body = .ok s := rfl

end Verif
