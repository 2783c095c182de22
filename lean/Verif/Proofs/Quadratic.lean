import Mathlib.Analysis.Calculus.Deriv.Add
import Mathlib.Analysis.Calculus.Deriv.Mul
import Mathlib.Analysis.Calculus.Deriv.Pow
import Mathlib.Algebra.Order.BigOperators.Ring.Finset
import Mathlib.Tactic

/-! Gradient descent on sums of squared errors of linear maps. -/

namespace Verif.Quad

open Finset

noncomputable section

variable (N m q : Nat) (X Y : Nat → Nat → ℝ)

/-- The error of the map with coefficients `P` at sample `i` and output `k`. -/
def err (P : Nat → Nat → ℝ) (i k : Nat) : ℝ := Y i k - ∑ j ∈ range q, P k j * X i j

/-- The sum of the squared errors. -/
def total (P : Nat → Nat → ℝ) : ℝ := ∑ i ∈ range N, ∑ k ∈ range m, err q X Y P i k ^ 2

/-- Its partial derivatives. -/
def grad (P : Nat → Nat → ℝ) (k j : Nat) : ℝ := -2 * ∑ i ∈ range N, err q X Y P i k * X i j

/-- Inner product and squared norm of coefficients. -/
def inner (P Q : Nat → Nat → ℝ) : ℝ := ∑ k ∈ range m, ∑ j ∈ range q, P k j * Q k j

def size : ℝ := ∑ i ∈ range N, ∑ j ∈ range q, X i j ^ 2

variable {N m q X Y}

theorem total_add (P V : Nat → Nat → ℝ) : total N m q X Y (fun k j => P k j + V k j)
    = total N m q X Y P + inner m q V (grad N q X Y P)
      + ∑ i ∈ range N, ∑ k ∈ range m, (∑ j ∈ range q, V k j * X i j) ^ 2 := by
  have e1 : ∀ i k, err q X Y (fun k j => P k j + V k j) i k = err q X Y P i k - ∑ j ∈ range q, V k j * X i j := by
    intro i k
    unfold err
    rw [sub_sub, ← sum_add_distrib]
    congr 1
    exact sum_congr rfl fun j _ => by ring
  have e2 : inner m q V (grad N q X Y P)
      = ∑ i ∈ range N, ∑ k ∈ range m, -2 * (err q X Y P i k * ∑ j ∈ range q, V k j * X i j) := by
    unfold inner grad
    rw [sum_comm (s := range N)]
    refine sum_congr rfl fun k _ => ?_
    simp only [mul_sum]
    rw [sum_comm]
    exact sum_congr rfl fun i _ => sum_congr rfl fun j _ => by ring
  rw [e2]
  unfold total
  rw [← sum_add_distrib, ← sum_add_distrib]
  refine sum_congr rfl fun i _ => ?_
  rw [← sum_add_distrib, ← sum_add_distrib]
  exact sum_congr rfl fun k _ => by rw [e1]; ring

theorem cross_le (V : Nat → Nat → ℝ) :
    ∑ i ∈ range N, ∑ k ∈ range m, (∑ j ∈ range q, V k j * X i j) ^ 2 ≤ size N q X * inner m q V V := by
  unfold size inner
  rw [sum_mul_sum]
  refine sum_le_sum fun i _ => sum_le_sum fun k _ => ?_
  have := sum_mul_sq_le_sq_mul_sq (range q) (fun j => V k j) (fun j => X i j)
  calc _ ≤ _ := this
    _ = _ := by rw [mul_comm]; congr 1; exact sum_congr rfl fun j _ => by ring

theorem inner_nonneg (V : Nat → Nat → ℝ) : 0 ≤ inner m q V V :=
  sum_nonneg fun k _ => sum_nonneg fun j _ => mul_self_nonneg _

/-- One step of gradient descent. -/
theorem step_le {P P' Q : Nat → Nat → ℝ} {a : ℝ} (ha : 0 < a) (hs : 2 * a * size N q X ≤ 1)
    (hP : ∀ k < m, ∀ j < q, P' k j = P k j - a * grad N q X Y P k j) :
    2 * a * total N m q X Y P' ≤ 2 * a * total N m q X Y Q
      + (inner m q (fun k j => P k j - Q k j) (fun k j => P k j - Q k j)
        - inner m q (fun k j => P' k j - Q k j) (fun k j => P' k j - Q k j)) := by
  have t1 := total_add (N := N) (m := m) (q := q) (X := X) (Y := Y) P fun k j => P' k j - P k j
  have t2 := total_add (N := N) (m := m) (q := q) (X := X) (Y := Y) P fun k j => Q k j - P k j
  simp only [add_sub_cancel] at t1 t2
  have c1 := cross_le (N := N) (m := m) (q := q) (X := X) fun k j => P' k j - P k j
  have c2 : 0 ≤ ∑ i ∈ range N, ∑ k ∈ range m, (∑ j ∈ range q, (Q k j - P k j) * X i j) ^ 2 :=
    sum_nonneg fun i _ => sum_nonneg fun k _ => sq_nonneg _
  have g1 : ∀ V : Nat → Nat → ℝ, a * inner m q V (grad N q X Y P) = - inner m q V fun k j => P' k j - P k j := by
    intro V
    unfold inner
    rw [mul_sum, ← sum_neg_distrib]
    refine sum_congr rfl fun k hk => ?_
    rw [mul_sum, ← sum_neg_distrib]
    refine sum_congr rfl fun j hj => ?_
    dsimp only
    rw [hP k (mem_range.mp hk) j (mem_range.mp hj)]
    ring
  have g2 := g1 fun k j => P' k j - P k j
  have g3 := g1 fun k j => Q k j - P k j
  have g4 : inner m q (fun k j => P k j - Q k j) (fun k j => P k j - Q k j)
        - inner m q (fun k j => P' k j - Q k j) (fun k j => P' k j - Q k j)
      = 2 * inner m q (fun k j => Q k j - P k j) (fun k j => P' k j - P k j)
        - inner m q (fun k j => P' k j - P k j) (fun k j => P' k j - P k j) := by
    unfold inner
    rw [mul_sum, ← sum_sub_distrib, ← sum_sub_distrib]
    refine sum_congr rfl fun k _ => ?_
    rw [mul_sum, ← sum_sub_distrib, ← sum_sub_distrib]
    exact sum_congr rfl fun j _ => by ring
  have n0 := inner_nonneg (m := m) (q := q) fun k j => P' k j - P k j
  rw [t1, t2, g4]
  have h1 : 2 * a * (size N q X * inner m q (fun k j => P' k j - P k j) (fun k j => P' k j - P k j))
      ≤ 1 * inner m q (fun k j => P' k j - P k j) (fun k j => P' k j - P k j) := by
    rw [← mul_assoc]
    exact mul_le_mul_of_nonneg_right hs n0
  have h2 := mul_le_mul_of_nonneg_left c1 (by linarith : 0 ≤ 2 * a)
  nlinarith [mul_nonneg (by linarith : 0 ≤ 2 * a) c2]

/-- Several steps. -/
theorem steps_le {a : ℝ} (ha : 0 < a) (hs : 2 * a * size N q X ≤ 1) (Q : Nat → Nat → ℝ) (P : Nat → Nat → Nat → ℝ)
    (T : Nat) (hP : ∀ t < T, ∀ k < m, ∀ j < q, P (t + 1) k j = P t k j - a * grad N q X Y (P t) k j) :
    2 * a * (T * (total N m q X Y (P T) - total N m q X Y Q))
      ≤ inner m q (fun k j => P 0 k j - Q k j) (fun k j => P 0 k j - Q k j)
        - inner m q (fun k j => P T k j - Q k j) (fun k j => P T k j - Q k j) := by
  induction T with
  | zero => simp
  | succ T ih =>
    have h1 := ih fun t ht => hP t (by omega)
    have h2 := step_le (Q := Q) ha hs (hP T (by omega))
    have h3 := step_le (Q := P T) ha hs (hP T (by omega))
    have h4 : inner m q (fun k j => P T k j - P T k j) (fun k j => P T k j - P T k j) = 0 := by simp [inner]
    have h5 := inner_nonneg (m := m) (q := q) fun k j => P (T + 1) k j - P T k j
    rw [h4] at h3
    have h6 : (T : ℝ) * (2 * a * total N m q X Y (P (T + 1))) ≤ T * (2 * a * total N m q X Y (P T)) :=
      mul_le_mul_of_nonneg_left (by linarith) (Nat.cast_nonneg T)
    push_cast
    nlinarith

/-- The partial derivatives are `grad`. -/
theorem total_deriv (P : Nat → Nat → ℝ) {k j : Nat} (hk : k < m) (hj : j < q) :
    HasDerivAt (fun v => total N m q X Y fun k' j' => if k' = k ∧ j' = j then v else P k' j')
      (grad N q X Y P k j) (P k j) := by
  have e : (fun v => total N m q X Y fun k' j' => if k' = k ∧ j' = j then v else P k' j')
      = fun v => total N m q X Y P + (v - P k j) * grad N q X Y P k j
        + (v - P k j) ^ 2 * ∑ i ∈ range N, X i j ^ 2 := by
    funext v
    have t := total_add (N := N) (m := m) (q := q) (X := X) (Y := Y) P
      fun k' j' => if k' = k ∧ j' = j then v - P k j else 0
    have e1 : (fun k' j' => P k' j' + if k' = k ∧ j' = j then v - P k j else 0)
        = fun k' j' => if k' = k ∧ j' = j then v else P k' j' := by
      funext k' j'
      by_cases h : k' = k ∧ j' = j
      · rw [if_pos h, if_pos h, h.1, h.2]; ring
      · rw [if_neg h, if_neg h, add_zero]
    have e0 : ∀ (c : Nat → Nat → ℝ) (k' : Nat), ∑ j' ∈ range q, (if k' = k ∧ j' = j then v - P k j else 0) * c k' j'
        = if k' = k then (v - P k j) * c k' j else 0 := by
      intro c k'
      by_cases h : k' = k
      · rw [if_pos h, sum_eq_single_of_mem j (mem_range.mpr hj) (fun j' _ h' => by simp [h'])]
        simp [h]
      · rw [if_neg h]
        exact sum_eq_zero fun j' _ => by simp [h]
    have e2 : inner m q (fun k' j' => if k' = k ∧ j' = j then v - P k j else 0) (grad N q X Y P)
        = (v - P k j) * grad N q X Y P k j := by
      unfold inner
      rw [sum_congr rfl fun k' _ => e0 (grad N q X Y P) k', sum_eq_single_of_mem k (mem_range.mpr hk) (fun k' _ h' => by simp [h'])]
      simp
    have e3 : ∑ i ∈ range N, ∑ k' ∈ range m, (∑ j' ∈ range q, (if k' = k ∧ j' = j then v - P k j else 0) * X i j') ^ 2
        = (v - P k j) ^ 2 * ∑ i ∈ range N, X i j ^ 2 := by
      rw [mul_sum]
      refine sum_congr rfl fun i _ => ?_
      rw [sum_congr rfl fun k' _ => by rw [e0 (fun _ j' => X i j') k'],
        sum_eq_single_of_mem k (mem_range.mpr hk) (fun k' _ h' => by simp [h'])]
      simp [mul_pow]
    rw [e1, e2, e3] at t
    exact t
  rw [e]
  have h1 : HasDerivAt (fun v : ℝ => v - P k j) 1 (P k j) := (hasDerivAt_id _).sub_const _
  have h2 := ((h1.mul_const (grad N q X Y P k j)).const_add (total N m q X Y P)).add
    ((h1.pow 2).mul_const (∑ i ∈ range N, X i j ^ 2))
  refine (h2.congr_deriv (by simp)).congr_of_eventuallyEq (Filter.Eventually.of_forall fun v => rfl)

end

end Verif.Quad
