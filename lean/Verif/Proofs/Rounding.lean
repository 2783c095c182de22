import Verif.Spec.Rounding
import Verif.Proofs.Double
import Verif.Proofs.Dense
import Verif.Proofs.Pool
import Verif.Proofs.Conv
import Mathlib.Algebra.Order.BigOperators.Group.Finset

/-
Error bounds for the floating-point runs of the kernels.
-/

namespace Verif.Float
open Spec Finset Slide Dense

variable {A : Arith}

theorem fl_zero : (0 : Fl A) = .fin 0 := rfl
theorem fl_one : (1 : Fl A) = .fin 1 := rfl
theorem fl_add (a b : ℝ) : (Fl.fin a : Fl A) + .fin b = .round A (a + b) := rfl
theorem fl_mul (a b : ℝ) : (Fl.fin a : Fl A) * .fin b = .round A (a * b) := rfl
theorem fl_sub (a b : ℝ) : (Fl.fin a : Fl A) - .fin b = .round A (a - b) := rfl
theorem fl_neg (a : ℝ) : -(Fl.fin a : Fl A) = .fin (-a) := rfl
theorem fl_lt (a b : ℝ) : ((Fl.fin a : Fl A) < .fin b) ↔ a < b := Iff.rfl
theorem fl_div (a b : ℝ) (h : b ≠ 0) : (Fl.fin a : Fl A) / .fin b = .round A (a / b) := by
  show Fl.div _ _ = _
  simp [Fl.div, h]
theorem fl_nat (n : Nat) : ((n : Nat) : Fl A) = .round A n := rfl

theorem vec_fins (l : List ℝ) (i : Nat) : vec (fins A l) i = .fin (vec l i) := by
  unfold vec fins
  rw [List.getD_eq_getElem?_getD, List.getD_eq_getElem?_getD, List.getElem?_map]
  cases l[i]? <;> rfl

theorem mat_fins (l : List ℝ) (n i j : Nat) : mat (fins A l) n i j = .fin (mat l n i j) :=
  vec_fins l (i * n + j)

/-- An operation whose exact result is small enough returns a finite number near it. -/
theorem round_ok {x : ℝ} (h : |x| + opErr A x < A.big) :
    ∃ s, Fl.round A x = .fin s ∧ |s - x| ≤ opErr A x := by
  have he := A.err x
  have h1 : |A.rnd x| < A.big := by
    have : |A.rnd x| ≤ |A.rnd x - x| + |x| := by
      have := abs_add_le (A.rnd x - x) x
      rwa [sub_add_cancel] at this
    unfold opErr at h
    linarith
  exact ⟨A.rnd x, by unfold Fl.round; rw [if_pos h1], he⟩

/-- The sum in program order, skipping the indices where `P` fails. -/
def ordSumIf {α : Type _} [Add α] (P : Nat → Prop) [DecidablePred P] (b : α) : Nat → (Nat → α) → α
  | 0, _ => b
  | n + 1, f => if P n then ordSumIf P b n f + f n else ordSumIf P b n f

theorem ordSumIf_true {α : Type _} [Add α] (b : α) (n : Nat) (f : Nat → α) :
    ordSumIf (fun _ => True) b n f = ordSum b n f := by
  induction n with
  | zero => rfl
  | succ n ih => simp [ordSumIf, ordSum, ih]

theorem one_le_pow_u (k : Nat) : 1 ≤ (1 + A.u) ^ k := one_le_pow₀ (by linarith [A.u_nonneg])

theorem sumErr_nonneg (n : Nat) {M : ℝ} (h : 0 ≤ M) : 0 ≤ sumErr A n M := by
  have h1 := one_le_pow_u (A := A) (n + 1)
  have h2 := one_le_pow_u (A := A) n
  have := A.e_nonneg
  unfold sumErr
  have : 0 ≤ ((1 + A.u) ^ (n + 1) - 1) * M := mul_nonneg (by linarith) h
  have : 0 ≤ 2 * (n : ℝ) * (1 + A.u) ^ n * A.e := by positivity
  linarith

theorem sumErr_mono {k n : Nat} (h : k ≤ n) {M N : ℝ} (h0 : 0 ≤ M) (hM : M ≤ N) :
    sumErr A k M ≤ sumErr A n N := by
  have hu : 1 ≤ 1 + A.u := by linarith [A.u_nonneg]
  have h1 := one_le_pow_u (A := A) (k + 1)
  have h2 := one_le_pow_u (A := A) k
  have he := A.e_nonneg
  have h3 : (1 + A.u) ^ (k + 1) ≤ (1 + A.u) ^ (n + 1) := pow_le_pow_right₀ hu (by omega)
  have h4 : (1 + A.u) ^ k ≤ (1 + A.u) ^ n := pow_le_pow_right₀ hu h
  have hk : (k : ℝ) ≤ n := by exact_mod_cast h
  unfold sumErr
  have e1 : ((1 + A.u) ^ (k + 1) - 1) * M ≤ ((1 + A.u) ^ (n + 1) - 1) * N :=
    mul_le_mul (by linarith) hM h0 (by linarith)
  have e2 : 2 * (k : ℝ) * (1 + A.u) ^ k * A.e ≤ 2 * n * (1 + A.u) ^ n * A.e := by
    refine mul_le_mul_of_nonneg_right ?_ he
    exact mul_le_mul (by linarith) h4 (by linarith) (by positivity)
  linarith

/-- One more summand. -/
theorem sumErr_step {k : Nat} {M q s S p : ℝ} (hS : |S| ≤ M) (hs : |s - S| ≤ sumErr A k M)
    (hp : |p - q| ≤ opErr A q) :
    |A.rnd (s + p) - (S + q)| ≤ sumErr A (k + 1) (M + |q|) := by
  have hu := A.u_nonneg
  have he := A.e_nonneg
  have h0 := A.err (s + p)
  have hg : 1 ≤ (1 + A.u) ^ k := one_le_pow_u k
  have hq := abs_nonneg q
  have hM : 0 ≤ M := (abs_nonneg S).trans hS
  have h1 : |s + p| ≤ M + |q| + sumErr A k M + opErr A q := by
    have e : s + p = S + q + ((s - S) + (p - q)) := by ring
    rw [e]
    have a1 := abs_add_le (S + q) ((s - S) + (p - q))
    have a2 := abs_add_le S q
    have a3 := abs_add_le (s - S) (p - q)
    linarith
  have h2 : |A.rnd (s + p) - (S + q)| ≤ |A.rnd (s + p) - (s + p)| + (|s - S| + |p - q|) := by
    have e : A.rnd (s + p) - (S + q) = (A.rnd (s + p) - (s + p)) + ((s - S) + (p - q)) := by ring
    rw [e]
    have a1 := abs_add_le (A.rnd (s + p) - (s + p)) ((s - S) + (p - q))
    have a3 := abs_add_le (s - S) (p - q)
    linarith
  have h3 : A.u * |s + p| ≤ A.u * (M + |q| + sumErr A k M + opErr A q) :=
    mul_le_mul_of_nonneg_left h1 hu
  refine (h2.trans (add_le_add h0 (add_le_add hs hp))).trans ?_
  refine (add_le_add (add_le_add h3 le_rfl) le_rfl).trans ?_
  unfold sumErr opErr
  rw [pow_succ (1 + A.u) (k + 1), pow_succ (1 + A.u) k]
  push_cast
  generalize (1 + A.u) ^ k = g at *
  have hgu : 1 + A.u ≤ g * (1 + A.u) := by nlinarith
  have hk : (0 : ℝ) ≤ k := Nat.cast_nonneg k
  have c1 : 0 ≤ |q| * ((g * (1 + A.u) - (1 + A.u)) * (1 + A.u)) :=
    mul_nonneg hq (mul_nonneg (by linarith) (by linarith))
  have c2 : 0 ≤ A.e * (2 * (g * (1 + A.u)) - (1 + A.u) - 1) := mul_nonneg he (by linarith)
  nlinarith [c1, c2]

/-- A sum of computed terms, in program order. -/
theorem fl_sum {P : Nat → Prop} [DecidablePred P] {b : ℝ} {n : Nat} {t : Nat → Fl A} {q : Nat → ℝ}
    (ht : ∀ j, j < n → P j → ∃ p, t j = .fin p ∧ |p - q j| ≤ opErr A (q j))
    (hq : ∀ j, j < n → ¬ P j → q j = 0)
    (hbig : |b| + ∑ j ∈ range n, |q j| + sumErr A n (|b| + ∑ j ∈ range n, |q j|) < A.big) :
    ∃ s, ordSumIf P (.fin b : Fl A) n t = .fin s ∧
      |s - (b + ∑ j ∈ range n, q j)| ≤ sumErr A n (|b| + ∑ j ∈ range n, |q j|) := by
  have key : ∀ k, k ≤ n → ∃ s, ordSumIf P (.fin b : Fl A) k t = .fin s ∧
      |s - (b + ∑ j ∈ range k, q j)| ≤ sumErr A k (|b| + ∑ j ∈ range k, |q j|) := by
    intro k
    induction k with
    | zero =>
      intro _
      refine ⟨b, rfl, ?_⟩
      simp only [range_zero, sum_empty, add_zero, sub_self, abs_zero]
      exact sumErr_nonneg 0 (abs_nonneg b)
    | succ k ih =>
      intro hk
      obtain ⟨s, e, hs⟩ := ih (by omega)
      have hM : |b + ∑ j ∈ range k, q j| ≤ |b| + ∑ j ∈ range k, |q j| :=
        (abs_add_le _ _).trans (add_le_add le_rfl (abs_sum_le_sum_abs _ _))
      have hM0 : 0 ≤ |b| + ∑ j ∈ range k, |q j| :=
        add_nonneg (abs_nonneg b) (sum_nonneg fun _ _ => abs_nonneg _)
      have hM1 : 0 ≤ |b| + ∑ j ∈ range (k + 1), |q j| :=
        add_nonneg (abs_nonneg b) (sum_nonneg fun _ _ => abs_nonneg _)
      have hle : |b| + ∑ j ∈ range (k + 1), |q j| ≤ |b| + ∑ j ∈ range n, |q j| :=
        add_le_add le_rfl (sum_le_sum_of_subset_of_nonneg
          (range_subset_range.mpr hk) (fun _ _ _ => abs_nonneg _))
      by_cases hP : P k
      · obtain ⟨p, ep, hp⟩ := ht k (by omega) hP
        have st := sumErr_step hM hs hp
        rw [sum_range_succ, sum_range_succ, ← add_assoc, ← add_assoc]
        refine ⟨A.rnd (s + p), ?_, st⟩
        show (if P k then _ else _) = _
        rw [if_pos hP, e, ep, fl_add]
        unfold Fl.round
        rw [if_pos]
        have m1 := sumErr_mono (A := A) hk hM1 hle
        have a1 : |A.rnd (s + p)| ≤ |A.rnd (s + p) - (b + ∑ j ∈ range k, q j + q k)|
            + |b + ∑ j ∈ range k, q j + q k| := by
          have := abs_add_le (A.rnd (s + p) - (b + ∑ j ∈ range k, q j + q k))
            (b + ∑ j ∈ range k, q j + q k)
          rwa [sub_add_cancel] at this
        have a2 := abs_add_le (b + ∑ j ∈ range k, q j) (q k)
        rw [sum_range_succ, ← add_assoc] at m1 hle
        linarith
      · rw [sum_range_succ, sum_range_succ, hq k (by omega) hP, abs_zero, add_zero, add_zero]
        refine ⟨s, ?_, hs.trans (sumErr_mono (by omega) hM0 le_rfl)⟩
        show (if P k then _ else _) = _
        rw [if_neg hP, e]
  exact key n le_rfl

/-- A product of a sum that does not overflow is finite and near the exact product. -/
theorem fl_prod {n : Nat} {q : Nat → ℝ} {b : ℝ} {j : Nat} (hj : j < n) {x y : ℝ} (hxy : x * y = q j)
    (hbig : |b| + ∑ j ∈ range n, |q j| + sumErr A n (|b| + ∑ j ∈ range n, |q j|) < A.big) :
    ∃ p, (.fin x * .fin y : Fl A) = .fin p ∧ |p - q j| ≤ opErr A (q j) := by
  rw [fl_mul, hxy]
  apply round_ok
  refine lt_of_le_of_lt ?_ hbig
  have hu := A.u_nonneg
  have he := A.e_nonneg
  have h1 : |q j| ≤ ∑ j ∈ range n, |q j| :=
    single_le_sum (f := fun j => |q j|) (fun _ _ => abs_nonneg _) (mem_range.mpr hj)
  have hb := abs_nonneg b
  generalize ∑ j ∈ range n, |q j| = Q at *
  have h2 := abs_nonneg (q j)
  have hg : 1 ≤ (1 + A.u) ^ n := one_le_pow_u n
  have hn : (1 : ℝ) ≤ n := by exact_mod_cast (by omega : 1 ≤ n)
  unfold opErr sumErr
  rw [pow_succ]
  generalize (1 + A.u) ^ n = g at *
  have h3 : A.u ≤ g * (1 + A.u) - 1 := by nlinarith
  have h4 : A.u * |q j| ≤ (g * (1 + A.u) - 1) * (|b| + Q) := mul_le_mul h3 (by linarith) h2 (by linarith)
  have h5 : A.e ≤ 2 * n * g * A.e := by nlinarith [mul_nonneg (by linarith : (0:ℝ) ≤ n - 1) (by linarith : (0:ℝ) ≤ g - 1)]
  linarith

/-- A dot product in program order. -/
theorem fl_dot {n : Nat} {b : ℝ} {x y : Nat → ℝ}
    (hbig : |b| + ∑ j ∈ range n, |x j * y j| + sumErr A n (|b| + ∑ j ∈ range n, |x j * y j|) < A.big) :
    ∃ s, ordSum (.fin b : Fl A) n (fun j => .fin (x j) * .fin (y j)) = .fin s ∧
      |s - (b + ∑ j ∈ range n, x j * y j)| ≤ sumErr A n (|b| + ∑ j ∈ range n, |x j * y j|) := by
  rw [← ordSumIf_true]
  exact fl_sum (q := fun j => x j * y j) (fun j hj _ => fl_prod hj rfl hbig) (fun _ _ h => absurd trivial h) hbig

end Verif.Float
