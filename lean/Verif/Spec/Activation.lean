import Verif.Spec.Vec
import Mathlib.Analysis.SpecialFunctions.Exp
import Mathlib.Algebra.BigOperators.Group.Finset.Basic

/-
Textbook definitions of the softmax function and of "position of the maximum".
-/

namespace Verif.Spec
open Finset

noncomputable section

/-- `exp x_i / ∑ j, exp x_j` over `n` components. -/
def softmaxFn (n : Nat) (x : Nat → ℝ) (i : Nat) : ℝ :=
  Real.exp (x i) / ∑ j ∈ range n, Real.exp (x j)

end

/-- `k` is the least index below `n` at which `x` takes its maximum. -/
def IsFirstMax {α : Type _} [LE α] [LT α] (n : Nat) (x : Nat → α) (k : Nat) : Prop :=
  k < n ∧ (∀ i, i < n → x i ≤ x k) ∧ ∀ i, i < k → x i < x k

end Verif.Spec
