import Verif.Model.Net
import Verif.Spec.Shape
import Mathlib.Algebra.BigOperators.Group.Finset.Basic
import Mathlib.Analysis.SpecialFunctions.Sqrt

/-
Specification of how far Adam may move parameters.
-/

namespace Verif.Spec

open Verif.Net Verif.Opt

/-- The largest step of Adam number `t`, as a multiple of the learning rate. -/
noncomputable def adamLimit (b1 b2 : ℝ) (t : Nat) : ℝ :=
  Real.sqrt ((∑ i ∈ Finset.range t, b2 ^ i) * ∑ i ∈ Finset.range t, (b1 ^ 2 / b2) ^ i) / ∑ i ∈ Finset.range t, b1 ^ i

/-- The parameters of two layers, as `param(i)` gives them, differ by at most `K`. -/
def Within (K : ℝ) (a b : AnyLayer) : Prop :=
  b.kind = a.kind ∧ ∀ j, j < a.kind.paramCount → ∃ p q, readAt a.kind a.params j = .ok p ∧
    readAt b.kind b.params j = .ok q ∧ |q - p| ≤ K

/-- The number of calls of `train` in a history. -/
def trainings : List UserCall → Nat
  | [] => 0
  | .train :: cs => trainings cs + 1
  | _ :: cs => trainings cs

end Verif.Spec
