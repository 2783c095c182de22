import Verif.Spec.Scores

/-! Specification for C111: targets that name a class. -/

namespace Verif.Spec

/-- The target names one of `m` classes: a one in its place and zeros elsewhere. -/
def NamesClass (m : Nat) (t : List ℝ) : Prop :=
  ∃ k, k < m ∧ vec t k = 1 ∧ ∀ i, i < m → i ≠ k → vec t i = 0

end Verif.Spec
