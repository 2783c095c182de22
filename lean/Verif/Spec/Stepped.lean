import Verif.Spec.Training

/-
Specification of training steps that all succeed.
-/

namespace Verif.Spec

open Verif.Net Verif.Training

/-- Stepping on the samples `is` of the data set one after the other turns the model `n` into `n'`, and no step
throws. -/
inductive Stepped (d : Data.Dataset ℝ) : List Nat → Net → Net → Prop
  | nil (n : Net) : Stepped d [] n n
  | cons {i : Nat} {is : List Nat} {x t : List ℝ} {n n1 n' : Net} : d.input i = .ok x → d.label i = .ok t →
      n.step x t = .ok (n1, none) → Stepped d is n1 n' → Stepped d (i :: is) n n'

end Verif.Spec
