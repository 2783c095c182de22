import Verif.Model.Net
import Verif.Model.Data

/-! Specification for C108: models that fit the data, optimizers that rest. -/

namespace Verif.Spec

open Verif.Net

/-- In the states `I` the optimizer leaves a parameter with gradient zero as it is, and stays in such a state. -/
def Rests {σ : Type} (opt : σ → ℝ → ℝ → σ × ℝ) (I : σ → Prop) : Prop :=
  ∀ s p, I s → (opt s p 0).2 = p ∧ I (opt s p 0).1

/-- The model predicts the label of every sample of the data set; the samples have `nin` values. -/
def FitsData (n : Net) (nin : Nat) (d : Data.Dataset ℝ) : Prop :=
  ∀ i, i < d.size → ∃ x t n', d.input i = .ok x ∧ d.label i = .ok t ∧ x.length = nin ∧ n.predict x = .ok (n', .ok t)

end Verif.Spec
