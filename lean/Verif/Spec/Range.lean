import Verif.Model.Net
import Verif.Spec.Vec

/-! Specification for C109: the values that the output of an activation layer can have. -/

namespace Verif.Spec

open Verif.Net

/-- The values an activation layer can give: no negative ones from a rectifier, none below `-a` from an exponential
unit with the constant `a ≥ 0`, a probability distribution without zeros from the softmax, and values strictly
between -1 and 1 from the hyperbolic tangent and strictly between 0 and 1 from the sigmoid. -/
def InRange (y : List ℝ) : ActFn → Prop
  | .relu => ∀ v ∈ y, 0 ≤ v
  | .elu a => 0 ≤ a → ∀ v ∈ y, -a ≤ v
  | .softmax => (∀ v ∈ y, 0 < v ∧ v ≤ 1) ∧ y.sum = 1
  | .tanh => ∀ v ∈ y, -1 < v ∧ v < 1
  | .sigmoid => ∀ v ∈ y, 0 < v ∧ v < 1
  | .linear => True

/-- The activations whose values are never larger than 1 in absolute value. -/
def Squashes : ActFn → Prop
  | .softmax | .tanh | .sigmoid => True
  | _ => False

end Verif.Spec
