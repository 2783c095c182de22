import Verif.Spec.Drift

/-! Specification for C107: how much a network enlarges differences between inputs. -/

namespace Verif.Spec

open Verif.Net Finset

noncomputable section

/-- How much a layer can enlarge the largest difference between two inputs: the largest sum of the absolute values
of the weights that enter one output of a dense layer or one filter of a convolution; a quarter for the sigmoid, a half
for the softmax, and 1 for the other activations and for pooling, apart from an exponential unit with a constant
above 1. -/
def gain : AnyLayer → ℝ
  | .dense l => ⨆ i : Fin l.outputSize, ∑ j ∈ range l.inputSize, |mat l.weights l.inputSize i j|
  | .conv l => ⨆ f : Fin l.nFilters, ∑ a ∈ range l.kernel.h, ∑ b ∈ range l.kernel.w, ∑ ch ∈ range l.input.c,
      |vec l.weights (((a * l.kernel.w + b) * l.input.c + ch) * l.nFilters + f)|
  | .act .sigmoid _ => 1 / 4
  | .act .softmax _ => 1 / 2
  | .act (.elu a) _ => max 1 |a|
  | _ => 1

/-- The product of the gains of the layers. -/
def gains (ls : List AnyLayer) : ℝ := (ls.map gain).prod

/-- Of the values `y`, the one with index `i` is larger than all others by more than `d`. -/
def WinsBy (d : ℝ) (y : List ℝ) (i : Nat) : Prop :=
  i < y.length ∧ ∀ k, k < y.length → k ≠ i → vec y k + d < vec y i

end

end Verif.Spec
