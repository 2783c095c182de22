import Verif.Spec.Backprop
import Verif.Spec.Fnn

/-! Vocabulary for statements about linear regression. -/

namespace Verif.Spec

open Verif.Net Finset

noncomputable section

/-- The descriptors of a linear network: `n` inputs, a dense layer with `m` outputs, no activation function. -/
def linearNet (n m : Nat) : List Descriptor := [⟨.input [⟨n, 1, 1⟩], .none⟩, ⟨.dense [⟨m, 1, 1⟩], .linear⟩]

/-- The squared errors of the map `x ↦ W x + c`, summed over `N` samples and `m` outputs. -/
def fitError (n m N : Nat) (s : Nat → List ℝ × List ℝ) (w c : List ℝ) : ℝ :=
  ∑ i ∈ range N, ∑ k ∈ range m, (vec (s i).2 k - (vec c k + ∑ j ∈ range n, mat w n k j * vec (s i).1 j)) ^ 2

/-- The squared distance of two lists of `len` numbers. -/
def sqDist (len : Nat) (u v : List ℝ) : ℝ := ∑ i ∈ range len, (vec u i - vec v i) ^ 2

/-- The squared lengths of the inputs, each with an additional component 1, summed. -/
def inputSize (n N : Nat) (s : Nat → List ℝ × List ℝ) : ℝ :=
  ∑ i ∈ range N, (∑ j ∈ range n, vec (s i).1 j ^ 2 + 1)

end

end Verif.Spec
