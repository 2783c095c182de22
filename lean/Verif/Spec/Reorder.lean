import Mathlib.Logic.Equiv.Defs
import Verif.Spec.Session
import Verif.Spec.Vec
import Verif.Model.Net
import Verif.Model.Training

/-! Specification for C115: the same model and samples with the features in another order. -/

namespace Verif.Spec

open Verif.Net

variable {k : Nat}

/-- Value `j` of `x'` is value `π j` of `x`. -/
def Permuted (π : Equiv.Perm (Fin k)) (x x' : List ℝ) : Prop := ∀ j : Fin k, vec x' j = vec x (π j)

/-- `x'` has the `k` values of `x` in another order. -/
def PermutedSample (π : Equiv.Perm (Fin k)) (x x' : List ℝ) : Prop := x.length = k ∧ x'.length = k ∧ Permuted π x x'

/-- Matrices with `m` rows and `k` columns, stored row by row, of which the second has the columns of the first in
another order. -/
def PermutedColumns (π : Equiv.Perm (Fin k)) (m : Nat) (w w' : List ℝ) : Prop :=
  w.length = m * k ∧ w'.length = m * k ∧ ∀ i < m, ∀ j : Fin k, mat w' k i j = mat w k i (π j)

/-- A dense layer and the same layer for the features in another order. -/
structure Reordered (π : Equiv.Perm (Fin k)) (l l' : Dense.Layer ℝ) : Prop where
  inputSize : l.inputSize = k ∧ l'.inputSize = k
  outputSize : l'.outputSize = l.outputSize
  weights : PermutedColumns π l.outputSize l.weights l'.weights
  gradients : PermutedColumns π l.outputSize l.grads.weight l'.grads.weight
  biases : l.biases.length = l.outputSize ∧ l'.biases = l.biases
  biasGradients : l.grads.bias.length = l.outputSize ∧ l'.grads.bias = l.grads.bias
  output : l.output.length = l.outputSize ∧ l'.output = l.output
  lastInput : l'.lastInput.length = l.lastInput.length ∧ Permuted π l.lastInput l'.lastInput
  inputGradients : l'.grads.input.length = l.grads.input.length

/-- A model and the same model for the features in another order: the layers that get the samples are dense and have
the columns of their matrices in that order, and all other layers are the same. -/
structure ReorderedModel (π : Equiv.Perm (Fin k)) (n n' : Net) : Prop where
  graph : n'.graph = n.graph
  length : n'.layers.length = n.layers.length
  inputs : ∀ (i : Nat) (a a' : AnyLayer), i ∈ n.graph.inputs → n.layers[i]? = some a → n'.layers[i]? = some a' →
    ∃ l l', a = .dense l ∧ a' = .dense l' ∧ Reordered π l l'
  others : ∀ i, i ∉ n.graph.inputs → n'.layers[i]? = n.layers[i]?

/-- The same call with the features in another order. -/
inductive ReorderedCall (π : Equiv.Perm (Fin k)) : UserCall → UserCall → Prop
  | predict {x x' : List ℝ} : PermutedSample π x x' → ReorderedCall π (.predict x) (.predict x')
  | step {x x' : List ℝ} (t : List ℝ) : PermutedSample π x x' → ReorderedCall π (.step x t) (.step x' t)
  | train : ReorderedCall π .train .train
  | resetScore : ReorderedCall π .resetScore .resetScore

/-- The same data set with the features in another order. -/
structure ReorderedData (π : Equiv.Perm (Fin k)) (d d' : Data.Dataset ℝ) : Prop where
  size : d'.size = d.size
  input : ∀ i x, d.input i = .ok x → ∃ x', d'.input i = .ok x' ∧ PermutedSample π x x'
  label : ∀ i, d'.label i = d.label i

end Verif.Spec
