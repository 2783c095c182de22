import Verif.Spec.Rescale

/-! Specification for C117: models and data that differ in the origin of the labels. -/

namespace Verif.Spec

open Verif.Net Verif.Graph

noncomputable section

/-- Value `j` is increased by `A j`. -/
def movedBy (A : Nat → ℝ) (v : List ℝ) : List ℝ := v.mapIdx fun j y => A j + y

/-- Layer `i` is connected to a loss layer. -/
def Final (g : DLGraph) (i : Nat) : Prop := ∃ j ∈ g.loss, j ∈ successors g.training i

/-- Samples do not go to loss layers directly, and layers that are connected
to a loss layer are connected to loss layers only: there is nothing behind them that computes with moved values. -/
structure LossLast (g : DLGraph) : Prop where
  inputs : ∀ i ∈ g.inputs, i ∉ g.loss
  ends : ∀ i j, Final g i → j ∈ successors g.training i → j ∈ g.loss

/-- A model and the same model for labels that are moved by `A`: the layers that are connected to a loss layer are
dense and have the biases moved (their outputs are computed anew by every call and may be anything of the same length),
the loss layers are mean squared error losses and have the targets and inputs moved, and all other layers are the
same. -/
structure MovedModel (A : Nat → ℝ) (n n' : Net) : Prop where
  graph : n'.graph = n.graph
  length : n'.layers.length = n.layers.length
  final : ∀ i a, Final n.graph i → n.layers[i]? = some a →
    ∃ l o, a = .dense l ∧ n'.layers[i]? = some (.dense { l with biases := movedBy A l.biases, output := o }) ∧
      o.length = l.output.length
  loss : ∀ i a, i ∈ n.graph.loss → n.layers[i]? = some a →
    ∃ l, a = .loss .mse l ∧
      n'.layers[i]? = some (.loss .mse { l with target := movedBy A l.target, lastInput := movedBy A l.lastInput })
  others : ∀ i, ¬ Final n.graph i → i ∉ n.graph.loss → n'.layers[i]? = n.layers[i]?

/-- The same call with the label moved. -/
def movedCall (A : Nat → ℝ) : UserCall → UserCall
  | .step x t => .step x (movedBy A t)
  | c => c

/-- The same data set with all labels moved. -/
structure MovedData (A : Nat → ℝ) (d d' : Data.Dataset ℝ) : Prop where
  size : d'.size = d.size
  input : ∀ i, d'.input i = d.input i
  label : ∀ i, SameEnd (fun t t' => t' = movedBy A t) (d.label i) (d'.label i)

/-- The layer whose output `predict` returns is connected to a loss layer, and `predict` computes it. -/
def FinalOutput (g : DLGraph) : Prop :=
  ∀ o, g.outputs.head? = some o → Final g o ∧ (o ∈ g.inputs ∨ ∃ i, (i, o) ∈ forwardArcs g)

/-- What the second model predicts is what the first predicts, moved by `A`, or the same exception. -/
def PredictsMoved (A : Nat → ℝ) (n n' : Net) : Prop :=
  ∀ x, SameEnd (fun r r' => r'.2 = r.2.map (movedBy A)) (n.predict x) (n'.predict x)

end

end Verif.Spec
