import Verif.Spec.Backprop
import Verif.Spec.Slide

/-! Vocabulary for statements about training models with dropout layers. -/

namespace Verif.Spec

open Verif.Net Verif.Graph

noncomputable section

/-- What the dropout layer multiplies component `i` by in the training pass `t` from now on: its scale
(`1 / (1 - p)`, C28) if the number drawn for the component is greater than the dropout probability, 0
otherwise. -/
def dropFactor (mx : Nat) (raw : Nat → Nat) (l : Drop.Layer) (t i : Nat) : ℝ :=
  if l.p < (raw (l.drawn + t * l.size + i) : ℝ) / (mx : ℝ) then l.scale else 0

/-- The dense layer without biases that multiplies component `i` by `dropFactor … t i`. -/
def thinDense (t mx : Nat) (raw : Nat → Nat) (l : Drop.Layer) : Dense.Layer ℝ :=
  { inputSize := l.size
    outputSize := l.size
    weights := tab (l.size * l.size) fun k =>
      if k / l.size = k % l.size then dropFactor mx raw l t (k % l.size) else 0
    biases := List.replicate l.size 0
    grads := ⟨l.inputGrad, List.replicate (l.size * l.size) 0, List.replicate l.size 0⟩
    output := l.output
    lastInput := [] }

/-- The layer in the training pass `t` from now on: in place of a dropout layer the dense layer that
computes the same. -/
def thinLayer (t : Nat) : AnyLayer → AnyLayer
  | .dropout mx raw l => .dense (thinDense t mx raw l)
  | a => a

/-- The network that the training pass `t` from now on trains. -/
def thinned (t : Nat) (ls : List AnyLayer) : List AnyLayer := ls.map (thinLayer t)

/-- A model ready for training, as `Ready`, whose layers may be dropout layers too. -/
structure ReadyThin (g : Net) (p : List Nat) (q : Nat) (ls : List AnyLayer) (f : LossFn) (n m : Nat)
    (inv : ℝ) : Prop where
  layers : p.map (fun i => g.layers[i]?) = ls.map some
  sizes : Trainable n m (thinned 0 ls)
  loss : ∃ l, g.layers[q]? = some (.loss f l) ∧ l.inputSize = m ∧ l.gradients.length = m ∧
    l.invBatch = inv

/-- The summed objective of a list of samples, the first of which is for the training pass `t`: each is
predicted by the network of its pass. -/
def thinCost (f : LossFn) (m : Nat) (inv : ℝ) : Nat → List (List ℝ × List ℝ) → List AnyLayer → ℝ
  | _, [], _ => 0
  | t, s :: samples, ls =>
    objective f m inv s.2 (prediction (thinned t ls) s.1) + thinCost f m inv (t + 1) samples ls

/-- The training pass `t` can use the sample: sizes fit, and in the network that this pass trains the loss
is differentiable at the prediction and so are all layers above a layer with parameters. -/
structure GoodThin (t : Nat) (ls : List AnyLayer) (f : LossFn) (n m : Nat) (x y : List ℝ) : Prop where
  fit : FitSample (thinned t ls) f n m x y
  smooth : ∀ (j : Nat) (l : AnyLayer), ls[j]? = some l → l.params ≠ [] →
    SmoothFrom (j + 1) (thinned t ls) x

/-- The costs of batches of samples, one after the other, starting with the training pass `t`. -/
def thinCosts (f : LossFn) (m : Nat) (inv : ℝ) (s : Nat → List ℝ × List ℝ) (ls : List AnyLayer) :
    Nat → List (List Nat) → List (Theta → ℝ)
  | _, [] => []
  | t, is :: bs =>
    (fun θ => thinCost f m inv t (is.map s) (withTheta ls θ)) :: thinCosts f m inv s ls (t + is.length) bs

end

end Verif.Spec
