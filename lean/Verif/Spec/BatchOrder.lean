import Verif.Spec.Session
import Verif.Spec.Backprop
import Verif.Spec.Training

/-! Vocabulary for the order of the samples in a batch. -/

namespace Verif.Spec

open Verif.Net

noncomputable section

/-- The gradient that the model has accumulated for entry `k` of the parameter block `b` of layer `i`. -/
def gradAt (m : Net) (i b k : Nat) : ℝ := entry ((m.layers.map AnyLayer.paramGrads).getD i []) b k

/-- What one `step` of the sample `s` on its own adds to this gradient. -/
def contribution (net : Net) (s : List ℝ × List ℝ) (i b k : Nat) : ℝ :=
  match net.step s.1 s.2 with
  | .ok r => gradAt r.1 i b k - gradAt net i b k
  | _ => 0

/-- The training steps of a list of samples. -/
def stepCalls (b : List (List ℝ × List ℝ)) : List UserCall := b.map fun s => .step s.1 s.2

/-- The calls of a training: for each batch a step for each of its samples, then an update of the parameters. -/
def trainingCalls (bs : List (List (List ℝ × List ℝ))) : List UserCall := bs.flatMap fun b => stepCalls b ++ [.train]

/-- Block `b` of layer `i` is one whose gradients are accumulated: any block but the biases of a convolution. -/
def LearnedAt (m : Net) (i b : Nat) : Prop := ∀ a, m.layers[i]? = some a → Learned a b

/-- `d'` has the rows of `d`, and for batches of size `b` each row is in the same batch: row `i` of `d'` is row `π i`
of `d`. -/
structure Rearranged (b : Nat) (d d' : Data.Dataset ℝ) (π : Nat → Nat) : Prop where
  size : d'.size = d.size
  inside : ∀ i, i < d.size → π i < d.size
  once : ∀ i j, i < d.size → j < d.size → π i = π j → i = j
  batch : ∀ i, i < d.size → π i / b = i / b
  input : ∀ i, i < d.size → d'.input i = d.input (π i)
  label : ∀ i, i < d.size → d'.label i = d.label (π i)

end

end Verif.Spec
