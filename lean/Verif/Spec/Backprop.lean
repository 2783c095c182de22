import Verif.Spec.Net
import Verif.Spec.Loss
import Verif.Spec.Training

/-! Vocabulary for statements about training steps of whole models. -/

namespace Verif.Spec

open Verif.Net Verif.Graph Finset

noncomputable section

/-- Entry `k` of block `b` of a list of parameter (or gradient) blocks. -/
def entry (ps : List (List ℝ)) (b k : Nat) : ℝ := vec (ps.getD b []) k

/-- The blocks with entry `k` of block `b` replaced. -/
def setEntry (ps : List (List ℝ)) (b k : Nat) (v : ℝ) : List (List ℝ) :=
  ps.set b ((ps.getD b []).set k v)

/-- The layer with one parameter replaced. -/
def withParam (l : AnyLayer) (b k : Nat) (v : ℝ) : AnyLayer := l.setParams (setEntry l.params b k v)

/-- The gradient buffers of a layer from `n` to `m` values have the lengths the constructor gives
them. -/
def HasGrads (n m : Nat) : AnyLayer → Prop
  | .dense l => l.grads.input.length = n ∧ l.grads.weight.length = m * n ∧ l.grads.bias.length = m
  | .conv l => l.inputGrads.length = n ∧ l.weightGrads.length = l.weights.length ∧
      l.biasGrads.length = l.nFilters ∧ l.output.h * l.output.w * l.nFilters = m
  | .maxPool l => l.inputGrads.length = n
  | .avgPool l => l.inputGrads.length = n
  | .act _ l => l.inputGradients.length = n
  | _ => False

/-- Layers with consistent sizes (`MapsAll`), of the classes dense, convolution, pooling and activation,
with gradient buffers. -/
inductive Trainable : Nat → Nat → List AnyLayer → Prop
  | nil (n : Nat) : Trainable n n []
  | cons {n k m : Nat} {l : AnyLayer} {ls : List AnyLayer} :
      Maps n k l → HasGrads n k l → Trainable k m ls → Trainable n m (l :: ls)

/-- The windows of a pooling layer. -/
def poolGeom (l : Slide.PoolLayer ℝ) : Geom :=
  ⟨l.input, l.kernel.h, l.kernel.w, l.stride.h, l.stride.w, 0, 0⟩

/-- Every window has one cell with a value above all others, which is not the upper left one, or is cell
0 of the whole input (see C13: `backward` takes the gradients of upper left cells to cell 0). -/
def ClearMaxima (g : Geom) (x : List ℝ) : Prop :=
  ∀ r c ch, r < g.rows → c < g.cols → ch < g.src.c → ∃ a b, a < g.kh ∧ b < g.kw ∧
    (0 < a + b ∨ windowCell g r c a b ch = 0) ∧
    ∀ a' b', a' < g.kh → b' < g.kw → ¬ (a' = a ∧ b' = b) →
      vec x (windowCell g r c a' b' ch) < vec x (windowCell g r c a b ch)

/-- The function that the layer computes is differentiable at the input `x` and `backward` is meant to be
its derivative: a rectifier is not differentiable at 0, an exponential unit with a factor other than 1 is
not at 0 (and negative factors are excluded, see C16), max pooling is not where a window has two maxima
(and maxima in upper left cells are excluded, see C13).  Average pooling is not included: its `backward`
is always wrong (C14). -/
def SmoothAt (x : List ℝ) : AnyLayer → Prop
  | .dense _ => True
  | .conv _ => True
  | .maxPool l => ClearMaxima (poolGeom l) x
  | .act .relu _ => ∀ v ∈ x, v ≠ 0
  | .act (.elu a) _ => 0 ≤ a ∧ (a = 1 ∨ ∀ v ∈ x, v ≠ 0)
  | .act _ _ => True
  | _ => False

/-- Every layer is differentiable at the input that reaches it when the first one gets `x`. -/
inductive SmoothAll : List AnyLayer → List ℝ → Prop
  | nil (x : List ℝ) : SmoothAll [] x
  | cons {l l' : AnyLayer} {ls : List AnyLayer} {x z : List ℝ} :
      SmoothAt x l → l.forward x = .ok (l', none) → l'.lastOutput = .ok z → SmoothAll ls z →
      SmoothAll (l :: ls) x

/-- The blocks whose gradient is right: all but the biases of a convolution (C12). -/
def Learned : AnyLayer → Nat → Prop
  | .conv _, b => b = 0
  | _, _ => True

/-- The training connections are the path `p` followed by the loss layer `q`, the gradients take the
same way back. -/
structure IsTrainingPath (g : DLGraph) (p : List Nat) (q : Nat) : Prop where
  path : IsPath g p
  loss : g.loss = [q]
  training : ∀ x y, y ∈ successors g.training x ↔ (x, y) ∈ (p ++ [q]).zip (p ++ [q]).tail
  backward : ∀ x y, y ∈ successors g.backward x ↔ (y, x) ∈ (p ++ [q]).zip (p ++ [q]).tail

/-- What the gradients of a loss layer for batches of size `1 / inv` are gradients of: `inv` times the
sum of the squared errors (C19: the reported loss is the mean), `inv` times the cross entropy. -/
def objective (f : LossFn) (m : Nat) (inv : ℝ) (t y : List ℝ) : ℝ :=
  match f with
  | .mse => inv * ∑ i ∈ range m, (vec t i - vec y i) ^ 2
  | .cce => inv * crossEnt m (vec t) (vec y)

/-- Targets the loss layer can score: not empty, and for the cross entropy with an active class. -/
def CanScore (f : LossFn) (m : Nat) (t : List ℝ) : Prop :=
  t.length = m ∧ 0 < m ∧ (f = .cce → ∃ k, k < m ∧ vec t k ≠ 0)

/-- The loss is differentiable at the prediction `y`: the cross entropy clamps predictions below
`epsilon`. -/
def LossSmooth (f : LossFn) (m : Nat) (t y : List ℝ) : Prop :=
  f = .cce → ∀ i, i < m → vec t i ≠ 0 → Loss.epsilon < vec y i

/-- What the layers compute from `x`: each is called once with `forward` and its output buffer is passed
on; empty if a call throws. -/
def prediction : List AnyLayer → List ℝ → List ℝ
  | [], x => x
  | l :: ls, x =>
    match l.forward x with
    | .ok (l', none) =>
      match l'.lastOutput with
      | .ok z => prediction ls z
      | _ => []
    | _ => []

/-- The layers with index `k` and above are differentiable at the inputs that reach them when the first
layer gets `x`. -/
def SmoothFrom (k : Nat) (ls : List AnyLayer) (x : List ℝ) : Prop :=
  SmoothAll (ls.drop k) (prediction (ls.take k) x)

/-- A model ready for training: the layers along the path are `ls`, mapping `n` values to `m`, and the
loss layer has buffers for `m` values and scales gradients by `inv`. -/
structure Ready (g : Net) (p : List Nat) (q : Nat) (ls : List AnyLayer) (f : LossFn) (n m : Nat)
    (inv : ℝ) : Prop where
  layers : p.map (fun i => g.layers[i]?) = ls.map some
  sizes : Trainable n m ls
  loss : ∃ l, g.layers[q]? = some (.loss f l) ∧ l.inputSize = m ∧ l.gradients.length = m ∧
    l.invBatch = inv

/-- Sizes fit, and the loss is differentiable at the prediction for the sample. -/
structure FitSample (ls : List AnyLayer) (f : LossFn) (n m : Nat) (x t : List ℝ) : Prop where
  size : x.length = n
  target : CanScore f m t
  loss : LossSmooth f m t (prediction ls x)

/-- Moreover all layers above a layer with parameters are differentiable at the sample. -/
structure GoodSample (ls : List AnyLayer) (f : LossFn) (n m : Nat) (x t : List ℝ) : Prop
    extends FitSample ls f n m x t where
  smooth : ∀ (j : Nat) (l : AnyLayer), ls[j]? = some l → l.params ≠ [] → SmoothFrom (j + 1) ls x

/-- Gradient buffers are clear and parameter blocks have the sizes of the constructor. -/
structure Clean (ls : List AnyLayer) : Prop where
  sized : ∀ l ∈ ls, l.params.map List.length = l.kind.blockSizes
  zero : ∀ l ∈ ls, ∀ b k, b < l.params.length → k < (l.params.getD b []).length →
    entry l.paramGrads b k = 0

/-- The summed objective of a list of samples. -/
def cost (f : LossFn) (m : Nat) (inv : ℝ) (samples : List (List ℝ × List ℝ)) (ls : List AnyLayer) : ℝ :=
  (samples.map fun s => objective f m inv s.2 (prediction ls s.1)).sum

/-! ### Gradient descent -/

/-- Parameter values of a list of layers: for each layer its blocks. -/
abbrev Theta := List (List (List ℝ))

/-- The layers with the parameter values `θ`. -/
def withTheta (ls : List AnyLayer) (θ : Theta) : List AnyLayer := List.zipWith AnyLayer.setParams ls θ

/-- `θ` has the shape of the parameters of `ls`. -/
def FitsTheta (ls : List AnyLayer) (θ : Theta) : Prop :=
  θ.map (List.map List.length) = ls.map fun l => l.params.map List.length

/-- One parameter of the layer `j` replaced. -/
def setTheta (θ : Theta) (j b k : Nat) (v : ℝ) : Theta := θ.set j (setEntry (θ.getD j []) b k v)

/-- `θ'` is `θ` minus `eta` times the partial derivatives of `c` at `θ`. -/
def GdStep (ls : List AnyLayer) (eta : ℝ) (c : Theta → ℝ) (θ θ' : Theta) : Prop :=
  FitsTheta ls θ' ∧
  ∀ (j : Nat) (l : AnyLayer) (b k : Nat), ls[j]? = some l → Learned l b → b < l.params.length →
    k < (l.params.getD b []).length →
    ∃ D, HasDerivAt (fun v => c (setTheta θ j b k v)) D (entry (θ.getD j []) b k) ∧
      entry (θ'.getD j []) b k = entry (θ.getD j []) b k - eta * D

/-- Gradient descent with the costs `cs`, one after the other. -/
inductive Descent (ls : List AnyLayer) (eta : ℝ) : List (Theta → ℝ) → Theta → Theta → Prop
  | nil (θ : Theta) : Descent ls eta [] θ θ
  | cons {c : Theta → ℝ} {cs : List (Theta → ℝ)} {θ θ1 θ' : Theta} :
      GdStep ls eta c θ θ1 → Descent ls eta cs θ1 θ' → Descent ls eta (c :: cs) θ θ'

/-- The batches of a training run on `n` samples with batch size `b`: per epoch, samples `0 … b-1`,
`b … 2b-1`, … -/
def batches (n b epochs : Nat) : List (List Nat) :=
  (List.replicate epochs ((List.range (batchCount n b)).map (batchSamples n b))).flatten

/-- Layers that compute differentiable functions whatever their parameters. -/
def AlwaysSmooth : AnyLayer → Prop
  | .dense _ => True
  | .conv _ => True
  | .act .relu _ => False
  | .act (.elu a) _ => a = 1
  | .act _ _ => True
  | _ => False

end

end Verif.Spec
