import Verif.Model.Net

/-
Model of the construction of `EdgeFeedforwardNeuralNetwork`, /repo/source/middleware/fnn.hpp, and of
the layer descriptors it takes, /repo/source/middleware/layer_descriptor.{hpp,cpp}.

Names of layers are left out.
-/

namespace Verif.Net

open Verif.Graph

noncomputable section

/-- `LayerShape`, /repo/source/dnn/layer.hpp:48-67 and layer.cpp:35-84. -/
abbrev LayerShape := List Shape3

/-- `LayerShape::shape()`, /repo/source/dnn/layer.cpp:57-60: `_shape_vec.at(0)`. -/
def LayerShape.shape (s : LayerShape) : Exec Shape3 :=
  match s with
  | [] => .throw "vector::_M_range_check: __n (which is 0) >= this->size() (which is 0)"
  | s :: _ => .ok s

/-- `LayerShape::size()`, /repo/source/dnn/layer.cpp:62-65. -/
def LayerShape.size (s : LayerShape) : Exec Nat := do
  let s ← s.shape
  .ok s.size

/-- `LayerShape(SizeType)`, /repo/source/dnn/layer.cpp:43-45. -/
def LayerShape.ofSize (n : Nat) : LayerShape := [⟨n, 1, 1⟩]

/-- `LayerType` with the fields of `LayerSetting` that `_add_layer` reads for it,
/repo/source/middleware/layer_descriptor.cpp:30-186.  For a dropout layer also the numbers its
generator will give. -/
inductive Kind where
  | input (units : LayerShape)
  | dense (units : LayerShape)
  | conv (nFilters : Nat) (kernel stride padding : Shape2)
  | maxPool (kernel stride : Shape2)
  | avgPool (kernel stride : Shape2)
  | dropout (p : ℝ) (maxRand : Nat) (raw : Nat → Nat)

/-- `ActivationType`, /repo/source/middleware/definitions.hpp:71-80. -/
inductive ActivationType where
  | relu
  | elu
  | softmax
  | tanh
  | sigmoid
  | linear
  | none

/-- `LayerDescriptor`, /repo/source/middleware/layer_descriptor.hpp. -/
structure Descriptor where
  kind : Kind
  activation : ActivationType

/-- The constructor of `DenseLayer`, /repo/source/dnn/dense.cpp:36-52 and feedforward.cpp:30-40
(`resize` fills with zeros). -/
def denseNew (n m : Nat) : Dense.Layer ℝ where
  inputSize := n
  outputSize := m
  weights := List.replicate (m * n) 0
  biases := List.replicate m 0
  grads := { input := List.replicate n 0, weight := List.replicate (m * n) 0, bias := List.replicate m 0 }
  output := List.replicate m 0
  lastInput := []

/-- `_add_layer`, /repo/source/middleware/fnn.hpp:273-325: the new layer and its `output_shape()`. -/
def construct (k : Kind) (shape : LayerShape) : Exec (AnyLayer × LayerShape) :=
  match k with
  | .input _ => .throw "Model structure error: Input layer have to be put as first layer"
  | .conv nf kernel stride padding => do
    let s ← shape.shape
    let l ← Slide.ConvLayer.mk' s kernel nf stride padding
    .ok (.conv l, [l.output])
  | .maxPool kernel stride => do
    let s ← shape.shape
    let l ← Slide.PoolLayer.mk' s kernel stride
    .ok (.maxPool l, [l.output])
  | .avgPool kernel stride => do
    let s ← shape.shape
    let l ← Slide.PoolLayer.mk' s kernel stride
    .ok (.avgPool l, [l.output])
  | .dropout p mx raw => do
    let n ← shape.size
    .ok (.dropout mx raw (Drop.Layer.new n p), LayerShape.ofSize n)
  | .dense units => do
    let n ← shape.size
    let m ← units.size
    .ok (.dense (denseNew n m), LayerShape.ofSize m)

/-- The class chosen by `_add_activation_layer`, /repo/source/middleware/fnn.hpp:327-372. -/
def ActivationType.fn : ActivationType → ActFn
  | .relu => .relu
  | .elu => .elu 1
  | .softmax => .softmax
  | .tanh => .tanh
  | .sigmoid => .sigmoid
  | .linear => .linear
  | .none => .linear

/-- Fields of `EdgeFeedforwardNeuralNetwork` (/repo/source/middleware/fnn.hpp:373-376), with the layer
objects of `_m` by position. -/
structure Fnn where
  model : Graph.Model
  layers : List AnyLayer
  outputShape : LayerShape
  firstAdd : Bool

/-- Constructor, /repo/source/middleware/fnn.hpp:166-171. -/
def Fnn.empty : Fnn := ⟨Graph.Model.empty, [], LayerShape.ofSize 0, true⟩

/-- The `Model` inside. -/
def Fnn.net (f : Fnn) : Net := ⟨f.model.graph, f.layers⟩

/-- `_m.add_layer<L>(...)`, /repo/source/dnn/model.hpp:150-158. -/
def Fnn.push (f : Fnn) (l : AnyLayer) : Fnn :=
  { f with model := (f.model.apply .addLayer).1, layers := f.layers ++ [l] }

/-- `_m.create_edge(_m.layers()[i], _m.layers()[j])`, /repo/source/dnn/model.cpp:88-94. -/
def Fnn.connect (f : Fnn) (i j : Nat) : Exec (Fnn × Option String) := do
  let a ← rd f.model.graph.layers i
  let b ← rd f.model.graph.layers j
  match f.model.apply (.edge a b) with
  | (m, .ok ()) => .ok ({ f with model := m }, none)
  | (m, .throw e) => .ok ({ f with model := m }, some e)
  | (_, .ub) => .ub

/-- The part of `add` after the layer is constructed, /repo/source/middleware/fnn.hpp:187-195. -/
def Fnn.attach (f : Fnn) (a : ActivationType) (l : AnyLayer) (shape : LayerShape) :
    Exec (Fnn × Option String) :=
  let f := { f.push l with outputShape := shape }
  let n := f.model.graph.layers.length
  next (if n > 1 then f.connect (n - 2) (n - 1) else .ok (f, none)) id fun f => do
    let size ← f.outputShape.size
    let f := f.push (.act a.fn (Act.Layer.new size))
    f.connect (n - 1) n

/-- `add`, /repo/source/middleware/fnn.hpp:173-195: the network afterwards and the exception, if
any. -/
def Fnn.add (f : Fnn) (d : Descriptor) : Exec (Fnn × Option String) :=
  match f.firstAdd, d.kind with
  | true, .input units => .ok ({ f with firstAdd := false, outputShape := units }, none)
  | _, k =>
    let f := { f with firstAdd := false }
    match construct k f.outputShape with
    | .ok r => f.attach d.activation r.1 r.2
    | .throw m => .ok (f, some m)
    | .ub => .ub

/-- A sequence of `add` calls whose exceptions the caller catches. -/
def Fnn.addAll : Fnn → List Descriptor → Exec (Fnn × List (Option String))
  | f, [] => .ok (f, [])
  | f, d :: ds => do
    let r ← f.add d
    let q ← r.1.addAll ds
    .ok (q.1, r.2 :: q.2)

/-- `input_size()` of a layer.  (For activation layers the model keeps only the buffers: the one for
gradients has this size and is never resized.) -/
def AnyLayer.inputSize : AnyLayer → Nat
  | .dense l => l.inputSize
  | .conv l => l.input.size
  | .maxPool l => l.input.size
  | .avgPool l => l.input.size
  | .act _ l => l.inputGradients.length
  | .dropout _ _ l => l.size
  | .rnn _ _ l => l.inputSize
  | .loss _ l => l.inputSize

/-- `output_size()` of a layer; for activation layers see `inputSize`.  (Loss layers:
/repo/source/dnn/loss.cpp:34-49, output shape 0.) -/
def AnyLayer.outputSize : AnyLayer → Nat
  | .dense l => l.outputSize
  | .conv l => l.output.size
  | .maxPool l => l.output.size
  | .avgPool l => l.output.size
  | .act _ l => l.inputGradients.length
  | .dropout _ _ l => l.size
  | .rnn _ _ l => l.outputSize
  | .loss _ _ => 0

/-- Body of the loop of `fit` that adds loss layers, /repo/source/middleware/fnn.hpp:214-219, for the
output layer at `o`. -/
def Fnn.attachLoss (lf : LossFn) (batch : Nat) (f : Fnn) (o : Nat) : Exec (Fnn × Option String) := do
  let l ← rd f.layers o
  let f := { f with
    model := (f.model.apply .addLoss).1
    layers := f.layers ++ [AnyLayer.loss lf (Loss.Layer.new l.outputSize batch (1 / 10))] }
  let a ← rd f.model.graph.layers o
  let b ← rd f.model.graph.layers (f.model.graph.layers.length - 1)
  match f.model.apply (.lossEdge a b) with
  | (m, .ok ()) => .ok ({ f with model := m }, none)
  | (m, .throw e) => .ok ({ f with model := m }, some e)
  | (_, .ub) => .ub

/-- First part of `fit`, /repo/source/middleware/fnn.hpp:204-221.  Simplification: the loop runs over
the output layers as they are when it starts.  (The code iterates over a vector that `add_loss`
replaces by an equal one, so that the iterators are invalid from then on: formally undefined
behaviour whenever the loop has a first iteration.) -/
def Fnn.addLosses (f : Fnn) (lf : LossFn) (batch : Nat) : Exec (Fnn × Option String) :=
  if f.model.graph.layers = [] then .ok (f, some "The FNN has no layer: call add before fit")
  else if f.model.graph.loss = [] then each (Fnn.attachLoss lf batch) f.model.graph.outputs f
  else .ok (f, none)

end

end Verif.Net
