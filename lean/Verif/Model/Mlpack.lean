import Verif.Model.Nn

/-
Model of the construction of `MlpackFNN`, /repo/source/middleware/mlpack_fnn.hpp: which layers of the library
mlpack it creates, with which arguments, and the shapes it keeps.  The library itself is not part of the
repository: its constructors are assumed to return, and their results are represented by their arguments.
-/

namespace Verif.Mlpack

open Verif.Net

noncomputable section

/-- The layer classes of mlpack that are used (/repo/source/middleware/mlpack_definitions.hpp:46-97), with the
arguments of their constructors in the order of the calls. -/
inductive Layer where
  | convolution (inMaps outMaps kernelWidth kernelHeight strideWidth strideHeight padW padH inputWidth
      inputHeight : Nat)
  | maxPooling (kernelWidth kernelHeight strideWidth strideHeight : Nat)
  | meanPooling (kernelWidth kernelHeight strideWidth strideHeight : Nat)
  | dropout (p : ℝ)
  | linear (inSize outSize : Nat)
  | relu
  | elu
  | softmax
  | tanh
  | sigmoid
  | identity

/-- Fields of `MlpackFNN`, /repo/source/middleware/mlpack_fnn.hpp:277-283; of `_m` the layers that were added, of
`_layers_name` the number of entries. -/
structure Fnn where
  added : List Layer
  inputShape : LayerShape
  outputShape : LayerShape
  names : Nat
  firstAdd : Bool

/-- Constructor, /repo/source/middleware/mlpack_fnn.hpp:48-57. -/
def Fnn.empty : Fnn := ⟨[], LayerShape.ofSize 0, LayerShape.ofSize 0, 0, true⟩

/-- `_add_layer`, /repo/source/middleware/mlpack_fnn.hpp:139-221: the new layer and the returned shape.
Simplification: a layer is reported only if the shape could be computed (the code adds it to `_m` before, which
matters only if the computation divides by a stride of zero). -/
def addLayer (k : Kind) (shape : LayerShape) : Exec (Layer × LayerShape) :=
  match k with
  | .input _ => .throw "Model structure error: Input layer have to be put as first layer"
  | .conv nf kernel stride padding => do
    let s ← shape.shape
    let o ← Slide.convOutputShape s kernel stride padding nf
    .ok (.convolution s.c nf kernel.w kernel.h stride.w stride.h padding.w padding.h s.w s.h, [o])
  | .maxPool kernel stride => do
    let s ← shape.shape
    let o ← Slide.poolOutputShape s kernel stride
    .ok (.maxPooling kernel.w kernel.h stride.w stride.h, [o])
  | .avgPool kernel stride => do
    let s ← shape.shape
    let o ← Slide.poolOutputShape s kernel stride
    .ok (.meanPooling kernel.w kernel.h stride.w stride.h, [o])
  | .dropout p _ _ => .ok (.dropout p, shape)
  | .dense units => do
    let n ← shape.size
    let m ← units.size
    .ok (.linear n m, units)

/-- `_add_activation_layer`, /repo/source/middleware/mlpack_fnn.hpp:223-275. -/
def activation : ActivationType → Layer
  | .relu => .relu
  | .elu => .elu
  | .softmax => .softmax
  | .tanh => .tanh
  | .sigmoid => .sigmoid
  | .linear => .identity
  | .none => .identity

/-- `add`, /repo/source/middleware/mlpack_fnn.hpp:86-102: the network afterwards and the exception, if any. -/
def Fnn.add (f : Fnn) (d : Descriptor) : Exec (Fnn × Option String) :=
  match f.firstAdd, d.kind with
  | true, .input units => .ok ({ f with firstAdd := false, inputShape := units, outputShape := units }, none)
  | _, k =>
    let f := { f with firstAdd := false, names := f.names + 1 }
    match addLayer k f.outputShape with
    | .ok r => .ok ({ f with added := f.added ++ [r.1, activation d.activation], outputShape := r.2 }, none)
    | .throw m => .ok (f, some m)
    | .ub => .ub

/-- A sequence of `add` calls whose exceptions the caller catches. -/
def Fnn.addAll : Fnn → List Descriptor → Exec (Fnn × List (Option String))
  | f, [] => .ok (f, [])
  | f, d :: ds => do
    let r ← f.add d
    let q ← r.1.addAll ds
    .ok (q.1, r.2 :: q.2)

/-- `input_size`, /repo/source/middleware/mlpack_fnn.hpp:104. -/
def Fnn.inputSize (f : Fnn) : Exec Nat := f.inputShape.size

/-- `output_size`, /repo/source/middleware/mlpack_fnn.hpp:105. -/
def Fnn.outputSize (f : Fnn) : Exec Nat := f.outputShape.size

/-- The check at the beginning of `fit`, /repo/source/middleware/mlpack_fnn.hpp:66-71: the exception, if any. -/
def Fnn.fitCheck (f : Fnn) : Option String :=
  if f.names = 0 then some "The FNN has no layer: call add before fit" else none

end

end Verif.Mlpack
