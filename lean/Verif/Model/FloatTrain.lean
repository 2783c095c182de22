import Verif.Model.Float
import Verif.Model.Optimizer
import Verif.Model.Net

/-
Training on the number type of the library, `using NumType = double;` (/repo/source/type.hpp:40): a model
whose layers form a path, with dense layers and activation layers, one loss layer and gradient descent.

The kernels of dense layers and the optimizer are those of `Verif.Model.Dense` and `Verif.Model.Optimizer`,
which are polymorphic in the number type; activation and loss kernels are written out here and in
`Verif.Model.Float`.

Simplifications: see the head of `Verif.Model.Float`.  The graph is not traversed: the layers are given in the
order of the path, see `Verif.Net` for the traversal.  The score the loss layer records does not influence the
parameters and is left out, and with it the exception for a one-hot target without an active class.
-/

namespace Verif.Float
open Verif.Net

noncomputable section

variable {A : Arith}

/-- `DLMath::relu_1`, /repo/source/dnn/dlmath.hpp:578-582. -/
def relu1F (x : Fl A) : Fl A := if 0 < x then 1 else 0

/-- `DLMath::elu_1_opt`, /repo/source/dnn/dlmath.hpp:645-649: `x` is the value of `elu`. -/
def elu1OptF (alpha x : Fl A) : Fl A := if 0 < x then 1 else x + alpha

/-- `DLMath::tanh_1_opt`, /repo/source/dnn/dlmath.hpp:742-746: `x` is the value of `tanh`. -/
def tanh1OptF (x : Fl A) : Fl A := 1 - x * x

/-- `DLMath::sigmoid_1_opt`, /repo/source/dnn/dlmath.hpp:835-839: `x` is the value of `sigmoid`. -/
def sigmoid1OptF (x : Fl A) : Fl A := x * (1 - x)

/-- `arr_mul(dst, dst, src, length)`, /repo/source/dnn/dlmath.hpp:427-435. -/
def arrMulInPlaceF (dst src : List (Fl A)) (length : Nat) : Exec (List (Fl A)) :=
  forUp length dst fun i dst => do
    let a ← rd dst i
    let b ← rd src i
    wr dst i (a * b)

/-- `DLMath::squared_error_1`, /repo/source/dnn/dlmath.hpp:1172-1176. -/
def squaredError1F (y yh norm : Fl A) : Fl A := -.fin 2 * norm * (y - yh)

/-- `DLMath::mean_squared_error_1`, /repo/source/dnn/dlmath.hpp:1189-1198. -/
def meanSquaredError1F (dst y yh : List (Fl A)) (norm : Fl A) (length : Nat) : Exec (List (Fl A)) :=
  forUp length dst fun i dst => do
    let a ← rd y i
    let b ← rd yh i
    wr dst i (squaredError1F a b norm)

/-- A layer with its numbers: dense layers, and activation layers with the output buffer and the buffer of the
input gradients, see `Verif.Dense.Layer` and `Verif.Act.Layer`. -/
inductive FLayer (A : Arith) where
  | dense (l : Dense.Layer (Fl A))
  | act (f : ActFn) (output inputGradients : List (Fl A))

/-- `forward` of the activation layers, /repo/source/dnn/activation.cpp:64-71, 103-110, 142-149, 175-182,
206-213, 237-242: the new output buffer. -/
def actForwardF (L : Lib A) (f : ActFn) (output x : List (Fl A)) : Exec (List (Fl A)) :=
  match f with
  | .relu => mapArrF reluF output x output.length
  | .elu a => mapArrF (eluF L (.fin a)) output x output.length
  | .tanh => mapArrF L.tanhF output x output.length
  | .sigmoid => mapArrF (sigmoidF L) output x output.length
  | .softmax => stableSoftmaxF L output x output.length
  | .linear => .ok x

/-- `backward` of the activation layers, /repo/source/dnn/activation.cpp:73-92, 112-132, 151-165, 184-196,
215-227, 244-254: the new buffer of the input gradients. -/
def actBackwardF (f : ActFn) (output inputGradients g : List (Fl A)) : Exec (List (Fl A)) :=
  match f with
  | .relu => do
    let ig ← mapArrF relu1F inputGradients output inputGradients.length
    arrMulInPlaceF ig g inputGradients.length
  | .elu a => do
    let ig ← mapArrF (elu1OptF (.fin a)) inputGradients output inputGradients.length
    arrMulInPlaceF ig g inputGradients.length
  | .tanh => do
    let ig ← mapArrF tanh1OptF inputGradients output inputGradients.length
    arrMulInPlaceF ig g inputGradients.length
  | .sigmoid => do
    let ig ← mapArrF sigmoid1OptF inputGradients output inputGradients.length
    arrMulInPlaceF ig g inputGradients.length
  | .softmax => softmax1OptF inputGradients output g inputGradients.length
  | .linear => mapArrF (fun g => g) inputGradients g inputGradients.length

/-- `training_forward`, /repo/source/dnn/layer.cpp:117-122, see `Dense.Layer.trainingForward` and
`actForwardF`. -/
def FLayer.trainingForward (L : Lib A) : FLayer A → List (Fl A) → Exec (FLayer A)
  | .dense l, x => do
    let l ← l.trainingForward x
    .ok (.dense l)
  | .act f o gi, x => do
    let o ← actForwardF L f o x
    .ok (.act f o gi)

/-- `last_output()`, /repo/source/dnn/dense.hpp, activation.hpp. -/
def FLayer.output : FLayer A → List (Fl A)
  | .dense l => l.output
  | .act _ o _ => o

/-- `backward`, /repo/source/dnn/dense.cpp:102-115 and activation.cpp, see `Dense.Layer.backward` and
`actBackwardF`. -/
def FLayer.backward : FLayer A → List (Fl A) → Exec (FLayer A)
  | .dense l, g => do
    let l ← l.backward g
    .ok (.dense l)
  | .act f o gi, g => do
    let gi ← actBackwardF f o gi g
    .ok (.act f o gi)

/-- `input_gradients()`, what `backward` returns. -/
def FLayer.inputGradient : FLayer A → List (Fl A)
  | .dense l => l.grads.input
  | .act _ _ gi => gi

/-- `backward` of the loss layer on the prediction `y` and the target `t`, /repo/source/dnn/mse_loss.cpp:67-77,
cce_loss.cpp:81-91; the gradient buffer is overwritten. -/
def lossGradF (f : LossFn) (inv : Fl A) (t y : List (Fl A)) : Exec (List (Fl A)) :=
  match f with
  | .mse => meanSquaredError1F (List.replicate y.length 0) t y inv y.length
  | .cce => crossEntropy1F (List.replicate y.length 0) t y inv y.length

/-- `Model::step` along a path, /repo/source/dnn/model.cpp:195-225: `training_forward` from the first layer to
the last, `backward` of the loss layer, `backward` from the last layer to the first.  Returns the layers and
the gradient with respect to the input. -/
def passF (L : Lib A) (f : LossFn) (inv : Fl A) (t : List (Fl A)) :
    List (FLayer A) → List (Fl A) → Exec (List (FLayer A) × List (Fl A))
  | [], y => do
    let g ← lossGradF f inv t y
    .ok ([], g)
  | l :: ls, x => do
    let l ← l.trainingForward L x
    let (ls, g) ← passF L f inv t ls l.output
    let l ← l.backward g
    .ok (l :: ls, l.inputGradient)

/-- `optimizer.train(*layer)` with gradient descent, /repo/source/dnn/optimizer.cpp:36-39 and
gd_optimizer.cpp:42: `Opt.trainSelf` on the blocks of the layer.  A layer without parameters is left as it
is. -/
def FLayer.update (eta : Fl A) : FLayer A → Exec (FLayer A)
  | .dense l =>
    let r := Opt.trainSelf (Opt.gdStep eta) ()
      ⟨.dense l.inputSize l.outputSize, [l.weights, l.biases], [l.grads.weight, l.grads.bias]⟩
    match r.status, r.state.2.params, r.state.2.grads with
    | .ok _, [w, b], [gw, gb] =>
      .ok (.dense { l with weights := w, biases := b, grads := { l.grads with weight := gw, bias := gb } })
    | .throw m, _, _ => .throw m
    | _, _, _ => .ub
  | .act f o gi => .ok (.act f o gi)

/-- `Model::train`, /repo/source/dnn/model.cpp:161-185. -/
def updateAllF (eta : Fl A) : List (FLayer A) → Exec (List (FLayer A))
  | [] => .ok []
  | l :: ls => do
    let l ← l.update eta
    let ls ← updateAllF eta ls
    .ok (l :: ls)

/-- The steps of a batch, the inner loop of /repo/source/middleware/fnn.hpp:66-70. -/
def stepsF (L : Lib A) (f : LossFn) (inv : Fl A) :
    List (List ℝ × List ℝ) → List (FLayer A) → Exec (List (FLayer A))
  | [], ls => .ok ls
  | s :: ss, ls => do
    let (ls, _) ← passF L f inv (s.2.map .fin) ls (s.1.map .fin)
    stepsF L f inv ss ls

/-- Batches one after the other, /repo/source/middleware/fnn.hpp:61-74: the steps of a batch, then `train`. -/
def fitF (L : Lib A) (f : LossFn) (inv eta : Fl A) :
    List (List (List ℝ × List ℝ)) → List (FLayer A) → Exec (List (FLayer A))
  | [], ls => .ok ls
  | b :: bs, ls => do
    let ls ← stepsF L f inv b ls
    let ls ← updateAllF eta ls
    fitF L f inv eta bs ls

/-- `_inv_batch_size`, /repo/source/dnn/loss.cpp:42-43: one divided by the batch size. -/
def invBatchF (A : Arith) (batch : Nat) : Fl A := 1 / ((Nat.max batch 1 : Nat) : Fl A)

/-- A layer of a model with its numbers as they are in memory; `none` for the other layer classes. -/
def toFloat (A : Arith) : AnyLayer → Option (FLayer A)
  | .dense l => some (.dense
      { inputSize := l.inputSize, outputSize := l.outputSize, weights := l.weights.map .fin,
        biases := l.biases.map .fin, grads := ⟨l.grads.input.map .fin, l.grads.weight.map .fin,
        l.grads.bias.map .fin⟩, output := l.output.map .fin, lastInput := l.lastInput.map .fin })
  | .act f l => some (.act f (l.output.map .fin) (l.inputGradients.map .fin))
  | _ => none

/-- The layers of a path with their numbers as they are in memory, see `toFloat`. -/
def floats (A : Arith) (ls : List AnyLayer) : List (FLayer A) := ls.filterMap (toFloat A)

/-- The parameter blocks of a layer, see `AnyLayer.params`. -/
def FLayer.params : FLayer A → List (List (Fl A))
  | .dense l => [l.weights, l.biases]
  | .act _ _ _ => []

end

end Verif.Float
