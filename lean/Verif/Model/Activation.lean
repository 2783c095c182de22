import Verif.Exec
import Mathlib.Analysis.SpecialFunctions.Exp
import Mathlib.Analysis.SpecialFunctions.Trigonometric.DerivHyp
import Mathlib.Analysis.SpecialFunctions.Log.Basic

/-
Model of the activation functions of /repo/source/dnn/dlmath.hpp:546-1054 and 1207-1240
and of the activation layers of /repo/source/dnn/activation.cpp.

The number type is ℝ: `std::exp`, `std::tanh` and `std::log` are the real functions and
arithmetic is exact.  Rounding, overflow to infinity and NaN are not modelled.
Comparisons on ℝ are decided classically, so the definitions are `noncomputable`.
-/

namespace Verif.Act

noncomputable section

/-- `DLMath::relu(x) = std::max(x, T{0})`, /repo/source/dnn/dlmath.hpp:546-550.  `std::max(a,b)`
returns `b` iff `a < b`. -/
def relu (x : ℝ) : ℝ := if x < 0 then 0 else x

/-- `DLMath::relu_1`, /repo/source/dnn/dlmath.hpp:578-582. -/
def relu1 (x : ℝ) : ℝ := if x > 0 then 1 else 0

/-- `DLMath::elu`, /repo/source/dnn/dlmath.hpp:611-615. -/
def elu (alpha x : ℝ) : ℝ := if x > 0 then x else alpha * (Real.exp x - 1)

/-- `DLMath::elu_1_opt`, /repo/source/dnn/dlmath.hpp:645-649: `x` is the value of `elu`. -/
def elu1Opt (alpha x : ℝ) : ℝ := if x > 0 then 1 else x + alpha

/-- `DLMath::elu_1`, /repo/source/dnn/dlmath.hpp:679-683. -/
def elu1 (alpha x : ℝ) : ℝ := if x > 0 then 1 else alpha * Real.exp x

/-- `DLMath::tanh`, /repo/source/dnn/dlmath.hpp:711-715. -/
def tanh (x : ℝ) : ℝ := Real.tanh x

/-- `DLMath::tanh_1_opt`, /repo/source/dnn/dlmath.hpp:742-746: `x` is the value of `tanh`. -/
def tanh1Opt (x : ℝ) : ℝ := 1 - x * x

/-- `DLMath::tanh_1`, /repo/source/dnn/dlmath.hpp:773-778. -/
def tanh1 (x : ℝ) : ℝ := tanh1Opt (Real.tanh x)

/-- `DLMath::sigmoid`, /repo/source/dnn/dlmath.hpp:804-808. -/
def sigmoid (x : ℝ) : ℝ := 1 / (1 + Real.exp (-x))

/-- `DLMath::sigmoid_1_opt`, /repo/source/dnn/dlmath.hpp:835-839: `x` is the value of
`sigmoid`. -/
def sigmoid1Opt (x : ℝ) : ℝ := x * (1 - x)

/-- `DLMath::sigmoid_1`, /repo/source/dnn/dlmath.hpp:866-871. -/
def sigmoid1 (x : ℝ) : ℝ := sigmoid1Opt (sigmoid x)

/-- The array overloads of the functions above all have the body
`for (i = 0; i < length; ++i) dst[i] = f(src[i]);`: relu 561-569, relu_1 593-601,
elu 627-635, elu_1_opt 662-670, elu_1 695-703, tanh 725-733, tanh_1_opt 757-765,
tanh_1 788-796, sigmoid 818-826, sigmoid_1_opt 850-858, sigmoid_1 881-889 of
/repo/source/dnn/dlmath.hpp.
Simplification: `src` and `dst` are separate buffers. -/
def mapArr (f : ℝ → ℝ) (dst src : List ℝ) (length : Nat) : Exec (List ℝ) :=
  forUp length dst fun i dst => do
    let x ← rd src i
    wr dst i (f x)

/-- `arr_mul(dst, dst, src, length)` with `dst` aliasing the first operand, as the activation
layers call it, /repo/source/dnn/dlmath.hpp:427-435. -/
def arrMulInPlace (dst src : List ℝ) (length : Nat) : Exec (List ℝ) :=
  forUp length dst fun i dst => do
    let a ← rd dst i
    let b ← rd src i
    wr dst i (a * b)

/-! ### Maximum and argmax -/

/-- `std::max_element(src, src + length)` as an index (`length` for the end iterator of an
empty range): the standard's loop keeps the first element that no later one exceeds.  Used by
/repo/source/dnn/dlmath.hpp:1207-1240. -/
def maxElement {α : Type _} [LT α] [DecidableLT α] (src : List α) (length : Nat) : Exec Nat :=
  if length = 0 then .ok 0
  else forFrom 1 (length - 1) 0 fun i best => do
    let b ← rd src best
    let x ← rd src i
    pure (if b < x then i else best)

/-- `DLMath::max`, /repo/source/dnn/dlmath.hpp:1207-1211: dereferences the iterator, so an empty
range is undefined behaviour. -/
def max {α : Type _} [LT α] [DecidableLT α] (src : List α) (length : Nat) : Exec α := do
  let i ← maxElement src length
  if i < length then rd src i else .ub

/-- `DLMath::argmax`, /repo/source/dnn/dlmath.hpp:1220-1225. -/
def argmax {α : Type _} [LT α] [DecidableLT α] (src : List α) (length : Nat) : Exec Nat :=
  maxElement src length

/-- `DLMath::max_and_argmax`, /repo/source/dnn/dlmath.hpp:1234-1240. -/
def maxAndArgmax {α : Type _} [LT α] [DecidableLT α] (src : List α) (length : Nat) :
    Exec (α × Nat) := do
  let i ← maxElement src length
  if i < length then do
    let v ← rd src i
    pure (v, i)
  else .ub

/-! ### Softmax -/

/-- `DLMath::softmax`, /repo/source/dnn/dlmath.hpp:900-920. -/
def softmax (dst src : List ℝ) (length : Nat) : Exec (List ℝ) := do
  let s ← forUp length (dst, (0 : ℝ)) fun i s => do
    let x ← rd src i
    let dst ← wr s.1 i (Real.exp x)
    let v ← rd dst i
    pure (dst, s.2 + v)
  let inv := 1 / s.2
  forUp length s.1 fun i dst => do
    let v ← rd dst i
    wr dst i (v * inv)

/-- `DLMath::stable_softmax_no_check`, /repo/source/dnn/dlmath.hpp:931-953. -/
def stableSoftmaxNoCheck (dst src : List ℝ) (length : Nat) : Exec (List ℝ) := do
  let d ← max src length
  let s ← forUp length (dst, (0 : ℝ)) fun i s => do
    let x ← rd src i
    let dst ← wr s.1 i (Real.exp (x - d))
    let v ← rd dst i
    pure (dst, s.2 + v)
  let inv := 1 / s.2
  forUp length s.1 fun i dst => do
    let v ← rd dst i
    wr dst i (v * inv)

/-- `DLMath::stable_softmax`, /repo/source/dnn/dlmath.hpp:955-963; `none` is a null `src`. -/
def stableSoftmax (dst : List ℝ) (src : Option (List ℝ)) (length : Nat) : Exec (List ℝ) :=
  match src with
  | none => .throw "stable softmax error: src null"
  | some src => stableSoftmaxNoCheck dst src length

/-- `DLMath::softmax_1_opt_no_check`, /repo/source/dnn/dlmath.hpp:1013-1027, for `src` and `dst`
different buffers. -/
def softmax1OptNoCheck (dst src gradients : List ℝ) (length : Nat) : Exec (List ℝ) :=
  forUp length dst fun i dst => do
    let dst ← wr dst i 0
    forUp length dst fun j dst => do
      let si ← rd src i
      let sj ← rd src j
      let g ← rd gradients j
      let d ← rd dst i
      wr dst i (d + si * ((if i = j then 1 else 0) - sj) * g)

/-- `DLMath::softmax_1`, /repo/source/dnn/dlmath.hpp:1044-1054.  The fresh array `tmp` is
uninitialised in C++; `softmax` overwrites all of it before it is read. -/
def softmax1 (dst src gradients : List ℝ) (length : Nat) : Exec (List ℝ) := do
  let tmp ← softmax (List.replicate length 0) src length
  softmax1OptNoCheck dst tmp gradients length

/-! ### Layers -/

/-- The buffers of an `ActivationLayer`, /repo/source/dnn/feedforward.hpp: both have the length
`size` given to the constructor (feedforward.cpp:30-40). -/
structure Layer where
  output : List ℝ
  inputGradients : List ℝ

/-- The constructor, /repo/source/dnn/feedforward.cpp:30-40: zero-filled buffers. -/
def Layer.new (size : Nat) : Layer := ⟨List.replicate size 0, List.replicate size 0⟩

/-- `ReluLayer::forward` 64-71, `EluLayer::forward` 103-110, `TanhLayer::forward` 175-182,
`SigmoidLayer::forward` 206-213 of /repo/source/dnn/activation.cpp: the same code around the
array overload of `f`. -/
def Layer.forwardWith (f : ℝ → ℝ) (l : Layer) (inputs : List ℝ) : Exec Layer := do
  let out ← mapArr f l.output inputs l.output.length
  pure { l with output := out }

/-- `ReluLayer::backward` 73-92, `EluLayer::backward` 112-132, `TanhLayer::backward` 184-196,
`SigmoidLayer::backward` 215-227 of /repo/source/dnn/activation.cpp: the derivative `f1` is
applied to the stored output, then multiplied by the incoming gradient in place. -/
def Layer.backwardWith (f1 : ℝ → ℝ) (l : Layer) (gradients : List ℝ) : Exec Layer := do
  let ig ← mapArr f1 l.inputGradients l.output l.inputGradients.length
  let ig ← arrMulInPlace ig gradients l.inputGradients.length
  pure { l with inputGradients := ig }

/-- `ReluLayer`, /repo/source/dnn/activation.cpp:64-92: backward uses `relu_1` on the output. -/
def reluForward : Layer → List ℝ → Exec Layer := Layer.forwardWith relu
/-- See `reluForward`. -/
def reluBackward : Layer → List ℝ → Exec Layer := Layer.backwardWith relu1
/-- `EluLayer`, /repo/source/dnn/activation.cpp:103-132. -/
def eluForward (alpha : ℝ) : Layer → List ℝ → Exec Layer := Layer.forwardWith (elu alpha)
/-- See `eluForward`. -/
def eluBackward (alpha : ℝ) : Layer → List ℝ → Exec Layer := Layer.backwardWith (elu1Opt alpha)
/-- `TanhLayer`, /repo/source/dnn/activation.cpp:175-196. -/
def tanhForward : Layer → List ℝ → Exec Layer := Layer.forwardWith tanh
/-- See `tanhForward`. -/
def tanhBackward : Layer → List ℝ → Exec Layer := Layer.backwardWith tanh1Opt
/-- `SigmoidLayer`, /repo/source/dnn/activation.cpp:206-227. -/
def sigmoidForward : Layer → List ℝ → Exec Layer := Layer.forwardWith sigmoid
/-- See `sigmoidForward`. -/
def sigmoidBackward : Layer → List ℝ → Exec Layer := Layer.backwardWith sigmoid1Opt

/-- `LinearLayer::forward`, /repo/source/dnn/activation.cpp:237-242: vector assignment. -/
def linearForward (l : Layer) (inputs : List ℝ) : Exec Layer := .ok { l with output := inputs }

/-- `LinearLayer::backward`, /repo/source/dnn/activation.cpp:244-254: `std::copy` of the first
`_input_gradients.size()` gradients. -/
def linearBackward (l : Layer) (gradients : List ℝ) : Exec Layer := do
  let ig ← mapArr (fun g => g) l.inputGradients gradients l.inputGradients.length
  pure { l with inputGradients := ig }

/-- `SoftmaxLayer::forward`, /repo/source/dnn/activation.cpp:142-149. -/
def softmaxForward (l : Layer) (inputs : List ℝ) : Exec Layer := do
  let out ← stableSoftmaxNoCheck l.output inputs l.output.length
  pure { l with output := out }

/-- `SoftmaxLayer::backward`, /repo/source/dnn/activation.cpp:151-165. -/
def softmaxBackward (l : Layer) (gradients : List ℝ) : Exec Layer := do
  let ig ← softmax1OptNoCheck l.inputGradients l.output gradients l.inputGradients.length
  pure { l with inputGradients := ig }

end

end Verif.Act
