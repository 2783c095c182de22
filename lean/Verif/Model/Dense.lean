import Verif.Exec

/-
Model of the dense kernels of /repo/source/dnn/dlmath.hpp and of
/repo/source/dnn/dense.cpp (arithmetic part).

The number type is any type with 0, + and *, so nothing about rounding is assumed; the
order of the operations is the one of the C++ code.  Sizes are `Nat`.
-/

namespace Verif.Dense

variable {α : Type _}

/-- `DLMath::dense`, /repo/source/dnn/dlmath.hpp:1784-1798.  (`dense_simd_opt`, lines
1824-1850, calls it: its SIMD branch is disabled by `#if 0`.) -/
def dense [Add α] [Mul α] (dst src weights bias : List α) (inputSize outputSize : Nat) :
    Exec (List α) :=
  forUp outputSize dst fun i dst => do
    let b ← rd bias i
    let dst ← wr dst i b
    forUp inputSize dst fun j dst => do
      let w ← rd weights (i * inputSize + j)
      let x ← rd src j
      let d ← rd dst i
      wr dst i (d + w * x)

/-- `DLMath::matarr_mul_no_check`, /repo/source/dnn/dlmath.hpp:511-525. -/
def matarrMul [Zero α] [Add α] [Mul α] (dst m src : List α) (rows cols : Nat) :
    Exec (List α) :=
  forUp rows dst fun i dst => do
    let dst ← wr dst i 0
    forUp cols dst fun j dst => do
      let w ← rd m (i * cols + j)
      let x ← rd src j
      let d ← rd dst i
      wr dst i (d + w * x)

/-- `DLMath::arr_sum` (two arrays), /repo/source/dnn/dlmath.hpp:471-479.
`src1` may alias `dst` in C++: it is read at index `i` before the write at `i`, and no
other index of it is touched, so an aliased call gives the same array (C78). -/
def arrSum [Add α] (dst src1 src2 : List α) (n : Nat) : Exec (List α) :=
  forUp n dst fun i dst => do
    let a ← rd src1 i
    let b ← rd src2 i
    wr dst i (a + b)

/-- `DLMath::arr_mul` (two arrays), /repo/source/dnn/dlmath.hpp:427-435. -/
def arrMul [Mul α] (dst src1 src2 : List α) (n : Nat) : Exec (List α) :=
  forUp n dst fun i dst => do
    let a ← rd src1 i
    let b ← rd src2 i
    wr dst i (a * b)

/-- `std::fill(p, p + n, v)` as used in /repo/source/dnn/dlmath.hpp:1858. -/
def fill (dst : List α) (n : Nat) (v : α) : Exec (List α) :=
  forUp n dst fun i dst => wr dst i v

/-- The three gradient buffers of a dense layer. -/
structure Grads (α : Type _) where
  input : List α
  weight : List α
  bias : List α
  deriving Repr, DecidableEq

/-- `DLMath::dense_1`, /repo/source/dnn/dlmath.hpp:1852-1871. -/
def dense1 [Zero α] [Add α] [Mul α] (s : Grads α) (gradients lastInput weights : List α)
    (inputSize outputSize : Nat) : Exec (Grads α) := do
  let ig ← fill s.input inputSize 0
  forUp outputSize { s with input := ig } fun i s => do
    let b ← rd s.bias i
    let g ← rd gradients i
    let bg ← wr s.bias i (b + g)
    forUp inputSize { s with bias := bg } fun j s => do
      let wg0 ← rd s.weight (i * inputSize + j)
      let g ← rd gradients i
      let x ← rd lastInput j
      let wg ← wr s.weight (i * inputSize + j) (wg0 + g * x)
      let ig0 ← rd s.input j
      let w ← rd weights (i * inputSize + j)
      let ig ← wr s.input j (ig0 + g * w)
      pure { s with weight := wg, input := ig }

/-- State of a `DenseLayer`, /repo/source/dnn/dense.hpp and layer.hpp: sizes, parameters,
gradients, output buffer and the remembered input.
Simplification: `_last_input` is the raw pointer `inputs.data()` in C++; the model keeps
the list it pointed to, i.e. the caller keeps that vector alive and unchanged until
`backward`. -/
structure Layer (α : Type _) where
  inputSize : Nat
  outputSize : Nat
  weights : List α
  biases : List α
  grads : Grads α
  output : List α
  lastInput : List α
  deriving Repr, DecidableEq

/-- `DenseLayer::forward`, /repo/source/dnn/dense.cpp:83-100: `in_size` is the length of
the vector passed in, `out_size` the length of the output buffer. -/
def Layer.forward [Add α] [Mul α] (l : Layer α) (inputs : List α) : Exec (Layer α) := do
  let out ← dense l.output inputs l.weights l.biases inputs.length l.output.length
  pure { l with output := out }

/-- `Layer::training_forward`, /repo/source/dnn/layer.cpp:117-122. -/
def Layer.trainingForward [Add α] [Mul α] (l : Layer α) (inputs : List α) : Exec (Layer α) :=
  Layer.forward { l with lastInput := inputs } inputs

/-- `DenseLayer::backward`, /repo/source/dnn/dense.cpp:102-115. -/
def Layer.backward [Zero α] [Add α] [Mul α] (l : Layer α) (gradients : List α) :
    Exec (Layer α) := do
  let g ← dense1 l.grads gradients l.lastInput l.weights l.inputSize gradients.length
  pure { l with grads := g }

end Verif.Dense
