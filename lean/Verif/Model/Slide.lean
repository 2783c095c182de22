import Verif.Model.Concat

/-
Model of the sliding-window kernels of /repo/source/dnn/dlmath.hpp
(`kernel_slide`, `cross_correlation`, `max_pool`, `avg_pool`) and of the convolution and
pooling layers built on them.

Simplifications: the output sides are computed with 64-bit wrap-around as in C++; all other
index arithmetic is unbounded (`Nat` for `SizeType`, `Int` for `int64_t`).
-/

namespace Verif

/-- `DLMath::Shape2d`, /repo/source/dnn/dlmath.hpp:106-129. -/
structure Shape2 where
  h : Nat
  w : Nat
  deriving Repr, DecidableEq

/-- Checked read with a signed index (`src[row + col]` with `int64_t` operands). -/
def rdI {α : Type _} (l : List α) (i : Int) : Exec α :=
  if i < 0 then .ub else rd l i.toNat

namespace Slide

variable {α : Type _}

/-- Reduction modulo 2^64 of `SizeType` arithmetic. -/
def wrap (n : Nat) : Nat := n % 2 ^ 64

/-- `input - kernel + 2 * padding` in `SizeType` (wraps around), divided by the stride, plus
one; /repo/source/dnn/dlmath.hpp:1436-1439 with `s` already clamped.  `kernel` and
`padding` are themselves `SizeType` values. -/
def slideSide (input kernel stride padding : Nat) : Nat :=
  if input = 0 then 0
  else wrap (wrap (input + (2 ^ 64 - wrap kernel) + 2 * padding) / stride + 1)

/-- `DLMath::kernel_slide`, /repo/source/dnn/dlmath.hpp:1424-1455.  The operation receives
the destination sides, the destination coordinate and the source row and column offset; it
works on a state `σ` (the buffers it writes). -/
def kernelSlide {σ : Type _}
    (op : (hDst wDst rowDst colDst : Nat) → (row col : Int) → σ → Exec σ)
    (src : Shape3) (k s p : Shape2) (st : σ) : Exec σ :=
  let sw := max s.w 1
  let sh := max s.h 1
  let wDst := slideSide src.w k.w sw p.w
  let hDst := slideSide src.h k.h sh p.h
  forUp hDst st fun r st =>
    forUp wDst st fun c st =>
      let col : Int := (((c * sw : Nat) : Int) - (p.w : Int)) * (src.c : Int)
      let row : Int := ((r * sh : Nat) : Int) - (p.h : Int)
      op hDst wDst r c row col st

/-- `DLMath::_conv4d_op`, /repo/source/dnn/dlmath.hpp:1920-1951. -/
def conv4dOp [Zero α] [Add α] [Mul α] (src : List α) (ss : Shape3) (k : List α) (ks : Shape2)
    (nFilters : Nat) (_hDst wDst rowDst colDst : Nat) (row col : Int) (dst : List α) :
    Exec (List α) :=
  let kSize := ks.h * ks.w * ss.c
  let kStep := ks.w * ss.c
  let srcStep := ss.w * ss.c
  forUp nFilters dst fun f dst => do
    let sum ← forUp kSize (0 : α) fun ki sum =>
      let rowSrc : Int := row + ((ki / kStep : Nat) : Int)
      let colSrc : Int := col + ((ki % kStep : Nat) : Int)
      if colSrc < 0 ∨ rowSrc < 0 ∨ colSrc ≥ (srcStep : Int) ∨ rowSrc ≥ (ss.h : Int) then
        pure sum
      else do
        let x ← rdI src (rowSrc * (srcStep : Int) + colSrc)
        let w ← rd k (ki * nFilters + f)
        pure (sum + x * w)
    wr dst (rowDst * wDst * nFilters + colDst * nFilters + f) sum

/-- `DLMath::cross_correlation`, /repo/source/dnn/dlmath.hpp:1329-1337 (the overloads at
1264-1271 and 1296-1302 are the case of one filter, resp. one channel). -/
def crossCorrelation [Zero α] [Add α] [Mul α] (dst src : List α) (ss : Shape3) (k : List α)
    (ks : Shape2) (nFilters : Nat) (s p : Shape2) : Exec (List α) :=
  kernelSlide (conv4dOp src ss k ks nFilters) ss ks s p dst

/-- `DLMath::_max_pool_op`, /repo/source/dnn/dlmath.hpp:1970-2001. -/
def maxPoolOp [LT α] [DecidableLT α] (src : List α) (ss : Shape3) (ks : Shape2)
    (_hDst wDst rowDst colDst : Nat) (row col : Int) (dst : List α) : Exec (List α) :=
  let srcStep := ss.w * ss.c
  let dstStep := wDst * ss.c
  forUp ss.c dst fun c dst => do
    let m0 ← rdI src (row * (srcStep : Int) + col + (c : Int))
    let m ← forFrom 1 (ks.h * ks.w - 1) m0 fun ki m => do
      let rowSrc : Int := (row + ((ki / ks.w : Nat) : Int)) * (srcStep : Int)
      let colSrc : Int := col + ((ki % ks.w * ss.c : Nat) : Int) + (c : Int)
      let v ← rdI src (rowSrc + colSrc)
      pure (if m < v then v else m)
    wr dst (rowDst * dstStep + colDst * ss.c + c) m

/-- `DLMath::max_pool`, /repo/source/dnn/dlmath.hpp:1358-1364. -/
def maxPool [LT α] [DecidableLT α] (dst src : List α) (ss : Shape3) (ks s : Shape2) :
    Exec (List α) :=
  kernelSlide (maxPoolOp src ss ks) ss ks s ⟨0, 0⟩ dst

/-- `DLMath::_avg_pool_op`, /repo/source/dnn/dlmath.hpp:2021-2049. -/
def avgPoolOp [Zero α] [Add α] [Div α] [NatCast α] (src : List α) (ss : Shape3) (ks : Shape2)
    (_hDst wDst rowDst colDst : Nat) (row col : Int) (dst : List α) : Exec (List α) :=
  let srcStep := ss.w * ss.c
  let dstStep := wDst * ss.c
  forUp ss.c dst fun c dst => do
    let sum ← forUp (ks.h * ks.w) (0 : α) fun ki sum => do
      let rowSrc : Int := (row + ((ki / ks.w : Nat) : Int)) * (srcStep : Int)
      let colSrc : Int := col + ((ki % ks.w * ss.c : Nat) : Int) + (c : Int)
      let v ← rdI src (rowSrc + colSrc)
      pure (sum + v)
    wr dst (rowDst * dstStep + colDst * ss.c + c) (sum / ((ks.h * ks.w : Nat) : α))

/-- `DLMath::avg_pool`, /repo/source/dnn/dlmath.hpp:1386-1392. -/
def avgPool [Zero α] [Add α] [Div α] [NatCast α] (dst src : List α) (ss : Shape3)
    (ks s : Shape2) : Exec (List α) :=
  kernelSlide (avgPoolOp src ss ks) ss ks s ⟨0, 0⟩ dst

/-! ### Layers -/

/-- `convolutional_output_side`, /repo/source/dnn/convolutional.cpp:33-40, and
`pooling_output_side`, /repo/source/dnn/pooling.cpp:31-36 (`padding` 0).  The stride is not
clamped here: zero divides by zero. -/
def outputSide (input kernel stride padding : Nat) : Exec Nat :=
  if input = 0 then .ok 0
  else if stride = 0 then .ub
  else .ok (wrap (wrap (input + (2 ^ 64 - wrap kernel) + 2 * padding) / stride + 1))

/-- `convolutional_output_shape`, /repo/source/dnn/convolutional.cpp:42-53. -/
def convOutputShape (i : Shape3) (k s p : Shape2) (nFilters : Nat) : Exec Shape3 := do
  let h ← outputSide i.h k.h s.h p.h
  let w ← outputSide i.w k.w s.w p.w
  pure ⟨h, w, nFilters⟩

/-- `pooling_output_shape`, /repo/source/dnn/pooling.cpp:38-51. -/
def poolOutputShape (i : Shape3) (k s : Shape2) : Exec Shape3 := do
  let h ← outputSide i.h k.h s.h 0
  let w ← outputSide i.w k.w s.w 0
  pure ⟨h, w, i.c⟩

/-- State of a `ConvolutionalLayer`, /repo/source/dnn/convolutional.hpp and layer.hpp.  As
in the dense layer, `_last_input` is kept as the list it pointed to. -/
structure ConvLayer (α : Type _) where
  input : Shape3
  output : Shape3
  kernel : Shape2
  nFilters : Nat
  stride : Shape2
  padding : Shape2
  weights : List α
  biases : List α
  weightGrads : List α
  biasGrads : List α
  inputGrads : List α
  out : List α
  lastInput : List α
  deriving Repr, DecidableEq

/-- Constructor, /repo/source/dnn/convolutional.cpp:57-78 (all buffers value-initialised). -/
def ConvLayer.mk' [Zero α] (input : Shape3) (kernel : Shape2) (nFilters : Nat)
    (stride padding : Shape2) : Exec (ConvLayer α) := do
  let o ← convOutputShape input kernel stride padding nFilters
  let nW := kernel.h * kernel.w * input.c * nFilters
  pure
    { input := input, output := o, kernel := kernel, nFilters := nFilters
      stride := stride, padding := padding
      weights := List.replicate nW 0, biases := List.replicate nFilters 0
      weightGrads := List.replicate nW 0, biasGrads := List.replicate nFilters 0
      inputGrads := List.replicate input.size 0, out := List.replicate o.size 0
      lastInput := [] }

/-- `ConvolutionalLayer::forward`, /repo/source/dnn/convolutional.cpp:97-110. -/
def ConvLayer.forward [Zero α] [Add α] [Mul α] (l : ConvLayer α) (inputs : List α) :
    Exec (ConvLayer α) := do
  let o ← crossCorrelation l.out inputs l.input l.weights l.kernel l.nFilters l.stride l.padding
  pure { l with out := o }

/-- The bias loop of `ConvolutionalLayer::backward`,
/repo/source/dnn/convolutional.cpp:121-133. -/
def convBiasGrads [Zero α] [Add α] (gradients biasGrads : List α) (outShape : Shape3)
    (nFilters : Nat) : Exec (List α) :=
  forUp nFilters biasGrads fun f bg => do
    let sum ← forUp outShape.h (0 : α) fun r sum =>
      forUp outShape.w sum fun c sum => do
        let g ← rd gradients (r * (outShape.w * nFilters) + c * nFilters + f)
        pure (sum + g)
    wr bg f sum

/-- The lambda `gradients_op` of `ConvolutionalLayer::backward`,
/repo/source/dnn/convolutional.cpp:148-183, on the pair (input gradients, weight
gradients). -/
def convGradOp [Add α] [Mul α] (gradients src : List α) (ss : Shape3) (k : List α)
    (ks : Shape2) (nFilters : Nat) (_hDst wDst rowDst colDst : Nat) (row col : Int)
    (st : List α × List α) : Exec (List α × List α) :=
  let kSize := ks.h * ks.w * ss.c
  let kStep := ks.w * ss.c
  let srcStep := ss.w * ss.c
  forUp nFilters st fun f st => do
    let g ← rd gradients (rowDst * wDst * nFilters + colDst * nFilters + f)
    forUp kSize st fun ki st =>
      let rowSrc : Int := row + ((ki / kStep : Nat) : Int)
      let colSrc : Int := col + ((ki % kStep : Nat) : Int)
      if colSrc < 0 ∨ rowSrc < 0 ∨ colSrc ≥ (srcStep : Int) ∨ rowSrc ≥ (ss.h : Int) then
        pure st
      else do
        let w ← rd k (ki * nFilters + f)
        let i0 ← rdI st.1 (rowSrc * (srcStep : Int) + colSrc)
        let ig ← wr st.1 (rowSrc * (srcStep : Int) + colSrc).toNat (i0 + w * g)
        let x ← rdI src (rowSrc * (srcStep : Int) + colSrc)
        let w0 ← rd st.2 (ki * nFilters + f)
        let wg ← wr st.2 (ki * nFilters + f) (w0 + x * g)
        pure (ig, wg)

/-- `ConvolutionalLayer::backward`, /repo/source/dnn/convolutional.cpp:112-190. -/
def ConvLayer.backward [Zero α] [Add α] [Mul α] (l : ConvLayer α) (gradients : List α) :
    Exec (ConvLayer α) := do
  let bg ← convBiasGrads gradients l.biasGrads l.output l.nFilters
  let ig0 := List.replicate l.inputGrads.length 0
  let r ← kernelSlide
    (convGradOp gradients l.lastInput l.input l.weights l.kernel l.nFilters)
    l.input l.kernel l.stride l.padding (ig0, l.weightGrads)
  pure { l with biasGrads := bg, inputGrads := r.1, weightGrads := r.2 }

/-- State of a `MaxPoolingLayer` / `AveragePoolingLayer`, /repo/source/dnn/pooling.hpp. -/
structure PoolLayer (α : Type _) where
  input : Shape3
  output : Shape3
  kernel : Shape2
  stride : Shape2
  inputGrads : List α
  out : List α
  lastInput : List α
  deriving Repr, DecidableEq

/-- Constructor, /repo/source/dnn/pooling.cpp:53-62. -/
def PoolLayer.mk' [Zero α] (input : Shape3) (kernel stride : Shape2) : Exec (PoolLayer α) := do
  let o ← poolOutputShape input kernel stride
  pure
    { input := input, output := o, kernel := kernel, stride := stride
      inputGrads := List.replicate input.size 0, out := List.replicate o.size 0
      lastInput := [] }

/-- `MaxPoolingLayer::forward`, /repo/source/dnn/max_pooling.cpp:40-48. -/
def maxForward [LT α] [DecidableLT α] (l : PoolLayer α) (inputs : List α) :
    Exec (PoolLayer α) := do
  let o ← maxPool l.out inputs l.input l.kernel l.stride
  pure { l with out := o }

/-- `AveragePoolingLayer::forward`, /repo/source/dnn/avg_pooling.cpp:41-49. -/
def avgForward [Zero α] [Add α] [Div α] [NatCast α] (l : PoolLayer α) (inputs : List α) :
    Exec (PoolLayer α) := do
  let o ← avgPool l.out inputs l.input l.kernel l.stride
  pure { l with out := o }

/-- The lambda `gradients_op` of `MaxPoolingLayer::backward`,
/repo/source/dnn/max_pooling.cpp:54-95. -/
def maxGradOp [Add α] [LT α] [DecidableLT α] (gradients src : List α) (ss : Shape3)
    (ks : Shape2) (_hDst wDst rowDst colDst : Nat) (row col : Int) (ig : List α) :
    Exec (List α) :=
  let srcStep := ss.w * ss.c
  let dstStep := wDst * ss.c
  forUp ss.c ig fun c ig => do
    let g ← rd gradients (rowDst * dstStep + colDst * ss.c + c)
    let m0 ← rdI src (row * (srcStep : Int) + col + (c : Int))
    let m ← forFrom 1 (ks.h * ks.w - 1) (m0, ((0 : Int), (0 : Int))) fun ki m => do
      let rowSrc : Int := (row + ((ki / ks.w : Nat) : Int)) * (srcStep : Int)
      let colSrc : Int := col + ((ki % ks.w * ss.c : Nat) : Int) + (c : Int)
      let v ← rdI src (rowSrc + colSrc)
      pure (if m.1 < v then (v, (rowSrc, colSrc)) else m)
    let i0 ← rdI ig (m.2.1 + m.2.2)
    wr ig (m.2.1 + m.2.2).toNat (i0 + g)

/-- `MaxPoolingLayer::backward`, /repo/source/dnn/max_pooling.cpp:50-104. -/
def maxBackward [Zero α] [Add α] [LT α] [DecidableLT α] (l : PoolLayer α)
    (gradients : List α) : Exec (PoolLayer α) := do
  let ig ← kernelSlide (maxGradOp gradients l.lastInput l.input l.kernel)
    l.input l.kernel l.stride ⟨0, 0⟩ (List.replicate l.inputGrads.length 0)
  pure { l with inputGrads := ig }

/-- The lambda `gradients_op` of `AveragePoolingLayer::backward`,
/repo/source/dnn/avg_pooling.cpp:55-86. -/
def avgGradOp [Add α] [Div α] [NatCast α] (gradients : List α) (ss : Shape3)
    (ks : Shape2) (_hDst wDst rowDst colDst : Nat) (row col : Int) (ig : List α) :
    Exec (List α) :=
  let srcStep := ss.w * ss.c
  let dstStep := wDst * ss.c
  forUp ss.c ig fun c ig => do
    let g0 ← rd gradients (rowDst * dstStep + colDst * ss.c + c)
    let g := g0 / ((ks.w * ks.h : Nat) : α)
    forFrom 1 (ks.h * ks.w - 1) ig fun ki ig => do
      let rowSrc : Int := (row + ((ki / ks.w : Nat) : Int)) * (srcStep : Int)
      let colSrc : Int := col + ((ki % ks.w * ss.c : Nat) : Int) + (c : Int)
      let i0 ← rdI ig (rowSrc + colSrc)
      wr ig (rowSrc + colSrc).toNat (i0 + g)

/-- `AveragePoolingLayer::backward`, /repo/source/dnn/avg_pooling.cpp:51-94. -/
def avgBackward [Zero α] [Add α] [Div α] [NatCast α] (l : PoolLayer α)
    (gradients : List α) : Exec (PoolLayer α) := do
  let ig ← kernelSlide (avgGradOp gradients l.input l.kernel)
    l.input l.kernel l.stride ⟨0, 0⟩ (List.replicate l.inputGrads.length 0)
  pure { l with inputGrads := ig }

end Slide
end Verif
