import Verif.Exec

/-
Model of the arithmetic of /repo/source/dnn/recurrent.cpp.

The number type is any type with 0, + and *; the hidden activation and its derivative are
parameters, which `Verif.Props.Recurrent` instantiates with `DLMath::tanh` and `DLMath::tanh_1`
over ℝ.  A pointer `p.data() + off` is a list with an offset.
-/

namespace Verif.Rnn

universe u
variable {α : Type u}

/-- `DLMath::matarr_mul(dst + dOff, m, src + sOff, rows, cols)`,
/repo/source/dnn/dlmath.hpp:511-537.  The pointer comparison of `matarr_mul` (531) is not
modelled: the calls in recurrent.cpp always pass different buffers. -/
def matarrMulAt [Zero α] [Add α] [Mul α] (dst : List α) (dOff : Nat) (m src : List α)
    (sOff rows cols : Nat) : Exec (List α) :=
  forUp rows dst fun i dst => do
    let dst ← wr dst (dOff + i) 0
    forUp cols dst fun j dst => do
      let w ← rd m (i * cols + j)
      let x ← rd src (sOff + j)
      let d ← rd dst (dOff + i)
      wr dst (dOff + i) (d + w * x)

/-- `DLMath::arr_sum(dst + dOff, dst + dOff, src + sOff, n)`,
/repo/source/dnn/dlmath.hpp:471-479. -/
def arrSumAt [Add α] (dst : List α) (dOff : Nat) (src : List α) (sOff n : Nat) : Exec (List α) :=
  forUp n dst fun i dst => do
    let a ← rd dst (dOff + i)
    let b ← rd src (sOff + i)
    wr dst (dOff + i) (a + b)

/-- `DLMath::tanh(dst + dOff, dst + dOff, n)`, /repo/source/dnn/dlmath.hpp:725-733, for an
activation `f`. -/
def mapAt (f : α → α) (dst : List α) (dOff n : Nat) : Exec (List α) :=
  forUp n dst fun i dst => do
    let a ← rd dst (dOff + i)
    wr dst (dOff + i) (f a)

/-- State of a `RecurrentLayer`, /repo/source/dnn/recurrent.hpp.  `_last_input` is a raw pointer
in C++; the model keeps the vector it points to. -/
structure Layer (α : Type u) where
  inputSize : Nat
  outputSize : Nat
  hiddenSize : Nat
  timeSteps : Nat
  wih : List α
  whh : List α
  who : List α
  bh : List α
  bo : List α
  output : List α
  hidden : List α
  gih : List α
  ghh : List α
  gho : List α
  gbh : List α
  gbo : List α
  inputGrads : List α
  lastInput : List α
  deriving Repr, DecidableEq

/-- The constructor, /repo/source/dnn/recurrent.cpp:36-79. -/
def Layer.new [Zero α] (inputSize outputSize hiddenSize timeSteps : Nat) : Layer α where
  inputSize := inputSize
  outputSize := outputSize
  hiddenSize := hiddenSize
  timeSteps := timeSteps
  wih := List.replicate (inputSize * hiddenSize) 0
  whh := List.replicate (hiddenSize * hiddenSize) 0
  who := List.replicate (hiddenSize * outputSize) 0
  bh := List.replicate hiddenSize 0
  bo := List.replicate outputSize 0
  output := List.replicate (outputSize * timeSteps) 0
  hidden := List.replicate (hiddenSize * Nat.max timeSteps 1) 0
  gih := List.replicate (inputSize * hiddenSize) 0
  ghh := List.replicate (hiddenSize * hiddenSize) 0
  gho := List.replicate (hiddenSize * outputSize) 0
  gbh := List.replicate hiddenSize 0
  gbo := List.replicate outputSize 0
  inputGrads := List.replicate (inputSize * timeSteps) 0
  lastInput := []

/-- `RecurrentLayer::forward`, /repo/source/dnn/recurrent.cpp:118-215.  `tmp_mul` is freshly
allocated; `matarr_mul` overwrites it before it is read.  (The model allocates it in each step.) -/
def Layer.forward [Zero α] [Add α] [Mul α] (act : α → α) (l : Layer α) (inputs : List α) :
    Exec (Layer α) := do
  let s ← forUp l.timeSteps (l.hidden, l.output) fun t s => do
    let next := if t = l.timeSteps - 1 then 0 else t + 1
    let h := s.1
    let h ← matarrMulAt h (next * l.hiddenSize) l.wih inputs (t * l.inputSize) l.hiddenSize
      l.inputSize
    let tmp ← matarrMulAt (List.replicate l.hiddenSize 0) 0 l.whh h (t * l.hiddenSize)
      l.hiddenSize l.hiddenSize
    let h ← arrSumAt h (next * l.hiddenSize) tmp 0 l.hiddenSize
    let h ← arrSumAt h (next * l.hiddenSize) l.bh 0 l.hiddenSize
    let h ← mapAt act h (next * l.hiddenSize) l.hiddenSize
    let o ← matarrMulAt s.2 (t * l.outputSize) l.who h (next * l.hiddenSize) l.outputSize
      l.hiddenSize
    let o ← arrSumAt o (t * l.outputSize) l.bo 0 l.outputSize
    pure (h, o)
  pure { l with hidden := s.1, output := s.2 }

/-- `Layer::training_forward`, /repo/source/dnn/layer.cpp:117-122. -/
def Layer.trainingForward [Zero α] [Add α] [Mul α] (act : α → α) (l : Layer α)
    (inputs : List α) : Exec (Layer α) :=
  Layer.forward act { l with lastInput := inputs } inputs

/-- The loops `for i for j: m[i * cols + j] += a[aOff + i] * b[bOff + j]` of
/repo/source/dnn/recurrent.cpp:243-251 (hidden to output), 305-313 (input to hidden) and 316-324
(hidden to hidden). -/
def outerAcc [Add α] [Mul α] (m a : List α) (aOff : Nat) (b : List α) (bOff rows cols : Nat) :
    Exec (List α) :=
  forUp rows m fun i m => forUp cols m fun j m => do
    let v ← rd m (i * cols + j)
    let x ← rd a (aOff + i)
    let y ← rd b (bOff + j)
    wr m (i * cols + j) (v + x * y)

/-- The loops `for j { tmp[j] = 0; for i tmp[j] += w[i * cols + j] * a[aOff + i]; }` of
/repo/source/dnn/recurrent.cpp:254-262 and 341-349. -/
def tmulAt [Zero α] [Add α] [Mul α] (tmp w a : List α) (aOff rows cols : Nat) : Exec (List α) :=
  forUp cols tmp fun j tmp => do
    let tmp ← wr tmp j 0
    forUp rows tmp fun i tmp => do
      let v ← rd tmp j
      let x ← rd w (i * cols + j)
      let y ← rd a (aOff + i)
      wr tmp j (v + x * y)

/-- `std::fill` and the loops `for i for j: ig[off + j] += a[i] * w[i * cols + j]` of
/repo/source/dnn/recurrent.cpp:326-338. -/
def inputGradAt [Zero α] [Add α] [Mul α] (ig : List α) (off : Nat) (a w : List α)
    (rows cols : Nat) : Exec (List α) := do
  let ig ← forUp cols ig fun j ig => wr ig (off + j) 0
  forUp rows ig fun i ig => forUp cols ig fun j ig => do
    let v ← rd ig (off + j)
    let x ← rd a i
    let y ← rd w (i * cols + j)
    wr ig (off + j) (v + x * y)

/-- `tanh_1(dst, src + sOff, n)` (/repo/source/dnn/dlmath.hpp:788-796) for a derivative `f1`. -/
def mapFrom (f1 : α → α) (dst src : List α) (sOff n : Nat) : Exec (List α) :=
  forUp n dst fun i dst => do
    let a ← rd src (sOff + i)
    wr dst i (f1 a)

/-- `arr_mul(dst, dst, src, n)`, /repo/source/dnn/dlmath.hpp:427-435. -/
def arrMulInto [Mul α] (dst src : List α) (n : Nat) : Exec (List α) :=
  forUp n dst fun i dst => do
    let a ← rd dst i
    let b ← rd src i
    wr dst i (a * b)

/-- The variables of the loop of `backward`. -/
structure BState (α : Type u) where
  gbo : List α
  gho : List α
  gbh : List α
  gih : List α
  ghh : List α
  ig : List α
  /-- `next_hidden_state` at the head of the loop -/
  carry : List α

/-- One iteration of the loop of `RecurrentLayer::backward` for time index `tIdx`,
/repo/source/dnn/recurrent.cpp:229-353. -/
def Layer.backStep [Zero α] [Add α] [Mul α] (act1 : α → α) (l : Layer α) (gradients : List α)
    (tIdx : Nat) (s : BState α) : Exec (BState α) := do
  let curr := if tIdx + 1 ≥ l.timeSteps then 0 else tIdx + 1
  let gOff := tIdx * l.outputSize
  let gbo ← arrSumAt s.gbo 0 gradients gOff l.outputSize
  let gho ← outerAcc s.gho gradients gOff l.hidden (curr * l.hiddenSize) l.outputSize l.hiddenSize
  let tmp ← tmulAt (List.replicate l.hiddenSize 0) l.who gradients gOff l.outputSize l.hiddenSize
  let tmp ← arrSumAt tmp 0 s.carry 0 l.hiddenSize
  let ns ← mapFrom act1 s.carry l.hidden (curr * l.hiddenSize) l.hiddenSize
  let ns ← arrMulInto ns tmp l.hiddenSize
  let gbh ← arrSumAt s.gbh 0 ns 0 l.hiddenSize
  let gih ← outerAcc s.gih ns 0 l.lastInput (tIdx * l.inputSize) l.hiddenSize l.inputSize
  let ghh ← outerAcc s.ghh ns 0 l.hidden (tIdx * l.hiddenSize) l.hiddenSize l.hiddenSize
  let ig ← inputGradAt s.ig (tIdx * l.inputSize) ns l.wih l.hiddenSize l.inputSize
  let tmp ← tmulAt tmp l.whh ns 0 l.hiddenSize l.hiddenSize
  pure { gbo := gbo, gho := gho, gbh := gbh, gih := gih, ghh := ghh, ig := ig, carry := tmp }

/-- `RecurrentLayer::backward`, /repo/source/dnn/recurrent.cpp:217-357: the loop runs `t` from
`_time_steps` down to 1, so iteration `k` has `t_idx = _time_steps - 1 - k`. -/
def Layer.backward [Zero α] [Add α] [Mul α] (act1 : α → α) (l : Layer α) (gradients : List α) :
    Exec (Layer α) := do
  let s ← forUp l.timeSteps
    { gbo := l.gbo, gho := l.gho, gbh := l.gbh, gih := l.gih, ghh := l.ghh, ig := l.inputGrads,
      carry := List.replicate l.hiddenSize 0 }
    fun k s => Layer.backStep act1 l gradients (l.timeSteps - 1 - k) s
  pure { l with
    gbo := s.gbo, gho := s.gho, gbh := s.gbh, gih := s.gih, ghh := s.ghh, inputGrads := s.ig }

/-- `RecurrentLayer::hidden_state` setter, /repo/source/dnn/recurrent.hpp:108-116. -/
def Layer.setHidden (l : Layer α) (h : List α) : Exec (Layer α) :=
  if h.length > l.hiddenSize then .throw "hidden state exceeds the hidden size"
  else .ok { l with hidden := h ++ l.hidden.drop h.length }

/-- `v.resize(n)`. -/
def resize [Zero α] (l : List α) (n : Nat) : List α := l.take n ++ List.replicate (n - l.length) 0

/-- `RecurrentLayer::time_steps` setter, /repo/source/dnn/recurrent.hpp:118-125. -/
def Layer.setTimeSteps [Zero α] (l : Layer α) (n : Nat) : Layer α :=
  { l with
    timeSteps := n
    hidden := resize l.hidden (l.hiddenSize * Nat.max n 1)
    output := resize l.output (l.outputSize * n)
    inputGrads := resize l.inputGrads (l.inputSize * n) }

end Verif.Rnn
