import Verif.Exec
import Mathlib.Analysis.SpecialFunctions.Pow.Real
import Mathlib.Analysis.SpecialFunctions.Sqrt

/-
Model of parameter access (`param_count`, `param`, `gradient` of the layers) and of
/repo/source/dnn/optimizer.cpp, gd_optimizer.cpp and adam_optimizer.cpp.

A call that throws may have written before: the result of a call is therefore the state it leaves
together with how it ended (`Res`).
-/

namespace Verif.Opt

variable {α : Type}

/-- The classes of layers as far as parameters are concerned; the sizes are those of the
constructor. -/
inductive Kind where
  /-- `DenseLayer` with input and output size -/
  | dense (input output : Nat)
  /-- `ConvolutionalLayer` with kernel size (height * width), input channels and filters -/
  | conv (kernel channels filters : Nat)
  /-- `RecurrentLayer` with input, hidden and output size -/
  | rnn (input hidden output : Nat)
  /-- activation, pooling, dropout, concatenate and loss layers -/
  | other
  deriving DecidableEq, Repr

/-- `param_count()`: /repo/source/dnn/dense.hpp:100-104, convolutional.hpp:99-104,
recurrent.hpp:92-96, activation.hpp:67, pooling.hpp, dropout.hpp, concatenate.hpp, loss.hpp.  Sizes
are mathematical integers (no 64-bit overflow). -/
def Kind.paramCount : Kind → Nat
  | .dense i o => (i + 1) * o
  | .conv k c f => k * c * f + f
  | .rnn i h o => (i + h + 1) * h + (h + 1) * o
  | .other => 0

/-- Lengths of the blocks of learnable values, in the order in which `param` walks through them:
dense.cpp:45-51 (weights, biases), convolutional.cpp:70-77 (weights, biases), recurrent.cpp:46-64
(input to hidden, hidden to hidden, bias to hidden, hidden to output, bias to output). -/
def Kind.blockSizes : Kind → List Nat
  | .dense i o => [o * i, o]
  | .conv k c f => [k * c * f, f]
  | .rnn i h o => [i * h, h * h, h, h * o, o]
  | .other => []

/-- A layer: the parameter blocks and the gradient blocks. -/
structure PLayer (α : Type) where
  kind : Kind
  params : List (List α)
  grads : List (List α)
  deriving DecidableEq, Repr

/-- Block and offset of element `index` for blocks of the given sizes: the comparisons of
`DenseLayer::param` / `gradient` (/repo/source/dnn/dense.cpp:117-141),
`ConvolutionalLayer::param` / `gradient` (convolutional.cpp:192-216), `RecurrentLayer::param` /
`gradient` (recurrent.cpp:369-427) and of the layers without parameters, which throw
(activation.hpp:74-89). -/
def locate (k : Kind) (sizes : List Nat) (index : Nat) : Exec (Nat × Nat) :=
  if index ≥ k.paramCount then .throw "index overflow"
  else match k, sizes with
    | .dense _ _, [w, _] => if index < w then .ok (0, index) else .ok (1, index - w)
    | .conv _ _ _, [w, _] => if index < w then .ok (0, index) else .ok (1, index - w)
    | .rnn _ _ _, [wih, whh, bh, who, _] =>
      if index < wih then .ok (0, index)
      else if index < wih + whh then .ok (1, index - wih)
      else if index < wih + whh + bh then .ok (2, index - (wih + whh))
      else if index < wih + whh + bh + who then .ok (3, index - (wih + whh + bh))
      else .ok (4, index - (wih + whh + bh + who))
    | _, _ => .throw "no parameters"

/-- Read through the reference that `param(i)` / `gradient(i)` returns. -/
def readAt (k : Kind) (blocks : List (List α)) (index : Nat) : Exec α := do
  let (b, off) ← locate k (blocks.map List.length) index
  let block ← rd blocks b
  rd block off

/-- Write through that reference. -/
def writeAt (k : Kind) (blocks : List (List α)) (index : Nat) (v : α) : Exec (List (List α)) := do
  let (b, off) ← locate k (blocks.map List.length) index
  let block ← rd blocks b
  let block ← wr block off v
  wr blocks b block

/-- State left by a call, and how it ended. -/
structure Res (σ : Type) where
  state : σ
  status : Exec Unit

/-- What a training call can change: the state of the optimizer, the parameters of the layer that is
trained and the gradients of the layer they are taken from. -/
structure TState (σ α : Type) where
  opt : σ
  params : List (List α)
  grads : List (List α)

/-- Body of the loops of `_train`: /repo/source/dnn/gd_optimizer.cpp:38-45 and
adam_optimizer.cpp:47-67.  `step` computes the new optimizer state and the new parameter. -/
def trainOne [Zero α] {σ : Type} (step : σ → α → α → σ × α) (kFrom kTo : Kind) (i : Nat)
    (s : TState σ α) : Exec (TState σ α) := do
  let p ← readAt kTo s.params i
  let g ← readAt kFrom s.grads i
  let r := step s.opt p g
  let params ← writeAt kTo s.params i r.2
  let grads ← writeAt kFrom s.grads i 0
  pure { opt := r.1, params := params, grads := grads }

/-- The loop over the parameters, keeping the state when an iteration throws. -/
def trainLoop [Zero α] {σ : Type} (step : σ → α → α → σ × α) (kFrom kTo : Kind) :
    Nat → Nat → TState σ α → Res (TState σ α)
  | 0, _, s => ⟨s, .ok ()⟩
  | n + 1, i, s =>
    match trainOne step kFrom kTo i s with
    | .ok s' => trainLoop step kFrom kTo n (i + 1) s'
    | .throw m => ⟨s, .throw m⟩
    | .ub => ⟨s, .ub⟩

/-- `Optimizer::train(layer_from, layer_to)`, /repo/source/dnn/optimizer.cpp:31-34, for two
different layers: optimizer state, `layer_from` and `layer_to` afterwards. -/
def train [Zero α] {σ : Type} (step : σ → α → α → σ × α) (s : σ) (from_ to_ : PLayer α) :
    Res (σ × PLayer α × PLayer α) :=
  let r := trainLoop step from_.kind to_.kind to_.kind.paramCount 0 ⟨s, to_.params, from_.grads⟩
  ⟨(r.state.opt, { from_ with grads := r.state.grads }, { to_ with params := r.state.params }),
    r.status⟩

/-- `Optimizer::train(layer)`, /repo/source/dnn/optimizer.cpp:36-39: the same layer twice. -/
def trainSelf [Zero α] {σ : Type} (step : σ → α → α → σ × α) (s : σ) (l : PLayer α) :
    Res (σ × PLayer α) :=
  let r := trainLoop step l.kind l.kind l.kind.paramCount 0 ⟨s, l.params, l.grads⟩
  ⟨(r.state.opt, { l with params := r.state.params, grads := r.state.grads }), r.status⟩

/-- `Optimizer::train_check`, /repo/source/dnn/optimizer.cpp:41-48. -/
def trainCheck [Zero α] {σ : Type} (step : σ → α → α → σ × α) (s : σ) (from_ to_ : PLayer α) :
    Res (σ × PLayer α × PLayer α) :=
  if from_.kind.paramCount ≠ to_.kind.paramCount then
    ⟨(s, from_, to_), .throw "Layers have different amount of params"⟩
  else train step s from_ to_

/-- `GradientDescentOptimizer::_train`, /repo/source/dnn/gd_optimizer.cpp:42. -/
def gdStep [Sub α] [Mul α] (eta : α) (s : Unit) (p g : α) : Unit × α := (s, p - eta * g)

/-- A step of a user history: add `v` to `gradient(i)` (what a backward pass does, element by element),
or call `optimizer.train(layer)`. -/
inductive Op (α : Type) where
  | accumulate (i : Nat) (v : α)
  | train

/-- Effect of one step with a gradient descent optimizer; a call that throws leaves the state that
`Res` reports. -/
def applyOp [Zero α] [Add α] [Sub α] [Mul α] (eta : α) (l : PLayer α) : Op α → PLayer α
  | .accumulate i v =>
    match (do let g ← readAt l.kind l.grads i; writeAt l.kind l.grads i (g + v)) with
    | .ok grads => { l with grads := grads }
    | _ => l
  | .train => (trainSelf (gdStep eta) () l).state.2

/-- Fields `_m`, `_v`, `_t` of `AdamOptimizer`. -/
structure Adam where
  m : ℝ
  v : ℝ
  t : Nat

/-- Constructor and `reset()`: /repo/source/dnn/adam_optimizer.cpp:31-41, 70-75. -/
def Adam.init : Adam := ⟨0, 0, 1⟩

/-- `AdamOptimizer::reset`, /repo/source/dnn/adam_optimizer.cpp:70-75. -/
def Adam.reset (_ : Adam) : Adam := ⟨0, 0, 1⟩

/-- One iteration of `AdamOptimizer::_train`, /repo/source/dnn/adam_optimizer.cpp:51-63.  Numbers
are reals; `std::pow(beta, t)` is the natural power; a division by zero gives 0 (Lean) instead of an
infinity or NaN. -/
noncomputable def adamStep (eta b1 b2 eps : ℝ) (s : Adam) (p g : ℝ) : Adam × ℝ :=
  let m := b1 * s.m + (1 - b1) * g
  let v := b2 * s.v + (1 - b2) * (g * g)
  let mc := m / (1 - b1 ^ s.t)
  let vc := v / (1 - b2 ^ s.t)
  (⟨m, v, s.t + 1⟩, p - eta * (mc / (Real.sqrt vc + eps)))

end Verif.Opt
