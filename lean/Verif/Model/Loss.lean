import Verif.Model.Activation

/-
Model of the loss functions of /repo/source/dnn/dlmath.hpp:1064-1198 and of the loss layers
/repo/source/dnn/loss.cpp, mse_loss.cpp and cce_loss.cpp, over ℝ (exact arithmetic).

A member function that throws leaves the object in the state it had reached, and the caller may
catch the exception and go on.  So the layer functions below return the new state together with
the exception message, if any; undefined behaviour is still the outcome `.ub`.
-/

namespace Verif.Loss
open Verif.Act

noncomputable section

/-- `std::numeric_limits<double>::epsilon()`. -/
def epsilon : ℝ := (2 : ℝ) ^ (-52 : ℤ)

/-- `std::numeric_limits<double>::min()`, the smallest positive normal number. -/
def numMin : ℝ := (2 : ℝ) ^ (-1022 : ℤ)

/-- `std::max(a, b)`: `b` iff `a < b`. -/
def stdMax (a b : ℝ) : ℝ := if a < b then b else a

/-- `DLMath::cross_entropy(y, y_hat)`, /repo/source/dnn/dlmath.hpp:1064-1069. -/
def crossEntropyS (y yh : ℝ) : ℝ := -y * Real.log (stdMax yh epsilon)

/-- `DLMath::cross_entropy(y, y_hat, length)`, /repo/source/dnn/dlmath.hpp:1080-1089. -/
def crossEntropy (y yh : List ℝ) (length : Nat) : Exec ℝ :=
  forUp length (0 : ℝ) fun i ret => do
    let a ← rd y i
    let b ← rd yh i
    pure (ret + crossEntropyS a b)

/-- `DLMath::cross_entropy_1(y, y_hat, norm)`, /repo/source/dnn/dlmath.hpp:1100-1104. -/
def crossEntropyS1 (y yh norm : ℝ) : ℝ := norm * (-y / stdMax yh numMin)

/-- `DLMath::cross_entropy_1` on arrays, /repo/source/dnn/dlmath.hpp:1117-1126. -/
def crossEntropy1 (dst y yh : List ℝ) (norm : ℝ) (length : Nat) : Exec (List ℝ) :=
  forUp length dst fun i dst => do
    let a ← rd y i
    let b ← rd yh i
    wr dst i (crossEntropyS1 a b norm)

/-- `DLMath::squared_error`, /repo/source/dnn/dlmath.hpp:1137-1141. -/
def squaredError (y yh : ℝ) : ℝ := (y - yh) * (y - yh)

/-- `DLMath::mean_squared_error`, /repo/source/dnn/dlmath.hpp:1152-1161.
For `length = 0` C++ yields NaN; real division yields 0, the theorems ask for `0 < length`. -/
def meanSquaredError (y yh : List ℝ) (length : Nat) : Exec ℝ := do
  let ret ← forUp length (0 : ℝ) fun i ret => do
    let a ← rd y i
    let b ← rd yh i
    pure (ret + squaredError a b)
  pure (ret / (length : ℝ))

/-- `DLMath::squared_error_1`, /repo/source/dnn/dlmath.hpp:1172-1176. -/
def squaredError1 (y yh norm : ℝ) : ℝ := -2 * norm * (y - yh)

/-- `DLMath::mean_squared_error_1`, /repo/source/dnn/dlmath.hpp:1189-1198. -/
def meanSquaredError1 (dst y yh : List ℝ) (norm : ℝ) (length : Nat) : Exec (List ℝ) :=
  forUp length dst fun i dst => do
    let a ← rd y i
    let b ← rd yh i
    wr dst i (squaredError1 a b norm)

/-- State of a `LossLayer` (/repo/source/dnn/loss.hpp) together with the `_loss_tolerance` of
`MeanSquaredLossLayer`.  `_last_input` is a raw pointer in C++; the model keeps the vector it
points to.  `_correct` and `_incorrect` are unbounded here. -/
structure Layer where
  inputSize : Nat
  target : List ℝ
  loss : ℝ
  gradients : List ℝ
  invBatch : ℝ
  cumulative : ℝ
  correct : Nat
  incorrect : Nat
  lastInput : List ℝ
  tolerance : ℝ

/-- The constructor, /repo/source/dnn/loss.cpp:34-49 (`tolerance` from mse_loss.cpp:32-40). -/
def Layer.new (inputSize batchSize : Nat) (tolerance : ℝ) : Layer where
  inputSize := inputSize
  target := []
  loss := 0
  gradients := List.replicate inputSize 0
  invBatch := 1 / ((Nat.max batchSize 1 : Nat) : ℝ)
  cumulative := 0
  correct := 0
  incorrect := 0
  lastInput := []
  tolerance := tolerance

/-- `LossLayer::set_target`, /repo/source/dnn/loss.cpp:51-54. -/
def Layer.setTarget (l : Layer) (t : List ℝ) : Layer := { l with target := t }

/-- `LossLayer::accuracy`, /repo/source/dnn/loss.cpp:56-60.  Without any evaluation C++ yields
NaN; the model yields 0. -/
def Layer.accuracy (l : Layer) : ℝ := (l.correct : ℝ) / ((l.correct + l.incorrect : Nat) : ℝ)

/-- `LossLayer::avg_loss`, /repo/source/dnn/loss.cpp:62-66. -/
def Layer.avgLoss (l : Layer) : ℝ := l.cumulative / ((l.correct + l.incorrect : Nat) : ℝ)

/-- `LossLayer::reset_score`, /repo/source/dnn/loss.cpp:68-73. -/
def Layer.resetScore (l : Layer) : Layer := { l with cumulative := 0, correct := 0, incorrect := 0 }

/-- `MeanSquaredLossLayer::forward`, /repo/source/dnn/mse_loss.cpp:42-65. -/
def mseForward (l : Layer) (inputs : List ℝ) : Exec (Layer × Option String) :=
  if l.target.isEmpty then .ok (l, some "_target is null, set_target not called")
  else do
    let loss ← meanSquaredError l.target inputs inputs.length
    let l := { l with loss := loss, cumulative := l.cumulative + loss }
    if -l.tolerance ≤ loss ∧ loss ≤ l.tolerance
    then pure ({ l with correct := l.correct + 1 }, none)
    else pure ({ l with incorrect := l.incorrect + 1 }, none)

/-- `MeanSquaredLossLayer::backward`, /repo/source/dnn/mse_loss.cpp:67-77. -/
def mseBackward (l : Layer) : Exec Layer := do
  let g ← meanSquaredError1 l.gradients l.target l.lastInput l.invBatch l.gradients.length
  pure { l with gradients := g }

/-- The loop of `CategoricalCrossEntropyLossLayer::_argactive`,
/repo/source/dnn/cce_loss.cpp:93-104, from index `i` on with `k` indices left. -/
def argactiveFrom (target : List ℝ) : Nat → Nat → Exec Nat
  | _, 0 => .throw "_target is an array of 0.0 values"
  | i, k + 1 => do
    let t ← rd target i
    if t ≠ 0 then pure i else argactiveFrom target (i + 1) k

/-- `CategoricalCrossEntropyLossLayer::_argactive`, /repo/source/dnn/cce_loss.cpp:93-104. -/
def argactive (l : Layer) : Exec Nat := argactiveFrom l.target 0 l.inputSize

/-- `CategoricalCrossEntropyLossLayer::forward`, /repo/source/dnn/cce_loss.cpp:51-79.  The loss is
already added when `_argactive` throws. -/
def cceForward (l : Layer) (inputs : List ℝ) : Exec (Layer × Option String) :=
  if l.target.isEmpty then .ok (l, some "_target is empty, set_target not called")
  else do
    let loss ← crossEntropy l.target inputs inputs.length
    let l := { l with loss := loss, cumulative := l.cumulative + loss }
    let m ← maxAndArgmax inputs inputs.length
    match argactive l with
    | .ok active =>
      if m.2 = active then pure ({ l with correct := l.correct + 1 }, none)
      else pure ({ l with incorrect := l.incorrect + 1 }, none)
    | .throw msg => .ok (l, some msg)
    | .ub => .ub

/-- `CategoricalCrossEntropyLossLayer::backward`, /repo/source/dnn/cce_loss.cpp:81-91. -/
def cceBackward (l : Layer) : Exec Layer := do
  let g ← crossEntropy1 l.gradients l.target l.lastInput l.invBatch l.gradients.length
  pure { l with gradients := g }

/-- `Layer::training_forward`, /repo/source/dnn/layer.cpp:117-122, for a loss layer. -/
def trainingForward (fwd : Layer → List ℝ → Exec (Layer × Option String)) (l : Layer)
    (inputs : List ℝ) : Exec (Layer × Option String) :=
  fwd { l with lastInput := inputs } inputs

/-- The calls a user makes on a loss layer between construction and reading the statistics. -/
inductive Op where
  | setTarget (t : List ℝ)
  | forward (x : List ℝ)
  | trainingForward (x : List ℝ)
  | resetScore

/-- One call; an exception is caught by the caller and recorded. -/
def stepOp (fwd : Layer → List ℝ → Exec (Layer × Option String)) (l : Layer) :
    Op → Exec (Layer × Option String)
  | .setTarget t => .ok (l.setTarget t, none)
  | .forward x => fwd l x
  | .trainingForward x => trainingForward fwd l x
  | .resetScore => .ok (l.resetScore, none)

/-- A history of calls; collects for each call whether it threw. -/
def runOps (fwd : Layer → List ℝ → Exec (Layer × Option String)) :
    Layer → List Op → Exec (Layer × List (Option String))
  | l, [] => .ok (l, [])
  | l, op :: ops => do
    let (l, e) ← stepOp fwd l op
    let (l, es) ← runOps fwd l ops
    pure (l, e :: es)

end

end Verif.Loss
