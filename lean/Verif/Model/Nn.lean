import Verif.Model.Training
import Verif.Model.Init
import Verif.Model.Fnn

/-
Model of the high-level interface of feedforward networks, /repo/source/middleware/nn.hpp and fnn.hpp:
`fit`, `predict` and `evaluate` on data sets, and networks that are compiled at run time
(`DynamicNeuralNetwork`), for the framework of the repository (`Framework::EDGE_LEARNING`) and the
sequential training mode.

Numbers are reals; what the loops print is not modelled.  A call that throws returns the state it leaves
together with the exception.
-/

namespace Verif.Nn

open Verif.Net Verif.Graph

noncomputable section

/-! ### Predicting data sets -/

/-- `Model::input_size()`, /repo/source/dnn/model.cpp:244-252: 0 without input layers. -/
def inputSize (n : Net) : Exec Nat :=
  match n.graph.inputs with
  | [] => .ok 0
  | i :: _ => do
    let l ← rd n.layers i
    .ok l.inputSize

/-- `Model::output_size()`, /repo/source/dnn/model.cpp:254-262: 0 without output layers. -/
def outputSize (n : Net) : Exec Nat :=
  match n.graph.outputs with
  | [] => .ok 0
  | o :: _ => do
    let l ← rd n.layers o
    .ok l.outputSize

/-- `std::copy(res.begin(), res.end(), ret.begin() + pos)`, /repo/source/middleware/fnn.hpp:238-239. -/
def copyTo : List ℝ → Nat → List ℝ → Exec (List ℝ)
  | ret, _, [] => .ok ret
  | ret, pos, v :: vs => do
    let ret ← wr ret pos v
    copyTo ret (pos + 1) vs

/-- One iteration of the loop of `predict`, /repo/source/middleware/fnn.hpp:235-240. -/
def predictRow (d : Data.Dataset ℝ) (outputSize : Nat) (s : Net × List ℝ) (i : Nat) :
    Exec ((Net × List ℝ) × Option String) := do
  let x ← d.entry i
  let r ← s.1.predict x
  match r.2 with
  | .error m => .ok ((r.1, s.2), some m)
  | .ok y => do
    let ret ← copyTo s.2 (i * outputSize) y
    .ok ((r.1, ret), none)

/-- `EdgeFeedforwardNeuralNetwork::predict`, /repo/source/middleware/fnn.hpp:229-242: the model
afterwards, and the data set returned or the exception. -/
def predict (n : Net) (d : Data.Dataset ℝ) : Exec (Net × Except String (Data.Dataset ℝ)) := do
  let os ← outputSize n
  let r ← each (predictRow d os) (List.range d.size) (n, List.replicate (d.size * os) 0)
  match r.2 with
  | none => .ok (r.1.1, .ok (Data.ofVec r.1.2 os 1 ∅))
  | some m => .ok (r.1.1, .error m)

/-! ### Evaluation -/

/-- `EvaluationResult`, /repo/source/middleware/nn.hpp:57-79. -/
structure EvaluationResult where
  loss : ℝ
  accuracy : ℝ
  accuracyPerc : ℝ
  errorRate : ℝ
  errorRatePerc : ℝ

/-- Its constructor, /repo/source/middleware/nn.hpp:63-69. -/
def EvaluationResult.new (l a : ℝ) : EvaluationResult :=
  ⟨l, a, a * 100, 1 - a, (1 - a) * 100⟩

/-- `forward` of the class of loss layers that `MapLoss` chooses,
/repo/source/middleware/definitions.hpp:173-183. -/
def lossForward : LossFn → Loss.Layer → List ℝ → Exec (Loss.Layer × Option String)
  | .mse => Loss.mseForward
  | .cce => Loss.cceForward

/-- One iteration of the loop of `evaluate_static`, /repo/source/middleware/nn.hpp:147-151. -/
def evaluateRow (lf : LossFn) (d result : Data.Dataset ℝ) (l : Loss.Layer) (i : Nat) :
    Exec (Loss.Layer × Option String) := do
  let t ← d.label i
  let y ← result.entry i
  lossForward lf (l.setTarget t) y

/-- `evaluate_static<LT>`, /repo/source/middleware/nn.hpp:138-154: the model afterwards, and the result
or the exception.  (The tolerance of the squared error layer is the default of its constructor,
/repo/source/dnn/mse_loss.hpp; a ratio without samples, NaN in C++, is 0.) -/
def evaluate (lf : LossFn) (n : Net) (d : Data.Dataset ℝ) : Exec (Net × Except String EvaluationResult) := do
  let os ← outputSize n
  let loss := Loss.Layer.new os 1 (1 / 10)
  let inputs ← d.inputs
  let r ← predict n inputs
  match r.2 with
  | .error m => .ok (r.1, .error m)
  | .ok result => do
    let s ← each (evaluateRow lf d result) (List.range result.size) loss
    match s.2 with
    | some m => .ok (r.1, .error m)
    | none => .ok (r.1, .ok (.new s.1.avgLoss s.1.accuracy))

/-! ### Fitting -/

/-- `OptimizerType`, /repo/source/middleware/definitions.hpp:88-92. -/
inductive OptimizerType where
  | gradientDescent
  | adam
  deriving DecidableEq

/-- `_fit`, /repo/source/middleware/fnn.hpp:248-271, in the sequential mode: a new optimizer with the
given learning rate, the other constants of Adam are the defaults of
/repo/source/dnn/adam_optimizer.hpp:62-65.  `none`: an epoch takes more than `fuel` batches. -/
def train (o : OptimizerType) (rate : ℝ) (d : Data.Dataset ℝ) (fuel epochs batch : Nat) (n : Net) :
    Option (Exec Net) :=
  match o with
  | .gradientDescent =>
    (Training.fit (Opt.gdStep rate) d fuel epochs batch ((), n)).map fun r => do
      let s ← r
      .ok s.2
  | .adam =>
    (Training.fit (Opt.adamStep rate (9 / 10) (999 / 1000) (1 / 10 ^ 8)) d fuel epochs batch
      (Opt.Adam.init, n)).map fun r => do
        let s ← r
        .ok s.2

/-- `EdgeFeedforwardNeuralNetwork::fit`, /repo/source/middleware/fnn.hpp:197-227, with the loss `lf` and
the initialisation `init` of the class; `device` is what the random device gives for the seed 0. -/
def fit (rg : Init.Random) (lf : LossFn) (init : Init.ModelInit) (o : OptimizerType) (rate : ℝ)
    (device seed : Nat) (d : Data.Dataset ℝ) (fuel epochs batch : Nat) (f : Fnn) : Option (Exec Fnn) :=
  match f.addLosses lf batch with
  | .ok (f', none) =>
    match Init.init rg init .normal device seed f'.net with
    | .ok (n, _) =>
      (train o rate d fuel epochs batch n).map fun r => do
        let n ← r
        .ok { f' with layers := n.layers }
    | .throw m => some (.throw m)
    | .ub => some .ub
  | .ok (_, some m) => some (.throw m)
  | .throw m => some (.throw m)
  | .ub => some .ub

/-! ### Networks compiled at run time -/

/-- What a compiled network is: `EdgeFeedforwardNeuralNetwork<LT, IT, …>`. -/
structure Compiled where
  lossFn : LossFn
  init : Init.ModelInit
  fnn : Fnn

/-- Fields of `DynamicNeuralNetwork`, /repo/source/middleware/nn.hpp:349-353. -/
structure Dynamic where
  model : Option Compiled
  layers : List Descriptor
  optimizer : OptimizerType
  loss : LossFn

/-- Constructor, /repo/source/middleware/nn.hpp:231-237; `_optimizer` and `_loss` are the first values of
their enumerations. -/
def Dynamic.new (layers : List Descriptor) : Dynamic := ⟨none, layers, .gradientDescent, .cce⟩

/-- `compile`, /repo/source/middleware/nn.hpp:239-290. -/
def Dynamic.compile (n : Dynamic) (loss : LossFn) (optimizer : OptimizerType) (init : Init.ModelInit) :
    Exec (Dynamic × Option String) := do
  let r ← each Fnn.add n.layers Fnn.empty
  .ok ({ n with model := some ⟨loss, init, r.1⟩, optimizer := optimizer, loss := loss }, r.2)

/-- `compile()` with its default arguments, /repo/source/middleware/nn.hpp:239-241. -/
def Dynamic.compileDefault (n : Dynamic) : Exec (Dynamic × Option String) := n.compile .mse .adam .auto

/-- `if (!_model_ptr) compile();`, then the call. -/
def Dynamic.ensure {β : Type} (n : Dynamic) (call : Compiled → Exec (Compiled × Except String β)) :
    Exec (Dynamic × Except String β) := do
  let r ← match n.model with
    | some _ => .ok (n, none)
    | none => n.compileDefault
  match r.2, r.1.model with
  | some m, _ => .ok (r.1, .error m)
  | none, none => .ub
  | none, some c => do
    let q ← call c
    .ok ({ r.1 with model := some q.1 }, q.2)

/-- A network with the layers of a model that was used. -/
def Compiled.withNet (c : Compiled) (n : Net) : Compiled :=
  { c with fnn := { c.fnn with layers := n.layers } }

/-- `DynamicNeuralNetwork::predict`, /repo/source/middleware/nn.hpp:292-299. -/
def Dynamic.predict (n : Dynamic) (d : Data.Dataset ℝ) : Exec (Dynamic × Except String (Data.Dataset ℝ)) :=
  n.ensure fun c => do
    let r ← Nn.predict c.fnn.net d
    .ok (c.withNet r.1, r.2)

/-- `input_size()`, /repo/source/middleware/nn.hpp:316-323. -/
def Dynamic.inputSize (n : Dynamic) : Exec (Dynamic × Except String Nat) :=
  n.ensure fun c => do
    let s ← Nn.inputSize c.fnn.net
    .ok (c, .ok s)

/-- `output_size()`, /repo/source/middleware/nn.hpp:325-332. -/
def Dynamic.outputSize (n : Dynamic) : Exec (Dynamic × Except String Nat) :=
  n.ensure fun c => do
    let s ← Nn.outputSize c.fnn.net
    .ok (c, .ok s)

/-- `fit`, /repo/source/middleware/nn.hpp:301-314.  What a training run that throws leaves in the network
is not modelled. -/
def Dynamic.fit (rg : Init.Random) (device : Nat) (n : Dynamic) (d : Data.Dataset ℝ)
    (fuel epochs batch : Nat) (rate : ℝ) (seed : Nat) : Option (Exec Dynamic) :=
  match n.model with
  | none => some (.throw "Training error: you need to call the compile method before fit")
  | some c =>
    (Nn.fit rg c.lossFn c.init n.optimizer rate device seed d fuel epochs batch c.fnn).map fun r => do
      let f ← r
      .ok { n with model := some { c with fnn := f } }

/-- `evaluate`, /repo/source/middleware/nn.hpp:334-342. -/
def Dynamic.evaluate (n : Dynamic) (d : Data.Dataset ℝ) : Exec (Dynamic × Except String EvaluationResult) :=
  match n.model with
  | none =>
    .ok (n, .error "Evaluate error: you need to call the compile method before evaluate")
  | some c => do
    let r ← Nn.evaluate n.loss c.fnn.net d
    .ok ({ n with model := some (c.withNet r.1) }, r.2)

/-! ### Scores of a model -/

/-- Body of the loops of `Model::accuracy` and `Model::avg_loss`, /repo/source/dnn/model.cpp:297-313. -/
def sumScore (score : Loss.Layer → ℝ) (ls : List AnyLayer) : List Nat → Exec ℝ
  | [] => .ok 0
  | i :: is => do
    let l ← rd ls i
    let rest ← sumScore score ls is
    match l with
    | .loss _ l => .ok (score l + rest)
    | _ => .ub

/-- `Model::accuracy`, /repo/source/dnn/model.cpp:297-304.  Simplifications: the sum is built from the
last loss layer on; without loss layers the model gives 0, C++ NaN. -/
def accuracy (n : Net) : Exec ℝ := do
  let s ← sumScore Loss.Layer.accuracy n.layers n.graph.loss
  .ok (s / n.graph.loss.length)

/-- `Model::avg_loss`, /repo/source/dnn/model.cpp:306-313; see `accuracy`. -/
def avgLoss (n : Net) : Exec ℝ := do
  let s ← sumScore Loss.Layer.avgLoss n.layers n.graph.loss
  .ok (s / n.graph.loss.length)

end

end Verif.Nn
