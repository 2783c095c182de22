import Verif.Model.Graph
import Verif.Model.Dense
import Verif.Model.Slide
import Verif.Model.Loss
import Verif.Model.Dropout
import Verif.Model.Recurrent
import Verif.Model.Optimizer

/-
Model of the computations of /repo/source/dnn/model.cpp: `predict`, `step`, `train`, `reset_score`,
`accuracy`, `avg_loss`.

A model is its graph (Model/Graph.lean) and the states of its layer objects, by position.  Numbers are
reals.  A call that throws keeps what it has written; calls return the new state together with the
exception message, if any.
-/

namespace Verif.Net

open Verif.Graph

noncomputable section

/-- Activation layer classes of /repo/source/dnn/activation.hpp. -/
inductive ActFn where
  | relu
  | elu (alpha : ℝ)
  | softmax
  | tanh
  | sigmoid
  | linear

/-- `forward` of an activation layer, see Model/Activation.lean. -/
def ActFn.forward : ActFn → Act.Layer → List ℝ → Exec Act.Layer
  | .relu => Act.reluForward
  | .elu a => Act.eluForward a
  | .softmax => Act.softmaxForward
  | .tanh => Act.tanhForward
  | .sigmoid => Act.sigmoidForward
  | .linear => Act.linearForward

/-- `backward` of an activation layer. -/
def ActFn.backward : ActFn → Act.Layer → List ℝ → Exec Act.Layer
  | .relu => Act.reluBackward
  | .elu a => Act.eluBackward a
  | .softmax => Act.softmaxBackward
  | .tanh => Act.tanhBackward
  | .sigmoid => Act.sigmoidBackward
  | .linear => Act.linearBackward

/-- Loss layer classes: mse_loss.hpp, cce_loss.hpp. -/
inductive LossFn where
  | mse
  | cce

/-- `forward` of a loss layer. -/
def LossFn.forward : LossFn → Loss.Layer → List ℝ → Exec (Loss.Layer × Option String)
  | .mse => Loss.mseForward
  | .cce => Loss.cceForward

/-- `backward` of a loss layer. -/
def LossFn.backward : LossFn → Loss.Layer → Exec Loss.Layer
  | .mse => Loss.mseBackward
  | .cce => Loss.cceBackward

/-- A layer object.  `raw` is the stream of the dropout layer's generator and `maxRand` its largest
value; `f`, `f1` are the hidden activation of a recurrent layer and its derivative.
`ConcatenateLayer` is not included (Model/ConcatLayer.lean). -/
inductive AnyLayer where
  | dense (l : Dense.Layer ℝ)
  | conv (l : Slide.ConvLayer ℝ)
  | maxPool (l : Slide.PoolLayer ℝ)
  | avgPool (l : Slide.PoolLayer ℝ)
  | act (f : ActFn) (l : Act.Layer)
  | dropout (maxRand : Nat) (raw : Nat → Nat) (l : Drop.Layer)
  | rnn (f f1 : ℝ → ℝ) (l : Rnn.Layer ℝ)
  | loss (f : LossFn) (l : Loss.Layer)

/-- The state afterwards of a call that leaves the object alone when it throws. -/
def keep {β : Type} (old : AnyLayer) (r : Exec β) (wrap : β → AnyLayer) :
    Exec (AnyLayer × Option String) :=
  match r with
  | .ok l => .ok (wrap l, none)
  | .throw m => .ok (old, some m)
  | .ub => .ub

/-- The virtual `forward`. -/
def AnyLayer.forward (a : AnyLayer) (x : List ℝ) : Exec (AnyLayer × Option String) :=
  match a with
  | .dense l => keep a (l.forward x) .dense
  | .conv l => keep a (l.forward x) .conv
  | .maxPool l => keep a (Slide.maxForward l x) .maxPool
  | .avgPool l => keep a (Slide.avgForward l x) .avgPool
  | .act f l => keep a (f.forward l x) (.act f)
  | .dropout mx raw l => keep a (l.forward x) fun r => .dropout mx raw r.1
  | .rnn f f1 l => keep a (l.forward f x) (.rnn f f1)
  | .loss f l => do
    let r ← f.forward l x
    .ok (.loss f r.1, r.2)

/-- `_last_input = inputs.data()`, /repo/source/dnn/layer.cpp:120, for the layers whose `backward`
reads through it. -/
def AnyLayer.setLastInput (x : List ℝ) : AnyLayer → AnyLayer
  | .dense l => .dense { l with lastInput := x }
  | .conv l => .conv { l with lastInput := x }
  | .maxPool l => .maxPool { l with lastInput := x }
  | .avgPool l => .avgPool { l with lastInput := x }
  | .act f l => .act f l
  | .dropout mx raw l => .dropout mx raw l
  | .rnn f f1 l => .rnn f f1 { l with lastInput := x }
  | .loss f l => .loss f { l with lastInput := x }

/-- The virtual `training_forward`: /repo/source/dnn/layer.cpp:117-122, and dropout.cpp:47-70 for the
dropout layer. -/
def AnyLayer.trainingForward (a : AnyLayer) (x : List ℝ) : Exec (AnyLayer × Option String) :=
  match a with
  | .dropout mx raw l => keep a (l.trainingForward mx raw x) fun r => .dropout mx raw r.1
  | _ => (a.setLastInput x).forward x

/-- `last_output()`: /repo/source/dnn/feedforward.hpp, and loss.hpp:151-154. -/
def AnyLayer.lastOutput : AnyLayer → Exec (List ℝ)
  | .dense l => .ok l.output
  | .conv l => .ok l.out
  | .maxPool l => .ok l.out
  | .avgPool l => .ok l.out
  | .act _ l => .ok l.output
  | .dropout _ _ l => .ok l.output
  | .rnn _ _ l => .ok l.output
  | .loss _ _ => .throw "Loss layers do not have output"

/-- The virtual `backward`. -/
def AnyLayer.backward (a : AnyLayer) (g : List ℝ) : Exec (AnyLayer × Option String) :=
  match a with
  | .dense l => keep a (l.backward g) .dense
  | .conv l => keep a (l.backward g) .conv
  | .maxPool l => keep a (Slide.maxBackward l g) .maxPool
  | .avgPool l => keep a (Slide.avgBackward l g) .avgPool
  | .act f l => keep a (f.backward l g) (.act f)
  | .dropout mx raw l => keep a (l.backward g) fun r => .dropout mx raw r.1
  | .rnn f f1 l => keep a (l.backward f1 g) (.rnn f f1)
  | .loss f l => keep a (f.backward l) (.loss f)

/-- `last_input_gradient()`: /repo/source/dnn/feedforward.hpp, and loss.hpp:142-145. -/
def AnyLayer.lastInputGradient : AnyLayer → List ℝ
  | .dense l => l.grads.input
  | .conv l => l.inputGrads
  | .maxPool l => l.inputGrads
  | .avgPool l => l.inputGrads
  | .act _ l => l.inputGradients
  | .dropout _ _ l => l.inputGrad
  | .rnn _ _ l => l.inputGrads
  | .loss _ l => l.gradients

/-- The class and sizes of a layer as far as its parameters are concerned. -/
def AnyLayer.kind : AnyLayer → Opt.Kind
  | .dense l => .dense l.inputSize l.outputSize
  | .conv l => .conv (l.kernel.h * l.kernel.w) l.input.c l.nFilters
  | .rnn _ _ l => .rnn l.inputSize l.hiddenSize l.outputSize
  | _ => .other

/-- The blocks that `param(i)` walks through (`SharedParams` members): dense.hpp:141-143,
convolutional.hpp, recurrent.hpp. -/
def AnyLayer.params : AnyLayer → List (List ℝ)
  | .dense l => [l.weights, l.biases]
  | .conv l => [l.weights, l.biases]
  | .rnn _ _ l => [l.wih, l.whh, l.bh, l.who, l.bo]
  | _ => []

/-- The blocks that `gradient(i)` walks through (`Params` members). -/
def AnyLayer.paramGrads : AnyLayer → List (List ℝ)
  | .dense l => [l.grads.weight, l.grads.bias]
  | .conv l => [l.weightGrads, l.biasGrads]
  | .rnn _ _ l => [l.gih, l.ghh, l.gbh, l.gho, l.gbo]
  | _ => []

/-- Replace the parameter blocks. -/
def AnyLayer.setParams (a : AnyLayer) (ps : List (List ℝ)) : AnyLayer :=
  match a, ps with
  | .dense l, [w, b] => .dense { l with weights := w, biases := b }
  | .conv l, [w, b] => .conv { l with weights := w, biases := b }
  | .rnn f f1 l, [wih, whh, bh, who, bo] =>
    .rnn f f1 { l with wih := wih, whh := whh, bh := bh, who := who, bo := bo }
  | a, _ => a

/-- Replace the gradient blocks. -/
def AnyLayer.setParamGrads (a : AnyLayer) (gs : List (List ℝ)) : AnyLayer :=
  match a, gs with
  | .dense l, [w, b] => .dense { l with grads := { l.grads with weight := w, bias := b } }
  | .conv l, [w, b] => .conv { l with weightGrads := w, biasGrads := b }
  | .rnn f f1 l, [gih, ghh, gbh, gho, gbo] =>
    .rnn f f1 { l with gih := gih, ghh := ghh, gbh := gbh, gho := gho, gbo := gbo }
  | a, _ => a

/-! ### Models -/

/-- A `Model`: its graph and the states of the layers, by position in the graph. -/
structure Net where
  graph : DLGraph
  layers : List AnyLayer

/-- The cached runs of `Model::State`, /repo/source/dnn/model.hpp:68-99.  C31 shows that this number
of loop iterations is enough. -/
def forwardArcs (g : DLGraph) : List (Nat × Nat) := (g.forwardRun (g.forward.length + 2)).getD []
@[inherit_doc forwardArcs]
def trainingArcs (g : DLGraph) : List (Nat × Nat) := (g.trainingRun (g.training.length + 2)).getD []
@[inherit_doc forwardArcs]
def backwardArcs (g : DLGraph) : List (Nat × Nat) := (g.backwardRun (g.backward.length + 2)).getD []

/-- Where the argument of a forward call comes from: the argument of `predict` / `step`, or the
output buffer of a layer. -/
inductive Source where
  | external
  | output (i : Nat)
  deriving DecidableEq

/-- A loop that stops at the first exception. -/
def each {σ β : Type} (f : σ → β → Exec (σ × Option String)) :
    List β → σ → Exec (σ × Option String)
  | [], s => .ok (s, none)
  | b :: bs, s => do
    let r ← f s b
    match r.2 with
    | none => each f bs r.1
    | some m => .ok (r.1, some m)

/-- The vector a source stands for. -/
def value (ls : List AnyLayer) (x : List ℝ) : Source → Exec (List ℝ)
  | .external => .ok x
  | .output i => do
    let l ← rd ls i
    l.lastOutput

/-- One iteration of the loops of `predict`, /repo/source/dnn/model.cpp:233-240. -/
def forwardAt (x : List ℝ) (ls : List AnyLayer) (s : Source × Nat) :
    Exec (List AnyLayer × Option String) :=
  match value ls x s.1 with
  | .ok v => do
    let l ← rd ls s.2
    let r ← l.forward v
    .ok (ls.set s.2 r.1, r.2)
  | .throw m => .ok (ls, some m)
  | .ub => .ub

/-- `Model::predict`, /repo/source/dnn/model.cpp:227-242: the model afterwards, and the vector
returned or the exception. -/
def Net.predict (n : Net) (x : List ℝ) : Exec (Net × Except String (List ℝ)) :=
  match n.graph.outputs with
  | [] => .ok (n, .error "No output layers in model")
  | o :: _ => do
    let r ← each (forwardAt x)
      (n.graph.inputs.map (fun i => (Source.external, i)) ++
        (forwardArcs n.graph).map (fun a => (Source.output a.1, a.2))) n.layers
    let n' := { n with layers := r.1 }
    match r.2 with
    | some m => .ok (n', .error m)
    | none => do
      let l ← rd n'.layers o
      match l.lastOutput with
      | .ok y => .ok (n', .ok y)
      | .throw m => .ok (n', .error m)
      | .ub => .ub

/-- During `step`: the layers, and for each layer the vector its `_last_input` points to.
(`_last_input` is a pointer, and what it points to is read in `backward`.) -/
structure Steps where
  layers : List AnyLayer
  from_ : List (Option Source)

/-- One iteration of the forward loops of `step`, /repo/source/dnn/model.cpp:207-214. -/
def trainAt (x : List ℝ) (st : Steps) (s : Source × Nat) : Exec (Steps × Option String) :=
  match value st.layers x s.1 with
  | .ok v => do
    let l ← rd st.layers s.2
    let r ← l.trainingForward v
    .ok (⟨st.layers.set s.2 r.1, st.from_.set s.2 (some s.1)⟩, r.2)
  | .throw m => .ok (st, some m)
  | .ub => .ub

/-- The vector that `_last_input` of the layer `l` at `i` points to.  (A pointer left by an earlier
`step` keeps the vector it had: simplification for layers that the current `step` has not
reached.) -/
def follow (x : List ℝ) (st : Steps) (i : Nat) (l : AnyLayer) : Exec AnyLayer :=
  match st.from_[i]? with
  | some (some s) => do
    let v ← value st.layers x s
    .ok (l.setLastInput v)
  | _ => .ok l

/-- `backward` on the layer at `i`. -/
def backwardAt (x : List ℝ) (st : Steps) (i : Nat) (g : List ℝ) : Exec (Steps × Option String) := do
  let l ← rd st.layers i
  let l ← follow x st i l
  let r ← l.backward g
  .ok ({ st with layers := st.layers.set i r.1 }, r.2)

/-- One iteration of the loop over the backward run, /repo/source/dnn/model.cpp:221-224. -/
def backArcAt (x : List ℝ) (st : Steps) (a : Nat × Nat) : Exec (Steps × Option String) := do
  let l ← rd st.layers a.1
  backwardAt x st a.2 l.lastInputGradient

/-- `set_target` on the layer at `i`, /repo/source/dnn/model.cpp:201-204. -/
def targetAt (t : List ℝ) (ls : List AnyLayer) (i : Nat) : Exec (List AnyLayer × Option String) := do
  let l ← rd ls i
  match l with
  | .loss f l => .ok (ls.set i (.loss f (l.setTarget t)), none)
  | _ => .ok (ls, none)

/-- Sequencing of calls that may throw. -/
def next {σ τ : Type} (r : Exec (σ × Option String)) (fail : σ → τ)
    (f : σ → Exec (τ × Option String)) : Exec (τ × Option String) := do
  let p ← r
  match p.2 with
  | none => f p.1
  | some m => .ok (fail p.1, some m)

/-- `Model::step`, /repo/source/dnn/model.cpp:195-225. -/
def Net.step (n : Net) (x t : List ℝ) : Exec (Net × Option String) := do
  let r ← next (each (targetAt t) n.graph.loss n.layers) (fun ls => Steps.mk ls []) fun ls =>
    next (each (trainAt x)
      (n.graph.inputs.map (fun i => (Source.external, i)) ++
        (trainingArcs n.graph).map (fun a => (Source.output a.1, a.2)))
      ⟨ls, List.replicate ls.length none⟩) id fun st =>
    next (each (fun st i => backwardAt x st i []) n.graph.loss st) id fun st =>
    each (backArcAt x) (backwardArcs n.graph) st
  .ok ({ n with layers := r.1.layers }, r.2)

/-- `Model::reset_score`, /repo/source/dnn/model.cpp:187-193. -/
def Net.resetScore (n : Net) : Net :=
  { n with layers := n.layers.mapIdx fun i a =>
      match a with
      | .loss f l => if n.graph.loss.contains i then .loss f l.resetScore else a
      | a => a }

/-- `optimizer.train(*layer)`, /repo/source/dnn/optimizer.cpp:36-39. -/
def AnyLayer.train {σ : Type} (opt : σ → ℝ → ℝ → σ × ℝ) (s : σ) (a : AnyLayer) :
    (σ × AnyLayer) × Exec Unit :=
  let r := Opt.trainSelf opt s ⟨a.kind, a.params, a.paramGrads⟩
  ((r.state.1, (a.setParams r.state.2.params).setParamGrads r.state.2.grads), r.status)

/-- The loop of `Model::train`, /repo/source/dnn/model.cpp:179-182. -/
def trainLayers {σ : Type} (opt : σ → ℝ → ℝ → σ × ℝ) :
    σ → List AnyLayer → (σ × List AnyLayer) × Exec Unit
  | s, [] => ((s, []), .ok ())
  | s, a :: as =>
    match a.train opt s with
    | ((s', a'), .ok ()) =>
      let r := trainLayers opt s' as
      ((r.1.1, a' :: r.1.2), r.2)
    | ((s', a'), e) => ((s', a' :: as), e)

/-- `Model::train(optimizer)`, /repo/source/dnn/model.cpp:161-185. -/
def Net.train {σ : Type} (opt : σ → ℝ → ℝ → σ × ℝ) (s : σ) (n : Net) : (σ × Net) × Exec Unit :=
  let r := trainLayers opt s n.layers
  ((r.1.1, { n with layers := r.1.2 }), r.2)

/-- Calls that use a model without training it. -/
inductive Call where
  | predict (x : List ℝ)
  | step (x t : List ℝ)
  | resetScore

/-- The model after a call; exceptions are caught by the caller. -/
def Net.call (n : Net) : Call → Exec Net
  | .predict x => do let r ← n.predict x; .ok r.1
  | .step x t => do let r ← n.step x t; .ok r.1
  | .resetScore => .ok n.resetScore

/-- The model after a history of calls. -/
def Net.run : Net → List Call → Exec Net
  | n, [] => .ok n
  | n, c :: cs => do
    let n ← n.call c
    n.run cs

end

end Verif.Net
