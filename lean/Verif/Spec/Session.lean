import Verif.Spec.Nn

/-! Vocabulary for histories of calls on a model that is being trained. -/

namespace Verif.Spec

open Verif.Net

noncomputable section

/-- A call on a model that is trained with one optimizer. -/
inductive UserCall where
  | predict (x : List ℝ)
  | resetScore
  | step (x t : List ℝ)
  | train

/-- Is it a `step` or a `train`? -/
def UserCall.learns : UserCall → Bool
  | .predict _ => false
  | .resetScore => false
  | .step _ _ => true
  | .train => true

/-- The inputs have the length `n`. -/
def UserCall.Sized (n : Nat) : UserCall → Prop
  | .predict x => x.length = n
  | .resetScore => True
  | .step x _ => x.length = n
  | .train => True

/-- A layer as in `Maps`, or a dropout layer with the buffers that its constructor makes, from `n` to `m` values. -/
def Trains (n m : Nat) : AnyLayer → Prop
  | .dropout _ _ l => m = n ∧ l.size = n ∧ l.output.length = n ∧ l.inputGrad.length = n
  | a => Maps n m a

/-- A list of such layers whose consecutive sizes agree, from length `n` to length `m`. -/
inductive TrainsAll : Nat → Nat → List AnyLayer → Prop
  | nil (n : Nat) : TrainsAll n n []
  | cons {n k m : Nat} {l : AnyLayer} {ls : List AnyLayer} :
      Trains n k l → TrainsAll k m ls → TrainsAll n m (l :: ls)

/-- The optimizer and the model after a history of calls, and the exceptions of the calls of `step` and
`train`, if any; the caller catches them. -/
def session {σ : Type} (opt : σ → ℝ → ℝ → σ × ℝ) :
    List UserCall → σ × Net → Exec ((σ × Net) × List (Option String))
  | [], s => .ok (s, [])
  | .predict x :: cs, s => do
    let r ← s.2.predict x
    session opt cs (s.1, r.1)
  | .resetScore :: cs, s => session opt cs (s.1, s.2.resetScore)
  | .step x t :: cs, s => do
    let r ← s.2.step x t
    let q ← session opt cs (s.1, r.1)
    .ok (q.1, r.2 :: q.2)
  | .train :: cs, s =>
    let r := s.2.train opt s.1
    match r.2 with
    | .ok () => do
      let q ← session opt cs r.1
      .ok (q.1, none :: q.2)
    | .throw m => do
      let q ← session opt cs r.1
      .ok (q.1, some m :: q.2)
    | .ub => .ub

/-- What training is about: the state of the optimizer, the exceptions, the parameters and gradients of all
layers. -/
def learned {σ : Type} (r : Exec ((σ × Net) × List (Option String))) :
    Exec (σ × List (Option String) × List (List (List ℝ)) × List (List (List ℝ))) := do
  let r ← r
  .ok (r.1.1, r.2, r.1.2.layers.map AnyLayer.params, r.1.2.layers.map AnyLayer.paramGrads)

/-- A feedforward network and what it can become by any sequence of `predict`, `evaluate` and `fit`, where all
fits use the loss `lf` and the batch size `batch`; the other options and the data sets are arbitrary, calls of
`predict` and `evaluate` may throw. -/
inductive UsedWith (lf : LossFn) (batch : Nat) (f : Fnn) : Fnn → Prop
  | new : UsedWith lf batch f f
  | predict {g : Fnn} {n : Net} {r : Except String (Data.Dataset ℝ)} (d : Data.Dataset ℝ) : UsedWith lf batch f g →
      Nn.predict g.net d = .ok (n, r) → UsedWith lf batch f { g with layers := n.layers }
  | evaluate {g : Fnn} {n : Net} {r : Except String Nn.EvaluationResult} (lf' : LossFn) (d : Data.Dataset ℝ) :
      UsedWith lf batch f g → Nn.evaluate lf' g.net d = .ok (n, r) → UsedWith lf batch f { g with layers := n.layers }
  | fit {g g' : Fnn} (rg : Init.Random) (init : Init.ModelInit) (o : Nn.OptimizerType) (rate : ℝ)
      (device seed : Nat) (d : Data.Dataset ℝ) (fuel epochs : Nat) : UsedWith lf batch f g →
      Nn.fit rg lf init o rate device seed d fuel epochs batch g = some (.ok g') → UsedWith lf batch f g'

/-- A feedforward network and what it can become by any sequence of `predict`, `evaluate` and `fit`, where all
fits use the loss `lf`, which is a parameter of its class; the other options and the data sets are arbitrary, calls
of `predict` and `evaluate` may throw. -/
inductive UsedBy (lf : LossFn) (f : Fnn) : Fnn → Prop
  | new : UsedBy lf f f
  | predict {g : Fnn} {n : Net} {r : Except String (Data.Dataset ℝ)} (d : Data.Dataset ℝ) : UsedBy lf f g →
      Nn.predict g.net d = .ok (n, r) → UsedBy lf f { g with layers := n.layers }
  | evaluate {g : Fnn} {n : Net} {r : Except String Nn.EvaluationResult} (lf' : LossFn) (d : Data.Dataset ℝ) :
      UsedBy lf f g → Nn.evaluate lf' g.net d = .ok (n, r) → UsedBy lf f { g with layers := n.layers }
  | fit {g g' : Fnn} (rg : Init.Random) (init : Init.ModelInit) (o : Nn.OptimizerType) (rate : ℝ)
      (device seed : Nat) (d : Data.Dataset ℝ) (fuel epochs batch : Nat) : UsedBy lf f g →
      Nn.fit rg lf init o rate device seed d fuel epochs batch g = some (.ok g') → UsedBy lf f g'

/-- Every row of the data set provides an input of length `n` and a label that the loss `lf` can score against
`m` predictions. -/
def Suits (lf : LossFn) (n m : Nat) (d : Data.Dataset ℝ) : Prop :=
  ∀ i, i < d.size → ∃ x t, d.input i = .ok x ∧ d.label i = .ok t ∧ x.length = n ∧ CanScore lf m t

/-- How a `fit` ends, and the parameters of all layers if it succeeds. -/
def fitted (r : Option (Exec Fnn)) : Option (Exec (List (List (List ℝ)))) :=
  r.map fun r => do
    let g ← r
    .ok (g.layers.map AnyLayer.params)

end

end Verif.Spec
