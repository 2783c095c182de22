import Verif.Spec.Backprop
import Verif.Spec.Fnn
import Verif.Spec.Data
import Verif.Model.Nn

/-! Vocabulary for the high-level interface of networks. -/

namespace Verif.Spec

open Verif.Net Finset

noncomputable section

/-- A model and what it can become by any sequence of calls of `predict`, `step`, `reset_score`, `train`
with any optimizer in any state, and `init`; exceptions are caught. -/
inductive Reaches : Net → Net → Prop
  | refl (n : Net) : Reaches n n
  | call {n n1 n2 : Net} (c : Call) : Reaches n n1 → n1.call c = .ok n2 → Reaches n n2
  | train {n n1 : Net} {σ : Type} (opt : σ → ℝ → ℝ → σ × ℝ) (s : σ) : Reaches n n1 →
      Reaches n (n1.train opt s).1.2
  | init {n n1 n2 : Net} (rg : Init.Random) (how : Init.ModelInit) (pdf : Init.Pdf) (device seed s : Nat) :
      Reaches n n1 → Init.init rg how pdf device seed n1 = .ok (n2, s) → Reaches n n2

/-- The current parameters of the first `k` layers. -/
def paramsOf (n : Net) (k : Nat) : Theta := (n.layers.take k).map AnyLayer.params

/-- A feedforward network and what it can become by any sequence of `predict`, `evaluate` and `fit`, with any
data sets and options; calls of `predict` and `evaluate` may throw. -/
inductive Used (f : Fnn) : Fnn → Prop
  | new : Used f f
  | predict {g : Fnn} {n : Net} {r : Except String (Data.Dataset ℝ)} (d : Data.Dataset ℝ) : Used f g →
      Nn.predict g.net d = .ok (n, r) → Used f { g with layers := n.layers }
  | evaluate {g : Fnn} {n : Net} {r : Except String Nn.EvaluationResult} (lf : LossFn) (d : Data.Dataset ℝ) :
      Used f g → Nn.evaluate lf g.net d = .ok (n, r) → Used f { g with layers := n.layers }
  | fit {g g' : Fnn} (rg : Init.Random) (lf : LossFn) (init : Init.ModelInit) (o : Nn.OptimizerType) (rate : ℝ)
      (device seed : Nat) (d : Data.Dataset ℝ) (fuel epochs batch : Nat) : Used f g →
      Nn.fit rg lf init o rate device seed d fuel epochs batch g = some (.ok g') → Used f g'

/-- The arguments of `compile`. -/
abbrev Choice := LossFn × Nn.OptimizerType × Init.ModelInit

/-- What `compile` chooses without arguments: squared errors, Adam, automatic initialisation. -/
def defaultChoice : Choice := (.mse, .adam, .auto)

/-- The state of a network that is compiled at run time after any sequence of calls, and the arguments of the
last `compile`; `predict`, `input_size` and `output_size` on a network that is not compiled count as `compile`
without arguments.  Calls of `predict` and `evaluate` may throw. -/
inductive DynamicUsed (ds : List Descriptor) : Option Choice → Nn.Dynamic → Prop
  | new : DynamicUsed ds none (.new ds)
  | compile {c : Option Choice} {n n' : Nn.Dynamic} (lf : LossFn) (o : Nn.OptimizerType) (init : Init.ModelInit) :
      DynamicUsed ds c n → n.compile lf o init = .ok (n', none) → DynamicUsed ds (some (lf, o, init)) n'
  | predict {c : Option Choice} {n n' : Nn.Dynamic} {r : Except String (Data.Dataset ℝ)} (d : Data.Dataset ℝ) :
      DynamicUsed ds c n → n.predict d = .ok (n', r) → DynamicUsed ds (some (c.getD defaultChoice)) n'
  | inputSize {c : Option Choice} {n n' : Nn.Dynamic} {r : Except String Nat} :
      DynamicUsed ds c n → n.inputSize = .ok (n', r) → DynamicUsed ds (some (c.getD defaultChoice)) n'
  | outputSize {c : Option Choice} {n n' : Nn.Dynamic} {r : Except String Nat} :
      DynamicUsed ds c n → n.outputSize = .ok (n', r) → DynamicUsed ds (some (c.getD defaultChoice)) n'
  | fit {c : Option Choice} {n n' : Nn.Dynamic} (rg : Init.Random) (device : Nat) (d : Data.Dataset ℝ)
      (fuel epochs batch : Nat) (rate : ℝ) (seed : Nat) :
      DynamicUsed ds c n → n.fit rg device d fuel epochs batch rate seed = some (.ok n') → DynamicUsed ds c n'
  | evaluate {c : Option Choice} {n n' : Nn.Dynamic} {r : Except String Nn.EvaluationResult}
      (d : Data.Dataset ℝ) : DynamicUsed ds c n → n.evaluate d = .ok (n', r) → DynamicUsed ds c n'

/-- What a network is evaluated by: squared errors, correct up to a tolerance of 0.1; or cross entropy,
correct if the largest prediction is the class of the target. -/
def scoring (f : LossFn) (m : Nat) : Scoring :=
  match f with
  | .mse => mseScoring m (1 / 10)
  | .cce => cceScoring m

/-- Mean of the first `n` values. -/
def meanOver (n : Nat) (v : Nat → ℝ) : ℝ := (∑ i ∈ range n, v i) / n

open Classical in
/-- Fraction of the first `n` indices with the property `p`. -/
def fractionOf (n : Nat) (p : Nat → Prop) : ℝ := (((range n).filter p).card : ℝ) / n

/-- The columns of a sample that are not labels. -/
def sampleInput (d : Data.Dataset ℝ) (i : Nat) : List ℝ := pick d.inputIdx (row d i)

/-- The label columns of a sample. -/
def sampleLabel (d : Data.Dataset ℝ) (i : Nat) : List ℝ := pick d.labelsIdx (row d i)

end

end Verif.Spec
