import Verif.Spec.Session
import Verif.Model.Net
import Verif.Model.Training

/-! Specification for C116: models that differ in the unit in which gradients are measured. -/

namespace Verif.Spec

open Verif.Net

noncomputable section

/-- All values times `c`. -/
def times (c : ℝ) (v : List ℝ) : List ℝ := v.map (c * ·)

/-- The same layer with all gradients `c` times as large; in a loss layer the factor of the gradients, one over the
batch size it was made for, is `c` times as large, too.  Parameters, outputs and scores are the same. -/
def rescaled (c : ℝ) : AnyLayer → AnyLayer
  | .dense l => .dense { l with grads := ⟨times c l.grads.input, times c l.grads.weight, times c l.grads.bias⟩ }
  | .conv l => .conv { l with weightGrads := times c l.weightGrads, biasGrads := times c l.biasGrads,
                              inputGrads := times c l.inputGrads }
  | .maxPool l => .maxPool { l with inputGrads := times c l.inputGrads }
  | .avgPool l => .avgPool { l with inputGrads := times c l.inputGrads }
  | .act f l => .act f { l with inputGradients := times c l.inputGradients }
  | .dropout mx raw l => .dropout mx raw { l with inputGrad := times c l.inputGrad }
  | .rnn f f1 l => .rnn f f1 { l with gih := times c l.gih, ghh := times c l.ghh, gho := times c l.gho,
                                      gbh := times c l.gbh, gbo := times c l.gbo,
                                      inputGrads := times c l.inputGrads }
  | .loss f l => .loss f { l with gradients := times c l.gradients, invBatch := c * l.invBatch }

/-- The same model with all gradients `c` times as large. -/
def rescaledModel (c : ℝ) (n : Net) : Net := { n with layers := n.layers.map (rescaled c) }

/-- Two calls end in the same way, and if they return, then with results in the relation `R`. -/
inductive SameEnd {α β : Type} (R : α → β → Prop) : Exec α → Exec β → Prop
  | ok {a : α} {b : β} : R a b → SameEnd R (.ok a) (.ok b)
  | throw (m : String) : SameEnd R (.throw m) (.throw m)
  | ub : SameEnd R .ub .ub

/-- Two runs that both have not ended, or that end in the same way. -/
inductive SameRun {α β : Type} (R : α → β → Prop) : Option (Exec α) → Option (Exec β) → Prop
  | none : SameRun R none none
  | some {e : Exec α} {e' : Exec β} : SameEnd R e e' → SameRun R (some e) (some e')

/-- Nothing has been accumulated in the gradients of the layer: what `gradient(i)` and `last_input_gradient()`
return. -/
def NoGradients (a : AnyLayer) : Prop :=
  (∀ g ∈ a.paramGrads, ∀ y ∈ g, y = 0) ∧ ∀ y ∈ a.lastInputGradient, y = 0

/-- The same layer without gradients; loss layers are made for batches of size `b` and `b'`. -/
def ForBatches (b b' : Nat) (a a' : AnyLayer) : Prop :=
  NoGradients a ∧
    match a with
    | .loss f l => l.invBatch = 1 / (b : ℝ) ∧ a' = .loss f { l with invBatch := 1 / (b' : ℝ) }
    | a => a' = a

/-- The layers have the same parameters, outputs and scores. -/
def AlikeLayers (a a' : AnyLayer) : Prop :=
  a'.params = a.params ∧ a'.lastOutput = a.lastOutput ∧
    match a, a' with
    | .loss _ l, .loss _ l' => l'.loss = l.loss ∧ l'.avgLoss = l.avgLoss ∧ l'.accuracy = l.accuracy
    | _, _ => True

/-- The layers of the models are alike, and the models predict the same (or throw the same exception), whatever
they are given. -/
def AlikeModels (n n' : Net) : Prop :=
  n'.graph = n.graph ∧ List.Forall₂ AlikeLayers n.layers n'.layers ∧
    ∀ x, SameEnd (fun r r' => r'.2 = r.2) (n.predict x) (n'.predict x)

end

end Verif.Spec
