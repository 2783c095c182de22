import Verif.Spec.Backprop
import Verif.Spec.Dump
import Mathlib.Data.Rat.Cast.CharZero
import Mathlib.Analysis.SpecialFunctions.ExpDeriv

/-
How far the prediction of a network can move when its parameters move by at most `δ` each.
-/

namespace Verif.Spec
open Verif.Net Finset

noncomputable section

/-- How far the outputs of a layer with the input `x` can move when every parameter moves by at most `δ` and
every input by at most `e`. The absolute values of the inputs multiply the error of the weights, the absolute
row sums of the weights multiply the error of the inputs; the activations and pooling do not enlarge errors,
apart from an exponential unit with a large constant. -/
def layerDrift (δ e : ℝ) (x : List ℝ) : AnyLayer → ℝ
  | .dense l =>
    δ * (1 + ∑ j ∈ range l.inputSize, |vec x j|) +
      ((⨆ i : Fin l.outputSize, ∑ j ∈ range l.inputSize, |mat l.weights l.inputSize i j|) +
        l.inputSize * δ) * e
  | .conv l =>
    δ * ((l.kernel.h * l.kernel.w * l.input.c : Nat) * ⨆ j : Fin x.length, |vec x j|) +
      ((⨆ f : Fin l.nFilters, ∑ a ∈ range l.kernel.h, ∑ b ∈ range l.kernel.w, ∑ ch ∈ range l.input.c,
          |vec l.weights (((a * l.kernel.w + b) * l.input.c + ch) * l.nFilters + f)|) +
        (l.kernel.h * l.kernel.w * l.input.c : Nat) * δ) * e
  | .act .sigmoid _ => e / 4
  | .act .softmax _ => e / 2
  | .act (.elu a) _ => max 1 |a| * e
  | _ => e

/-- How far the prediction of the layers for `x` can move when every parameter moves by at most `δ` and every
value of `x` by at most `e`. -/
def drift (δ : ℝ) : List AnyLayer → List ℝ → ℝ → ℝ
  | [], _, e => e
  | l :: ls, x, e => drift δ ls (prediction [l] x) (layerDrift δ e x l)

/-- Each parameter of the one differs by at most `δ` from that of the other. -/
def NearTheta (δ : ℝ) (θ θ' : Theta) : Prop :=
  ∀ j b k : Nat, |entry (θ'.getD j []) b k - entry (θ.getD j []) b k| ≤ δ

/-- The weights and biases of the layers on a path of a saved model. -/
def savedTheta (m : Dump.Model ℚ) (p : List Nat) : Theta :=
  p.map fun i => match m.layers[i]? with
    | some l => (parameters l.own).map (List.map fun v : ℚ => (v : ℝ))
    | none => []

end

end Verif.Spec
