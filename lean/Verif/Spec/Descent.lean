import Verif.Spec.Backprop

/-! Vocabulary for statements about training with small learning rates. -/

namespace Verif.Spec

open Verif.Net Finset

noncomputable section

/-- Every layer has the property `S` together with the input that reaches it when the first one gets
`x`. -/
inductive Along (S : List ℝ → AnyLayer → Prop) : List AnyLayer → List ℝ → Prop
  | nil (x : List ℝ) : Along S [] x
  | cons {l l' : AnyLayer} {ls : List AnyLayer} {x z : List ℝ} :
      S x l → l.forward x = .ok (l', none) → l'.lastOutput = .ok z → Along S ls z →
      Along S (l :: ls) x

/-- The function that the layer computes is smooth around the input `x`: rectifiers and exponential
units are where no input is 0, max pooling is where every window has one maximum. -/
def SmoothTwiceAt (x : List ℝ) : AnyLayer → Prop
  | .act .relu _ => ∀ v ∈ x, v ≠ 0
  | .act (.elu a) _ => 0 ≤ a ∧ ∀ v ∈ x, v ≠ 0
  | .dense _ => True
  | .conv _ => True
  | .maxPool l => ClearMaxima (poolGeom l) x
  | .act _ _ => True
  | _ => False

/-- Some partial derivative of `c` with respect to the parameters of `ls` is not zero at `θ`. -/
def HasSlope (ls : List AnyLayer) (c : Theta → ℝ) (θ : Theta) : Prop :=
  ∃ (j : Nat) (l : AnyLayer) (b k : Nat) (d : ℝ), ls[j]? = some l ∧ b < l.params.length ∧
    k < (l.params.getD b []).length ∧
    HasDerivAt (fun v => c (setTheta θ j b k v)) d (entry (θ.getD j []) b k) ∧ d ≠ 0

/-- The squared errors of the predictions of the layers `L`, summed over samples and `m` outputs. -/
def squaredErrors (m : Nat) (samples : List (List ℝ × List ℝ)) (L : List AnyLayer) : ℝ :=
  (samples.map fun s => ∑ k ∈ range m, (vec s.2 k - vec (prediction L s.1) k) ^ 2).sum

end

end Verif.Spec
