import Verif.Model.FloatTrain
import Verif.Spec.Rounding
import Verif.Spec.Backprop

/-! Vocabulary for statements about training in floating point. -/

namespace Verif.Float
open Spec Verif.Net

/-- Dense layers and activation layers. -/
def Plain : AnyLayer → Prop
  | .dense _ => True
  | .act _ _ => True
  | _ => False

/-- Parameters of floating-point layers that are finite, of the shape of `θ` and within `ε` of `θ`. -/
def CloseTo {A : Arith} (ε : ℝ) (ks : List (FLayer A)) (θ : Theta) : Prop :=
  List.Forall₂ (fun k P => List.Forall₂ (fun q p => ∃ z : List ℝ, q = fins A z ∧ z.length = p.length ∧
    ∀ j, j < p.length → |vec z j - vec p j| < ε) k.params P) ks θ

end Verif.Float
