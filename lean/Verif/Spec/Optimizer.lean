import Mathlib.Analysis.SpecialFunctions.Sqrt
import Mathlib.Algebra.BigOperators.Group.List.Basic

/-
Specification of the optimizers, for one parameter at a time.
-/

namespace Verif.Spec

/-- The documented Adam algorithm (/repo/source/dnn/adam_optimizer.hpp, class comment) for one
parameter: moments of the gradients in `gs` (most recent last). -/
noncomputable def adamM (b1 : ℝ) : List ℝ → ℝ
  | gs => gs.foldl (fun m g => b1 * m + (1 - b1) * g) 0

/-- See `adamM`. -/
noncomputable def adamV (b2 : ℝ) : List ℝ → ℝ
  | gs => gs.foldl (fun v g => b2 * v + (1 - b2) * g ^ 2) 0

/-- Amount subtracted from the parameter when its gradients so far are `gs`; the step number is
their count. -/
noncomputable def adamDelta (eta b1 b2 eps : ℝ) (gs : List ℝ) : ℝ :=
  eta * ((adamM b1 gs / (1 - b1 ^ gs.length)) /
    (Real.sqrt (adamV b2 gs / (1 - b2 ^ gs.length)) + eps))

end Verif.Spec
