import Verif.Spec.Activation
import Verif.Model.Loss
import Mathlib.Analysis.SpecialFunctions.Log.Basic

/-
Specification of the losses and of the statistics a loss layer keeps.  From the model this file
uses only the type `Loss.Op` of calls and the constant `Loss.epsilon`.
-/

namespace Verif.Spec
open Finset

noncomputable section

/-- Mean of the squared differences of `n` components. -/
def meanSq (n : Nat) (y yh : Nat → ℝ) : ℝ := (∑ i ∈ range n, (y i - yh i) ^ 2) / n

/-- Cross entropy `- ∑ y_i log ŷ_i`, with predictions below `Loss.epsilon` raised to it. -/
def crossEnt (n : Nat) (y yh : Nat → ℝ) : ℝ :=
  - ∑ i ∈ range n, y i * Real.log (max (yh i) Loss.epsilon)

/-- Cross entropy without clamping. -/
def crossEntPure (n : Nat) (y yh : Nat → ℝ) : ℝ := - ∑ i ∈ range n, y i * Real.log (yh i)

/-- `k` is the least index below `n` with a non-zero entry. -/
def IsFirstNonzero (n : Nat) (t : Nat → ℝ) (k : Nat) : Prop :=
  k < n ∧ t k ≠ 0 ∧ ∀ i, i < k → t i = 0

/-- What the statistics of a loss layer are about: which targets can be scored, the loss of a
(target, prediction) pair and whether the prediction counts as correct. -/
structure Scoring where
  usable : List ℝ → Prop
  value : List ℝ → List ℝ → ℝ
  good : List ℝ → List ℝ → Prop

open Classical in
/-- The evaluations since the last reset: the current target, and the (target, prediction) pairs
evaluated, in order.  A call `forward(x)` counts iff the current target is usable. -/
def logStep (S : Scoring) (s : List ℝ × List (List ℝ × List ℝ)) :
    Loss.Op → List ℝ × List (List ℝ × List ℝ)
  | .setTarget t => (t, s.2)
  | .forward x => if S.usable s.1 then (s.1, s.2 ++ [(s.1, x)]) else s
  | .trainingForward x => if S.usable s.1 then (s.1, s.2 ++ [(s.1, x)]) else s
  | .resetScore => (s.1, [])

/-- The evaluation log of a whole history that starts with no target. -/
def evalLog (S : Scoring) (ops : List Loss.Op) : List (List ℝ × List ℝ) :=
  (ops.foldl (logStep S) ([], [])).2

open Classical in
/-- Which calls of a history have to throw, when it starts with target `t`: exactly the
evaluations while the current target is not usable. -/
def throwing (S : Scoring) : List ℝ → List Loss.Op → List Bool
  | _, [] => []
  | _, .setTarget t' :: ops => false :: throwing S t' ops
  | t, .forward _ :: ops => decide (¬ S.usable t) :: throwing S t ops
  | t, .trainingForward _ :: ops => decide (¬ S.usable t) :: throwing S t ops
  | t, .resetScore :: ops => false :: throwing S t ops

open Classical in
/-- Number of evaluations that count as correct. -/
def goodCount (S : Scoring) (log : List (List ℝ × List ℝ)) : Nat :=
  log.countP (fun p => decide (S.good p.1 p.2))

/-- Mean squared error with tolerance `tol`. -/
def mseScoring (n : Nat) (tol : ℝ) : Scoring where
  usable t := t ≠ []
  value t x := meanSq n (vec t) (vec x)
  good t x := meanSq n (vec t) (vec x) ≤ tol

/-- Categorical cross entropy. -/
def cceScoring (n : Nat) : Scoring where
  usable t := ∃ k, IsFirstNonzero n (vec t) k
  value t x := crossEnt n (vec t) (vec x)
  good t x := ∃ k, IsFirstMax n (vec x) k ∧ IsFirstNonzero n (vec t) k

/-- All vectors in a history have length `n` (a target may also be set to the empty vector). -/
def Sized (n : Nat) (ops : List Loss.Op) : Prop :=
  ∀ op ∈ ops, match op with
    | .setTarget t => t.length = n ∨ t = []
    | .forward x => x.length = n
    | .trainingForward x => x.length = n
    | .resetScore => True

end

end Verif.Spec
