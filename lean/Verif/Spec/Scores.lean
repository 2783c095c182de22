import Verif.Spec.Nn
import Verif.Spec.Backprop
import Verif.Spec.Shape

/-
Specification of the scores of a model that is used, trained and reset in any order.
-/

namespace Verif.Spec

open Verif.Net

noncomputable section

/-- What the loss layer of a model scores by: squared errors, correct up to the tolerance `tol`; or cross
entropy, correct if the largest prediction is the class of the target. -/
def scoringOf (f : LossFn) (m : Nat) (tol : ℝ) : Scoring :=
  match f with
  | .mse => mseScoring m tol
  | .cce => cceScoring m

/-- The model `n` is reached from `n0` by calls of `step` with `nin` inputs and targets for `m` outputs, of
`train` with any optimizers, of `predict` with any vectors (also if it throws) and of `reset_score`, the first
of which is `reset_score`.  The list contains the steps since the last `reset_score`, in order: the target, and
what the layers at the positions `p` predicted for the input when the step was called. -/
inductive Scored (n0 : Net) (p : List Nat) (f : LossFn) (nin m : Nat) : Net → List (List ℝ × List ℝ) → Prop
  | new : Scored n0 p f nin m n0.resetScore []
  | step {n n' : Net} {log : List (List ℝ × List ℝ)} {e : Option String} (x t : List ℝ) (ks : List AnyLayer) :
      Scored n0 p f nin m n log → x.length = nin → CanScore f m t →
      p.map (fun i => n.layers[i]?) = ks.map some → n.step x t = .ok (n', e) →
      Scored n0 p f nin m n' (log ++ [(t, prediction ks x)])
  | train {n : Net} {log : List (List ℝ × List ℝ)} {σ : Type} (opt : σ → ℝ → ℝ → σ × ℝ) (s : σ) :
      Scored n0 p f nin m n log → Scored n0 p f nin m (n.train opt s).1.2 log
  | predict {n n' : Net} {log : List (List ℝ × List ℝ)} {r : Except String (List ℝ)} (x : List ℝ) :
      Scored n0 p f nin m n log → n.predict x = .ok (n', r) → Scored n0 p f nin m n' log
  | reset {n : Net} {log : List (List ℝ × List ℝ)} :
      Scored n0 p f nin m n log → Scored n0 p f nin m n.resetScore []

/-- The layers of a model at the positions `w`. -/
def layersAt (m : Net) (w : List Nat) : List AnyLayer := w.filterMap fun i => m.layers[i]?

/-- The model `m` is reached from `net` by calls of `step` with samples that suit it, of `train` with any
optimizers, of `predict` with `n` values and of `reset_score`, the first of which is `reset_score`.  For the loss
layer at `q` the list `L q` contains the steps since the last `reset_score`, in order: the target, and what the
layers at the positions `W q` computed from the input when the step was called. -/
inductive Tallied (net : Net) (n : Nat) (W : Nat → List Nat) : Net → (Nat → List (List ℝ × List ℝ)) → Prop
  | new : Tallied net n W net.resetScore fun _ => []
  | step {m m' : Net} {L : Nat → List (List ℝ × List ℝ)} {e : Option String} (x t : List ℝ) :
      Tallied net n W m L → Suitable net n (.step x t) → m.step x t = .ok (m', e) →
      Tallied net n W m' fun q => L q ++ [(t, prediction (layersAt m (W q)) x)]
  | train {m : Net} {L : Nat → List (List ℝ × List ℝ)} {σ : Type} (opt : σ → ℝ → ℝ → σ × ℝ) (s : σ) :
      Tallied net n W m L → Tallied net n W (m.train opt s).1.2 L
  | predict {m m' : Net} {L : Nat → List (List ℝ × List ℝ)} {r : Except String (List ℝ)} (x : List ℝ) :
      Tallied net n W m L → x.length = n → m.predict x = .ok (m', r) → Tallied net n W m' L
  | reset {m : Net} {L : Nat → List (List ℝ × List ℝ)} :
      Tallied net n W m L → Tallied net n W m.resetScore fun _ => []

/-- What `last_output()` of the layer at `i` returns. -/
def lastShown (ls : List AnyLayer) (i : Nat) : List ℝ :=
  match ls[i]? with
  | some a => match a.lastOutput with
    | .ok y => y
    | _ => []
  | none => []

/-- The model `m` is reached from `net` by calls of `step` with samples that suit it, of `train` with any
optimizers, of `predict` with `n` values and of `reset_score`, the first of which is `reset_score`.  For the loss
layer at `q` the list `L q` contains the steps since the last `reset_score`, in order: for each of the layers `P q`
the target, and what `last_output()` of the layer returned after the step. -/
inductive Observed (net : Net) (n : Nat) (P : Nat → List Nat) : Net → (Nat → List (List ℝ × List ℝ)) → Prop
  | new : Observed net n P net.resetScore fun _ => []
  | step {m m' : Net} {L : Nat → List (List ℝ × List ℝ)} {e : Option String} (x t : List ℝ) :
      Observed net n P m L → Suitable net n (.step x t) → m.step x t = .ok (m', e) →
      Observed net n P m' fun q => L q ++ (P q).map fun p => (t, lastShown m'.layers p)
  | train {m : Net} {L : Nat → List (List ℝ × List ℝ)} {σ : Type} (opt : σ → ℝ → ℝ → σ × ℝ) (s : σ) :
      Observed net n P m L → Observed net n P (m.train opt s).1.2 L
  | predict {m m' : Net} {L : Nat → List (List ℝ × List ℝ)} {r : Except String (List ℝ)} (x : List ℝ) :
      Observed net n P m L → x.length = n → m.predict x = .ok (m', r) → Observed net n P m' L
  | reset {m : Net} {L : Nat → List (List ℝ × List ℝ)} :
      Observed net n P m L → Observed net n P m.resetScore fun _ => []

/-- What the loss layer at `q` scores by. -/
def scoringAt (net : Net) (q : Nat) : Scoring :=
  match net.layers[q]? with
  | some (.loss f l) => scoringOf f l.inputSize l.tolerance
  | _ => mseScoring 0 0

/-- Mean loss of the (target, prediction) pairs. -/
def meanLoss (S : Scoring) (log : List (List ℝ × List ℝ)) : ℝ :=
  (log.map fun e => S.value e.1 e.2).sum / log.length

/-- Fraction of the (target, prediction) pairs that count as correct. -/
def fractionGood (S : Scoring) (log : List (List ℝ × List ℝ)) : ℝ := (goodCount S log : ℝ) / log.length

end

end Verif.Spec
