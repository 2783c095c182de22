import Verif.Model.Training

/-
Specification of training: the sequence of calls on the model that a training run stands for.
-/

namespace Verif.Spec

open Verif.Training

/-- A call on the model during training. -/
inductive TrainCall where
  | reset
  | step (sample : Nat)
  | train
  deriving DecidableEq, Repr

/-- `⌈n / b⌉` -/
def batchCount (n b : Nat) : Nat := (n + b - 1) / b

/-- The samples of batch `k`: from number `k * b` on, at most `b`. -/
def batchSamples (n b k : Nat) : List Nat := ((List.range n).drop (k * b)).take b

/-- The calls of an epoch. -/
def epochCalls (n b : Nat) : List TrainCall :=
  (List.range (batchCount n b)).flatMap fun k =>
    .reset :: ((batchSamples n b k).map .step ++ [.train])

/-- The calls of a training run. -/
def trainCalls (n b epochs : Nat) : List TrainCall := (List.replicate epochs (epochCalls n b)).flatten

/-- The sample that a call steps on. -/
def TrainCall.sample : TrainCall → Option Nat
  | .step i => some i
  | _ => none

/-- Make one call. -/
def perform {σ : Type} (o : Ops σ) : TrainCall → σ → Exec σ
  | .reset => o.reset
  | .step i => o.step i
  | .train => o.train

/-- Make calls, one after the other, until one of them throws. -/
def performAll {σ : Type} (o : Ops σ) : List TrainCall → σ → Exec σ
  | [], s => .ok s
  | c :: cs, s => do
    let s ← perform o c s
    performAll o cs s

/-- The samples that an execution of a round has stepped on, in the order of the execution. -/
def stepped (tasks : List (List Nat)) (es : List Event) : List Nat :=
  es.flatMap fun
    | .task t => tasks.getD t []
    | .train _ => []

/-- The tasks whose results the optimizer has been applied to, in the order of the execution. -/
def applied (es : List Event) : List Nat :=
  es.filterMap fun
    | .task _ => none
    | .train t => some t

/-- An execution of a round in which all tasks finish before the first result is applied. -/
def Barrier (es : List Event) : Prop := ∃ ts us : List Nat, es = ts.map .task ++ us.map .train

end Verif.Spec
