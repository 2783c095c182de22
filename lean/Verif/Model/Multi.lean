import Verif.Exec

/-
Model of `DynamicFeedforwardNeuralNetwork`, /repo/source/middleware/fnn.hpp:457-565: one network for each framework,
kept in a `std::map`.

The networks themselves (`DynamicNeuralNetwork` of the framework) are arbitrary: a state and, for each framework, what
a call does to it.  A call can return a value or throw, and leaves the network in some state either way.
-/

namespace Verif.Multi

/-- `Framework`, /repo/source/middleware/definitions.hpp:46-52, with `ENABLE_MLPACK`; in the order of the values. -/
inductive Framework where
  | edgeLearning
  | mlpack
  deriving DecidableEq, Repr

/-- What a call of `predict`, `fit`, `compile` or `evaluate` with the arguments `ι` does to the network of a framework:
the state afterwards, and the result or the exception. -/
abbrev Serve (σ ι ρ : Type) := Framework → ι → σ → Exec (σ × Except String ρ)

/-- `_fnn_models`, /repo/source/middleware/fnn.hpp:564: the entries of the map, in the order of the keys. -/
abbrev Nets (σ : Type) := List (Framework × σ)

/-- The constructor, /repo/source/middleware/fnn.hpp:478-490; `enabled`: `ENABLE_MLPACK`. -/
def new {σ : Type} (enabled : Bool) (made : Framework → σ) : Nets σ :=
  (.edgeLearning, made .edgeLearning) :: if enabled then [(.mlpack, made .mlpack)] else []

/-- `_fnn_models[framework]`, read. Undefined behaviour: the null pointer of a new entry. -/
def get {σ : Type} (m : Nets σ) (f : Framework) : Exec σ :=
  match m.find? (·.1 = f) with
  | some e => .ok e.2
  | none => .ub

/-- The map after the network of a framework has changed. -/
def put {σ : Type} (m : Nets σ) (f : Framework) (s : σ) : Nets σ :=
  m.map fun e => if e.1 = f then (f, s) else e

/-- `predict(framework, …)` 492-495, `fit(framework, …)` 507-515, `compile(framework, …)` 529-534,
`evaluate(framework, …)` 546-550 of /repo/source/middleware/fnn.hpp. -/
def callOne {σ ι ρ : Type} (serve : Serve σ ι ρ) (f : Framework) (i : ι) (m : Nets σ) :
    Exec (Nets σ × Except String ρ) := do
  let s ← get m f
  let r ← serve f i s
  .ok (put m f r.1, r.2)

/-- The loops over the entries, which stop at an exception. -/
def callLoop {σ ι ρ : Type} (serve : Serve σ ι ρ) (i : ι) :
    List Framework → Nets σ → Exec (Nets σ × Except String (List (Framework × ρ)))
  | [], m => .ok (m, .ok [])
  | f :: fs, m => do
    let r ← callOne serve f i m
    match r.2 with
    | .error e => .ok (r.1, .error e)
    | .ok y => do
      let q ← callLoop serve i fs r.1
      .ok (q.1, q.2.map ((f, y) :: ·))

/-- `predict(data)` 497-505, `fit(data, …)` 517-527, `compile(…)` 536-544, `evaluate(data)` 552-561 of
/repo/source/middleware/fnn.hpp; the results of `predict` and `evaluate` are a map from frameworks. -/
def callAll {σ ι ρ : Type} (serve : Serve σ ι ρ) (i : ι) (m : Nets σ) :
    Exec (Nets σ × Except String (List (Framework × ρ))) :=
  callLoop serve i (m.map Prod.fst) m

/-- A call on the object: for one framework, or for all of them. -/
inductive Call (ι : Type) where
  | one (f : Framework) (i : ι)
  | all (i : ι)

/-- What a call returns or throws. -/
def call {σ ι ρ : Type} (serve : Serve σ ι ρ) (m : Nets σ) : Call ι → Exec (Nets σ × Except String (List (Framework × ρ)))
  | .one f i => do
    let r ← callOne serve f i m
    .ok (r.1, r.2.map fun y => [(f, y)])
  | .all i => callAll serve i m

/-- A history of calls; the caller catches the exceptions. -/
def calls {σ ι ρ : Type} (serve : Serve σ ι ρ) :
    List (Call ι) → Nets σ → Exec (Nets σ × List (Except String (List (Framework × ρ))))
  | [], m => .ok (m, [])
  | c :: cs, m => do
    let r ← call serve m c
    let q ← calls serve cs r.1
    .ok (q.1, r.2 :: q.2)

/-- The calls of `compile()` and of `fit(data)`. -/
inductive Request where
  | compile
  | fit

/-- `compile`, /repo/source/middleware/nn.hpp:239-290, and `fit`, /repo/source/middleware/nn.hpp:301-314, of
`DynamicNeuralNetwork` for either framework.  Simplification: of the network only whether there is a model, and how
often it has been trained, are kept; the layers are taken to be valid and the training to return. -/
def train : Serve (Option Nat) Request Unit
  | _, .compile, _ => .ok (some 0, .ok ())
  | _, .fit, none => .ok (none, .error "Training error: you need to call the compile method before fit")
  | _, .fit, some n => .ok (some (n + 1), .ok ())

end Verif.Multi
