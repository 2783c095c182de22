import Verif.Model.Net
import Verif.Model.Data

/-
Model of the training loops, /repo/source/middleware/fnn.hpp:54-157, and of copies of a `Model`
(/repo/source/dnn/model.cpp:47-52) that share their learnable parameters
(`SharedParams`, /repo/source/type.hpp:59-98).

Sizes are natural numbers, except for `i += batch_size` in the third training mode, which wraps at
2^64.  What the loops print is not modelled.
-/

namespace Verif.Training

open Verif.Net

/-! ### The sequential loop -/

/-- What a training loop does with the model: `reset_score`, `step` on the sample `i`, `train`. -/
structure Ops (σ : Type) where
  reset : σ → Exec σ
  step : Nat → σ → Exec σ
  train : σ → Exec σ

/-- The loop `for (b = 0; b < batch_size && i < data.size(); ++b, ++i)`,
/repo/source/middleware/fnn.hpp:66-70, with `left = batch_size - b` iterations left: `i` and the
state afterwards. -/
def batchLoop {σ : Type} (o : Ops σ) (n : Nat) : Nat → Nat → σ → Exec (Nat × σ)
  | 0, i, s => .ok (i, s)
  | left + 1, i, s =>
    if i < n then do
      let s ← o.step i s
      batchLoop o n left (i + 1) s
    else .ok (i, s)

/-- The body of the loop over `i`, /repo/source/middleware/fnn.hpp:65-71. -/
def batch {σ : Type} (o : Ops σ) (n batchSize i : Nat) (s : σ) : Exec (Nat × σ) := do
  let s ← o.reset s
  let r ← batchLoop o n batchSize i s
  let s ← o.train r.2
  .ok (r.1, s)

/-- The loop over `i`, /repo/source/middleware/fnn.hpp:63-73; `none`: not finished after `fuel`
iterations. -/
def epoch {σ : Type} (o : Ops σ) (n batchSize : Nat) : Nat → Nat → σ → Option (Exec σ)
  | fuel, i, s =>
    if i < n then
      match fuel with
      | 0 => none
      | fuel + 1 =>
        match batch o n batchSize i s with
        | .ok (i, s) => epoch o n batchSize fuel i s
        | .throw m => some (.throw m)
        | .ub => some .ub
    else some (.ok s)

/-- `Training<SEQUENTIAL>::run`, /repo/source/middleware/fnn.hpp:58-75; `none`: an epoch has not
finished after `fuel` iterations. -/
def run {σ : Type} (o : Ops σ) (n batchSize fuel : Nat) : Nat → σ → Option (Exec σ)
  | 0, s => some (.ok s)
  | epochs + 1, s =>
    match epoch o n batchSize fuel 0 s with
    | none => none
    | some (.ok s) => run o n batchSize fuel epochs s
    | some (.throw m) => some (.throw m)
    | some .ub => some .ub

/-- An exception reported by a call on a model leaves the loop. -/
def raise {β : Type} (r : Exec (β × Option String)) : Exec β := do
  let p ← r
  match p.2 with
  | none => .ok p.1
  | some m => .throw m

/-- The calls of the loop, /repo/source/middleware/fnn.hpp:65, 69, 71, on a model, a data set and an
optimizer with update rule `opt` and state of type `τ`. -/
noncomputable def modelOps {τ : Type} (opt : τ → ℝ → ℝ → τ × ℝ) (d : Data.Dataset ℝ) : Ops (τ × Net) where
  reset s := .ok (s.1, s.2.resetScore)
  step i s := do
    let x ← d.input i
    let t ← d.label i
    let n ← raise (s.2.step x t)
    .ok (s.1, n)
  train s := do
    let r := s.2.train opt s.1
    r.2
    .ok r.1

/-- `fit` in the sequential mode, after the initialization: /repo/source/middleware/fnn.hpp:248-271. -/
noncomputable def fit {τ : Type} (opt : τ → ℝ → ℝ → τ × ℝ) (d : Data.Dataset ℝ)
    (fuel epochs batchSize : Nat) (s : τ × Net) : Option (Exec (τ × Net)) :=
  run (modelOps opt d) d.size batchSize fuel epochs s

/-! ### The tasks of the thread-parallel modes -/

/-- The samples that a task steps through: the loop
`for (b = 0; b < batch_size && idx < data.size(); ++b, ++idx)`,
/repo/source/middleware/fnn.hpp:137-143. -/
def taskSamples (n : Nat) : Nat → Nat → List Nat
  | 0, _ => []
  | left + 1, idx => if idx < n then idx :: taskSamples n left (idx + 1) else []

/-- The loop that enqueues the tasks of a batch in the mode `THREAD_PARALLELISM_ON_DATA_ENTRY`,
/repo/source/middleware/fnn.hpp:94-104: `i` afterwards and, for each task, its samples. -/
def entryTasks (n : Nat) : Nat → Nat → Nat × List (List Nat)
  | 0, i => (i, [])
  | left + 1, i =>
    if i < n then
      let r := entryTasks n left (i + 1)
      (r.1, [i] :: r.2)
    else (i, [])

/-- The loop that enqueues the tasks of a round in the mode `THREAD_PARALLELISM_ON_DATA_BATCH`,
/repo/source/middleware/fnn.hpp:131-148.  `i += batch_size` is an addition of `SizeType`. -/
def batchTasks (n batchSize : Nat) : Nat → Nat → Nat × List (List Nat)
  | 0, i => (i, [])
  | threads + 1, i =>
    let r := batchTasks n batchSize threads ((i + batchSize) % 2 ^ 64)
    (r.1, taskSamples n batchSize i :: r.2)

/-- The loop over `i` of both modes, /repo/source/middleware/fnn.hpp:89-110 and 126-154: the rounds of
tasks of an epoch; `none`: not finished after `fuel` rounds. -/
def rounds (tasks : Nat → Nat × List (List Nat)) (n : Nat) : Nat → Nat → Option (List (List (List Nat)))
  | fuel, i =>
    if i < n then
      match fuel with
      | 0 => none
      | fuel + 1 =>
        let r := tasks i
        (rounds tasks n fuel r.1).map (r.2 :: ·)
    else some []

/-- Rounds of an epoch in the mode `THREAD_PARALLELISM_ON_DATA_ENTRY`. -/
def entryRounds (n batchSize fuel : Nat) : Option (List (List (List Nat))) :=
  rounds (fun i => entryTasks n batchSize i) n fuel 0

/-- Rounds of an epoch in the mode `THREAD_PARALLELISM_ON_DATA_BATCH` when `tm.concurrency()` is
`threads`. -/
def batchRounds (n batchSize threads fuel : Nat) : Option (List (List (List Nat))) :=
  rounds (fun i => batchTasks n batchSize threads i) n fuel 0

/-! ### Executions of a round -/

/-- What happens during a round of `k` tasks: a worker executes task `t`, or the main thread takes
the result of task `t` and trains with it. -/
inductive Event where
  | task (t : Nat)
  | train (t : Nat)
  deriving DecidableEq, Repr

/-- Progress of a round: the tasks that have finished, and the number of futures that the main thread
has treated. -/
structure Progress where
  finished : List Nat
  trained : Nat

/-- Executions of a round of `k` tasks from a given point to its end, as sequences of events.  Workers
take the tasks in any order; the loop `for (auto& f: futures) { Model m = f.get(); model.train(o, m); }`
(/repo/source/middleware/fnn.hpp:106-109, 150-153) treats them in the order in which they were
enqueued and waits for each of them.  Simplification: a task and a call of `train` are atomic. -/
inductive Execution (k : Nat) : Progress → List Event → Prop where
  | done (f : List Nat) : Execution k ⟨f, k⟩ []
  | task {p : Progress} {t : Nat} {es : List Event} (ht : t < k) (hn : t ∉ p.finished) :
      Execution k ⟨t :: p.finished, p.trained⟩ es → Execution k p (.task t :: es)
  | train {p : Progress} {es : List Event} (hk : p.trained < k) (hf : p.trained ∈ p.finished) :
      Execution k ⟨p.finished, p.trained + 1⟩ es → Execution k p (.train p.trained :: es)

/-! ### Models that share their parameters -/

/-- A layer object: its own members and the addresses of its `SharedParams` blocks.  The parameter
blocks inside `own` are not used. -/
structure Obj where
  own : AnyLayer
  addr : List Nat

/-- A `Model` object. -/
structure Mod where
  graph : Graph.DLGraph
  objs : List Obj

/-- Memory: the vectors that `SharedParams` objects point to. -/
abbrev Heap := List (List ℝ)

/-- The vector at an address. -/
def Heap.block (h : Heap) (a : Nat) : List ℝ := h.getD a []

/-- The layer as its member functions see it. -/
def Obj.view (h : Heap) (o : Obj) : AnyLayer := o.own.setParams (o.addr.map h.block)

/-- The model as its member functions see it. -/
def Mod.view (h : Heap) (m : Mod) : Net := ⟨m.graph, m.objs.map (Obj.view h)⟩

/-- Write blocks through a `SharedParams` pointer. -/
def Heap.put : Heap → List Nat → List (List ℝ) → Heap
  | h, a :: as, b :: bs => Heap.put (h.set a b) as bs
  | h, _, _ => h

/-- The memory after a member function has turned the layers into `ls`. -/
def Heap.store : Heap → List Obj → List AnyLayer → Heap
  | h, o :: os, l :: ls => Heap.store (h.put o.addr l.params) os ls
  | h, _, _ => h

/-- The objects after a member function has turned the layers into `ls`. -/
def Mod.update (m : Mod) (n : Net) : Mod :=
  ⟨n.graph, List.zipWith (fun o l => ⟨l, o.addr⟩) m.objs n.layers⟩

/-- Blocks of a new layer, at new addresses: every `SharedParams` object that is not a copy allocates
its own vector, /repo/source/type.hpp:82-84. -/
def alloc : Heap → List AnyLayer → Heap × List Obj
  | h, [] => (h, [])
  | h, l :: ls =>
    let r := alloc (h ++ l.params) ls
    (r.1, ⟨l, (List.range l.params.length).map (h.length + ·)⟩ :: r.2)

/-- `Layer::clone`, for example /repo/source/dnn/dense.hpp:109-112: the implicit copy constructor
copies the `Params` members and the pointers of the `SharedParams` members. -/
def Obj.clone (o : Obj) : Obj := ⟨o.own, o.addr⟩

/-- `Model(const Model&)`, /repo/source/dnn/model.cpp:47-52 and dlgraph.cpp:40-58. -/
def Mod.copy (m : Mod) : Mod := ⟨m.graph, m.objs.map Obj.clone⟩

/-- Models in a common memory. -/
structure World where
  heap : Heap
  models : List Mod

/-- A single model. -/
def World.of (n : Net) : World :=
  let r := alloc [] n.layers
  ⟨r.1, [⟨n.graph, r.2⟩]⟩

/-- Calls on the `k`-th model. -/
inductive Action (τ : Type) where
  | copy (k : Nat)
  | call (k : Nat) (c : Call)
  | train (k : Nat) (opt : τ → ℝ → ℝ → τ × ℝ) (s : τ)

/-- The memory and the models after the `k`-th model, seen before as `net`, has become `net'`. -/
def World.put (w : World) (k : Nat) (m : Mod) (net' : Net) : World :=
  ⟨w.heap.store m.objs net'.layers, w.models.set k (m.update net')⟩

/-- The world after a call; exceptions are caught by the caller.  Undefined behaviour: a model that
does not exist. -/
noncomputable def World.act {τ : Type} (w : World) : Action τ → Exec World
  | .copy k => do
    let m ← rd w.models k
    .ok { w with models := w.models ++ [m.copy] }
  | .call k c => do
    let m ← rd w.models k
    let n ← (m.view w.heap).call c
    .ok (w.put k m n)
  | .train k opt s => do
    let m ← rd w.models k
    .ok (w.put k m ((m.view w.heap).train opt s).1.2)

/-- The world after a history of calls. -/
noncomputable def World.run {τ : Type} : World → List (Action τ) → Exec World
  | w, [] => .ok w
  | w, a :: as => do
    let w ← w.act a
    w.run as

/-! ### A round of the thread-parallel modes -/

/-- State of a round: the optimizer, the memory, and what the tasks have returned. -/
structure Round (τ : Type) where
  opt : τ
  heap : Heap
  results : Nat → Option (Mod × Option String)

/-- The steps of a task, /repo/source/middleware/fnn.hpp:137-143 (and 100): stops at an exception. -/
noncomputable def steps (d : Data.Dataset ℝ) : List Nat → Net → Exec (Net × Option String)
  | [], n => .ok (n, none)
  | i :: is, n => do
    let x ← d.input i
    let t ← d.label i
    let r ← n.step x t
    match r.2 with
    | none => steps d is r.1
    | some m => .ok (r.1, some m)

/-- An exception inside a task is kept in its future (simplification: the model that the task was
working on is then dropped, so its state does not matter). -/
def caught (n : Net) : Exec (Net × Option String) → Exec (Net × Option String)
  | .throw m => .ok (n, some m)
  | e => e

/-- An event of a round of `tasks` for the model `m`.  A task copies the model, makes its steps and
returns the copy (/repo/source/middleware/fnn.hpp:98-102, 134-145); an exception is kept in the
future.  The main thread trains the layers of the copy (/repo/source/dnn/model.cpp:166-185). -/
noncomputable def Round.event {τ : Type} (opt : τ → ℝ → ℝ → τ × ℝ) (d : Data.Dataset ℝ) (m : Mod)
    (tasks : List (List Nat)) (r : Round τ) : Event → Exec (Round τ)
  | .task t => do
    let samples ← rd tasks t
    let c := m.copy
    let n ← caught (c.view r.heap) (steps d samples (c.view r.heap))
    .ok ⟨r.opt, r.heap.store c.objs n.1.layers,
      fun u => if u = t then some (c.update n.1, n.2) else r.results u⟩
  | .train t =>
    match r.results t with
    | none => .ub
    | some (_, some msg) => .throw msg
    | some (c, none) => do
      let q := (c.view r.heap).train opt r.opt
      q.2
      .ok ⟨q.1.1, r.heap.store c.objs q.1.2.layers, r.results⟩

/-- A sequence of events. -/
noncomputable def Round.events {τ : Type} (opt : τ → ℝ → ℝ → τ × ℝ) (d : Data.Dataset ℝ) (m : Mod)
    (tasks : List (List Nat)) : Round τ → List Event → Exec (Round τ)
  | r, [] => .ok r
  | r, e :: es => do
    let r ← r.event opt d m tasks e
    r.events opt d m tasks es

/-- What the thread-parallel modes work on between rounds: the optimizer, the memory and the model. -/
structure Trainer (τ : Type) where
  opt : τ
  heap : Heap
  model : Mod

/-- The body of the loop over `i` in the thread-parallel modes, /repo/source/middleware/fnn.hpp:91-109
and 128-153: `reset_score`, then the tasks and the calls of `train` in the order `es`. -/
noncomputable def Trainer.round {τ : Type} (opt : τ → ℝ → ℝ → τ × ℝ) (d : Data.Dataset ℝ) (s : Trainer τ)
    (tasks : List (List Nat)) (es : List Event) : Exec (Trainer τ) := do
  let n := (s.model.view s.heap).resetScore
  let h := s.heap.store s.model.objs n.layers
  let m := s.model.update n
  let r ← Round.events opt d m tasks ⟨s.opt, h, fun _ => none⟩ es
  .ok ⟨r.opt, r.heap, m⟩

/-- Rounds one after the other, each with the order in which its events happen: the loops over `e` and
`i`, /repo/source/middleware/fnn.hpp:87-111 and 124-155. -/
noncomputable def Trainer.rounds {τ : Type} (opt : τ → ℝ → ℝ → τ × ℝ) (d : Data.Dataset ℝ) :
    Trainer τ → List (List (List Nat) × List Event) → Exec (Trainer τ)
  | s, [] => .ok s
  | s, r :: rs => do
    let s ← s.round opt d r.1 r.2
    s.rounds opt d rs

end Verif.Training
