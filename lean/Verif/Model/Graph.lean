import Verif.Exec

/-
Model of /repo/source/dnn/dlgraph.{hpp,cpp} and of the graph operations of
/repo/source/dnn/model.{hpp,cpp}.

A `std::shared_ptr<Layer>` is an identity together with the fact whether the object is a `LossLayer`.
A call that throws may have written before; operations therefore return the state they leave together
with how they ended.
-/

namespace Verif.Graph

/-- A pointer to a layer object. -/
structure Ptr where
  id : Nat
  loss : Bool
  deriving DecidableEq, Repr

/-- `std::map<std::size_t, std::set<std::size_t>>`: keys and elements in increasing order. -/
abbrev Edges := List (Nat × List Nat)

/-- `std::set::insert`. -/
def insertSet (t : Nat) : List Nat → List Nat
  | [] => [t]
  | x :: xs => if t = x then x :: xs else if t < x then t :: x :: xs else x :: insertSet t xs

/-- `_edges[f].insert(t)`. -/
def insertEdge (f t : Nat) : Edges → Edges
  | [] => [(f, [t])]
  | (k, s) :: rest =>
    if f = k then (k, insertSet t s) :: rest
    else if f < k then (f, [t]) :: (k, s) :: rest
    else (k, s) :: insertEdge f t rest

/-- `Graph::successors`, /repo/source/dnn/dlgraph.hpp:84-87. -/
def successors (e : Edges) (idx : Nat) : List Nat :=
  match e.find? (fun p => p.1 == idx) with
  | some p => p.2
  | none => []

/-- `Graph::has_successors`, /repo/source/dnn/dlgraph.hpp:79-82. -/
def hasSuccessors (e : Edges) (idx : Nat) : Bool :=
  match e.find? (fun p => p.1 == idx) with
  | some p => !p.2.isEmpty
  | none => false

/-- `Graph::has_predecessors`, /repo/source/dnn/dlgraph.hpp:89-100. -/
def hasPredecessors (e : Edges) (idx : Nat) : Bool := e.any fun p => p.2.contains idx

/-- `Graph::predecessors`, /repo/source/dnn/dlgraph.hpp:102-116. -/
def predecessors (e : Edges) (idx : Nat) : List Nat :=
  e.foldl (fun ret p => if p.2.contains idx then insertSet p.1 ret else ret) []

/-- `Graph::add_arc`, /repo/source/dnn/dlgraph.hpp:66-77 (`DLMath::index_of`, dlmath.hpp:187-192). -/
def addArc (layers : List Ptr) (e : Edges) (from_ to_ : Ptr) : Exec Edges :=
  match layers.idxOf? from_, layers.idxOf? to_ with
  | some i, some j => .ok (insertEdge i j e)
  | _, _ => .throw "add_arc error: params are not included in nodes"

/-- `Graph::adjacent_matrix`, /repo/source/dnn/dlgraph.hpp:122-137: row major, 0/1. -/
def adjacentMatrix (n : Nat) (e : Edges) : Exec (List Int) :=
  e.foldl (fun m p => m >>= fun ret =>
    p.2.foldl (fun m t => m >>= fun ret => wr ret (p.1 * n + t) 1) (.ok ret))
    (.ok (List.replicate (n * n) 0))

/-- `DLGraph`. -/
structure DLGraph where
  layers : List Ptr
  forward : Edges
  training : Edges
  backward : Edges
  loss : List Nat
  inputs : List Nat
  outputs : List Nat
  deriving DecidableEq, Repr

/-- Default constructor, /repo/source/dnn/dlgraph.cpp:30-38. -/
def DLGraph.empty : DLGraph := ⟨[], [], [], [], [], [], []⟩

/-- `_compute_input_layers`, /repo/source/dnn/dlgraph.cpp:499-511. -/
def DLGraph.computeInputs (g : DLGraph) : DLGraph :=
  { g with inputs := (List.range g.layers.length).filter fun i =>
      !hasPredecessors g.forward i && !g.loss.contains i }

/-- `_compute_output_layers`, /repo/source/dnn/dlgraph.cpp:513-525. -/
def DLGraph.computeOutputs (g : DLGraph) : DLGraph :=
  { g with outputs := (List.range g.layers.length).filter fun i =>
      !hasSuccessors g.forward i && !g.loss.contains i }

/-- `add_node`, /repo/source/dnn/dlgraph.cpp:82-91. -/
def DLGraph.addNode (g : DLGraph) (l : Ptr) : DLGraph :=
  if l ∈ g.layers then g else { g with layers := g.layers ++ [l] }

/-- `add_loss`, /repo/source/dnn/dlgraph.cpp:190-194. -/
def DLGraph.addLoss (g : DLGraph) (l : Ptr) : DLGraph :=
  let g' := g.addNode l
  { g' with loss := g'.loss ++ [g'.layers.length - 1] }

/-- Loop body of `add_arc_forward` for a layer: /repo/source/dnn/dlgraph.cpp:135-139, 172-176. -/
def DLGraph.forwardArc (g : DLGraph) (from_ to_ : Ptr) : DLGraph × Exec Unit :=
  match addArc g.layers g.forward from_ to_ with
  | .ok fwd =>
    match addArc g.layers g.training from_ to_ with
    | .ok tr => ({ g with forward := fwd, training := tr }, .ok ())
    | .throw m => ({ g with forward := fwd }, .throw m)
    | .ub => ({ g with forward := fwd }, .ub)
  | .throw m => (g, .throw m)
  | .ub => (g, .ub)

/-- Loop body of `add_arc_forward` for a loss layer: /repo/source/dnn/dlgraph.cpp:147-150. -/
def DLGraph.trainingArc (g : DLGraph) (from_ to_ : Ptr) : DLGraph × Exec Unit :=
  match addArc g.layers g.training from_ to_ with
  | .ok tr => ({ g with training := tr }, .ok ())
  | .throw m => (g, .throw m)
  | .ub => (g, .ub)

/-- Loop body of `add_arc_backward`: /repo/source/dnn/dlgraph.cpp:156-159, 184-187. -/
def DLGraph.backwardArc (g : DLGraph) (from_ to_ : Ptr) : DLGraph × Exec Unit :=
  match addArc g.layers g.backward from_ to_ with
  | .ok b => ({ g with backward := b }, .ok ())
  | .throw m => (g, .throw m)
  | .ub => (g, .ub)

/-- A loop over arcs that stops at the first exception. -/
def arcLoop (step : DLGraph → Ptr → Ptr → DLGraph × Exec Unit) :
    List (Ptr × Ptr) → DLGraph → DLGraph × Exec Unit
  | [], g => (g, .ok ())
  | (f, t) :: rest, g =>
    match step g f t with
    | (g', .ok ()) => arcLoop step rest g'
    | r => r

/-- `add_arc_forward` with several sources or several targets, /repo/source/dnn/dlgraph.cpp:132-142,
169-179; the single version (103-106) calls it with one source. -/
def DLGraph.addArcForward (g : DLGraph) (arcs : List (Ptr × Ptr)) : DLGraph × Exec Unit :=
  match arcLoop DLGraph.forwardArc arcs g with
  | (g', .ok ()) => (g'.computeInputs.computeOutputs, .ok ())
  | r => r

/-- `add_arc_forward` to a loss layer, /repo/source/dnn/dlgraph.cpp:108-111, 144-151. -/
def DLGraph.addArcForwardLoss (g : DLGraph) (arcs : List (Ptr × Ptr)) : DLGraph × Exec Unit :=
  arcLoop DLGraph.trainingArc arcs g

/-- `add_arc_backward`, /repo/source/dnn/dlgraph.cpp:113-116, 153-160, 181-188. -/
def DLGraph.addArcBackward (g : DLGraph) (arcs : List (Ptr × Ptr)) : DLGraph × Exec Unit :=
  arcLoop DLGraph.backwardArc arcs g

/-- Sequencing of operations that may throw. -/
def andThen {σ : Type} (r : σ × Exec Unit) (f : σ → σ × Exec Unit) : σ × Exec Unit :=
  match r with
  | (s, .ok ()) => f s
  | r => r

/-- `add_edge(froms, to)` and `add_edge(from, tos)`, /repo/source/dnn/dlgraph.cpp:93-96, 118-123,
162-167: the forward arcs, then the backward arcs. -/
def DLGraph.addEdge (g : DLGraph) (arcs : List (Ptr × Ptr)) : DLGraph × Exec Unit :=
  andThen (g.addArcForward arcs) fun g => g.addArcBackward (arcs.map fun p => (p.2, p.1))

/-- `add_edge(froms, loss)`, /repo/source/dnn/dlgraph.cpp:98-101, 125-130. -/
def DLGraph.addEdgeLoss (g : DLGraph) (arcs : List (Ptr × Ptr)) : DLGraph × Exec Unit :=
  andThen (g.addArcForwardLoss arcs) fun g => g.addArcBackward (arcs.map fun p => (p.2, p.1))

/-- Public operations of `DLGraph` that change it.  The arcs of the vector overloads are listed in the
order of the loops. -/
inductive GOp where
  | addNode (l : Ptr)
  | addLoss (l : Ptr)
  | arcForward (arcs : List (Ptr × Ptr))
  | arcForwardLoss (arcs : List (Ptr × Ptr))
  | arcBackward (arcs : List (Ptr × Ptr))
  | edge (arcs : List (Ptr × Ptr))
  | edgeLoss (arcs : List (Ptr × Ptr))
  deriving DecidableEq, Repr

/-- Effect of an operation. -/
def DLGraph.apply (g : DLGraph) : GOp → DLGraph × Exec Unit
  | .addNode l => (g.addNode l, .ok ())
  | .addLoss l => (g.addLoss l, .ok ())
  | .arcForward arcs => g.addArcForward arcs
  | .arcForwardLoss arcs => g.addArcForwardLoss arcs
  | .arcBackward arcs => g.addArcBackward arcs
  | .edge arcs => g.addEdge arcs
  | .edgeLoss arcs => g.addEdgeLoss arcs

/-- A history of operations; exceptions are caught by the caller. -/
def DLGraph.runOps (g : DLGraph) (ops : List GOp) : DLGraph :=
  ops.foldl (fun g op => (g.apply op).1) g

/-- Copy constructor and assignment, /repo/source/dnn/dlgraph.cpp:40-80; `clone` gives the new
pointers. -/
def DLGraph.copy (g : DLGraph) (clone : Ptr → Ptr) : DLGraph :=
  ({ layers := g.layers.map clone, forward := g.forward, training := g.training,
     backward := g.backward, loss := g.loss, inputs := [], outputs := [] } :
    DLGraph).computeInputs.computeOutputs

/-- `forward_layers_idx`, /repo/source/dnn/dlgraph.cpp:351-364. -/
def DLGraph.forwardLayersIdx (g : DLGraph) : List Nat :=
  (List.range g.layers.length).filter fun i => !g.loss.contains i

/-! ### The runs -/

/-- Loop state of a run: arcs found, next wave, expanded layers. -/
structure Wave where
  ret : List (Nat × Nat)
  next : List Nat
  done : List Nat

/-- Innermost loop body, /repo/source/dnn/dlgraph.cpp:421-435. -/
def visitArc (curr : List Nat) (from_ : Nat) (w : Wave) (to_ : Nat) : Wave :=
  let done := w.done ++ [from_]
  { ret := w.ret ++ [(from_, to_)], done := done,
    next := if !curr.contains to_ && !done.contains to_ && !w.next.contains to_
      then w.next ++ [to_] else w.next }

/-- Loop over the successors of one layer. -/
def visitLayer (succ : Nat → List Nat) (curr : List Nat) (w : Wave) (from_ : Nat) : Wave :=
  (succ from_).foldl (visitArc curr from_) w

/-- Body of the `while` loop of `forward_run`, `training_forward_run` and `backward_run`:
/repo/source/dnn/dlgraph.cpp:386-408, 417-439, 448-470. -/
def wave (succ : Nat → List Nat) (curr : List Nat) (ret : List (Nat × Nat)) (done : List Nat) : Wave :=
  curr.foldl (visitLayer succ curr) ⟨ret, [], done⟩

/-- The `while` loop; `none` if it does not end within `fuel` iterations. -/
def runLoop (succ : Nat → List Nat) : Nat → List Nat → List (Nat × Nat) → List Nat →
    Option (List (Nat × Nat))
  | _, [], ret, _ => some ret
  | 0, _ :: _, _, _ => none
  | fuel + 1, l :: ls, ret, done =>
    let w := wave succ (l :: ls) ret done
    runLoop succ fuel w.next w.ret w.done

/-- `forward_run`, /repo/source/dnn/dlgraph.cpp:412-441: the arcs as pairs of indices, if the loop ends
within `fuel` iterations. -/
def DLGraph.forwardRun (g : DLGraph) (fuel : Nat) : Option (List (Nat × Nat)) :=
  runLoop (successors g.forward) fuel g.inputs [] []

/-- `training_forward_run`, /repo/source/dnn/dlgraph.cpp:381-410. -/
def DLGraph.trainingRun (g : DLGraph) (fuel : Nat) : Option (List (Nat × Nat)) :=
  runLoop (successors g.training) fuel g.inputs [] []

/-- `backward_run`, /repo/source/dnn/dlgraph.cpp:443-472. -/
def DLGraph.backwardRun (g : DLGraph) (fuel : Nat) : Option (List (Nat × Nat)) :=
  runLoop (successors g.backward) fuel g.loss [] []

/-! ### Operations of `Model` -/

/-- The graph of a model and the identities given out so far.  (`Model::State` also caches the lists
and runs of the graph; `State::update` recomputes them after each operation, and the single-arc
operations that throw leave the graph as it was, so the cached values are always those of the
graph.) -/
structure Model where
  graph : DLGraph
  fresh : Nat
  deriving DecidableEq, Repr

/-- A new model. -/
def Model.empty : Model := ⟨DLGraph.empty, 0⟩

/-- Operations of the class `Model` on its graph. -/
inductive Op where
  /-- `add_layer<L>(...)`, /repo/source/dnn/model.hpp:150-158 (`L` not a loss layer) -/
  | addLayer
  /-- `add_loss<L>(...)`, /repo/source/dnn/model.hpp:170-178 -/
  | addLoss
  /-- `create_back_arc(src, dst)`, /repo/source/dnn/model.cpp:67-72 -/
  | backArc (src dst : Ptr)
  /-- `create_front_arc(src, dst)` to a layer, /repo/source/dnn/model.cpp:74-79 -/
  | frontArc (src dst : Ptr)
  /-- `create_front_arc(src, dst)` to a loss layer, /repo/source/dnn/model.cpp:81-86 -/
  | lossArc (src dst : Ptr)
  /-- `create_edge(src, dst)`, /repo/source/dnn/model.cpp:88-94 -/
  | edge (src dst : Ptr)
  /-- `create_loss_edge(src, dst)`, /repo/source/dnn/model.cpp:96-102 -/
  | lossEdge (src dst : Ptr)
  deriving DecidableEq, Repr

/-- Lift an operation of the graph. -/
def Model.onGraph (m : Model) (r : DLGraph × Exec Unit) : Model × Exec Unit :=
  ({ m with graph := r.1 }, r.2)

/-- Effect of an operation. -/
def Model.apply (m : Model) : Op → Model × Exec Unit
  | .addLayer => (⟨m.graph.addNode ⟨m.fresh, false⟩, m.fresh + 1⟩, .ok ())
  | .addLoss => (⟨m.graph.addLoss ⟨m.fresh, true⟩, m.fresh + 1⟩, .ok ())
  | .backArc s d => m.onGraph (m.graph.addArcBackward [(d, s)])
  | .frontArc s d => m.onGraph (m.graph.addArcForward [(s, d)])
  | .lossArc s d => m.onGraph (m.graph.addArcForwardLoss [(s, d)])
  | .edge s d => m.onGraph (andThen (m.graph.addArcBackward [(d, s)]) fun g =>
      g.addArcForward [(s, d)])
  | .lossEdge s d => m.onGraph (andThen (m.graph.addArcBackward [(d, s)]) fun g =>
      g.addArcForwardLoss [(s, d)])

/-- A history of operations; exceptions are caught by the caller. -/
def Model.run (m : Model) (ops : List Op) : Model := ops.foldl (fun m op => (m.apply op).1) m

end Verif.Graph
