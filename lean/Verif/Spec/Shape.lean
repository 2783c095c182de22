import Verif.Spec.Fnn
import Verif.Spec.Session

/-! Vocabulary for models of any shape. -/

namespace Verif.Spec

open Verif.Net Verif.Graph

noncomputable section

/-- `add_layer`, `add_loss`, `create_edge` between two layers and `create_loss_edge` from a layer to a loss layer. -/
def Joins : Op → Prop
  | .addLayer => True
  | .addLoss => True
  | .edge s d => s.loss = false ∧ d.loss = false
  | .lossEdge s d => s.loss = false ∧ d.loss = true
  | _ => False

/-- What the constructor of a layer class returns: dense, convolution, pooling (the windows fit), dropout,
activation (no softmax of nothing), recurrent (with any hidden activation) and loss layers. -/
def Constructed (a : AnyLayer) : Prop :=
  (∃ k, Implements k a ∧ ((∀ mx raw l, a ≠ .dropout mx raw l) → Regular a)) ∨
  (∃ f n, a = .act f (Act.Layer.new n) ∧ (f = .softmax → 0 < n)) ∨
  (∃ f f1 n o h T, a = .rnn f f1 (Rnn.Layer.new n o h T)) ∨
  (∃ f n b tol, a = .loss f (Loss.Layer.new n b tol))

/-- A new layer, with any values for its parameters. -/
def NewLayer (a : AnyLayer) : Prop :=
  ∃ a' ps, Constructed a' ∧ ps.map List.length = a'.params.map List.length ∧ a = a'.setParams ps

/-- A loss layer? -/
def AnyLayer.isLoss : AnyLayer → Bool
  | .loss _ _ => true
  | _ => false

/-- How many values a layer takes; a recurrent layer takes those of all time steps. -/
def AnyLayer.takes : AnyLayer → Nat
  | .rnn _ _ l => l.timeSteps * l.inputSize
  | a => a.inputSize

/-- How many values a layer gives; a recurrent layer gives those of all time steps. -/
def AnyLayer.gives : AnyLayer → Nat
  | .rnn _ _ l => l.timeSteps * l.outputSize
  | a => a.outputSize

/-- The model consists of new layers, one object for each layer of the graph, and of a loss class where the graph
has a loss layer; input layers take `n` values, and along every connection the sizes agree. -/
structure Agrees (net : Net) (n : Nat) : Prop where
  fresh : ∀ a ∈ net.layers, NewLayer a
  length : net.layers.length = net.graph.layers.length
  loss : ∀ i a, net.layers[i]? = some a → (AnyLayer.isLoss a = true ↔ i ∈ net.graph.loss)
  inputs : ∀ i a, i ∈ net.graph.inputs → net.layers[i]? = some a → AnyLayer.takes a = n
  sizes : ∀ x y a b, y ∈ successors net.graph.training x → net.layers[x]? = some a → net.layers[y]? = some b →
    AnyLayer.gives a = AnyLayer.takes b

/-- A call with an input of length `n`, and with a target that every loss layer of the model can score. -/
def Suitable (net : Net) (n : Nat) : UserCall → Prop
  | .predict x => x.length = n
  | .resetScore => True
  | .step x t => x.length = n ∧ ∀ f l, AnyLayer.loss f l ∈ net.layers → CanScore f l.inputSize t
  | .train => True

/-- No layer is recurrent. -/
def NonRecurrent (net : Net) : Prop := ∀ f f1 l, AnyLayer.rnn f f1 l ∉ net.layers

/-- A walk along forward connections from an input layer to the layer `o`. -/
structure Walk (g : DLGraph) (p : List Nat) (o : Nat) : Prop where
  start : ∃ i ∈ g.inputs, p.head? = some i
  arcs : ∀ x y, (x, y) ∈ p.zip p.tail → y ∈ successors g.forward x
  stop : p.getLast? = some o

/-- A history of calls, up to the first exception. -/
def serve {σ : Type} (opt : σ → ℝ → ℝ → σ × ℝ) : List UserCall → σ × Net → Exec (σ × Net)
  | [], s => .ok s
  | .predict x :: cs, s => do
    let r ← s.2.predict x
    match r.2 with
    | .ok _ => serve opt cs (s.1, r.1)
    | .error m => .throw m
  | .resetScore :: cs, s => serve opt cs (s.1, s.2.resetScore)
  | .step x t :: cs, s => do
    let r ← s.2.step x t
    match r.2 with
    | none => serve opt cs (s.1, r.1)
    | some m => .throw m
  | .train :: cs, s => do
    let r := s.2.train opt s.1
    let _ ← r.2
    serve opt cs r.1

end

end Verif.Spec
