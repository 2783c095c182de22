import Verif.Proofs.GraphSingle

/-! C31-C34, C63: the layer graph of a model. -/

namespace Verif.Props

open Verif Verif.Graph

/-- The model after a history of calls on a new model. -/
abbrev built (ops : List Op) : Graph.Model := Graph.Model.empty.run ops

/-- Forward, training and backward connections of a graph, between positions in `layers`. -/
abbrev fwdArc (g : DLGraph) (x y : Nat) : Prop := y ∈ successors g.forward x
@[inherit_doc fwdArc] abbrev trainArc (g : DLGraph) (x y : Nat) : Prop := y ∈ successors g.training x
@[inherit_doc fwdArc] abbrev backArc (g : DLGraph) (x y : Nat) : Prop := y ∈ successors g.backward x

/-! ### C31 -/

/-- **C31**: in every model, built by any history of calls, whatever cycles it has, the forward run
ends and lists every connection that leaves a layer reachable from the input layers exactly once. -/
theorem C31_forward_run (ops : List Op) :
    ∃ r N, (∀ fuel, N ≤ fuel → (built ops).graph.forwardRun fuel = some r) ∧
      Spec.ListsArcsOnce (fwdArc (built ops).graph) (built ops).graph.inputs r := by
  have h := mok_run ops mok_empty
  exact run_once h.ok.forward (nodup_of_sorted h.ok.inputsSorted)

/-- **C31** for the training run. -/
theorem C31_training_run (ops : List Op) :
    ∃ r N, (∀ fuel, N ≤ fuel → (built ops).graph.trainingRun fuel = some r) ∧
      Spec.ListsArcsOnce (trainArc (built ops).graph) (built ops).graph.inputs r := by
  have h := mok_run ops mok_empty
  exact run_once h.ok.training (nodup_of_sorted h.ok.inputsSorted)

/-- **C31** for the backward run, which starts at the loss layers. -/
theorem C31_backward_run (ops : List Op) :
    ∃ r N, (∀ fuel, N ≤ fuel → (built ops).graph.backwardRun fuel = some r) ∧
      Spec.ListsArcsOnce (backArc (built ops).graph) (built ops).graph.loss r := by
  have h := mok_run ops mok_empty
  exact run_once h.ok.backward h.lossNodup

/-- The same for every graph built through the interface of `DLGraph`, for the two runs that start at
the input layers. -/
theorem C31_graph_runs (ops : List GOp) :
    (∃ r N, (∀ fuel, N ≤ fuel → (DLGraph.empty.runOps ops).forwardRun fuel = some r) ∧
      Spec.ListsArcsOnce (fwdArc (DLGraph.empty.runOps ops)) (DLGraph.empty.runOps ops).inputs r) ∧
    (∃ r N, (∀ fuel, N ≤ fuel → (DLGraph.empty.runOps ops).trainingRun fuel = some r) ∧
      Spec.ListsArcsOnce (trainArc (DLGraph.empty.runOps ops)) (DLGraph.empty.runOps ops).inputs r) := by
  have h := ok_runOps ops ok_empty
  exact ⟨run_once h.forward (nodup_of_sorted h.inputsSorted),
    run_once h.training (nodup_of_sorted h.inputsSorted)⟩

/-- A cyclic model: 0 → 1 → 2 → 1 and 2 → 3. -/
def cyclic : List Op :=
  [.addLayer, .addLayer, .addLayer, .addLayer, .addLoss, .edge ⟨0, false⟩ ⟨1, false⟩,
   .edge ⟨1, false⟩ ⟨2, false⟩, .edge ⟨2, false⟩ ⟨1, false⟩, .edge ⟨2, false⟩ ⟨3, false⟩,
   .lossEdge ⟨3, false⟩ ⟨4, true⟩]

example : (built cyclic).graph.forwardRun 10 = some [(0, 1), (1, 2), (2, 1), (2, 3)] ∧
    (built cyclic).graph.trainingRun 10 = some [(0, 1), (1, 2), (2, 1), (2, 3), (3, 4)] ∧
    (built cyclic).graph.backwardRun 10 = some [(4, 3), (3, 2), (2, 1), (1, 0), (1, 2)] := by decide

/-- On a bare `DLGraph`, registering the same loss layer twice makes the backward run list its
connections twice: C31 does not extend to that interface. -/
theorem C31_graph_duplicate_loss :
    ¬ ∀ ops : List GOp, ∀ r fuel, (DLGraph.empty.runOps ops).backwardRun fuel = some r → r.Nodup := by
  intro h
  have := h [.addNode ⟨0, false⟩, .addLoss ⟨1, true⟩, .addLoss ⟨1, true⟩, .edgeLoss [(⟨0, false⟩, ⟨1, true⟩)]]
    [(1, 0), (1, 0)] 5 (by decide)
  exact absurd this (by decide)

/-! ### C32 -/

/-- A model with a skip connection: 0 → 1 → 2 → 3 → 4 and 0 → 3. -/
def skip : List Op :=
  [.addLayer, .addLayer, .addLayer, .addLayer, .addLayer,
   .edge ⟨0, false⟩ ⟨1, false⟩, .edge ⟨1, false⟩ ⟨2, false⟩, .edge ⟨2, false⟩ ⟨3, false⟩,
   .edge ⟨3, false⟩ ⟨4, false⟩, .edge ⟨0, false⟩ ⟨3, false⟩]

example : (built skip).graph.forwardRun 10 = some [(0, 1), (0, 3), (1, 2), (3, 4), (2, 3)] := by decide

theorem skip_acyclic : Spec.Acyclic (fwdArc (built skip).graph) := by
  intro x hx
  have step : ∀ a b, fwdArc (built skip).graph a b → a < b := by
    intro a b hab
    have hk : ∀ p ∈ (built skip).graph.forward, ∀ y ∈ p.2, p.1 < y := by decide
    obtain ⟨s, h1, h2⟩ := (mem_successors (mok_run skip mok_empty).ok.forward a b).mp hab
    exact hk (a, s) h1 b h2
  have : ∀ a b, Relation.TransGen (fwdArc (built skip).graph) a b → a < b := by
    intro a b h
    induction h with
    | single h => exact step _ _ h
    | tail _ h ih => exact Nat.lt_trans ih (step _ _ h)
  exact Nat.lt_irrefl _ (this x x hx)

/-- **C32 is false**: with a skip connection in an acyclic model, the connection out of the joining
layer runs before one of the connections into it. -/
theorem C32_topological_refuted :
    ¬ ∀ ops : List Op, Spec.Acyclic (fwdArc (built ops).graph) →
      ∀ r fuel, (built ops).graph.forwardRun fuel = some r → Spec.ArcsInOrder r := by
  intro h
  have := h skip skip_acyclic [(0, 1), (0, 3), (1, 2), (3, 4), (2, 3)] 10 (by decide)
    4 3 (2, 3) (3, 4) rfl rfl rfl
  omega

/-- **C32**, what holds: if the layers have depths such that input layers have depth 0 and each
connection goes from one depth to the next (in particular in chains), every connection out of a layer
runs after every connection into it.  Missing: acyclic models whose paths to a layer differ in
length, where it is false. -/
theorem C32_topological_partial (ops : List Op) (depth : Nat → Nat)
    (h0 : ∀ s ∈ (built ops).graph.inputs, depth s = 0)
    (h1 : ∀ x y, Spec.Reachable (fwdArc (built ops).graph) (built ops).graph.inputs x →
      fwdArc (built ops).graph x y → depth y = depth x + 1) :
    ∃ r N, (∀ fuel, N ≤ fuel → (built ops).graph.forwardRun fuel = some r) ∧ Spec.ArcsInOrder r := by
  have h := mok_run ops mok_empty
  exact run_ordered h.ok.forward (nodup_of_sorted h.ok.inputsSorted) depth h0 h1

/-- The same for the training run. -/
theorem C32_training_topological_partial (ops : List Op) (depth : Nat → Nat)
    (h0 : ∀ s ∈ (built ops).graph.inputs, depth s = 0)
    (h1 : ∀ x y, Spec.Reachable (trainArc (built ops).graph) (built ops).graph.inputs x →
      trainArc (built ops).graph x y → depth y = depth x + 1) :
    ∃ r N, (∀ fuel, N ≤ fuel → (built ops).graph.trainingRun fuel = some r) ∧ Spec.ArcsInOrder r := by
  have h := mok_run ops mok_empty
  exact run_ordered h.ok.training (nodup_of_sorted h.ok.inputsSorted) depth h0 h1

/-- The same for the backward run, with depths counted from the loss layers. -/
theorem C32_backward_topological_partial (ops : List Op) (depth : Nat → Nat)
    (h0 : ∀ s ∈ (built ops).graph.loss, depth s = 0)
    (h1 : ∀ x y, Spec.Reachable (backArc (built ops).graph) (built ops).graph.loss x →
      backArc (built ops).graph x y → depth y = depth x + 1) :
    ∃ r N, (∀ fuel, N ≤ fuel → (built ops).graph.backwardRun fuel = some r) ∧ Spec.ArcsInOrder r := by
  have h := mok_run ops mok_empty
  exact run_ordered h.ok.backward h.lossNodup depth h0 h1

/-- A diamond 0 → 1, 0 → 2, 1 → 3, 2 → 3, 3 → 4 meets the hypotheses. -/
def diamond : List Op :=
  [.addLayer, .addLayer, .addLayer, .addLayer, .addLayer,
   .edge ⟨0, false⟩ ⟨1, false⟩, .edge ⟨0, false⟩ ⟨2, false⟩, .edge ⟨1, false⟩ ⟨3, false⟩,
   .edge ⟨2, false⟩ ⟨3, false⟩, .edge ⟨3, false⟩ ⟨4, false⟩]

example : ∃ r N, (∀ fuel, N ≤ fuel → (built diamond).graph.forwardRun fuel = some r) ∧
    Spec.ArcsInOrder r := by
  refine C32_topological_partial diamond (fun x => [0, 1, 1, 2, 3].getD x 0) (by decide) ?_
  intro x y _ hxy
  have hk : ∀ p ∈ (built diamond).graph.forward, ∀ y ∈ p.2,
      [0, 1, 1, 2, 3].getD y 0 = [0, 1, 1, 2, 3].getD p.1 0 + 1 := by decide
  obtain ⟨s, h1, h2⟩ := (mem_successors (mok_run diamond mok_empty).ok.forward x y).mp hxy
  exact hk (x, s) h1 y h2

/-- Two layers in a row, the second of them followed by a loss layer. -/
def chain : List Op :=
  [.addLayer, .addLayer, .addLoss, .edge ⟨0, false⟩ ⟨1, false⟩, .lossEdge ⟨1, false⟩ ⟨2, true⟩]

/-- Non-vacuity: so do the training and backward runs of a chain with a loss layer at its end. -/
example : (∃ r N, (∀ fuel, N ≤ fuel → (built chain).graph.trainingRun fuel = some r) ∧ Spec.ArcsInOrder r) ∧
    ∃ r N, (∀ fuel, N ≤ fuel → (built chain).graph.backwardRun fuel = some r) ∧ Spec.ArcsInOrder r := by
  have ok := (mok_run chain mok_empty).ok
  refine ⟨C32_training_topological_partial chain id (by decide) ?_,
    C32_backward_topological_partial chain (fun x => 2 - x) (by decide) ?_⟩
  · intro x y _ hxy
    have hk : ∀ p ∈ (built chain).graph.training, ∀ y ∈ p.2, y = p.1 + 1 := by decide
    obtain ⟨s, h1, h2⟩ := (mem_successors ok.training x y).mp hxy
    exact hk (x, s) h1 y h2
  · intro x y _ hxy
    have hk : ∀ p ∈ (built chain).graph.backward, ∀ y ∈ p.2, 2 - y = 2 - p.1 + 1 := by decide
    obtain ⟨s, h1, h2⟩ := (mem_successors ok.backward x y).mp hxy
    exact hk (x, s) h1 y h2

example : (built diamond).graph.forwardRun 10 = some [(0, 1), (0, 2), (1, 3), (2, 3), (3, 4)] := by decide

/-! ### C33 -/

/-- The input (output) list of a graph has exactly the positions of the non-loss layers without
incoming (outgoing) forward connection, in increasing order. -/
def ListsRight (g : DLGraph) : Prop :=
  (∀ i, i ∈ g.inputs ↔ i < g.layers.length ∧ i ∉ g.loss ∧ ¬ ∃ x, fwdArc g x i) ∧
  (∀ i, i ∈ g.outputs ↔ i < g.layers.length ∧ i ∉ g.loss ∧ ¬ ∃ y, fwdArc g i y) ∧
  g.inputs.Pairwise (· < ·) ∧ g.outputs.Pairwise (· < ·)

theorem listsRight_of {g : DLGraph} (hok : Ok g) (h : Lists g) : ListsRight g := by
  refine ⟨fun i => ?_, fun i => ?_, hok.inputsSorted, hok.outputsSorted⟩
  · rw [h.1 i, not_exists]
  · rw [h.2 i, not_exists]

/-- **C33 is false** for models without connections: with a single layer both lists are empty. -/
theorem C33_lists_refuted : ¬ ∀ ops : List Op, ListsRight (built ops).graph := by
  intro h
  have := ((h [.addLayer]).1 0).mpr ⟨by decide, by decide, by rintro ⟨x, hx⟩; simp [fwdArc, successors,
    Graph.Model.run, Graph.Model.apply, Graph.Model.empty, DLGraph.addNode, DLGraph.empty] at hx⟩
  exact absurd this (by decide)

/-- **C33 is false** for layers added after the last connection: the new layer is in neither list. -/
theorem C33_stale_refuted :
    let g := (built [.addLayer, .addLayer, .edge ⟨0, false⟩ ⟨1, false⟩, .addLayer]).graph
    g.layers.length = 3 ∧ ¬ hasPredecessors g.forward 2 ∧ ¬ hasSuccessors g.forward 2 ∧
      2 ∉ g.inputs ∧ 2 ∉ g.outputs := by decide

/-- **C33 is false** for copies: copying a model may change its lists. -/
theorem C33_copy_refuted :
    ¬ ∀ (ops : List Op) (clone : Ptr → Ptr),
      ((built ops).graph.copy clone).inputs = (built ops).graph.inputs := by
  intro h
  exact absurd (h [.addLayer] id) (by decide)

/-- **C33**, what holds: after a forward connection between existing layers, and any later calls other
than `add_layer`, the lists are right.  Missing: histories in which `add_layer` is not followed by
a successful forward connection, where it is false. -/
theorem C33_lists_partial (pre post : List Op) (s d : Ptr) (hs : s ∈ (built pre).graph.layers)
    (hd : d ∈ (built pre).graph.layers) (hpost : Op.addLayer ∉ post) :
    ListsRight (built (pre ++ [.frontArc s d] ++ post)).graph ∧
    ListsRight (built (pre ++ [.edge s d] ++ post)).graph := by
  have hm := mok_run pre mok_empty
  obtain ⟨h1, h2⟩ := lists_connect hm hs hd
  constructor
  · refine listsRight_of (mok_run _ mok_empty).ok ?_
    rw [built, List.append_assoc, run_append, List.singleton_append, run_cons]
    exact lists_run post (mok_apply hm _) h1 hpost
  · refine listsRight_of (mok_run _ mok_empty).ok ?_
    rw [built, List.append_assoc, run_append, List.singleton_append, run_cons]
    exact lists_run post (mok_apply hm _) h2 hpost

/-- The lists of a copy are right, whatever the lists of the original. -/
theorem C33_copy_right (ops : List Op) (clone : Ptr → Ptr) :
    ListsRight ((built ops).graph.copy clone) := by
  have hm := mok_run ops mok_empty
  obtain ⟨h1, h2⟩ := lists_compute
    (g := { layers := (built ops).graph.layers.map clone, forward := (built ops).graph.forward,
            training := (built ops).graph.training, backward := (built ops).graph.backward,
            loss := (built ops).graph.loss, inputs := [], outputs := [] }) hm.ok.forward
  refine ⟨fun i => ?_, fun i => ?_, List.pairwise_lt_range.filter _, List.pairwise_lt_range.filter _⟩
  · rw [not_exists]; exact h1 i
  · rw [not_exists]; exact h2 i

/-- If the lists of the original are right, a copy has the same. -/
theorem C33_copy_partial (ops : List Op) (clone : Ptr → Ptr) (h : ListsRight (built ops).graph) :
    ((built ops).graph.copy clone).inputs = (built ops).graph.inputs ∧
    ((built ops).graph.copy clone).outputs = (built ops).graph.outputs := by
  have hc := C33_copy_right ops clone
  have hlen : ((built ops).graph.copy clone).layers.length = (built ops).graph.layers.length :=
    List.length_map ..
  constructor
  · refine lists_nodup_unique hc.2.2.1 h.2.2.1 fun i => ?_
    rw [hc.1 i, h.1 i, hlen]
    exact Iff.rfl
  · refine lists_nodup_unique hc.2.2.2 h.2.2.2 fun i => ?_
    rw [hc.2.1 i, h.2.1 i, hlen]
    exact Iff.rfl

example : (built diamond).graph.inputs = [0] ∧ (built diamond).graph.outputs = [4] := by decide
example : ListsRight (built diamond).graph :=
  (C33_lists_partial [.addLayer, .addLayer, .addLayer, .addLayer, .addLayer,
   .edge ⟨0, false⟩ ⟨1, false⟩, .edge ⟨0, false⟩ ⟨2, false⟩, .edge ⟨1, false⟩ ⟨3, false⟩,
   .edge ⟨2, false⟩ ⟨3, false⟩] [] ⟨3, false⟩ ⟨4, false⟩ (by decide) (by decide) (by simp)).2

/-! ### C34 -/

/-- The layers a call connects. -/
def ends : Op → Option (Ptr × Ptr)
  | .addLayer => none
  | .addLoss => none
  | .backArc s d => some (s, d)
  | .frontArc s d => some (s, d)
  | .lossArc s d => some (s, d)
  | .edge s d => some (s, d)
  | .lossEdge s d => some (s, d)

/-- **C34**: a call that connects two layers throws iff one of them is not in the model, and then the
model is as before. -/
theorem C34_atomic (m : Graph.Model) (op : Op) (s d : Ptr) (h : ends op = some (s, d)) :
    (s ∈ m.graph.layers ∧ d ∈ m.graph.layers → (m.apply op).2 = .ok ()) ∧
    (s ∉ m.graph.layers ∨ d ∉ m.graph.layers → ∃ msg, m.apply op = (m, .throw msg)) := by
  have nn : ∀ {a b : Ptr} {p : Prop}, (a ∉ m.graph.layers ∨ b ∉ m.graph.layers) →
      a ∈ m.graph.layers → b ∈ m.graph.layers → p := by
    intro a b p h h1 h2
    rcases h with h | h
    · exact absurd h1 h
    · exact absurd h2 h
  cases op with
  | addLayer => simp [ends] at h
  | addLoss => simp [ends] at h
  | backArc a b =>
    simp [ends] at h
    obtain ⟨rfl, rfl⟩ := h
    show (_ → (m.onGraph (m.graph.addArcBackward [(b, a)])).2 = .ok ()) ∧
      (_ → ∃ msg, m.onGraph (m.graph.addArcBackward [(b, a)]) = (m, .throw msg))
    rcases single_back m.graph b a with ⟨h1, h2, i, j, _, _, h5⟩ | ⟨h1, h5⟩
    · rw [h5]; exact ⟨fun _ => rfl, fun hm => nn hm h2 h1⟩
    · rw [h5]; exact ⟨fun hm => nn h1 hm.2 hm.1, fun _ => ⟨_, rfl⟩⟩
  | frontArc a b =>
    simp [ends] at h
    obtain ⟨rfl, rfl⟩ := h
    show (_ → (m.onGraph (m.graph.addArcForward [(a, b)])).2 = .ok ()) ∧
      (_ → ∃ msg, m.onGraph (m.graph.addArcForward [(a, b)]) = (m, .throw msg))
    rcases single_front m.graph a b with ⟨h1, h2, i, j, _, _, h5⟩ | ⟨h1, h5⟩
    · rw [h5]; exact ⟨fun _ => rfl, fun hm => nn hm h1 h2⟩
    · rw [h5]; exact ⟨fun hm => nn h1 hm.1 hm.2, fun _ => ⟨_, rfl⟩⟩
  | lossArc a b =>
    simp [ends] at h
    obtain ⟨rfl, rfl⟩ := h
    show (_ → (m.onGraph (m.graph.addArcForwardLoss [(a, b)])).2 = .ok ()) ∧
      (_ → ∃ msg, m.onGraph (m.graph.addArcForwardLoss [(a, b)]) = (m, .throw msg))
    rcases single_frontLoss m.graph a b with ⟨h1, h2, i, j, _, _, h5⟩ | ⟨h1, h5⟩
    · rw [h5]; exact ⟨fun _ => rfl, fun hm => nn hm h1 h2⟩
    · rw [h5]; exact ⟨fun hm => nn h1 hm.1 hm.2, fun _ => ⟨_, rfl⟩⟩
  | edge a b =>
    simp [ends] at h
    obtain ⟨rfl, rfl⟩ := h
    show (_ → (m.onGraph (andThen (m.graph.addArcBackward [(b, a)]) fun g =>
        g.addArcForward [(a, b)])).2 = .ok ()) ∧
      (_ → ∃ msg, m.onGraph (andThen (m.graph.addArcBackward [(b, a)]) fun g =>
        g.addArcForward [(a, b)]) = (m, .throw msg))
    rcases single_back m.graph b a with ⟨h1, h2, i, j, _, _, h5⟩ | ⟨h1, h5⟩
    · rw [h5]
      refine ⟨fun _ => ?_, fun hm => nn hm h2 h1⟩
      show (DLGraph.addArcForward _ [(a, b)]).2 = .ok ()
      rcases single_front { m.graph with backward := insertEdge i j m.graph.backward } a b with
        ⟨_, _, _, _, _, _, h6⟩ | ⟨h6, _⟩
      · rw [h6]
      · exact nn h6 h2 h1
    · rw [h5]; exact ⟨fun hm => nn h1 hm.2 hm.1, fun _ => ⟨_, rfl⟩⟩
  | lossEdge a b =>
    simp [ends] at h
    obtain ⟨rfl, rfl⟩ := h
    show (_ → (m.onGraph (andThen (m.graph.addArcBackward [(b, a)]) fun g =>
        g.addArcForwardLoss [(a, b)])).2 = .ok ()) ∧
      (_ → ∃ msg, m.onGraph (andThen (m.graph.addArcBackward [(b, a)]) fun g =>
        g.addArcForwardLoss [(a, b)]) = (m, .throw msg))
    rcases single_back m.graph b a with ⟨h1, h2, i, j, _, _, h5⟩ | ⟨h1, h5⟩
    · rw [h5]
      refine ⟨fun _ => ?_, fun hm => nn hm h2 h1⟩
      show (DLGraph.addArcForwardLoss _ [(a, b)]).2 = .ok ()
      rcases single_frontLoss { m.graph with backward := insertEdge i j m.graph.backward } a b with
        ⟨_, _, _, _, _, _, h6⟩ | ⟨h6, _⟩
      · rw [h6]
      · exact nn h6 h2 h1
    · rw [h5]; exact ⟨fun hm => nn h1 hm.2 hm.1, fun _ => ⟨_, rfl⟩⟩

/-- The arcs `arc'` are the arcs `arc` and, if `b`, also `i → j`. -/
def AddsArc (b : Prop) (arc arc' : Nat → Nat → Prop) (i j : Nat) : Prop :=
  ∀ x y, arc' x y ↔ arc x y ∨ (b ∧ x = i ∧ y = j)

/-- Does the call add a forward / training / backward connection? -/
def addsFwd : Op → Prop
  | .frontArc _ _ => True
  | .edge _ _ => True
  | _ => False
@[inherit_doc addsFwd] def addsTrain : Op → Prop
  | .frontArc _ _ => True
  | .lossArc _ _ => True
  | .edge _ _ => True
  | .lossEdge _ _ => True
  | _ => False
@[inherit_doc addsFwd] def addsBack : Op → Prop
  | .backArc _ _ => True
  | .edge _ _ => True
  | .lossEdge _ _ => True
  | _ => False

/-- **C34**: a call that connects the layers at positions `i` and `j` records exactly that connection:
in the direction `i → j` for the forward and training passes, `j → i` for the backward pass; the
layers and loss layers stay. -/
theorem C34_records (ops : List Op) (op : Op) (s d : Ptr) (h : ends op = some (s, d)) (i j : Nat)
    (hi : (built ops).graph.layers[i]? = some s) (hj : (built ops).graph.layers[j]? = some d) :
    let g := (built ops).graph
    let g' := ((built ops).apply op).1.graph
    AddsArc (addsFwd op) (fwdArc g) (fwdArc g') i j ∧
    AddsArc (addsTrain op) (trainArc g) (trainArc g') i j ∧
    AddsArc (addsBack op) (backArc g) (backArc g') j i ∧
    g'.layers = g.layers ∧ g'.loss = g.loss := by
  intro g g'
  have hm := mok_run ops mok_empty
  have hok : Ok g := hm.ok
  have is : g.layers.idxOf? s = some i := idxOf?_of_getElem? hok.layers hi
  have ij : g.layers.idxOf? d = some j := idxOf?_of_getElem? hok.layers hj
  have ms : s ∈ g.layers := List.mem_of_getElem? hi
  have md : d ∈ g.layers := List.mem_of_getElem? hj
  have same : ∀ {p : Prop} {arc : Nat → Nat → Prop} (a b : Nat), ¬ p → AddsArc p arc arc a b := by
    intro p arc a b hp x y
    exact ⟨Or.inl, fun h => h.elim id (fun h => absurd h.1 hp)⟩
  have new : ∀ {e : Edges} (_ : EdgesOk e) (a b : Nat), AddsArc True (fun x y => y ∈ successors e x)
      (fun x y => y ∈ successors (insertEdge a b e) x) a b := by
    intro e he a b x y
    have := adds_insert he a b x y
    simpa using this
  have fc : ∀ {g0 : DLGraph}, g0.layers = g.layers → g0.addArcForward [(s, d)] =
      (({ g0 with forward := insertEdge i j g0.forward, training := insertEdge i j g0.training } :
        DLGraph).computeInputs.computeOutputs, .ok ()) := by
    intro g0 hl
    rcases single_front g0 s d with ⟨_, _, a, b, h3, h4, h5⟩ | ⟨h1, _⟩
    · rw [hl, is] at h3; rw [hl, ij] at h4
      cases h3; cases h4
      exact h5
    · rw [hl] at h1
      rcases h1 with h1 | h1
      · exact absurd ms h1
      · exact absurd md h1
  have tc : ∀ {g0 : DLGraph}, g0.layers = g.layers → g0.addArcForwardLoss [(s, d)] =
      ({ g0 with training := insertEdge i j g0.training }, .ok ()) := by
    intro g0 hl
    rcases single_frontLoss g0 s d with ⟨_, _, a, b, h3, h4, h5⟩ | ⟨h1, _⟩
    · rw [hl, is] at h3; rw [hl, ij] at h4
      cases h3; cases h4
      exact h5
    · rw [hl] at h1
      rcases h1 with h1 | h1
      · exact absurd ms h1
      · exact absurd md h1
  have bc : g.addArcBackward [(d, s)] = ({ g with backward := insertEdge j i g.backward }, .ok ()) := by
    rcases single_back g d s with ⟨_, _, a, b, h3, h4, h5⟩ | ⟨h1, _⟩
    · rw [ij] at h3; rw [is] at h4
      cases h3; cases h4
      exact h5
    · rcases h1 with h1 | h1
      · exact absurd md h1
      · exact absurd ms h1
  cases op with
  | addLayer => simp [ends] at h
  | addLoss => simp [ends] at h
  | backArc a b =>
    simp [ends] at h
    obtain ⟨rfl, rfl⟩ := h
    have e : g' = { g with backward := insertEdge j i g.backward } := congrArg Prod.fst bc
    rw [e]
    exact ⟨same _ _ (fun h => h), same _ _ (fun h => h), new hok.backward j i, rfl, rfl⟩
  | frontArc a b =>
    simp [ends] at h
    obtain ⟨rfl, rfl⟩ := h
    have e := congrArg Prod.fst (fc (g0 := g) rfl)
    have e' : g' = _ := e
    rw [e']
    exact ⟨new hok.forward i j, new hok.training i j, same _ _ (fun h => h), rfl, rfl⟩
  | lossArc a b =>
    simp [ends] at h
    obtain ⟨rfl, rfl⟩ := h
    have e := congrArg Prod.fst (tc (g0 := g) rfl)
    have e' : g' = _ := e
    rw [e']
    exact ⟨same _ _ (fun h => h), new hok.training i j, same _ _ (fun h => h), rfl, rfl⟩
  | edge a b =>
    simp [ends] at h
    obtain ⟨rfl, rfl⟩ := h
    have e : g' = (andThen (g.addArcBackward [(b, a)]) fun g => g.addArcForward [(a, b)]).1 := rfl
    rw [bc] at e
    have e' : g' = (DLGraph.addArcForward { g with backward := insertEdge j i g.backward } [(a, b)]).1 := e
    rw [fc (g0 := { g with backward := insertEdge j i g.backward }) rfl] at e'
    rw [e']
    exact ⟨new hok.forward i j, new hok.training i j, new hok.backward j i, rfl, rfl⟩
  | lossEdge a b =>
    simp [ends] at h
    obtain ⟨rfl, rfl⟩ := h
    have e : g' = (andThen (g.addArcBackward [(b, a)]) fun g => g.addArcForwardLoss [(a, b)]).1 := rfl
    rw [bc] at e
    have e' : g' = (DLGraph.addArcForwardLoss { g with backward := insertEdge j i g.backward }
      [(a, b)]).1 := e
    rw [tc (g0 := { g with backward := insertEdge j i g.backward }) rfl] at e'
    rw [e']
    exact ⟨same _ _ (fun h => h), new hok.training i j, new hok.backward j i, rfl, rfl⟩

/-- **C34**: `add_node` of a layer that is already in the graph changes nothing; otherwise the layer
is appended and everything else stays. -/
theorem C34_add_node (g : DLGraph) (l : Ptr) :
    (l ∈ g.layers → g.addNode l = g) ∧
    (l ∉ g.layers → (g.addNode l).layers = g.layers ++ [l]) ∧
    (g.addNode l).addNode l = g.addNode l ∧
    (g.addNode l).forward = g.forward ∧ (g.addNode l).training = g.training ∧
    (g.addNode l).backward = g.backward ∧ (g.addNode l).loss = g.loss ∧
    (g.addNode l).inputs = g.inputs ∧ (g.addNode l).outputs = g.outputs := by
  have pos : ∀ g : DLGraph, l ∈ g.layers → g.addNode l = g := by
    intro g h
    unfold DLGraph.addNode
    rw [if_pos h]
  refine ⟨pos g, ?_, ?_, ?_⟩
  · intro h
    unfold DLGraph.addNode
    rw [if_neg h]
  · apply pos
    unfold DLGraph.addNode
    split
    · assumption
    · simp
  · unfold DLGraph.addNode
    split
    · exact ⟨rfl, rfl, rfl, rfl, rfl, rfl⟩
    · exact ⟨rfl, rfl, rfl, rfl, rfl, rfl⟩

/-- `add_layer` and `add_loss` append one layer; `add_loss` also records its position. -/
theorem C34_add_layer (ops : List Op) :
    let g := (built ops).graph
    (∃ p, p.loss = false ∧ p ∉ g.layers ∧ ((built ops).apply .addLayer).1.graph
      = { g with layers := g.layers ++ [p] }) ∧
    (∃ p, p.loss = true ∧ p ∉ g.layers ∧ ((built ops).apply .addLoss).1.graph
      = { g with layers := g.layers ++ [p], loss := g.loss ++ [g.layers.length] }) := by
  have hm := mok_run ops mok_empty
  exact ⟨⟨_, rfl, fresh_not_mem hm false, addNode_fresh hm false⟩,
    ⟨_, rfl, fresh_not_mem hm true, addLoss_fresh hm⟩⟩

/-- Every recorded index refers to an existing layer. -/
def IndicesValid (g : DLGraph) : Prop :=
  (∀ x y, fwdArc g x y ∨ trainArc g x y ∨ backArc g x y →
    x < g.layers.length ∧ y < g.layers.length) ∧
  (∀ i, i ∈ g.inputs ∨ i ∈ g.outputs ∨ i ∈ g.loss → i < g.layers.length)

theorem indicesValid_of {g : DLGraph} (h : Ok g) : IndicesValid g := by
  refine ⟨?_, ?_⟩
  · rintro x y (h1 | h1 | h1)
    · exact h.forwardRange x y h1
    · exact h.trainingRange x y h1
    · exact h.backwardRange x y h1
  · rintro i (h1 | h1 | h1)
    · exact h.inputs i h1
    · exact h.outputs i h1
    · exact h.loss i h1

/-- **C34**: after every history of calls, also with calls that throw, on a `DLGraph` or on a model,
every recorded index refers to an existing layer. -/
theorem C34_indices (gops : List GOp) (ops : List Op) :
    IndicesValid (DLGraph.empty.runOps gops) ∧ IndicesValid (built ops).graph :=
  ⟨indicesValid_of (ok_runOps gops ok_empty), indicesValid_of (mok_run ops mok_empty).ok⟩

/-- **C34**: in every model the loss indices are exactly the positions of the loss layers, each once. -/
theorem C34_loss_indices (ops : List Op) :
    (built ops).graph.loss.Nodup ∧
    ∀ i, i ∈ (built ops).graph.loss ↔ ∃ p, (built ops).graph.layers[i]? = some p ∧ p.loss = true := by
  have hm := mok_run ops mok_empty
  exact ⟨hm.lossNodup, hm.lossIff⟩

/-- **C34 is false** of `DLGraph::add_loss`: called with a loss layer that is already in the graph, it
records the position of the last layer, which need not be a loss layer. -/
theorem C34_loss_index_refuted :
    ¬ ∀ gops : List GOp, (∀ l, GOp.addLoss l ∈ gops → l.loss = true) →
      ∀ i ∈ (DLGraph.empty.runOps gops).loss, ∃ p, (DLGraph.empty.runOps gops).layers[i]? = some p ∧
        p.loss = true := by
  intro h
  obtain ⟨p, h1, h2⟩ := h [.addNode ⟨0, true⟩, .addNode ⟨1, false⟩, .addLoss ⟨0, true⟩]
    (by intro l hl; simp at hl; subst hl; rfl) 1 (by decide)
  have : p = ⟨1, false⟩ := by
    have : some (⟨1, false⟩ : Ptr) = some p := h1
    exact (Option.some.inj this).symm
  rw [this] at h2
  exact absurd h2 (by decide)

/-- **C34 is false** of the vector forms of `DLGraph`: connecting several layers, one of which is not
in the graph, throws but leaves the connections made before. -/
theorem C34_vector_refuted :
    ∃ (g : DLGraph) (arcs : List (Ptr × Ptr)) (msg : String),
      (g.addEdge arcs).2 = .throw msg ∧ (g.addEdge arcs).1 ≠ g := by
  refine ⟨DLGraph.empty.runOps [.addNode ⟨0, false⟩, .addNode ⟨1, false⟩],
    [(⟨0, false⟩, ⟨1, false⟩), (⟨7, false⟩, ⟨1, false⟩)], _, rfl, by decide⟩

/-- The vector forms, what holds: they throw iff one of the layers is not in the graph. -/
theorem C34_vector_throws (g : DLGraph) (arcs : List (Ptr × Ptr)) :
    ((∀ p ∈ arcs, p.1 ∈ g.layers ∧ p.2 ∈ g.layers) →
      (g.addArcForward arcs).2 = .ok () ∧ (g.addArcForwardLoss arcs).2 = .ok () ∧
      (g.addArcBackward arcs).2 = .ok ()) ∧
    ((∃ p ∈ arcs, p.1 ∉ g.layers ∨ p.2 ∉ g.layers) →
      (∃ msg, (g.addArcForward arcs).2 = .throw msg) ∧ (∃ msg, (g.addArcForwardLoss arcs).2 = .throw msg) ∧
      (∃ msg, (g.addArcBackward arcs).2 = .throw msg)) := by
  have loop : ∀ (step : DLGraph → Ptr → Ptr → DLGraph × Exec Unit),
      (∀ g f t, (f ∈ g.layers ∧ t ∈ g.layers ∧ (step g f t).2 = .ok () ∧
          (step g f t).1.layers = g.layers) ∨
        ((f ∉ g.layers ∨ t ∉ g.layers) ∧ ∃ msg, (step g f t).2 = .throw msg)) →
      ∀ (arcs : List (Ptr × Ptr)) (g : DLGraph),
        ((∀ p ∈ arcs, p.1 ∈ g.layers ∧ p.2 ∈ g.layers) → (arcLoop step arcs g).2 = .ok ()) ∧
        ((∃ p ∈ arcs, p.1 ∉ g.layers ∨ p.2 ∉ g.layers) →
          ∃ msg, (arcLoop step arcs g).2 = .throw msg) := by
    intro step hs arcs
    induction arcs with
    | nil => intro g; exact ⟨fun _ => rfl, by simp⟩
    | cons p arcs ih =>
      intro g
      obtain ⟨f, t⟩ := p
      rcases hs g f t with ⟨h1, h2, h3, h4⟩ | ⟨h1, msg, h2⟩
      · have e : arcLoop step ((f, t) :: arcs) g = arcLoop step arcs (step g f t).1 := by
          conv_lhs => unfold arcLoop
          cases hst : step g f t with
          | mk g' r =>
            rw [hst] at h3
            simp only at h3
            subst h3
            rfl
        rw [e]
        obtain ⟨a, b⟩ := ih (step g f t).1
        rw [h4] at a b
        constructor
        · intro hp; exact a (fun p hp' => hp p (by simp [hp']))
        · rintro ⟨p, hp, hpn⟩
          rcases List.mem_cons.mp hp with rfl | hp
          · rcases hpn with hpn | hpn
            · exact absurd h1 hpn
            · exact absurd h2 hpn
          · exact b ⟨p, hp, hpn⟩
      · have e : (arcLoop step ((f, t) :: arcs) g).2 = .throw msg := by
          unfold arcLoop
          cases hst : step g f t with
          | mk g' r =>
            rw [hst] at h2
            simp only at h2
            subst h2
            rfl
        constructor
        · intro hp
          have := hp (f, t) (by simp)
          rcases h1 with h1 | h1
          · exact absurd this.1 h1
          · exact absurd this.2 h1
        · intro _; exact ⟨msg, e⟩
  have fw := loop DLGraph.forwardArc (by
    intro g f t
    rcases forwardArc_cases g f t with ⟨h1, h2, i, j, _, _, h5⟩ | ⟨h1, h5⟩
    · left; rw [h5]; exact ⟨h1, h2, rfl, rfl⟩
    · right; rw [h5]; exact ⟨h1, _, rfl⟩) arcs g
  have tw := loop DLGraph.trainingArc (by
    intro g f t
    rcases trainingArc_cases g f t with ⟨h1, h2, i, j, _, _, h5⟩ | ⟨h1, h5⟩
    · left; rw [h5]; exact ⟨h1, h2, rfl, rfl⟩
    · right; rw [h5]; exact ⟨h1, _, rfl⟩) arcs g
  have bw := loop DLGraph.backwardArc (by
    intro g f t
    rcases backwardArc_cases g f t with ⟨h1, h2, i, j, _, _, h5⟩ | ⟨h1, h5⟩
    · left; rw [h5]; exact ⟨h1, h2, rfl, rfl⟩
    · right; rw [h5]; exact ⟨h1, _, rfl⟩) arcs g
  have ff : (g.addArcForward arcs).2 = (arcLoop DLGraph.forwardArc arcs g).2 := by
    unfold DLGraph.addArcForward
    split
    · rename_i heq; rw [heq]
    · rfl
  rw [ff]
  exact ⟨fun h => ⟨fw.1 h, tw.1 h, bw.1 h⟩, fun h => ⟨fw.2 h, tw.2 h, bw.2 h⟩⟩

example : ends (.edge ⟨0, false⟩ ⟨1, false⟩) = some (⟨0, false⟩, ⟨1, false⟩) ∧
    (built [.addLayer, .addLayer]).graph.layers[1]? = some ⟨1, false⟩ ∧
    ((built [.addLayer, .addLayer]).apply (.edge ⟨0, false⟩ ⟨1, false⟩)).1.graph.forward = [(0, [1])] ∧
    ((built [.addLayer, .addLayer]).apply (.edge ⟨0, false⟩ ⟨1, false⟩)).1.graph.backward = [(1, [0])] := by
  decide

/-! ### C63 -/

/-- **C63**: for every graph built through the interface, the successor and predecessor queries and the
adjacency matrices describe the same arcs; the queries list positions in increasing order, and
computing the matrix stays within bounds. -/
theorem C63_queries (gops : List GOp) (e : Edges)
    (he : e = (DLGraph.empty.runOps gops).forward ∨ e = (DLGraph.empty.runOps gops).training ∨
      e = (DLGraph.empty.runOps gops).backward) :
    let n := (DLGraph.empty.runOps gops).layers.length
    (∀ x y, x ∈ predecessors e y ↔ y ∈ successors e x) ∧
    (∀ x, hasSuccessors e x = true ↔ ∃ y, y ∈ successors e x) ∧
    (∀ y, hasPredecessors e y = true ↔ ∃ x, y ∈ successors e x) ∧
    (∀ x, (successors e x).Nodup) ∧
    ∃ m, adjacentMatrix n e = .ok m ∧ m.length = n * n ∧
      ∀ i j, i < n → j < n → m[i * n + j]? = some (if j ∈ successors e i then 1 else 0) := by
  have hok := ok_runOps gops ok_empty
  have h : EdgesOk e ∧ ∀ x y, y ∈ successors e x → x < (DLGraph.empty.runOps gops).layers.length ∧
      y < (DLGraph.empty.runOps gops).layers.length := by
    rcases he with rfl | rfl | rfl
    · exact ⟨hok.forward, hok.forwardRange⟩
    · exact ⟨hok.training, hok.trainingRange⟩
    · exact ⟨hok.backward, hok.backwardRange⟩
  exact ⟨fun x y => mem_predecessors h.1 x y, hasSuccessors_iff e, hasPredecessors_iff h.1,
    successors_nodup h.1, adjacent_spec h.1 h.2⟩

/-- The layers a model initialises are its non-loss layers, each once, in order. -/
theorem C63_forward_layers (ops : List Op) :
    let g := (built ops).graph
    g.forwardLayersIdx.Pairwise (· < ·) ∧
    ∀ i, i ∈ g.forwardLayersIdx ↔ ∃ p, g.layers[i]? = some p ∧ p.loss = false := by
  have hm := mok_run ops mok_empty
  refine ⟨List.pairwise_lt_range.filter _, ?_⟩
  intro i
  unfold DLGraph.forwardLayersIdx
  rw [List.mem_filter, List.mem_range]
  simp only [Bool.not_eq_true', List.contains_eq_mem, decide_eq_false_iff_not]
  rw [hm.lossIff i]
  constructor
  · rintro ⟨h1, h2⟩
    refine ⟨_, List.getElem?_eq_getElem h1, ?_⟩
    cases hb : ((Graph.Model.empty.run ops).graph.layers[i]).loss with
    | false => rfl
    | true => exact absurd ⟨_, List.getElem?_eq_getElem h1, hb⟩ h2
  · rintro ⟨p, h1, h2⟩
    refine ⟨(List.getElem?_eq_some_iff.mp h1).1, ?_⟩
    rintro ⟨q, h3, h4⟩
    have : p = q := Option.some.inj (h1.symm.trans h3)
    subst this
    rw [h2] at h4
    exact absurd h4 (by decide)

example : adjacentMatrix 3 [(0, [1, 2]), (1, [2])] = .ok [0, 1, 1, 0, 0, 1, 0, 0, 0] := by decide

end Verif.Props
