import Verif.Proofs.Shape

/-! C89: models of any shape are memory safe. -/

namespace Verif.Props

open Verif Verif.Net Verif.Graph Verif.Spec

noncomputable section

/-- All histories of suitable calls on the model return: no undefined behaviour and no exception, with any
optimizer. -/
def Serves (net : Net) (n : Nat) : Prop :=
  ∀ (σ : Type) (opt : σ → ℝ → ℝ → σ × ℝ) (s : σ) (cs : List UserCall), (∀ c ∈ cs, Suitable net n c) →
    ∃ r, serve opt cs (s, net) = .ok r

/-- **C89**: take a model assembled with `add_layer`, `add_loss`, `create_edge` and `create_loss_edge` in any order,
without cycles but otherwise of any shape - branches, joins, skip connections, several inputs, outputs and loss
layers - of layers of any class, except concatenation layers, whose sizes agree along every
connection.  If its input and output lists are right (C33: an edge was made after the last layer was added) and every
loss layer is connected, then every history of `predict`, `step`, `train` and `reset_score` with vectors of the right
lengths returns: no access outside a buffer, no null pointer, no exception. -/
theorem C89_any_shape_partial (ops : List Op) (hops : ∀ op ∈ ops, Joins op) (net : Net)
    (hg : net.graph = (built ops).graph) (n : Nat) (ha : Agrees net n) (hl : ListsRight net.graph)
    (hacyc : Acyclic (trainArc net.graph)) (hloss : ∀ i ∈ net.graph.loss, ∃ x, trainArc net.graph x i)
    (hne : ∃ i, i < net.graph.layers.length ∧ i ∉ net.graph.loss) : Serves net n := by
  intro σ opt s cs hc
  obtain ⟨h1, h2⟩ := reached_of_acyclic hops hg hl hacyc hloss hne
  obtain ⟨r, h3, _⟩ := serve_total (shaped_reached hops hg ha hl h1 h2) opt cs s net (kept_self ha) hc
  exact ⟨r, h3⟩

/-- The same for models with cycles, if every layer can be reached from an input layer and there is an output
layer. -/
theorem C89_cycles_partial (ops : List Op) (hops : ∀ op ∈ ops, Joins op) (net : Net)
    (hg : net.graph = (built ops).graph) (n : Nat) (ha : Agrees net n) (hl : ListsRight net.graph)
    (hr : ∀ i, i < net.graph.layers.length → Reachable (trainArc net.graph) net.graph.inputs i)
    (ho : net.graph.outputs ≠ []) : Serves net n := by
  intro σ opt s cs hc
  obtain ⟨r, h3, _⟩ := serve_total (shaped_reached hops hg ha hl hr ho) opt cs s net (kept_self ha) hc
  exact ⟨r, h3⟩

/-- And training such a model on a data set, after any such history, returns as well: with every optimizer, number
of epochs and positive batch size. -/
theorem C89_fit_partial (ops : List Op) (hops : ∀ op ∈ ops, Joins op) (net : Net)
    (hg : net.graph = (built ops).graph) (n : Nat) (ha : Agrees net n) (hl : ListsRight net.graph)
    (hacyc : Acyclic (trainArc net.graph)) (hloss : ∀ i ∈ net.graph.loss, ∃ x, trainArc net.graph x i)
    (hne : ∃ i, i < net.graph.layers.length ∧ i ∉ net.graph.loss) {σ : Type} (opt : σ → ℝ → ℝ → σ × ℝ) (s : σ)
    (cs : List UserCall) (hc : ∀ c ∈ cs, Suitable net n c) (d : Data.Dataset ℝ)
    (hd : ∀ i, i < d.size → ∃ x t, d.input i = .ok x ∧ d.label i = .ok t ∧ Suitable net n (.step x t))
    (fuel epochs b : Nat) (hb : 1 ≤ b) (hf : batchCount d.size b ≤ fuel) :
    ∃ r, serve opt cs (s, net) = .ok r ∧ ∃ r', Training.fit opt d fuel epochs b r = some (.ok r') := by
  obtain ⟨h1, h2⟩ := reached_of_acyclic hops hg hl hacyc hloss hne
  have hs := shaped_reached hops hg ha hl h1 h2
  obtain ⟨⟨s', m⟩, h3, h4⟩ := serve_total hs opt cs s net (kept_self ha) hc
  obtain ⟨r', h5, _⟩ := shaped_fit hs opt s' h4 hd (epochs := epochs) hb hf
  exact ⟨_, h3, r', h5⟩

/-! ### Models that crash -/

/-- An identity layer and a mean squared error, each for one value. -/
def idLayer : AnyLayer := .act .linear (Act.Layer.new 1)
@[inherit_doc idLayer] def mseLayer : AnyLayer := .loss .mse (Loss.Layer.new 1 1 0)

theorem idLayer_new : NewLayer idLayer := ⟨idLayer, [], .inr (.inl ⟨.linear, 1, rfl, by simp⟩), rfl, rfl⟩
theorem mseLayer_new : NewLayer mseLayer := ⟨mseLayer, [], .inr (.inr (.inr ⟨.mse, 1, 1, 0, rfl⟩)), rfl, rfl⟩

/-- A model of such layers. -/
def bareNet (ops : List Op) : Net :=
  ⟨(built ops).graph, (built ops).graph.layers.map fun p => if p.loss then mseLayer else idLayer⟩

theorem bare_cases {ops : List Op} {i : Nat} {a : AnyLayer} (h : (bareNet ops).layers[i]? = some a) :
    ∃ p, (built ops).graph.layers[i]? = some p ∧ a = if p.loss then mseLayer else idLayer := by
  unfold bareNet at h
  dsimp only at h
  rw [List.getElem?_map] at h
  cases hp : (built ops).graph.layers[i]? with
  | none => rw [hp] at h; cases h
  | some p =>
    rw [hp] at h
    cases h
    exact ⟨p, rfl, rfl⟩

theorem bare_agrees (ops : List Op) (hops : ∀ op ∈ ops, Joins op) : Agrees (bareNet ops) 1 := by
  have in1 : ∀ p : Ptr, AnyLayer.takes (if p.loss then mseLayer else idLayer) = 1 := by
    intro p
    split
    · rfl
    · simp [idLayer, AnyLayer.takes, AnyLayer.inputSize, Act.Layer.new]
  refine ⟨?_, by simp [bareNet], ?_, ?_, ?_⟩
  · intro a ha
    obtain ⟨i, hi⟩ := List.getElem?_of_mem ha
    obtain ⟨p, _, rfl⟩ := bare_cases hi
    split
    · exact mseLayer_new
    · exact idLayer_new
  · intro i a ha
    obtain ⟨p, hp, rfl⟩ := bare_cases ha
    show _ ↔ i ∈ (built ops).graph.loss
    rw [(C34_loss_indices ops).2 i, hp]
    cases h : p.loss <;> simp [h, mseLayer, idLayer, Spec.AnyLayer.isLoss]
  · intro i a _ ha
    obtain ⟨p, hp, rfl⟩ := bare_cases ha
    exact in1 p
  · intro x y a b hxy hx hy
    obtain ⟨p, hp, rfl⟩ := bare_cases hx
    obtain ⟨q, hq, rfl⟩ := bare_cases hy
    obtain ⟨p', h1, h2⟩ := (joined_built ops hops).source x y hxy
    rw [hp] at h1
    cases h1
    rw [in1, h2]
    simp [idLayer, AnyLayer.gives, AnyLayer.outputSize, Act.Layer.new]

theorem bare_suitable (ops : List Op) (x t : ℝ) : Suitable (bareNet ops) 1 (.step [x] [t]) := by
  refine ⟨rfl, ?_⟩
  intro f l h
  obtain ⟨i, hi⟩ := List.getElem?_of_mem h
  obtain ⟨p, _, e⟩ := bare_cases hi
  split at e
  · cases e
    exact ⟨rfl, by decide, fun e => by cases e⟩
  · cases e

theorem bare_crash {ops : List Op} (h : (bareNet ops).step [0] [1] = .ub) : ¬ Serves (bareNet ops) 1 := by
  intro hs
  obtain ⟨r, e⟩ := hs Unit (Opt.gdStep 1) () [.step [0] [1]] (by
    intro c hc
    rw [List.mem_singleton.mp hc]
    exact bare_suitable ops 0 1)
  unfold serve at e
  dsimp only at e
  rw [h] at e
  cases e

theorem bare_step {ops : List Op} (inputs : List Nat) (arcs : List (Nat × Nat)) (loss : List Nat) (ls : List Ptr)
    (h1 : (built ops).graph.inputs = inputs) (h2 : trainingArcs (built ops).graph = arcs)
    (h3 : (built ops).graph.loss = loss) (h4 : (built ops).graph.layers = ls)
    (h : next (each (targetAt [1]) loss (ls.map fun p => if p.loss then mseLayer else idLayer))
      (fun ls => Steps.mk ls []) (fun ls =>
        next (each (trainAt [0])
          (inputs.map (fun i => (Source.external, i)) ++ arcs.map (fun a => (Source.output a.1, a.2)))
          ⟨ls, List.replicate ls.length none⟩) id fun st =>
        next (each (fun st i => backwardAt [0] st i []) loss st) id fun st =>
        each (backArcAt [0]) (backwardArcs (built ops).graph) st) = .ub) : (bareNet ops).step [0] [1] = .ub := by
  unfold Net.step bareNet
  dsimp only
  rw [h1, h2, h3, h4, h]
  rfl

theorem acyclic_of_lt {ops : List Op} (hk : ∀ p ∈ (built ops).graph.training, ∀ y ∈ p.2, p.1 < y) :
    Acyclic (trainArc (built ops).graph) := by
  intro x hx
  have step : ∀ a b, trainArc (built ops).graph a b → a < b := by
    intro a b hab
    obtain ⟨s, h1, h2⟩ := (mem_successors (mok_run ops mok_empty).ok.training a b).mp hab
    exact hk (a, s) h1 b h2
  have : ∀ {a b}, Relation.TransGen (trainArc (built ops).graph) a b → a < b := by
    intro a b hab
    induction hab with
    | single h => exact step _ _ h
    | tail _ h ih => exact ih.trans (step _ _ h)
  exact absurd (this hx) (lt_irrefl x)

/-- One layer and a loss layer. -/
def lonely : List Op := [.addLayer, .addLoss, .lossEdge ⟨0, false⟩ ⟨1, true⟩]

/-- **C89** fails for the smallest model: one layer, connected to a loss layer.  `create_loss_edge` does not look for
input layers, so `step` calls no `training_forward`, and `backward` of the loss layer dereferences its null
input. -/
theorem C89_single_layer_refuted :
    ¬ ∀ (ops : List Op) (net : Net) (n : Nat), (∀ op ∈ ops, Joins op) → net.graph = (built ops).graph →
      Agrees net n → Acyclic (trainArc net.graph) → (∀ i ∈ net.graph.loss, ∃ x, trainArc net.graph x i) →
      (∃ i, i < net.graph.layers.length ∧ i ∉ net.graph.loss) → Serves net n := by
  intro h
  have hops : ∀ op ∈ lonely, Joins op := by simp [lonely, Joins]
  refine bare_crash (ops := lonely) ?_ (h lonely (bareNet lonely) 1 hops rfl (bare_agrees _ hops) ?_ ?_
    ⟨0, by decide, by decide⟩)
  · exact bare_step [] [] [1] [⟨0, false⟩, ⟨1, true⟩] (by decide) (by decide)
      (by decide) (by decide) rfl
  · exact acyclic_of_lt (by decide)
  · intro i hi
    have : i = 1 := by
      have e : (bareNet lonely).graph.loss = [1] := by decide
      rw [e] at hi
      simpa using hi
    subst this
    exact ⟨0, by decide⟩

/-- Two layers in a row, and a loss layer that was never connected. -/
def loose : List Op := [.addLayer, .addLayer, .addLoss, .edge ⟨0, false⟩ ⟨1, false⟩]

/-- It also fails if a loss layer was added but not connected: `step` calls its `backward` all the same. -/
theorem C89_unconnected_loss_refuted :
    ¬ ∀ (ops : List Op) (net : Net) (n : Nat), (∀ op ∈ ops, Joins op) → net.graph = (built ops).graph →
      Agrees net n → ListsRight net.graph → Acyclic (trainArc net.graph) →
      (∃ i, i < net.graph.layers.length ∧ i ∉ net.graph.loss) → Serves net n := by
  intro h
  have hops : ∀ op ∈ loose, Joins op := by simp [loose, Joins]
  refine bare_crash (ops := loose) ?_ (h loose (bareNet loose) 1 hops rfl (bare_agrees _ hops) ?_ ?_
    ⟨0, by decide, by decide⟩)
  · exact bare_step [0] [(0, 1)] [2] [⟨0, false⟩, ⟨1, false⟩, ⟨2, true⟩] (by decide) (by decide)
      (by decide) (by decide) rfl
  · exact (C33_lists_partial [.addLayer, .addLayer, .addLoss] [] ⟨0, false⟩ ⟨1, false⟩ (by decide) (by decide)
      (by simp)).2
  · exact acyclic_of_lt (by decide)

/-- Two layers in a row, and two layers in a cycle that ends in a loss layer. -/
def loop : List Op :=
  [.addLayer, .addLayer, .addLayer, .addLayer, .addLoss, .edge ⟨2, false⟩ ⟨3, false⟩, .edge ⟨3, false⟩ ⟨2, false⟩,
   .lossEdge ⟨3, false⟩ ⟨4, true⟩, .edge ⟨0, false⟩ ⟨1, false⟩]

/-- And it fails for cycles that no input layer leads into. -/
theorem C89_cycle_refuted :
    ¬ ∀ (ops : List Op) (net : Net) (n : Nat), (∀ op ∈ ops, Joins op) → net.graph = (built ops).graph →
      Agrees net n → ListsRight net.graph → (∀ i ∈ net.graph.loss, ∃ x, trainArc net.graph x i) →
      (∃ i, i < net.graph.layers.length ∧ i ∉ net.graph.loss) → Serves net n := by
  intro h
  have hops : ∀ op ∈ loop, Joins op := by simp [loop, Joins]
  refine bare_crash (ops := loop) ?_ (h loop (bareNet loop) 1 hops rfl (bare_agrees _ hops) ?_ ?_
    ⟨0, by decide, by decide⟩)
  · exact bare_step [0] [(0, 1)] [4] [⟨0, false⟩, ⟨1, false⟩, ⟨2, false⟩, ⟨3, false⟩, ⟨4, true⟩] (by decide) (by decide)
      (by decide) (by decide) rfl
  · exact (C33_lists_partial [.addLayer, .addLayer, .addLayer, .addLayer, .addLoss, .edge ⟨2, false⟩ ⟨3, false⟩,
      .edge ⟨3, false⟩ ⟨2, false⟩, .lossEdge ⟨3, false⟩ ⟨4, true⟩] [] ⟨0, false⟩ ⟨1, false⟩ (by decide) (by decide)
      (by simp)).2
  · intro i hi
    have : i = 4 := by
      have e : (bareNet loop).graph.loss = [4] := by decide
      rw [e] at hi
      simpa using hi
    subst this
    exact ⟨3, by decide⟩

/-! ### A model that does not -/

/-- A diamond with a skip connection and two loss layers: 0 → 1 → 3, 0 → 2 → 3, 0 → 3, losses after 2 and 3. -/
def mesh : List Op :=
  [.addLayer, .addLayer, .addLayer, .addLayer, .addLoss, .addLoss,
   .lossEdge ⟨2, false⟩ ⟨4, true⟩, .lossEdge ⟨3, false⟩ ⟨5, true⟩, .edge ⟨0, false⟩ ⟨1, false⟩,
   .edge ⟨0, false⟩ ⟨2, false⟩, .edge ⟨1, false⟩ ⟨3, false⟩, .edge ⟨0, false⟩ ⟨3, false⟩, .edge ⟨2, false⟩ ⟨3, false⟩]

def meshNet (w : List ℝ) (b : List ℝ) : Net :=
  ⟨(built mesh).graph, [.dense { denseNew 2 3 with weights := w, biases := b }, .act .relu (Act.Layer.new 3),
    .act .softmax (Act.Layer.new 3), .act .tanh (Act.Layer.new 3), .loss .cce (Loss.Layer.new 3 4 0),
    .loss .mse (Loss.Layer.new 3 4 0)]⟩

theorem mesh_graph : (built mesh).graph.loss = [4, 5] ∧ (built mesh).graph.inputs = [0] ∧
    (built mesh).graph.layers.length = 6 ∧
    (built mesh).graph.training = [(0, [1, 2, 3]), (1, [3]), (2, [3, 4]), (3, [5])] := by decide

theorem mesh_layers {w b : List ℝ} {i : Nat} {a : AnyLayer} (h : (meshNet w b).layers[i]? = some a) :
    (i = 0 ∧ a = .dense { denseNew 2 3 with weights := w, biases := b }) ∨
    (i = 1 ∧ a = .act .relu (Act.Layer.new 3)) ∨ (i = 2 ∧ a = .act .softmax (Act.Layer.new 3)) ∨
    (i = 3 ∧ a = .act .tanh (Act.Layer.new 3)) ∨ (i = 4 ∧ a = .loss .cce (Loss.Layer.new 3 4 0)) ∨
    (i = 5 ∧ a = .loss .mse (Loss.Layer.new 3 4 0)) := by
  unfold meshNet at h
  dsimp only at h
  match i, h with
  | 0, h => cases h; exact .inl ⟨rfl, rfl⟩
  | 1, h => cases h; exact .inr (.inl ⟨rfl, rfl⟩)
  | 2, h => cases h; exact .inr (.inr (.inl ⟨rfl, rfl⟩))
  | 3, h => cases h; exact .inr (.inr (.inr (.inl ⟨rfl, rfl⟩)))
  | 4, h => cases h; exact .inr (.inr (.inr (.inr (.inl ⟨rfl, rfl⟩))))
  | 5, h => cases h; exact .inr (.inr (.inr (.inr (.inr ⟨rfl, rfl⟩))))
  | i + 6, h => simp at h

theorem mesh_agrees (w b : List ℝ) (hw : w.length = 6) (hb : b.length = 3) : Agrees (meshNet w b) 2 := by
  obtain ⟨g1, g2, g3, g4⟩ := mesh_graph
  refine ⟨?_, g3.symm, ?_, ?_, ?_⟩
  · intro a ha
    obtain ⟨i, hi⟩ := List.getElem?_of_mem ha
    rcases mesh_layers hi with ⟨_, rfl⟩ | ⟨_, rfl⟩ | ⟨_, rfl⟩ | ⟨_, rfl⟩ | ⟨_, rfl⟩ | ⟨_, rfl⟩
    · refine ⟨.dense (denseNew 2 3), [w, b], .inl ⟨.dense [⟨3, 1, 1⟩], ⟨2, 3, rfl, rfl⟩, fun _ => trivial⟩, ?_, rfl⟩
      simp [AnyLayer.params, denseNew, hw, hb]
    · exact ⟨_, [], .inr (.inl ⟨.relu, 3, rfl, fun h => by cases h⟩), rfl, rfl⟩
    · exact ⟨_, [], .inr (.inl ⟨.softmax, 3, rfl, fun _ => by decide⟩), rfl, rfl⟩
    · exact ⟨_, [], .inr (.inl ⟨.tanh, 3, rfl, fun h => by cases h⟩), rfl, rfl⟩
    · exact ⟨_, [], .inr (.inr (.inr ⟨.cce, 3, 4, 0, rfl⟩)), rfl, rfl⟩
    · exact ⟨_, [], .inr (.inr (.inr ⟨.mse, 3, 4, 0, rfl⟩)), rfl, rfl⟩
  · intro i a ha
    show _ ↔ i ∈ (built mesh).graph.loss
    rw [g1]
    rcases mesh_layers ha with ⟨rfl, rfl⟩ | ⟨rfl, rfl⟩ | ⟨rfl, rfl⟩ | ⟨rfl, rfl⟩ | ⟨rfl, rfl⟩ | ⟨rfl, rfl⟩ <;>
      simp [Spec.AnyLayer.isLoss]
  · intro i a hi ha
    change i ∈ (built mesh).graph.inputs at hi
    rw [g2, List.mem_singleton] at hi
    subst hi
    cases ha
    rfl
  · intro x y a c hxy hx hy
    obtain ⟨s, h1, h2⟩ := (mem_successors (mok_run mesh mok_empty).ok.training x y).mp hxy
    have h1' : (x, s) ∈ (built mesh).graph.training := h1
    rw [g4] at h1'
    have in3 : ∀ f, AnyLayer.takes (.act f (Act.Layer.new 3)) = 3 := by
      intro f; simp [AnyLayer.takes, AnyLayer.inputSize, Act.Layer.new]
    have out3 : ∀ f, AnyLayer.gives (.act f (Act.Layer.new 3)) = 3 := by
      intro f; simp [AnyLayer.gives, AnyLayer.outputSize, Act.Layer.new]
    have ha : AnyLayer.gives a = 3 := by
      rcases mesh_layers hx with ⟨rfl, rfl⟩ | ⟨rfl, rfl⟩ | ⟨rfl, rfl⟩ | ⟨rfl, rfl⟩ | ⟨rfl, rfl⟩ | ⟨rfl, rfl⟩
      · rfl
      · exact out3 _
      · exact out3 _
      · exact out3 _
      · simp at h1'
      · simp at h1'
    have hc : y ≠ 0 := by
      rintro rfl
      simp only [List.mem_cons, Prod.mk.injEq, List.not_mem_nil, or_false] at h1'
      rcases h1' with ⟨_, rfl⟩ | ⟨_, rfl⟩ | ⟨_, rfl⟩ | ⟨_, rfl⟩ <;> simp at h2
    rw [ha]
    rcases mesh_layers hy with ⟨rfl, rfl⟩ | ⟨rfl, rfl⟩ | ⟨rfl, rfl⟩ | ⟨rfl, rfl⟩ | ⟨rfl, rfl⟩ | ⟨rfl, rfl⟩
    · exact absurd rfl hc
    · exact (in3 _).symm
    · exact (in3 _).symm
    · exact (in3 _).symm
    · rfl
    · rfl

theorem mesh_serves (w b : List ℝ) (hw : w.length = 6) (hb : b.length = 3) : Serves (meshNet w b) 2 := by
  obtain ⟨g1, g2, g3, g4⟩ := mesh_graph
  have hops : ∀ op ∈ mesh, Joins op := by simp [mesh, Joins]
  refine C89_any_shape_partial mesh hops (meshNet w b) rfl 2 (mesh_agrees w b hw hb) ?_ (acyclic_of_lt (by decide)) ?_
    ⟨0, by show 0 < (built mesh).graph.layers.length; decide, by show 0 ∉ (built mesh).graph.loss; decide⟩
  · exact (C33_lists_partial [.addLayer, .addLayer, .addLayer, .addLayer, .addLoss, .addLoss,
      .lossEdge ⟨2, false⟩ ⟨4, true⟩, .lossEdge ⟨3, false⟩ ⟨5, true⟩, .edge ⟨0, false⟩ ⟨1, false⟩,
      .edge ⟨0, false⟩ ⟨2, false⟩, .edge ⟨1, false⟩ ⟨3, false⟩, .edge ⟨0, false⟩ ⟨3, false⟩] []
      ⟨2, false⟩ ⟨3, false⟩ (by decide) (by decide) (by simp)).2
  · intro i hi
    change i ∈ (built mesh).graph.loss at hi
    show ∃ x, trainArc (built mesh).graph x i
    rw [g1] at hi
    simp only [List.mem_cons, List.not_mem_nil, or_false] at hi
    rcases hi with rfl | rfl
    · exact ⟨2, by decide⟩
    · exact ⟨3, by decide⟩

theorem mesh_suitable (w b : List ℝ) (x1 x2 t1 t2 t3 : ℝ) (h : t1 ≠ 0 ∨ t2 ≠ 0) :
    Suitable (meshNet w b) 2 (.step [x1, x2] [t1, t2, t3]) := by
  refine ⟨rfl, ?_⟩
  intro f l hl
  obtain ⟨i, hi⟩ := List.getElem?_of_mem hl
  have key : l.inputSize = 3 := by
    rcases mesh_layers hi with ⟨_, e⟩ | ⟨_, e⟩ | ⟨_, e⟩ | ⟨_, e⟩ | ⟨_, e⟩ | ⟨_, e⟩ <;> cases e <;> rfl
  rw [key]
  refine ⟨rfl, by decide, fun _ => ?_⟩
  rcases h with h | h
  · exact ⟨0, by decide, by simpa [vec] using h⟩
  · exact ⟨1, by decide, by simpa [vec] using h⟩

/-- A history on this model with Adam. -/
example (w b : List ℝ) (hw : w.length = 6) (hb : b.length = 3) :
    ∃ r, serve (Opt.adamStep (1 / 100) (9 / 10) (999 / 1000) (1 / 10 ^ 8))
      [.predict [1, 2], .step [1, 2] [0, 1, 0], .step [3, -1] [1, 0, 0], .train, .resetScore, .predict [0, 0]]
      (Opt.Adam.init, meshNet w b) = .ok r := by
  refine mesh_serves w b hw hb _ _ _ _ ?_
  intro c hc
  simp only [List.mem_cons, List.not_mem_nil, or_false] at hc
  rcases hc with rfl | rfl | rfl | rfl | rfl | rfl
  · rfl
  · exact mesh_suitable w b _ _ _ _ _ (.inr (by norm_num))
  · exact mesh_suitable w b _ _ _ _ _ (.inl (by norm_num))
  · trivial
  · trivial
  · rfl

end

end Verif.Props
