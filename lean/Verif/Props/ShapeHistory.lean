import Verif.Proofs.ShapePredict
import Verif.Props.Shape

/-! C35 and C75 for models of any shape. -/

namespace Verif.Props

open Verif Verif.Net Verif.Graph Verif.Spec

noncomputable section

/-- **C75** for models of any shape: a model as in C89 - branches, joins, skip connections, several inputs, outputs and
loss layers, no cycle - of layers of any class except recurrent and concatenation layers.  Take any history of
`predict`, `reset_score`, `step` and `train` calls with vectors of the right lengths, with any optimizer.  Leaving out
all `predict` and `reset_score` calls changes nothing of what is learned. -/
theorem C75_any_shape_partial (ops : List Op) (hops : ∀ op ∈ ops, Joins op) (net : Net)
    (hg : net.graph = (built ops).graph) (n : Nat) (ha : Agrees net n) (hl : ListsRight net.graph)
    (hacyc : Acyclic (trainArc net.graph)) (hloss : ∀ i ∈ net.graph.loss, ∃ x, trainArc net.graph x i)
    (hne : ∃ i, i < net.graph.layers.length ∧ i ∉ net.graph.loss) (hn : NonRecurrent net) (σ : Type) (opt : σ → ℝ → ℝ → σ × ℝ) (s : σ)
    (cs : List UserCall) (hc : ∀ c ∈ cs, Suitable net n c) :
    learned (session opt cs (s, net)) = learned (session opt (cs.filter UserCall.learns) (s, net)) := by
  obtain ⟨h1, h2⟩ := reached_of_acyclic hops hg hl hacyc hloss hne
  obtain ⟨s', m1, m2, es, e1, e2, e3⟩ := session_same (shaped_reached hops hg ha hl h1 h2) hn opt cs s net net (kept_self ha)
    (kept_self ha) (ess_refl _) hc
  unfold learned
  rw [e1, e2, Exec.bind_ok, Exec.bind_ok]
  dsimp only
  rw [forall₂_map e3 fun a b e => e.params, forall₂_map e3 fun a b e => e.paramGrads]

/-- The same for models with cycles, if every layer can be reached from an input layer and there is an output
layer. -/
theorem C75_cycles_partial (ops : List Op) (hops : ∀ op ∈ ops, Joins op) (net : Net)
    (hg : net.graph = (built ops).graph) (n : Nat) (ha : Agrees net n) (hl : ListsRight net.graph)
    (hr : ∀ i, i < net.graph.layers.length → Reachable (trainArc net.graph) net.graph.inputs i)
    (ho : net.graph.outputs ≠ []) (hn : NonRecurrent net) (σ : Type) (opt : σ → ℝ → ℝ → σ × ℝ) (s : σ)
    (cs : List UserCall) (hc : ∀ c ∈ cs, Suitable net n c) :
    learned (session opt cs (s, net)) = learned (session opt (cs.filter UserCall.learns) (s, net)) := by
  obtain ⟨s', m1, m2, es, e1, e2, e3⟩ := session_same (shaped_reached hops hg ha hl hr ho) hn opt cs s net net (kept_self ha)
    (kept_self ha) (ess_refl _) hc
  unfold learned
  rw [e1, e2, Exec.bind_ok, Exec.bind_ok]
  dsimp only
  rw [forall₂_map e3 fun a b e => e.params, forall₂_map e3 fun a b e => e.paramGrads]

/-- No layer is a dropout or a recurrent layer. -/
def Plain (net : Net) : Prop := NonRecurrent net ∧ ∀ mx raw l, AnyLayer.dropout mx raw l ∉ net.layers

theorem simple_of_plain {net : Net} (h : Plain net) : ∀ a ∈ net.layers, Simple a := by
  intro a hm
  cases a with
  | dropout mx raw l => exact (h.2 mx raw l hm).elim
  | rnn f f1 l => exact (h.1 f f1 l hm).elim
  | _ => trivial

/-- **C35** for models of any shape without cycles and without dropout, recurrent and concatenation layers: the graph
determines a walk along its forward connections from an input layer to the first output layer, such that, after any
history of `predict`, `step`, `train` and `reset_score` calls, `predict(x)` returns `layer_n(… layer_1(x))` for the
layers along this walk.  So nothing else matters: no other layer, no earlier input, no earlier prediction. -/
theorem C35_any_shape_partial (ops : List Op) (hops : ∀ op ∈ ops, Joins op) (net : Net)
    (hg : net.graph = (built ops).graph) (n : Nat) (ha : Agrees net n) (hp : Plain net) (hl : ListsRight net.graph)
    (hacyc : Acyclic (trainArc net.graph)) (hloss : ∀ i ∈ net.graph.loss, ∃ x, trainArc net.graph x i)
    (hne : ∃ i, i < net.graph.layers.length ∧ i ∉ net.graph.loss) :
    ∃ p o, net.graph.outputs.head? = some o ∧ Walk net.graph p o ∧
      ∀ (σ : Type) (opt : σ → ℝ → ℝ → σ × ℝ) (s : σ) (cs : List UserCall), (∀ c ∈ cs, Suitable net n c) →
        ∃ r, serve opt cs (s, net) = .ok r ∧ ∀ x : List ℝ, x.length = n →
          ∃ m y layers, r.2.predict x = .ok (m, .ok y) ∧ p.map (fun i => r.2.layers[i]?) = layers.map some ∧
            Composition layers x y := by
  obtain ⟨h1, h2⟩ := reached_of_acyclic hops hg hl hacyc hloss hne
  have hs := shaped_reached hops hg ha hl h1 h2
  obtain ⟨o, os, ho, hw⟩ := hs.route_walk
  refine ⟨route net.graph, o, by rw [ho]; rfl, hw, ?_⟩
  intro σ opt s cs hc
  obtain ⟨r, e, k⟩ := serve_total hs opt cs s net (kept_self ha) hc
  refine ⟨r, e, ?_⟩
  intro x hx
  exact k.predicts hs (simple_of_shapes (serve_shape opt cs s net r e) (simple_of_plain hp)) hx

/-- **C35** for models that are trees: every layer takes its input from one layer at most.  Then the walk is the
path from the input layer to the first output layer. -/
theorem C35_tree_partial (ops : List Op) (hops : ∀ op ∈ ops, Joins op) (net : Net)
    (hg : net.graph = (built ops).graph) (n : Nat) (ha : Agrees net n) (hp : Plain net) (hl : ListsRight net.graph)
    (hacyc : Acyclic (trainArc net.graph)) (hloss : ∀ i ∈ net.graph.loss, ∃ x, trainArc net.graph x i)
    (hne : ∃ i, i < net.graph.layers.length ∧ i ∉ net.graph.loss)
    (htree : ∀ x y z, fwdArc net.graph x z → fwdArc net.graph y z → x = y) (p : List Nat) (o : Nat)
    (ho : net.graph.outputs.head? = some o) (hw : Walk net.graph p o)
    (σ : Type) (opt : σ → ℝ → ℝ → σ × ℝ) (s : σ) (cs : List UserCall) (hc : ∀ c ∈ cs, Suitable net n c)
    (x : List ℝ) (hx : x.length = n) :
    ∃ r, serve opt cs (s, net) = .ok r ∧
      ∃ m y layers, r.2.predict x = .ok (m, .ok y) ∧ p.map (fun i => r.2.layers[i]?) = layers.map some ∧
        Composition layers x y := by
  obtain ⟨q, o', h1, h2, h3⟩ := C35_any_shape_partial ops hops net hg n ha hp hl hacyc hloss hne
  rw [ho] at h1
  cases h1
  have e : p = q := walk_unique htree (fun i hi x hx => ((hl.1 i).mp hi).2.2 ⟨x, hx⟩) p q o hw h2
  subst e
  obtain ⟨r, e1, e2⟩ := h3 σ opt s cs hc
  exact ⟨r, e1, e2 x hx⟩

/-! ### Examples -/

theorem mesh_right : ListsRight (built mesh).graph :=
  (C33_lists_partial [.addLayer, .addLayer, .addLayer, .addLayer, .addLoss, .addLoss,
    .lossEdge ⟨2, false⟩ ⟨4, true⟩, .lossEdge ⟨3, false⟩ ⟨5, true⟩, .edge ⟨0, false⟩ ⟨1, false⟩,
    .edge ⟨0, false⟩ ⟨2, false⟩, .edge ⟨1, false⟩ ⟨3, false⟩, .edge ⟨0, false⟩ ⟨3, false⟩] []
    ⟨2, false⟩ ⟨3, false⟩ (by decide) (by decide) (by simp)).2

theorem mesh_loss : ∀ i ∈ (built mesh).graph.loss, ∃ x, trainArc (built mesh).graph x i := by
  intro i hi
  rw [mesh_graph.1] at hi
  simp only [List.mem_cons, List.not_mem_nil, or_false] at hi
  rcases hi with rfl | rfl
  · exact ⟨2, by decide⟩
  · exact ⟨3, by decide⟩

theorem mesh_plain (w b : List ℝ) : Plain (meshNet w b) := by
  constructor
  all_goals
    intro mx raw l h
    obtain ⟨i, hi⟩ := List.getElem?_of_mem h
    rcases mesh_layers hi with ⟨_, e⟩ | ⟨_, e⟩ | ⟨_, e⟩ | ⟨_, e⟩ | ⟨_, e⟩ | ⟨_, e⟩ <;> cases e

/-- The hypotheses of `C75_any_shape_partial`: the example of C89, a dense layer, a rectifier, a softmax and a
hyperbolic tangent with branches, joins, a skip connection and two loss layers. -/
example (w b : List ℝ) (hw : w.length = 6) (hb : b.length = 3) (x1 x2 x3 x4 : ℝ) :
    let opt := Opt.adamStep (1 / 100) (9 / 10) (999 / 1000) (1 / 10 ^ 8)
    learned (session opt [.predict [1, 2], .step [x1, x2] [0, 1, 0], .predict [x3, x4], .step [x3, x4] [1, 0, 0],
        .resetScore, .train] (Opt.Adam.init, meshNet w b))
      = learned (session opt [.step [x1, x2] [0, 1, 0], .step [x3, x4] [1, 0, 0], .train]
          (Opt.Adam.init, meshNet w b)) := by
  intro opt
  refine C75_any_shape_partial mesh (by simp [mesh, Joins]) (meshNet w b) rfl 2 (mesh_agrees w b hw hb) mesh_right
    (acyclic_of_lt (by decide)) mesh_loss
    ⟨0, by show 0 < (built mesh).graph.layers.length; decide, by show 0 ∉ (built mesh).graph.loss; decide⟩
    (mesh_plain w b).1 _ opt _
    [.predict [1, 2], .step [x1, x2] [0, 1, 0], .predict [x3, x4], .step [x3, x4] [1, 0, 0], .resetScore, .train] ?_
  intro c hc
  simp only [List.mem_cons, List.not_mem_nil, or_false] at hc
  rcases hc with rfl | rfl | rfl | rfl | rfl | rfl
  · rfl
  · exact mesh_suitable w b _ _ _ _ _ (.inr (by norm_num))
  · rfl
  · exact mesh_suitable w b _ _ _ _ _ (.inl (by norm_num))
  · trivial
  · trivial

/-- The hypotheses of `C35_any_shape_partial`, for the same model. -/
example (w b : List ℝ) (hw : w.length = 6) (hb : b.length = 3) :
    ∃ p o, (built mesh).graph.outputs.head? = some o ∧ Walk (built mesh).graph p o ∧
      ∀ x : List ℝ, x.length = 2 → ∃ m y layers, (meshNet w b).predict x = .ok (m, .ok y) ∧
        p.map (fun i => (meshNet w b).layers[i]?) = layers.map some ∧ Composition layers x y := by
  obtain ⟨p, o, h1, h2, h3⟩ := C35_any_shape_partial mesh (by simp [mesh, Joins]) (meshNet w b) rfl 2
    (mesh_agrees w b hw hb) (mesh_plain w b) mesh_right (acyclic_of_lt (by decide)) mesh_loss
    ⟨0, by show 0 < (built mesh).graph.layers.length; decide, by show 0 ∉ (built mesh).graph.loss; decide⟩
  obtain ⟨r, e, h⟩ := h3 Unit (Opt.gdStep 1) () [] (by intro c hc; cases hc)
  cases e
  exact ⟨p, o, h1, h2, h⟩

/-- **C35 is false** for joins: in that model the last layer has three predecessors, but its prediction is
`tanh(softmax(dense(x)))` - the rectifier and the skip connection do not contribute. -/
theorem C35_join_actual (w b : List ℝ) (hw : w.length = 6) (hb : b.length = 3) (x : List ℝ) (hx : x.length = 2) :
    ∃ m y, (meshNet w b).predict x = .ok (m, .ok y) ∧
      Composition [.dense { denseNew 2 3 with weights := w, biases := b }, .act .softmax (Act.Layer.new 3),
        .act .tanh (Act.Layer.new 3)] x y := by
  have ha := mesh_agrees w b hw hb
  obtain ⟨h1, h2⟩ := reached_of_acyclic (ops := mesh) (by simp [mesh, Joins]) rfl mesh_right (acyclic_of_lt (by decide)) mesh_loss
    ⟨0, by decide, by decide⟩
  obtain ⟨m, y, ks, e1, e2, e3⟩ := (kept_self ha).predicts (shaped_reached (ops := mesh) (by simp [mesh, Joins]) rfl ha mesh_right h1 h2)
    (simple_of_plain (mesh_plain w b)) hx
  refine ⟨m, y, e1, ?_⟩
  have hr : route (built mesh).graph = [0, 2, 3] := by decide
  have e2' : (route (built mesh).graph).map (fun i => (meshNet w b).layers[i]?) = ks.map some := e2
  rw [hr] at e2'
  have : ks = [.dense { denseNew 2 3 with weights := w, biases := b }, .act .softmax (Act.Layer.new 3),
        .act .tanh (Act.Layer.new 3)] := by
    have e4 : ks.map some = [AnyLayer.dense { denseNew 2 3 with weights := w, biases := b }, .act .softmax (Act.Layer.new 3),
        .act .tanh (Act.Layer.new 3)].map some := e2'.symm
    exact (List.map_injective_iff.mpr (Option.some_injective _)) e4
  rw [← this]
  exact e3

/-- A tree: a dense layer followed by a rectifier and by a softmax, each with its own loss layer. -/
def fork : List Op :=
  [.addLayer, .addLayer, .addLayer, .addLoss, .addLoss, .lossEdge ⟨1, false⟩ ⟨3, true⟩, .lossEdge ⟨2, false⟩ ⟨4, true⟩,
    .edge ⟨0, false⟩ ⟨1, false⟩, .edge ⟨0, false⟩ ⟨2, false⟩]

def forkNet (w b : List ℝ) : Net :=
  ⟨(built fork).graph, [.dense { denseNew 2 3 with weights := w, biases := b }, .act .relu (Act.Layer.new 3),
    .act .softmax (Act.Layer.new 3), .loss .mse (Loss.Layer.new 3 4 0), .loss .cce (Loss.Layer.new 3 4 0)]⟩

theorem fork_graph : (built fork).graph.loss = [3, 4] ∧ (built fork).graph.inputs = [0] ∧
    (built fork).graph.outputs = [1, 2] ∧ (built fork).graph.layers.length = 5 ∧
    (built fork).graph.training = [(0, [1, 2]), (1, [3]), (2, [4])] ∧ (built fork).graph.forward = [(0, [1, 2])] := by
  decide

theorem fork_layers {w b : List ℝ} {i : Nat} {a : AnyLayer} (h : (forkNet w b).layers[i]? = some a) :
    (i = 0 ∧ a = .dense { denseNew 2 3 with weights := w, biases := b }) ∨
    (i = 1 ∧ a = .act .relu (Act.Layer.new 3)) ∨ (i = 2 ∧ a = .act .softmax (Act.Layer.new 3)) ∨
    (i = 3 ∧ a = .loss .mse (Loss.Layer.new 3 4 0)) ∨ (i = 4 ∧ a = .loss .cce (Loss.Layer.new 3 4 0)) := by
  unfold forkNet at h
  dsimp only at h
  match i, h with
  | 0, h => cases h; exact .inl ⟨rfl, rfl⟩
  | 1, h => cases h; exact .inr (.inl ⟨rfl, rfl⟩)
  | 2, h => cases h; exact .inr (.inr (.inl ⟨rfl, rfl⟩))
  | 3, h => cases h; exact .inr (.inr (.inr (.inl ⟨rfl, rfl⟩)))
  | 4, h => cases h; exact .inr (.inr (.inr (.inr ⟨rfl, rfl⟩)))
  | i + 5, h => simp at h

theorem fork_agrees (w b : List ℝ) (hw : w.length = 6) (hb : b.length = 3) : Agrees (forkNet w b) 2 := by
  obtain ⟨g1, g2, _, g3, g4, _⟩ := fork_graph
  refine ⟨?_, g3.symm, ?_, ?_, ?_⟩
  · intro a ha
    obtain ⟨i, hi⟩ := List.getElem?_of_mem ha
    rcases fork_layers hi with ⟨_, rfl⟩ | ⟨_, rfl⟩ | ⟨_, rfl⟩ | ⟨_, rfl⟩ | ⟨_, rfl⟩
    · refine ⟨.dense (denseNew 2 3), [w, b], .inl ⟨.dense [⟨3, 1, 1⟩], ⟨2, 3, rfl, rfl⟩, fun _ => trivial⟩, ?_, rfl⟩
      simp [AnyLayer.params, denseNew, hw, hb]
    · exact ⟨_, [], .inr (.inl ⟨.relu, 3, rfl, fun h => by cases h⟩), rfl, rfl⟩
    · exact ⟨_, [], .inr (.inl ⟨.softmax, 3, rfl, fun _ => by decide⟩), rfl, rfl⟩
    · exact ⟨_, [], .inr (.inr (.inr ⟨.mse, 3, 4, 0, rfl⟩)), rfl, rfl⟩
    · exact ⟨_, [], .inr (.inr (.inr ⟨.cce, 3, 4, 0, rfl⟩)), rfl, rfl⟩
  · intro i a ha
    show _ ↔ i ∈ (built fork).graph.loss
    rw [g1]
    rcases fork_layers ha with ⟨rfl, rfl⟩ | ⟨rfl, rfl⟩ | ⟨rfl, rfl⟩ | ⟨rfl, rfl⟩ | ⟨rfl, rfl⟩ <;>
      simp [Spec.AnyLayer.isLoss]
  · intro i a hi ha
    change i ∈ (built fork).graph.inputs at hi
    rw [g2, List.mem_singleton] at hi
    subst hi
    cases ha
    rfl
  · intro x y a c hxy hx hy
    obtain ⟨s, h1, h2⟩ := (mem_successors (mok_run fork mok_empty).ok.training x y).mp hxy
    have h1' : (x, s) ∈ (built fork).graph.training := h1
    rw [g4] at h1'
    have in3 : ∀ f, AnyLayer.takes (.act f (Act.Layer.new 3)) = 3 := by
      intro f; simp [AnyLayer.takes, AnyLayer.inputSize, Act.Layer.new]
    have out3 : ∀ f, AnyLayer.gives (.act f (Act.Layer.new 3)) = 3 := by
      intro f; simp [AnyLayer.gives, AnyLayer.outputSize, Act.Layer.new]
    have ha : AnyLayer.gives a = 3 := by
      rcases fork_layers hx with ⟨rfl, rfl⟩ | ⟨rfl, rfl⟩ | ⟨rfl, rfl⟩ | ⟨rfl, rfl⟩ | ⟨rfl, rfl⟩
      · rfl
      · exact out3 _
      · exact out3 _
      · simp at h1'
      · simp at h1'
    have hc : y ≠ 0 := by
      rintro rfl
      simp only [List.mem_cons, Prod.mk.injEq, List.not_mem_nil, or_false] at h1'
      rcases h1' with ⟨_, rfl⟩ | ⟨_, rfl⟩ | ⟨_, rfl⟩ <;> simp at h2
    rw [ha]
    rcases fork_layers hy with ⟨rfl, rfl⟩ | ⟨rfl, rfl⟩ | ⟨rfl, rfl⟩ | ⟨rfl, rfl⟩ | ⟨rfl, rfl⟩
    · exact absurd rfl hc
    · exact (in3 _).symm
    · exact (in3 _).symm
    · rfl
    · rfl

theorem fork_right : ListsRight (built fork).graph :=
  (C33_lists_partial [.addLayer, .addLayer, .addLayer, .addLoss, .addLoss, .lossEdge ⟨1, false⟩ ⟨3, true⟩,
    .lossEdge ⟨2, false⟩ ⟨4, true⟩, .edge ⟨0, false⟩ ⟨1, false⟩] []
    ⟨0, false⟩ ⟨2, false⟩ (by decide) (by decide) (by simp)).2

theorem fork_loss : ∀ i ∈ (built fork).graph.loss, ∃ x, trainArc (built fork).graph x i := by
  intro i hi
  rw [fork_graph.1] at hi
  simp only [List.mem_cons, List.not_mem_nil, or_false] at hi
  rcases hi with rfl | rfl
  · exact ⟨1, by decide⟩
  · exact ⟨2, by decide⟩

theorem fork_plain (w b : List ℝ) : Plain (forkNet w b) := by
  constructor
  all_goals
    intro mx raw l h
    obtain ⟨i, hi⟩ := List.getElem?_of_mem h
    rcases fork_layers hi with ⟨_, e⟩ | ⟨_, e⟩ | ⟨_, e⟩ | ⟨_, e⟩ | ⟨_, e⟩ <;> cases e

theorem fork_tree : ∀ x y z, fwdArc (built fork).graph x z → fwdArc (built fork).graph y z → x = y := by
  have key : ∀ x z, fwdArc (built fork).graph x z → x = 0 := by
    intro x z h
    obtain ⟨s, h1, h2⟩ := (mem_successors (mok_run fork mok_empty).ok.forward x z).mp h
    have h1' : (x, s) ∈ (built fork).graph.forward := h1
    rw [fork_graph.2.2.2.2.2] at h1'
    simp only [List.mem_cons, Prod.mk.injEq, List.not_mem_nil, or_false] at h1'
    exact h1'.1
  intro x y z hx hy
  rw [key x z hx, key y z hy]

/-- The hypotheses of `C35_tree_partial`: the tree with two branches, after two training steps.  The prediction is
`relu(dense(x))`. -/
example (w b : List ℝ) (hw : w.length = 6) (hb : b.length = 3) (x1 x2 : ℝ) :
    ∃ r, serve (Opt.gdStep (1 / 10)) [.step [x1, x2] [0, 1, 0], .train] ((), forkNet w b) = .ok r ∧
      ∃ m y layers, r.2.predict [1, 2] = .ok (m, .ok y) ∧
        [0, 1].map (fun i => r.2.layers[i]?) = layers.map some ∧ Composition layers [1, 2] y := by
  refine C35_tree_partial fork (by simp [fork, Joins]) (forkNet w b) rfl 2 (fork_agrees w b hw hb) (fork_plain w b)
    fork_right (acyclic_of_lt (by decide)) fork_loss
    ⟨0, by show 0 < (built fork).graph.layers.length; decide, by show 0 ∉ (built fork).graph.loss; decide⟩ fork_tree
    [0, 1] 1 (by show (built fork).graph.outputs.head? = some 1; decide) ?_ _ _ _ _ ?_ _ rfl
  · refine ⟨⟨0, by show 0 ∈ (built fork).graph.inputs; decide, rfl⟩, ?_, rfl⟩
    intro x y h
    simp only [List.tail_cons, List.zip_cons_cons, List.zip_nil_right, List.mem_singleton, Prod.mk.injEq] at h
    obtain ⟨rfl, rfl⟩ := h
    show 1 ∈ successors (built fork).graph.forward 0
    decide
  · intro c hc
    simp only [List.mem_cons, List.not_mem_nil, or_false] at hc
    rcases hc with rfl | rfl
    · refine ⟨rfl, ?_⟩
      intro f l hl
      obtain ⟨i, hi⟩ := List.getElem?_of_mem hl
      have key : l.inputSize = 3 := by
        rcases fork_layers hi with ⟨_, e⟩ | ⟨_, e⟩ | ⟨_, e⟩ | ⟨_, e⟩ | ⟨_, e⟩ <;> cases e <;> rfl
      rw [key]
      refine ⟨rfl, by decide, fun _ => ?_⟩
      exact ⟨1, by decide, by simp [vec]⟩
    · trivial

end

end Verif.Props
