import Verif.Proofs.SeenScores
import Verif.Props.ShapeScores
import Verif.Props.ShapeRnn

/-! C98 for layers of every class, and for loss layers behind several layers. -/

namespace Verif.Props

open Verif Verif.Net Verif.Graph Verif.Spec

noncomputable section

theorem observed_all {net : Net} {n : Nat} (ha : Agrees net n) (hs : Shaped net n) (hl : ListsRight net.graph)
    (h1 : ∀ q ∈ net.graph.loss, ∀ p, trainArc net.graph p q →
      ∀ x y, trainArc net.graph x p → trainArc net.graph y p → x = y)
    {P : Nat → List Nat} (hP : ∀ q ∈ net.graph.loss, P q = feeders q (trainingSources net.graph)) {m : Net}
    {L : Nat → List (List ℝ × List ℝ)} (h : Observed net n P m L) :
    ∀ q ∈ net.graph.loss, KeptAs net n m ∧
      ∃ f l t, m.layers[q]? = some (.loss f l) ∧ Loss.Tracks (scoringAt net q) l (t, L q) := by
  intro q hq
  obtain ⟨f, l, hl'⟩ := losses_listed ha hs hq
  have hin : ∀ i ∈ net.graph.inputs, ∀ x, ¬ trainArc net.graph x i := by
    intro i hi x hx
    obtain ⟨k1, k2, k3⟩ := (hl.1 i).mp hi
    exact k3 ⟨x, hs.fwd.mpr ⟨hx, k2⟩⟩
  obtain ⟨k1, l', t, k3, _, _, k4⟩ := observed hs (kept_self ha) hin hq (h1 q hq) hl' (hP q hq) h
  refine ⟨k1, f, l', t, k3, ?_⟩
  unfold scoringAt
  rw [hl']
  exact k4

/-- **C98** for models of any shape without cycles and with layers of every class but concatenation, also with several
layers in front of a loss layer, provided that each of these has at most one predecessor: every loss layer has a list
of the layers in front of it, such that, after any calls of `step`, `train`, `predict` and `reset_score`, `avg_loss` is
the mean over the loss layers of their mean losses, and `accuracy` the mean of their fractions of correct predictions,
where every step since the last `reset_score` counts once for each layer in front of the loss layer, and is scored
with what `last_output()` of that layer returns after the step.  Moreover the next step succeeds whatever the sample.
Missing: concatenation layers, and layers in front of a loss layer with several predecessors, for which it is
false (`C98_skip_refuted`). -/
theorem C98_observed_partial (ops : List Op) (hops : ∀ op ∈ ops, Joins op) (net : Net)
    (hg : net.graph = (built ops).graph) (n : Nat) (ha : Agrees net n) (hl : ListsRight net.graph)
    (hacyc : Acyclic (trainArc net.graph)) (hloss : ∀ i ∈ net.graph.loss, ∃ x, trainArc net.graph x i)
    (hne : ∃ i, i < net.graph.layers.length ∧ i ∉ net.graph.loss)
    (hone : ∀ q ∈ net.graph.loss, ∀ p, trainArc net.graph p q →
      ∀ x y, trainArc net.graph x p → trainArc net.graph y p → x = y) :
    ∃ P : Nat → List Nat,
      (∀ q ∈ net.graph.loss, (P q).Nodup ∧ ∀ p, p ∈ P q ↔ trainArc net.graph p q) ∧
      ∀ (m : Net) (L : Nat → List (List ℝ × List ℝ)), Observed net n P m L →
        (net.graph.loss ≠ [] → (∀ q ∈ net.graph.loss, L q ≠ []) →
          Nn.avgLoss m = .ok ((net.graph.loss.map fun q => meanLoss (scoringAt net q) (L q)).sum /
            net.graph.loss.length) ∧
          Nn.accuracy m = .ok ((net.graph.loss.map fun q => fractionGood (scoringAt net q) (L q)).sum /
            net.graph.loss.length)) ∧
        (net.graph.loss ≠ [] → ∀ x t, Suitable net n (.step x t) → ∃ m', m.step x t = .ok (m', none)) := by
  obtain ⟨h1, h2⟩ := reached_of_acyclic hops hg hl hacyc hloss hne
  have hs := shaped_reached hops hg ha hl h1 h2
  refine ⟨fun q => feeders q (trainingSources net.graph), fun q hq => hs.feeders_spec hq, ?_⟩
  intro m L h
  have key := observed_all ha hs hl hone (fun q _ => rfl) h
  refine ⟨fun hne _ => ?_, fun hne x t hx => ?_⟩
  · obtain ⟨q, hq⟩ := List.exists_mem_of_ne_nil _ hne
    obtain ⟨hd, k1, k2, k3⟩ := heads_of net.graph.loss fun q hq => (key q hq).2
    have hgr := (key q hq).1.graph
    have hlen : hd.length = net.graph.loss.length := by simpa using (congrArg List.length k1).symm
    obtain ⟨c1, c2⟩ := C98_heads m hd (by rintro rfl; exact hne (List.length_eq_zero_iff.mp hlen.symm))
      (by rw [hgr]; exact k1)
    rw [k2, hlen] at c1
    rw [k3, hlen] at c2
    exact ⟨c1, c2⟩
  · obtain ⟨q, hq⟩ := List.exists_mem_of_ne_nil _ hne
    obtain ⟨m', e, _⟩ := (key q hq).1.step hs hx
    exact ⟨m', e⟩

/-- The hypotheses, and a history: a recurrent layer with any activations and parameters, followed by a rectifier with
mean squared error and by a softmax with cross entropy; a step on any inputs, training, and another step. -/
example {f f1 : ℝ → ℝ} {ps : List (List ℝ)} (hp : ps.map List.length = [3, 9, 3, 6, 2]) (x1 x2 y1 y2 : ℝ)
    (opt : Unit → ℝ → ℝ → Unit × ℝ) :
    ∃ P m L, Observed (seqNet f f1 ps) 2 P m L ∧ (∀ p, p ∈ P 3 ↔ p = 1) ∧ (∀ p, p ∈ P 4 ↔ p = 2) ∧
      (∀ q ∈ [3, 4], (L q).map Prod.fst = [[0, 1, 0, 0], [0, 0, 1, 0]]) ∧
      Nn.avgLoss m = .ok ((meanLoss (mseScoring 4 0) (L 3) + meanLoss (cceScoring 4) (L 4)) / 2) := by
  have one := fork_one [] []
  have hlo : (seqNet f f1 ps).graph.loss = [3, 4] := fork_graph.1
  obtain ⟨P, hP, key⟩ := C98_observed_partial fork (by simp [fork, Joins]) (seqNet f f1 ps) rfl 2 (seq_agrees hp)
    fork_right (acyclic_of_lt (by decide)) fork_loss
    ⟨0, by show 0 < (built fork).graph.layers.length; decide, by show 0 ∉ (built fork).graph.loss; decide⟩
    (fun q _ p _ x y => one x y p)
  have suits : ∀ (u v : ℝ) (t : List ℝ), t.length = 4 → (∃ k, k < 4 ∧ vec t k ≠ 0) →
      Suitable (seqNet f f1 ps) 2 (.step [u, v] t) := by
    intro u v t ht hk
    refine ⟨rfl, ?_⟩
    intro f' l hl
    obtain ⟨i, hi⟩ := List.getElem?_of_mem hl
    have key : l.inputSize = 4 := by
      rcases seq_layers hi with ⟨_, e⟩ | ⟨_, e⟩ | ⟨_, e⟩ | ⟨_, e⟩ | ⟨_, e⟩
      · have := seqLayer_loss (f := f) (f1 := f1) (ps := ps)
        rw [← e] at this
        cases this
      all_goals cases e
      · rfl
      · rfl
    rw [key]
    exact ⟨ht, by decide, fun _ => hk⟩
  have ne : (seqNet f f1 ps).graph.loss ≠ [] := by rw [hlo]; simp
  have g1 := suits x1 x2 [0, 1, 0, 0] rfl ⟨1, by decide, by simp [vec]⟩
  have g2 := suits y1 y2 [0, 0, 1, 0] rfl ⟨2, by decide, by simp [vec]⟩
  have s0 : Observed (seqNet f f1 ps) 2 P _ _ := .new
  obtain ⟨m1, e1⟩ := (key _ _ s0).2 ne _ _ g1
  have s1 := Observed.step _ _ s0 g1 e1
  have s2 := Observed.train opt () s1
  obtain ⟨m2, e2⟩ := (key _ _ s2).2 ne _ _ g2
  have s3 := Observed.step _ _ s2 g2 e2
  have a3 : ∀ p, p ∈ P 3 ↔ p = 1 := by
    intro p
    rw [(hP 3 (by rw [hlo]; simp)).2 p]
    have h1 : trainArc (forkNet [] []).graph 1 3 := by show 3 ∈ successors (built fork).graph.training 1; decide
    exact ⟨fun h => one _ _ _ h h1, fun h => h ▸ h1⟩
  have a4 : ∀ p, p ∈ P 4 ↔ p = 2 := by
    intro p
    rw [(hP 4 (by rw [hlo]; simp)).2 p]
    have h1 : trainArc (forkNet [] []).graph 2 4 := by show 4 ∈ successors (built fork).graph.training 2; decide
    exact ⟨fun h => one _ _ _ h h1, fun h => h ▸ h1⟩
  have single : ∀ (l : List Nat) (a : Nat), l.Nodup → (∀ p, p ∈ l ↔ p = a) → l = [a] := by
    intro l a hn h
    exact List.perm_singleton.mp ((List.perm_ext_iff_of_nodup hn (by simp)).mpr (by simpa using h))
  have p3 := single _ _ (hP 3 (by rw [hlo]; simp)).1 a3
  have p4 := single _ _ (hP 4 (by rw [hlo]; simp)).1 a4
  refine ⟨P, _, _, s3, a3, a4, ?_, ?_⟩
  · intro q hq
    simp only [List.mem_cons, List.not_mem_nil, or_false] at hq
    rcases hq with rfl | rfl
    · simp [p3]
    · simp [p4]
  have h := ((key _ _ s3).1 ne (fun q hq => by
    rw [hlo] at hq
    simp only [List.mem_cons, List.not_mem_nil, or_false] at hq
    rcases hq with rfl | rfl
    · simp [p3]
    · simp [p4])).1
  rw [hlo] at h
  rw [h]
  simp only [List.map_cons, List.map_nil, List.sum_cons, List.sum_nil, add_zero, List.length_cons, List.length_nil]
  norm_num
  rfl

/-- A model with a skip connection into the layer in front of the loss layer: 0 → 1 → 2 → 3 → 4 and 0 → 3. -/
def skipLoss : List Op :=
  [.addLayer, .addLayer, .addLayer, .addLayer, .addLoss,
   .edge ⟨0, false⟩ ⟨1, false⟩, .edge ⟨1, false⟩ ⟨2, false⟩, .edge ⟨2, false⟩ ⟨3, false⟩,
   .lossEdge ⟨3, false⟩ ⟨4, true⟩, .edge ⟨0, false⟩ ⟨3, false⟩]

/-- Linear layers of size one, except a rectifier at 1. -/
def skipNet : Net :=
  ⟨(built skipLoss).graph, [.act .linear (Act.Layer.new 1), .act .relu (Act.Layer.new 1),
    .act .linear (Act.Layer.new 1), .act .linear (Act.Layer.new 1), .loss .mse (Loss.Layer.new 1 1 0)]⟩

theorem skipLoss_graph : (built skipLoss).graph.loss = [4] ∧ (built skipLoss).graph.inputs = [0] ∧
    (built skipLoss).graph.outputs = [3] ∧ (built skipLoss).graph.layers.length = 5 ∧
    trainingArcs (built skipLoss).graph = [(0, 1), (0, 3), (1, 2), (3, 4), (2, 3)] ∧
    forwardArcs (built skipLoss).graph = [(0, 1), (0, 3), (1, 2), (2, 3)] ∧
    backwardArcs (built skipLoss).graph = [(4, 3), (3, 0), (3, 2), (2, 1), (1, 0)] := by decide

theorem lin_train (a b x : ℝ) : (AnyLayer.act .linear ⟨[a], [b]⟩).trainingForward [x]
    = .ok (.act .linear ⟨[x], [b]⟩, none) := rfl

theorem relu_train (a b : ℝ) : (AnyLayer.act .relu ⟨[a], [b]⟩).trainingForward [-1]
    = .ok (.act .relu ⟨[0], [b]⟩, none) := by
  simp [AnyLayer.trainingForward, AnyLayer.setLastInput, AnyLayer.forward, ActFn.forward, Act.reluForward,
    Act.Layer.forwardWith, Act.mapArr, forUp, forFrom, rd, wr, keep, Act.relu]

theorem lin_back (a b g : ℝ) (v : List ℝ) : ((AnyLayer.act .linear ⟨[a], [b]⟩).setLastInput v).backward [g]
    = .ok (.act .linear ⟨[a], [g]⟩, none) := by
  simp [AnyLayer.setLastInput, AnyLayer.backward, ActFn.backward, Act.linearBackward, Act.mapArr, forUp, forFrom, rd,
    wr, keep]

theorem relu_back (b g : ℝ) (v : List ℝ) : ((AnyLayer.act .relu ⟨[0], [b]⟩).setLastInput v).backward [g]
    = .ok (.act .relu ⟨[0], [0]⟩, none) := by
  simp [AnyLayer.setLastInput, AnyLayer.backward, ActFn.backward, Act.reluBackward, Act.Layer.backwardWith, Act.mapArr,
    forUp, forFrom, rd, wr, keep, Act.relu1, Act.arrMulInPlace]

/-- The loss layer of `skipNet` after the forward pass. -/
def missed : Loss.Layer :=
  { Loss.Layer.new 1 1 0 with target := [0], lastInput := [-1], loss := 1, cumulative := 1, incorrect := 1 }

theorem missed_train : (AnyLayer.loss .mse ((Loss.Layer.new 1 1 0).setTarget [0])).trainingForward [-1]
    = .ok (.loss .mse missed, none) := by
  simp [AnyLayer.trainingForward, AnyLayer.setLastInput, AnyLayer.forward, LossFn.forward, Loss.mseForward,
      Loss.meanSquaredError, Loss.squaredError, Loss.Layer.new, Loss.Layer.setTarget, forUp, forFrom, rd, missed, keep]
  rw [if_neg (by norm_num)]
  rfl

theorem missed_back : ((AnyLayer.loss .mse missed).setLastInput [0]).backward []
    = .ok (.loss .mse { missed with lastInput := [0], gradients := [0] }, none) := by
  simp [AnyLayer.setLastInput, AnyLayer.backward, LossFn.backward, Loss.mseBackward, forUp, forFrom, rd, wr, missed, keep,
    Loss.Layer.new, Loss.meanSquaredError1, Loss.squaredError1]

/-- **C98 is false** for models in which the layer in front of the loss layer has several predecessors: the training run
visits the loss layer before the last of them.  The rectifier of this model maps -1 to 0, and so the model predicts 0
for -1, and `last_output()` of the layer in front of the loss layer is 0 after the step; but the loss layer has been
called with -1, and `avg_loss` is 1 for the target 0 although the prediction is right. -/
theorem C98_skip_refuted :
    Acyclic (trainArc skipNet.graph) ∧ ListsRight skipNet.graph ∧
    ∃ m, skipNet.step [-1] [0] = .ok (m, none) ∧ lastShown m.layers 3 = [0] ∧
      (∃ m', skipNet.predict [-1] = .ok (m', .ok [0])) ∧
      meanLoss (scoringAt skipNet 4) [([0], lastShown m.layers 3)] = 0 ∧ Nn.avgLoss m = .ok 1 := by
  obtain ⟨g1, g2, g3, g4, g5, g6, g7⟩ := skipLoss_graph
  refine ⟨acyclic_of_lt (by decide), ?_, ?_⟩
  · exact (C33_lists_partial [.addLayer, .addLayer, .addLayer, .addLayer, .addLoss,
      .edge ⟨0, false⟩ ⟨1, false⟩, .edge ⟨1, false⟩ ⟨2, false⟩, .edge ⟨2, false⟩ ⟨3, false⟩,
      .lossEdge ⟨3, false⟩ ⟨4, true⟩] [] ⟨0, false⟩ ⟨3, false⟩ (by decide) (by decide) (by simp)).2
  · have hn : Act.Layer.new 1 = ⟨[0], [0]⟩ := rfl
    unfold skipNet
    rw [hn]
    have hst : Net.step ⟨(built skipLoss).graph, [.act .linear ⟨[0], [0]⟩, .act .relu ⟨[0], [0]⟩,
          .act .linear ⟨[0], [0]⟩, .act .linear ⟨[0], [0]⟩, .loss .mse (Loss.Layer.new 1 1 0)]⟩ [-1] [0]
        = .ok (⟨(built skipLoss).graph, [.act .linear ⟨[-1], [0]⟩, .act .relu ⟨[0], [0]⟩,
          .act .linear ⟨[0], [0]⟩, .act .linear ⟨[0], [0]⟩, .loss .mse { missed with lastInput := [0], gradients := [0] }]⟩, none) := by
      unfold Net.step
      dsimp only
      rw [g1, g2, g5, g7]
      simp [each, next, targetAt, trainAt, backwardAt, backArcAt, follow, value, rd, lin_train, relu_train, lin_back,
        relu_back, missed_train, missed_back, AnyLayer.lastOutput, AnyLayer.lastInputGradient, Exec.bind_ok]
    refine ⟨_, hst, rfl, ?_, ?_, ?_⟩
    · unfold Net.predict
      dsimp only
      rw [g2, g3, g6]
      simp [each, forwardAt, value, rd, Exec.bind_ok, AnyLayer.lastOutput, AnyLayer.forward, ActFn.forward, Act.reluForward,
        Act.Layer.forwardWith, Act.mapArr, forUp, forFrom, rd, wr, keep, Act.relu, Act.linearForward]
    · simp [meanLoss, scoringAt, scoringOf, mseScoring, lastShown, AnyLayer.lastOutput, meanSq, vec, Loss.Layer.new]
    · simp [Nn.avgLoss, Nn.sumScore, g1, missed, Loss.Layer.avgLoss, rd, Loss.Layer.new]

end

end Verif.Props
