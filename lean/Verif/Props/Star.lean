import Verif.Proofs.StarAll
import Verif.Props.Backprop

/-! C86: models with several losses are trained on their sum. -/

namespace Verif.Props

open Verif Verif.Net Verif.Graph Verif.Spec

noncomputable section

/-- **C86** (if the branches share the input layer only, with dense, convolution, pooling and activation layers,
at samples where everything above the layers with parameters is differentiable, without the biases of
convolutions): calling `step` on any list
of samples succeeds, leaves all parameters as they are, and adds to every entry of the gradient buffers,
those of the input layer included, the partial derivative of the sum of all losses over the samples with
respect to the parameter of the same index. -/
theorem C86_gradients_partial (ops : List Op) (n0 : Net) (hg : n0.graph = (built ops).graph)
    (a : Nat) (bs : List Branch) (hr : IsRouted n0.graph a bs) (hap : OnlyInputShared bs) (hne : bs ≠ [])
    (nin k m : Nat) (hready : RoutedReady n0.layers a bs nin k m)
    (samples : List (List ℝ × List ℝ))
    (hs : ∀ s ∈ samples, ∀ b ∈ bs, GoodSample (along n0.layers (a :: b.path)) b.f nin m s.1 s.2) :
    ∃ n' : Net, each (fun n s => n.step s.1 s.2) samples n0 = .ok (n', none) ∧
      (∀ i : Nat, (n'.layers[i]?).map AnyLayer.params = (n0.layers[i]?).map AnyLayer.params) ∧
      ∀ (i : Nat) (l : AnyLayer), (i = a ∨ ∃ b ∈ bs, i ∈ b.path) → n0.layers[i]? = some l → ∃ l', n'.layers[i]? = some l' ∧
        ∀ c j, Learned l c → c < l.params.length → j < (l.params.getD c []).length →
          HasDerivAt (fun v => totalCost m samples a bs (n0.layers.set i (withParam l c j v)))
            (entry l'.paramGrads c j - entry l.paramGrads c j) (entry l.params c j) := by
  have hok : Ok n0.graph := by rw [hg]; exact (mok_run ops mok_empty).ok
  obtain ⟨n', h1, h2, h3, h4, h5, h6⟩ := steps_star hok hr hap hne hready samples n0 rfl hready
    (fun _ _ => rfl) hs
  refine ⟨n', h1, fun i => ?_, fun i l hi hl => h6 i l l hi hl hl⟩
  by_cases hu : Used a bs i
  · have := h4 i hu
    cases e1 : n'.layers[i]? with
    | none => cases e2 : n0.layers[i]? with
      | none => rfl
      | some l => rw [e1, e2] at this; cases this
    | some l' => cases e2 : n0.layers[i]? with
      | none => rw [e1, e2] at this; cases this
      | some l =>
        rw [e1, e2] at this
        simp only [Option.map_some, Option.some.injEq] at this
        rw [Option.map_some, Option.map_some, params_of_core this]
  · by_cases hl : ∃ b ∈ bs, i = b.loss
    · obtain ⟨b, hb, rfl⟩ := hl
      obtain ⟨L, p1, _⟩ := h3.loss b hb
      obtain ⟨L', p2, _⟩ := hready.loss b hb
      rw [p1, p2]
      rfl
    · rw [h5 i hu fun b hb e => hl ⟨b, hb, e⟩]

/-- An input layer, two further layers on it, and a loss layer on each of these. -/
def twoHeads : List Op :=
  [.addLayer, .addLayer, .edge ⟨0, false⟩ ⟨1, false⟩, .addLayer, .edge ⟨0, false⟩ ⟨2, false⟩,
    .addLoss, .lossEdge ⟨1, false⟩ ⟨3, true⟩, .addLoss, .lossEdge ⟨2, false⟩ ⟨4, true⟩]

theorem twoHeads_graph : (built twoHeads).graph.inputs = [0] ∧ (built twoHeads).graph.loss = [3, 4] ∧
    (built twoHeads).graph.training = [(0, [1, 2]), (1, [3]), (2, [4])] ∧
    (built twoHeads).graph.backward = [(1, [0]), (2, [0]), (3, [1]), (4, [2])] := ⟨rfl, rfl, rfl, rfl⟩

/-- The hypotheses of `C86_gradients_partial`: a dense layer with one input and two outputs feeds a
sigmoid with a squared error and a hyperbolic tangent with a squared error for batches of two, for any
weights, inputs and targets. -/
example (a b c d x u v : ℝ) :
    let bs : List Branch := [⟨[1], 3, .mse, 1⟩, ⟨[2], 4, .mse, 1 / 2⟩]
    let n0 : Net := ⟨(built twoHeads).graph,
      [.dense { denseNew 1 2 with weights := [a, b], biases := [c, d] }, .act .sigmoid (Act.Layer.new 2),
        .act .tanh (Act.Layer.new 2), .loss .mse (Loss.Layer.new 2 1 (1 / 10)),
        .loss .mse (Loss.Layer.new 2 2 (1 / 10))]⟩
    IsRouted n0.graph 0 bs ∧ OnlyInputShared bs ∧ RoutedReady n0.layers 0 bs 1 2 2 ∧
      ∀ e ∈ bs, GoodSample (along n0.layers (0 :: e.path)) e.f 1 2 [x] [u, v] := by
  intro bs n0
  obtain ⟨g1, g2, g3, g4⟩ := twoHeads_graph
  have hf : ∀ ls, SmoothAll ls [c + a * x, d + b * x] →
      SmoothAll (.dense { denseNew 1 2 with weights := [a, b], biases := [c, d] } :: ls) [x] := by
    intro ls h
    refine .cons trivial (l' := .dense { denseNew 1 2 with
      weights := [a, b], biases := [c, d], output := [c + a * x, d + b * x] })
      (z := [c + a * x, d + b * x]) ?_ rfl h
    simp [AnyLayer.forward, Dense.Layer.forward, Dense.dense, denseNew, forUp, forFrom, rd, wr, keep,
        Exec.bind_ok]
  refine ⟨⟨g1, by rw [g2]; rfl, ?_, ?_, ?_⟩, ?_, ⟨⟨_, rfl, ⟨rfl, rfl, rfl, rfl, rfl⟩, ⟨rfl, rfl, rfl⟩⟩, ?_, ?_, ?_⟩, ?_⟩
  · intro e he
    rcases List.mem_pair.mp he with rfl | rfl <;> simp [Branch.way]
  · intro x y
    show y ∈ successors (built twoHeads).graph.training x ↔ _
    rw [g3]
    simp only [bs, Branch.way]
    match x with
    | 0 | 1 | 2 => simp [successors]
    | x + 3 => simp [successors]
  · intro x y
    show y ∈ successors (built twoHeads).graph.backward x ↔ _
    rw [g4]
    simp only [bs, Branch.way]
    match x with
    | 0 => simp [successors]
    | 1 | 2 | 3 | 4 => simp [successors]
    | x + 5 => simp [successors]
  · simp [bs, OnlyInputShared]
  · intro e he i hi
    rcases List.mem_pair.mp he with rfl | rfl
    · obtain rfl := List.mem_singleton.mp hi; exact ⟨_, rfl⟩
    · obtain rfl := List.mem_singleton.mp hi; exact ⟨_, rfl⟩
  · intro e he
    rcases List.mem_pair.mp he with rfl | rfl
    · exact .cons ⟨rfl, rfl⟩ rfl (.nil 2)
    · exact .cons ⟨rfl, rfl⟩ rfl (.nil 2)
  · intro e he
    rcases List.mem_pair.mp he with rfl | rfl
    · exact ⟨_, rfl, rfl, rfl, by simp [Loss.Layer.new]⟩
    · exact ⟨_, rfl, rfl, rfl, by simp [Loss.Layer.new]⟩
  · intro e he
    rcases List.mem_pair.mp he with rfl | rfl
    · exact goodSample_of_all ⟨rfl, ⟨rfl, by omega, by simp⟩, by intro e; cases e⟩
        (hf _ (.cons trivial (l' := .act .sigmoid ⟨[_, _], [0, 0]⟩) rfl rfl (.nil _)))
    · exact goodSample_of_all ⟨rfl, ⟨rfl, by omega, by simp⟩, by intro e; cases e⟩
        (hf _ (.cons trivial (l' := .act .tanh ⟨[_, _], [0, 0]⟩) rfl rfl (.nil _)))

/-! ### Branches that share more than the input layer -/

/-- An input layer, a second layer on it, and two loss layers on the second layer. -/
def sharedLayers : List Op :=
  [.addLayer, .addLayer, .edge ⟨0, false⟩ ⟨1, false⟩, .addLoss, .lossEdge ⟨1, false⟩ ⟨2, true⟩,
    .addLoss, .lossEdge ⟨1, false⟩ ⟨3, true⟩]

theorem shared_graph : (built sharedLayers).graph.inputs = [0] ∧ (built sharedLayers).graph.loss = [2, 3] ∧
    (built sharedLayers).graph.training = [(0, [1]), (1, [2, 3])] ∧
    (built sharedLayers).graph.backward = [(1, [0]), (2, [1]), (3, [1])] := ⟨rfl, rfl, rfl, rfl⟩

theorem shared_arcs : trainingArcs (built sharedLayers).graph = [(0, 1), (1, 2), (1, 3)] ∧
    backwardArcs (built sharedLayers).graph = [(2, 1), (3, 1), (1, 0)] := by decide

/-- A dense layer with one input, one output, weight 1 and bias 0. -/
def unit1 : Dense.Layer ℝ := { denseNew 1 1 with weights := [1] }

/-- The loss layers of the model below after a step. -/
def scored1 : Loss.Layer :=
  { Loss.Layer.new 1 1 (1 / 10) with
    target := [0], loss := 1, gradients := [2], cumulative := 1, incorrect := 1, lastInput := [1] }

theorem shared_step :
    Net.step ⟨(built sharedLayers).graph, [.dense unit1, .dense unit1,
      .loss .mse (Loss.Layer.new 1 1 (1 / 10)), .loss .mse (Loss.Layer.new 1 1 (1 / 10))]⟩ [1] [0]
      = .ok (⟨(built sharedLayers).graph,
        [.dense { unit1 with output := [1], lastInput := [1], grads := ⟨[2], [2], [2]⟩ },
          .dense { unit1 with output := [1], lastInput := [1], grads := ⟨[2], [4], [4]⟩ },
          .loss .mse scored1, .loss .mse scored1]⟩, none) := by
  obtain ⟨g1, g2, _⟩ := shared_graph
  obtain ⟨a1, a2⟩ := shared_arcs
  have h1 : ¬ ((1 : ℝ) ≤ 10⁻¹) := by norm_num
  have h2 : (2 : ℝ) + 2 = 4 := by norm_num
  simp only [Net.step, g1, g2, a1, a2]
  simp [each, next, targetAt, trainAt, backArcAt, backwardAt, follow, value, rd, wr, unit1, denseNew,
    AnyLayer.trainingForward, AnyLayer.setLastInput, AnyLayer.forward, Dense.Layer.forward,
    Dense.dense, forUp, forFrom, keep, AnyLayer.lastOutput, Loss.Layer.new, Loss.Layer.setTarget,
    Loss.trainingForward, Loss.mseForward, Loss.meanSquaredError, LossFn.forward, Loss.squaredError, h1,
    AnyLayer.backward, LossFn.backward, Loss.mseBackward, Loss.meanSquaredError1, Loss.squaredError1, scored1,
    AnyLayer.lastInputGradient, Dense.Layer.backward, Dense.dense1, Dense.fill, h2]

theorem shared_cost (v : ℝ) : totalCost 1 [([1], [0])] 0 [⟨[1], 2, .mse, 1⟩, ⟨[1], 3, .mse, 1⟩]
    [.dense { unit1 with weights := [v] }, .dense unit1,
      .loss .mse (Loss.Layer.new 1 1 (1 / 10)), .loss .mse (Loss.Layer.new 1 1 (1 / 10))] = 2 * v ^ 2 := by
  simp [totalCost, cost, objective, along, prediction, AnyLayer.forward, Dense.Layer.forward, Dense.dense,
    unit1, denseNew, forUp, forFrom, rd, wr, keep, AnyLayer.lastOutput, vec]
  ring

/-- **C86 is false** if the branches share a layer after the input layer: `backward` overwrites the
gradient that the shared layer hands down, so the layers below it learn from one of the losses only.  Two
dense layers with weights 1, two squared errors on the second, and the sample 1 with target 0: the sum of
the losses has the derivative 4 with respect to the weight of the first layer, `step` adds 2. -/
theorem C86_shared_refuted :
    ¬ ∀ (ops : List Op) (n0 : Net), n0.graph = (built ops).graph →
      ∀ (a : Nat) (bs : List Branch), IsRouted n0.graph a bs → bs ≠ [] →
      ∀ (nin k m : Nat), RoutedReady n0.layers a bs nin k m →
      ∀ (samples : List (List ℝ × List ℝ)),
        (∀ s ∈ samples, ∀ b ∈ bs, GoodSample (along n0.layers (a :: b.path)) b.f nin m s.1 s.2) →
      ∃ n' : Net, each (fun n s => n.step s.1 s.2) samples n0 = .ok (n', none) ∧
        ∀ (i : Nat) (l : AnyLayer), (i = a ∨ ∃ b ∈ bs, i ∈ b.path) → n0.layers[i]? = some l →
        ∃ l', n'.layers[i]? = some l' ∧
          ∀ c j, Learned l c → c < l.params.length → j < (l.params.getD c []).length →
            HasDerivAt (fun v => totalCost m samples a bs (n0.layers.set i (withParam l c j v)))
              (entry l'.paramGrads c j - entry l.paramGrads c j) (entry l.params c j) := by
  intro H
  obtain ⟨g1, g2, g3, g4⟩ := shared_graph
  have hf : SmoothAll [.dense unit1, .dense unit1] [1] := by
    have h : ∀ ls, SmoothAll ls [1] → SmoothAll (.dense unit1 :: ls) [1] := by
      intro ls h
      refine .cons trivial (l' := .dense { unit1 with output := [1] }) (z := [1]) ?_ rfl h
      simp [AnyLayer.forward, Dense.Layer.forward, Dense.dense, unit1, denseNew, forUp, forFrom, rd, wr, keep,
        Exec.bind_ok]
    exact h _ (h _ (.nil _))
  obtain ⟨n', h1, h2⟩ := H sharedLayers ⟨(built sharedLayers).graph, [.dense unit1, .dense unit1,
      .loss .mse (Loss.Layer.new 1 1 (1 / 10)), .loss .mse (Loss.Layer.new 1 1 (1 / 10))]⟩ rfl 0
    [⟨[1], 2, .mse, 1⟩, ⟨[1], 3, .mse, 1⟩] ⟨g1, by rw [g2]; rfl, by
      intro e he
      rcases List.mem_pair.mp he with rfl | rfl <;> simp [Branch.way], by
      intro x y
      show y ∈ successors (built sharedLayers).graph.training x ↔ _
      rw [g3]
      simp only [Branch.way]
      match x with
      | 0 | 1 => simp [successors]
      | x + 2 => simp [successors], by
      intro x y
      show y ∈ successors (built sharedLayers).graph.backward x ↔ _
      rw [g4]
      simp only [Branch.way]
      match x with
      | 0 => simp [successors]
      | 1 | 2 | 3 => simp [successors]
      | x + 4 => simp [successors]⟩ (by simp) 1 1 1
    ⟨⟨_, rfl, ⟨rfl, rfl, rfl, rfl, rfl⟩, ⟨rfl, rfl, rfl⟩⟩, by
      intro e he i hi
      rcases List.mem_pair.mp he with rfl | rfl
      · obtain rfl := List.mem_singleton.mp hi; exact ⟨_, rfl⟩
      · obtain rfl := List.mem_singleton.mp hi; exact ⟨_, rfl⟩, by
      intro e he
      rcases List.mem_pair.mp he with rfl | rfl
      · exact .cons ⟨rfl, rfl, rfl, rfl, rfl⟩ ⟨rfl, rfl, rfl⟩ (.nil 1)
      · exact .cons ⟨rfl, rfl, rfl, rfl, rfl⟩ ⟨rfl, rfl, rfl⟩ (.nil 1), by
      intro e he
      rcases List.mem_pair.mp he with rfl | rfl
      · exact ⟨_, rfl, rfl, rfl, by simp [Loss.Layer.new]⟩
      · exact ⟨_, rfl, rfl, rfl, by simp [Loss.Layer.new]⟩⟩ [([1], [0])] (by
      intro s hs e he
      obtain rfl := List.mem_singleton.mp hs
      rcases List.mem_pair.mp he with rfl | rfl
      · exact goodSample_of_all ⟨rfl, ⟨rfl, by omega, by simp⟩, by intro e; cases e⟩ hf
      · exact goodSample_of_all ⟨rfl, ⟨rfl, by omega, by simp⟩, by intro e; cases e⟩ hf)
  rw [show each (fun (n : Net) (s : List ℝ × List ℝ) => n.step s.1 s.2) [([1], [0])] _
    = (Net.step _ [1] [0] >>= fun r => _) from rfl, shared_step, Exec.bind_ok] at h1
  cases h1
  obtain ⟨l', h3, h4⟩ := h2 0 _ (Or.inl rfl) rfl
  cases h3
  have h5 := h4 0 0 trivial (by decide) (by decide)
  have h6 : HasDerivAt (fun v : ℝ => 2 * v ^ 2) 4 1 := by
    have := ((hasDerivAt_id (1 : ℝ)).fun_pow 2).const_mul 2
    refine (this.congr_deriv ?_)
    norm_num
  have h7 : (fun v => totalCost 1 [([1], [0])] 0 [⟨[1], 2, .mse, 1⟩, ⟨[1], 3, .mse, 1⟩]
      (([.dense unit1, .dense unit1, .loss .mse (Loss.Layer.new 1 1 (1 / 10)),
        .loss .mse (Loss.Layer.new 1 1 (1 / 10))] : List AnyLayer).set 0
        (withParam (.dense unit1) 0 0 v))) = fun v : ℝ => 2 * v ^ 2 := by
    funext v
    exact shared_cost v
  rw [h7] at h5
  have h8 := h5.unique h6
  simp [AnyLayer.paramGrads, entry, vec, unit1, denseNew] at h8

end

end Verif.Props
