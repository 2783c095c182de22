import Verif.Proofs.Session
import Verif.Props.Backprop

/-! C75: predictions and score resets do not change what is learned. -/

namespace Verif.Props

open Verif Verif.Net Verif.Graph Verif.Spec

noncomputable section

theorem nonRec_maps {a : AnyLayer} {n m : Nat} (h : Trains n m a) : NonRec a := by
  cases a <;> first | exact h.elim | trivial

theorem pass_trains {a : AnyLayer} {n m : Nat} (h : Trains n m a) : Pass n m a := by
  cases a with
  | dropout mx raw l => exact ⟨h.1, h.2.1⟩
  | _ => exact h

theorem passAll_trains {n m : Nat} {ls : List AnyLayer} (h : TrainsAll n m ls) : PassAll n m ls := by
  induction h with
  | nil n => exact .nil n
  | cons h1 _ ih => exact .cons (pass_trains h1) ih

theorem trains_mem {n m : Nat} {ls : List AnyLayer} (h : TrainsAll n m ls) : ∀ a ∈ ls, ∃ n m, Trains n m a := by
  induction h with
  | nil => intro a ha; cases ha
  | cons h1 _ ih =>
    intro a ha
    rcases List.mem_cons.mp ha with rfl | ha
    · exact ⟨_, _, h1⟩
    · exact ih a ha

theorem netRel_self {n0 : Net} (hlen : n0.layers.length = n0.graph.layers.length) {p : List Nat} {q : Nat}
    (hp : IsTrainingPath n0.graph p q) {ls : List AnyLayer} (hk : p.map (fun i => n0.layers[i]?) = ls.map some)
    {nin m : Nat} (hm : TrainsAll nin m ls) (hd : ∀ l, AnyLayer.dense l ∈ ls → l.grads.input.length = l.inputSize)
    {f : LossFn} {l : Loss.Layer} (hq : n0.layers[q]? = some (.loss f l)) : NetRel p q nin m n0 n0 := by
  refine ⟨rfl, ess_refl _, ?_, ⟨ls, hk, passAll_trains hm⟩, f, l, hq⟩
  intro a ha
  obtain ⟨i, hi⟩ := List.getElem?_of_mem ha
  have hlt := (List.getElem?_eq_some_iff.mp hi).1
  by_cases hiq : i = q
  · subst hiq
    rw [hq] at hi
    cases hi
    exact ⟨trivial, trivial⟩
  · have hip : i ∈ p := by
      rw [hp.path.layers i, hp.loss]
      exact ⟨by omega, by simpa using hiq⟩
    have hal : a ∈ ls := by
      have : n0.layers[i]? ∈ p.map (fun i => n0.layers[i]?) := List.mem_map_of_mem hip
      rw [hk, hi] at this
      simpa using this
    obtain ⟨n, m', ht⟩ := trains_mem hm a hal
    refine ⟨?_, nonRec_maps ht⟩
    cases a with
    | dense l => exact hd l hal
    | dropout mx raw l => exact ⟨ht.2.2.2.trans ht.2.1.symm, ht.2.2.1.trans ht.2.1.symm⟩
    | _ => trivial

/-- **C75** (for models on a path of layers that are not recurrent: dense, convolution, pooling, activation and dropout layers): take any history of
`predict`, `reset_score`, `step` and `train` calls with any optimizer, where inputs have the size of the
input layer (targets are arbitrary).  Leaving out all `predict` and `reset_score` calls changes nothing of
what is learned: `step` and `train` report the same exceptions, and afterwards the optimizer, the parameters
and the gradients are the same. -/
theorem C75_history_partial (ops : List Op) (n0 : Net) (hg : n0.graph = (built ops).graph)
    (hlen : n0.layers.length = n0.graph.layers.length) (p : List Nat) (q : Nat) (hp : IsTrainingPath n0.graph p q)
    (h2 : 2 ≤ p.length) (ls : List AnyLayer) (hk : p.map (fun i => n0.layers[i]?) = ls.map some) (nin m : Nat)
    (hm : TrainsAll nin m ls) (hd : ∀ l, AnyLayer.dense l ∈ ls → l.grads.input.length = l.inputSize)
    (f : LossFn) (l : Loss.Layer) (hq : n0.layers[q]? = some (.loss f l)) (σ : Type) (opt : σ → ℝ → ℝ → σ × ℝ)
    (s : σ) (cs : List UserCall) (hc : ∀ c ∈ cs, c.Sized nin) :
    learned (session opt cs (s, n0)) = learned (session opt (cs.filter UserCall.learns) (s, n0)) := by
  obtain ⟨hok, hl⟩ := path_graph hg hp.path h2
  have key := session_rel (m := m) hok hl hp (by rintro rfl; simp at h2) opt cs hc s n0 n0 rfl
    (netRel_self hlen hp hk hm hd hq)
  refine eq_of_rel (key.bind ?_)
  rintro ⟨⟨s1, n1⟩, o1⟩ ⟨⟨s2, n2⟩, o2⟩ ⟨h3, h4, h5⟩
  dsimp only at h3 h4 h5
  subst h3 h4
  show _ = _
  dsimp only
  rw [forall₂_map h5.ess fun a b e => e.params, forall₂_map h5.ess fun a b e => e.paramGrads]

/-- The hypotheses of `C75_history_partial`: a dense layer with one input and two outputs, any weights and
biases, and a rectifier, trained on any two samples of which the first is predicted in between. -/
example (a b c d x y u v w z : ℝ) (σ : Type) (opt : σ → ℝ → ℝ → σ × ℝ) (s : σ) :
    let n0 : Net := ⟨(built threeLayers).graph, [.dense { denseNew 1 2 with weights := [a, b], biases := [c, d] },
      .act .relu (Act.Layer.new 2), .loss .mse (Loss.Layer.new 2 1 (1 / 10))]⟩
    learned (session opt [.step [x] [u, v], .predict [x], .train, .resetScore, .predict [y], .step [y] [w, z],
        .predict [x], .train] (s, n0))
      = learned (session opt [.step [x] [u, v], .train, .step [y] [w, z], .train] (s, n0)) := by
  intro n0
  refine C75_history_partial threeLayers n0 rfl rfl [0, 1] 2 three_path (by simp)
    [.dense { denseNew 1 2 with weights := [a, b], biases := [c, d] }, .act .relu (Act.Layer.new 2)] rfl 1 2
    (.cons ⟨rfl, rfl, rfl, rfl, rfl⟩ (.cons ⟨rfl, rfl⟩ (.nil 2))) ?_ .mse _ rfl σ opt s
    [.step [x] [u, v], .predict [x], .train, .resetScore, .predict [y], .step [y] [w, z], .predict [x], .train] ?_
  · intro l hl
    simp at hl
    subst hl
    rfl
  · intro e he
    simp at he
    rcases he with rfl | rfl | rfl | rfl | rfl | rfl | rfl | rfl <;> first | rfl | trivial

/-- The same with a dropout layer instead of the rectifier, for every dropout probability and every sequence of
random numbers. -/
example (a b c d x y u v w z pr : ℝ) (mx : Nat) (raw : Nat → Nat) (σ : Type) (opt : σ → ℝ → ℝ → σ × ℝ) (s : σ) :
    let n0 : Net := ⟨(built threeLayers).graph, [.dense { denseNew 1 2 with weights := [a, b], biases := [c, d] },
      .dropout mx raw (Drop.Layer.new 2 pr), .loss .mse (Loss.Layer.new 2 1 (1 / 10))]⟩
    learned (session opt [.step [x] [u, v], .predict [x], .train, .predict [y], .step [y] [w, z], .train] (s, n0))
      = learned (session opt [.step [x] [u, v], .train, .step [y] [w, z], .train] (s, n0)) := by
  intro n0
  refine C75_history_partial threeLayers n0 rfl rfl [0, 1] 2 three_path (by simp)
    [.dense { denseNew 1 2 with weights := [a, b], biases := [c, d] }, .dropout mx raw (Drop.Layer.new 2 pr)] rfl 1 2
    (.cons ⟨rfl, rfl, rfl, rfl, rfl⟩ (.cons ⟨rfl, rfl, rfl, rfl⟩ (.nil 2))) ?_ .mse _ rfl σ opt s
    [.step [x] [u, v], .predict [x], .train, .predict [y], .step [y] [w, z], .train] ?_
  · intro l hl
    simp at hl
    subst hl
    rfl
  · intro e he
    simp at he
    rcases he with rfl | rfl | rfl | rfl | rfl | rfl <;> first | rfl | trivial

/-- A recurrent layer with one input, one hidden and one output node over two steps, whose output weight is 0. -/
def mute (h : List ℝ) (gho gbo : ℝ) (x : List ℝ) : Rnn.Layer ℝ :=
  { Rnn.Layer.new 1 1 1 2 with
    wih := [1], whh := [1], who := [0], hidden := h, output := [0, 0], gho := [gho], gbo := [gbo], lastInput := x }

theorem mute_forward (h0 h1 : ℝ) (x : List ℝ) :
    (AnyLayer.rnn Act.tanh Act.tanh1 (mute [h0, h1] 0 0 x)).forward [1, 1]
      = .ok (.rnn Act.tanh Act.tanh1 (mute [Real.tanh (1 + Real.tanh (1 + h0)), Real.tanh (1 + h0)] 0 0 x), none) := by
  simp [AnyLayer.forward, mute, Rnn.Layer.forward, Rnn.Layer.new, forUp, forFrom, Rnn.matarrMulAt,
    Rnn.arrSumAt, Rnn.mapAt, rd, wr, keep, Exec.bind_ok, Act.tanh]

theorem mute_backward (h0 h1 g0 g1 : ℝ) :
    (AnyLayer.rnn Act.tanh Act.tanh1 (mute [h0, h1] 0 0 [1, 1])).backward [g0, g1]
      = .ok (.rnn Act.tanh Act.tanh1 (mute [h0, h1] (g1 * h0 + g0 * h1) (g1 + g0) [1, 1]), none) := by
  simp [AnyLayer.backward, mute, Rnn.Layer.backward, Rnn.Layer.backStep, Rnn.Layer.new, forUp, forFrom,
    Rnn.arrSumAt, Rnn.outerAcc, Rnn.tmulAt, Rnn.mapFrom, Rnn.arrMulInto, Rnn.inputGradAt, rd, wr, keep, Exec.bind_ok]

theorem three_graph : (built threeLayers).graph.outputs = [1] ∧ (built threeLayers).graph.inputs = [0] ∧
    forwardArcs (built threeLayers).graph = [(0, 1)] ∧ trainingArcs (built threeLayers).graph = [(0, 1), (1, 2)] ∧
    (built threeLayers).graph.loss = [2] ∧ backwardArcs (built threeLayers).graph = [(2, 1), (1, 0)] := by
  decide

theorem predict_three (a b c a' b' : AnyLayer) (x v y : List ℝ) (h1 : a.forward x = .ok (a', none))
    (h2 : a'.lastOutput = .ok v) (h3 : b.forward v = .ok (b', none)) (h4 : b'.lastOutput = .ok y) :
    Net.predict ⟨(built threeLayers).graph, [a, b, c]⟩ x = .ok (⟨(built threeLayers).graph, [a', b', c]⟩, .ok y) := by
  obtain ⟨g1, g2, g3, _⟩ := three_graph
  unfold Net.predict
  dsimp only
  rw [g1, g2, g3]
  simp [each, forwardAt, value, rd, h1, h2, h3, h4, Exec.bind_ok]

theorem step_three (a b a' b' a2 b2 : AnyLayer) (f : LossFn) (l l' l2 : Loss.Layer) (x t v y : List ℝ)
    (h1 : a.trainingForward x = .ok (a', none)) (h2 : a'.lastOutput = .ok v)
    (h3 : b.trainingForward v = .ok (b', none)) (h4 : b'.lastOutput = .ok y)
    (h5 : (AnyLayer.loss f (l.setTarget t)).trainingForward y = .ok (.loss f l', none))
    (h6 : ((AnyLayer.loss f l').setLastInput y).backward [] = .ok (.loss f l2, none))
    (h7 : (b'.setLastInput v).backward l2.gradients = .ok (b2, none))
    (h8 : (a'.setLastInput x).backward b2.lastInputGradient = .ok (a2, none)) :
    Net.step ⟨(built threeLayers).graph, [a, b, .loss f l]⟩ x t
      = .ok (⟨(built threeLayers).graph, [a2, b2, .loss f l2]⟩, none) := by
  obtain ⟨g1, g2, g3, g4, g5, g6⟩ := three_graph
  have h9 : (AnyLayer.loss f l2).lastInputGradient = l2.gradients := rfl
  unfold Net.step
  dsimp only
  rw [g2, g4, g5, g6]
  simp [each, next, targetAt, trainAt, backwardAt, backArcAt, follow, value, rd, h1, h2, h3, h4, h5, h6, h7, h8, h9,
    Exec.bind_ok]

theorem tanh_mono : StrictMono Real.tanh := by
  refine strictMono_of_deriv_pos fun x => ?_
  have h := (Act.tanh_deriv x).deriv
  have e : Act.tanh = Real.tanh := rfl
  rw [e] at h
  rw [h]
  have h1 := Real.tanh_lt_one x
  have h2 := Real.neg_one_lt_tanh x
  show 0 < 1 - Real.tanh x * Real.tanh x
  nlinarith

/-- The layers of the model of `C75_recurrent_refuted`, with a given hidden state. -/
def muteNet (h0 h1 : ℝ) (y : List ℝ) : Net :=
  ⟨(built threeLayers).graph, [.rnn Act.tanh Act.tanh1 (mute [h0, h1] 0 0 []), .act .linear ⟨y, [0, 0]⟩,
    .loss .mse (Loss.Layer.new 2 1 (1 / 10))]⟩

theorem mute_predict (h0 h1 : ℝ) (y : List ℝ) : (muteNet h0 h1 y).predict [1, 1]
    = .ok (muteNet (Real.tanh (1 + Real.tanh (1 + h0))) (Real.tanh (1 + h0)) [0, 0], .ok [0, 0]) :=
  predict_three _ _ _ _ _ _ [0, 0] [0, 0] (mute_forward h0 h1 []) rfl rfl rfl

theorem mute_step (h0 h1 : ℝ) (y : List ℝ) : ∃ n', (muteNet h0 h1 y).step [1, 1] [1, 1] = .ok (n', none) ∧
    n'.layers.map AnyLayer.params = (muteNet h0 h1 y).layers.map AnyLayer.params ∧
    n'.layers.map AnyLayer.paramGrads = [[[0], [0], [0],
      [-(2 * Real.tanh (1 + Real.tanh (1 + h0))) + -(2 * Real.tanh (1 + h0))], [-2 + -2]], [], []] := by
  have b1 := mute_backward (Real.tanh (1 + Real.tanh (1 + h0))) (Real.tanh (1 + h0)) (-2) (-2)
  refine ⟨_, step_three _ _ _ _ (.rnn Act.tanh Act.tanh1 (mute [Real.tanh (1 + Real.tanh (1 + h0)), Real.tanh (1 + h0)]
    (-2 * Real.tanh (1 + Real.tanh (1 + h0)) + -2 * Real.tanh (1 + h0)) (-2 + -2) [1, 1]))
    (.act .linear ⟨[0, 0], [-2, -2]⟩) _ _ ?l' ?l2 _ _ [0, 0] [0, 0] (mute_forward h0 h1 [1, 1]) rfl rfl rfl ?_ ?_ ?_ b1,
    ?_, ?_⟩
  case l' => exact { Loss.Layer.new 2 1 (1 / 10) with target := [1, 1], lastInput := [0, 0], loss := 1, cumulative := 1, incorrect := 1 }
  case l2 => exact { Loss.Layer.new 2 1 (1 / 10) with target := [1, 1], lastInput := [0, 0], loss := 1, cumulative := 1, incorrect := 1, gradients := [-2, -2] }
  · simp [AnyLayer.trainingForward, AnyLayer.setLastInput, AnyLayer.forward, LossFn.forward, Loss.mseForward,
      Loss.meanSquaredError, Loss.squaredError, Loss.Layer.new, Loss.Layer.setTarget, forUp, forFrom, rd, Exec.bind_ok]
    rw [if_neg (by norm_num)]
    rfl
  · simp [AnyLayer.setLastInput, AnyLayer.backward, LossFn.backward, Loss.mseBackward, keep,
      Loss.meanSquaredError1, Loss.squaredError1, Loss.Layer.new, forUp, forFrom, rd, wr, Exec.bind_ok]
  · simp [AnyLayer.setLastInput, AnyLayer.backward, ActFn.backward, Act.linearBackward, Act.mapArr, keep,
      forUp, forFrom, rd, wr, Exec.bind_ok]
  · rfl
  · simp [AnyLayer.paramGrads, mute, Rnn.Layer.new]

/-- **C75 is false** for recurrent layers: a prediction moves the hidden state, and the next `step` starts there.
With the same optimizer, model and sample, `step` computes other gradients after `predict`. -/
theorem C75_recurrent_refuted : ∃ l : Rnn.Layer ℝ, ∀ (σ : Type) (opt : σ → ℝ → ℝ → σ × ℝ) (s : σ),
    let n0 : Net := ⟨(built threeLayers).graph, [.rnn Act.tanh Act.tanh1 l, .act .linear (Act.Layer.new 2),
      .loss .mse (Loss.Layer.new 2 1 (1 / 10))]⟩
    learned (session opt [.predict [1, 1], .step [1, 1] [1, 1]] (s, n0)) ≠
      learned (session opt [.step [1, 1] [1, 1]] (s, n0)) := by
  refine ⟨mute [0, 0] 0 0 [], fun σ opt s => ?_⟩
  intro n0 e
  have h0 : n0 = muteNet 0 0 [0, 0] := rfl
  obtain ⟨m1, s1, _, s3⟩ := mute_step 0 0 [0, 0]
  obtain ⟨m2, t1, _, t3⟩ := mute_step (Real.tanh (1 + Real.tanh (1 + 0))) (Real.tanh (1 + 0)) [0, 0]
  rw [h0] at e
  simp only [learned, session, mute_predict, Exec.bind_ok, s1, t1, Exec.ok.injEq, Prod.mk.injEq, s3, t3] at e
  obtain ⟨_, _, _, e⟩ := e
  simp at e
  have h1 := Real.neg_one_lt_tanh 1
  have h2 : 0 < Real.tanh (1 + Real.tanh 1) := by
    have := tanh_mono (show (0 : ℝ) < 1 + Real.tanh 1 by linarith)
    rwa [Real.tanh_zero] at this
  have h3 := tanh_mono (show (1 : ℝ) < 1 + Real.tanh (1 + Real.tanh 1) by linarith)
  have h4 := tanh_mono (show 1 + Real.tanh 1 < 1 + Real.tanh (1 + Real.tanh (1 + Real.tanh 1)) by linarith)
  linarith

end

end Verif.Props
