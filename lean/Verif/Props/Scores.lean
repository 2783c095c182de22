import Verif.Proofs.Scores
import Verif.Props.Backprop
import Verif.Props.Star

/-! C98: the scores of a model during training. -/

namespace Verif.Props

open Verif Verif.Net Verif.Graph Verif.Spec

noncomputable section

/-- **C98** (for models on a path of dense, convolution, pooling and activation layers): after any calls of
`step`, `train`, `predict` and `reset_score`, `avg_loss` is the mean loss and `accuracy` the fraction of correct
predictions of exactly the steps since the last `reset_score`, each scored with what the model predicted when
the step was called.  Moreover the next step succeeds whatever the sample.  Missing: models with dropout,
recurrent or concatenation layers, or with branches; see `C98_heads` for several loss layers. -/
theorem C98_scores_partial (ops : List Op) (n0 : Net) (hg : n0.graph = (built ops).graph)
    (p : List Nat) (q : Nat) (hp : IsTrainingPath n0.graph p q) (h2 : 2 ≤ p.length)
    (ls : List AnyLayer) (f : LossFn) (nin m : Nat) (inv : ℝ) (hr : Ready n0 p q ls f nin m inv)
    (l : Loss.Layer) (hq : n0.layers[q]? = some (.loss f l))
    (n : Net) (log : List (List ℝ × List ℝ)) (h : Scored n0 p f nin m n log) :
    (log ≠ [] → Nn.avgLoss n = .ok (meanLoss (scoringOf f m l.tolerance) log) ∧
      Nn.accuracy n = .ok (fractionGood (scoringOf f m l.tolerance) log)) ∧
    ∀ x t : List ℝ, x.length = nin → CanScore f m t → ∃ n', n.step x t = .ok (n', none) := by
  obtain ⟨hok, hl⟩ := path_graph hg hp.path h2
  have hne : p ≠ [] := by rintro rfl; simp at h2
  obtain ⟨c1, ⟨ks, inv', c2⟩, L, t0, c3, c4, c5⟩ := counted hok hl hp hne hr hq rfl h
  obtain ⟨_, h1, h2', h3⟩ := c5
  dsimp only at h1 h2' h3
  have hloss : n.graph.loss = [q] := by rw [c1]; exact hp.loss
  have a1 : L.avgLoss = meanLoss (scoringOf f m l.tolerance) log := by
    unfold Loss.Layer.avgLoss meanLoss
    rw [h2', h3]
  have a2 : L.accuracy = fractionGood (scoringOf f m l.tolerance) log := by
    unfold Loss.Layer.accuracy fractionGood
    rw [h2', h1]
  refine ⟨fun _ => ⟨?_, ?_⟩, fun x t hx ht => ?_⟩
  · unfold Nn.avgLoss
    rw [sumScore_spec _ _ _ [(f, L)] (by rw [hloss]; simp [c3]), Exec.bind_ok, hloss]
    simp [a1]
  · unfold Nn.accuracy
    rw [sumScore_spec _ _ _ [(f, L)] (by rw [hloss]; simp [c3]), Exec.bind_ok, hloss]
    simp [a2]
  · obtain ⟨n', _, e, _⟩ := step_path_scored (by rw [c1]; exact hok) (by rw [c1]; exact hl)
      (by rw [c1]; exact hp) hne c2 hx ht
    exact ⟨n', e⟩

/-- **C98** (several loss layers): the scores of a model are the means of the scores of its loss layers. -/
theorem C98_heads (n : Net) (heads : List (LossFn × Loss.Layer)) (hne : heads ≠ [])
    (hh : n.graph.loss.map (fun q => n.layers[q]?) = heads.map fun h => some (.loss h.1 h.2)) :
    Nn.avgLoss n = .ok ((heads.map fun h => h.2.avgLoss).sum / heads.length) ∧
    Nn.accuracy n = .ok ((heads.map fun h => h.2.accuracy).sum / heads.length) := by
  have hlen : n.graph.loss.length = heads.length := by simpa using congrArg List.length hh
  refine ⟨?_, ?_⟩
  · unfold Nn.avgLoss
    rw [sumScore_spec _ _ _ heads hh, Exec.bind_ok, hlen]
  · unfold Nn.accuracy
    rw [sumScore_spec _ _ _ heads hh, Exec.bind_ok, hlen]

/-- The hypotheses of `C98_scores_partial`, and a history: a dense layer with one input and two outputs, any
parameters, and a rectifier; a step on any sample, training by any rule, a step on another sample. -/
example (a b c d x x' u v u' v' : ℝ) (opt : Unit → ℝ → ℝ → Unit × ℝ) :
    let ls : List AnyLayer :=
      [.dense { denseNew 1 2 with weights := [a, b], biases := [c, d] }, .act .relu (Act.Layer.new 2)]
    let n0 : Net := ⟨(built threeLayers).graph, ls ++ [.loss .mse (Loss.Layer.new 2 1 (1 / 10))]⟩
    ∃ n log, Scored n0 [0, 1] .mse 1 2 n log ∧ log.length = 2 ∧ (log.map Prod.fst) = [[u, v], [u', v']] ∧
      Nn.avgLoss n = .ok (meanLoss (mseScoring 2 (1 / 10)) log) := by
  intro ls n0
  have hr : Ready n0 [0, 1] 2 ls .mse 1 2 1 :=
    ⟨rfl, .cons ⟨rfl, rfl, rfl, rfl, rfl⟩ ⟨rfl, rfl, rfl⟩ (.cons ⟨rfl, rfl⟩ rfl (.nil 2)), _, rfl, rfl, rfl,
      by simp [Loss.Layer.new]⟩
  have key := C98_scores_partial threeLayers n0 rfl [0, 1] 2 three_path (by simp) ls .mse 1 2 1 hr _ rfl
  have hlay : ∀ {n log}, Scored n0 [0, 1] .mse 1 2 n log →
      ∃ ks : List AnyLayer, [0, 1].map (fun i => n.layers[i]?) = ks.map some := by
    intro n log h
    obtain ⟨hok, hl⟩ := path_graph (n0 := n0) (ops := threeLayers) rfl three_path.path (by simp)
    obtain ⟨_, ⟨ks, _, hr'⟩, _⟩ := counted hok hl three_path (by simp) hr rfl rfl h
    exact ⟨ks, hr'.layers⟩
  have s0 : Scored n0 [0, 1] .mse 1 2 n0.resetScore [] := .new
  have hc : ∀ u v : ℝ, CanScore .mse 2 [u, v] := fun u v => ⟨rfl, by omega, by simp⟩
  obtain ⟨n1, e1⟩ := (key _ _ s0).2 [x] [u, v] rfl (hc u v)
  obtain ⟨ks, hks⟩ := hlay s0
  have s1 := Scored.step [x] [u, v] ks s0 rfl (hc u v) hks e1
  have s2 := Scored.train opt () s1
  obtain ⟨n2, e2⟩ := (key _ _ s2).2 [x'] [u', v'] rfl (hc u' v')
  obtain ⟨ks', hks'⟩ := hlay s2
  have s3 := Scored.step [x'] [u', v'] ks' s2 rfl (hc u' v') hks' e2
  exact ⟨_, _, s3, rfl, rfl, ((key _ _ s3).1 (by simp)).1⟩

/-- The hypotheses of `C98_heads`: a model with two loss layers. -/
example (a b : AnyLayer) (c : AnyLayer) :
    let n : Net := ⟨(built twoHeads).graph, [a, b, c, .loss .mse (Loss.Layer.new 2 1 (1 / 10)),
      .loss .cce (Loss.Layer.new 3 1 (1 / 10))]⟩
    n.graph.loss.map (fun q => n.layers[q]?) = [(LossFn.mse, Loss.Layer.new 2 1 (1 / 10)),
      (.cce, Loss.Layer.new 3 1 (1 / 10))].map fun h => some (.loss h.1 h.2) := by
  intro n
  show (built twoHeads).graph.loss.map _ = _
  rw [twoHeads_graph.2.1]
  rfl

end

end Verif.Props
