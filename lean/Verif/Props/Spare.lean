import Verif.Proofs.Spare
import Verif.Props.Still
import Verif.Props.Range

/-! C113: layers that no loss depends on are not trained. -/

namespace Verif.Props

open Verif Verif.Net Verif.Graph Verif.Spec

noncomputable section

/-- **C113** (for optimizers like gradient descent): in a model assembled with `add_layer`, `add_loss`, `create_edge`
and `create_loss_edge` in any order, of any shape and with layers of any class, take a layer from which no loss layer
can be reached and which has no gradients.  Whatever calls of `predict`, `step`, `train` and `reset_score` follow, its
parameters stay as they are.  Missing: Adam, for which this is false (`C113_adam_refuted`). -/
theorem C113_history_partial (ops : List Op) (hops : ∀ op ∈ ops, Joins op) (net : Net)
    (hg : net.graph = (built ops).graph) (i : Nat) (hi : NoLossNeeds net.graph i) (a : AnyLayer)
    (ha : net.layers[i]? = some a) (hz : ∀ b ∈ a.paramGrads, ∀ v ∈ b, v = 0)
    (σ : Type) (opt : σ → ℝ → ℝ → σ × ℝ) (hopt : Rests opt fun _ => True) (s : σ) (cs : List UserCall)
    (r : σ × Net) (hr : serve opt cs (s, net) = .ok r) :
    ∃ a', r.2.layers[i]? = some a' ∧ a'.params = a.params := by
  obtain ⟨hl, hb⟩ := spare_arcs (hg ▸ joined_built ops hops) hi
  obtain ⟨_, a', h1, h2, _⟩ := rested_serve (ps := a.params) (fun s p => (hopt s p trivial).1) hl (fun a h => (hb a h).2) cs (s, net)
    ⟨rfl, a, ha, rfl, hz⟩ r hr
  exact ⟨a', h1, h2⟩

/-- **C113** for training runs: any data set, number of epochs and batch size. -/
theorem C113_fit_partial (ops : List Op) (hops : ∀ op ∈ ops, Joins op) (net : Net)
    (hg : net.graph = (built ops).graph) (i : Nat) (hi : NoLossNeeds net.graph i) (a : AnyLayer)
    (ha : net.layers[i]? = some a) (hz : ∀ b ∈ a.paramGrads, ∀ v ∈ b, v = 0)
    (σ : Type) (opt : σ → ℝ → ℝ → σ × ℝ) (hopt : Rests opt fun _ => True) (s : σ) (d : Data.Dataset ℝ)
    (fuel epochs b : Nat) (r : σ × Net) (hr : Training.fit opt d fuel epochs b (s, net) = some (.ok r)) :
    ∃ a', r.2.layers[i]? = some a' ∧ a'.params = a.params := by
  obtain ⟨hl, hb⟩ := spare_arcs (hg ▸ joined_built ops hops) hi
  obtain ⟨_, a', h1, h2, _⟩ := rested_fit (ps := a.params) (fun s p => (hopt s p trivial).1) hl (fun a h => (hb a h).2) (s := (s, net))
    ⟨rfl, a, ha, rfl, hz⟩ hr
  exact ⟨a', h1, h2⟩

/-! ### Example -/

/-- A layer with a loss and a second layer that takes its outputs. -/
def spareOps : List Op :=
  [.addLayer, .addLayer, .addLoss, .lossEdge ⟨0, false⟩ ⟨2, true⟩, .edge ⟨0, false⟩ ⟨1, false⟩]

def spareDense (w b : ℝ) : Dense.Layer ℝ := { denseNew 1 1 with weights := [w], biases := [b] }

def spareNet (w b u c : ℝ) : Net :=
  ⟨(built spareOps).graph, [.dense (spareDense w b), .dense (spareDense u c), .loss .mse (Loss.Layer.new 1 1 0)]⟩

theorem spare_graph : (built spareOps).graph.inputs = [0] ∧ (built spareOps).graph.loss = [2] ∧
    (built spareOps).graph.training = [(0, [1, 2])] ∧
    trainingArcs (built spareOps).graph = [(0, 1), (0, 2)] ∧
    backwardArcs (built spareOps).graph = [(2, 0)] := by decide

theorem spare_needs : NoLossNeeds (built spareOps).graph 1 := by
  intro q hq h
  rw [spare_graph.2.1, List.mem_singleton] at hq
  subst hq
  rcases Relation.ReflTransGen.cases_head h with h | ⟨y, h, _⟩
  · cases h
  · change y ∈ successors (built spareOps).graph.training 1 at h
    rw [spare_graph.2.2.1] at h
    simp [successors] at h

theorem loss_single (l : Loss.Layer) (p u x : ℝ) (hx : l.gradients = [x]) (hb : l.invBatch = 1) :
    ∃ l1 : Loss.Layer, (AnyLayer.loss .mse (l.setTarget [u])).trainingForward [p] = .ok (.loss .mse l1, none) ∧
      ∃ l2 : Loss.Layer, ((AnyLayer.loss .mse l1).setLastInput [p]).backward [] = .ok (.loss .mse l2, none) ∧
        l2.gradients = [2 * (p - u)] := by
  obtain ⟨l1, hl, hl1, hl2, hl3, hl4⟩ : ∃ l1 : Loss.Layer,
      (AnyLayer.loss .mse (l.setTarget [u])).trainingForward [p] = .ok (.loss .mse l1, none) ∧
        l1.gradients = [x] ∧ l1.target = [u] ∧ l1.lastInput = [p] ∧ l1.invBatch = 1 := by
    simp only [AnyLayer.trainingForward, AnyLayer.setLastInput, AnyLayer.forward, LossFn.forward,
      Loss.mseForward, Loss.meanSquaredError, Loss.Layer.setTarget, forUp, rd]
    simp only [List.isEmpty_cons, Bool.false_eq_true, if_false, List.length_cons, List.length_nil,
      forFrom, Exec.bind_ok, Exec.pure_eq_ok, List.getElem?_cons_zero]
    split
    · exact ⟨_, rfl, hx, rfl, rfl, hb⟩
    · exact ⟨_, rfl, hx, rfl, rfl, hb⟩
  refine ⟨l1, hl, { l1 with lastInput := [p], gradients := [2 * (p - u)] }, ?_, rfl⟩
  have hli : (AnyLayer.loss .mse l1).setLastInput [p] = .loss .mse { l1 with lastInput := [p] } := rfl
  rw [hli]
  simp [AnyLayer.backward, LossFn.backward, Loss.mseBackward, Loss.meanSquaredError1, Loss.squaredError1,
      hl1, hl2, hl4, forUp, forFrom, rd, wr, keep]
  ring

theorem step_spare (a b a' b' a2 : AnyLayer) (f : LossFn) (l l' l2 : Loss.Layer) (x t v : List ℝ)
    (h1 : a.trainingForward x = .ok (a', none)) (h2 : a'.lastOutput = .ok v)
    (h3 : b.trainingForward v = .ok (b', none))
    (h9 : (AnyLayer.loss f (l.setTarget t)).trainingForward v = .ok (.loss f l', none))
    (k1 : ((AnyLayer.loss f l').setLastInput v).backward [] = .ok (.loss f l2, none))
    (k5 : (a'.setLastInput x).backward l2.gradients = .ok (a2, none)) :
    Net.step ⟨(built spareOps).graph, [a, b, .loss f l]⟩ x t
      = .ok (⟨(built spareOps).graph, [a2, b', .loss f l2]⟩, none) := by
  obtain ⟨g1, g2, _, g3, g4⟩ := spare_graph
  have k6 : (AnyLayer.loss f l2).lastInputGradient = l2.gradients := rfl
  unfold Net.step
  dsimp only
  rw [g1, g2, g3, g4]
  simp [each, next, targetAt, trainAt, backwardAt, backArcAt, follow, value, rd, h1, h2, h3, h9, k1, k5, k6]

theorem spare_step (w b u c x t : ℝ) : ∃ l : Loss.Layer, (spareNet w b u c).step [x] [t]
    = .ok (⟨(built spareOps).graph,
      [.dense ⟨1, 1, [w], [b], ⟨[2 * (b + w * x - t) * w], [2 * (b + w * x - t) * x], [2 * (b + w * x - t)]⟩,
          [b + w * x], [x]⟩,
        .dense ⟨1, 1, [u], [c], ⟨[0], [0], [0]⟩, [c + u * (b + w * x)], [b + w * x]⟩, .loss .mse l]⟩, none) := by
  obtain ⟨l1, h1, l2, h2, h3⟩ := loss_single (Loss.Layer.new 1 1 0) (b + w * x) t 0 rfl (by simp [Loss.Layer.new])
  refine ⟨l2, step_spare _ _ (.dense ⟨1, 1, [w], [b], ⟨[0], [0], [0]⟩, [b + w * x], [x]⟩) _ _ .mse _ l1 l2 [x] [t]
    [b + w * x] ?_ rfl ?_ h1 h2 ?_⟩
  · simp [spareDense, denseNew, AnyLayer.trainingForward, AnyLayer.setLastInput, AnyLayer.forward, Dense.Layer.forward,
      Dense.dense, forUp, forFrom, rd, wr, keep]
  · simp [spareDense, denseNew, AnyLayer.trainingForward, AnyLayer.setLastInput, AnyLayer.forward, Dense.Layer.forward,
      Dense.dense, forUp, forFrom, rd, wr, keep]
  · rw [h3]
    simp [AnyLayer.setLastInput, AnyLayer.backward, Dense.Layer.backward, Dense.dense1, Dense.fill, forUp, forFrom, rd,
      wr, keep]

/-- The hypotheses of `C113_fit_partial` and `C113_history_partial` hold for this network: whatever the sample, the
first layer is trained and the second is not. -/
example (w b u c x t eta : ℝ) (he : eta ≠ 0) (hb : b + w * x ≠ t) :
    ∃ r l1 l2, serve (Opt.gdStep eta) [.step [x] [t], .train] ((), spareNet w b u c) = .ok r ∧
      r.2.layers[0]? = some (.dense l1) ∧ l1.biases ≠ [b] ∧
      r.2.layers[1]? = some l2 ∧ l2.params = [[u], [c]] := by
  obtain ⟨l, hl⟩ := spare_step w b u c x t
  generalize hg : 2 * (b + w * x - t) = g at hl
  have hg0 : g ≠ 0 := by
    rw [← hg]
    exact mul_ne_zero two_ne_zero (sub_ne_zero.mpr hb)
  generalize hs : Opt.gdStep eta = step
  have key : ∃ r l1, serve step [.step [x] [t], .train] ((), spareNet w b u c) = .ok r ∧
      r.2.layers[0]? = some (.dense l1) ∧ l1.biases = [(step (step () w (g * x)).1 b g).2] := by
    unfold serve
    rw [hl]
    exact ⟨_, _, rfl, rfl, rfl⟩
  obtain ⟨r, l1, k1, k2, k3⟩ := key
  obtain ⟨l2, k4, k5⟩ := C113_history_partial spareOps (by simp [spareOps, Joins]) (spareNet w b u c) rfl 1 spare_needs
    (.dense (spareDense u c)) rfl (by
      intro b hb v hv
      have : b = [0] := by simpa [spareDense, denseNew, AnyLayer.paramGrads] using hb
      subst this
      simpa using hv) Unit step (hs ▸ C108_gd eta) () _ r k1
  refine ⟨r, l1, l2, k1, k2, ?_, k4, k5⟩
  rw [k3, ← hs]
  intro e
  have e : b - eta * g = b := by simpa [Opt.gdStep] using e
  exact mul_ne_zero he hg0 (by linarith)

/-- **C113** is false for Adam: if the first layer of this network does not yet give the target, then after one
`step` and one `train` with a new optimizer the weight of the second layer, on which no loss depends, has changed. -/
theorem C113_adam_refuted (eta b1 b2 eps : ℝ) (he : 0 < eta) (h1 : 0 < b1 ∧ b1 < 1) (hp : 0 < eps)
    (w b u c x t : ℝ) (hx : 0 ≤ x) (ht : b + w * x ≠ t) :
    NoLossNeeds (spareNet w b u c).graph 1 ∧
    ∃ r l v, serve (Opt.adamStep eta b1 b2 eps) [.step [x] [t], .train] (Opt.Adam.init, spareNet w b u c) = .ok r ∧
      r.2.layers[1]? = some (.dense l) ∧ l.weights = [v] ∧ v ≠ u := by
  refine ⟨spare_needs, ?_⟩
  obtain ⟨l, hl⟩ := spare_step w b u c x t
  generalize hg : 2 * (b + w * x - t) = g at hl
  have hg0 : g ≠ 0 := by
    rw [← hg]
    exact mul_ne_zero two_ne_zero (sub_ne_zero.mpr ht)
  generalize hs : Opt.adamStep eta b1 b2 eps = step
  have key : ∃ r l', serve step [.step [x] [t], .train] (Opt.Adam.init, spareNet w b u c) = .ok r ∧
      r.2.layers[1]? = some (.dense l') ∧
      l'.weights = [(step (step (step Opt.Adam.init w (g * x)).1 b g).1 u 0).2] := by
    unfold serve
    rw [hl]
    exact ⟨_, _, rfl, rfl, rfl⟩
  obtain ⟨r, l', k1, k2, k3⟩ := key
  refine ⟨r, l', _, k1, k2, k3, ?_⟩
  rw [← hs]
  refine C108_adam_moves eta b1 b2 eps he h1 hp _ ?_ ?_ u
  · show 1 ≤ Opt.Adam.init.t + 1 + 1
    omega
  · show b1 * (b1 * Opt.Adam.init.m + (1 - b1) * (g * x)) + (1 - b1) * g ≠ 0
    have e : b1 * (b1 * Opt.Adam.init.m + (1 - b1) * (g * x)) + (1 - b1) * g = (1 - b1) * g * (b1 * x + 1) := by
      simp only [Opt.Adam.init]; ring
    rw [e]
    have : 0 ≤ b1 * x := mul_nonneg h1.1.le hx
    exact mul_ne_zero (mul_ne_zero (by linarith [h1.2]) hg0) (by linarith)

end

end Verif.Props
