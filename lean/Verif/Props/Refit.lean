import Verif.Proofs.RefitFnn
import Verif.Props.Net
import Verif.Props.World

/-! C76: a fit starts afresh. -/

namespace Verif.Props

open Verif Verif.Net Verif.Graph Verif.Spec

noncomputable section

/-- **C76** (for feedforward networks without dropout, when all fits use one loss and one batch size):
whatever was done with a network since it was built - any sequence of `predict`, `evaluate` and `fit` calls, on
any data, with any other options - a `fit` with a given seed ends in the same way and with the same
parameters as on the network as it was built, and as on any other network with such a history. -/
theorem C76_refit_partial (ds : List Descriptor) (f : Fnn) (outcomes : List (Option String))
    (h : Fnn.empty.addAll ds = .ok (f, outcomes)) (hne : accepted ds outcomes ≠ [])
    (hr : ∀ a ∈ f.layers, Regular a) (lf : LossFn) (batch : Nat) (g g' : Fnn) (hg : UsedWith lf batch f g)
    (hg' : UsedWith lf batch f g')
    (rg : Init.Random) (init : Init.ModelInit) (o : Nn.OptimizerType) (rate : ℝ) (device device' seed : Nat)
    (hs : seed ≠ 0) (d : Data.Dataset ℝ) (hd : ∀ i x, i < d.size → d.input i = .ok x → x.length = declaredInput ds)
    (fuel epochs : Nat) :
    fitted (Nn.fit rg lf init o rate device seed d fuel epochs batch g)
      = fitted (Nn.fit rg lf init o rate device' seed d fuel epochs batch g') :=
  Net.refit h hne hr hg hg' rg init o rate device device' seed hs d hd fuel epochs

/-! ### What is excluded -/

/-- One input, one output. -/
def tinyNet : List Descriptor := [⟨.input [⟨1, 1, 1⟩], .none⟩, ⟨.dense [⟨1, 1, 1⟩], .linear⟩]

/-- One sample: 1 with target 0. -/
def once : Data.Dataset ℝ := ⟨[1, 0], 2, 1, 2, 1, 1, {1}, {0}⟩

theorem once_sample : once.input 0 = .ok [1] ∧ once.label 0 = .ok [0] := by
  simp [once, Data.Dataset.input, Data.Dataset.label, Data.Dataset.fieldFromRow, Data.iter, Data.collect, rd]

/-- A generator whose normal distribution always gives 0. -/
def zeros : Init.Random := ⟨Unit, fun _ => (), fun _ => (0, ()), 1, Unit, (), fun _ _ s => (0, s)⟩

/-- One epoch over one sample: `reset_score`, `step`, `train`. -/
theorem fit_once {rate : ℝ} {n n1 n2 : Net} {batch : Nat} (h0 : 0 < batch)
    (h1 : n.resetScore.step [1] [0] = .ok (n1, none)) (h2 : n1.train (Opt.gdStep rate) () = (((), n2), .ok ())) :
    Nn.train .gradientDescent rate once 1 1 batch n = some (.ok n2) := by
  obtain ⟨k, rfl⟩ := Nat.exists_eq_succ_of_ne_zero (by omega : batch ≠ 0)
  obtain ⟨s1, s2⟩ := once_sample
  have hz : once.size = 1 := rfl
  have hl : Training.batchLoop (Training.modelOps (Opt.gdStep rate) once) 1 (k + 1) 0 ((), n.resetScore)
      = .ok (1, ((), n1)) := by
    unfold Training.batchLoop
    rw [if_pos (by omega)]
    have : (Training.modelOps (Opt.gdStep rate) once).step 0 ((), n.resetScore) = .ok ((), n1) := by
      simp [Training.modelOps, s1, s2, Exec.bind_ok, h1, Training.raise]
    rw [this, Exec.bind_ok]
    cases k with
    | zero => rfl
    | succ k => unfold Training.batchLoop; rw [if_neg (by omega)]
  have hb : Training.batch (Training.modelOps (Opt.gdStep rate) once) 1 (k + 1) 0 ((), n) = .ok (1, ((), n2)) := by
    unfold Training.batch
    have e1 : (Training.modelOps (Opt.gdStep rate) once).reset ((), n) = .ok ((), n.resetScore) := rfl
    have e2 : (Training.modelOps (Opt.gdStep rate) once).train ((), n1) = .ok ((), n2) := by
      simp [Training.modelOps, h2, Exec.bind_ok]
    rw [e1, Exec.bind_ok, hl, Exec.bind_ok]
    dsimp only
    rw [e2, Exec.bind_ok]
  unfold Nn.train Training.fit
  dsimp only
  rw [hz]
  unfold Training.run Training.epoch
  rw [if_pos (by omega)]
  dsimp only
  rw [hb]
  dsimp only
  unfold Training.epoch
  rw [if_neg (by omega)]
  rfl

theorem tiny_fit (c w b gi gw gb o ag rate : ℝ) (li ao : List ℝ) (l : Loss.Layer) (hg : l.gradients.length = 1)
    (hb : l.invBatch = c) (batch : Nat) (h0 : 0 < batch) :
    ∃ n, Nn.train .gradientDescent rate once 1 1 batch (tiny w b ⟨[gi], [gw], [gb]⟩ [o] li ⟨ao, [ag]⟩ l)
      = some (.ok n) ∧ n.layers.map AnyLayer.params =
        [[[w - rate * (gw + 2 * c * (w + b))], [b - rate * (gb + 2 * c * (w + b))]], [], []] := by
  obtain ⟨l', e, _, _⟩ := tiny_step_scaled c w b gi gw gb o ag li ao l.resetScore hg hb
  exact ⟨_, fit_once h0 e (tiny_train _ _ _ _ _ _ _ _ _ _), rfl⟩

/-- The network of `tinyNet` with its loss layer. -/
theorem tiny_built : ∃ f, Fnn.empty.addAll tinyNet = .ok (f, [none, none]) ∧
    accepted tinyNet [none, none] ≠ [] ∧ (∀ a ∈ f.layers, Regular a) ∧
    ∀ batch, ∃ f1, f.addLosses .mse batch = .ok (f1, none) ∧ f1.model.graph = (built lossOps).graph ∧
      f1.layers = [.dense (denseNew 1 1), .act .linear (Act.Layer.new 1), .loss .mse (Loss.Layer.new 1 batch (1 / 10))] := by
  refine ⟨_, rfl, ?_, ?_, ?_⟩
  · intro e; cases e
  · intro a ha
    obtain ⟨i, hi⟩ := List.mem_iff_getElem?.mp ha
    match i with
    | 0 | 1 => cases hi; trivial
    | i + 2 => cases hi
  · intro batch
    exact ⟨_, rfl, rfl, rfl⟩

theorem tiny_init (l : Loss.Layer) (w b : ℝ) :
    Init.init zeros .xavier .normal 0 1 ⟨(built lossOps).graph,
      [.dense { denseNew 1 1 with weights := [w], biases := [b] }, .act .linear (Act.Layer.new 1), .loss .mse l]⟩
      = .ok (tiny 0 0.01 ⟨[0], [0], [0]⟩ [0] [] ⟨[0], [0]⟩ l, 1) := by
  rfl

/-- **C76 is false** if an earlier `fit` used another batch size. -/
theorem C76_batch_refuted : ¬ ∀ (ds : List Descriptor) (f : Fnn) (outcomes : List (Option String)),
    Fnn.empty.addAll ds = .ok (f, outcomes) → accepted ds outcomes ≠ [] → (∀ a ∈ f.layers, Regular a) →
    ∀ (lf : LossFn) (g : Fnn), UsedBy lf f g → ∀ (rg : Init.Random) (init : Init.ModelInit) (o : Nn.OptimizerType)
      (rate : ℝ) (device seed : Nat), seed ≠ 0 → ∀ d : Data.Dataset ℝ,
      (∀ i x, i < d.size → d.input i = .ok x → x.length = declaredInput ds) → ∀ fuel epochs batch : Nat,
      fitted (Nn.fit rg lf init o rate device seed d fuel epochs batch g)
        = fitted (Nn.fit rg lf init o rate device seed d fuel epochs batch f) := by
  intro h
  obtain ⟨f, h1, h2, h3, h4⟩ := tiny_built
  obtain ⟨f1, a1, a2, a3⟩ := h4 1
  obtain ⟨f2, b1, b2, b3⟩ := h4 2
  have n1 : f1.net = ⟨(built lossOps).graph, [.dense { denseNew 1 1 with weights := [0], biases := [0] },
      .act .linear (Act.Layer.new 1), .loss .mse (Loss.Layer.new 1 1 (1 / 10))]⟩ := by
    unfold Fnn.net
    rw [a2, a3]
    rfl
  have n2 : f2.net = ⟨(built lossOps).graph, [.dense { denseNew 1 1 with weights := [0], biases := [0] },
      .act .linear (Act.Layer.new 1), .loss .mse (Loss.Layer.new 1 2 (1 / 10))]⟩ := by
    unfold Fnn.net
    rw [b2, b3]
    rfl
  -- the network after a `fit` with batch size 1 and no epochs
  let g : Fnn := { f1 with layers := (tiny 0 0.01 ⟨[0], [0], [0]⟩ [0] [] ⟨[0], [0]⟩ (Loss.Layer.new 1 1 (1 / 10))).layers }
  have hg : Nn.fit zeros .mse .xavier .gradientDescent 1 0 1 once 0 0 1 f = some (.ok g) := by
    unfold Nn.fit
    rw [a1]
    dsimp only
    rw [n1, tiny_init]
    rfl
  have hu : UsedBy .mse f g := .fit zeros .xavier .gradientDescent 1 0 1 once 0 0 1 .new hg
  have key := h tinyNet f _ h1 h2 h3 .mse g hu zeros .xavier .gradientDescent 1 0 1 (by omega) once (by
    intro i x hi hx
    have : i = 0 := by
      have : once.size = 1 := rfl
      omega
    subst this
    rw [once_sample.1] at hx
    cases hx
    rfl) 1 1 2
  obtain ⟨m1, c1, c2⟩ := tiny_fit 1 0 0.01 0 0 0 0 0 1 [] [0] (Loss.Layer.new 1 1 (1 / 10)) rfl
    (by simp [Loss.Layer.new]) 2 (by omega)
  obtain ⟨m2, d1, d2⟩ := tiny_fit (1 / 2) 0 0.01 0 0 0 0 0 1 [] [0] (Loss.Layer.new 1 2 (1 / 10)) rfl
    (by simp [Loss.Layer.new]) 2 (by omega)
  have e1 : fitted (Nn.fit zeros .mse .xavier .gradientDescent 1 0 1 once 1 1 2 g)
      = some (.ok (m1.layers.map AnyLayer.params)) := by
    unfold Nn.fit
    rw [C64_later_fit g (by show f1.model.graph.layers ≠ []; rw [a2]; intro e; cases e)
      (by show f1.model.graph.loss ≠ []; rw [a2]; intro e; cases e)]
    dsimp only
    have : g.net = ⟨(built lossOps).graph, [.dense { denseNew 1 1 with weights := [0], biases := [0.01] },
      .act .linear (Act.Layer.new 1), .loss .mse (Loss.Layer.new 1 1 (1 / 10))]⟩ := by
      show (⟨f1.model.graph, _⟩ : Net) = _
      rw [a2]
      rfl
    rw [this, tiny_init]
    dsimp only
    rw [c1]
    rfl
  have e2 : fitted (Nn.fit zeros .mse .xavier .gradientDescent 1 0 1 once 1 1 2 f)
      = some (.ok (m2.layers.map AnyLayer.params)) := by
    unfold Nn.fit
    rw [b1]
    dsimp only
    rw [n2, tiny_init]
    dsimp only
    rw [d1]
    rfl
  rw [e1, e2, c2, d2] at key
  norm_num at key

/-- Five layers in a row: four and a loss layer. -/
def fiveOps : List Op :=
  [.addLayer, .addLayer, .edge ⟨0, false⟩ ⟨1, false⟩, .addLayer, .edge ⟨1, false⟩ ⟨2, false⟩, .addLayer,
    .edge ⟨2, false⟩ ⟨3, false⟩, .addLoss, .lossEdge ⟨3, false⟩ ⟨4, true⟩]

theorem five_graph : (built fiveOps).graph.inputs = [0] ∧ (built fiveOps).graph.loss = [4] ∧
    trainingArcs (built fiveOps).graph = [(0, 1), (1, 2), (2, 3), (3, 4)] ∧
    backwardArcs (built fiveOps).graph = [(4, 3), (3, 2), (2, 1), (1, 0)] := by
  decide

/-- A generator that gives 0, 1, 0, 1, … -/
def alternate (i : Nat) : Nat := i % 2

/-- One input, one output, one dropout layer that drops the activations drawn as 0. -/
def halfNet : List Descriptor := [⟨.input [⟨1, 1, 1⟩], .none⟩, ⟨.dense [⟨1, 1, 1⟩], .linear⟩,
  ⟨.dropout (1 / 2) 1 alternate, .linear⟩]

theorem half_built : ∃ f, Fnn.empty.addAll halfNet = .ok (f, [none, none, none]) ∧
    accepted halfNet [none, none, none] ≠ [] ∧
    ∃ f1, f.addLosses .mse 1 = .ok (f1, none) ∧ f1.model.graph = (built fiveOps).graph ∧
      f1.layers = [.dense (denseNew 1 1), .act .linear (Act.Layer.new 1),
        .dropout 1 alternate (Drop.Layer.new 1 (1 / 2)), .act .linear (Act.Layer.new 1),
        .loss .mse (Loss.Layer.new 1 1 (1 / 10))] := by
  refine ⟨_, rfl, ?_, ?_⟩
  · intro e; cases e
  · exact ⟨_, rfl, rfl, rfl⟩

/-- A network of `halfNet` with its loss layer. -/
def dropped (w b : ℝ) (g : Dense.Grads ℝ) (out li : List ℝ) (a : Act.Layer) (d : Drop.Layer) (a' : Act.Layer)
    (l : Loss.Layer) : Net :=
  ⟨(built fiveOps).graph, [.dense ⟨1, 1, [w], [b], g, out, li⟩, .act .linear a, .dropout 1 alternate d,
    .act .linear a', .loss .mse l]⟩

theorem alternate_even (k : Nat) (h : k % 2 = 0) : Drop.uniform 1 (1 / 2) 1 (alternate k) = 0 := by
  simp [Drop.uniform, alternate, h]

theorem alternate_odd (k : Nat) (h : k % 2 = 1) : Drop.uniform 1 (1 / 2) 1 (alternate k) = 1 := by
  simp [Drop.uniform, alternate, h]
  norm_num

theorem step_five (a b c d a' b' c' d' a2 b2 c2 d2 : AnyLayer) (f : LossFn) (l l' l2 : Loss.Layer)
    (x t v u z y : List ℝ)
    (h1 : a.trainingForward x = .ok (a', none)) (h2 : a'.lastOutput = .ok v)
    (h3 : b.trainingForward v = .ok (b', none)) (h4 : b'.lastOutput = .ok u)
    (h5 : c.trainingForward u = .ok (c', none)) (h6 : c'.lastOutput = .ok z)
    (h7 : d.trainingForward z = .ok (d', none)) (h8 : d'.lastOutput = .ok y)
    (h9 : (AnyLayer.loss f (l.setTarget t)).trainingForward y = .ok (.loss f l', none))
    (k1 : ((AnyLayer.loss f l').setLastInput y).backward [] = .ok (.loss f l2, none))
    (k2 : (d'.setLastInput z).backward l2.gradients = .ok (d2, none))
    (k3 : (c'.setLastInput u).backward d2.lastInputGradient = .ok (c2, none))
    (k4 : (b'.setLastInput v).backward c2.lastInputGradient = .ok (b2, none))
    (k5 : (a'.setLastInput x).backward b2.lastInputGradient = .ok (a2, none)) :
    Net.step ⟨(built fiveOps).graph, [a, b, c, d, .loss f l]⟩ x t
      = .ok (⟨(built fiveOps).graph, [a2, b2, c2, d2, .loss f l2]⟩, none) := by
  obtain ⟨g1, g2, g3, g4⟩ := five_graph
  have k6 : (AnyLayer.loss f l2).lastInputGradient = l2.gradients := rfl
  unfold Net.step
  dsimp only
  rw [g1, g2, g3, g4]
  simp [each, next, targetAt, trainAt, backwardAt, backArcAt, follow, value, rd, h1, h2, h3, h4, h5, h6, h7, h8, h9,
    k1, k2, k3, k4, k5, k6]

theorem loss_step (y : ℝ) (l : Loss.Layer) (x c : ℝ) (hx : l.gradients = [x]) (hb : l.invBatch = c) :
    ∃ l1 : Loss.Layer, (AnyLayer.loss .mse (l.setTarget [0])).trainingForward [y] = .ok (.loss .mse l1, none) ∧
      ∃ l2 : Loss.Layer, ((AnyLayer.loss .mse l1).setLastInput [y]).backward [] = .ok (.loss .mse l2, none) ∧
        l2.gradients = [2 * c * y] ∧ l2.invBatch = c := by
  obtain ⟨l1, hl, hl1, hl2, hl3, hl4⟩ : ∃ l1 : Loss.Layer,
      (AnyLayer.loss .mse (l.setTarget [0])).trainingForward [y] = .ok (.loss .mse l1, none) ∧
        l1.gradients = [x] ∧ l1.target = [0] ∧ l1.lastInput = [y] ∧ l1.invBatch = c := by
    simp only [AnyLayer.trainingForward, AnyLayer.setLastInput, AnyLayer.forward, LossFn.forward,
      Loss.mseForward, Loss.meanSquaredError, Loss.Layer.setTarget, forUp, forFrom, rd]
    simp only [List.isEmpty_cons, Bool.false_eq_true, if_false, List.length_cons, List.length_nil,
      forFrom, Exec.bind_ok, Exec.pure_eq_ok, List.getElem?_cons_zero]
    split
    · exact ⟨_, rfl, hx, rfl, rfl, hb⟩
    · exact ⟨_, rfl, hx, rfl, rfl, hb⟩
  refine ⟨l1, hl, { l1 with lastInput := [y], gradients := [2 * c * y] }, ?_, rfl, hl4⟩
  have hli : (AnyLayer.loss .mse l1).setLastInput [y] = .loss .mse { l1 with lastInput := [y] } := rfl
  rw [hli]
  simp [AnyLayer.backward, LossFn.backward, Loss.mseBackward, Loss.meanSquaredError1, Loss.squaredError1,
      hl1, hl2, hl4, forUp, forFrom, rd, wr, keep]

/-- A step whose only activation is dropped. -/
theorem dropped_step (w b gi gw gb o a0 a1 d0 d1 e0 e1 x : ℝ) (k : Nat) (hk : k % 2 = 0) (m : List Nat) (li : List ℝ)
    (l : Loss.Layer) (hx : l.gradients = [x]) (hb : l.invBatch = 1) :
    ∃ (g : ℝ) (l' : Loss.Layer), (dropped w b ⟨[gi], [gw], [gb]⟩ [o] li ⟨[a0], [a1]⟩ ⟨1, 1 / 2, 2, k, m, [d0], [d1]⟩ ⟨[e0], [e1]⟩
        l).step [1] [0]
      = .ok (dropped w b ⟨[g], [gw], [gb]⟩ [b + w] [1] ⟨[b + w], [0]⟩ ⟨1, 1 / 2, 2, k + 1, [0], [0], [0]⟩
          ⟨[0], [0]⟩ l', none) ∧ l'.gradients = [0] ∧ l'.invBatch = 1 := by
  obtain ⟨l1, q1, l2, q2, q3, q4⟩ := loss_step 0 l x 1 hx hb
  have q3' : l2.gradients = [0] := by rw [q3]; simp
  refine ⟨0, l2, ?_, q3', q4⟩
  refine step_five _ _ _ _ (.dense ⟨1, 1, [w], [b], ⟨[gi], [gw], [gb]⟩, [b + w], [1]⟩)
    (.act .linear ⟨[b + w], [a1]⟩) (.dropout 1 alternate ⟨1, 1 / 2, 2, k + 1, [0], [0], [d1]⟩)
    (.act .linear ⟨[0], [e1]⟩) _ _ _ _ _ l l1 l2 [1] [0] [b + w] [b + w] [0] [0] ?_ rfl rfl rfl ?_ rfl rfl rfl q1 q2
    ?_ ?_ ?_ ?_
  · simp [AnyLayer.trainingForward, AnyLayer.setLastInput, AnyLayer.forward, Dense.Layer.forward,
      Dense.dense, forUp, forFrom, rd, wr, keep]
  · have := alternate_even k hk
    rw [one_div] at this
    have h2 : ¬ (2 : ℝ) < 0 := by norm_num
    simp [AnyLayer.trainingForward, Drop.Layer.trainingForward, Drop.dropLoop, forUp, forFrom, rd, wr, keep, this, h2]
  · rw [q3']
    simp [AnyLayer.setLastInput, AnyLayer.backward, ActFn.backward, Act.linearBackward, Act.mapArr, forUp, forFrom, rd, wr, keep]
  · simp [AnyLayer.setLastInput, AnyLayer.lastInputGradient, AnyLayer.backward, Drop.Layer.backward, Drop.arrScale,
      Drop.clearAt, forUp, forFrom, rd, wr, keep]
  · simp [AnyLayer.setLastInput, AnyLayer.lastInputGradient, AnyLayer.backward, ActFn.backward, Act.linearBackward, Act.mapArr, forUp, forFrom, rd, wr, keep]
  · simp [AnyLayer.setLastInput, AnyLayer.lastInputGradient, AnyLayer.backward, Dense.Layer.backward, Dense.dense1,
      Dense.fill, forUp, forFrom, rd, wr, keep]

/-- A step whose only activation is kept. -/
theorem kept_step (w b gi gw gb o a0 a1 d0 d1 e0 e1 x : ℝ) (k : Nat) (hk : k % 2 = 1) (m : List Nat) (li : List ℝ)
    (l : Loss.Layer) (hx : l.gradients = [x]) (hb : l.invBatch = 1) :
    ∃ (l' : Loss.Layer) (a' e' : Act.Layer) (d' : Drop.Layer) (g : ℝ),
      (dropped w b ⟨[gi], [gw], [gb]⟩ [o] li ⟨[a0], [a1]⟩ ⟨1, 1 / 2, 2, k, m, [d0], [d1]⟩ ⟨[e0], [e1]⟩ l).step [1] [0]
      = .ok (dropped w b ⟨[g], [gw + 8 * (b + w)], [gb + 8 * (b + w)]⟩ [b + w] [1] a' d' e' l', none) := by
  obtain ⟨l1, q1, l2, q2, q3, q4⟩ := loss_step ((b + w) * 2) l x 1 hx hb
  have q3' : l2.gradients = [4 * (b + w)] := by rw [q3]; congr 1; ring
  refine ⟨l2, ⟨[b + w], [8 * (b + w)]⟩, ⟨[(b + w) * 2], [4 * (b + w)]⟩,
    ⟨1, 1 / 2, 2, k + 1, [], [(b + w) * 2], [8 * (b + w)]⟩, 8 * (b + w) * w, ?_⟩
  refine step_five _ _ _ _ (.dense ⟨1, 1, [w], [b], ⟨[gi], [gw], [gb]⟩, [b + w], [1]⟩)
    (.act .linear ⟨[b + w], [a1]⟩) (.dropout 1 alternate ⟨1, 1 / 2, 2, k + 1, [], [(b + w) * 2], [d1]⟩)
    (.act .linear ⟨[(b + w) * 2], [e1]⟩) _ _ _ _ _ l l1 l2 [1] [0] [b + w] [b + w] [(b + w) * 2] [(b + w) * 2]
    ?_ rfl rfl rfl ?_ rfl rfl rfl q1 q2 ?_ ?_ ?_ ?_
  · simp [AnyLayer.trainingForward, AnyLayer.setLastInput, AnyLayer.forward, Dense.Layer.forward,
      Dense.dense, forUp, forFrom, rd, wr, keep]
  · have := alternate_odd k hk
    rw [one_div] at this
    have h2 : (2 : ℝ)⁻¹ < 1 := by norm_num
    simp [AnyLayer.trainingForward, Drop.Layer.trainingForward, Drop.dropLoop, forUp, forFrom, rd, wr, keep, this, h2]
  · rw [q3']
    simp [AnyLayer.setLastInput, AnyLayer.backward, ActFn.backward, Act.linearBackward, Act.mapArr, forUp, forFrom, rd, wr, keep]
  · have h2 : 4 * (b + w) * 2 = 8 * (b + w) := by ring
    simp [AnyLayer.setLastInput, AnyLayer.lastInputGradient, AnyLayer.backward, Drop.Layer.backward, Drop.arrScale,
      Drop.clearAt, forUp, forFrom, rd, wr, keep, h2]
  · simp [AnyLayer.setLastInput, AnyLayer.lastInputGradient, AnyLayer.backward, ActFn.backward, Act.linearBackward, Act.mapArr, forUp, forFrom, rd, wr, keep]
  · simp [AnyLayer.setLastInput, AnyLayer.lastInputGradient, AnyLayer.backward, Dense.Layer.backward, Dense.dense1,
      Dense.fill, forUp, forFrom, rd, wr, keep]

theorem dropped_train (eta w b gi gw gb : ℝ) (out li : List ℝ) (a : Act.Layer) (d : Drop.Layer) (a' : Act.Layer)
    (l : Loss.Layer) :
    (dropped w b ⟨[gi], [gw], [gb]⟩ out li a d a' l).train (Opt.gdStep eta) ()
      = (((), dropped (w - eta * gw) (b - eta * gb) ⟨[gi], [0], [0]⟩ out li a d a' l), .ok ()) := by
  simp [Net.train, dropped, trainLayers, AnyLayer.train, Opt.trainSelf, AnyLayer.kind, Opt.Kind.paramCount,
    Opt.trainLoop, Opt.trainOne, Opt.readAt, Opt.writeAt, Opt.locate, AnyLayer.params, AnyLayer.paramGrads, rd, wr,
    Opt.gdStep, AnyLayer.setParams, AnyLayer.setParamGrads]

theorem dropped_init (w b : ℝ) (g : Dense.Grads ℝ) (out li : List ℝ) (a : Act.Layer) (d : Drop.Layer) (a' : Act.Layer)
    (l : Loss.Layer) :
    Init.init zeros .xavier .normal 0 1 (dropped w b g out li a d a' l)
      = .ok (dropped 0 0.01 g out li a d a' l, 1) := by
  rfl

/-- **C76 is false** for networks with dropout layers: these go on drawing from where the earlier calls left their
generators. -/
theorem C76_dropout_refuted : ¬ ∀ (ds : List Descriptor) (f : Fnn) (outcomes : List (Option String)),
    Fnn.empty.addAll ds = .ok (f, outcomes) → accepted ds outcomes ≠ [] →
    ∀ (lf : LossFn) (batch : Nat) (g : Fnn), UsedWith lf batch f g → ∀ (rg : Init.Random) (init : Init.ModelInit)
      (o : Nn.OptimizerType) (rate : ℝ) (device seed : Nat), seed ≠ 0 → ∀ d : Data.Dataset ℝ,
      (∀ i x, i < d.size → d.input i = .ok x → x.length = declaredInput ds) → ∀ fuel epochs : Nat,
      fitted (Nn.fit rg lf init o rate device seed d fuel epochs batch g)
        = fitted (Nn.fit rg lf init o rate device seed d fuel epochs batch f) := by
  intro h
  obtain ⟨f, h1, h2, f1, a1, a2, a3⟩ := half_built
  have n1 : f1.net = dropped 0 0 ⟨[0], [0], [0]⟩ [0] [] ⟨[0], [0]⟩ ⟨1, 1 / 2, 2, 0, [], [0], [0]⟩ ⟨[0], [0]⟩
      (Loss.Layer.new 1 1 (1 / 10)) := by
    have hs : Drop.scaleOf (1 / 2) = 2 := by
      unfold Drop.scaleOf
      norm_num
    unfold Fnn.net
    rw [a2, a3]
    unfold Drop.Layer.new
    rw [hs]
    rfl
  -- the first fit drops the only activation
  obtain ⟨gi, l', s1, s2, s3⟩ := dropped_step 0 0.01 0 0 0 0 0 0 0 0 0 0 0 0 rfl [] [] (Loss.Layer.new 1 1 (1 / 10)).resetScore
    rfl (by simp [Loss.Layer.new, Loss.Layer.resetScore])
  have t1 := fit_once (rate := 1) (batch := 1) (n := dropped 0 0.01 ⟨[0], [0], [0]⟩ [0] [] ⟨[0], [0]⟩
    ⟨1, 1 / 2, 2, 0, [], [0], [0]⟩ ⟨[0], [0]⟩ (Loss.Layer.new 1 1 (1 / 10))) (by omega) s1
    (dropped_train 1 _ _ _ _ _ _ _ _ _ _ _)
  have hg : Nn.fit zeros .mse .xavier .gradientDescent 1 0 1 once 1 1 1 f = some (.ok { f1 with
      layers := (dropped (0 - 1 * 0) (0.01 - 1 * 0) ⟨[gi], [0], [0]⟩ [0.01 + 0] [1] ⟨[0.01 + 0], [0]⟩
        ⟨1, 1 / 2, 2, 0 + 1, [0], [0], [0]⟩ ⟨[0], [0]⟩ l').layers }) := by
    unfold Nn.fit
    rw [a1]
    dsimp only
    rw [n1, dropped_init]
    dsimp only
    rw [t1]
    rfl
  -- the second one keeps it
  obtain ⟨l2, a', e', d', gj, s4⟩ := kept_step 0 0.01 gi 0 0 (0.01 + 0) (0.01 + 0) 0 0 0 0 0 0 1 rfl [0] [1] l'.resetScore
    s2 s3
  have t2 := fit_once (rate := 1) (batch := 1) (n := dropped 0 0.01 ⟨[gi], [0], [0]⟩ [0.01 + 0] [1] ⟨[0.01 + 0], [0]⟩
    ⟨1, 1 / 2, 2, 1, [0], [0], [0]⟩ ⟨[0], [0]⟩ l') (by omega) s4 (dropped_train 1 _ _ _ _ _ _ _ _ _ _ _)
  have hu := UsedWith.fit zeros .xavier .gradientDescent 1 0 1 once 1 1 .new hg
  have key := h halfNet f _ h1 h2 .mse 1 _ hu zeros .xavier .gradientDescent 1 0 1 (by omega) once (by
    intro i x hi hx
    have : i = 0 := by
      have : once.size = 1 := rfl
      omega
    subst this
    rw [once_sample.1] at hx
    cases hx
    rfl) 1 1
  rw [hg] at key
  unfold Nn.fit at key
  rw [C64_later_fit _ (by show f1.model.graph.layers ≠ []; rw [a2]; intro e; cases e)
      (by show f1.model.graph.loss ≠ []; rw [a2]; intro e; cases e)] at key
  dsimp only at key
  have : (⟨f1.model.graph, (dropped (0 - 1 * 0) (0.01 - 1 * 0) ⟨[gi], [0], [0]⟩ [0.01 + 0] [1] ⟨[0.01 + 0], [0]⟩
      ⟨1, 1 / 2, 2, 0 + 1, [0], [0], [0]⟩ ⟨[0], [0]⟩ l').layers⟩ : Net)
      = dropped (0 - 1 * 0) (0.01 - 1 * 0) ⟨[gi], [0], [0]⟩ [0.01 + 0] [1] ⟨[0.01 + 0], [0]⟩
        ⟨1, 1 / 2, 2, 0 + 1, [0], [0], [0]⟩ ⟨[0], [0]⟩ l' := by
    rw [a2]
    rfl
  unfold Fnn.net at key
  dsimp only at key
  rw [this, dropped_init] at key
  dsimp only at key
  rw [t2] at key
  simp [fitted, dropped, AnyLayer.params] at key
  norm_num at key

end

end Verif.Props
