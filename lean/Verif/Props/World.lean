import Verif.Proofs.World
import Verif.Props.Net
import Mathlib.Tactic.NormNum
import Mathlib.Tactic.Ring

namespace Verif.Props

open Verif.Spec Verif.Training Verif.Net Verif.Graph

/-! ### C40: copies of a model -/

/-- The state of a model in a world, as its member functions see it. -/
def stateOf (w : World) (k : Nat) : Option Net := w.models[k]?.map (Mod.view w.heap)

/-- The learnable parameters of a model. -/
def weightsOf (n : Net) : List (List (List ℝ)) := n.layers.map AnyLayer.params

/-- A world that some history of copies and calls leads to from a single model. -/
def Reachable (τ : Type) (n : Net) (w : World) : Prop :=
  ∃ as : List (Action τ), (World.of n).run as = .ok w

theorem Reachable.inv {τ : Type} {n : Net} {w : World} (h : Reachable τ n w) :
    ∃ A, Inv A w := by
  obtain ⟨as, h⟩ := h
  exact ⟨_, run_inv as (inv_of n) h⟩

theorem stateOf_some {w : World} {k : Nat} {n : Net} (h : stateOf w k = some n) :
    ∃ m, w.models[k]? = some m ∧ n = m.view w.heap := by
  unfold stateOf at h
  cases hm : w.models[k]? with
  | none => rw [hm] at h; cases h
  | some m => rw [hm] at h; cases h; exact ⟨m, rfl, rfl⟩

/-- A world with a single model behaves like that model. -/
theorem C40_single (n : Net) : stateOf (World.of n) 0 = some n := by
  have := view_of n
  show ((World.of n).models[0]?).map _ = _
  rw [← List.getElem?_map, this]
  rfl

/-- **C40** After every history, all copies have the same weights and biases. -/
theorem C40_same_parameters {τ : Type} {n : Net} {w : World} (h : Reachable τ n w) {j k : Nat}
    {nj nk : Net} (hj : stateOf w j = some nj) (hk : stateOf w k = some nk) :
    weightsOf nj = weightsOf nk := by
  obtain ⟨A, hA⟩ := h.inv
  obtain ⟨mj, ej, rfl⟩ := stateOf_some hj
  obtain ⟨mk, ek, rfl⟩ := stateOf_some hk
  rw [weightsOf, weightsOf, view_params hA (List.mem_of_getElem? ej),
    view_params hA (List.mem_of_getElem? ek)]

/-- **C40** A copy is in the state of the original, and copying changes no model. -/
theorem C40_copy {τ : Type} {w w' : World} {k : Nat}
    (e : w.act (.copy k : Action τ) = .ok w') :
    stateOf w' w.models.length = stateOf w k ∧ ∀ j < w.models.length, stateOf w' j = stateOf w j := by
  obtain ⟨m, hm, e⟩ := Exec.bind_eq_ok e
  cases e
  refine ⟨?_, ?_⟩
  · unfold stateOf
    dsimp only
    rw [List.getElem?_append_right (Nat.le_refl _), rd_eq_ok hm]
    simp [Mod.view, Mod.copy, Obj.clone, Obj.view]
  · intro j hj
    unfold stateOf
    dsimp only
    rw [List.getElem?_append_left hj]

/-- **C40** `predict`, `step` and `reset_score` on one model do to it what they do to a model on its
own, and change nothing of the others: neither parameters nor gradients, activations or statistics. -/
theorem C40_call {τ : Type} {n : Net} {w w' : World} (h : Reachable τ n w) {k : Nat} {c : Call}
    (e : w.act (.call k c : Action τ) = .ok w') :
    (∃ nk nk', stateOf w k = some nk ∧ nk.call c = .ok nk' ∧ stateOf w' k = some nk' ∧
      weightsOf nk' = weightsOf nk) ∧
    ∀ j, j ≠ k → stateOf w' j = stateOf w j := by
  obtain ⟨A, hA⟩ := h.inv
  obtain ⟨m, hm, e⟩ := Exec.bind_eq_ok e
  obtain ⟨n', hn, e⟩ := Exec.bind_eq_ok e
  cases e
  have hm := rd_eq_ok hm
  have hp := call_params hn
  have hl : n'.layers.map (·.params.length) = (m.view w.heap).layers.map (·.params.length) := by
    have := congrArg (List.map List.length) hp
    simpa [Function.comp_def] using this
  refine ⟨⟨m.view w.heap, n', ?_, hn, ?_, hp⟩, ?_⟩
  · rw [stateOf, hm]; rfl
  · have hk : k < w.models.length := (List.getElem?_eq_some_iff.mp hm).1
    show ((w.models.set k (m.update n'))[k]?).map _ = _
    rw [List.getElem?_set_self hk]
    exact congrArg some (put_world hA hm hl).2.1
  · intro j hj
    show ((w.models.set k (m.update n'))[j]?).map (Mod.view (w.put k m n').heap) = _
    rw [List.getElem?_set_ne (fun e => hj e.symm), put_same hA hm hp]
    rfl

/-- **C40** `train` on one model does to it what it does to a model on its own.  The other models get
the new weights and biases and keep everything else. -/
theorem C40_train {τ : Type} {n : Net} {w w' : World} (h : Reachable τ n w) {k : Nat}
    {opt : τ → ℝ → ℝ → τ × ℝ} {s : τ} (e : w.act (.train k opt s) = .ok w') :
    ∃ nk, stateOf w k = some nk ∧ stateOf w' k = some (nk.train opt s).1.2 ∧
      ∀ j nj, j ≠ k → stateOf w j = some nj →
        stateOf w' j = some ⟨nj.graph, List.zipWith AnyLayer.setParams nj.layers
          (weightsOf (nk.train opt s).1.2)⟩ := by
  obtain ⟨A, hA⟩ := h.inv
  obtain ⟨m, hm, e⟩ := Exec.bind_eq_ok e
  cases e
  have hm := rd_eq_ok hm
  have hl : ((m.view w.heap).train opt s).1.2.layers.map (·.params.length)
      = (m.view w.heap).layers.map (·.params.length) := trainLayers_length opt _ s
  obtain ⟨_, h2, h3, _⟩ := put_world hA hm hl
  refine ⟨m.view w.heap, by rw [stateOf, hm]; rfl, ?_, ?_⟩
  · have hk : k < w.models.length := (List.getElem?_eq_some_iff.mp hm).1
    show ((w.models.set k _)[k]?).map _ = _
    rw [List.getElem?_set_self hk]
    exact congrArg some h2
  · intro j nj hj hnj
    obtain ⟨mj, ej, rfl⟩ := stateOf_some hnj
    show ((w.models.set k _)[j]?).map _ = _
    rw [List.getElem?_set_ne (fun e => hj e.symm), ej]
    refine congrArg some ((h3 mj (List.mem_of_getElem? ej)).trans ?_)
    rw [weightsOf, List.zipWith_map_right]
    rfl

/-- `setParams` replaces the parameters and nothing else. -/
theorem C40_setParams (a : AnyLayer) (ps : List (List ℝ)) (h : ps.length = a.params.length) :
    (a.setParams ps).params = ps ∧ (a.setParams ps).paramGrads = a.paramGrads ∧
    (a.setParams ps).lastOutput = a.lastOutput ∧
    (a.setParams ps).lastInputGradient = a.lastInputGradient ∧
    (a.setParams ps).setParams a.params = a := by
  refine ⟨params_setParams a ps h, ?_, ?_, ?_, ?_⟩
  · unfold AnyLayer.setParams; split <;> rfl
  · unfold AnyLayer.setParams; split <;> rfl
  · unfold AnyLayer.setParams; split <;> rfl
  · rw [setParams_setParams a ps a.params h rfl, setParams_params]

/-- The graph of two layers with a loss. -/
def lossOps : List Op :=
  [.addLayer, .addLayer, .edge ⟨0, false⟩ ⟨1, false⟩, .addLoss, .lossEdge ⟨1, false⟩ ⟨2, true⟩]

theorem loss_graph : (built lossOps).graph.inputs = [0] ∧ (built lossOps).graph.loss = [2] ∧
    trainingArcs (built lossOps).graph = [(0, 1), (1, 2)] ∧
    backwardArcs (built lossOps).graph = [(2, 1), (1, 0)] := by
  decide

/-- A dense layer with one input, one output, weight `w` and bias `b`, followed by a linear layer and a
squared error loss. -/
noncomputable def tiny (w b : ℝ) (g : Dense.Grads ℝ) (out li : List ℝ) (a : Act.Layer) (l : Loss.Layer) :
    Net :=
  ⟨(built lossOps).graph, [.dense ⟨1, 1, [w], [b], g, out, li⟩, .act .linear a, .loss .mse l]⟩

/-- A step on the sample 1 with target 0, when the loss layer divides by `1 / c`. -/
theorem tiny_step_scaled (c w b gi gw gb o ag : ℝ) (li ao : List ℝ) (l : Loss.Layer) (hg : l.gradients.length = 1)
    (hb : l.invBatch = c) :
    ∃ l' : Loss.Layer, (tiny w b ⟨[gi], [gw], [gb]⟩ [o] li ⟨ao, [ag]⟩ l).step [1] [0]
      = .ok (tiny w b ⟨[2 * c * (w + b) * w], [gw + 2 * c * (w + b)], [gb + 2 * c * (w + b)]⟩ [b + w] [1]
          ⟨[b + w], [2 * c * (w + b)]⟩ l', none) ∧ l'.gradients.length = 1 ∧ l'.invBatch = c := by
  obtain ⟨g1, g2, g3, g4⟩ := loss_graph
  obtain ⟨x, hx⟩ : ∃ x, l.gradients = [x] := by
    match h : l.gradients, hg with
    | [x], _ => exact ⟨x, rfl⟩
  have hd : (AnyLayer.dense ⟨1, 1, [w], [b], ⟨[gi], [gw], [gb]⟩, [o], li⟩).trainingForward [1]
      = .ok (.dense ⟨1, 1, [w], [b], ⟨[gi], [gw], [gb]⟩, [b + w], [1]⟩, none) := by
    simp [AnyLayer.trainingForward, AnyLayer.setLastInput, AnyLayer.forward, Dense.Layer.forward,
      Dense.dense, forUp, forFrom, rd, wr, keep]
  have ha : (AnyLayer.act .linear ⟨ao, [ag]⟩).trainingForward [b + w]
      = .ok (.act .linear ⟨[b + w], [ag]⟩, none) := rfl
  obtain ⟨l1, hl, hl1, hl2, hl3, hl4⟩ : ∃ l1 : Loss.Layer,
      (AnyLayer.loss .mse (l.setTarget [0])).trainingForward [b + w] = .ok (.loss .mse l1, none) ∧
        l1.gradients = [x] ∧ l1.target = [0] ∧ l1.lastInput = [b + w] ∧ l1.invBatch = c := by
    simp only [AnyLayer.trainingForward, AnyLayer.setLastInput, AnyLayer.forward, LossFn.forward,
      Loss.mseForward, Loss.meanSquaredError, Loss.Layer.setTarget, forUp, forFrom, rd]
    simp only [List.isEmpty_cons, Bool.false_eq_true, if_false, List.length_cons, List.length_nil,
      forFrom, Exec.bind_ok, Exec.pure_eq_ok, List.getElem?_cons_zero]
    split
    · exact ⟨_, rfl, hx, rfl, rfl, hb⟩
    · exact ⟨_, rfl, hx, rfl, rfl, hb⟩
  have hlb : (AnyLayer.loss .mse { l1 with lastInput := [b + w] }).backward []
      = .ok (.loss .mse { l1 with lastInput := [b + w], gradients := [2 * c * (w + b)] }, none) := by
    have : -(2 * c * (-w + -b)) = 2 * c * (w + b) := by ring
    simp [AnyLayer.backward, LossFn.backward, Loss.mseBackward, Loss.meanSquaredError1, Loss.squaredError1,
      hl1, hl2, hl4, forUp, forFrom, rd, wr, keep, this]
  have hab : (AnyLayer.act .linear ⟨[b + w], [ag]⟩).backward [2 * c * (w + b)]
      = .ok (.act .linear ⟨[b + w], [2 * c * (w + b)]⟩, none) := by
    simp [AnyLayer.backward, ActFn.backward, Act.linearBackward, Act.mapArr, forUp, forFrom, rd, wr, keep]
  have hdb : (AnyLayer.dense ⟨1, 1, [w], [b], ⟨[gi], [gw], [gb]⟩, [b + w], [1]⟩).backward [2 * c * (w + b)]
      = .ok (.dense ⟨1, 1, [w], [b],
          ⟨[2 * c * (w + b) * w], [gw + 2 * c * (w + b)], [gb + 2 * c * (w + b)]⟩, [b + w], [1]⟩, none) := by
    simp [AnyLayer.backward, Dense.Layer.backward, Dense.dense1, Dense.fill, forUp, forFrom, rd, wr, keep]
  refine ⟨{ l1 with lastInput := [b + w], gradients := [2 * c * (w + b)] }, ?_, rfl, hl4⟩
  unfold Net.step tiny
  dsimp only
  rw [g1, g2, g3, g4]
  have hli : (AnyLayer.loss .mse l1).setLastInput [b + w] = .loss .mse { l1 with lastInput := [b + w] } := rfl
  have hai : (AnyLayer.act .linear ⟨[b + w], [ag]⟩).setLastInput [b + w]
      = .act .linear ⟨[b + w], [ag]⟩ := rfl
  have hdi : (AnyLayer.dense ⟨1, 1, [w], [b], ⟨[gi], [gw], [gb]⟩, [b + w], [1]⟩).setLastInput [1]
      = .dense ⟨1, 1, [w], [b], ⟨[gi], [gw], [gb]⟩, [b + w], [1]⟩ := rfl
  simp [each, next, targetAt, trainAt, backArcAt, backwardAt, follow, value, rd, hd, ha, hl, hli, hlb, hai, hab,
    hdi, hdb, AnyLayer.lastInputGradient, AnyLayer.lastOutput]

/-- A step on the sample 1 with target 0. -/
theorem tiny_step (w b gi gw gb o ag : ℝ) (li ao : List ℝ) (l : Loss.Layer) (hg : l.gradients.length = 1)
    (hb : l.invBatch = 1) :
    ∃ l' : Loss.Layer, (tiny w b ⟨[gi], [gw], [gb]⟩ [o] li ⟨ao, [ag]⟩ l).step [1] [0]
      = .ok (tiny w b ⟨[2 * (w + b) * w], [gw + 2 * (w + b)], [gb + 2 * (w + b)]⟩ [b + w] [1]
          ⟨[b + w], [2 * (w + b)]⟩ l', none) ∧ l'.gradients.length = 1 ∧ l'.invBatch = 1 := by
  have h := tiny_step_scaled 1 w b gi gw gb o ag li ao l hg hb
  rwa [mul_one] at h

theorem tiny_train (eta w b gi gw gb : ℝ) (out li : List ℝ) (a : Act.Layer) (l : Loss.Layer) :
    (tiny w b ⟨[gi], [gw], [gb]⟩ out li a l).train (Opt.gdStep eta) ()
      = (((), tiny (w - eta * gw) (b - eta * gb) ⟨[gi], [0], [0]⟩ out li a l), .ok ()) := by
  simp [Net.train, tiny, trainLayers, AnyLayer.train, Opt.trainSelf, AnyLayer.kind, Opt.Kind.paramCount,
    Opt.trainLoop, Opt.trainOne, Opt.readAt, Opt.writeAt, Opt.locate, AnyLayer.params, AnyLayer.paramGrads, rd, wr,
    Opt.gdStep, AnyLayer.setParams, AnyLayer.setParamGrads]

/-- The model in its initial state: weight 1, bias 0. -/
noncomputable def tinyNew : Net := tiny 1 0 ⟨[0], [0], [0]⟩ [0] [] ⟨[0], [0]⟩ (Loss.Layer.new 1 1 0)

theorem act_copy (τ : Type) {w : World} {k : Nat} {n : Net} (h : stateOf w k = some n) :
    ∃ w', w.act (.copy k : Action τ) = .ok w' ∧ w'.models.length = w.models.length + 1 := by
  obtain ⟨m, hm, rfl⟩ := stateOf_some h
  refine ⟨_, by unfold World.act; dsimp only; rw [rd_of_some hm, Exec.bind_ok], by simp⟩

theorem act_call (τ : Type) {w : World} {k : Nat} {n n' : Net} {c : Call} (h : stateOf w k = some n)
    (hc : n.call c = .ok n') : ∃ w', w.act (.call k c : Action τ) = .ok w' := by
  obtain ⟨m, hm, rfl⟩ := stateOf_some h
  exact ⟨_, by unfold World.act; dsimp only; rw [rd_of_some hm, Exec.bind_ok, hc, Exec.bind_ok]⟩

theorem act_train {τ : Type} {w : World} {k : Nat} {n : Net} (h : stateOf w k = some n)
    (opt : τ → ℝ → ℝ → τ × ℝ) (s : τ) : ∃ w', w.act (.train k opt s) = .ok w' := by
  obtain ⟨m, hm, rfl⟩ := stateOf_some h
  exact ⟨_, by unfold World.act; dsimp only; rw [rd_of_some hm, Exec.bind_ok]⟩

/-- The theorems apply to a model of weight 1 and bias 0 that is copied: a step on the copy leaves the original
as it is, training the copy changes the parameters of the original to 1/2 and -1/2. -/
example : ∃ w1 w2 w3 n, (World.of tinyNew).run [(.copy 0 : Action Unit)] = .ok w1 ∧
    w1.act (.call 1 (.step [1] [0]) : Action Unit) = .ok w2 ∧ stateOf w2 0 = some tinyNew ∧
    w2.act (.train 1 (Opt.gdStep (1 / 4)) ()) = .ok w3 ∧ stateOf w3 0 = some n ∧
    weightsOf n = [[[1 / 2], [-1 / 2]], [], []] := by
  have s0 := C40_single tinyNew
  obtain ⟨w1, e1, _⟩ := act_copy Unit s0
  obtain ⟨c1, c2⟩ := C40_copy e1
  have hl : (World.of tinyNew).models.length = 1 := rfl
  rw [hl, s0] at c1
  have c2 := (c2 0 (by rw [hl]; decide)).trans s0
  have r1 : (World.of tinyNew).run [(.copy 0 : Action Unit)] = .ok w1 := by
    unfold World.run
    rw [e1, Exec.bind_ok]
    rfl
  obtain ⟨l', hs, _, _⟩ := tiny_step 1 0 0 0 0 0 0 [] [0] (Loss.Layer.new 1 1 0) (by simp [Loss.Layer.new])
    (by simp [Loss.Layer.new])
  have hs' := congrArg (fun e : Exec (Net × Option String) => e >>= fun r => Exec.ok r.1) hs
  replace hs' : tinyNew.call (.step [1] [0]) = .ok _ := hs'
  obtain ⟨w2, e2⟩ := act_call Unit c1 hs'
  obtain ⟨⟨nk, nk', a1, a2, a3, _⟩, a4⟩ := C40_call ⟨_, r1⟩ e2
  have b2 := (a4 0 (by decide)).trans c2
  rw [c1] at a1
  cases a1
  rw [hs'] at a2
  cases a2
  obtain ⟨w3, e3⟩ := act_train a3 (Opt.gdStep (1 / 4)) ()
  have r2 : (World.of tinyNew).run [(.copy 0 : Action Unit), .call 1 (.step [1] [0])] = .ok w2 := by
    unfold World.run
    rw [e1, Exec.bind_ok]
    unfold World.run
    rw [e2, Exec.bind_ok]
    rfl
  obtain ⟨nk, d1, d2, d3⟩ := C40_train ⟨_, r2⟩ e3
  rw [a3] at d1
  cases d1
  rw [tiny_train] at d2 d3
  have d4 := d3 0 _ (by decide) b2
  refine ⟨w1, w2, w3, _, r1, e2, b2, e3, d4, ?_⟩
  simp [tinyNew, tiny, weightsOf, AnyLayer.params, AnyLayer.setParams]
  norm_num

end Verif.Props
