import Mathlib.Logic.Equiv.Basic
import Verif.Proofs.Reorder
import Verif.Props.IdleModel

/-! C115: the order of the features does not matter. -/

namespace Verif.Props

open Verif Verif.Net Verif.Graph Verif.Spec

noncomputable section

theorem turned_of_reordered {k : Nat} {π : Equiv.Perm (Fin k)} {n n' : Net} (h : ReorderedModel π n n') :
    TurnedNets π n.graph n n' := by
  refine ⟨rfl, h.graph, h.length, fun i a a' ha ha' => ⟨fun hi => h.inputs i a a' hi ha ha', fun hi => ?_⟩⟩
  have := h.others i hi
  rw [ha, ha'] at this
  exact Option.some.inj this

theorem reordered_of_turned {k : Nat} {π : Equiv.Perm (Fin k)} {g : DLGraph} {n n' : Net} (h : TurnedNets π g n n') :
    ReorderedModel π n n' := by
  refine ⟨h.graph'.trans h.graph.symm, h.layers.length, fun i a a' hi ha ha' => ?_, fun i hi => ?_⟩
  · exact (h.layers.twin i a a' ha ha').input (h.graph ▸ hi)
  · by_cases hl : i < n.layers.length
    · have hl' : i < n'.layers.length := by rw [h.layers.length]; exact hl
      rw [List.getElem?_eq_getElem hl, List.getElem?_eq_getElem hl']
      exact congrArg some ((h.layers.twin i _ _ (List.getElem?_eq_getElem hl) (List.getElem?_eq_getElem hl')).other
        (h.graph ▸ hi))
    · rw [List.getElem?_eq_none (by rw [h.layers.length]; omega), List.getElem?_eq_none (by omega)]

/-- **C115** for gradient descent: take a model assembled with `add_layer`, `add_loss`, `create_edge` and
`create_loss_edge` in any order and of any shape, in which the samples go to dense layers to which nothing is
connected, and the same model with the columns of the matrices of these layers in another order.  If the first model
returns from any calls of `predict`, `step`, `train` and `reset_score`, so does the second from the same calls with the
features of the samples in that order.  Then the layers that get the samples again differ in the order of the columns
only, all other layers are the same (parameters, gradients, outputs and scores), and the second model predicts for each
sample what the first does.
Missing: other optimizers; with Adam it is false (`C115_adam_refuted`). -/
theorem C115_history_partial (ops : List Op) (hops : ∀ op ∈ ops, Joins op) (n n' : Net)
    (hg : n.graph = (built ops).graph) (hin : ∀ i ∈ n.graph.inputs, ∀ x, ¬ trainArc n.graph x i)
    {k : Nat} (π : Equiv.Perm (Fin k)) (hr : ReorderedModel π n n') (eta : ℝ) (cs cs' : List UserCall)
    (hcs : List.Forall₂ (ReorderedCall π) cs cs') (r : Unit × Net)
    (e : serve (Opt.gdStep eta) cs ((), n) = .ok r) :
    ∃ r', serve (Opt.gdStep eta) cs' ((), n') = .ok r' ∧ ReorderedModel π r.2 r'.2 ∧
      ∀ x x' y m, PermutedSample π x x' → r.2.predict x = .ok (m, .ok y) → ∃ m', r'.2.predict x' = .ok (m', .ok y) := by
  have hc : InputsFirst n.graph := inputsFirst_built (hg ▸ joined_built ops hops) hin
  obtain ⟨r', e', ht⟩ := turned_serve eta hc hcs n n' r (turned_of_reordered hr) e
  refine ⟨r', e', reordered_of_turned ht, fun x x' y m hx p => ?_⟩
  have hgr := ht.graph
  obtain ⟨m', h, _⟩ := turned_predict (ht.graph'.trans hgr.symm) (hgr ▸ hc) (by rw [hgr]; exact ht.layers) hx p
  exact ⟨m', h⟩

/-- **C115** for training runs with gradient descent: any number of epochs and batch size. -/
theorem C115_fit_partial (ops : List Op) (hops : ∀ op ∈ ops, Joins op) (n n' : Net)
    (hg : n.graph = (built ops).graph) (hin : ∀ i ∈ n.graph.inputs, ∀ x, ¬ trainArc n.graph x i)
    {k : Nat} (π : Equiv.Perm (Fin k)) (hr : ReorderedModel π n n') (eta : ℝ) (d d' : Data.Dataset ℝ)
    (hd : ReorderedData π d d') (fuel epochs b : Nat) (r : Unit × Net)
    (e : Training.fit (Opt.gdStep eta) d fuel epochs b ((), n) = some (.ok r)) :
    ∃ r', Training.fit (Opt.gdStep eta) d' fuel epochs b ((), n') = some (.ok r') ∧ ReorderedModel π r.2 r'.2 ∧
      ∀ x x' y m, PermutedSample π x x' → r.2.predict x = .ok (m, .ok y) → ∃ m', r'.2.predict x' = .ok (m', .ok y) := by
  have hc : InputsFirst n.graph := inputsFirst_built (hg ▸ joined_built ops hops) hin
  obtain ⟨r', e', ht⟩ := turned_fit eta hc hd (turned_of_reordered hr) e
  refine ⟨r', e', reordered_of_turned ht, fun x x' y m hx p => ?_⟩
  have hgr := ht.graph
  obtain ⟨m', h, _⟩ := turned_predict (ht.graph'.trans hgr.symm) (hgr ▸ hc) (by rw [hgr]; exact ht.layers) hx p
  exact ⟨m', h⟩

/-! ### Example -/

theorem swapped_sample (x y : ℝ) : PermutedSample (Equiv.swap (0 : Fin 2) 1) [x, y] [y, x] := by
  refine ⟨rfl, rfl, fun j => ?_⟩
  match j with
  | 0 => simp [vec]
  | 1 => simp [vec]

theorem swapped_columns (x y : ℝ) : PermutedColumns (Equiv.swap (0 : Fin 2) 1) 1 [x, y] [y, x] := by
  refine ⟨rfl, rfl, fun i hi j => ?_⟩
  obtain rfl : i = 0 := by omega
  match j with
  | 0 => simp [mat]
  | 1 => simp [mat]

/-- The models with the two features in both orders. -/
theorem swapped_model (w u b w' b' : ℝ) :
    ReorderedModel (Equiv.swap (0 : Fin 2) 1) (idleNet w u b w' b') (idleNet u w b w' b') := by
  have hi : ∀ i, i ∈ (idleNet w u b w' b').graph.inputs ↔ i = 0 := by
    intro i
    show i ∈ (built spareOps).graph.inputs ↔ i = 0
    rw [spare_graph.1, List.mem_singleton]
  refine ⟨rfl, rfl, fun i a a' h ha ha' => ?_, fun i h => ?_⟩
  · rw [hi] at h
    subst h
    cases ha
    cases ha'
    refine ⟨twoInputs w u b, twoInputs u w b, rfl, rfl, ⟨rfl, rfl⟩, rfl, swapped_columns w u, swapped_columns 0 0,
      ⟨rfl, rfl⟩, ⟨rfl, rfl⟩, ⟨rfl, rfl⟩, ⟨rfl, fun j => ?_⟩, rfl⟩
    simp [twoInputs, denseNew, vec]
  · rw [hi] at h
    match i, h with
    | i + 1, _ => rfl

theorem swap_step (w u b w' b' x y t : ℝ) : ∃ (l : Loss.Layer) (gi : List ℝ),
    (idleNet w u b w' b').step [x, y] [t] = .ok (⟨(built spareOps).graph,
      [.dense ⟨2, 1, [w, u], [b], ⟨gi, [2 * (b + w * x + u * y - t) * x, 2 * (b + w * x + u * y - t) * y],
          [2 * (b + w * x + u * y - t)]⟩, [b + w * x + u * y], [x, y]⟩,
        .dense ⟨1, 1, [w'], [b'], ⟨[0], [0], [0]⟩, [b' + w' * (b + w * x + u * y)], [b + w * x + u * y]⟩,
        .loss .mse l]⟩, none) := by
  obtain ⟨l1, h1, l2, h2, h3⟩ := loss_single (Loss.Layer.new 1 1 0) (b + w * x + u * y) t 0 rfl (by simp [Loss.Layer.new])
  refine ⟨l2, [2 * (b + w * x + u * y - t) * w, 2 * (b + w * x + u * y - t) * u], step_spare _ _
    (.dense ⟨2, 1, [w, u], [b], ⟨[0, 0], [0, 0], [0]⟩, [b + w * x + u * y], [x, y]⟩) _ _ .mse _ l1 l2
    [x, y] [t] [b + w * x + u * y] ?_ rfl ?_ h1 h2 ?_⟩
  · simp [twoInputs, denseNew, AnyLayer.trainingForward, AnyLayer.setLastInput, AnyLayer.forward, Dense.Layer.forward,
      Dense.dense, forUp, forFrom, rd, wr, keep]
  · simp [spareDense, denseNew, AnyLayer.trainingForward, AnyLayer.setLastInput, AnyLayer.forward, Dense.Layer.forward,
      Dense.dense, forUp, forFrom, rd, wr, keep]
  · rw [h3]
    simp [AnyLayer.setLastInput, AnyLayer.backward, Dense.Layer.backward, Dense.dense1, Dense.fill, forUp, forFrom, rd,
      wr, keep]

/-- The hypotheses of `C115_history_partial` hold for a model with two features, whatever its parameters and the
sample. -/
example (eta w u b w' b' x y t : ℝ) :
    ∃ r r', serve (Opt.gdStep eta) [.step [x, y] [t], .train] ((), idleNet w u b w' b') = .ok r ∧
      serve (Opt.gdStep eta) [.step [y, x] [t], .train] ((), idleNet u w b w' b') = .ok r' ∧
      ReorderedModel (Equiv.swap (0 : Fin 2) 1) r.2 r'.2 := by
  have key : ∃ r, serve (Opt.gdStep eta) [.step [x, y] [t], .train] ((), idleNet w u b w' b') = .ok r := by
    obtain ⟨l, gi, hl⟩ := swap_step w u b w' b' x y t
    generalize 2 * (b + w * x + u * y - t) = g at hl
    generalize Opt.gdStep eta = step
    unfold serve
    rw [hl]
    exact ⟨_, rfl⟩
  obtain ⟨r, hr⟩ := key
  have hin : ∀ i ∈ (idleNet w u b w' b').graph.inputs, ∀ z, ¬ trainArc (idleNet w u b w' b').graph z i := by
    intro i hi z hz
    change i ∈ (built spareOps).graph.inputs at hi
    rw [spare_graph.1, List.mem_singleton] at hi
    subst hi
    change 0 ∈ successors (built spareOps).graph.training z at hz
    rw [spare_graph.2.2.1] at hz
    by_cases h0 : z = 0
    · subst h0
      revert hz
      decide
    · simp [successors, Ne.symm h0] at hz
  obtain ⟨r', hr', h, _⟩ := C115_history_partial spareOps (by simp [spareOps, Joins]) _ _ rfl hin _
    (swapped_model w u b w' b') eta _ [.step [y, x] [t], .train]
    (.cons (.step _ (swapped_sample x y)) (.cons .train .nil)) r hr
  exact ⟨r, r', hr, hr', h⟩

/-- **C115** is false for Adam: whatever the parameters of this model with two features, after one `step` on a sample
whose second feature is zero and one `train` with a new optimizer, and the same with the features in the other order,
the weights are no longer the same up to their order, unless the model already gave the target or the first feature is
zero as well. -/
theorem C115_adam_refuted (eta b1 b2 eps : ℝ) (he : 0 < eta) (h1 : 0 < b1 ∧ b1 < 1) (hp : 0 < eps)
    (w u b w' b' x t : ℝ) (hx : x ≠ 0) (ht : b + w * x ≠ t) :
    ReorderedModel (Equiv.swap (0 : Fin 2) 1) (idleNet w u b w' b') (idleNet u w b w' b') ∧
    PermutedSample (Equiv.swap (0 : Fin 2) 1) [x, 0] [0, x] ∧
    ∃ r r' l l',
      serve (Opt.adamStep eta b1 b2 eps) [.step [x, 0] [t], .train] (Opt.Adam.init, idleNet w u b w' b') = .ok r ∧
      serve (Opt.adamStep eta b1 b2 eps) [.step [0, x] [t], .train] (Opt.Adam.init, idleNet u w b w' b') = .ok r' ∧
      r.2.layers[0]? = some (.dense l) ∧ r'.2.layers[0]? = some (.dense l') ∧
      ¬ PermutedColumns (Equiv.swap (0 : Fin 2) 1) 1 l.weights l'.weights := by
  refine ⟨swapped_model w u b w' b', swapped_sample x 0, ?_⟩
  obtain ⟨r, l, v, k1, k2, k3, k4⟩ := C112_model_refuted eta b1 b2 eps he h1 hp w u b w' b' x t hx ht
  obtain ⟨l2, gi, hl⟩ := swap_step u w b w' b' 0 x t
  have hz : Opt.adamStep eta b1 b2 eps Opt.Adam.init u 0 = (⟨0, 0, Opt.Adam.init.t + 1⟩, u) := by
    simp [Opt.adamStep, Opt.Adam.init]
  rw [mul_zero (2 * _)] at hl
  generalize 2 * (b + u * 0 + w * x - t) = g at hl
  have key : ∀ step : Opt.Adam → ℝ → ℝ → Opt.Adam × ℝ, ∃ r' l',
      serve step [.step [0, x] [t], .train] (Opt.Adam.init, idleNet u w b w' b') = .ok r' ∧
      r'.2.layers[0]? = some (.dense l') ∧ l'.weights[0]? = some (step Opt.Adam.init u 0).2 := by
    intro step
    unfold serve
    rw [hl]
    exact ⟨_, _, rfl, rfl, rfl⟩
  obtain ⟨r', l', m1, m2, m3⟩ := key (Opt.adamStep eta b1 b2 eps)
  rw [hz] at m3
  refine ⟨r, r', l, l', k1, m1, k2, m2, fun h => k4 ?_⟩
  have hc := h.2.2 0 (by omega) 0
  simp only [mat, Equiv.swap_apply_left] at hc
  rw [List.getD_eq_getElem?_getD, List.getD_eq_getElem?_getD] at hc
  simp [k3, m3] at hc
  exact hc.symm

end

end Verif.Props
