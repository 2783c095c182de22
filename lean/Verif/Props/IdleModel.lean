import Verif.Props.Idle
import Verif.Props.Spare

/-! C112 for a whole model trained with Adam. -/

namespace Verif.Props

open Verif Verif.Net Verif.Graph Verif.Spec

noncomputable section

/-- A model with a dense layer for two features. -/
def idleNet (w u b w' b' : ℝ) : Net :=
  ⟨(built spareOps).graph, [.dense (twoInputs w u b), .dense (spareDense w' b'), .loss .mse (Loss.Layer.new 1 1 0)]⟩

theorem idle_step (w u b w' b' x t : ℝ) : ∃ (l : Loss.Layer) (gi : List ℝ),
    (idleNet w u b w' b').step [x, 0] [t] = .ok (⟨(built spareOps).graph,
      [.dense ⟨2, 1, [w, u], [b], ⟨gi, [2 * (b + w * x - t) * x, 0], [2 * (b + w * x - t)]⟩, [b + w * x], [x, 0]⟩,
        .dense ⟨1, 1, [w'], [b'], ⟨[0], [0], [0]⟩, [b' + w' * (b + w * x)], [b + w * x]⟩, .loss .mse l]⟩, none) := by
  obtain ⟨l1, h1, l2, h2, h3⟩ := loss_single (Loss.Layer.new 1 1 0) (b + w * x) t 0 rfl (by simp [Loss.Layer.new])
  refine ⟨l2, [2 * (b + w * x - t) * w, 2 * (b + w * x - t) * u], step_spare _ _
    (.dense ⟨2, 1, [w, u], [b], ⟨[0, 0], [0, 0], [0]⟩, [b + w * x], [x, 0]⟩) _ _ .mse _ l1 l2
    [x, 0] [t] [b + w * x] ?_ rfl ?_ h1 h2 ?_⟩
  · simp [twoInputs, denseNew, AnyLayer.trainingForward, AnyLayer.setLastInput, AnyLayer.forward, Dense.Layer.forward,
      Dense.dense, forUp, forFrom, rd, wr, keep]
  · simp [spareDense, denseNew, AnyLayer.trainingForward, AnyLayer.setLastInput, AnyLayer.forward, Dense.Layer.forward,
      Dense.dense, forUp, forFrom, rd, wr, keep]
  · rw [h3]
    simp [AnyLayer.setLastInput, AnyLayer.backward, Dense.Layer.backward, Dense.dense1, Dense.fill, forUp, forFrom, rd,
      wr, keep]

/-- **C112** is false for Adam: whatever the parameters of this model, after one `step` on a sample whose second
feature is zero and one `train` with a new optimizer, the weight of that feature has changed, unless the model already
gave the target or the first feature is zero. -/
theorem C112_model_refuted (eta b1 b2 eps : ℝ) (he : 0 < eta) (h1 : 0 < b1 ∧ b1 < 1) (hp : 0 < eps)
    (w u b w' b' x t : ℝ) (hx : x ≠ 0) (ht : b + w * x ≠ t) :
    ∃ r l v, serve (Opt.adamStep eta b1 b2 eps) [.step [x, 0] [t], .train] (Opt.Adam.init, idleNet w u b w' b') = .ok r ∧
      r.2.layers[0]? = some (.dense l) ∧ l.weights[1]? = some v ∧ v ≠ u := by
  obtain ⟨l, gi, hl⟩ := idle_step w u b w' b' x t
  generalize hg : 2 * (b + w * x - t) = g at hl
  have hg0 : g ≠ 0 := by
    rw [← hg]
    exact mul_ne_zero two_ne_zero (sub_ne_zero.mpr ht)
  generalize hs : Opt.adamStep eta b1 b2 eps = step
  have key : ∃ r l', serve step [.step [x, 0] [t], .train] (Opt.Adam.init, idleNet w u b w' b') = .ok r ∧
      r.2.layers[0]? = some (.dense l') ∧
      l'.weights[1]? = some (step (step Opt.Adam.init w (g * x)).1 u 0).2 := by
    unfold serve
    rw [hl]
    exact ⟨_, _, rfl, rfl, rfl⟩
  obtain ⟨r, l', k1, k2, k3⟩ := key
  refine ⟨r, l', _, k1, k2, k3, ?_⟩
  rw [← hs]
  refine C108_adam_moves eta b1 b2 eps he h1 hp _ ?_ ?_ u
  · show 1 ≤ Opt.Adam.init.t + 1
    omega
  · show b1 * Opt.Adam.init.m + (1 - b1) * (g * x) ≠ 0
    have : (1 - b1) ≠ 0 := by linarith [h1.2]
    simp [Opt.Adam.init, this, hx, hg0]

end

end Verif.Props
