import Verif.Proofs.Idle
import Verif.Props.Still
import Verif.Props.Range

/-! C112: a feature that is always zero is not trained. -/

namespace Verif.Props

open Verif Verif.Net Verif.Graph Verif.Spec

noncomputable section

/-- **C112** (for optimizers like gradient descent): let a dense layer of a model of any shape take the inputs of
the model only, with no gradients collected for its input `j`.  Whatever calls of `predict`, `step`, `train` and
`reset_score` follow, if the feature `j` is zero in all samples passed to `step`, then afterwards the weights of the
input `j` are what they were.  Missing: Adam, for which this is false (`C112_adam_refuted`). -/
theorem C112_history_partial (net : Net) (i : Nat) (l : Dense.Layer ℝ) (hl : net.layers[i]? = some (.dense l))
    (hin : ∀ x, ¬ trainArc net.graph x i) (j : Nat) (hj : j < l.inputSize)
    (hlen : l.weights.length = l.grads.weight.length)
    (hz : ∀ k, vec l.grads.weight (k * l.inputSize + j) = 0) (hx : vec l.lastInput j = 0)
    (σ : Type) (opt : σ → ℝ → ℝ → σ × ℝ) (hopt : Rests opt fun _ => True) (s : σ)
    (cs : List UserCall) (hcs : ∀ c ∈ cs, c.Without j) (r : σ × Net) (hr : serve opt cs (s, net) = .ok r) :
    ∃ l', r.2.layers[i]? = some (.dense l') ∧
      ∀ k : Nat, l'.weights[k * l.inputSize + j]? = l.weights[k * l.inputSize + j]? := by
  have h : Keeps l.inputSize j l.weights i net.graph net := ⟨rfl, l, hl, rfl, hlen, fun _ => rfl, fun k v hv => by
    rw [← hz k, vec, List.getD_eq_getElem?_getD, hv]; rfl, fun v hv => by
    rw [← hx, vec, List.getD_eq_getElem?_getD, hv]; rfl⟩
  obtain ⟨_, l', h1, h2⟩ := keeps_serve (fun s p => (hopt s p trivial).1) hj hin cs (s, net) hcs h r hr
  exact ⟨l', h1, h2.weights⟩

/-- **C112** for a training run on a data set in which the feature `j` is zero in every row. -/
theorem C112_fit_partial (net : Net) (i : Nat) (l : Dense.Layer ℝ) (hl : net.layers[i]? = some (.dense l))
    (hin : ∀ x, ¬ trainArc net.graph x i) (j : Nat) (hj : j < l.inputSize)
    (hlen : l.weights.length = l.grads.weight.length)
    (hz : ∀ k, vec l.grads.weight (k * l.inputSize + j) = 0) (hx : vec l.lastInput j = 0)
    (σ : Type) (opt : σ → ℝ → ℝ → σ × ℝ) (hopt : Rests opt fun _ => True) (s : σ)
    (d : Data.Dataset ℝ) (hd : ∀ k x, d.input k = .ok x → vec x j = 0) (fuel epochs b : Nat) (r : σ × Net)
    (hr : Training.fit opt d fuel epochs b (s, net) = some (.ok r)) :
    ∃ l', r.2.layers[i]? = some (.dense l') ∧
      ∀ k : Nat, l'.weights[k * l.inputSize + j]? = l.weights[k * l.inputSize + j]? := by
  have h : Keeps l.inputSize j l.weights i net.graph net := ⟨rfl, l, hl, rfl, hlen, fun _ => rfl, fun k v hv => by
    rw [← hz k, vec, List.getD_eq_getElem?_getD, hv]; rfl, fun v hv => by
    rw [← hx, vec, List.getD_eq_getElem?_getD, hv]; rfl⟩
  obtain ⟨_, l', h1, h2⟩ := keeps_fit (fun s p => (hopt s p trivial).1) hj hin hd (s := (s, net)) h hr
  exact ⟨l', h1, h2.weights⟩

/-- The hypotheses hold for a model with a diamond, a skip connection and two loss layers, trained twice. -/
example (w b : List ℝ) (hw : w.length = 6) (hb : b.length = 3) (eta x x' : ℝ) :
    ∃ r l', serve (Opt.gdStep eta) [.step [x, 0] [0, 1, 0], .train, .step [x', 0] [1, 0, 0], .train]
        ((), meshNet w b) = .ok r ∧ r.2.layers[0]? = some (.dense l') ∧
      l'.weights[1]? = w[1]? ∧ l'.weights[3]? = w[3]? ∧ l'.weights[5]? = w[5]? := by
  obtain ⟨o, h1, h2⟩ := C109_range mesh (by simp [mesh, Joins]) (meshNet w b) rfl 2
    (mesh_agrees w b hw hb) (mesh_plain w b) mesh_right (acyclic_of_lt (by decide)) mesh_loss
    ⟨0, by show 0 < (built mesh).graph.layers.length; decide, by show 0 ∉ (built mesh).graph.loss; decide⟩
  have ho : (built mesh).graph.outputs.head? = some 3 := by decide
  cases ho.symm.trans h1
  obtain ⟨r, e, _⟩ := h2 .tanh (Act.Layer.new 3) rfl Unit (Opt.gdStep eta) ()
    [.step [x, 0] [0, 1, 0], .train, .step [x', 0] [1, 0, 0], .train] (by
      intro c hc
      simp only [List.mem_cons, List.not_mem_nil, or_false] at hc
      rcases hc with rfl | rfl | rfl | rfl
      · exact mesh_suitable w b _ _ _ _ _ (.inr (by norm_num))
      · trivial
      · exact mesh_suitable w b _ _ _ _ _ (.inl (by norm_num))
      · trivial)
  obtain ⟨l', k1, k2⟩ := C112_history_partial (meshNet w b) 0 { denseNew 2 3 with weights := w, biases := b } rfl (by
      intro y hy
      have hy : 0 ∈ successors (built mesh).graph.training y := hy
      rw [mesh_graph.2.2.2] at hy
      revert hy
      unfold successors
      match y with
      | 0 => decide
      | 1 => decide
      | 2 => decide
      | 3 => decide
      | y + 4 => simp [List.find?_cons]) 1 (by show 1 < 2; omega)
    (by simp [denseNew, hw])
    (fun k => by
      show vec (List.replicate 6 0) _ = 0
      simp only [vec, List.getD_eq_getElem?_getD, List.getElem?_replicate]
      split <;> rfl) (by simp [denseNew, vec])
    Unit (Opt.gdStep eta) (C108_gd eta) () _ (by
      intro c hc
      simp only [List.mem_cons, List.not_mem_nil, or_false] at hc
      rcases hc with rfl | rfl | rfl | rfl
      · simp [UserCall.Without, vec]
      · trivial
      · simp [UserCall.Without, vec]
      · trivial) r e
  exact ⟨r, l', e, k1, k2 0, k2 1, k2 2⟩

/-- A dense layer with two inputs and one output. -/
def twoInputs (w u b : ℝ) : Dense.Layer ℝ := { denseNew 2 1 with weights := [w, u], biases := [b] }

/-- **C112** is false for Adam: let a new dense layer with two inputs be trained on a sample whose second feature is
zero, with any gradient other than zero and a new optimizer of any learning rate.  The weight of the second input has
no gradient, but it is moved by the moments of the first. -/
theorem C112_adam_refuted (eta b1 b2 eps : ℝ) (he : 0 < eta) (h1 : 0 < b1 ∧ b1 < 1) (hp : 0 < eps)
    (w u b x g : ℝ) (hx : x ≠ 0) (hg : g ≠ 0) :
    ∃ a1 a2 s l v, (AnyLayer.dense (twoInputs w u b)).trainingForward [x, 0] = .ok (a1, none) ∧
      a1.backward [g] = .ok (a2, none) ∧ a2.paramGrads = [[0 + g * x, 0 + g * 0], [0 + g]] ∧
      a2.train (Opt.adamStep eta b1 b2 eps) Opt.Adam.init = ((s, .dense l), .ok ()) ∧
      l.weights[1]? = some v ∧ v ≠ u := by
  generalize hs : Opt.adamStep eta b1 b2 eps = step
  refine ⟨_, _, _, _, (step (step Opt.Adam.init w (0 + g * x)).1 u (0 + g * 0)).2, rfl, rfl, rfl, rfl, rfl, ?_⟩
  rw [mul_zero, add_zero, ← hs]
  refine C108_adam_moves eta b1 b2 eps he h1 hp (Opt.adamStep eta b1 b2 eps Opt.Adam.init w (0 + g * x)).1 ?_ ?_ u
  · show 1 ≤ Opt.Adam.init.t + 1
    omega
  · show b1 * Opt.Adam.init.m + (1 - b1) * (0 + g * x) ≠ 0
    have : (1 - b1) ≠ 0 := by linarith [h1.2]
    simp [Opt.Adam.init, this, hx, hg]

end

end Verif.Props
