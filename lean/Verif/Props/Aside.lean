import Verif.Proofs.Aside
import Verif.Props.Spare

/-! C114: what layers that no loss depends on contain does not influence what the others learn. -/

namespace Verif.Props

open Verif Verif.Net Verif.Graph Verif.Spec

noncomputable section

theorem paired_of_same {n n' : Net} (h : SameButSpare n n') :
    PairedNets (fun i => ¬ NoLossNeeds n.graph i) n.graph n n' := by
  refine ⟨rfl, h.graph, h.length, fun i a a' ha ha' => ⟨fun hn => ?_, ?_, ?_⟩⟩
  · have := h.needed i hn
    rw [ha, ha'] at this
    exact Option.some.inj this
  · obtain ⟨ps, rfl⟩ := h.spare i a a' ha ha'
    exact kind_setParams a ps
  · obtain ⟨ps, rfl⟩ := h.spare i a a' ha ha'
    exact paramGrads_setParams a ps

theorem same_of_paired {g : DLGraph} {n n' : Net} (h : PairedNets (fun i => ¬ NoLossNeeds g i) g n n') (i : Nat)
    (hi : ¬ NoLossNeeds g i) : n'.layers[i]? = n.layers[i]? := by
  by_cases hl : i < n.layers.length
  · have hl' : i < n'.layers.length := by rw [h.layers.length]; exact hl
    rw [List.getElem?_eq_getElem hl, List.getElem?_eq_getElem hl']
    exact congrArg some ((h.layers.twin i _ _ (List.getElem?_eq_getElem hl) (List.getElem?_eq_getElem hl')).same hi)
  · rw [List.getElem?_eq_none (by rw [h.layers.length]; omega), List.getElem?_eq_none (by omega)]

/-- Gradient descent and Adam remember gradients only. -/
theorem C114_optimizers (eta b1 b2 eps : ℝ) :
    RemembersGradients (Opt.gdStep eta) ∧ RemembersGradients (Opt.adamStep eta b1 b2 eps) :=
  ⟨fun _ _ _ _ => rfl, fun _ _ _ _ => rfl⟩

/-- **C114**: take a model assembled with `add_layer`, `add_loss`, `create_edge` and `create_loss_edge` in any order,
of any shape and with layers of any class, and the same model with other parameters in the layers from which no loss
can be reached.  After the same calls of `predict`, `step`, `train` and `reset_score` all other layers of the two
models are the same: parameters, gradients, outputs and scores; so is what the optimizer remembers, and so are the
predictions of both models if a loss can be reached from the output layer. -/
theorem C114_history (ops : List Op) (hops : ∀ op ∈ ops, Joins op) (n n' : Net)
    (hg : n.graph = (built ops).graph) (hs : SameButSpare n n')
    (σ : Type) (opt : σ → ℝ → ℝ → σ × ℝ) (hopt : RemembersGradients opt) (s : σ) (cs : List UserCall)
    (r r' : σ × Net) (hr : serve opt cs (s, n) = .ok r) (hr' : serve opt cs (s, n') = .ok r') :
    r'.1 = r.1 ∧ (∀ i, ¬ NoLossNeeds n.graph i → r'.2.layers[i]? = r.2.layers[i]?) ∧
      ∀ x y y' m m' o, n.graph.outputs.head? = some o → ¬ NoLossNeeds n.graph o →
        r.2.predict x = .ok (m, .ok y) → r'.2.predict x = .ok (m', .ok y') → y' = y := by
  have hc : LossClosed n.graph fun i => ¬ NoLossNeeds n.graph i := lossClosed_built (hg ▸ joined_built ops hops)
  obtain ⟨h1, h2⟩ := serve_both hopt hc cs s n n' r r' (paired_of_same hs) hr hr'
  refine ⟨h1, same_of_paired h2, fun x y y' m m' o ho hn e e' => ?_⟩
  refine (predict_both (N := fun i => ¬ NoLossNeeds n.graph i) (h2.graph'.trans h2.graph.symm) ?_ h2.layers e e').2.2.2 o
    ?_ hn
  · rw [h2.graph]; exact hc
  · rw [h2.graph]; exact ho

/-- **C114** for training runs: any data set, number of epochs and batch size. -/
theorem C114_fit (ops : List Op) (hops : ∀ op ∈ ops, Joins op) (n n' : Net)
    (hg : n.graph = (built ops).graph) (hs : SameButSpare n n')
    (σ : Type) (opt : σ → ℝ → ℝ → σ × ℝ) (hopt : RemembersGradients opt) (s : σ) (d : Data.Dataset ℝ)
    (fuel epochs b : Nat) (r r' : σ × Net) (hr : Training.fit opt d fuel epochs b (s, n) = some (.ok r))
    (hr' : Training.fit opt d fuel epochs b (s, n') = some (.ok r')) :
    r'.1 = r.1 ∧ (∀ i, ¬ NoLossNeeds n.graph i → r'.2.layers[i]? = r.2.layers[i]?) ∧
      ∀ x y y' m m' o, n.graph.outputs.head? = some o → ¬ NoLossNeeds n.graph o →
        r.2.predict x = .ok (m, .ok y) → r'.2.predict x = .ok (m', .ok y') → y' = y := by
  have hc : LossClosed n.graph fun i => ¬ NoLossNeeds n.graph i := lossClosed_built (hg ▸ joined_built ops hops)
  obtain ⟨h1, h2⟩ := fit_both hopt hc (paired_of_same hs) hr hr'
  refine ⟨h1, same_of_paired h2, fun x y y' m m' o ho hn e e' => ?_⟩
  refine (predict_both (N := fun i => ¬ NoLossNeeds n.graph i) (h2.graph'.trans h2.graph.symm) ?_ h2.layers e e').2.2.2 o
    ?_ hn
  · rw [h2.graph]; exact hc
  · rw [h2.graph]; exact ho

/-! ### Example -/

theorem spare_same (w b u c u' c' : ℝ) : SameButSpare (spareNet w b u c) (spareNet w b u' c') := by
  refine ⟨rfl, rfl, fun i hi => ?_, fun i a a' ha ha' => ?_⟩
  · match i with
    | 0 => rfl
    | 1 => exact absurd spare_needs hi
    | 2 => rfl
    | i + 3 => rfl
  · match i with
    | 0 => cases ha; cases ha'; exact ⟨[[w], [b]], rfl⟩
    | 1 => cases ha; cases ha'; exact ⟨[[u'], [c']], rfl⟩
    | 2 => cases ha; cases ha'; exact ⟨[], rfl⟩
    | i + 3 => cases ha

/-- The hypotheses of `C114_history` hold for two networks with different second layers, trained with Adam: the first
layers learn the same, although the second ones stay different. -/
example (eta b1 b2 eps w b u c u' c' x t : ℝ) :
    ∃ r r', serve (Opt.adamStep eta b1 b2 eps) [.step [x] [t], .train] (Opt.Adam.init, spareNet w b u c) = .ok r ∧
      serve (Opt.adamStep eta b1 b2 eps) [.step [x] [t], .train] (Opt.Adam.init, spareNet w b u' c') = .ok r' ∧
      r'.1 = r.1 ∧ r'.2.layers[0]? = r.2.layers[0]? ∧ r'.2.layers[2]? = r.2.layers[2]? := by
  have key : ∀ u c : ℝ, ∃ r, serve (Opt.adamStep eta b1 b2 eps) [.step [x] [t], .train]
      (Opt.Adam.init, spareNet w b u c) = .ok r := by
    intro u c
    obtain ⟨l, hl⟩ := spare_step w b u c x t
    generalize 2 * (b + w * x - t) = g at hl
    generalize Opt.adamStep eta b1 b2 eps = step
    unfold serve
    rw [hl]
    exact ⟨_, rfl⟩
  obtain ⟨r, hr⟩ := key u c
  obtain ⟨r', hr'⟩ := key u' c'
  obtain ⟨h1, h2, _⟩ := C114_history spareOps (by simp [spareOps, Joins]) _ _ rfl (spare_same w b u c u' c') _ _
    (C114_optimizers eta b1 b2 eps).2 _ _ r r' hr hr'
  have n0 : ¬ NoLossNeeds (built spareOps).graph 0 := fun h => h 2 (by rw [spare_graph.2.1]; simp) (.single (by decide))
  have n2 : ¬ NoLossNeeds (built spareOps).graph 2 := fun h => h 2 (by rw [spare_graph.2.1]; simp) .refl
  exact ⟨r, r', hr, hr', h1, h2 0 n0, h2 2 n2⟩

end

end Verif.Props
