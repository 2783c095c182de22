import Verif.Proofs.ShapeScores
import Verif.Props.ShapeHistory
import Verif.Props.Scores

/-! C98 for models of any shape. -/

namespace Verif.Props

open Verif Verif.Net Verif.Graph Verif.Spec

noncomputable section

theorem scores_of_tracks {S : Scoring} {l : Loss.Layer} {t : List ℝ} {log : List (List ℝ × List ℝ)}
    (h : Loss.Tracks S l (t, log)) : l.avgLoss = meanLoss S log ∧ l.accuracy = fractionGood S log := by
  obtain ⟨_, h1, h2, h3⟩ := h
  dsimp only at h1 h2 h3
  refine ⟨?_, ?_⟩
  · unfold Loss.Layer.avgLoss meanLoss
    rw [h2, h3]
  · unfold Loss.Layer.accuracy fractionGood
    rw [h2, h1]

theorem losses_listed {net : Net} {n : Nat} (ha : Agrees net n) (hs : Shaped net n) {q : Nat} (hq : q ∈ net.graph.loss) :
    ∃ f l, net.layers[q]? = some (.loss f l) := by
  have hlt : q < net.layers.length := by rw [ha.length]; exact hs.valid.2 q (.inr (.inr hq))
  have e := List.getElem?_eq_getElem hlt
  have := (ha.loss q _ e).mpr hq
  cases hl : net.layers[q] with
  | loss f l => exact ⟨f, l, by rw [e, hl]⟩
  | _ => rw [hl] at this; cases this

theorem heads_of {net m : Net} {L : Nat → List (List ℝ × List ℝ)} : ∀ (qs : List Nat),
    (∀ q ∈ qs, ∃ f l t, m.layers[q]? = some (.loss f l) ∧ Loss.Tracks (scoringAt net q) l (t, L q)) →
    ∃ hs : List (LossFn × Loss.Layer), qs.map (fun q => m.layers[q]?) = hs.map (fun h => some (.loss h.1 h.2)) ∧
      hs.map (fun h => h.2.avgLoss) = qs.map (fun q => meanLoss (scoringAt net q) (L q)) ∧
      hs.map (fun h => h.2.accuracy) = qs.map (fun q => fractionGood (scoringAt net q) (L q))
  | [], _ => ⟨[], rfl, rfl, rfl⟩
  | q :: qs, h => by
    obtain ⟨hs, h1, h2, h3⟩ := heads_of qs fun q hq => h q (by simp [hq])
    obtain ⟨f, l, t, k1, k2⟩ := h q (by simp)
    obtain ⟨k3, k4⟩ := scores_of_tracks k2
    exact ⟨(f, l) :: hs, by simp [h1, k1], by simp [h2, k3], by simp [h3, k4]⟩

theorem tallied_all {net : Net} {n : Nat} (ha : Agrees net n) (hs : Shaped net n) (hp : Plain net)
    (h1 : ∀ q ∈ net.graph.loss, ∀ x y, trainArc net.graph x q → trainArc net.graph y q → x = y)
    {W : Nat → List Nat} (hW : ∀ q ∈ net.graph.loss, W q = lossRoute net.graph q) {m : Net}
    {L : Nat → List (List ℝ × List ℝ)} (h : Tallied net n W m L) :
    ∀ q ∈ net.graph.loss, KeptAs net n m ∧
      ∃ f l t, m.layers[q]? = some (.loss f l) ∧ Loss.Tracks (scoringAt net q) l (t, L q) := by
  intro q hq
  obtain ⟨f, l, hl⟩ := losses_listed ha hs hq
  obtain ⟨k1, _, l', t, k3, _, _, k4⟩ := tallied hs (kept_self ha) (simple_of_plain hp) hq (h1 q hq) hl (hW q hq) h
  refine ⟨k1, f, l', t, k3, ?_⟩
  unfold scoringAt
  rw [hl]
  exact k4

/-- **C98** for models of any shape without cycles and without dropout, recurrent and concatenation layers, each of
whose loss layers takes its input from one layer: the graph determines, for every loss layer, a walk along its forward
connections from an input layer to the layer in front of the loss layer, such that, after any calls of `step`,
`train`, `predict` and `reset_score`, `avg_loss` is the mean over the loss layers of their mean losses, and `accuracy`
the mean of their fractions of correct predictions, of exactly the steps since the last `reset_score`, each scored with
what the layers along the walk computed from the input when the step was called.  Moreover the next step succeeds
whatever the sample.  Missing: dropout, recurrent and concatenation layers, and loss layers behind several layers. -/
theorem C98_any_shape_partial (ops : List Op) (hops : ∀ op ∈ ops, Joins op) (net : Net)
    (hg : net.graph = (built ops).graph) (n : Nat) (ha : Agrees net n) (hp : Plain net) (hl : ListsRight net.graph)
    (hacyc : Acyclic (trainArc net.graph)) (hloss : ∀ i ∈ net.graph.loss, ∃ x, trainArc net.graph x i)
    (hne : ∃ i, i < net.graph.layers.length ∧ i ∉ net.graph.loss)
    (hone : ∀ q ∈ net.graph.loss, ∀ x y, trainArc net.graph x q → trainArc net.graph y q → x = y) :
    ∃ W : Nat → List Nat,
      (∀ q ∈ net.graph.loss, ∃ p, Walk net.graph (W q) p ∧ trainArc net.graph p q) ∧
      ∀ (m : Net) (L : Nat → List (List ℝ × List ℝ)), Tallied net n W m L →
        (net.graph.loss ≠ [] → (∀ q ∈ net.graph.loss, L q ≠ []) →
          Nn.avgLoss m = .ok ((net.graph.loss.map fun q => meanLoss (scoringAt net q) (L q)).sum /
            net.graph.loss.length) ∧
          Nn.accuracy m = .ok ((net.graph.loss.map fun q => fractionGood (scoringAt net q) (L q)).sum /
            net.graph.loss.length)) ∧
        (net.graph.loss ≠ [] → ∀ x t, Suitable net n (.step x t) → ∃ m', m.step x t = .ok (m', none)) := by
  obtain ⟨h1, h2⟩ := reached_of_acyclic hops hg hl hacyc hloss hne
  have hs := shaped_reached hops hg ha hl h1 h2
  refine ⟨lossRoute net.graph, fun q hq => hs.lossRoute_walk hq (hone q hq), ?_⟩
  intro m L h
  have key := tallied_all ha hs hp hone (fun q _ => rfl) h
  refine ⟨fun hne _ => ?_, fun hne x t hx => ?_⟩
  · obtain ⟨q, hq⟩ := List.exists_mem_of_ne_nil _ hne
    obtain ⟨hd, k1, k2, k3⟩ := heads_of net.graph.loss fun q hq => (key q hq).2
    have hgr := (key q hq).1.graph
    have hlen : hd.length = net.graph.loss.length := by simpa using (congrArg List.length k1).symm
    obtain ⟨c1, c2⟩ := C98_heads m hd (by rintro rfl; exact hne (List.length_eq_zero_iff.mp hlen.symm))
      (by rw [hgr]; exact k1)
    rw [k2, hlen] at c1
    rw [k3, hlen] at c2
    exact ⟨c1, c2⟩
  · obtain ⟨q, hq⟩ := List.exists_mem_of_ne_nil _ hne
    obtain ⟨m', e, _⟩ := (key q hq).1.step hs hx
    exact ⟨m', e⟩

/-- **C98** for models that are trees: every layer takes its input from one layer at most.  Then the walk to a loss
layer is the path from the input layer to it. -/
theorem C98_tree_partial (ops : List Op) (hops : ∀ op ∈ ops, Joins op) (net : Net)
    (hg : net.graph = (built ops).graph) (n : Nat) (ha : Agrees net n) (hp : Plain net) (hl : ListsRight net.graph)
    (hacyc : Acyclic (trainArc net.graph)) (hloss : ∀ i ∈ net.graph.loss, ∃ x, trainArc net.graph x i)
    (hne : ∃ i, i < net.graph.layers.length ∧ i ∉ net.graph.loss) (hlo : net.graph.loss ≠ [])
    (htree : ∀ x y z, trainArc net.graph x z → trainArc net.graph y z → x = y) (W : Nat → List Nat)
    (hW : ∀ q ∈ net.graph.loss, ∃ p, Walk net.graph (W q) p ∧ trainArc net.graph p q)
    (m : Net) (L : Nat → List (List ℝ × List ℝ)) (h : Tallied net n W m L) :
    ((∀ q ∈ net.graph.loss, L q ≠ []) →
      Nn.avgLoss m = .ok ((net.graph.loss.map fun q => meanLoss (scoringAt net q) (L q)).sum /
        net.graph.loss.length) ∧
      Nn.accuracy m = .ok ((net.graph.loss.map fun q => fractionGood (scoringAt net q) (L q)).sum /
        net.graph.loss.length)) ∧
    ∀ x t, Suitable net n (.step x t) → ∃ m', m.step x t = .ok (m', none) := by
  obtain ⟨h1, h2⟩ := reached_of_acyclic hops hg hl hacyc hloss hne
  have hs := shaped_reached hops hg ha hl h1 h2
  have hone : ∀ q ∈ net.graph.loss, ∀ x y, trainArc net.graph x q → trainArc net.graph y q → x = y :=
    fun q _ x y => htree x y q
  have hWr : ∀ q ∈ net.graph.loss, W q = lossRoute net.graph q := by
    intro q hq
    obtain ⟨p, w1, w2⟩ := hW q hq
    obtain ⟨p', w3, w4⟩ := hs.lossRoute_walk hq (hone q hq)
    have := htree _ _ _ w2 w4
    subst this
    exact walk_unique (fun x y z hx hy => htree x y z (hs.fwd.mp hx).1 (hs.fwd.mp hy).1)
      (fun i hi x hx => ((hl.1 i).mp hi).2.2 ⟨x, hx⟩) _ _ _ w1 w3
  have key := tallied_all ha hs hp hone hWr h
  obtain ⟨q, hq⟩ := List.exists_mem_of_ne_nil _ hlo
  refine ⟨fun _ => ?_, fun x t hx => ?_⟩
  · obtain ⟨hd, k1, k2, k3⟩ := heads_of net.graph.loss fun q hq => (key q hq).2
    have hgr := (key q hq).1.graph
    have hlen : hd.length = net.graph.loss.length := by simpa using (congrArg List.length k1).symm
    obtain ⟨c1, c2⟩ := C98_heads m hd (by rintro rfl; exact hlo (List.length_eq_zero_iff.mp hlen.symm))
      (by rw [hgr]; exact k1)
    rw [k2, hlen] at c1
    rw [k3, hlen] at c2
    exact ⟨c1, c2⟩
  · obtain ⟨m', e, _⟩ := (key q hq).1.step hs hx
    exact ⟨m', e⟩

theorem fork_paths (w b : List ℝ) : ∀ q ∈ (forkNet w b).graph.loss,
    ∃ p, Walk (forkNet w b).graph ([0, q - 2] : List Nat) p ∧ trainArc (forkNet w b).graph p q := by
  intro q hq
  have hq : q ∈ (built fork).graph.loss := hq
  rw [fork_graph.1] at hq
  simp only [List.mem_cons, List.not_mem_nil, or_false] at hq
  rcases hq with rfl | rfl
  · refine ⟨1, ⟨⟨0, by show 0 ∈ (built fork).graph.inputs; decide, rfl⟩, ?_, rfl⟩, ?_⟩
    · intro x y h
      simp only [List.tail_cons, List.zip_cons_cons, List.zip_nil_right, List.mem_singleton, Prod.mk.injEq] at h
      obtain ⟨rfl, rfl⟩ := h
      show 1 ∈ successors (built fork).graph.forward 0
      decide
    · show 3 ∈ successors (built fork).graph.training 1
      decide
  · refine ⟨2, ⟨⟨0, by show 0 ∈ (built fork).graph.inputs; decide, rfl⟩, ?_, rfl⟩, ?_⟩
    · intro x y h
      simp only [List.tail_cons, List.zip_cons_cons, List.zip_nil_right, List.mem_singleton, Prod.mk.injEq] at h
      obtain ⟨rfl, rfl⟩ := h
      show 2 ∈ successors (built fork).graph.forward 0
      decide
    · show 4 ∈ successors (built fork).graph.training 2
      decide

theorem fork_one (w b : List ℝ) : ∀ x y z, trainArc (forkNet w b).graph x z → trainArc (forkNet w b).graph y z → x = y := by
  intro x y z hx hy
  have key : ∀ u v, v ∈ successors (built fork).graph.training u → (u = 0 ∧ (v = 1 ∨ v = 2)) ∨ (u = 1 ∧ v = 3) ∨ (u = 2 ∧ v = 4) := by
    intro u v h
    obtain ⟨s, h1, h2⟩ := (mem_successors (mok_run fork mok_empty).ok.training u v).mp h
    have h1' : (u, s) ∈ (built fork).graph.training := h1
    rw [fork_graph.2.2.2.2.1] at h1'
    simp only [List.mem_cons, Prod.mk.injEq, List.not_mem_nil, or_false] at h1'
    rcases h1' with ⟨rfl, rfl⟩ | ⟨rfl, rfl⟩ | ⟨rfl, rfl⟩ <;> simp at h2 <;> simp [h2]
  have h1 := key x z hx
  have h2 := key y z hy
  omega

/-- The hypotheses of both theorems, and a history: a dense layer with two inputs and three outputs, any parameters,
followed by a rectifier with mean squared error and by a softmax with cross entropy; a step on any inputs, training,
and another step.  The average loss is the mean of the two mean losses. -/
example (w b : List ℝ) (hw : w.length = 6) (hb : b.length = 3) (x1 x2 y1 y2 : ℝ) (opt : Unit → ℝ → ℝ → Unit × ℝ) :
    ∃ m L, Tallied (forkNet w b) 2 (fun q => [0, q - 2]) m L ∧ (∀ q, (L q).map Prod.fst = [[0, 1, 0], [0, 0, 1]]) ∧
      Nn.avgLoss m = .ok ((meanLoss (mseScoring 3 0) (L 3) + meanLoss (cceScoring 3) (L 4)) / 2) := by
  have key := C98_tree_partial fork (by simp [fork, Joins]) (forkNet w b) rfl 2 (fork_agrees w b hw hb) (fork_plain w b)
    fork_right (acyclic_of_lt (by decide)) fork_loss
    ⟨0, by show 0 < (built fork).graph.layers.length; decide, by show 0 ∉ (built fork).graph.loss; decide⟩
    (by show (built fork).graph.loss ≠ []; decide) (fork_one w b) (fun q => [0, q - 2]) (fork_paths w b)
  have suits : ∀ (u v : ℝ) (t : List ℝ), t.length = 3 → (∃ k, k < 3 ∧ vec t k ≠ 0) →
      Suitable (forkNet w b) 2 (.step [u, v] t) := by
    intro u v t ht hk
    refine ⟨rfl, ?_⟩
    intro f l hl
    obtain ⟨i, hi⟩ := List.getElem?_of_mem hl
    have key : l.inputSize = 3 := by
      rcases fork_layers hi with ⟨_, e⟩ | ⟨_, e⟩ | ⟨_, e⟩ | ⟨_, e⟩ | ⟨_, e⟩ <;> cases e <;> rfl
    rw [key]
    exact ⟨ht, by decide, fun _ => hk⟩
  have g1 := suits x1 x2 [0, 1, 0] rfl ⟨1, by decide, by simp [vec]⟩
  have g2 := suits y1 y2 [0, 0, 1] rfl ⟨2, by decide, by simp [vec]⟩
  have s0 : Tallied (forkNet w b) 2 (fun q => [0, q - 2]) _ _ := .new
  obtain ⟨m1, e1⟩ := (key _ _ s0).2 _ _ g1
  have s1 := Tallied.step _ _ s0 g1 e1
  have s2 := Tallied.train opt () s1
  obtain ⟨m2, e2⟩ := (key _ _ s2).2 _ _ g2
  have s3 := Tallied.step _ _ s2 g2 e2
  refine ⟨_, _, s3, fun q => rfl, ?_⟩
  have h := ((key _ _ s3).1 fun q _ => by simp).1
  have hlo : (forkNet w b).graph.loss = [3, 4] := fork_graph.1
  rw [hlo] at h
  rw [h]
  simp only [List.map_cons, List.map_nil, List.sum_cons, List.sum_nil, add_zero, List.length_cons, List.length_nil]
  norm_num
  rfl

end

end Verif.Props
