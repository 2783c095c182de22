import Verif.Proofs.Marks
import Verif.Props.Scores

/-! C111: what the scores of a model say. -/

namespace Verif.Props

open Verif Verif.Net Verif.Graph Verif.Spec

noncomputable section

/-- **C111** (squared errors): whatever steps, trainings, predictions and resets came before, `avg_loss` is not
negative, and zero exactly if each step since the last reset was predicted exactly; `accuracy` lies between 0
and 1, is 1 exactly if each of them was predicted up to the tolerance, and the average loss is at least the
tolerance times the fraction of wrong predictions. -/
theorem C111_squares (ops : List Op) (n0 : Net) (hg : n0.graph = (built ops).graph)
    (p : List Nat) (q : Nat) (hp : IsTrainingPath n0.graph p q) (h2 : 2 ≤ p.length)
    (ls : List AnyLayer) (nin m : Nat) (inv : ℝ) (hr : Ready n0 p q ls .mse nin m inv)
    (l : Loss.Layer) (hq : n0.layers[q]? = some (.loss .mse l))
    (n : Net) (log : List (List ℝ × List ℝ)) (h : Scored n0 p .mse nin m n log) (hne : log ≠ []) :
    ∃ a c : ℝ, Nn.avgLoss n = .ok a ∧ Nn.accuracy n = .ok c ∧
      0 ≤ a ∧ (a = 0 ↔ ∀ e ∈ log, ∀ i, i < m → vec e.2 i = vec e.1 i) ∧
      0 ≤ c ∧ c ≤ 1 ∧ (c = 1 ↔ ∀ e ∈ log, meanSq m (vec e.1) (vec e.2) ≤ l.tolerance) ∧
      (1 - c) * l.tolerance ≤ a := by
  obtain ⟨e1, e2⟩ := (C98_scores_partial ops n0 hg p q hp h2 ls .mse nin m inv hr l hq n log h).1 hne
  have ht := scored_targets h
  have hm : 0 < m := by
    obtain ⟨e, log', rfl⟩ := List.exists_cons_of_ne_nil hne
    exact (ht e (by simp)).2.1
  have h0 : ∀ e ∈ log, 0 ≤ (scoringOf .mse m l.tolerance).value e.1 e.2 := fun e _ => meanSq_nonneg _ _ _
  refine ⟨_, _, e1, e2, mean_nonneg h0, ?_, (fraction_bounds _ _).1, (fraction_bounds _ _).2, fraction_one hne,
    mean_wrong hne h0 fun e _ hg => (not_le.mp hg).le⟩
  rw [mean_zero hne h0]
  exact forall₂_congr fun e _ => meanSq_zero hm _ _

/-- **C111** (cross entropy): if the layer below the loss layer is softmax and the targets name classes, then
whatever steps, trainings, predictions and resets came before, `avg_loss` is not negative, `accuracy` lies between 0
and 1, is 1 exactly if for each step since the last reset the most probable class was the right one, and the
average loss is at least `log 2` times the fraction of wrong predictions. -/
theorem C111_classes (ops : List Op) (n0 : Net) (hg : n0.graph = (built ops).graph)
    (p : List Nat) (q : Nat) (hp : IsTrainingPath n0.graph p q) (h2 : 2 ≤ p.length)
    (ls : List AnyLayer) (nin m : Nat) (inv : ℝ) (hr : Ready n0 p q ls .cce nin m inv)
    (k : Act.Layer) (hk : ls.getLast? = some (.act .softmax k))
    (l : Loss.Layer) (hq : n0.layers[q]? = some (.loss .cce l))
    (n : Net) (log : List (List ℝ × List ℝ)) (h : Scored n0 p .cce nin m n log) (hne : log ≠ [])
    (hc : ∀ e ∈ log, NamesClass m e.1) :
    ∃ a c : ℝ, Nn.avgLoss n = .ok a ∧ Nn.accuracy n = .ok c ∧
      0 ≤ a ∧ 0 ≤ c ∧ c ≤ 1 ∧
      (c = 1 ↔ ∀ e ∈ log, ∃ k, IsFirstMax m (vec e.2) k ∧ IsFirstNonzero m (vec e.1) k) ∧
      (1 - c) * Real.log 2 ≤ a := by
  obtain ⟨hok, hl⟩ := path_graph hg hp.path h2
  have hpe : p ≠ [] := by rintro rfl; simp at h2
  obtain ⟨e1, e2⟩ := (C98_scores_partial ops n0 hg p q hp h2 ls .cce nin m inv hr l hq n log h).1 hne
  have hs := scored_softmax hok hl hp hpe hr hq rfl hk h
  have hv : ∀ e ∈ log, _ := fun e he => class_marks (hc e he) (hs e he).1 (hs e he).2
  exact ⟨_, _, e1, e2, mean_nonneg fun e he => (hv e he).1, (fraction_bounds _ _).1, (fraction_bounds _ _).2,
    fraction_one hne, mean_wrong hne (fun e he => (hv e he).1) fun e he => (hv e he).2⟩

/-- The hypotheses hold: a dense layer, softmax and cross entropy, after a step, a training and another step. -/
example (a b c d x x' : ℝ) (opt : Unit → ℝ → ℝ → Unit × ℝ) :
    let ls : List AnyLayer :=
      [.dense { denseNew 1 2 with weights := [a, b], biases := [c, d] }, .act .softmax (Act.Layer.new 2)]
    let n0 : Net := ⟨(built threeLayers).graph, ls ++ [.loss .cce (Loss.Layer.new 2 1 (1 / 10))]⟩
    ∃ n log, Scored n0 [0, 1] .cce 1 2 n log ∧ log.length = 2 ∧ ∃ u v : ℝ,
      Nn.avgLoss n = .ok u ∧ Nn.accuracy n = .ok v ∧ (1 - v) * Real.log 2 ≤ u := by
  intro ls n0
  have hr : Ready n0 [0, 1] 2 ls .cce 1 2 1 :=
    ⟨rfl, .cons ⟨rfl, rfl, rfl, rfl, rfl⟩ ⟨rfl, rfl, rfl⟩ (.cons ⟨rfl, rfl, Nat.two_pos⟩ rfl (.nil 2)), _, rfl, rfl, rfl,
      by simp [Loss.Layer.new]⟩
  have key := C98_scores_partial threeLayers n0 rfl [0, 1] 2 three_path (by simp) ls .cce 1 2 1 hr _ rfl
  have hlay : ∀ {n log}, Scored n0 [0, 1] .cce 1 2 n log →
      ∃ ks : List AnyLayer, [0, 1].map (fun i => n.layers[i]?) = ks.map some := by
    intro n log h
    obtain ⟨hok, hl⟩ := path_graph (n0 := n0) (ops := threeLayers) rfl three_path.path (by simp)
    obtain ⟨_, ⟨ks, _, hr'⟩, _⟩ := counted hok hl three_path (by simp) hr rfl rfl h
    exact ⟨ks, hr'.layers⟩
  have s0 : Scored n0 [0, 1] .cce 1 2 n0.resetScore [] := .new
  have c1 : CanScore .cce 2 [1, 0] := ⟨rfl, by omega, fun _ => ⟨0, by omega, by simp [vec]⟩⟩
  have c2 : CanScore .cce 2 [0, 1] := ⟨rfl, by omega, fun _ => ⟨1, by omega, by simp [vec]⟩⟩
  obtain ⟨n1, e1⟩ := (key _ _ s0).2 [x] [1, 0] rfl c1
  obtain ⟨ks, hks⟩ := hlay s0
  have s1 := Scored.step [x] [1, 0] ks s0 rfl c1 hks e1
  have s2 := Scored.train opt () s1
  obtain ⟨n2, e2⟩ := (key _ _ s2).2 [x'] [0, 1] rfl c2
  obtain ⟨ks', hks'⟩ := hlay s2
  have s3 := Scored.step [x'] [0, 1] ks' s2 rfl c2 hks' e2
  obtain ⟨u, v, g1, g2, _, _, _, _, g3⟩ := C111_classes threeLayers n0 rfl [0, 1] 2 three_path (by simp) ls 1 2 1 hr
    (Act.Layer.new 2) rfl _ rfl _ _ s3 (by simp) (by
      intro e he
      simp only [List.nil_append, List.cons_append, List.mem_cons, List.not_mem_nil, or_false] at he
      rcases he with rfl | rfl
      · exact ⟨0, by omega, by simp [vec], fun i h1 h2 => by obtain rfl : i = 1 := by omega
                                                             simp [vec]⟩
      · exact ⟨1, by omega, by simp [vec], fun i h1 h2 => by obtain rfl : i = 0 := by omega
                                                             simp [vec]⟩)
  exact ⟨_, _, s3, rfl, u, v, g1, g2, g3⟩

/-- Without softmax the cross entropy may be negative: a prediction of 2 for the right class. -/
example : (cceScoring 2).value [1, 0] [2, 0] < 0 := by
  show crossEnt 2 _ _ < 0
  rw [crossEnt_class (k := 0) (by omega) (by simp [vec]) (fun i h1 h2 => by
    obtain rfl : i = 1 := by omega
    simp [vec])]
  have : (0 : ℝ) < Real.log (max (vec [2, 0] 0) Loss.epsilon) :=
    Real.log_pos (lt_max_of_lt_left (by simp [vec]))
  linarith

end

end Verif.Props
