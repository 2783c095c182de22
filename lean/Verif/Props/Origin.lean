import Verif.Proofs.Origin
import Verif.Props.World
import Verif.Props.Spare
import Verif.Props.AdamBound

/-! C117: the origin of the labels does not matter. -/

namespace Verif.Props

open Verif Verif.Net Verif.Graph Verif.Spec

noncomputable section

variable {A : Nat → ℝ} {n n' : Net}

theorem nets_of_moved (h : MovedModel A n n') : Origin.MvNets A n.graph n n' := by
  refine ⟨rfl, h.graph, h.length, fun i a a' ha ha' => ⟨fun hi => ?_, fun hi => ?_, fun hi hl => ?_⟩⟩
  · obtain ⟨l, o, e, e', hl⟩ := h.final i a hi ha
    exact ⟨l, o, e, Option.some.inj (ha'.symm.trans e'), hl, fun h => h.elim⟩
  · obtain ⟨l, e, e'⟩ := h.loss i a hi ha
    exact ⟨l, e, Option.some.inj (ha'.symm.trans e')⟩
  · have := h.others i hi hl
    rw [ha, ha'] at this
    exact Option.some.inj this

theorem moved_of_nets {g : DLGraph} (h : Origin.MvNets A g n n') : MovedModel A n n' := by
  have there : ∀ (i : Nat) (a : AnyLayer), n.layers[i]? = some a → ∃ a', n'.layers[i]? = some a' := by
    intro i a ha
    have hi := (List.getElem?_eq_some_iff.mp ha).1
    exact ⟨_, List.getElem?_eq_getElem (by rw [h.layers.length]; exact hi)⟩
  refine ⟨h.graph'.trans h.graph.symm, h.layers.length, fun i a hi ha => ?_, fun i a hi ha => ?_, fun i hi hl => ?_⟩
  · obtain ⟨a', ha'⟩ := there i a ha
    obtain ⟨l, o, e, e', hl, _⟩ := (h.layers.twin i a a' ha ha').final (h.graph ▸ hi)
    exact ⟨l, o, e, ha'.trans (congrArg some e'), hl⟩
  · obtain ⟨a', ha'⟩ := there i a ha
    obtain ⟨l, e, e'⟩ := (h.layers.twin i a a' ha ha').loss (h.graph ▸ hi)
    exact ⟨l, e, ha'.trans (congrArg some e')⟩
  · cases ha : n.layers[i]? with
    | none =>
      rw [List.getElem?_eq_none_iff] at ha ⊢
      rw [h.layers.length]
      exact ha
    | some a =>
      obtain ⟨a', ha'⟩ := there i a ha
      rw [ha', (h.layers.twin i a a' ha ha').other (h.graph ▸ hi) (h.graph ▸ hl)]

theorem predicts_moved {g : DLGraph} (hc : Origin.Ends g) (ho : FinalOutput g) (h : Origin.MvNets A g n n') :
    PredictsMoved A n n' := fun x => Rescale.mono (Origin.predict_mv hc h x) fun _ _ h => h.2 ho

theorem history {σ : Type} {o : σ → ℝ → ℝ → σ × ℝ} (ho : Origin.Steady o) (s : σ) (ops : List Op)
    (hops : ∀ op ∈ ops, Joins op) (hg : n.graph = (built ops).graph) (hl : LossLast n.graph) (hf : FinalOutput n.graph)
    (hm : MovedModel A n n') (cs : List UserCall) :
    SameEnd (fun r r' => MovedModel A r.1.2 r'.1.2 ∧ PredictsMoved A r.1.2 r'.1.2 ∧ r'.2 = r.2)
      (session o cs (s, n)) (session o (cs.map (movedCall A)) (s, n')) := by
  have hc : Origin.Ends n.graph := Origin.ends_built (hg ▸ joined_built ops hops) hl.inputs hl.ends
  exact Rescale.mono (Origin.session_mv hc ho cs n n' s (nets_of_moved hm)) fun r r' h =>
    ⟨moved_of_nets h.2.1, predicts_moved hc hf h.2.1, h.2.2⟩

/-- **C117** for gradient descent: take a model assembled with `add_layer`, `add_loss`, `create_edge` and
`create_loss_edge` in any order and of any shape, with mean squared error losses and dense layers before them that are
connected to nothing else, and the same model with a constant `A j` added to bias `j` of these dense layers.  If `A` is
added to all labels as well, then any calls of `predict`, `step`, `train` and `reset_score` do the same with both
models: they throw the same exceptions, and afterwards the biases still differ by `A`, all other parameters, gradients
and scores are the same, and each prediction of the second is that of the first plus `A`. -/
theorem C117_history (A : Nat → ℝ) (eta : ℝ) (ops : List Op) (hops : ∀ op ∈ ops, Joins op) (n n' : Net)
    (hg : n.graph = (built ops).graph) (hl : LossLast n.graph) (hf : FinalOutput n.graph)
    (hm : MovedModel A n n') (cs : List UserCall) :
    SameEnd (fun r r' => MovedModel A r.1.2 r'.1.2 ∧ PredictsMoved A r.1.2 r'.1.2 ∧ r'.2 = r.2)
      (session (Opt.gdStep eta) cs ((), n)) (session (Opt.gdStep eta) (cs.map (movedCall A)) ((), n')) :=
  history (Origin.gd_steady eta) () ops hops hg hl hf hm cs

/-- **C117** for Adam, in any state of the optimizer. -/
theorem C117_adam_history (A : Nat → ℝ) (eta b1 b2 eps : ℝ) (s : Opt.Adam) (ops : List Op) (hops : ∀ op ∈ ops, Joins op)
    (n n' : Net) (hg : n.graph = (built ops).graph) (hl : LossLast n.graph) (hf : FinalOutput n.graph)
    (hm : MovedModel A n n') (cs : List UserCall) :
    SameEnd (fun r r' => MovedModel A r.1.2 r'.1.2 ∧ PredictsMoved A r.1.2 r'.1.2 ∧ r'.2 = r.2)
      (session (Opt.adamStep eta b1 b2 eps) cs (s, n))
      (session (Opt.adamStep eta b1 b2 eps) (cs.map (movedCall A)) (s, n')) :=
  history (Origin.adam_steady eta b1 b2 eps) s ops hops hg hl hf hm cs

theorem run_moved {σ : Type} {o : σ → ℝ → ℝ → σ × ℝ} (ho : Origin.Steady o) (s : σ) (ops : List Op)
    (hops : ∀ op ∈ ops, Joins op) (hg : n.graph = (built ops).graph) (hl : LossLast n.graph) (hf : FinalOutput n.graph)
    (hm : MovedModel A n n') {d d' : Data.Dataset ℝ} (hd : MovedData A d d') (fuel epochs b : Nat) :
    SameRun (fun r r' => MovedModel A r.2 r'.2 ∧ PredictsMoved A r.2 r'.2)
      (Training.fit o d fuel epochs b (s, n)) (Training.fit o d' fuel epochs b (s, n')) := by
  have hc : Origin.Ends n.graph := Origin.ends_built (hg ▸ joined_built ops hops) hl.inputs hl.ends
  have := Origin.fit_mv hc ho hd fuel epochs b (nets_of_moved hm) s
  generalize Training.fit o d fuel epochs b (s, n) = x at this ⊢
  generalize Training.fit o d' fuel epochs b (s, n') = y at this ⊢
  cases this with
  | none => exact .none
  | some h => exact .some (Rescale.mono h fun r r' h => ⟨moved_of_nets h.2, predicts_moved hc hf h.2⟩)

/-- **C117** for training runs with gradient descent: any data set, number of epochs and batch size. -/
theorem C117_fit (A : Nat → ℝ) (eta : ℝ) (ops : List Op) (hops : ∀ op ∈ ops, Joins op) (n n' : Net)
    (hg : n.graph = (built ops).graph) (hl : LossLast n.graph) (hf : FinalOutput n.graph)
    (hm : MovedModel A n n') (d d' : Data.Dataset ℝ) (hd : MovedData A d d') (fuel epochs b : Nat) :
    SameRun (fun r r' => MovedModel A r.2 r'.2 ∧ PredictsMoved A r.2 r'.2)
      (Training.fit (Opt.gdStep eta) d fuel epochs b ((), n)) (Training.fit (Opt.gdStep eta) d' fuel epochs b ((), n')) :=
  run_moved (Origin.gd_steady eta) () ops hops hg hl hf hm hd fuel epochs b

/-- **C117** for training runs with Adam. -/
theorem C117_adam_fit (A : Nat → ℝ) (eta b1 b2 eps : ℝ) (s : Opt.Adam) (ops : List Op) (hops : ∀ op ∈ ops, Joins op)
    (n n' : Net) (hg : n.graph = (built ops).graph) (hl : LossLast n.graph) (hf : FinalOutput n.graph)
    (hm : MovedModel A n n') (d d' : Data.Dataset ℝ) (hd : MovedData A d d') (fuel epochs b : Nat) :
    SameRun (fun r r' => MovedModel A r.2 r'.2 ∧ PredictsMoved A r.2 r'.2)
      (Training.fit (Opt.adamStep eta b1 b2 eps) d fuel epochs b (s, n))
      (Training.fit (Opt.adamStep eta b1 b2 eps) d' fuel epochs b (s, n')) :=
  run_moved (Origin.adam_steady eta b1 b2 eps) s ops hops hg hl hf hm hd fuel epochs b

/-! ### Examples -/

/-- Two dense layers and a loss layer. -/
def originNet (w b u c : ℝ) : Net :=
  ⟨(built lossOps).graph, [.dense (spareDense w b), .dense (spareDense u c), .loss .mse (Loss.Layer.new 1 1 0)]⟩

theorem origin_graph : (built lossOps).graph.inputs = [0] ∧ (built lossOps).graph.loss = [2] ∧
    (built lossOps).graph.outputs = [1] ∧ (built lossOps).graph.training = [(0, [1]), (1, [2])] ∧
    forwardArcs (built lossOps).graph = [(0, 1)] := by decide

theorem origin_next (i j : Nat) : j ∈ successors (built lossOps).graph.training i ↔ (i = 0 ∧ j = 1) ∨ (i = 1 ∧ j = 2) := by
  rw [origin_graph.2.2.2.1]
  by_cases h0 : i = 0
  · subst h0
    simp [successors]
  · by_cases h1 : i = 1
    · subst h1
      simp [successors]
    · simp [successors, h0, h1, Ne.symm h0, Ne.symm h1]

theorem origin_final (i : Nat) : Final (built lossOps).graph i ↔ i = 1 := by
  unfold Final
  rw [origin_graph.2.1]
  constructor
  · rintro ⟨j, hj, h⟩
    have := (origin_next i j).mp h
    have := List.mem_singleton.mp hj
    omega
  · rintro rfl
    exact ⟨2, by simp, (origin_next 1 2).mpr (.inr ⟨rfl, rfl⟩)⟩

theorem origin_last : LossLast (built lossOps).graph := by
  refine ⟨fun i hi hl => ?_, fun i j hi hj => ?_⟩
  · rw [origin_graph.1, List.mem_singleton] at hi
    rw [origin_graph.2.1, List.mem_singleton] at hl
    omega
  · rw [origin_final] at hi
    have := (origin_next i j).mp hj
    rw [origin_graph.2.1, List.mem_singleton]
    omega

theorem origin_output : FinalOutput (built lossOps).graph := by
  intro o ho
  rw [origin_graph.2.2.1] at ho
  cases ho
  exact ⟨(origin_final 1).mpr rfl, .inr ⟨0, by rw [origin_graph.2.2.2.2]; simp⟩⟩

/-- Two new models that differ in the bias of the second layer. -/
theorem origin_moved (δ w b u c : ℝ) : MovedModel (fun _ => δ) (originNet w b u c) (originNet w b u (δ + c)) := by
  refine ⟨rfl, rfl, fun i a hi ha => ?_, fun i a hi ha => ?_, fun i hi hl => ?_⟩
  · obtain rfl := (origin_final i).mp hi
    cases ha
    exact ⟨_, (spareDense u c).output, rfl, rfl, rfl⟩
  · change i ∈ (built lossOps).graph.loss at hi
    rw [origin_graph.2.1, List.mem_singleton] at hi
    subst hi
    cases ha
    exact ⟨_, rfl, rfl⟩
  · change ¬ Final (built lossOps).graph i at hi
    rw [origin_final] at hi
    match i, hi with
    | 0, _ => rfl
    | i + 2, _ => rfl

/-- The hypotheses of `C117_history` hold for two new models, whatever their parameters. -/
example (δ eta w b u c x t : ℝ) :
    SameEnd (fun r r' => MovedModel (fun _ => δ) r.1.2 r'.1.2 ∧ PredictsMoved (fun _ => δ) r.1.2 r'.1.2 ∧ r'.2 = r.2)
      (session (Opt.gdStep eta) [.step [x] [t], .train, .predict [x]] ((), originNet w b u c))
      (session (Opt.gdStep eta) [.step [x] [δ + t], .train, .predict [x]] ((), originNet w b u (δ + c))) :=
  C117_history (fun _ => δ) eta lossOps (by simp [lossOps, Joins]) _ _ rfl origin_last origin_output
    (origin_moved δ w b u c) [.step [x] [t], .train, .predict [x]]

/-- The calls return, and the predictions are what they should be. -/
example (δ w b u c x : ℝ) : ∃ m m', (originNet w b u c).predict [x] = .ok (m, .ok [c + u * (b + w * x)]) ∧
    (originNet w b u (δ + c)).predict [x] = .ok (m', .ok [δ + c + u * (b + w * x)]) := by
  have key : ∀ c, ∃ m, (originNet w b u c).predict [x] = .ok (m, .ok [c + u * (b + w * x)]) := by
    intro c
    unfold Net.predict
    rw [show (originNet w b u c).graph = (built lossOps).graph from rfl, origin_graph.1, origin_graph.2.2.1,
      origin_graph.2.2.2.2]
    simp [originNet, each, forwardAt, value, rd, AnyLayer.forward, AnyLayer.lastOutput, Dense.Layer.forward, Dense.dense,
      spareDense, denseNew, forUp, forFrom, wr, keep]
  obtain ⟨m, h⟩ := key c
  obtain ⟨m', h'⟩ := key (δ + c)
  exact ⟨m, m', h, h'⟩

/-- A data set with two samples. -/
def originData (x t x' t' : ℝ) : Data.Dataset ℝ := Data.ofVec [x, t, x', t'] 2 1 {1}

theorem originData_rows (x t x' t' : ℝ) : (originData x t x' t').size = 2 ∧
    ∀ i, (originData x t x' t').input i = .ok (if i = 0 then [x] else if i = 1 then [x'] else []) ∧
      (originData x t x' t').label i = .ok (if i = 0 then [t] else if i = 1 then [t'] else []) := by
  have hsz : (originData x t x' t').size = 2 := by simp [originData, Data.ofVec, Data.Dataset.size]
  refine ⟨hsz, fun i => ?_⟩
  have h0 : Spec.Consistent (originData x t x' t') := Data.consistent_ofVec _ _ _ _
  have hf : (originData x t x' t').featureSize = 2 := by simp [originData, Data.ofVec]
  have hl : (originData x t x' t').labelsIdx = {1} := by
    show Data.keepLabels (originData x t x' t').featureSize _ = _
    rw [hf]
    decide
  have hin : (originData x t x' t').inputIdx = {0} := by
    show Data.inputsOf (originData x t x' t').featureSize (originData x t x' t').labelsIdx = _
    rw [hf, hl]
    decide
  have hdat : (originData x t x' t').data = [x, t, x', t'] := by simp [originData, Data.ofVec, Data.resize]
  rw [C43_input h0, C43_label h0, hl, hin, hsz]
  match i with
  | 0 => simp [row, hf, hdat, pick, List.zipIdx]
  | 1 => simp [row, hf, hdat, pick, List.zipIdx]
  | i + 2 => simp

/-- The hypotheses of `C117_fit` hold for data sets with two samples. -/
example (δ eta w b u c x t x' t' : ℝ) (fuel epochs k : Nat) :
    SameRun (fun r r' => MovedModel (fun _ => δ) r.2 r'.2 ∧ PredictsMoved (fun _ => δ) r.2 r'.2)
      (Training.fit (Opt.gdStep eta) (originData x t x' t') fuel epochs k ((), originNet w b u c))
      (Training.fit (Opt.gdStep eta) (originData x (δ + t) x' (δ + t')) fuel epochs k ((), originNet w b u (δ + c))) := by
  refine C117_fit (fun _ => δ) eta lossOps (by simp [lossOps, Joins]) _ _ rfl origin_last origin_output
    (origin_moved δ w b u c) _ _ ⟨?_, fun i => ?_, fun i => ?_⟩ fuel epochs k
  · rw [(originData_rows _ _ _ _).1, (originData_rows _ _ _ _).1]
  · rw [((originData_rows _ _ _ _).2 i).1, ((originData_rows _ _ _ _).2 i).1]
  · rw [((originData_rows _ _ _ _).2 i).2, ((originData_rows _ _ _ _).2 i).2]
    refine .ok ?_
    split
    · rfl
    · split <;> rfl

end

end Verif.Props
