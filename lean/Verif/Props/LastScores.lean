import Verif.Proofs.LastScores
import Verif.Props.SeenScores
import Verif.Props.ParallelFit

/-! C104: the scores of a model after it has been trained. -/

namespace Verif.Props

open Verif Verif.Net Verif.Graph Verif.Spec Verif.Training

noncomputable section

/-- **C104**, partial: the sequential training loop returns, and then `avg_loss` and `accuracy` of the model are those
of the last batch: for every loss layer there is a log of the steps since the last `reset_score`, one entry for each
sample of the last batch (of the last epoch) and each layer in front of the loss layer, with the label of the sample
and what `last_output()` of the layer returned after the step; the average loss is the mean of the mean losses of the
logs, and the accuracy the mean of the fractions of correct predictions.  For models without cycles, and with layers
of every class but concatenation, if the layers in front of loss layers have one predecessor at most.  Missing:
concatenation layers, and layers in front of loss layers with several predecessors (see `C98_skip_refuted`); false for
the thread-parallel modes (`C104_parallel_refuted`). -/
theorem C104_sequential_partial (ops : List Op) (hops : ∀ op ∈ ops, Joins op) (net : Net)
    (hg : net.graph = (built ops).graph) (n : Nat) (ha : Agrees net n) (hl : ListsRight net.graph)
    (hacyc : Acyclic (trainArc net.graph)) (hloss : ∀ i ∈ net.graph.loss, ∃ x, trainArc net.graph x i)
    (hne : ∃ i, i < net.graph.layers.length ∧ i ∉ net.graph.loss) (hlo : net.graph.loss ≠ [])
    (hone : ∀ q ∈ net.graph.loss, ∀ p, trainArc net.graph p q →
      ∀ x y, trainArc net.graph x p → trainArc net.graph y p → x = y)
    (d : Data.Dataset ℝ) (s : Nat → List ℝ × List ℝ)
    (hd : ∀ i, i < d.size → d.input i = .ok (s i).1 ∧ d.label i = .ok (s i).2 ∧
      Suitable net n (.step (s i).1 (s i).2))
    {τ : Type} (opt : τ → ℝ → ℝ → τ × ℝ) (o : τ) (fuel epochs b : Nat) (he : 1 ≤ epochs) (hb : 1 ≤ b)
    (hn : 1 ≤ d.size) (hf : batchCount d.size b ≤ fuel) :
    ∃ o' m, Training.fit opt d fuel epochs b (o, net) = some (.ok (o', m)) ∧
    ∃ P : Nat → List Nat, (∀ q ∈ net.graph.loss, (P q).Nodup ∧ ∀ p, p ∈ P q ↔ trainArc net.graph p q) ∧
      ∃ L, Observed net n P m L ∧
        (∀ q, (L q).map Prod.fst = (batchSamples d.size b (batchCount d.size b - 1)).flatMap fun i =>
          (P q).map fun _ => (s i).2) ∧
        Nn.avgLoss m = .ok ((net.graph.loss.map fun q => meanLoss (scoringAt net q) (L q)).sum /
          net.graph.loss.length) ∧
        Nn.accuracy m = .ok ((net.graph.loss.map fun q => fractionGood (scoringAt net q) (L q)).sum /
          net.graph.loss.length) := by
  obtain ⟨P, hP, key⟩ := C98_observed_partial ops hops net hg n ha hl hacyc hloss hne hone
  have hs : Shaped net n := by
    obtain ⟨h1, h2⟩ := reached_of_acyclic hops hg hl hacyc hloss hne
    exact shaped_reached hops hg ha hl h1 h2
  obtain ⟨⟨o', m⟩, h, _⟩ := performAll_kept (opt := opt) hs hd (trainCalls d.size b epochs) o net (kept_self ha)
    fun i hi => trainCalls_range hi
  have h : Training.fit opt d fuel epochs b (o, net) = some (.ok (o', m)) := by
    rw [C37_fit opt d b epochs fuel hb hf, h]
  refine ⟨o', m, h, ?_⟩
  obtain ⟨e, rfl⟩ : ∃ e, epochs = e + 1 := ⟨epochs - 1, by omega⟩
  obtain ⟨L, k1, k2⟩ := run_observed (P := P) hd hb hn e o net _ (.inl rfl) h
  refine ⟨P, hP, L, k1, k2, ?_⟩
  refine (key m L k1).1 hlo fun q hq hL => ?_
  have h1 := k2 q
  rw [hL] at h1
  obtain ⟨p, hp⟩ := hloss q hq
  have h2 : p ∈ P q := ((hP q hq).2 p).mpr hp
  have h3 : 0 < batchCount d.size b := (lt_batchCount hb).mpr (by omega)
  have h4 := (lt_batchCount (n := d.size) (k := batchCount d.size b - 1) hb).mp (by omega)
  have h5 : (batchSamples d.size b (batchCount d.size b - 1)).length
      = min b (d.size - (batchCount d.size b - 1) * b) := by simp [batchSamples]
  have h6 : batchSamples d.size b (batchCount d.size b - 1) ≠ [] := by
    intro e
    rw [e] at h5
    simp at h5
    omega
  obtain ⟨i, hi⟩ := List.exists_mem_of_ne_nil _ h6
  have : (s i).2 ∈ (batchSamples d.size b (batchCount d.size b - 1)).flatMap fun i => (P q).map fun _ => (s i).2 :=
    List.mem_flatMap.mpr ⟨i, hi, List.mem_map.mpr ⟨p, h2, rfl⟩⟩
  unfold targetsOf at h1
  rw [← h1] at this
  simp at this

/-- The hypotheses for a model with a recurrent layer, with any parameters, that is trained by gradient descent for two
epochs on three samples with two inputs and four labels each, in batches of two.  The last batch is the last sample
alone. -/
example {f f1 : ℝ → ℝ} {ps : List (List ℝ)} (hp : ps.map List.length = [3, 9, 3, 6, 2]) (x : Nat → ℝ) :
    ∃ m P L, Training.fit (Opt.gdStep (1 / 10)) (Data.ofVec [x 0, x 1, 1, 0, 0, 0, x 2, x 3, 0, 1, 0, 0,
        x 4, x 5, 0, 0, 1, 0] 6 1 {2, 3, 4, 5}) 2 2 2 ((), seqNet f f1 ps) = some (.ok ((), m)) ∧
      Observed (seqNet f f1 ps) 2 P m L ∧ (L 3).map Prod.fst = [[0, 0, 1, 0]] := by
  let d : Data.Dataset ℝ := Data.ofVec [x 0, x 1, 1, 0, 0, 0, x 2, x 3, 0, 1, 0, 0,
    x 4, x 5, 0, 0, 1, 0] 6 1 {2, 3, 4, 5}
  let s : Nat → List ℝ × List ℝ := fun i => ([x (2 * i), x (2 * i + 1)], [[1, 0, 0, 0], [0, 1, 0, 0], [0, 0, 1, 0]].getD i [])
  have one := fork_one [] []
  have hlo : (seqNet f f1 ps).graph.loss = [3, 4] := fork_graph.1
  have hsz : d.size = 3 := by simp [d, Data.ofVec, Data.Dataset.size]
  have hd : ∀ i, i < d.size → d.input i = .ok (s i).1 ∧ d.label i = .ok (s i).2 := by
    intro i hi
    have h0 : Spec.Consistent d := Data.consistent_ofVec _ _ _ _
    have hf : d.featureSize = 6 := by simp [d, Data.ofVec]
    have hl : d.labelsIdx = {2, 3, 4, 5} := by
      show Data.keepLabels d.featureSize _ = _
      rw [hf]
      decide
    have hin : d.inputIdx = {0, 1} := by
      show Data.inputsOf d.featureSize d.labelsIdx = _
      rw [hf, hl]
      decide
    rw [C43_input h0, C43_label h0, if_pos hi, if_pos hi, hl, hin]
    have hdat : d.data = [x 0, x 1, 1, 0, 0, 0, x 2, x 3, 0, 1, 0, 0, x 4, x 5, 0, 0, 1, 0] := by
      simp [d, Data.ofVec, Data.resize]
    match i, hi with
    | 0, _ | 1, _ | 2, _ => simp [row, hf, hdat, pick, s, List.zipIdx]
    | i + 3, hi => rw [hsz] at hi; omega
  have suits : ∀ i, i < d.size → Suitable (seqNet f f1 ps) 2 (.step (s i).1 (s i).2) := by
    intro i hi
    refine ⟨rfl, ?_⟩
    intro f' l hl
    obtain ⟨j, hj⟩ := List.getElem?_of_mem hl
    have key : l.inputSize = 4 := by
      rcases seq_layers hj with ⟨_, e⟩ | ⟨_, e⟩ | ⟨_, e⟩ | ⟨_, e⟩ | ⟨_, e⟩
      · have := seqLayer_loss (f := f) (f1 := f1) (ps := ps)
        rw [← e] at this
        cases this
      all_goals cases e
      · rfl
      · rfl
    rw [key]
    match i, hi with
    | 0, _ => exact ⟨rfl, by decide, fun _ => ⟨0, by decide, by simp [vec, s]⟩⟩
    | 1, _ => exact ⟨rfl, by decide, fun _ => ⟨1, by decide, by simp [vec, s]⟩⟩
    | 2, _ => exact ⟨rfl, by decide, fun _ => ⟨2, by decide, by simp [vec, s]⟩⟩
    | i + 3, hi => rw [hsz] at hi; omega
  obtain ⟨_, m, h1, P, hP, L, h2, h3, _⟩ := C104_sequential_partial fork (by simp [fork, Joins]) (seqNet f f1 ps) rfl 2
    (seq_agrees hp) fork_right (acyclic_of_lt (by decide)) fork_loss
    ⟨0, by show 0 < (built fork).graph.layers.length; decide, by show 0 ∉ (built fork).graph.loss; decide⟩
    (by rw [hlo]; simp) (fun q _ p _ x y => one x y p) d s (fun i hi => ⟨(hd i hi).1, (hd i hi).2, suits i hi⟩)
    (Opt.gdStep (1 / 10)) () 2 2 2 (by decide) (by decide) (by rw [hsz]; decide) (by rw [hsz]; decide)
  refine ⟨m, P, L, h1, h2, ?_⟩
  have arc : trainArc (forkNet [] []).graph 1 3 := by show 3 ∈ successors (built fork).graph.training 1; decide
  have p3 : P 3 = [1] := by
    obtain ⟨k1, k2⟩ := hP 3 (by rw [hlo]; simp)
    refine List.perm_singleton.mp ((List.perm_ext_iff_of_nodup k1 (by simp)).mpr fun p => ?_)
    rw [k2 p, List.mem_singleton]
    exact ⟨fun h => one _ _ _ h arc, fun h => h ▸ arc⟩
  rw [h3 3, hsz, p3]
  have : batchSamples 3 2 (batchCount 3 2 - 1) = [2] := by decide
  rw [this]
  rfl

/-- What holds in the thread-parallel modes instead: whatever the model, the data and the order in which the tasks
finish, after at least one round no loss layer of the model has counted a sample: the steps were made by copies of it.
`avg_loss` and `accuracy` divide by the number of samples counted, and so they are not numbers. -/
theorem C104_parallel_actual_partial {τ : Type} (opt : τ → ℝ → ℝ → τ × ℝ) (d : Data.Dataset ℝ) (s t : Trainer τ)
    (rs : List (List (List Nat) × List Event)) (hrs : rs ≠ []) (h : s.rounds opt d rs = .ok t)
    (q : Nat) (hq : q ∈ s.model.graph.loss)
    (hl : ∃ f l, (s.model.view s.heap).layers[q]? = some (.loss f l)) :
    ∃ f l, (t.model.view t.heap).layers[q]? = some (.loss f l) ∧
      l.correct = 0 ∧ l.incorrect = 0 ∧ l.cumulative = 0 := by
  obtain ⟨f, l, hl⟩ := hl
  refine rounds_uncounted rs s t hrs hq ?_ h
  have hl' : (s.model.objs.map (Obj.view s.heap))[q]? = some (.loss f l) := hl
  rw [List.getElem?_map] at hl'
  obtain ⟨x, hx, hv⟩ := Option.map_eq_some_iff.mp hl'
  obtain ⟨own, ad⟩ := x
  have : own = .loss f l := by
    unfold Obj.view AnyLayer.setParams at hv
    dsimp only at hv
    split at hv
    all_goals first | exact hv | cases hv
  subst this
  exact ⟨f, l, ad, hx⟩

/-- **C104 is false** in the thread-parallel modes: two dense layers with any parameters, trained on three samples in
batches of two, end with a loss layer that has counted no sample. -/
theorem C104_parallel_refuted (w0 w1 b0 b1 : ℝ) :
    ∃ t, Trainer.rounds (Opt.gdStep (1 / 10)) (Data.ofVec [1, 0, 2, 1, 3, 0] 2 1 {1})
      ⟨(), [[w0], [b0], [w1], [b1]], ⟨(built threeLayers).graph,
        [⟨.dense { denseNew 1 1 with weights := [w0], biases := [b0] }, [0, 1]⟩,
         ⟨.dense { denseNew 1 1 with weights := [w1], biases := [b1] }, [2, 3]⟩,
         ⟨.loss .mse (Loss.Layer.new 1 2 (1 / 10)), []⟩]⟩⟩
      [([[0], [1]], [.task 1, .task 0, .train 0, .train 1]), ([[2]], [.task 0, .train 0])] = .ok t ∧
    ∃ f l, (t.model.view t.heap).layers[2]? = some (.loss f l) ∧ l.correct + l.incorrect = 0 := by
  obtain ⟨t, ht⟩ := three_rounds w0 w1 b0 b1
  refine ⟨t, ht, ?_⟩
  obtain ⟨f, l, h1, h2, h3, _⟩ := C104_parallel_actual_partial _ _ _ t _ (by simp) ht 2
    (by show 2 ∈ (built threeLayers).graph.loss; decide) ⟨.mse, Loss.Layer.new 1 2 (1 / 10), rfl⟩
  exact ⟨f, l, h1, by rw [h2, h3]⟩

end

end Verif.Props
