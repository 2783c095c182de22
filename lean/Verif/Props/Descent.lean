import Verif.Proofs.Small
import Verif.Props.Backprop

/-! C79: training with a small enough learning rate lowers the loss. -/

namespace Verif.Props

open Verif Verif.Net Verif.Graph Verif.Spec

noncomputable section

theorem at_start {n0 : Net} (hlen : n0.layers.length = n0.graph.layers.length) {p : List Nat} {q : Nat}
    {ls : List AnyLayer} {f : LossFn} {nin m : Nat} {inv : ℝ} (hr : Ready n0 p q ls f nin m inv)
    (hc : Clean ls) : AtTheta n0.graph p q ls f nin m inv (ls.map AnyLayer.params) n0 ls := by
  refine ⟨rfl, hlen, hr, hc, ?_, ?_⟩
  · unfold FitsTheta
    rw [List.map_map]
    rfl
  · rw [withTheta_params]

/-- **C79**, one update (for models on a path of dense, convolution, max pooling and activation layers whose
gradient buffers are clear, at samples where everything is differentiable): if the learning rate is small enough,
`step` for each sample of a batch followed by `train` succeeds and does not increase the cost of the
batch, and it decreases the cost unless all partial derivatives are zero. -/
theorem C79_update_partial (ops : List Op) (n0 : Net) (hg : n0.graph = (built ops).graph)
    (hlen : n0.layers.length = n0.graph.layers.length)
    (p : List Nat) (q : Nat) (hp : IsTrainingPath n0.graph p q) (h2 : 2 ≤ p.length)
    (ls : List AnyLayer) (f : LossFn) (nin m : Nat) (inv : ℝ) (hr : Ready n0 p q ls f nin m inv)
    (hc : Clean ls) (samples : List (List ℝ × List ℝ))
    (hs : ∀ s ∈ samples, FitSample ls f nin m s.1 s.2 ∧ SmoothAll ls s.1) :
    ∃ δ > 0, ∀ eta : ℝ, 0 < eta → eta < δ → ∃ (n1 n' : Net) (ls' : List AnyLayer),
      each (fun n s => n.step s.1 s.2) samples n0 = .ok (n1, none) ∧
      n1.train (Opt.gdStep eta) () = (((), n'), .ok ()) ∧
      p.map (fun i => n'.layers[i]?) = ls'.map some ∧
      cost f m inv samples ls' ≤ cost f m inv samples ls ∧
      (HasSlope ls (fun θ => cost f m inv samples (withTheta ls θ)) (ls.map AnyLayer.params) →
        cost f m inv samples ls' < cost f m inv samples ls) := by
  obtain ⟨hok, hl⟩ := path_graph hg hp.path h2
  have h0 := at_start hlen hr hc
  have hs' : ∀ s ∈ samples, FitSample (withTheta ls (ls.map AnyLayer.params)) f nin m s.1 s.2 ∧
      SmoothAll (withTheta ls (ls.map AnyLayer.params)) s.1 := by
    rw [withTheta_params]; exact hs
  have hsz : ∀ s ∈ samples, s.1.length = nin := fun s h => (hs s h).1.size
  obtain ⟨δ, hδ, key⟩ := gd_small (cost_biasFree hr.sizes inv hsz) h0.fits
    (cost_differentiableAt hr.sizes inv h0.fits hs')
  refine ⟨δ, hδ, fun eta a1 a2 => ?_⟩
  obtain ⟨n1, n2, ks2, θ', b1, b2, b3, b4⟩ := batch_path eta hok hl hp (by rintro rfl; simp at h2) hr.sizes
    h0 samples fun s h => goodSample_of_all (hs' s h).1 (hs' s h).2
  have c1 := key eta a1 a2 θ' b4
  rw [withTheta_params, ← cost_atTheta hr.sizes b3 hsz] at c1
  exact ⟨n1, n2, ks2, b1, b2, b3.ready.layers, c1.1, c1.2⟩

/-! ### Whole runs -/

theorem epoch_flatten (n b : Nat) (hb : 1 ≤ b) :
    ((List.range (batchCount n b)).map (batchSamples n b)).flatten = List.range n := by
  rw [← (C37_epoch n b hb).1]
  unfold epochCalls
  rw [List.filterMap_flatMap, List.flatten_eq_flatMap, List.flatMap_map]
  congr 1
  funext k
  generalize batchSamples n b k = l
  simp only [id, List.filterMap_cons, TrainCall.sample, List.filterMap_append, List.filterMap_nil,
    List.append_nil]
  induction l with
  | nil => rfl
  | cons a l ih => exact congrArg (a :: ·) ih

theorem cost_flatten (f : LossFn) (m : Nat) (inv : ℝ) (s : Nat → List ℝ × List ℝ) (L : List AnyLayer) :
    ∀ bs : List (List Nat), (bs.map fun is => cost f m inv (is.map s) L).sum = cost f m inv (bs.flatten.map s) L := by
  intro bs
  induction bs with
  | nil => rfl
  | cons is bs ih =>
    rw [List.map_cons, List.sum_cons, ih]
    simp [cost]

theorem cost_batches (f : LossFn) (m : Nat) (inv : ℝ) (s : Nat → List ℝ × List ℝ) (L : List AnyLayer)
    (n b epochs : Nat) (hb : 1 ≤ b) : ((batches n b epochs).map fun is => cost f m inv (is.map s) L).sum
      = epochs * cost f m inv ((List.range n).map s) L := by
  unfold batches
  induction epochs with
  | zero => simp
  | succ e ih =>
    rw [List.replicate_succ, List.flatten_cons, List.map_append, List.sum_append, ih, cost_flatten,
      epoch_flatten n b hb]
    push_cast
    ring

theorem batches_full (n b epochs : Nat) (hn : 1 ≤ n) (hb : n ≤ b) :
    batches n b epochs = List.replicate epochs (List.range n) := by
  have h1 : batchCount n b = 1 := by
    unfold batchCount
    rw [Nat.div_eq_iff (by omega)]
    omega
  have h2 : batchSamples n b 0 = List.range n := by
    unfold batchSamples
    rw [Nat.zero_mul, List.drop_zero, List.take_of_length_le (by simpa using hb)]
  unfold batches
  rw [h1]
  simp only [List.range_one, List.map_cons, List.map_nil, h2]
  induction epochs with
  | zero => rfl
  | succ e ih => rw [List.replicate_succ, List.flatten_cons, ih]; rfl

/-- **C79**, whole runs (for models on a path of dense, convolution, max pooling and activation layers whose
gradient buffers are clear, if everything is smooth around the samples): for every batch size and every positive
number of epochs, if some partial derivative of the cost of the data set is not zero at the start, then
for all small enough learning rates `fit` with `GradientDescentOptimizer(eta)` succeeds and the cost of
the data set is lower afterwards. -/
theorem C79_fit_partial (ops : List Op) (n0 : Net) (hg : n0.graph = (built ops).graph)
    (hlen : n0.layers.length = n0.graph.layers.length)
    (p : List Nat) (q : Nat) (hp : IsTrainingPath n0.graph p q) (h2 : 2 ≤ p.length)
    (ls : List AnyLayer) (f : LossFn) (nin m : Nat) (inv : ℝ) (hr : Ready n0 p q ls f nin m inv)
    (hc : Clean ls) (d : Data.Dataset ℝ) (b epochs fuel : Nat) (hb : 1 ≤ b) (he : 1 ≤ epochs)
    (hf : batchCount d.size b ≤ fuel) (s : Nat → List ℝ × List ℝ)
    (hd : ∀ i, i < d.size → d.input i = .ok (s i).1 ∧ d.label i = .ok (s i).2)
    (hs : ∀ i, i < d.size → FitSample ls f nin m (s i).1 (s i).2 ∧ Along SmoothTwiceAt ls (s i).1)
    (hslope : HasSlope ls (fun θ => cost f m inv ((List.range d.size).map s) (withTheta ls θ))
      (ls.map AnyLayer.params)) :
    ∃ δ > 0, ∀ eta : ℝ, 0 < eta → eta < δ → ∃ (n' : Net) (ls' : List AnyLayer),
      Training.fit (Opt.gdStep eta) d fuel epochs b ((), n0) = some (.ok ((), n')) ∧
      p.map (fun i => n'.layers[i]?) = ls'.map some ∧
      cost f m inv ((List.range d.size).map s) ls' < cost f m inv ((List.range d.size).map s) ls := by
  obtain ⟨hok, hl⟩ := path_graph hg hp.path h2
  have h0 := at_start hlen hr hc
  obtain ⟨δ, hδ, key⟩ := run_small hok hl hp (by rintro rfl; simp at h2) hr.sizes d s
    (batches d.size b epochs) (List.range d.size) h0
    (fun is his i hi => List.mem_range.mpr (mem_batches his i hi))
    (fun i hi => hd i (List.mem_range.mp hi))
    (by rw [withTheta_params]; exact fun i hi => hs i (List.mem_range.mp hi))
    (N := epochs) (by exact_mod_cast he) (fun L => cost_batches f m inv s L _ _ _ hb) hslope
  refine ⟨δ, hδ, fun eta a1 a2 => ?_⟩
  obtain ⟨n', ks', θ', b1, b2, b3⟩ := key eta a1 a2
  exact ⟨n', ks', by rw [C37_fit _ d b epochs fuel hb hf, trainCalls_batches, b1], b2.ready.layers, b3⟩

/-- **C79**, epoch by epoch (under the same conditions, if a batch holds the whole data set): for every
number of epochs and all small enough learning rates, each of these epochs leaves a cost of the data set
that is not higher than before, and lower unless all partial derivatives are zero. -/
theorem C79_epochs_partial (ops : List Op) (n0 : Net) (hg : n0.graph = (built ops).graph)
    (hlen : n0.layers.length = n0.graph.layers.length)
    (p : List Nat) (q : Nat) (hp : IsTrainingPath n0.graph p q) (h2 : 2 ≤ p.length)
    (ls : List AnyLayer) (f : LossFn) (nin m : Nat) (inv : ℝ) (hr : Ready n0 p q ls f nin m inv)
    (hc : Clean ls) (d : Data.Dataset ℝ) (b epochs fuel : Nat) (hn : 1 ≤ d.size) (hb : d.size ≤ b)
    (hf : 1 ≤ fuel) (s : Nat → List ℝ × List ℝ)
    (hd : ∀ i, i < d.size → d.input i = .ok (s i).1 ∧ d.label i = .ok (s i).2)
    (hs : ∀ i, i < d.size → FitSample ls f nin m (s i).1 (s i).2 ∧ Along SmoothTwiceAt ls (s i).1) :
    ∃ δ > 0, ∀ eta : ℝ, 0 < eta → eta < δ → ∃ (n : Nat → Net) (ls' : Nat → List AnyLayer),
      (∀ k ≤ epochs, Training.fit (Opt.gdStep eta) d fuel k b ((), n0) = some (.ok ((), n k)) ∧
        p.map (fun i => (n k).layers[i]?) = (ls' k).map some) ∧
      ∀ k < epochs,
        cost f m inv ((List.range d.size).map s) (ls' (k + 1)) ≤ cost f m inv ((List.range d.size).map s) (ls' k) ∧
        (HasSlope ls (fun θ => cost f m inv ((List.range d.size).map s) (withTheta ls θ))
            ((ls' k).map AnyLayer.params) →
          cost f m inv ((List.range d.size).map s) (ls' (k + 1))
            < cost f m inv ((List.range d.size).map s) (ls' k)) := by
  obtain ⟨hok, hl⟩ := path_graph hg hp.path h2
  have h0 := at_start hlen hr hc
  obtain ⟨δ, hδ, key⟩ := run_small_full hok hl hp (by rintro rfl; simp at h2) hr.sizes d s
    (List.range d.size) h0 (fun i hi => hd i (List.mem_range.mp hi))
    (by rw [withTheta_params]; exact fun i hi => hs i (List.mem_range.mp hi)) epochs
  refine ⟨δ, hδ, fun eta a1 a2 => ?_⟩
  obtain ⟨ns, kss, θs, b1, b2⟩ := key eta a1 a2
  have hbc : batchCount d.size b ≤ fuel := by
    have : batchCount d.size b = 1 := by
      unfold batchCount
      rw [Nat.div_eq_iff (by omega)]
      omega
    omega
  refine ⟨ns, kss, fun k hk => ⟨?_, (b1 k hk).2.ready.layers⟩, fun k hk => ?_⟩
  · rw [C37_fit _ d b k fuel (by omega) hbc, trainCalls_batches, batches_full _ _ _ hn hb, (b1 k hk).1]
  · rw [(b1 k (by omega)).2.params]
    exact b2 k hk

theorem cost_squared (m : Nat) (inv : ℝ) (L : List AnyLayer) : ∀ samples : List (List ℝ × List ℝ),
    cost .mse m inv samples L = inv * squaredErrors m samples L := by
  intro samples
  unfold cost squaredErrors
  induction samples with
  | nil => simp
  | cons s samples ih =>
    simp only [List.map_cons, List.sum_cons, ih, mul_add]
    rfl

/-- **C79** for feedforward networks: whatever descriptors without dropout and average pooling are added
(windows fit, no empty softmax), for all parameter values `θ` at which the squared error over the data set
is not stationary, no rectifier or exponential unit gets the value 0 and max pooling has clear maxima, for all data sets with rows of the
declared sizes, all batch sizes and positive numbers of epochs: `fit` with mean squared errors and
`GradientDescentOptimizer(eta)` leaves a network with a smaller squared error over the data set, if `eta`
is small enough. -/
theorem C79_fnn_partial (ds : List Descriptor) (f : Fnn) (outcomes : List (Option String))
    (h : Fnn.empty.addAll ds = .ok (f, outcomes)) (hne : accepted ds outcomes ≠ [])
    (hr : ∀ a ∈ f.layers, Regular a)
    (θ : Theta) (hθ : FitsTheta f.layers θ) (b : Nat) (hb : 1 ≤ b) (epochs fuel : Nat) (he : 1 ≤ epochs)
    (d : Data.Dataset ℝ) (hf : batchCount d.size b ≤ fuel) (z : AnyLayer)
    (hz : f.layers.getLast? = some z) (hpos : 0 < z.outputSize) (s : Nat → List ℝ × List ℝ)
    (hd : ∀ i, i < d.size → d.input i = .ok (s i).1 ∧ d.label i = .ok (s i).2 ∧
      (s i).1.length = declaredInput ds ∧ (s i).2.length = z.outputSize)
    (hs : ∀ i, i < d.size → Along SmoothTwiceAt (withTheta f.layers θ) (s i).1)
    (hslope : HasSlope f.layers (fun θ => squaredErrors z.outputSize ((List.range d.size).map s)
      (withTheta f.layers θ)) θ) :
    ∃ f' : Fnn, f.addLosses .mse b = .ok (f', none) ∧
      ∃ δ > 0, ∀ eta : ℝ, 0 < eta → eta < δ → ∃ n' : Net,
        Training.fit (Opt.gdStep eta) d fuel epochs b
          ((), ⟨f'.model.graph, withTheta f.layers θ ++ f'.layers.drop f.layers.length⟩)
          = some (.ok ((), n')) ∧
        squaredErrors z.outputSize ((List.range d.size).map s) (n'.layers.take f.layers.length)
          < squaredErrors z.outputSize ((List.range d.size).map s) (withTheta f.layers θ) := by
  have hbt := built_all h
  have hpos2 : 0 < (accepted ds outcomes).length := List.length_pos_iff.mpr hne
  obtain ⟨j, hj⟩ : ∃ j, 2 * (accepted ds outcomes).length = j + 2 :=
    ⟨_, (Nat.sub_add_cancel (by omega)).symm⟩
  have hg := hbt.graph
  have hlay := hbt.layers
  rw [hj] at hg
  have hlt : j + 1 < f.layers.length := by omega
  have hz' : f.layers[j + 1]? = some z := by
    rw [← hz, List.getLast?_eq_getElem?, hlay, hj]
    rfl
  obtain ⟨m', e1, e2⟩ := addLosses_ok hg hz' .mse b
  rw [← hj] at e2
  have hp := isTrainingPath_of_pathLoss e2
  have hl := lists_of_path e2.some hp.path (by simp; omega)
  have ht := built_trainable hbt hne hr hz
  have h0 := built_atTheta hbt hne hr hz e2 .mse b hb (1 / 10) hθ
  have hb' : (0 : ℝ) < 1 / b := by positivity
  refine ⟨_, e1, ?_⟩
  obtain ⟨δ, hδ, key⟩ := run_small e2.ok.ok hl hp (by intro e; simp at e; exact hne e) ht d s
    (batches d.size b epochs) (List.range d.size) h0
    (fun is his i hi => List.mem_range.mpr (mem_batches his i hi))
    (fun i hi => ⟨(hd i (List.mem_range.mp hi)).1, (hd i (List.mem_range.mp hi)).2.1⟩)
    (fun i hi => by
      have h5 := hd i (List.mem_range.mp hi)
      have h6 := hs i (List.mem_range.mp hi)
      exact ⟨⟨h5.2.2.1, ⟨h5.2.2.2, hpos, by simp⟩, by intro e; cases e⟩, h6⟩)
    (N := epochs) (by exact_mod_cast he) (fun L => cost_batches .mse _ _ s L _ _ _ hb) (by
      obtain ⟨j, l, b', k, D, g1, g2, g3, g4, g5⟩ := hslope
      refine ⟨j, l, b', k, 1 / b * D, g1, g2, g3, ?_, mul_ne_zero hb'.ne' g5⟩
      simp only [cost_squared]
      exact g4.const_mul _)
  refine ⟨δ, hδ, fun eta a1 a2 => ?_⟩
  obtain ⟨n', ks', θ', b1, b2, b3⟩ := key eta a1 a2
  refine ⟨n', ?_, ?_⟩
  · rw [C37_fit _ d b epochs fuel hb hf, trainCalls_batches]
    simp only [List.drop_left']
    rw [b1]
  · have := take_of_path b2.ready.layers
    rw [← hlay] at this
    rw [this]
    rw [cost_squared, cost_squared] at b3
    exact lt_of_mul_lt_mul_left b3 hb'.le

/-- The hypotheses of `C79_update_partial`, `C79_fit_partial` and `C79_epochs_partial` hold for a dense
layer followed by rectifiers (see the examples of C70 for `Ready` and `GoodSample`), a sample that
activates the first rectifier, keeps off the kinks and is not predicted right. -/
example (a b c d x u v : ℝ) (h1 : 0 < c + a * x) (h2 : d + b * x ≠ 0) (h3 : u ≠ c + a * x) :
    let ls : List AnyLayer :=
      [.dense { denseNew 1 2 with weights := [a, b], biases := [c, d] }, .act .relu (Act.Layer.new 2)]
    Clean ls ∧ Along SmoothTwiceAt ls [x] ∧
      HasSlope ls (fun θ => cost .mse 2 1 [([x], [u, v])] (withTheta ls θ)) (ls.map AnyLayer.params) := by
  intro ls
  have hpred : ∀ t, prediction (withTheta ls [[[a, b], [t, d]], []]) [x]
      = [Act.relu (t + a * x), Act.relu (d + b * x)] := fun t => rfl
  refine ⟨⟨?_, ?_⟩, .cons trivial rfl rfl (.cons ?_ rfl rfl (.nil _)), 0, _, 1, 0, -2 * (u - (c + a * x)),
    rfl, by simp [AnyLayer.params], by simp [AnyLayer.params], ?_,
    mul_ne_zero (by norm_num) (sub_ne_zero.mpr h3)⟩
  · intro l hl
    rcases List.mem_pair.mp hl with rfl | rfl <;> rfl
  · intro l hl
    rcases List.mem_pair.mp hl with rfl | rfl
    · intro i k h4 h5
      match i, k with
      | 0, 0 | 0, 1 | 1, 0 | 1, 1 => rfl
      | 0, k + 2 | 1, k + 2 => exact absurd h5 (by simp [AnyLayer.params])
      | i + 2, _ => exact absurd h4 (by simp [AnyLayer.params])
    · intro i k h4
      exact absurd h4 (by simp [AnyLayer.params])
  · intro w hw
    have hw' : w ∈ [c + a * x, d + b * x] := hw
    rcases List.mem_pair.mp hw' with rfl | rfl
    · exact h1.ne'
    · exact h2
  · show HasDerivAt (fun t : ℝ => cost .mse 2 1 [([x], [u, v])] (withTheta ls [[[a, b], [t, d]], []])) _ c
    have e1 : HasDerivAt (fun t : ℝ => (u - (t + a * x)) ^ 2 + (v - Act.relu (d + b * x)) ^ 2)
        (-2 * (u - (c + a * x))) c := by
      have a1 := ((((hasDerivAt_id c).add_const (a * x)).const_sub u).fun_pow 2).add_const
        ((v - Act.relu (d + b * x)) ^ 2)
      simpa using a1
    refine e1.congr_of_eventuallyEq ?_
    have hnear : ∀ᶠ t in nhds c, 0 < t + a * x :=
      (continuous_id.add continuous_const).continuousAt.eventually (lt_mem_nhds h1)
    filter_upwards [hnear] with t ht
    simp only [cost, hpred, objective, List.map_cons, List.map_nil, List.sum_cons, List.sum_nil]
    rw [Finset.sum_range_succ, Finset.sum_range_one]
    simp [vec, Act.relu, not_lt.mpr ht.le]

/-- A network for the example: one input, one linear output. -/
def lineNet : List Descriptor := [⟨.input [⟨1, 1, 1⟩], .none⟩, ⟨.dense [⟨1, 1, 1⟩], .linear⟩]

/-- Points of the graph of a function, the second column is the label. -/
def lineData (x y u v : ℝ) : Data.Dataset ℝ := Data.ofVec [x, y, u, v] 2 1 {1}

theorem line_eq (x y u v : ℝ) : lineData x y u v = ⟨[x, y, u, v], 2, 1, 4, 2, 2, {1}, {0}⟩ := by
  have h1 : [x, y, u, v].length = 4 := rfl
  have h2 : Data.keepLabels 2 {1} = {1} := by decide
  have h3 : Data.inputsOf 2 {1} = {0} := by decide
  simp [lineData, Data.ofVec, h1, h2, h3, Data.resize]

theorem line_size (x y u v : ℝ) : (lineData x y u v).size = 2 := by rw [line_eq]; rfl

theorem line_prediction (w c x : ℝ) :
    prediction (withTheta [.dense (denseNew 1 1), .act .linear (Act.Layer.new 1)] [[[w], [c]], []]) [x]
      = [c + w * x] := rfl

/-- The hypotheses of `C79_fnn_partial` hold for the network above, two points whose residuals do not
cancel out, batches of one sample and seven epochs. -/
example (w c x y u v : ℝ) (h : (y - (c + w * x)) + (v - (c + w * u)) ≠ 0) :
    ∃ f, Fnn.empty.addAll lineNet = .ok (f, [none, none]) ∧
      ∃ f', f.addLosses .mse 1 = .ok (f', none) ∧ ∃ δ > 0, ∀ eta : ℝ, 0 < eta → eta < δ → ∃ n' : Net,
        Training.fit (Opt.gdStep eta) (lineData x y u v) 2 7 1
          ((), ⟨f'.model.graph, withTheta f.layers [[[w], [c]], []] ++ f'.layers.drop f.layers.length⟩)
          = some (.ok ((), n')) ∧
        squaredErrors 1 [([x], [y]), ([u], [v])] (n'.layers.take f.layers.length)
          < (y - (c + w * x)) ^ 2 + (v - (c + w * u)) ^ 2 := by
  refine ⟨_, rfl, ?_⟩
  have key : ∀ i, i < 2 → (lineData x y u v).input i = .ok [([x, u] : List ℝ).getD i 0] ∧
      (lineData x y u v).label i = .ok [([y, v] : List ℝ).getD i 0] := by
    intro i hi
    have h0 : Spec.Consistent (lineData x y u v) := Data.consistent_ofVec _ _ _ _
    rw [C43_input h0, C43_label h0, line_size, if_pos hi, if_pos hi, line_eq]
    match i with
    | 0 | 1 => exact ⟨rfl, rfl⟩
    | i + 2 => omega
  have hd : HasDerivAt (fun t : ℝ => squaredErrors 1
      ((List.range (lineData x y u v).size).map fun i =>
        ([([x, u] : List ℝ).getD i 0], [([y, v] : List ℝ).getD i 0]))
      (withTheta [.dense (denseNew 1 1), .act .linear (Act.Layer.new 1)] [[[w], [t]], []]))
      (-2 * ((y - (c + w * x)) + (v - (c + w * u)))) c := by
    rw [line_size]
    show HasDerivAt (fun t : ℝ => ([(∑ k ∈ Finset.range 1, (vec [y] k - vec [t + w * x] k) ^ 2),
      (∑ k ∈ Finset.range 1, (vec [v] k - vec [t + w * u] k) ^ 2)] : List ℝ).sum) _ c
    have h1 : HasDerivAt (fun t : ℝ => (y - (t + w * x)) ^ 2 + (v - (t + w * u)) ^ 2)
        (2 * (y - (c + w * x)) * -1 + 2 * (v - (c + w * u)) * -1) c := by
      have a1 := (((hasDerivAt_id c).add_const (w * x)).const_sub y).fun_pow 2
      have a2 := (((hasDerivAt_id c).add_const (w * u)).const_sub v).fun_pow 2
      simpa using a1.fun_add a2
    refine (h1.congr_deriv (by ring)).congr_of_eventuallyEq (Filter.Eventually.of_forall fun t => ?_)
    simp [vec]
  obtain ⟨f', e1, δ, hδ, e2⟩ := C79_fnn_partial lineNet _ _ rfl (by intro e; cases e) (by
    intro a ha
    obtain ⟨i, hi⟩ := List.mem_iff_getElem?.mp ha
    match i with
    | 0 | 1 => cases hi; trivial
    | i + 2 => cases hi) [[[w], [c]], []] rfl 1 (by omega) 7 2 (by omega) (lineData x y u v)
    (by rw [line_size]; decide) _ rfl (by decide)
    (fun i => ([([x, u] : List ℝ).getD i 0], [([y, v] : List ℝ).getD i 0]))
    (fun i hi => ⟨(key i (lt_of_lt_of_eq hi (line_size ..))).1,
      (key i (lt_of_lt_of_eq hi (line_size ..))).2, rfl, rfl⟩)
    (fun i hi => .cons trivial rfl rfl (.cons trivial rfl rfl (.nil _)))
    ⟨0, _, 1, 0, -2 * ((y - (c + w * x)) + (v - (c + w * u))), rfl, by decide, by decide, hd,
      mul_ne_zero (by norm_num) h⟩
  refine ⟨f', e1, δ, hδ, fun eta a1 a2 => ?_⟩
  obtain ⟨n', b1, b2⟩ := e2 eta a1 a2
  rw [line_size] at b2
  refine ⟨n', b1, lt_of_lt_of_eq b2 ?_⟩
  show ([(∑ k ∈ Finset.range 1, (vec [y] k - vec [c + w * x] k) ^ 2),
    (∑ k ∈ Finset.range 1, (vec [v] k - vec [c + w * u] k) ^ 2)] : List ℝ).sum = _
  simp [vec]

/-! ### Max pooling -/

/-- One sample: 0 with the targets -1 and 3. -/
def single : Data.Dataset ℝ := ⟨[0, -1, 3], 3, 1, 3, 1, 1, {1, 2}, {0}⟩

theorem single_sample : single.input 0 = .ok [0] ∧ single.label 0 = .ok [-1, 3] := by
  have h : Data.iter {1, 2} = [1, 2] := by
    unfold Data.iter
    have : ({1, 2} : Finset Nat) = insert 1 {2} := rfl
    rw [this, Finset.sort_insert] <;> simp
  have h1 : single.labelsIdx = {1, 2} := rfl
  constructor
  · simp [single, Data.Dataset.input, Data.Dataset.fieldFromRow, Data.iter, Data.collect, rd]
  · unfold Data.Dataset.label Data.Dataset.fieldFromRow
    rw [h1, h]
    simp [single, Data.collect, rd]

theorem step_three (a b a' b' a2 b2 : AnyLayer) (f : LossFn) (l l' l2 : Loss.Layer)
    (x t v y : List ℝ)
    (h1 : a.trainingForward x = .ok (a', none)) (h2 : a'.lastOutput = .ok v)
    (h3 : b.trainingForward v = .ok (b', none)) (h4 : b'.lastOutput = .ok y)
    (h9 : (AnyLayer.loss f (l.setTarget t)).trainingForward y = .ok (.loss f l', none))
    (k1 : ((AnyLayer.loss f l').setLastInput y).backward [] = .ok (.loss f l2, none))
    (k4 : (b'.setLastInput v).backward l2.gradients = .ok (b2, none))
    (k5 : (a'.setLastInput x).backward b2.lastInputGradient = .ok (a2, none)) :
    Net.step ⟨(built threeLayers).graph, [a, b, .loss f l]⟩ x t
      = .ok (⟨(built threeLayers).graph, [a2, b2, .loss f l2]⟩, none) := by
  have g : (built threeLayers).graph.inputs = [0] ∧ (built threeLayers).graph.loss = [2] ∧
    trainingArcs (built threeLayers).graph = [(0, 1), (1, 2)] ∧
    backwardArcs (built threeLayers).graph = [(2, 1), (1, 0)] := by decide
  obtain ⟨g1, g2, g3, g4⟩ := g
  have k6 : (AnyLayer.loss f l2).lastInputGradient = l2.gradients := rfl
  unfold Net.step
  dsimp only
  rw [g1, g2, g3, g4]
  simp [each, next, targetAt, trainAt, backwardAt, backArcAt, follow, value, rd, h1, h2, h3, h4, h9,
    k1, k4, k5, k6]

theorem loss_pair (l : Loss.Layer) (p q u v x z : ℝ) (hx : l.gradients = [x, z]) (hb : l.invBatch = 1) :
    ∃ l1 : Loss.Layer, (AnyLayer.loss .mse (l.setTarget [u, v])).trainingForward [p, q] = .ok (.loss .mse l1, none) ∧
      ∃ l2 : Loss.Layer, ((AnyLayer.loss .mse l1).setLastInput [p, q]).backward [] = .ok (.loss .mse l2, none) ∧
        l2.gradients = [2 * (p - u), 2 * (q - v)] := by
  obtain ⟨l1, hl, hl1, hl2, hl3, hl4⟩ : ∃ l1 : Loss.Layer,
      (AnyLayer.loss .mse (l.setTarget [u, v])).trainingForward [p, q] = .ok (.loss .mse l1, none) ∧
        l1.gradients = [x, z] ∧ l1.target = [u, v] ∧ l1.lastInput = [p, q] ∧ l1.invBatch = 1 := by
    simp only [AnyLayer.trainingForward, AnyLayer.setLastInput, AnyLayer.forward, LossFn.forward,
      Loss.mseForward, Loss.meanSquaredError, Loss.Layer.setTarget, forUp, rd]
    simp only [List.isEmpty_cons, Bool.false_eq_true, if_false, List.length_cons, List.length_nil,
      forFrom, Exec.bind_ok, Exec.pure_eq_ok, List.getElem?_cons_zero, List.getElem?_cons_succ]
    split
    · exact ⟨_, rfl, hx, rfl, rfl, hb⟩
    · exact ⟨_, rfl, hx, rfl, rfl, hb⟩
  refine ⟨l1, hl, { l1 with lastInput := [p, q], gradients := [2 * (p - u), 2 * (q - v)] }, ?_, rfl⟩
  have hli : (AnyLayer.loss .mse l1).setLastInput [p, q] = .loss .mse { l1 with lastInput := [p, q] } := rfl
  rw [hli]
  simp [AnyLayer.backward, LossFn.backward, Loss.mseBackward, Loss.meanSquaredError1, Loss.squaredError1,
      hl1, hl2, hl4, forUp, forFrom, rd, wr, keep]
  constructor <;> ring

theorem pool_forward (ig pl : List ℝ) (c d p q : ℝ) :
    Slide.maxForward ⟨⟨2, 1, 1⟩, ⟨2, 1, 1⟩, ⟨1, 1⟩, ⟨1, 1⟩, ig, [c, d], pl⟩ [p, q]
      = .ok ⟨⟨2, 1, 1⟩, ⟨2, 1, 1⟩, ⟨1, 1⟩, ⟨1, 1⟩, ig, [p, q], pl⟩ := by
  have h1 : Slide.slideSide 2 1 1 0 = 2 := by decide
  have h2 : Slide.slideSide 1 1 1 0 = 1 := by decide
  simp [Slide.maxForward, Slide.maxPool, Slide.kernelSlide, Slide.maxPoolOp, forUp, forFrom, rd, rdI, wr, h1, h2]

theorem pool_backward (po : List ℝ) (c d p q r s : ℝ) :
    Slide.maxBackward ⟨⟨2, 1, 1⟩, ⟨2, 1, 1⟩, ⟨1, 1⟩, ⟨1, 1⟩, [c, d], po, [r, s]⟩ [p, q]
      = .ok ⟨⟨2, 1, 1⟩, ⟨2, 1, 1⟩, ⟨1, 1⟩, ⟨1, 1⟩, [p + q, 0], po, [r, s]⟩ := by
  have h1 : Slide.slideSide 2 1 1 0 = 2 := by decide
  have h2 : Slide.slideSide 1 1 1 0 = 1 := by decide
  simp [Slide.maxBackward, Slide.kernelSlide, Slide.maxGradOp, forUp, forFrom, rd, rdI, wr, h1, h2]

/-- A dense layer from 1 to 2 values followed by max pooling with windows of one cell. -/
def pooled (w b : List ℝ) (g : Dense.Grads ℝ) (out li ig po pl : List ℝ) : List AnyLayer :=
  [.dense ⟨1, 2, w, b, g, out, li⟩, .maxPool ⟨⟨2, 1, 1⟩, ⟨2, 1, 1⟩, ⟨1, 1⟩, ⟨1, 1⟩, ig, po, pl⟩]

theorem pooled_prediction (w0 w1 b0 b1 x a b c d : ℝ) (g : Dense.Grads ℝ) (li ig pl : List ℝ) :
    prediction (pooled [w0, w1] [b0, b1] g [a, b] li ig [c, d] pl) [x] = [b0 + w0 * x, b1 + w1 * x] := by
  have h1 : (AnyLayer.dense ⟨1, 2, [w0, w1], [b0, b1], g, [a, b], li⟩).forward [x]
      = .ok (.dense ⟨1, 2, [w0, w1], [b0, b1], g, [b0 + w0 * x, b1 + w1 * x], li⟩, none) := by
    simp [AnyLayer.forward, Dense.Layer.forward, Dense.dense, forUp, forFrom, rd, wr, keep]
  have h2 : (AnyLayer.maxPool ⟨⟨2, 1, 1⟩, ⟨2, 1, 1⟩, ⟨1, 1⟩, ⟨1, 1⟩, ig, [c, d], pl⟩).forward
        [b0 + w0 * x, b1 + w1 * x]
      = .ok (.maxPool ⟨⟨2, 1, 1⟩, ⟨2, 1, 1⟩, ⟨1, 1⟩, ⟨1, 1⟩, ig, [b0 + w0 * x, b1 + w1 * x], pl⟩, none) := by
    simp [AnyLayer.forward, pool_forward, keep]
  simp [pooled, prediction, h1, h2, AnyLayer.lastOutput]

/-- A step of the layers as constructed: the gradient of both outputs ends up in the first bias. -/
theorem pooled_step (l : Loss.Layer) (x z : ℝ) (hx : l.gradients = [x, z]) (hb : l.invBatch = 1) :
    ∃ l2 : Loss.Layer,
      Net.step ⟨(built threeLayers).graph, [.dense (denseNew 1 2),
        .maxPool ⟨⟨2, 1, 1⟩, ⟨2, 1, 1⟩, ⟨1, 1⟩, ⟨1, 1⟩, [0, 0], [0, 0], []⟩, .loss .mse l]⟩ [0] [-1, 3]
      = .ok (⟨(built threeLayers).graph,
        pooled [0, 0] [0, 0] ⟨[0], [0, 0], [-4, 0]⟩ [0, 0] [0] [-4, 0] [0, 0] [0, 0] ++ [.loss .mse l2]⟩, none) := by
  obtain ⟨l1, q1, l2, q2, q3⟩ := loss_pair l 0 0 (-1) 3 x z hx hb
  refine ⟨l2, ?_⟩
  refine step_three _ _ (.dense ⟨1, 2, [0, 0], [0, 0], ⟨[0], [0, 0], [0, 0]⟩, [0, 0], [0]⟩)
      (.maxPool ⟨⟨2, 1, 1⟩, ⟨2, 1, 1⟩, ⟨1, 1⟩, ⟨1, 1⟩, [0, 0], [0, 0], [0, 0]⟩) _ _ _ _ l1 l2 [0] [-1, 3]
      [0, 0] [0, 0] ?_ rfl ?_ rfl q1 q2 ?_ ?_
  · simp [AnyLayer.trainingForward, AnyLayer.setLastInput, AnyLayer.forward, Dense.Layer.forward,
      Dense.dense, forUp, forFrom, rd, wr, keep, denseNew]
  · simp [AnyLayer.trainingForward, AnyLayer.setLastInput, AnyLayer.forward, pool_forward, keep]
  · rw [q3]
    simp [AnyLayer.setLastInput, AnyLayer.backward, pool_backward, keep]
    norm_num
  · simp [AnyLayer.setLastInput, AnyLayer.lastInputGradient, AnyLayer.backward, Dense.Layer.backward, Dense.dense1,
      Dense.fill, forUp, forFrom, rd, wr, keep]

/-- **C70 is false** for models with max pooling (C13): the layers below, as constructed, are given the sample
0 with targets -1 and 3.  The squared errors have the derivative 2 with respect to the first bias, but
`step` leaves -4 as its gradient. -/
theorem C70_max_pooling_refuted :
    ∃ pool, Slide.PoolLayer.mk' ⟨2, 1, 1⟩ ⟨1, 1⟩ ⟨1, 1⟩ = .ok pool ∧
      let ls : List AnyLayer := [.dense (denseNew 1 2), .maxPool pool]
      let n0 : Net := ⟨(built threeLayers).graph, ls ++ [.loss .mse (Loss.Layer.new 2 1 (1 / 10))]⟩
      HasDerivAt (fun v => objective .mse 2 1 [-1, 3] (prediction (withTheta ls [[[0, 0], [v, 0]], []]) [0])) 2 0 ∧
      ∃ (n1 : Net) (l : AnyLayer), n0.step [0] [-1, 3] = .ok (n1, none) ∧ n1.layers[0]? = some l ∧
        entry (AnyLayer.dense (denseNew 1 2)).paramGrads 1 0 = 0 ∧ entry l.paramGrads 1 0 = -4 := by
  have hp : Slide.PoolLayer.mk' (α := ℝ) ⟨2, 1, 1⟩ ⟨1, 1⟩ ⟨1, 1⟩
      = .ok ⟨⟨2, 1, 1⟩, ⟨2, 1, 1⟩, ⟨1, 1⟩, ⟨1, 1⟩, [0, 0], [0, 0], []⟩ := by rfl
  refine ⟨_, hp, ?_⟩
  intro ls n0
  have hpred : ∀ t : ℝ, prediction (withTheta ls [[[0, 0], [t, 0]], []]) [0]
      = [t + 0 * 0, 0 + 0 * 0] := fun t => pooled_prediction 0 0 t 0 0 0 0 0 0 _ _ _ _
  constructor
  · have e1 : HasDerivAt (fun t : ℝ => (-1 - t) ^ 2 + 9) 2 0 := by
      have := (((hasDerivAt_id (0 : ℝ)).const_sub (-1)).fun_pow 2).add_const (9 : ℝ)
      simpa using this
    refine e1.congr_of_eventuallyEq (Filter.Eventually.of_forall fun t => ?_)
    simp only [hpred, objective]
    rw [Finset.sum_range_succ, Finset.sum_range_one]
    simp [vec]
    norm_num
  · obtain ⟨l2, hstep⟩ := pooled_step (Loss.Layer.new 2 1 (1 / 10)) 0 0 rfl (by simp [Loss.Layer.new])
    exact ⟨_, _, hstep, rfl, rfl, rfl⟩

/-- One epoch of `fit` on the sample for the layers as constructed. -/
theorem pooled_fit (eta : ℝ) : ∃ l2 : Loss.Layer,
    Training.fit (Opt.gdStep eta) single 1 1 1 ((), ⟨(built threeLayers).graph, [.dense (denseNew 1 2),
        .maxPool ⟨⟨2, 1, 1⟩, ⟨2, 1, 1⟩, ⟨1, 1⟩, ⟨1, 1⟩, [0, 0], [0, 0], []⟩,
        .loss .mse (Loss.Layer.new 2 1 (1 / 10))]⟩)
      = some (.ok ((), ⟨(built threeLayers).graph, pooled [0 - eta * 0, 0 - eta * 0] [0 - eta * -4, 0 - eta * 0]
      ⟨[0], [0, 0], [0, 0]⟩ [0, 0] [0] [-4, 0] [0, 0] [0, 0] ++ [.loss .mse l2]⟩)) := by
  obtain ⟨s1, s2⟩ := single_sample
  obtain ⟨l2, hstep⟩ := pooled_step (Loss.Layer.new 2 1 (1 / 10)).resetScore 0 0 rfl
    (by simp [Loss.Layer.new, Loss.Layer.resetScore])
  refine ⟨l2, ?_⟩
  generalize hn : (⟨(built threeLayers).graph, [.dense (denseNew 1 2),
        .maxPool ⟨⟨2, 1, 1⟩, ⟨2, 1, 1⟩, ⟨1, 1⟩, ⟨1, 1⟩, [0, 0], [0, 0], []⟩,
        .loss .mse (Loss.Layer.new 2 1 (1 / 10))]⟩ : Net) = n0
  have hr : n0.resetScore = ⟨(built threeLayers).graph, [.dense (denseNew 1 2),
        .maxPool ⟨⟨2, 1, 1⟩, ⟨2, 1, 1⟩, ⟨1, 1⟩, ⟨1, 1⟩, [0, 0], [0, 0], []⟩,
        .loss .mse (Loss.Layer.new 2 1 (1 / 10)).resetScore]⟩ := by
    rw [← hn]
    rfl
  rw [← hr] at hstep
  have htrain : Net.train (Opt.gdStep eta) () ⟨(built threeLayers).graph,
      pooled [0, 0] [0, 0] ⟨[0], [0, 0], [-4, 0]⟩ [0, 0] [0] [-4, 0] [0, 0] [0, 0] ++ [.loss .mse l2]⟩
      = (((), ⟨(built threeLayers).graph, pooled [0 - eta * 0, 0 - eta * 0] [0 - eta * -4, 0 - eta * 0]
        ⟨[0], [0, 0], [0, 0]⟩ [0, 0] [0] [-4, 0] [0, 0] [0, 0] ++ [.loss .mse l2]⟩), .ok ()) := by
    simp [Net.train, pooled, trainLayers, AnyLayer.train, Opt.trainSelf, AnyLayer.kind, Opt.Kind.paramCount,
      Opt.trainLoop, Opt.trainOne, Opt.readAt, Opt.writeAt, Opt.locate, AnyLayer.params, AnyLayer.paramGrads, rd, wr,
      Opt.gdStep, AnyLayer.setParams, AnyLayer.setParamGrads]
  have hc : trainCalls single.size 1 1 = [.reset, .step 0, .train] := by decide
  have e1 : (Training.modelOps (Opt.gdStep eta) single).reset ((), n0) = .ok ((), n0.resetScore) := rfl
  rw [C37_fit _ _ _ _ _ (by omega) (by decide), hc]
  simp only [performAll, perform]
  rw [e1, Exec.bind_ok]
  simp [Training.modelOps, s1, s2, hstep, htrain, Training.raise]

/-- The derivative of the cost with respect to the first bias, for the layers as constructed. -/
theorem pooled_slope (ls : List AnyLayer)
    (hpred : ∀ w0 w1 b0 b1 x : ℝ, prediction (withTheta ls [[[w0, w1], [b0, b1]], []]) [x]
      = [b0 + w0 * x, b1 + w1 * x]) :
    HasDerivAt (fun t : ℝ => cost .mse 2 1 [([0], [-1, 3])] (withTheta ls [[[0, 0], [t, 0]], []])) 2 0 := by
  have e1 : HasDerivAt (fun t : ℝ => (-1 - t) ^ 2 + 9) 2 0 := by
    have := (((hasDerivAt_id (0 : ℝ)).const_sub (-1)).fun_pow 2).add_const (9 : ℝ)
    simpa using this
  refine e1.congr_of_eventuallyEq (Filter.Eventually.of_forall fun t => ?_)
  simp only [cost, hpred, objective, List.map_cons, List.map_nil, List.sum_cons, List.sum_nil]
  rw [Finset.sum_range_succ, Finset.sum_range_one]
  simp [vec]
  norm_num

/-- **C71 is false** for models with max pooling, because its gradients are wrong (C13): a dense layer
from 1 to 2 values, as constructed, followed by max pooling with windows of one cell (the identity), is
trained on the sample 0 with targets -1 and 3.  The prediction is a smooth function of the parameters, but for
every positive learning rate the parameters after `fit` are not those of gradient descent. -/
theorem C71_max_pooling_refuted :
    ∃ pool, Slide.PoolLayer.mk' ⟨2, 1, 1⟩ ⟨1, 1⟩ ⟨1, 1⟩ = .ok pool ∧
      let ls : List AnyLayer := [.dense (denseNew 1 2), .maxPool pool]
      let n0 : Net := ⟨(built threeLayers).graph, ls ++ [.loss .mse (Loss.Layer.new 2 1 (1 / 10))]⟩
      single.input 0 = .ok [0] ∧ single.label 0 = .ok [-1, 3] ∧
      (∀ w0 w1 b0 b1 x : ℝ, prediction (withTheta ls [[[w0, w1], [b0, b1]], []]) [x]
        = [b0 + w0 * x, b1 + w1 * x]) ∧
      ∀ eta : ℝ, 0 < eta → ∃ n' : Net,
        Training.fit (Opt.gdStep eta) single 1 1 1 ((), n0) = some (.ok ((), n')) ∧
        ¬ Descent ls eta [fun θ => cost .mse 2 1 [([0], [-1, 3])] (withTheta ls θ)] (ls.map AnyLayer.params)
          ((n'.layers.take 2).map AnyLayer.params) := by
  have hp : Slide.PoolLayer.mk' (α := ℝ) ⟨2, 1, 1⟩ ⟨1, 1⟩ ⟨1, 1⟩
      = .ok ⟨⟨2, 1, 1⟩, ⟨2, 1, 1⟩, ⟨1, 1⟩, ⟨1, 1⟩, [0, 0], [0, 0], []⟩ := by rfl
  refine ⟨_, hp, ?_⟩
  intro ls n0
  obtain ⟨s1, s2⟩ := single_sample
  have hpred : ∀ w0 w1 b0 b1 x : ℝ, prediction (withTheta ls [[[w0, w1], [b0, b1]], []]) [x]
      = [b0 + w0 * x, b1 + w1 * x] := fun w0 w1 b0 b1 x => pooled_prediction w0 w1 b0 b1 x 0 0 0 0 _ _ _ _
  refine ⟨s1, s2, hpred, fun eta he => ?_⟩
  obtain ⟨l2, hfit⟩ := pooled_fit eta
  refine ⟨_, hfit, fun hd => ?_⟩
  cases hd with
  | cons h1 h2 =>
    cases h2
    obtain ⟨D, d1, d2⟩ := h1.2 0 _ 1 0 rfl trivial (by decide) (by decide)
    have d1 : HasDerivAt (fun t : ℝ => cost .mse 2 1 [([0], [-1, 3])] (withTheta ls [[[0, 0], [t, 0]], []])) D 0 := d1
    have hD : D = 2 := d1.unique (pooled_slope ls hpred)
    have d2 : (0 - eta * -4 : ℝ) = 0 - eta * D := d2
    rw [hD] at d2
    linarith

/-- **C79 is false** for models with max pooling, because its gradients are wrong (C13): a dense layer
from 1 to 2 values, as constructed, followed by max pooling with windows of one cell (the identity), is
trained on the sample 0 with targets -1 and 3.  The prediction is a smooth function of the parameters and
the sum of the squared errors has a slope, but `fit` increases it for every learning rate. -/
theorem C79_max_pooling_refuted :
    ∃ pool, Slide.PoolLayer.mk' ⟨2, 1, 1⟩ ⟨1, 1⟩ ⟨1, 1⟩ = .ok pool ∧
      let ls : List AnyLayer := [.dense (denseNew 1 2), .maxPool pool]
      let n0 : Net := ⟨(built threeLayers).graph, ls ++ [.loss .mse (Loss.Layer.new 2 1 (1 / 10))]⟩
      single.input 0 = .ok [0] ∧ single.label 0 = .ok [-1, 3] ∧
      (∀ w0 w1 b0 b1 x : ℝ, prediction (withTheta ls [[[w0, w1], [b0, b1]], []]) [x]
        = [b0 + w0 * x, b1 + w1 * x]) ∧
      HasSlope ls (fun θ => cost .mse 2 1 [([0], [-1, 3])] (withTheta ls θ)) (ls.map AnyLayer.params) ∧
      ∀ eta : ℝ, 0 < eta → ∃ n' : Net,
        Training.fit (Opt.gdStep eta) single 1 1 1 ((), n0) = some (.ok ((), n')) ∧
        cost .mse 2 1 [([0], [-1, 3])] ls < cost .mse 2 1 [([0], [-1, 3])] (n'.layers.take 2) := by
  have hp : Slide.PoolLayer.mk' (α := ℝ) ⟨2, 1, 1⟩ ⟨1, 1⟩ ⟨1, 1⟩
      = .ok ⟨⟨2, 1, 1⟩, ⟨2, 1, 1⟩, ⟨1, 1⟩, ⟨1, 1⟩, [0, 0], [0, 0], []⟩ := by rfl
  refine ⟨_, hp, ?_⟩
  intro ls n0
  obtain ⟨s1, s2⟩ := single_sample
  have hpred : ∀ w0 w1 b0 b1 x : ℝ, prediction (withTheta ls [[[w0, w1], [b0, b1]], []]) [x]
      = [b0 + w0 * x, b1 + w1 * x] := fun w0 w1 b0 b1 x => pooled_prediction w0 w1 b0 b1 x 0 0 0 0 _ _ _ _
  refine ⟨s1, s2, hpred, ⟨0, _, 1, 0, 2, rfl, by decide, by decide, pooled_slope ls hpred, by norm_num⟩,
    fun eta he => ?_⟩
  obtain ⟨l2, hfit⟩ := pooled_fit eta
  refine ⟨_, hfit, ?_⟩
  have h0 : prediction ls [0] = [0, 0] := by
    have : prediction ls [0] = [0 + 0 * 0, 0 + 0 * 0] := pooled_prediction 0 0 0 0 0 0 0 0 0 _ _ _ _
    simpa using this
  show _ < cost .mse 2 1 [([0], [-1, 3])] (pooled _ _ _ _ _ _ _ _)
  simp only [cost, objective, List.map_cons, List.map_nil, List.sum_cons, List.sum_nil, h0,
    pooled_prediction]
  rw [Finset.sum_range_succ, Finset.sum_range_one, Finset.sum_range_succ, Finset.sum_range_one]
  have h1 : 1 < |(-1 : ℝ) - eta * 4| := by
    rw [abs_of_neg (by linarith)]
    linarith
  simpa [vec] using h1

end

end Verif.Props
