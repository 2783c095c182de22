import Verif.Proofs.BackFnn
import Verif.Props.Net
import Verif.Props.Training
import Verif.Props.Data

/-! C70, C71: training steps compute gradients, `fit` with gradient descent descends. -/

namespace Verif.Props

open Verif Verif.Net Verif.Graph Verif.Spec

noncomputable section

/-! ### C70 -/

theorem path_graph {ops : List Op} {n0 : Net} (hg : n0.graph = (built ops).graph) {p : List Nat}
    (hp : IsPath n0.graph p) (h2 : 2 ≤ p.length) : Ok n0.graph ∧ Lists n0.graph := by
  have hok : MOk (built ops) := mok_run ops mok_empty
  have hs : SomeLists n0.graph := by
    rw [hg]
    exact someLists_run ops mok_empty someLists_empty
  exact ⟨by rw [hg]; exact hok.ok, lists_of_path hs hp h2⟩

theorem withTheta_params : ∀ ls : List AnyLayer, withTheta ls (ls.map AnyLayer.params) = ls := by
  intro ls
  induction ls with
  | nil => rfl
  | cons l ls ih =>
    show l.setParams l.params :: withTheta ls (ls.map AnyLayer.params) = l :: ls
    rw [ih]
    cases l <;> rfl

theorem fits_descent {ls : List AnyLayer} {eta : ℝ} {cs : List (Theta → ℝ)} {θ θ' : Theta}
    (h : Descent ls eta cs θ θ') (hθ : FitsTheta ls θ) : FitsTheta ls θ' := by
  induction h with
  | nil θ => exact hθ
  | cons h1 _ ih => exact ih h1.1

theorem take_of_path {α : Type} {k : Nat} {L ls : List α}
    (h : (List.range k).map (fun i => L[i]?) = ls.map some) : L.take k = ls := by
  apply List.ext_getElem?
  intro i
  have e := congrArg (fun z => z[i]?) h
  simp only [List.getElem?_map] at e
  by_cases hi : i < k
  · rw [List.getElem?_range hi, Option.map_some] at e
    rw [List.getElem?_take_of_lt hi]
    cases hl : ls[i]? with
    | none => rw [hl] at e; cases e
    | some a => rw [hl] at e; simpa using e
  · have := congrArg List.length h
    simp at this
    rw [List.getElem?_eq_none (by simp; omega), List.getElem?_eq_none (by omega)]

/-- What the specification calls the prediction is what `predict` returns. -/
theorem C70_prediction_partial (ops : List Op) (n0 : Net) (hg : n0.graph = (built ops).graph)
    (p : List Nat) (hp : IsPath n0.graph p) (h2 : 2 ≤ p.length) (ls : List AnyLayer)
    (hk : p.map (fun i => n0.layers[i]?) = ls.map some) (x : List ℝ) (m : Nat)
    (ht : Trainable x.length m ls) :
    ∃ n', n0.predict x = .ok (n', .ok (prediction ls x)) ∧ (prediction ls x).length = m := by
  obtain ⟨y, hy1, hy2⟩ := yieldsAll_of_maps (mapsAll_of_trainable ht) rfl
  obtain ⟨hok, hl⟩ := path_graph hg hp h2
  obtain ⟨n', e⟩ := predict_path hok hl (run_same [] rfl) hp (by rintro rfl; simp at h2) hk hy2
  rw [prediction_of hy2]
  exact ⟨n', e, hy1⟩

/-- **C70** (for models on a path of dense, convolution, pooling and activation layers, without the biases
of convolutions): calling `step` on any list of samples of the right sizes succeeds and leaves all
parameters as they are, and it adds to every entry of the gradient buffers of a layer the partial
derivative of the summed objective with respect to the parameter of the same index if the layers above
are differentiable at the samples. -/
theorem C70_gradients_partial (ops : List Op) (n0 : Net) (hg : n0.graph = (built ops).graph)
    (p : List Nat) (q : Nat) (hp : IsTrainingPath n0.graph p q) (h2 : 2 ≤ p.length)
    (ls : List AnyLayer) (f : LossFn) (nin m : Nat) (inv : ℝ) (hr : Ready n0 p q ls f nin m inv)
    (samples : List (List ℝ × List ℝ)) (hs : ∀ s ∈ samples, FitSample ls f nin m s.1 s.2) :
    ∃ (n' : Net) (ls' : List AnyLayer), each (fun n s => n.step s.1 s.2) samples n0 = .ok (n', none) ∧
      p.map (fun i => n'.layers[i]?) = ls'.map some ∧
      ls'.map AnyLayer.params = ls.map AnyLayer.params ∧
      ∀ (j : Nat) (l : AnyLayer), ls[j]? = some l → ∃ l', ls'[j]? = some l' ∧
        ∀ b k, Learned l b → b < l.params.length → k < (l.params.getD b []).length →
          (∀ s ∈ samples, SmoothFrom (j + 1) ls s.1) →
          HasDerivAt (fun v => cost f m inv samples (ls.set j (withParam l b k v)))
            (entry l'.paramGrads b k - entry l.paramGrads b k) (entry l.params b k) := by
  obtain ⟨hok, hl⟩ := path_graph hg hp.path h2
  obtain ⟨n', ks', h1, h3, h4, h5, _, h6⟩ := steps_path hok hl hp (by rintro rfl; simp at h2) hr.sizes
    samples n0 ls rfl hr rfl hs
  refine ⟨n', ks', h1, h4.layers, ?_, fun j l hj => h6 j l l hj hj⟩
  apply List.ext_getElem?
  intro j
  have e := length_of_core h5
  rw [List.getElem?_map, List.getElem?_map]
  by_cases hj : j < ls.length
  · have a1 : ls[j]? = some ls[j] := List.getElem?_eq_getElem hj
    have a2 : ks'[j]? = some (ks'[j]'(by omega)) := List.getElem?_eq_getElem (by omega)
    rw [a1, a2, Option.map_some, Option.map_some, params_of_core (core_get h5 a1 a2)]
  · rw [List.getElem?_eq_none (by omega), List.getElem?_eq_none (by omega)]

/-- Two layers and a loss layer, connected. -/
def threeLayers : List Op :=
  [.addLayer, .addLayer, .edge ⟨0, false⟩ ⟨1, false⟩, .addLoss, .lossEdge ⟨1, false⟩ ⟨2, true⟩]

theorem three_path : IsTrainingPath (built threeLayers).graph [0, 1] 2 := by
  have h1 : (built threeLayers).graph.layers.length = 3 := rfl
  have h2 : (built threeLayers).graph.loss = [2] := rfl
  have h3 : (built threeLayers).graph.forward = [(0, [1])] := rfl
  have h4 : (built threeLayers).graph.training = [(0, [1]), (1, [2])] := rfl
  have h5 : (built threeLayers).graph.backward = [(1, [0]), (2, [1])] := rfl
  refine ⟨⟨by simp, fun i => ?_, fun x y => ?_⟩, h2, fun x y => ?_, fun x y => ?_⟩
  · rw [h1, h2]; simp; omega
  · rw [h3]
    by_cases hx : 0 = x
    · subst hx; simp [successors]
    · have h' : (0 == x) = false := by simpa using hx
      simp [successors, h']
      omega
  · rw [h4]
    match x with
    | 0 | 1 => simp [successors]
    | x + 2 => simp [successors]
  · rw [h5]
    match x with
    | 0 => simp [successors]
    | 1 | 2 => simp [successors]
    | x + 3 => simp [successors]

/-- The hypotheses of `C70_gradients_partial`: a dense layer with one input and two outputs, any weights
`a`, `b` and biases `c`, `d`, and a rectifier, at an input `x` where neither `a x + c` nor `b x + d` is
zero. -/
example (a b c d x u v : ℝ) (h1 : c + a * x ≠ 0) (h2 : d + b * x ≠ 0) :
    let ls : List AnyLayer :=
      [.dense { denseNew 1 2 with weights := [a, b], biases := [c, d] }, .act .relu (Act.Layer.new 2)]
    let n0 : Net := ⟨(built threeLayers).graph, ls ++ [.loss .mse (Loss.Layer.new 2 1 (1 / 10))]⟩
    Ready n0 [0, 1] 2 ls .mse 1 2 1 ∧ GoodSample ls .mse 1 2 [x] [u, v] := by
  intro ls n0
  refine ⟨⟨rfl, ?_, _, rfl, rfl, rfl, by simp [Loss.Layer.new]⟩, goodSample_of_all
    ⟨rfl, ⟨rfl, by omega, by simp⟩, by intro e; cases e⟩ ?_⟩
  · exact .cons ⟨rfl, rfl, rfl, rfl, rfl⟩ ⟨rfl, rfl, rfl⟩ (.cons ⟨rfl, rfl⟩ rfl (.nil 2))
  · refine .cons trivial (l' := .dense { denseNew 1 2 with
      weights := [a, b], biases := [c, d], output := [c + a * x, d + b * x] })
      (z := [c + a * x, d + b * x]) ?_ rfl ?_
    · simp [AnyLayer.forward, Dense.Layer.forward, Dense.dense, denseNew, forUp, forFrom, rd, wr, keep,
        Exec.bind_ok]
    · refine .cons (l' := .act .relu ⟨[Act.relu (c + a * x), Act.relu (d + b * x)], [0, 0]⟩) ?_ ?_ rfl (.nil _)
      · intro w hw
        rcases List.mem_pair.mp hw with rfl | rfl
        · exact h1
        · exact h2
      · rfl

/-- The same with max pooling: a dense layer with one input and two outputs and max pooling with one window
of two cells, at an input `x` where the cells have different values. -/
example (a b c d x u : ℝ) (h : c + a * x ≠ d + b * x) :
    let ls : List AnyLayer :=
      [.dense { denseNew 1 2 with weights := [a, b], biases := [c, d] },
        .maxPool ⟨⟨1, 2, 1⟩, ⟨1, 1, 1⟩, ⟨1, 2⟩, ⟨1, 2⟩, [0, 0], [0], []⟩]
    let n0 : Net := ⟨(built threeLayers).graph, ls ++ [.loss .mse (Loss.Layer.new 1 1 (1 / 10))]⟩
    Ready n0 [0, 1] 2 ls .mse 1 1 1 ∧ FitSample ls .mse 1 1 [x] [u] ∧ SmoothFrom 1 ls [x] := by
  intro ls n0
  have hfit : (⟨⟨1, 2, 1⟩, 1, 2, 1, 2, 0, 0⟩ : Geom).Fits := by
    constructor <;> first | decide | trivial
  have hm : Maps 2 1 (.maxPool ⟨⟨1, 2, 1⟩, ⟨1, 1, 1⟩, ⟨1, 2⟩, ⟨1, 2⟩, [0, 0], [0], []⟩) :=
    ⟨⟨⟨1, 2, 1⟩, 1, 2, 1, 2, 0, 0⟩, hfit, ⟨rfl, rfl⟩, rfl, rfl, rfl, rfl, rfl, rfl⟩
  refine ⟨⟨rfl, ?_, _, rfl, rfl, rfl, by simp [Loss.Layer.new]⟩,
    ⟨rfl, ⟨rfl, by omega, by simp⟩, by intro e; cases e⟩, ?_⟩
  · exact .cons ⟨rfl, rfl, rfl, rfl, rfl⟩ ⟨rfl, rfl, rfl⟩ (.cons hm rfl (.nil 1))
  · show SmoothAll [_] [c + a * x, d + b * x]
    obtain ⟨y, _, hy⟩ := yields_of_maps hm (x := [c + a * x, d + b * x]) rfl
    obtain ⟨l', e1, e2⟩ := hy _ rfl
    refine .cons ?_ e1 e2 (.nil _)
    intro r k ch hr hk hch
    obtain rfl : r = 0 := by have : r < 1 := hr; omega
    obtain rfl : k = 0 := by have : k < 1 := hk; omega
    obtain rfl : ch = 0 := by have : ch < 1 := hch; omega
    rcases lt_or_gt_of_ne h with h | h
    · refine ⟨0, 1, by decide, by decide, .inl (by decide), ?_⟩
      intro a' b' ha' hb' hne
      obtain rfl : a' = 0 := by have : a' < 1 := ha'; omega
      obtain rfl : b' = 0 := by have : b' < 2 := hb'; omega
      exact h
    · refine ⟨0, 0, by decide, by decide, .inr (by decide), ?_⟩
      intro a' b' ha' hb' hne
      obtain rfl : a' = 0 := by have : a' < 1 := ha'; omega
      obtain rfl : b' = 1 := by have : b' < 2 := hb'; omega
      exact h

/-! ### C71 -/

theorem mem_batches {n b epochs : Nat} {is : List Nat} (h : is ∈ batches n b epochs) :
    ∀ i ∈ is, i < n := by
  intro i hi
  unfold batches at h
  obtain ⟨l, h1, h2⟩ := List.mem_flatten.mp h
  rw [List.eq_of_mem_replicate h1] at h2
  obtain ⟨k, _, rfl⟩ := List.mem_map.mp h2
  unfold batchSamples at hi
  exact List.mem_range.mp (List.mem_of_mem_drop (List.mem_of_mem_take hi))

/-- **C71** (for models on a path of dense, convolution, pooling and activation layers whose gradient buffers
are clear, if along the run everything above the first layer with parameters is differentiable at the
samples; nothing is said about the biases of convolutions): `fit` with `GradientDescentOptimizer(eta)` succeeds, and the parameters afterwards are
those of gradient descent on the objectives of the batches. -/
theorem C71_fit_partial (ops : List Op) (n0 : Net) (hg : n0.graph = (built ops).graph)
    (hlen : n0.layers.length = n0.graph.layers.length)
    (p : List Nat) (q : Nat) (hp : IsTrainingPath n0.graph p q) (h2 : 2 ≤ p.length)
    (ls : List AnyLayer) (f : LossFn) (nin m : Nat) (inv : ℝ) (hr : Ready n0 p q ls f nin m inv)
    (hc : Clean ls) (eta : ℝ) (d : Data.Dataset ℝ) (b epochs fuel : Nat) (hb : 1 ≤ b)
    (hf : batchCount d.size b ≤ fuel) (s : Nat → List ℝ × List ℝ)
    (hd : ∀ i, i < d.size → d.input i = .ok (s i).1 ∧ d.label i = .ok (s i).2)
    (hs : ∀ pre θ, pre <+: batches d.size b epochs →
      Descent ls eta (pre.map fun is θ => cost f m inv (is.map s) (withTheta ls θ))
        (ls.map AnyLayer.params) θ →
      ∀ i, i < d.size → GoodSample (withTheta ls θ) f nin m (s i).1 (s i).2) :
    ∃ (n' : Net) (ls' : List AnyLayer), Training.fit (Opt.gdStep eta) d fuel epochs b ((), n0) = some (.ok ((), n')) ∧
      p.map (fun i => n'.layers[i]?) = ls'.map some ∧
      Descent ls eta
        ((batches d.size b epochs).map fun is θ => cost f m inv (is.map s) (withTheta ls θ))
        (ls.map AnyLayer.params) (ls'.map AnyLayer.params) := by
  obtain ⟨hok, hl⟩ := path_graph hg hp.path h2
  have h0 : AtTheta n0.graph p q ls f nin m inv (ls.map AnyLayer.params) n0 ls := by
    refine ⟨rfl, hlen, hr, hc, ?_, ?_⟩
    · unfold FitsTheta
      rw [List.map_map]
      rfl
    · rw [withTheta_params]
  obtain ⟨n', ks', θ', a1, a2, a3⟩ := fit_path eta hok hl hp (by rintro rfl; simp at h2) hr.sizes d s
    (batches d.size b epochs) _ n0 ls h0 (fun is his i hi => hd i (mem_batches his i hi))
    (fun pre θ1 h3 h4 is his i hi => hs pre θ1 h3 h4 i (mem_batches his i hi))
  refine ⟨n', ks', ?_, a2.ready.layers, ?_⟩
  · rw [C37_fit _ d b epochs fuel hb hf, trainCalls_batches, a1]
  · rw [a2.params]
    exact a3

/-- **C71** for feedforward networks: whatever descriptors without dropout, and without pooling and
rectifiers above the first dense or convolution layer, are added (windows fit, no empty softmax), for all parameter values `θ`, all data sets with rows of the
declared sizes, all batch sizes, epochs and step sizes, `fit` with mean squared errors and
`GradientDescentOptimizer(eta)` succeeds, and the parameters it leaves are those of gradient descent
from `θ`, batch after batch, on the squared errors of the network's predictions summed over the batch
and divided by the batch size; the network predicts with these parameters. -/
theorem C71_fnn_partial (ds : List Descriptor) (f : Fnn) (outcomes : List (Option String))
    (h : Fnn.empty.addAll ds = .ok (f, outcomes)) (hne : accepted ds outcomes ≠ [])
    (hr : ∀ a ∈ f.layers, Regular a) (hs : ∀ (i j : Nat) (a c : AnyLayer), i < j → f.layers[i]? = some a →
      a.params ≠ [] → f.layers[j]? = some c → AlwaysSmooth c)
    (θ : Theta) (hθ : FitsTheta f.layers θ) (b : Nat) (hb : 1 ≤ b) (epochs fuel : Nat) (eta : ℝ)
    (d : Data.Dataset ℝ) (hf : batchCount d.size b ≤ fuel) (z : AnyLayer)
    (hz : f.layers.getLast? = some z) (hpos : 0 < z.outputSize) (s : Nat → List ℝ × List ℝ)
    (hd : ∀ i, i < d.size → d.input i = .ok (s i).1 ∧ d.label i = .ok (s i).2 ∧
      (s i).1.length = declaredInput ds ∧ (s i).2.length = z.outputSize) :
    ∃ (f' : Fnn) (n' : Net) (ls' : List AnyLayer), f.addLosses .mse b = .ok (f', none) ∧
      Training.fit (Opt.gdStep eta) d fuel epochs b
        ((), ⟨f'.model.graph, withTheta f.layers θ ++ f'.layers.drop f.layers.length⟩)
        = some (.ok ((), n')) ∧
      n'.layers.take f.layers.length = ls' ∧
      Descent f.layers eta ((batches d.size b epochs).map fun is θ =>
          (is.map fun i => 1 / (b : ℝ) * ∑ k ∈ Finset.range z.outputSize,
            (vec (s i).2 k - vec (prediction (withTheta f.layers θ) (s i).1) k) ^ 2).sum)
        θ (ls'.map AnyLayer.params) ∧
      ∀ x, x.length = declaredInput ds →
        prediction ls' x = prediction (withTheta f.layers (ls'.map AnyLayer.params)) x := by
  have hbt := built_all h
  have hpos2 : 0 < (accepted ds outcomes).length := List.length_pos_iff.mpr hne
  obtain ⟨j, hj⟩ : ∃ j, 2 * (accepted ds outcomes).length = j + 2 :=
    ⟨_, (Nat.sub_add_cancel (by omega)).symm⟩
  have hg := hbt.graph
  have hlay := hbt.layers
  rw [hj] at hg
  have hlt : j + 1 < f.layers.length := by omega
  have hz' : f.layers[j + 1]? = some z := by
    rw [← hz, List.getLast?_eq_getElem?, hlay, hj]
    rfl
  obtain ⟨m', e1, e2⟩ := addLosses_ok hg hz' .mse b
  rw [← hj] at e2
  have hp := isTrainingPath_of_pathLoss e2
  have hl := lists_of_path e2.some hp.path (by simp; omega)
  have ht := built_trainable hbt hne hr hz
  have h0 := built_atTheta hbt hne hr hz e2 .mse b hb (1 / 10) hθ
  obtain ⟨n', ks', θ', a1, a2, a3⟩ := fit_path eta e2.ok.ok hl hp (by
    intro e; simp at e; exact hne e) ht d s
    (batches d.size b epochs) θ _ _ h0
    (fun is his i hi => by
      have := hd i (mem_batches his i hi)
      exact ⟨this.1, this.2.1⟩)
    (fun pre θ1 h3 h4 is his i hi => by
      have h5 := hd i (mem_batches his i hi)
      have h6 : FitsTheta f.layers θ1 := fits_descent h4 hθ
      exact good_always ht hs h6 ⟨h5.2.2.1, ⟨h5.2.2.2, hpos, by simp⟩, by intro e; cases e⟩)
  refine ⟨_, n', ks', e1, ?_, ?_, ?_, ?_⟩
  · rw [C37_fit _ d b epochs fuel hb hf, trainCalls_batches]
    simp only [List.drop_left']
    rw [a1]
  · have := take_of_path a2.ready.layers
    rw [← hlay] at this
    exact this
  · rw [a2.params]
    convert a3 using 5
    rw [cost, List.map_map]
    rfl
  · intro x hx
    obtain ⟨y, hy⟩ := yieldsAll_of_trainable a2.ready.sizes hx
    rw [a2.params]
    exact (prediction_core a2.core.symm hy).symm

/-- A network for the example: two inputs, three hidden units with tanh, a sigmoid output. -/
def tanhNet : List Descriptor :=
  [⟨.input [⟨2, 1, 1⟩], .none⟩, ⟨.dense [⟨3, 1, 1⟩], .tanh⟩, ⟨.dense [⟨1, 1, 1⟩], .sigmoid⟩]

/-- The truth table of exclusive or, the third column is the label. -/
def xorData : Data.Dataset ℝ := Data.ofVec [0, 0, 0, 0, 1, 1, 1, 0, 1, 1, 1, 0] 3 1 {2}

/-- The hypotheses of `C71_fnn_partial` hold for the network above with any parameters, the truth table,
batches of three samples and 100 epochs. -/
example (w1 w2 b1 b2 : List ℝ) (h1 : w1.length = 6) (h2 : b1.length = 3) (h3 : w2.length = 3)
    (h4 : b2.length = 1) : ∃ f, Fnn.empty.addAll tanhNet = .ok (f, [none, none, none]) ∧
      ∃ (f' : Fnn) (n' : Net), f.addLosses .mse 3 = .ok (f', none) ∧
        Training.fit (Opt.gdStep (1 / 10)) xorData 2 100 3
          ((), ⟨f'.model.graph, withTheta f.layers [[w1, b1], [], [w2, b2], []]
            ++ f'.layers.drop f.layers.length⟩) = some (.ok ((), n')) ∧
        (∀ i, i < 4 → xorData.input i = .ok [([0, 0, 1, 1] : List ℝ).getD i 0, ([0, 1, 0, 1] : List ℝ).getD i 0]) := by
  have key : ∀ i, i < 4 →
      xorData.input i = .ok [([0, 0, 1, 1] : List ℝ).getD i 0, ([0, 1, 0, 1] : List ℝ).getD i 0] ∧
      xorData.label i = .ok [([0, 1, 1, 0] : List ℝ).getD i 0] := by
    intro i hi
    have h0 : Spec.Consistent xorData := Data.consistent_ofVec _ _ _ _
    rw [C43_input h0, C43_label h0, if_pos (show i < xorData.size from hi)]
    match i with
    | 0 | 1 | 2 | 3 => exact ⟨rfl, rfl⟩
    | i + 4 => omega
  refine ⟨_, rfl, ?_⟩
  obtain ⟨f', n', ls', e1, e2, _⟩ := C71_fnn_partial tanhNet _ _ rfl (by intro e; cases e) (by
    intro a ha
    obtain ⟨i, hi⟩ := List.mem_iff_getElem?.mp ha
    match i with
    | 0 | 1 | 2 | 3 => cases hi; trivial
    | i + 4 => cases hi) (by
    intro _ i _ a _ _ _ hi
    match i with
    | 0 | 1 | 2 | 3 => cases hi; trivial
    | i + 4 => cases hi)
    [[w1, b1], [], [w2, b2], []] (by
      unfold FitsTheta
      simp [h1, h2, h3, h4]
      rfl) 3 (by omega) 100 2 (1 / 10) xorData (by decide) _ rfl (by decide)
    (fun i => ([([0, 0, 1, 1] : List ℝ).getD i 0, ([0, 1, 0, 1] : List ℝ).getD i 0], [([0, 1, 1, 0] : List ℝ).getD i 0]))
    (fun i hi => ⟨(key i hi).1, (key i hi).2, rfl, rfl⟩)
  exact ⟨f', n', e1, e2, fun i hi => (key i hi).1⟩

end

end Verif.Props
