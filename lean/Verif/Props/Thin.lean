import Verif.Proofs.ThinFnn
import Verif.Props.Backprop

/-! C70, C71 for models with dropout layers. -/

namespace Verif.Props

open Verif Verif.Net Verif.Graph Verif.Spec

noncomputable section

/-- The stand-in of a dropout layer in `Spec.thinned` multiplies each component by its factor. -/
theorem C70_thinned_partial (mx : Nat) (raw : Nat → Nat) (l : Drop.Layer) (t : Nat)
    (h : l.output.length = l.size) (x : List ℝ) (hx : x.length = l.size) :
    prediction (thinned t [.dropout mx raw l]) x = tab l.size fun i => dropFactor mx raw l t i * vec x i :=
  prediction_of (.cons (thin_yields h hx) (.nil _))

/-- **C70** with dropout layers (for models on a path, without the biases of convolutions): calling `step`
on any list of samples of the right sizes succeeds and leaves all parameters as they are, and it adds to
every entry of the gradient buffers of a layer the partial derivative, with respect to the parameter of the
same index, of the sum of the objectives, each of which is the one of the network that the dropout layers
leave for that sample, if the layers above are differentiable at the samples. -/
theorem C70_dropout_partial (ops : List Op) (n0 : Net) (hg : n0.graph = (built ops).graph)
    (p : List Nat) (q : Nat) (hp : IsTrainingPath n0.graph p q) (h2 : 2 ≤ p.length)
    (ls : List AnyLayer) (f : LossFn) (nin m : Nat) (inv : ℝ) (hr : ReadyThin n0 p q ls f nin m inv)
    (samples : List (List ℝ × List ℝ))
    (hs : ∀ i s, samples[i]? = some s → FitSample (thinned i ls) f nin m s.1 s.2) :
    ∃ (n' : Net) (ls' : List AnyLayer), each (fun n s => n.step s.1 s.2) samples n0 = .ok (n', none) ∧
      p.map (fun i => n'.layers[i]?) = ls'.map some ∧
      ls'.map AnyLayer.params = ls.map AnyLayer.params ∧
      ∀ (j : Nat) (l : AnyLayer), ls[j]? = some l → ∃ l', ls'[j]? = some l' ∧
        ∀ b k, Learned l b → b < l.params.length → k < (l.params.getD b []).length →
          (∀ i s, samples[i]? = some s → SmoothFrom (j + 1) (thinned i ls) s.1) →
          HasDerivAt (fun v => thinCost f m inv 0 samples (ls.set j (withParam l b k v)))
            (entry l'.paramGrads b k - entry l.paramGrads b k) (entry l.params b k) := by
  obtain ⟨hok, hl⟩ := path_graph hg hp.path h2
  obtain ⟨n', ks', h1, _, h4, _, h5, _, h6⟩ := steps_thin hok hl hp (by rintro rfl; simp at h2) hr.sizes
    samples 0 n0 ls rfl hr (fun t => by rw [Nat.zero_add]) rfl (fun i s h => by rw [Nat.zero_add]; exact hs i s h)
  simp only [Nat.zero_add] at h6
  refine ⟨n', ks', h1, h4.layers, ?_, fun j l hj => h6 j l l hj hj⟩
  apply List.ext_getElem?
  intro j
  have e := length_of_core h5
  rw [List.getElem?_map, List.getElem?_map]
  by_cases hj : j < ls.length
  · have a1 : ls[j]? = some ls[j] := List.getElem?_eq_getElem hj
    have a2 : ks'[j]? = some (ks'[j]'(by omega)) := List.getElem?_eq_getElem (by omega)
    rw [a1, a2, Option.map_some, Option.map_some, params_of_core (core_get h5 a1 a2)]
  · rw [List.getElem?_eq_none (by omega), List.getElem?_eq_none (by omega)]

/-- The hypotheses of `C70_dropout_partial`: a dense layer with one input and two outputs, any weights
`a`, `b` and biases `c`, `d`, and a dropout layer with probability `1/2` whose generator yields alternately
its smallest and its largest number, trained on two samples. -/
example (a b c d x u v x' u' v' : ℝ) :
    let ls : List AnyLayer :=
      [.dense { denseNew 1 2 with weights := [a, b], biases := [c, d] },
        .dropout 1 (· % 2) (Drop.Layer.new 2 (1 / 2))]
    let n0 : Net := ⟨(built threeLayers).graph, ls ++ [.loss .mse (Loss.Layer.new 2 1 (1 / 10))]⟩
    ReadyThin n0 [0, 1] 2 ls .mse 1 2 1 ∧
    (∀ i s, [([x], [u, v]), ([x'], [u', v'])][i]? = some s → GoodThin i ls .mse 1 2 s.1 s.2) := by
  intro ls n0
  have ht : Trainable 1 2 (thinned 0 ls) := .cons ⟨rfl, rfl, rfl, rfl, rfl⟩ ⟨rfl, rfl, rfl⟩
    (.cons (maps_thin rfl) ⟨by simp [thinDense, Drop.Layer.new, denseNew], by simp [thinDense, Drop.Layer.new, denseNew],
      by simp [thinDense, Drop.Layer.new, denseNew]⟩ (.nil 2))
  refine ⟨⟨rfl, ht, _, rfl, rfl, rfl, by simp [Loss.Layer.new]⟩, ?_⟩
  have hθ : FitsTheta ls (ls.map AnyLayer.params) := by
    unfold FitsTheta
    rw [List.map_map]
    rfl
  intro i s hi
  rw [← withTheta_params ls]
  refine good_thin_always ht ?_ hθ ?_
  · intro i j a c hij ha _ hc
    match j with
    | 0 | 1 => cases hc; trivial
    | j + 2 => cases hc
  · match i with
    | 0 | 1 => cases hi; exact ⟨rfl, ⟨rfl, by omega, by simp⟩, by intro e; cases e⟩
    | i + 2 => cases hi

/-! ### C71 -/

/-- **C71** with dropout layers (for models on a path whose gradient buffers are clear, if along the run
everything above the first layer with parameters is differentiable at the samples; nothing is said about
the biases of convolutions): `fit` with `GradientDescentOptimizer(eta)` succeeds, and the parameters
afterwards are those of gradient descent on the objectives of the batches, where each sample is predicted
by the network that the dropout layers leave in its pass. -/
theorem C71_dropout_partial (ops : List Op) (n0 : Net) (hg : n0.graph = (built ops).graph)
    (hlen : n0.layers.length = n0.graph.layers.length)
    (p : List Nat) (q : Nat) (hp : IsTrainingPath n0.graph p q) (h2 : 2 ≤ p.length)
    (ls : List AnyLayer) (f : LossFn) (nin m : Nat) (inv : ℝ) (hr : ReadyThin n0 p q ls f nin m inv)
    (hc : Clean ls) (eta : ℝ) (d : Data.Dataset ℝ) (b epochs fuel : Nat) (hb : 1 ≤ b)
    (hf : batchCount d.size b ≤ fuel) (s : Nat → List ℝ × List ℝ)
    (hd : ∀ i, i < d.size → d.input i = .ok (s i).1 ∧ d.label i = .ok (s i).2)
    (hs : ∀ pre is θ, pre ++ [is] <+: batches d.size b epochs →
      Descent ls eta (thinCosts f m inv s ls 0 pre) (ls.map AnyLayer.params) θ →
      ∀ i k : Nat, is[i]? = some k →
        GoodThin (pre.flatten.length + i) (withTheta ls θ) f nin m (s k).1 (s k).2) :
    ∃ (n' : Net) (ls' : List AnyLayer), Training.fit (Opt.gdStep eta) d fuel epochs b ((), n0) = some (.ok ((), n')) ∧
      p.map (fun i => n'.layers[i]?) = ls'.map some ∧
      Descent ls eta (thinCosts f m inv s ls 0 (batches d.size b epochs))
        (ls.map AnyLayer.params) (ls'.map AnyLayer.params) := by
  obtain ⟨hok, hl⟩ := path_graph hg hp.path h2
  have h0 : AtThin n0.graph p q ls f nin m inv 0 (ls.map AnyLayer.params) n0 ls := by
    refine ⟨rfl, hlen, hr, hc, ?_, ?_, fun i => ?_⟩
    · unfold FitsTheta
      rw [List.map_map]
      rfl
    · rw [withTheta_params]
    · rw [withTheta_params, Nat.zero_add]
  obtain ⟨n', ks', θ', a1, a2, a3⟩ := fit_thin eta hok hl hp (by rintro rfl; simp at h2) hr.sizes d s
    (batches d.size b epochs) 0 _ n0 ls h0 (fun is his i hi => hd i (mem_batches his i hi))
    (fun pre is θ1 h3 h4 i k hk => by rw [Nat.zero_add]; exact hs pre is θ1 h3 h4 i k hk)
  refine ⟨n', ks', ?_, a2.ready.layers, ?_⟩
  · rw [C37_fit _ d b epochs fuel hb hf, trainCalls_batches, a1]
  · rw [a2.params]
    exact a3

/-- **C71** for feedforward networks with dropout layers: whatever descriptors without pooling and
rectifiers above the first dense or convolution layer are added (windows fit, no empty softmax), for all
parameter values `θ`, all dropout probabilities and random streams, all data sets with rows of the declared
sizes, all batch sizes, epochs and step sizes, `fit` with mean squared errors and
`GradientDescentOptimizer(eta)` succeeds, and the parameters it leaves are those of gradient descent
from `θ`, batch after batch, on the squared errors summed over the batch and divided by the batch size,
where the prediction for a sample is the one of the network that the dropout layers leave in its pass. -/
theorem C71_fnn_dropout_partial (ds : List Descriptor) (f : Fnn) (outcomes : List (Option String))
    (h : Fnn.empty.addAll ds = .ok (f, outcomes)) (hne : accepted ds outcomes ≠ [])
    (hr : ∀ a ∈ f.layers, Regular (thinLayer 0 a))
    (hs : ∀ (i j : Nat) (a c : AnyLayer), i < j → f.layers[i]? = some a →
      a.params ≠ [] → f.layers[j]? = some c → AlwaysSmooth (thinLayer 0 c))
    (θ : Theta) (hθ : FitsTheta f.layers θ) (b : Nat) (hb : 1 ≤ b) (epochs fuel : Nat) (eta : ℝ)
    (d : Data.Dataset ℝ) (hf : batchCount d.size b ≤ fuel) (z : AnyLayer)
    (hz : f.layers.getLast? = some z) (hpos : 0 < z.outputSize) (s : Nat → List ℝ × List ℝ)
    (hd : ∀ i, i < d.size → d.input i = .ok (s i).1 ∧ d.label i = .ok (s i).2 ∧
      (s i).1.length = declaredInput ds ∧ (s i).2.length = z.outputSize) :
    ∃ (f' : Fnn) (n' : Net) (ls' : List AnyLayer), f.addLosses .mse b = .ok (f', none) ∧
      Training.fit (Opt.gdStep eta) d fuel epochs b
        ((), ⟨f'.model.graph, withTheta f.layers θ ++ f'.layers.drop f.layers.length⟩)
        = some (.ok ((), n')) ∧
      n'.layers.take f.layers.length = ls' ∧
      Descent f.layers eta
        (thinCosts .mse z.outputSize (1 / (b : ℝ)) s f.layers 0 (batches d.size b epochs))
        θ (ls'.map AnyLayer.params) := by
  have hbt := built_all h
  have hpos2 : 0 < (accepted ds outcomes).length := List.length_pos_iff.mpr hne
  obtain ⟨j, hj⟩ : ∃ j, 2 * (accepted ds outcomes).length = j + 2 :=
    ⟨_, (Nat.sub_add_cancel (by omega)).symm⟩
  have hg := hbt.graph
  have hlay := hbt.layers
  rw [hj] at hg
  have hlt : j + 1 < f.layers.length := by omega
  have hz' : f.layers[j + 1]? = some z := by
    rw [← hz, List.getLast?_eq_getElem?, hlay, hj]
    rfl
  obtain ⟨m', e1, e2⟩ := addLosses_ok hg hz' .mse b
  rw [← hj] at e2
  have hp := isTrainingPath_of_pathLoss e2
  have hl := lists_of_path e2.some hp.path (by simp; omega)
  have ht := built_thin hbt hr hz
  have h0 := built_atThin hbt hr hz e2 .mse b hb (1 / 10) hθ
  obtain ⟨n', ks', θ', a1, a2, a3⟩ := fit_thin eta e2.ok.ok hl hp (by
    intro e; simp at e; exact hne e) ht d s
    (batches d.size b epochs) 0 θ _ _ h0
    (fun is his i hi => by
      have := hd i (mem_batches his i hi)
      exact ⟨this.1, this.2.1⟩)
    (fun pre is θ1 h3 h4 i k hk => by
      have h5 := hd k (mem_batches (h3.subset (by simp)) k (List.mem_of_getElem? hk))
      have h6 : FitsTheta f.layers θ1 := fits_descent h4 hθ
      exact good_thin_always ht hs h6 ⟨h5.2.2.1, ⟨h5.2.2.2, hpos, by simp⟩, by intro e; cases e⟩)
  refine ⟨_, n', ks', e1, ?_, ?_, ?_⟩
  · rw [C37_fit _ d b epochs fuel hb hf, trainCalls_batches]
    simp only [List.drop_left']
    rw [a1]
  · have := take_of_path a2.ready.layers
    rw [← hlay] at this
    exact this
  · rw [a2.params]
    exact a3

/-- A network for the example: two inputs, a unit with tanh, dropout and a sigmoid. -/
def thinNet (p : ℝ) (mx : Nat) (raw : Nat → Nat) : List Descriptor :=
  [⟨.input [⟨2, 1, 1⟩], .none⟩, ⟨.dense [⟨1, 1, 1⟩], .tanh⟩, ⟨.dropout p mx raw, .sigmoid⟩]

/-- The hypotheses of `C71_fnn_dropout_partial` hold for the network above with any dropout probability,
random stream and parameters, the truth table, batches of three samples and 100 epochs. -/
example (p : ℝ) (mx : Nat) (raw : Nat → Nat) (w b : List ℝ) (h1 : w.length = 2) (h2 : b.length = 1) :
    ∃ f, Fnn.empty.addAll (thinNet p mx raw) = .ok (f, [none, none, none]) ∧
      ∃ (f' : Fnn) (n' : Net), f.addLosses .mse 3 = .ok (f', none) ∧
        Training.fit (Opt.gdStep (1 / 10)) xorData 2 100 3
          ((), ⟨f'.model.graph, withTheta f.layers [[w, b], [], [], []]
            ++ f'.layers.drop f.layers.length⟩) = some (.ok ((), n')) := by
  have key : ∀ i, i < 4 →
      xorData.input i = .ok [([0, 0, 1, 1] : List ℝ).getD i 0, ([0, 1, 0, 1] : List ℝ).getD i 0] ∧
      xorData.label i = .ok [([0, 1, 1, 0] : List ℝ).getD i 0] := by
    intro i hi
    have h0 : Spec.Consistent xorData := Data.consistent_ofVec _ _ _ _
    rw [C43_input h0, C43_label h0, if_pos (show i < xorData.size from hi)]
    match i with
    | 0 | 1 | 2 | 3 => exact ⟨rfl, rfl⟩
    | i + 4 => omega
  refine ⟨_, rfl, ?_⟩
  obtain ⟨f', n', ls', e1, e2, _⟩ := C71_fnn_dropout_partial (thinNet p mx raw) _ _ rfl (by intro e; cases e) (by
    intro a ha
    obtain ⟨i, hi⟩ := List.mem_iff_getElem?.mp ha
    match i with
    | 0 | 1 | 2 | 3 => cases hi; trivial
    | i + 4 => cases hi) (by
    intro _ i _ a _ _ _ hi
    match i with
    | 0 | 1 | 2 | 3 => cases hi; trivial
    | i + 4 => cases hi)
    [[w, b], [], [], []] (by
      unfold FitsTheta
      simp [h1, h2]
      rfl) 3 (by omega) 100 2 (1 / 10) xorData (by decide) _ rfl Nat.one_pos
    (fun i => ([([0, 0, 1, 1] : List ℝ).getD i 0, ([0, 1, 0, 1] : List ℝ).getD i 0], [([0, 1, 1, 0] : List ℝ).getD i 0]))
    (fun i hi => ⟨(key i hi).1, (key i hi).2, rfl, rfl⟩)
  exact ⟨f', n', e1, e2⟩

end

end Verif.Props
