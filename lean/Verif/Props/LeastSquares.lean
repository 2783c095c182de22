import Verif.Proofs.LeastSquares
import Verif.Props.Descent

/-! C94: fitting a linear network finds the least squares fit. -/

namespace Verif.Props

open Verif Verif.Net Verif.Graph Verif.Spec Filter Topology

noncomputable section

/-- The network with one dense layer and no activation function. -/
theorem linear_built (n m : Nat) : ∃ f : Fnn, Fnn.empty.addAll (linearNet n m) = .ok (f, [none, none]) ∧
    f.layers = linearLayers n m := by
  refine ⟨_, rfl, ?_⟩
  show [AnyLayer.dense (denseNew (Shape3.size ⟨n, 1, 1⟩) (Shape3.size ⟨m, 1, 1⟩)),
    .act .linear (Act.Layer.new (Shape3.size ⟨Shape3.size ⟨m, 1, 1⟩, 1, 1⟩))] = _
  simp only [Shape3.size, Nat.mul_one]

/-- What a run of `fit` leaves, in terms of weights and biases. -/
theorem linear_fit (n m : Nat) (hm : 0 < m) (f : Fnn)
    (hf0 : Fnn.empty.addAll (linearNet n m) = .ok (f, [none, none])) (hl : f.layers = linearLayers n m)
    (d : Data.Dataset ℝ) (s : Nat → List ℝ × List ℝ)
    (hd : ∀ i, i < d.size → d.input i = .ok (s i).1 ∧ d.label i = .ok (s i).2 ∧
      (s i).1.length = n ∧ (s i).2.length = m)
    (b fuel epochs : Nat) (hn : 1 ≤ d.size) (hb : d.size ≤ b) (hf : 1 ≤ fuel) (eta : ℝ)
    (w c : List ℝ) (hw : w.length = m * n) (hc : c.length = m) :
    ∃ (f' : Fnn) (n' : Net) (θ : Theta), f.addLosses .mse b = .ok (f', none) ∧
      Training.fit (Opt.gdStep eta) d fuel epochs b
        ((), ⟨f'.model.graph, withTheta f.layers [[w, c], []] ++ f'.layers.drop f.layers.length⟩)
        = some (.ok ((), n')) ∧
      Descent (linearLayers n m) eta (List.replicate epochs (fullCost n m d.size b s)) [[w, c], []] θ ∧
      ∀ w' c', θ = [[w', c'], []] → w'.length = m * n → c'.length = m →
        squaredErrors m ((List.range d.size).map s) (n'.layers.take 2) = fitError n m d.size s w' c' := by
  have hdi : declaredInput (linearNet n m) = n := by
    show Shape3.size _ = n
    simp only [Shape3.size, Nat.mul_one]
  have hz : f.layers.getLast? = some (.act .linear (Act.Layer.new m)) := by rw [hl]; rfl
  have hos : (AnyLayer.act .linear (Act.Layer.new m)).outputSize = m := by
    simp [AnyLayer.outputSize, Act.Layer.new]
  have hbc : batchCount d.size b ≤ fuel := by
    have : batchCount d.size b = 1 := by
      unfold batchCount
      rw [Nat.div_eq_iff (by omega)]
      omega
    omega
  obtain ⟨f', n', ls', e1, e2, e3, e4, e5⟩ := C71_fnn_partial (linearNet n m) f _ hf0 (by intro h; cases h) (by
      rw [hl]
      intro a ha
      simp only [linearLayers, List.mem_cons, List.not_mem_nil, or_false] at ha
      rcases ha with rfl | rfl <;> trivial) (by
      rw [hl]
      intro i j a c _ _ _ h
      obtain h := List.mem_of_getElem? h
      simp only [linearLayers, List.mem_cons, List.not_mem_nil, or_false] at h
      rcases h with rfl | rfl <;> trivial) [[w, c], []] (by rw [hl]; exact fits_linear hw hc) b (by omega) epochs fuel
    eta d hbc _ hz (by rw [hos]; exact hm) s (by rw [hdi, hos]; exact hd)
  refine ⟨f', n', ls'.map AnyLayer.params, e1, e2, ?_, ?_⟩
  · rw [batches_full _ _ _ hn hb, List.map_replicate, hl, hos] at e4
    exact e4
  · intro w' c' h1 h2 h3
    rw [hl] at e3
    rw [show (2 : Nat) = (linearLayers n m).length from rfl, e3]
    unfold squaredErrors fitError
    rw [List.map_map, Nn.sum_range_map]
    refine Finset.sum_congr rfl fun i hi => Finset.sum_congr rfl fun k hk => ?_
    have hi' := hd i (Finset.mem_range.mp hi)
    rw [e5 (s i).1 (by rw [hdi]; exact hi'.2.2.1), hl, h1,
      linear_prediction h2 h3 hi'.2.2.1 (Finset.mem_range.mp hk)]

/-- **C94**: for every linear network (a dense layer with `n` inputs and `m` outputs, no activation function), every
data set with rows of these sizes, all initial weights `w` and biases `c`, every batch size that holds the
data set and every learning rate `eta > 0` with `2 * eta * inputSize ≤ batch size`: after `fit` with mean squared
errors and `GradientDescentOptimizer(eta)` the sum of the squared errors of the predictions is, for all weights `u`
and biases `v`, at most that of `u` and `v` plus `b / (2 * eta * epochs)` times the squared distance of `u`, `v`
from `w`, `c`. -/
theorem C94_rate (n m : Nat) (hm : 0 < m) (d : Data.Dataset ℝ) (s : Nat → List ℝ × List ℝ)
    (hd : ∀ i, i < d.size → d.input i = .ok (s i).1 ∧ d.label i = .ok (s i).2 ∧
      (s i).1.length = n ∧ (s i).2.length = m)
    (b fuel epochs : Nat) (hn : 1 ≤ d.size) (hb : d.size ≤ b) (hf : 1 ≤ fuel) (hep : 1 ≤ epochs) (eta : ℝ)
    (he : 0 < eta) (hsz : 2 * eta * inputSize n d.size s ≤ b)
    (w c : List ℝ) (hw : w.length = m * n) (hc : c.length = m) :
    ∃ (f f' : Fnn) (n' : Net), Fnn.empty.addAll (linearNet n m) = .ok (f, [none, none]) ∧
      f.addLosses .mse b = .ok (f', none) ∧
      Training.fit (Opt.gdStep eta) d fuel epochs b
        ((), ⟨f'.model.graph, withTheta f.layers [[w, c], []] ++ f'.layers.drop f.layers.length⟩)
        = some (.ok ((), n')) ∧
      ∀ u v : List ℝ, squaredErrors m ((List.range d.size).map s) (n'.layers.take 2)
        ≤ fitError n m d.size s u v + b / (2 * eta * epochs) * (sqDist (m * n) w u + sqDist m c v) := by
  obtain ⟨f, hf0, hl⟩ := linear_built n m
  obtain ⟨f', n', θ, e1, e2, e3, e4⟩ := linear_fit n m hm f hf0 hl d s hd b fuel epochs hn hb hf eta w c hw hc
  refine ⟨f, f', n', hf0, e1, e2, fun u v => ?_⟩
  have hb0 : (0 : ℝ) < b := by exact_mod_cast (by omega : 0 < b)
  obtain ⟨w', c', h1, h2, h3, h4⟩ := descent_le (fun i hi => (hd i hi).2.2.1) hb0 he hsz hep hw hc e3 u v
  rw [e4 w' c' h1 h2 h3]
  exact h4

/-- **C94**: under the same conditions the sum of the squared errors tends to the infimum over all weights and
biases as the number of epochs grows. -/
theorem C94_limit (n m : Nat) (hm : 0 < m) (d : Data.Dataset ℝ) (s : Nat → List ℝ × List ℝ)
    (hd : ∀ i, i < d.size → d.input i = .ok (s i).1 ∧ d.label i = .ok (s i).2 ∧
      (s i).1.length = n ∧ (s i).2.length = m)
    (b fuel : Nat) (hn : 1 ≤ d.size) (hb : d.size ≤ b) (hf : 1 ≤ fuel) (eta : ℝ)
    (he : 0 < eta) (hsz : 2 * eta * inputSize n d.size s ≤ b)
    (w c : List ℝ) (hw : w.length = m * n) (hc : c.length = m) :
    ∃ (f f' : Fnn) (n' : Nat → Net), Fnn.empty.addAll (linearNet n m) = .ok (f, [none, none]) ∧
      f.addLosses .mse b = .ok (f', none) ∧
      (∀ epochs, Training.fit (Opt.gdStep eta) d fuel epochs b
        ((), ⟨f'.model.graph, withTheta f.layers [[w, c], []] ++ f'.layers.drop f.layers.length⟩)
        = some (.ok ((), n' epochs))) ∧
      Tendsto (fun epochs => squaredErrors m ((List.range d.size).map s) ((n' epochs).layers.take 2)) atTop
        (𝓝 (sInf {e | ∃ u v : List ℝ, u.length = m * n ∧ v.length = m ∧ e = fitError n m d.size s u v})) := by
  obtain ⟨f, hf0, hl⟩ := linear_built n m
  have hfit := fun epochs => linear_fit n m hm f hf0 hl d s hd b fuel epochs hn hb hf eta w c hw hc
  obtain ⟨f', _, _, e1, _⟩ := hfit 0
  have hfit' : ∀ epochs, ∃ (n' : Net) (θ : Theta), Training.fit (Opt.gdStep eta) d fuel epochs b
        ((), ⟨f'.model.graph, withTheta f.layers [[w, c], []] ++ f'.layers.drop f.layers.length⟩)
        = some (.ok ((), n')) ∧
      Descent (linearLayers n m) eta (List.replicate epochs (fullCost n m d.size b s)) [[w, c], []] θ ∧
      ∀ w' c', θ = [[w', c'], []] → w'.length = m * n → c'.length = m →
        squaredErrors m ((List.range d.size).map s) (n'.layers.take 2) = fitError n m d.size s w' c' := by
    intro epochs
    obtain ⟨f'', n', θ, a1, a2⟩ := hfit epochs
    rw [e1] at a1
    cases a1
    exact ⟨n', θ, a2⟩
  choose n' θ h1 h2 h3 using hfit'
  refine ⟨f, f', n', hf0, e1, h1, ?_⟩
  have hb0 : (0 : ℝ) < b := by exact_mod_cast (by omega : 0 < b)
  set S := {e | ∃ u v : List ℝ, u.length = m * n ∧ v.length = m ∧ e = fitError n m d.size s u v} with hS
  have hbd : BddBelow S := ⟨0, by
    rintro e ⟨u, v, _, _, rfl⟩
    exact Finset.sum_nonneg fun _ _ => Finset.sum_nonneg fun _ _ => sq_nonneg _⟩
  have hlow : ∀ epochs, sInf S ≤ squaredErrors m ((List.range d.size).map s) ((n' epochs).layers.take 2) := by
    intro epochs
    obtain ⟨w', c', _, a1, a2, a3, _⟩ := descent_coef (fun i hi => (hd i hi).2.2.1) epochs hw hc (h2 epochs)
    rw [h3 epochs w' c' a1 a2 a3]
    exact csInf_le hbd ⟨w', c', a2, a3, rfl⟩
  rw [Metric.tendsto_atTop]
  intro ε hε
  obtain ⟨e, ⟨u, v, _, _, rfl⟩, hlt⟩ := exists_lt_of_csInf_lt (s := S) ⟨_, w, c, hw, hc, rfl⟩
    (show sInf S < sInf S + ε / 2 by linarith)
  set R := b / (2 * eta) * (sqDist (m * n) w u + sqDist m c v) with hR
  obtain ⟨E, hE⟩ := exists_nat_gt (R / (ε / 2))
  refine ⟨max E 1, fun epochs hep => ?_⟩
  have hep1 : 1 ≤ epochs := le_trans (le_max_right _ _) hep
  have hepE : (E : ℝ) ≤ epochs := by exact_mod_cast le_trans (le_max_left _ _) hep
  have hpos : (0 : ℝ) < epochs := by exact_mod_cast hep1
  obtain ⟨w', c', a1, a2, a3, a4⟩ := descent_le (fun i hi => (hd i hi).2.2.1) hb0 he hsz hep1 hw hc (h2 epochs) u v
  rw [← h3 epochs w' c' a1 a2 a3] at a4
  have hr : b / (2 * eta * epochs) * (sqDist (m * n) w u + sqDist m c v) < ε / 2 := by
    have : b / (2 * eta * epochs) * (sqDist (m * n) w u + sqDist m c v) = R / epochs := by
      rw [hR]
      field_simp
    rw [this, div_lt_iff₀ hpos]
    rw [div_lt_iff₀ (by linarith)] at hE
    nlinarith
  rw [Real.dist_eq, abs_of_nonneg (by linarith [hlow epochs])]
  linarith

/-- The hypotheses of `C94_rate` hold for two points, batches of two samples and a learning rate bounded by the
points: after `epochs` epochs the squared error exceeds that of any line `v + u x` by at most
`((w - u)² + (c - v)²) / (eta * epochs)`. -/
example (w c x y x' y' eta : ℝ) (he : 0 < eta) (h : eta * (x ^ 2 + 1 + (x' ^ 2 + 1)) ≤ 1) (epochs : Nat)
    (hep : 1 ≤ epochs) : ∃ (f f' : Fnn) (n' : Net), Fnn.empty.addAll (linearNet 1 1) = .ok (f, [none, none]) ∧
      f.addLosses .mse 2 = .ok (f', none) ∧
      Training.fit (Opt.gdStep eta) (lineData x y x' y') 1 epochs 2
        ((), ⟨f'.model.graph, withTheta f.layers [[[w], [c]], []] ++ f'.layers.drop f.layers.length⟩)
        = some (.ok ((), n')) ∧
      ∀ u v : ℝ, squaredErrors 1 [([x], [y]), ([x'], [y'])] (n'.layers.take 2)
        ≤ (y - (v + u * x)) ^ 2 + (y' - (v + u * x')) ^ 2 + ((w - u) ^ 2 + (c - v) ^ 2) / (eta * epochs) := by
  have key : ∀ i, i < 2 → (lineData x y x' y').input i = .ok [([x, x'] : List ℝ).getD i 0] ∧
      (lineData x y x' y').label i = .ok [([y, y'] : List ℝ).getD i 0] := by
    intro i hi
    have h0 : Spec.Consistent (lineData x y x' y') := Data.consistent_ofVec _ _ _ _
    rw [C43_input h0, C43_label h0, line_size, if_pos hi, if_pos hi, line_eq]
    match i with
    | 0 | 1 => exact ⟨rfl, rfl⟩
    | i + 2 => omega
  obtain ⟨f, f', n', e1, e2, e3, e4⟩ := C94_rate 1 1 (by omega) (lineData x y x' y')
    (fun i => ([([x, x'] : List ℝ).getD i 0], [([y, y'] : List ℝ).getD i 0]))
    (fun i hi => ⟨(key i (lt_of_lt_of_eq hi (line_size ..))).1, (key i (lt_of_lt_of_eq hi (line_size ..))).2, rfl, rfl⟩)
    2 1 epochs (by rw [line_size]; omega) (by rw [line_size]) le_rfl hep eta he (by
      rw [line_size]
      simp [inputSize, vec, Finset.sum_range_succ]
      linarith) [w] [c] rfl rfl
  refine ⟨f, f', n', e1, e2, e3, fun u v => ?_⟩
  have h1 := e4 [u] [v]
  rw [line_size] at h1
  refine le_trans h1 (le_of_eq ?_)
  have hpos : (0 : ℝ) < epochs := by exact_mod_cast hep
  simp [fitError, sqDist, vec, mat, Finset.sum_range_succ]
  field_simp

end

end Verif.Props
