import Verif.Spec.Still
import Verif.Proofs.Still
import Verif.Props.Drift

/-! C108: training does not change a model that already fits the data. -/

namespace Verif.Props

open Verif Verif.Net Verif.Graph Verif.Spec

noncomputable section

/-- **C108** for models on a path of dense, convolution, pooling and activation layers with a mean squared error, for
every optimizer that leaves a parameter with gradient zero alone: if the model predicts the label of every sample of the
data set, `fit` succeeds with any batch size and any number of epochs, and afterwards all layers have the parameters they
had and the model predicts for every input what it predicted before. -/
theorem C108_fit (ops : List Op) (n0 : Net) (hg : n0.graph = (built ops).graph)
    (hlen : n0.layers.length = n0.graph.layers.length) (p : List Nat) (q : Nat) (hp : IsTrainingPath n0.graph p q)
    (h2 : 2 ≤ p.length) (ls : List AnyLayer) (nin m : Nat) (inv : ℝ) (hr : Ready n0 p q ls .mse nin m inv)
    (hm : 0 < m) (hc : Clean ls) (σ : Type) (opt : σ → ℝ → ℝ → σ × ℝ) (I : σ → Prop) (hrest : Rests opt I) (s : σ)
    (hs : I s) (d : Data.Dataset ℝ) (hd : FitsData n0 nin d) (b epochs fuel : Nat) (hb : 1 ≤ b)
    (hf : batchCount d.size b ≤ fuel) :
    ∃ s' n', Training.fit opt d fuel epochs b (s, n0) = some (.ok (s', n')) ∧ I s' ∧
      n'.layers.map AnyLayer.params = n0.layers.map AnyLayer.params ∧
      ∀ x : List ℝ, x.length = nin → ∃ y n1 n2, n0.predict x = .ok (n1, .ok y) ∧ n'.predict x = .ok (n2, .ok y) := by
  obtain ⟨hok, hl⟩ := path_graph hg hp.path h2
  have hne : p ≠ [] := by rintro rfl; simp at h2
  have hpred : ∀ x : List ℝ, x.length = nin → ∃ n', n0.predict x = .ok (n', .ok (prediction ls x)) := by
    intro x hx
    obtain ⟨y, hy1, hy2⟩ := yieldsAll_of_maps (mapsAll_of_trainable hr.sizes) hx
    rw [prediction_of hy2]
    exact predict_path hok hl (run_same [] rfl) hp.path hne hr.layers hy2
  have h0 : AtRest n0.graph p q ls nin m inv n0 ls := by
    refine ⟨rfl, hlen, hr, rfl, fun i l hi hil => ?_⟩
    rcases mem_layers hp hlen hr (List.mem_of_getElem? hil) with hk | ⟨L, rfl⟩
    · obtain ⟨_, _, k1, k2⟩ := trainable_get hr.sizes l hk
      exact calm_of_clean k1 k2 (hc.sized l hk) (hc.zero l hk)
    · exfalso
      have hmem : i ∈ p := (hp.path.layers i).mpr ⟨by
        rw [← hlen]; exact (List.getElem?_eq_some_iff.mp hil).1, by rw [hp.loss]; simpa using hi⟩
      have : n0.layers[i]? ∈ p.map (fun i => n0.layers[i]?) := List.mem_map_of_mem hmem
      rw [hr.layers, hil] at this
      obtain ⟨l, hl1, hl2⟩ := List.mem_map.mp this
      cases hl2
      obtain ⟨_, _, _, k2⟩ := trainable_get hr.sizes _ hl1
      exact k2
  have hS : ∀ i, ∃ S : List ℝ × List ℝ, i < d.size → d.input i = .ok S.1 ∧ d.label i = .ok S.2 ∧ S.1.length = nin ∧
      prediction ls S.1 = S.2 := by
    intro i
    by_cases hi : i < d.size
    · obtain ⟨x, t, n', a1, a2, a3, a4⟩ := hd i hi
      refine ⟨(x, t), fun _ => ⟨a1, a2, a3, ?_⟩⟩
      obtain ⟨n'', a5⟩ := hpred x a3
      rw [a5] at a4
      cases a4
      rfl
    · exact ⟨([], []), fun h => absurd h hi⟩
  choose S hS using hS
  obtain ⟨s', n', ks', a1, a2, a3⟩ := atRest_fit hrest hok hl hp hne hm hr.sizes hc.sized d S
    (batches d.size b epochs) s n0 ls hs h0 fun is his i hi => hS i (mem_batches his i hi)
  refine ⟨s', n', ?_, a2, ?_, fun x hx => ?_⟩
  · rw [C37_fit _ d b epochs fuel hb hf, trainCalls_batches, a1]
  · apply List.ext_getElem?
    intro i
    rw [List.getElem?_map, List.getElem?_map]
    by_cases hi : i < n0.layers.length
    · by_cases hq : i = q
      · subst hq
        obtain ⟨L, l1, _⟩ := hr.loss
        obtain ⟨L', l1', _⟩ := a3.ready.loss
        rw [l1, l1']
        rfl
      · have hmem : i ∈ p := (hp.path.layers i).mpr ⟨by rw [← hlen]; exact hi, by rw [hp.loss]; simpa using hq⟩
        obtain ⟨j, hj⟩ := List.mem_iff_getElem?.mp hmem
        have e1 := congrArg (fun z => z[j]?) hr.layers
        have e2 := congrArg (fun z => z[j]?) a3.ready.layers
        simp only [List.getElem?_map, hj, Option.map_some] at e1 e2
        have hj1 : j < ls.length := by
          have := (List.getElem?_eq_some_iff.mp hj).1
          have h4 := congrArg List.length hr.layers
          simp at h4
          omega
        have hj2 : j < ks'.length := by rw [length_of_core a3.core]; exact hj1
        rw [List.getElem?_eq_getElem hj1, Option.map_some] at e1
        rw [List.getElem?_eq_getElem hj2, Option.map_some] at e2
        have hcc := core_get a3.core (List.getElem?_eq_getElem hj1) (List.getElem?_eq_getElem hj2)
        rw [Option.some.inj e1, Option.some.inj e2, Option.map_some, Option.map_some, params_of_core hcc]
    · rw [List.getElem?_eq_none (by rw [a3.length, ← hlen]; omega), List.getElem?_eq_none (by omega)]
  · obtain ⟨n1, e1⟩ := hpred x hx
    obtain ⟨y, hy⟩ := yieldsAll_of_trainable hr.sizes hx
    have hg' := a3.graph
    have hy' := yieldsAll_core hy a3.core
    obtain ⟨n2, e2⟩ := predict_path (n0 := n') (n := n') (by rw [hg']; exact hok) (by rw [hg']; exact hl) (run_same [] rfl)
      (by rw [hg']; exact hp.path) hne a3.ready.layers hy'
    rw [prediction_of hy] at e1
    exact ⟨y, n1, n2, e1, e2⟩

/-- Gradient descent rests, whatever the step size. -/
theorem C108_gd (eta : ℝ) : Rests (Opt.gdStep eta) fun _ => True := by
  intro s p _
  exact ⟨by simp [Opt.gdStep], trivial⟩

/-- Adam rests as long as it has seen no gradient: after construction or `reset()`, at any number of calls.  (The
conditions on the constants make the divisions of the code meaningful.) -/
theorem C108_adam (eta b1 b2 eps : ℝ) (_h1 : 0 ≤ b1 ∧ b1 < 1) (_h2 : 0 ≤ b2 ∧ b2 < 1) (_he : 0 < eps) :
    Rests (Opt.adamStep eta b1 b2 eps) (fun s => s.m = 0 ∧ s.v = 0) ∧ Opt.Adam.init.m = 0 ∧ Opt.Adam.init.v = 0 ∧
      ∀ s : Opt.Adam, s.reset.m = 0 ∧ s.reset.v = 0 := by
  refine ⟨fun s p hs => ?_, rfl, rfl, fun s => ⟨rfl, rfl⟩⟩
  simp [Opt.adamStep, hs.1, hs.2]

/-- An Adam optimizer with momentum does move parameters whose gradient is zero: the hypothesis on its state is
needed. -/
theorem C108_adam_moves (eta b1 b2 eps : ℝ) (he : 0 < eta) (h1 : 0 < b1 ∧ b1 < 1) (hp : 0 < eps) (s : Opt.Adam)
    (ht : 1 ≤ s.t) (hm : s.m ≠ 0) (p : ℝ) : (Opt.adamStep eta b1 b2 eps s p 0).2 ≠ p := by
  have hb : b1 ^ s.t < 1 := pow_lt_one₀ h1.1.le h1.2 (by omega)
  unfold Opt.adamStep
  dsimp only
  rw [mul_zero, add_zero]
  intro h
  have h0 : eta * (b1 * s.m / (1 - b1 ^ s.t) /
      (Real.sqrt ((b2 * s.v + (1 - b2) * (0 * 0)) / (1 - b2 ^ s.t)) + eps)) = 0 := by linarith
  have hd : 0 < Real.sqrt ((b2 * s.v + (1 - b2) * (0 * 0)) / (1 - b2 ^ s.t)) + eps := by positivity
  have : b1 * s.m / (1 - b1 ^ s.t) ≠ 0 := div_ne_zero (mul_ne_zero h1.1.ne' hm) (by linarith)
  exact mul_ne_zero he.ne' (div_ne_zero this hd.ne') h0

/-! ### Example -/

/-- Three samples of the line `3 + 2 x`. -/
def fitLine : Data.Dataset ℝ := Data.ofVec [0, 3, 1, 5, 2, 7] 2 1 {1}

theorem fitLine_samples : ∀ i, i < 3 → fitLine.input i = .ok [([0, 1, 2] : List ℝ).getD i 0] ∧
    fitLine.label i = .ok [([3, 5, 7] : List ℝ).getD i 0] := by
  intro i hi
  have h0 : Spec.Consistent fitLine := Data.consistent_ofVec _ _ _ _
  rw [C43_input h0, C43_label h0, if_pos (show i < fitLine.size from hi)]
  match i with
  | 0 | 1 | 2 => exact ⟨rfl, rfl⟩
  | i + 3 => omega

/-- The network with weight 2 and bias 3 fits them, and a hundred epochs of Adam in batches of two leave it alone. -/
example : ∃ s' n', Training.fit (Opt.adamStep (1 / 10) (9 / 10) (999 / 1000) (1 / 1000)) fitLine 2 100 2
      (Opt.Adam.init, weightNet (weightLayers 2 3)) = some (.ok (s', n')) ∧ (s'.m = 0 ∧ s'.v = 0) ∧
      n'.layers.map AnyLayer.params = (weightNet (weightLayers 2 3)).layers.map AnyLayer.params ∧
      ∀ x : List ℝ, x.length = 1 → ∃ y n1 n2, (weightNet (weightLayers 2 3)).predict x = .ok (n1, .ok y) ∧
        n'.predict x = .ok (n2, .ok y) := by
  refine C108_fit threeLayers _ rfl rfl [0, 1] 2 three_path ?_ (weightLayers 2 3) 1 1 (1 / (1 : ℝ)) ?_ ?_ ?_ _ _
    (fun s : Opt.Adam => s.m = 0 ∧ s.v = 0)
    (C108_adam (1 / 10) (9 / 10) (999 / 1000) (1 / 1000) (by norm_num) (by norm_num) (by norm_num)).1 _ ⟨rfl, rfl⟩ fitLine ?_ 2 100 2 (by decide) ?_
  · decide
  · exact ⟨rfl, .cons ⟨rfl, rfl, rfl, rfl, rfl⟩ ⟨rfl, rfl, rfl⟩ (.cons rfl rfl (.nil 1)), _, rfl, rfl, rfl, by
      simp [Loss.Layer.new]⟩
  · decide
  · refine ⟨fun l hl => ?_, fun l hl b k hb hk => ?_⟩
    · simp only [weightLayers, List.mem_cons, List.not_mem_nil, or_false] at hl
      rcases hl with rfl | rfl <;> rfl
    · simp only [weightLayers, List.mem_cons, List.not_mem_nil, or_false] at hl
      rcases hl with rfl | rfl
      · match b, k, hb, hk with
        | 0, 0, _, _ => rfl
        | 1, 0, _, _ => rfl
        | 0, k + 1, _, hk => simp [AnyLayer.params] at hk
        | 1, k + 1, _, hk => simp [AnyLayer.params] at hk
        | b + 2, _, hb, _ => simp [AnyLayer.params] at hb
      · simp [AnyLayer.params] at hb
  · intro i hi
    have hi : i < 3 := hi
    obtain ⟨e1, e2⟩ := fitLine_samples i hi
    obtain ⟨n', e⟩ := weight_predicts 2 3 (([0, 1, 2] : List ℝ).getD i 0)
    refine ⟨_, _, n', e1, e2, rfl, ?_⟩
    rw [e]
    match i, hi with
    | 0, _ => norm_num
    | 1, _ => norm_num
    | 2, _ => norm_num
  · decide

end

end Verif.Props
