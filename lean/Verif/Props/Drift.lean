import Verif.Proofs.Drift
import Verif.Props.Backprop
import Verif.Props.DumpModel
import Verif.Props.Dump

/-! C87: a network that is saved to a file and loaded predicts nearly what it predicted. -/

namespace Verif.Props

open Verif Verif.Net Verif.Graph Verif.Spec Verif.Dump

noncomputable section

theorem vec_cast_map (f : ℚ → ℚ) {δ : ℝ} (h0 : 0 ≤ δ) (hf : ∀ v : ℚ, |((f v : ℚ) : ℝ) - (v : ℝ)| ≤ δ) (w : List ℚ) (k : Nat) :
    |vec ((w.map f).map fun v : ℚ => (v : ℝ)) k - vec (w.map fun v : ℚ => (v : ℝ)) k| ≤ δ := by
  show |List.getD _ k 0 - List.getD _ k 0| ≤ δ
  simp only [List.getD_eq_getElem?_getD, List.getElem?_map]
  cases w[k]? with
  | none => simpa using h0
  | some v => exact hf v

theorem restored_near {io : NumText ℚ} {m r : Dump.Model ℚ} (h : List.Forall₂ (Restored io) m.layers r.layers)
    {δ : ℝ} (h0 : 0 ≤ δ) (hf : ∀ v : ℚ, |((trip io v : ℚ) : ℝ) - (v : ℝ)| ≤ δ) (p : List Nat) :
    NearTheta δ (savedTheta m p) (savedTheta r p) := by
  intro j b k
  unfold savedTheta entry
  simp only [List.getD_eq_getElem?_getD, List.getElem?_map]
  cases p[j]? with
  | none => simpa [vec] using h0
  | some i =>
    simp only [Option.map_some, Option.getD_some]
    by_cases hi : i < m.layers.length
    · have hi' : i < r.layers.length := by rw [← h.length_eq]; exact hi
      have hr := (List.forall₂_iff_get.mp h).2 i hi hi'
      rw [List.getElem?_eq_getElem hi, List.getElem?_eq_getElem hi']
      dsimp only
      have := hr.params
      simp only [List.get_eq_getElem] at this
      rw [this]
      simp only [List.getElem?_map]
      cases (parameters (m.layers[i]).own)[b]? with
      | none => simpa [vec] using h0
      | some w => exact vec_cast_map _ h0 hf w k
    · have hi' : ¬ i < r.layers.length := by rw [← h.length_eq]; exact hi
      rw [List.getElem?_eq_none (l := r.layers) (by omega), List.getElem?_eq_none (l := m.layers) (by omega)]
      simpa [vec] using h0

theorem restored_fits {io : NumText ℚ} {m r : Dump.Model ℚ} (h : List.Forall₂ (Restored io) m.layers r.layers)
    (p : List Nat) : (savedTheta r p).map (List.map List.length) = (savedTheta m p).map (List.map List.length) := by
  unfold savedTheta
  rw [List.map_map, List.map_map]
  refine List.map_congr_left fun i _ => ?_
  simp only [Function.comp]
  by_cases hi : i < m.layers.length
  · have hi' : i < r.layers.length := by rw [← h.length_eq]; exact hi
    have hr := ((List.forall₂_iff_get.mp h).2 i hi hi').params
    simp only [List.get_eq_getElem] at hr
    rw [List.getElem?_eq_getElem hi, List.getElem?_eq_getElem hi']
    dsimp only
    rw [hr]
    simp [List.map_map, Function.comp_def]
  · have hi' : ¬ i < r.layers.length := by rw [← h.length_eq]; exact hi
    rw [List.getElem?_eq_none (by omega), List.getElem?_eq_none (by omega)]

theorem saved_close {n0 n1 : Net} {ops : List Op} (hg : n0.graph = (built ops).graph) (hg1 : n1.graph = n0.graph)
    {p : List Nat} (hp : IsPath n0.graph p) (h2 : 2 ≤ p.length) {ls : List AnyLayer}
    (hk : p.map (fun i => n0.layers[i]?) = ls.map some) {io : NumText ℚ} {m r : Dump.Model ℚ}
    (hs : ls.map AnyLayer.params = savedTheta m p) (h : List.Forall₂ (Restored io) m.layers r.layers)
    (hk1 : p.map (fun i => n1.layers[i]?) = (withTheta ls (savedTheta r p)).map some) {x : List ℝ} {k : Nat}
    (ht : MapsAll x.length k ls) {δ : ℝ} (h0 : 0 ≤ δ) (hf : ∀ v : ℚ, |((trip io v : ℚ) : ℝ) - (v : ℝ)| ≤ δ) :
    ∃ n0' n1' y y', n0.predict x = .ok (n0', .ok y) ∧ n1.predict x = .ok (n1', .ok y') ∧ y.length = k ∧
      y'.length = k ∧ ∀ i, |vec y' i - vec y i| ≤ drift δ ls x 0 := by
  have f0 : FitsTheta ls (savedTheta m p) := by
    unfold FitsTheta; rw [← hs, List.map_map]; rfl
  have f1 : FitsTheta ls (savedTheta r p) := (restored_fits h p).trans f0
  obtain ⟨y, y', a1, a2, a3, a4, a5⟩ := theta_close ht h0 f0 f1 (restored_near h h0 hf p) (le_refl (0 : ℝ)) rfl rfl
    (fun j => by simp)
  rw [← hs, withTheta_params] at a1 a5
  obtain ⟨hok, hl⟩ := path_graph hg hp h2
  obtain ⟨n0', e0⟩ := predict_path hok hl (run_same [] rfl) hp (by rintro rfl; simp at h2) hk a1
  obtain ⟨hok', hl'⟩ := path_graph (hg1.trans hg) (hg1 ▸ hp) h2
  obtain ⟨n1', e1⟩ := predict_path hok' hl' (run_same [] rfl) (hg1 ▸ hp) (by rintro rfl; simp at h2) hk1 a2
  exact ⟨n0', n1', y, y', e0, e1, a3, a4, a5⟩

/-- **C87** (for models on a path of dense, convolution, pooling and activation layers): saving the model and
loading the text into a model with the same types of layers succeeds. A network of the same structure with the
loaded parameters predicts for every input as many values as the saved one, and each value differs by no more
than `drift` allows for parameters that moved by half of 10⁻⁶. -/
theorem C87_prediction_partial (ops : List Op) (n0 : Net) (hg : n0.graph = (built ops).graph)
    (p : List Nat) (hp : IsPath n0.graph p) (h2 : 2 ≤ p.length) (ls : List AnyLayer)
    (hk : p.map (fun i => n0.layers[i]?) = ls.map some) (m m' : Dump.Model ℚ)
    (hs : ls.map AnyLayer.params = savedTheta m p)
    (hm : ∀ l ∈ m.layers, Built sixDecimals l ∧ Writable sixDecimals l) (hname : '"' ∉ m.name)
    (hne : m.layers ≠ []) (ht : m'.layers.map (fun l => typeName l.own) = m.layers.map (fun l => typeName l.own)) :
    ∃ text r s, saveModel sixDecimals m = .ok text ∧ (∀ n, s ≤ n → loadModel sixDecimals n m' text = .ok r) ∧
      ∀ n1 : Net, n1.graph = n0.graph →
        p.map (fun i => n1.layers[i]?) = (withTheta ls (savedTheta r p)).map some →
        ∀ (x : List ℝ) (k : Nat), MapsAll x.length k ls →
          ∃ n0' n1' y y', n0.predict x = .ok (n0', .ok y) ∧ n1.predict x = .ok (n1', .ok y') ∧ y.length = k ∧
            y'.length = k ∧ ∀ i, |vec y' i - vec y i| ≤ drift (1 / 2000000) ls x 0 := by
  obtain ⟨text, r, s, e1, e2, _, e4⟩ := C69_save_load_partial sixDecimals hm hname hne ht
  refine ⟨text, r, s, e1, e2, fun n1 hg1 hk1 x k hx => ?_⟩
  refine saved_close hg hg1 hp h2 hk hs e4 hk1 hx (by norm_num) fun v => ?_
  have := (C60_resolution v).1
  have : ((|trip sixDecimals v - v| : ℚ) : ℝ) ≤ ((1 / 2000000 : ℚ) : ℝ) := by exact_mod_cast this
  push_cast at this
  exact this

theorem millionth_trip {v : ℚ} (h : ∃ z : ℤ, v = z / 1000000) : trip sixDecimals v = v := by
  obtain ⟨z, rfl⟩ := h
  have e : |(z : ℚ) / 1000000| = (z.natAbs : ℚ) / 1000000 := by
    rw [abs_div, abs_of_pos (by norm_num : (0 : ℚ) < 1000000)]
    congr 1
    rw [Nat.cast_natAbs, Int.cast_abs]
  rw [trip_six, millionths_exact _ _ e, ← e]
  by_cases hz : (z : ℚ) / 1000000 < 0
  · rw [if_pos hz, abs_of_neg hz]; ring
  · rw [if_neg hz, abs_of_nonneg (not_lt.mp hz)]; ring

theorem restored_same {io : NumText ℚ} {m r : Dump.Model ℚ} (h : List.Forall₂ (Restored io) m.layers r.layers)
    (hv : ∀ l ∈ m.layers, ∀ w ∈ parameters l.own, ∀ v ∈ w, trip io v = v) (p : List Nat) :
    savedTheta r p = savedTheta m p := by
  unfold savedTheta
  refine List.map_congr_left fun i _ => ?_
  by_cases hi : i < m.layers.length
  · have hi' : i < r.layers.length := by rw [← h.length_eq]; exact hi
    have hr := ((List.forall₂_iff_get.mp h).2 i hi hi').params
    simp only [List.get_eq_getElem] at hr
    rw [List.getElem?_eq_getElem hi, List.getElem?_eq_getElem hi']
    dsimp only
    rw [hr, List.map_map]
    refine List.map_congr_left fun w hw => ?_
    simp only [Function.comp, List.map_map]
    refine List.map_congr_left fun v hvw => ?_
    simp only [Function.comp]
    rw [hv _ (List.getElem_mem hi) w hw v hvw]
  · have hi' : ¬ i < r.layers.length := by rw [← h.length_eq]; exact hi
    rw [List.getElem?_eq_none (by omega), List.getElem?_eq_none (by omega)]

/-- If all parameters are whole multiples of 10⁻⁶, the loaded network predicts exactly what the saved one
predicts. -/
theorem C87_exact_partial (ops : List Op) (n0 : Net) (hg : n0.graph = (built ops).graph)
    (p : List Nat) (hp : IsPath n0.graph p) (h2 : 2 ≤ p.length) (ls : List AnyLayer)
    (hk : p.map (fun i => n0.layers[i]?) = ls.map some) (m m' : Dump.Model ℚ)
    (hs : ls.map AnyLayer.params = savedTheta m p)
    (hv : ∀ l ∈ m.layers, ∀ w ∈ parameters l.own, ∀ v ∈ w, ∃ z : ℤ, v = z / 1000000)
    (hm : ∀ l ∈ m.layers, Built sixDecimals l ∧ Writable sixDecimals l) (hname : '"' ∉ m.name)
    (hne : m.layers ≠ []) (ht : m'.layers.map (fun l => typeName l.own) = m.layers.map (fun l => typeName l.own)) :
    ∃ text r s, saveModel sixDecimals m = .ok text ∧ (∀ n, s ≤ n → loadModel sixDecimals n m' text = .ok r) ∧
      ∀ n1 : Net, n1.graph = n0.graph →
        p.map (fun i => n1.layers[i]?) = (withTheta ls (savedTheta r p)).map some →
        ∀ (x : List ℝ) (k : Nat), MapsAll x.length k ls →
          ∃ n0' n1' y, n0.predict x = .ok (n0', .ok y) ∧ n1.predict x = .ok (n1', .ok y) ∧ y.length = k := by
  obtain ⟨text, r, s, e1, e2, _, e4⟩ := C69_save_load_partial sixDecimals hm hname hne ht
  refine ⟨text, r, s, e1, e2, fun n1 hg1 hk1 x k hx => ?_⟩
  rw [restored_same e4 (fun l hl w hw v hvw => millionth_trip (hv l hl w hw v hvw)) p, ← hs, withTheta_params] at hk1
  obtain ⟨y, hy1, hy2⟩ := yieldsAll_of_maps hx rfl
  obtain ⟨hok, hl⟩ := path_graph hg hp h2
  obtain ⟨n0', e0⟩ := predict_path hok hl (run_same [] rfl) hp (by rintro rfl; simp at h2) hk hy2
  obtain ⟨hok', hl'⟩ := path_graph (hg1.trans hg) (hg1 ▸ hp) h2
  obtain ⟨n1', e1⟩ := predict_path hok' hl' (run_same [] rfl) (hg1 ▸ hp) (by rintro rfl; simp at h2) hk1 hy2
  exact ⟨n0', n1', y, e0, e1, hy1⟩

/-! ### A concrete network -/

/-- The layers of a network with one weight and one bias, and a linear layer. -/
def weightLayers (w b : ℝ) : List AnyLayer :=
  [.dense { denseNew 1 1 with weights := [w], biases := [b] }, .act .linear (Act.Layer.new 1)]

/-- The same network as it is saved. -/
def weightModel (w b : ℚ) : Dump.Model ℚ :=
  ⟨['m'], [{ (newDense ['a'] 1 1 : Dump.Layer ℚ) with own := .dense [w] [b] }, newFlat .linear ['b'] 1]⟩

theorem weight_maps (w b : ℝ) : MapsAll 1 1 (weightLayers w b) :=
  .cons ⟨rfl, rfl, rfl, rfl, rfl⟩ (.cons rfl (.nil 1))

theorem weight_saved (w b : ℚ) : (weightLayers w b).map AnyLayer.params = savedTheta (weightModel w b) [0, 1] := rfl

theorem weight_built (w b : ℚ) :
    ∀ l ∈ (weightModel w b).layers, Built sixDecimals l ∧ Writable sixDecimals l := by
  intro l hl
  unfold weightModel at hl
  rw [List.mem_cons, List.mem_singleton] at hl
  rcases hl with rfl | rfl
  · refine ⟨.train (.dense ?_ ?_) (.dense rfl rfl), by simp [newDense, fieldsOf], ?_, ?_⟩
    · show 1 < 2 ^ 64; decide
    · show 1 < 2 ^ 64; decide
    · exact ⟨Nat.one_pos, Nat.one_pos⟩
    · exact fun x _ => ⟨_, _, rfl⟩
  · refine ⟨.activation (by simp) ?_, by simp [newFlat, fieldsOf], trivial, ?_⟩
    · show 1 < 2 ^ 64; decide
    · exact fun x _ => ⟨_, _, rfl⟩

theorem weight_yields (w b x : ℝ) : YieldsAll (weightLayers w b) [x] [b + w * x] := by
  refine .cons (z := [b + w * x]) ?_ (.cons ?_ (.nil _))
  · have := dense_yields (l := { denseNew 1 1 with weights := [w], biases := [b] }) (n := 1) (m := 1)
      ⟨rfl, rfl, rfl, rfl, rfl⟩ (x := [x]) rfl
    simpa [tab, vec, mat] using this
  · intro a' ha'
    cases a' <;> simp [core] at ha'
    case act f' l' =>
    obtain ⟨rfl, _⟩ := ha'
    exact ⟨.act .linear { l' with output := [b + w * x] }, rfl, rfl⟩

/-- The network of the layers `ls` and a loss layer. -/
def weightNet (ls : List AnyLayer) : Net :=
  ⟨(built threeLayers).graph, ls ++ [.loss .mse (Loss.Layer.new 1 1 (1 / 10))]⟩

theorem weight_predicts (w b x : ℝ) :
    ∃ n', (weightNet (weightLayers w b)).predict [x] = .ok (n', .ok [b + w * x]) := by
  obtain ⟨hok, hl⟩ := path_graph (n0 := weightNet (weightLayers w b)) (ops := threeLayers) rfl three_path.1 (by decide)
  exact predict_path hok hl (run_same [] rfl) three_path.1 (by decide) rfl (weight_yields w b x)

/-- The hypotheses of `C87_prediction_partial` hold for a network with any weight and bias; its prediction for
one input `x` moves by at most (1 + |x|) / 2000000. -/
example (w b : ℚ) (x : ℝ) :
    IsPath (weightNet (weightLayers w b)).graph [0, 1] ∧
    [0, 1].map (fun i => (weightNet (weightLayers w b)).layers[i]?) = (weightLayers w b).map some ∧
    (weightLayers w b).map AnyLayer.params = savedTheta (weightModel w b) [0, 1] ∧
    (∀ l ∈ (weightModel w b).layers, Built sixDecimals l ∧ Writable sixDecimals l) ∧
    MapsAll [x].length 1 (weightLayers w b) ∧
    drift (1 / 2000000) (weightLayers w b) [x] 0 = (1 + |x|) / 2000000 := by
  refine ⟨three_path.1, rfl, weight_saved w b, weight_built w b, weight_maps w b, ?_⟩
  show 1 / 2000000 * (1 + ∑ j ∈ Finset.range 1, |vec [x] j|) + _ * 0 = _
  simp [vec]
  ring

/-- It is not the same prediction, and the difference has no bound that holds for all networks: for every `B`
there are a network and an input with the prediction `B` before saving and the prediction 0 after loading. -/
theorem C87_refuted (B : ℝ) : ∃ (w : ℚ) (text : List Char) (r : Dump.Model ℚ) (s : Nat) (x : List ℝ),
    saveModel sixDecimals (weightModel w 0) = .ok text ∧
    (∀ n, s ≤ n → loadModel sixDecimals n (weightModel w 0) text = .ok r) ∧
    (∃ n', (weightNet (weightLayers w 0)).predict x = .ok (n', .ok [B])) ∧
    ∃ n', (weightNet (withTheta (weightLayers w 0) (savedTheta r [0, 1]))).predict x = .ok (n', .ok [0]) := by
  obtain ⟨text, r, s, e1, e2, _, e4⟩ := C69_save_load_partial sixDecimals (m := weightModel (1 / 10000000) 0)
    (m' := weightModel (1 / 10000000) 0) (weight_built _ _) (by decide) (by intro e; cases e) rfl
  have t1 : trip sixDecimals (1 / 10000000) = 0 := by decide +kernel
  have t0 : trip sixDecimals 0 = 0 := by decide +kernel
  have hr : savedTheta r [0, 1] = [[[0], [0]], []] := by
    obtain ⟨rn, rl⟩ := r
    have e4' : List.Forall₂ (Restored sixDecimals) (weightModel (1 / 10000000) 0).layers rl := e4
    unfold weightModel at e4'
    cases e4' with
    | cons a1 a2 =>
    cases a2 with
    | cons a2 a3 =>
    cases a3
    have p1 := a1.params
    have p2 := a2.params
    have q1 : ([[1 / 10000000], [0]] : List (List ℚ)).map (List.map (trip sixDecimals)) = [[0], [0]] := by
      simp only [List.map_cons, List.map_nil, t0, t1]
    have p1 := p1.trans q1
    have p2 : parameters _ = [] := p2
    simp [savedTheta, p1, p2]
  refine ⟨1 / 10000000, text, r, s, [10000000 * B], e1, e2, ?_, ?_⟩
  · have := weight_predicts ((1 / 10000000 : ℚ) : ℝ) 0 (10000000 * B)
    have e : (0 : ℝ) + ((1 / 10000000 : ℚ) : ℝ) * (10000000 * B) = B := by push_cast; ring
    rwa [e] at this
  · rw [hr]
    have := weight_predicts 0 0 (10000000 * B)
    rw [zero_mul, add_zero] at this
    exact this

end

end Verif.Props
