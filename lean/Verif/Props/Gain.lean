import Verif.Proofs.Gain
import Verif.Props.ShapeDrift

/-! C107: a small change of the input changes the prediction by little. -/

namespace Verif.Props

open Verif Verif.Net Verif.Graph Verif.Spec

noncomputable section

/-- **C107** for models of any shape without cycles and without dropout, recurrent and concatenation layers, after any
history of predictions, training steps, calls of the optimizer and resets of the scores.  If each value of the input
`x'` differs by at most `e` from that of `x`, each value of the prediction for `x'` differs from that for `x` by at
most `e` times the product of the gains of the layers on the walk that leads to the first output layer. -/
theorem C107_bound (ops : List Op) (hops : ∀ op ∈ ops, Joins op) (net : Net)
    (hg : net.graph = (built ops).graph) (n : Nat) (ha : Agrees net n) (hp : Plain net) (hl : ListsRight net.graph)
    (hacyc : Acyclic (trainArc net.graph)) (hloss : ∀ i ∈ net.graph.loss, ∃ x, trainArc net.graph x i)
    (hne : ∃ i, i < net.graph.layers.length ∧ i ∉ net.graph.loss) :
    ∃ p o, net.graph.outputs.head? = some o ∧ Walk net.graph p o ∧
      ∀ (σ : Type) (opt : σ → ℝ → ℝ → σ × ℝ) (s : σ) (cs : List UserCall), (∀ c ∈ cs, Suitable net n c) →
        ∃ r ls, serve opt cs (s, net) = .ok r ∧ p.map (fun i => r.2.layers[i]?) = ls.map some ∧
          ∀ (x x' : List ℝ) (e : ℝ), x.length = n → x'.length = n → (∀ j, |vec x' j - vec x j| ≤ e) →
            ∃ m m' y y', r.2.predict x = .ok (m, .ok y) ∧ r.2.predict x' = .ok (m', .ok y') ∧
              y'.length = y.length ∧ ∀ i, |vec y' i - vec y i| ≤ gains ls * e := by
  obtain ⟨h1, h2⟩ := reached_of_acyclic hops hg hl hacyc hloss hne
  have hs := shaped_reached hops hg ha hl h1 h2
  obtain ⟨o, os, ho, hw⟩ := hs.route_walk
  refine ⟨route net.graph, o, by rw [ho]; rfl, hw, ?_⟩
  intro σ opt s cs hc
  obtain ⟨r, er, k⟩ := serve_total hs opt cs s net (kept_self ha) hc
  have hd := simple_of_shapes (serve_shape opt cs s net r er) (simple_of_plain hp)
  obtain ⟨ls, q, hk, hm⟩ := k.maps_walk hs hd hw
  refine ⟨r, ls, er, hk, ?_⟩
  intro x x' e hx hx' he
  have h0 : 0 ≤ e := (abs_nonneg _).trans (he 0)
  obtain ⟨y, y', a1, a2, a3, a4, a5⟩ := inputs_close hm h0 hx hx' he
  obtain ⟨m, z, ks, b1, b2, b3⟩ := k.predicts hs hd hx
  obtain ⟨m', z', ks', c1, c2, c3⟩ := k.predicts hs hd hx'
  have inj := List.map_injective_iff.mpr (Option.some_injective AnyLayer)
  have d1 : ks = ls := inj (b2.symm.trans hk)
  have d2 : ks' = ls := inj (c2.symm.trans hk)
  subst d1 d2
  have g1 := composition_unique b3 a1.composition
  have g2 := composition_unique c3 a2.composition
  subst g1 g2
  exact ⟨m, m', z, z', b1, c1, a4.trans a3.symm, a5⟩

/-- The class that is predicted stays the same: if one value of the prediction is larger than all others by more than
twice the bound, it is the largest one for every input within `e`. -/
theorem C107_class (ops : List Op) (hops : ∀ op ∈ ops, Joins op) (net : Net)
    (hg : net.graph = (built ops).graph) (n : Nat) (ha : Agrees net n) (hp : Plain net) (hl : ListsRight net.graph)
    (hacyc : Acyclic (trainArc net.graph)) (hloss : ∀ i ∈ net.graph.loss, ∃ x, trainArc net.graph x i)
    (hne : ∃ i, i < net.graph.layers.length ∧ i ∉ net.graph.loss) :
    ∃ p o, net.graph.outputs.head? = some o ∧ Walk net.graph p o ∧
      ∀ (σ : Type) (opt : σ → ℝ → ℝ → σ × ℝ) (s : σ) (cs : List UserCall), (∀ c ∈ cs, Suitable net n c) →
        ∃ r ls, serve opt cs (s, net) = .ok r ∧ p.map (fun i => r.2.layers[i]?) = ls.map some ∧
          ∀ (x : List ℝ) (e : ℝ), x.length = n → ∃ m y, r.2.predict x = .ok (m, .ok y) ∧
            ∀ c, WinsBy (2 * (gains ls * e)) y c →
              ∀ x' : List ℝ, x'.length = n → (∀ j, |vec x' j - vec x j| ≤ e) →
                ∃ m' y', r.2.predict x' = .ok (m', .ok y') ∧ WinsBy 0 y' c := by
  obtain ⟨p, o, h1, h2, h3⟩ := C107_bound ops hops net hg n ha hp hl hacyc hloss hne
  refine ⟨p, o, h1, h2, fun σ opt s cs hc => ?_⟩
  obtain ⟨r, ls, e1, e2, e3⟩ := h3 σ opt s cs hc
  refine ⟨r, ls, e1, e2, fun x e hx => ?_⟩
  obtain ⟨m, _, y, _, a1, _⟩ := e3 x x 0 hx hx (fun j => by simp)
  refine ⟨m, y, a1, fun c hw x' hx' he => ?_⟩
  obtain ⟨m2, m', z, y', b1, b2, b3, b4⟩ := e3 x x' e hx hx' he
  rw [a1] at b1
  cases b1
  refine ⟨m', y', b2, by rw [b3]; exact hw.1, fun k hk hne => ?_⟩
  have := hw.2 k (by rw [← b3]; exact hk) hne
  have i1 := abs_le.mp (b4 k)
  have i2 := abs_le.mp (b4 c)
  linarith [i1.2, i2.1]

/-- The bound is reached: a network with the weight `w` and any bias predicts for `x + e` a value that differs by
exactly its gain times `e` from the one for `x`. -/
theorem C107_sharp (w b x e : ℝ) (he : 0 ≤ e) :
    ∃ m m' y y', (weightNet (weightLayers w b)).predict [x] = .ok (m, .ok [y]) ∧
      (weightNet (weightLayers w b)).predict [x + e] = .ok (m', .ok [y']) ∧
      |y' - y| = gains (weightLayers w b) * e := by
  obtain ⟨m, e1⟩ := weight_predicts w b x
  obtain ⟨m', e2⟩ := weight_predicts w b (x + e)
  refine ⟨m, m', _, _, e1, e2, ?_⟩
  have : gains (weightLayers w b) = |w| := by
    show (⨆ i : Fin 1, ∑ j ∈ Finset.range 1, |mat [w] 1 i j|) * (1 * 1) = |w|
    simp [mat]
  rw [this, show b + w * (x + e) - (b + w * x) = w * e by ring, abs_mul, abs_of_nonneg he]

/-! ### Example -/

/-- The hypotheses hold for the model of C89 with any weights: a dense layer, a rectifier, a softmax and a hyperbolic
tangent that joins them, with two loss layers. -/
example (w b : List ℝ) (hw : w.length = 6) (hb : b.length = 3) :
    ∃ p o, (built mesh).graph.outputs.head? = some o ∧ Walk (built mesh).graph p o ∧
      ∃ ls, p.map (fun i => (meshNet w b).layers[i]?) = ls.map some ∧
        ∀ (x x' : List ℝ) (e : ℝ), x.length = 2 → x'.length = 2 → (∀ j, |vec x' j - vec x j| ≤ e) →
          ∃ m m' y y', (meshNet w b).predict x = .ok (m, .ok y) ∧ (meshNet w b).predict x' = .ok (m', .ok y') ∧
            y'.length = y.length ∧ ∀ i, |vec y' i - vec y i| ≤ gains ls * e := by
  obtain ⟨p, o, h1, h2, h3⟩ := C107_bound mesh (by simp [mesh, Joins]) (meshNet w b) rfl 2
    (mesh_agrees w b hw hb) (mesh_plain w b) mesh_right (acyclic_of_lt (by decide)) mesh_loss
    ⟨0, by show 0 < (built mesh).graph.layers.length; decide, by show 0 ∉ (built mesh).graph.loss; decide⟩
  obtain ⟨r, ls, e, h⟩ := h3 Unit (Opt.gdStep 1) () [] (by intro c hc; cases hc)
  cases e
  exact ⟨p, o, h1, h2, ls, h.1, h.2⟩

/-- With the weights 1 to 6 the gain of its dense layer is 11, the absolute sum of the last row. -/
example : gain (.dense { denseNew 2 3 with weights := [1, 2, 3, 4, 5, 6], biases := [0, 0, 0] }) = 11 := by
  show (⨆ i : Fin 3, ∑ j ∈ Finset.range 2, |mat [1, 2, 3, 4, 5, 6] 2 i j|) = (11 : ℝ)
  have h : ∀ i : Fin 3, ∑ j ∈ Finset.range 2, |mat [1, 2, 3, 4, 5, 6] 2 (i : Nat) j| = (4 * (i : ℕ) + 3 : ℝ) := by
    intro i
    fin_cases i <;> simp [mat, Finset.sum_range_succ] <;> norm_num
  simp only [h]
  refine le_antisymm (ciSup_le fun i => ?_) ?_
  · have : ((i : ℕ) : ℝ) ≤ 2 := by exact_mod_cast Nat.lt_succ_iff.mp i.isLt
    linarith
  · have := le_ciSup (f := fun i : Fin 3 => (4 * (i : ℕ) + 3 : ℝ)) (Set.finite_range _).bddAbove 2
    norm_num at this
    exact this

end

end Verif.Props
