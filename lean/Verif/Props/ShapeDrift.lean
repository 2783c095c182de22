import Verif.Proofs.ShapeDrift
import Verif.Props.ShapeHistory
import Verif.Props.Drift

/-! C87 for models of any shape. -/

namespace Verif.Props

open Verif Verif.Net Verif.Graph Verif.Spec Verif.Dump

noncomputable section

theorem savedTheta_eq (m : Dump.Model ℚ) (p : List Nat) : savedTheta m p = p.map fun i => (savedTheta m [i]).headD [] := rfl

/-- **C87** for models of any shape without cycles and without dropout, recurrent and concatenation layers:
branches, joins, skip connections, several inputs, outputs and loss layers.  Let the parameters of the layers be those
of the saved model `m`, and save and load it as in `C87_prediction_partial`.  A network of the same structure with the
loaded parameters predicts for every input as many values as the saved one, and each value differs by no more than
`drift` allows, for parameters that moved by half of 10⁻⁶, along the walk that leads to the first output layer. -/
theorem C87_any_shape_partial (ops : List Op) (hops : ∀ op ∈ ops, Joins op) (net : Net)
    (hg : net.graph = (built ops).graph) (n : Nat) (ha : Agrees net n) (hp : Plain net) (hl : ListsRight net.graph)
    (hacyc : Acyclic (trainArc net.graph)) (hloss : ∀ i ∈ net.graph.loss, ∃ x, trainArc net.graph x i)
    (hne : ∃ i, i < net.graph.layers.length ∧ i ∉ net.graph.loss) (m m' : Dump.Model ℚ)
    (hs : net.layers.map AnyLayer.params = savedTheta m (List.range net.layers.length))
    (hm : ∀ l ∈ m.layers, Built sixDecimals l ∧ Writable sixDecimals l) (hname : '"' ∉ m.name)
    (hml : m.layers ≠ []) (ht : m'.layers.map (fun l => typeName l.own) = m.layers.map (fun l => typeName l.own)) :
    ∃ p o, net.graph.outputs.head? = some o ∧ Walk net.graph p o ∧
      ∃ text r s, saveModel sixDecimals m = .ok text ∧ (∀ k, s ≤ k → loadModel sixDecimals k m' text = .ok r) ∧
        ∀ n1 : Net, n1.graph = net.graph →
          n1.layers = withTheta net.layers (savedTheta r (List.range net.layers.length)) →
          ∀ x : List ℝ, x.length = n →
            ∃ ls n0' n1' y y', p.map (fun i => net.layers[i]?) = ls.map some ∧
              net.predict x = .ok (n0', .ok y) ∧ n1.predict x = .ok (n1', .ok y') ∧ y'.length = y.length ∧
              ∀ i, |vec y' i - vec y i| ≤ drift (1 / 2000000) ls x 0 := by
  obtain ⟨h1, h2⟩ := reached_of_acyclic hops hg hl hacyc hloss hne
  have hsh := shaped_reached hops hg ha hl h1 h2
  have hd := simple_of_plain hp
  obtain ⟨o, os, ho, hw⟩ := hsh.route_walk
  obtain ⟨ls, k, hk, hmaps⟩ := hsh.maps_walk hd hw
  obtain ⟨text, r, s, e1, e2, _, e4⟩ := C69_save_load_partial sixDecimals hm hname hml ht
  refine ⟨route net.graph, o, by rw [ho]; rfl, hw, text, r, s, e1, e2, ?_⟩
  intro n1 hg1 hl1 x hx
  have F1 : FitsTheta net.layers (savedTheta r (List.range net.layers.length)) := by
    unfold FitsTheta
    rw [restored_fits e4, ← hs, List.map_map]
    rfl
  have hps : ls.map AnyLayer.params = savedTheta m (route net.graph) :=
    params_along (f := fun i => (savedTheta m [i]).headD []) hs _ _ hk
  have f0 : FitsTheta ls (savedTheta m (route net.graph)) := by
    unfold FitsTheta; rw [← hps, List.map_map]; rfl
  have f1 : FitsTheta ls (savedTheta r (route net.graph)) := (restored_fits e4 _).trans f0
  have hf : ∀ v : ℚ, |((trip sixDecimals v : ℚ) : ℝ) - (v : ℝ)| ≤ 1 / 2000000 := fun v => by
    have := (C60_resolution v).1
    have : ((|trip sixDecimals v - v| : ℚ) : ℝ) ≤ ((1 / 2000000 : ℚ) : ℝ) := by exact_mod_cast this
    push_cast at this
    exact this
  obtain ⟨y, y', a1, a2, a3, a4, a5⟩ := theta_close hmaps (by norm_num) f0 f1
    (restored_near e4 (by norm_num) hf _) (le_refl (0 : ℝ)) hx hx (fun j => by simp)
  rw [← hps, withTheta_params] at a1 a5
  obtain ⟨n0', z, ks, b1, b2, b3⟩ := (kept_self ha).predicts hsh hd hx
  obtain ⟨n1', z', ks', c1, c2, c3⟩ := (kept_theta ha F1 hg1 hl1).predicts hsh (by
    rw [hl1]; exact simple_theta hd F1) hx
  have inj := List.map_injective_iff.mpr (Option.some_injective AnyLayer)
  have d1 : ks = ls := inj (b2.symm.trans hk)
  have d2 : ks' = withTheta ls (savedTheta r (route net.graph)) := by
    apply inj
    rw [← c2, hl1]
    exact theta_along (f := fun i => (savedTheta r [i]).headD []) rfl _ _ hk
  subst d1 d2
  have g1 := composition_unique b3 a1.composition
  have g2 := composition_unique c3 a2.composition
  subst g1 g2
  exact ⟨ks, n0', n1', z, z', hk, b1, c1, a4.trans a3.symm, a5⟩

/-- If all parameters are whole multiples of 10⁻⁶, the loaded network predicts exactly what the saved one
predicts. -/
theorem C87_any_shape_exact_partial (ops : List Op) (hops : ∀ op ∈ ops, Joins op) (net : Net)
    (hg : net.graph = (built ops).graph) (n : Nat) (ha : Agrees net n) (hp : Plain net) (hl : ListsRight net.graph)
    (hacyc : Acyclic (trainArc net.graph)) (hloss : ∀ i ∈ net.graph.loss, ∃ x, trainArc net.graph x i)
    (hne : ∃ i, i < net.graph.layers.length ∧ i ∉ net.graph.loss) (m m' : Dump.Model ℚ)
    (hs : net.layers.map AnyLayer.params = savedTheta m (List.range net.layers.length))
    (hv : ∀ l ∈ m.layers, ∀ w ∈ parameters l.own, ∀ v ∈ w, ∃ z : ℤ, v = z / 1000000)
    (hm : ∀ l ∈ m.layers, Built sixDecimals l ∧ Writable sixDecimals l) (hname : '"' ∉ m.name)
    (hml : m.layers ≠ []) (ht : m'.layers.map (fun l => typeName l.own) = m.layers.map (fun l => typeName l.own)) :
    ∃ text r s, saveModel sixDecimals m = .ok text ∧ (∀ k, s ≤ k → loadModel sixDecimals k m' text = .ok r) ∧
      ∀ n1 : Net, n1.graph = net.graph →
        n1.layers = withTheta net.layers (savedTheta r (List.range net.layers.length)) →
        ∀ x : List ℝ, x.length = n →
          ∃ n0' n1' y, net.predict x = .ok (n0', .ok y) ∧ n1.predict x = .ok (n1', .ok y) := by
  obtain ⟨h1, h2⟩ := reached_of_acyclic hops hg hl hacyc hloss hne
  have hsh := shaped_reached hops hg ha hl h1 h2
  have hd := simple_of_plain hp
  obtain ⟨text, r, s, e1, e2, _, e4⟩ := C69_save_load_partial sixDecimals hm hname hml ht
  refine ⟨text, r, s, e1, e2, ?_⟩
  intro n1 hg1 hl1 x hx
  rw [restored_same e4 (fun l hl w hw v hvw => millionth_trip (hv l hl w hw v hvw)) _, ← hs, withTheta_params] at hl1
  have e : n1 = net := by
    cases n1; cases net
    simp only at hg1 hl1
    rw [hg1, hl1]
  subst e
  obtain ⟨n0', z, ks, b1, b2, b3⟩ := (kept_self ha).predicts hsh hd hx
  exact ⟨n0', n0', z, b1, b1⟩

/-! ### Example -/

/-- The example of C89 as it is saved: a dense layer with the weights `w` and the biases `b`, a rectifier, a softmax,
a hyperbolic tangent and two loss layers. -/
def meshSaved (w b : List ℚ) : Dump.Model ℚ :=
  ⟨['m'], [{ (newDense ['a'] 2 3 : Dump.Layer ℚ) with own := .dense w b }, newFlat .relu ['b'] 3,
    newFlat .softmax ['c'] 3, newFlat .tanh ['d'] 3, newLoss .cce ['e'] 3, newLoss (.mse 0) ['f'] 3]⟩

theorem meshSaved_built (w b : List ℚ) (hw : w.length = 6) (hb : b.length = 3) :
    ∀ l ∈ (meshSaved w b).layers, Built sixDecimals l ∧ Writable sixDecimals l := by
  intro l hl
  unfold meshSaved at hl
  simp only [List.mem_cons, List.not_mem_nil, or_false] at hl
  have w3 : Word 3 := by show 3 < 2 ^ 64; decide
  have w2 : Word 2 := by show 2 < 2 ^ 64; decide
  rcases hl with rfl | rfl | rfl | rfl | rfl | rfl
  · refine ⟨.train (.dense w2 w3) (.dense ?_ ?_), by simp [newDense, fieldsOf], ?_, fun x _ => ⟨_, _, rfl⟩⟩
    · rw [hw]; rfl
    · rw [hb]; rfl
    · exact ⟨Nat.zero_lt_succ 1, Nat.zero_lt_succ 2⟩
  · exact ⟨.activation (by simp) w3, by simp [newFlat, fieldsOf], trivial, fun x _ => ⟨_, _, rfl⟩⟩
  · exact ⟨.activation (by simp) w3, by simp [newFlat, fieldsOf], trivial, fun x _ => ⟨_, _, rfl⟩⟩
  · exact ⟨.activation (by simp) w3, by simp [newFlat, fieldsOf], trivial, fun x _ => ⟨_, _, rfl⟩⟩
  · exact ⟨.loss (by simp) w3, by simp [newLoss, fieldsOf], trivial, fun x _ => ⟨_, _, rfl⟩⟩
  · exact ⟨.loss (by simp) w3, by simp [newLoss, fieldsOf], trivial, fun x _ => ⟨_, _, rfl⟩⟩

/-- The hypotheses of `C87_any_shape_partial` hold for that model, with any weights and biases: it is saved and loaded
into itself, and then predicts about the same. -/
example (w b : List ℚ) (hw : w.length = 6) (hb : b.length = 3) :
    let net := meshNet (w.map fun v : ℚ => (v : ℝ)) (b.map fun v : ℚ => (v : ℝ))
    ∃ p o, net.graph.outputs.head? = some o ∧ Walk net.graph p o ∧
      ∃ text r s, saveModel sixDecimals (meshSaved w b) = .ok text ∧
        (∀ k, s ≤ k → loadModel sixDecimals k (meshSaved w b) text = .ok r) ∧
        ∀ n1 : Net, n1.graph = net.graph → n1.layers = withTheta net.layers (savedTheta r (List.range 6)) →
          ∀ x : List ℝ, x.length = 2 →
            ∃ ls n0' n1' y y', p.map (fun i => net.layers[i]?) = ls.map some ∧
              net.predict x = .ok (n0', .ok y) ∧ n1.predict x = .ok (n1', .ok y') ∧ y'.length = y.length ∧
              ∀ i, |vec y' i - vec y i| ≤ drift (1 / 2000000) ls x 0 :=
  C87_any_shape_partial mesh (by simp [mesh, Joins]) (meshNet _ _) rfl 2
    (mesh_agrees _ _ (by rw [List.length_map, hw]) (by rw [List.length_map, hb])) (mesh_plain _ _) mesh_right
    (acyclic_of_lt (by decide)) mesh_loss
    ⟨0, by show 0 < (built mesh).graph.layers.length; decide, by show 0 ∉ (built mesh).graph.loss; decide⟩
    (meshSaved w b) (meshSaved w b) rfl (meshSaved_built w b hw hb) (by simp [meshSaved]) (by simp [meshSaved]) rfl

end

end Verif.Props
