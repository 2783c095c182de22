import Verif.Proofs.Range
import Verif.Props.Gain

/-! C109: predictions stay in the range of the last layer. -/

namespace Verif.Props

open Verif Verif.Net Verif.Graph Verif.Spec

noncomputable section

/-- **C109** for models of any shape without cycles and without dropout, recurrent and concatenation layers, after any
history of predictions, training steps, calls of the optimizer and resets of the scores: if the first output layer is
an activation layer, the prediction for every input lies in the range of its function. -/
theorem C109_range (ops : List Op) (hops : ∀ op ∈ ops, Joins op) (net : Net)
    (hg : net.graph = (built ops).graph) (n : Nat) (ha : Agrees net n) (hp : Plain net) (hl : ListsRight net.graph)
    (hacyc : Acyclic (trainArc net.graph)) (hloss : ∀ i ∈ net.graph.loss, ∃ x, trainArc net.graph x i)
    (hne : ∃ i, i < net.graph.layers.length ∧ i ∉ net.graph.loss) :
    ∃ o, net.graph.outputs.head? = some o ∧ ∀ f l, net.layers[o]? = some (.act f l) →
      ∀ (σ : Type) (opt : σ → ℝ → ℝ → σ × ℝ) (s : σ) (cs : List UserCall), (∀ c ∈ cs, Suitable net n c) →
        ∃ r, serve opt cs (s, net) = .ok r ∧
          ∀ x : List ℝ, x.length = n → ∃ m y, r.2.predict x = .ok (m, .ok y) ∧ InRange y f := by
  obtain ⟨h1, h2⟩ := reached_of_acyclic hops hg hl hacyc hloss hne
  have hs := shaped_reached hops hg ha hl h1 h2
  obtain ⟨o, os, ho, hw⟩ := hs.route_walk
  refine ⟨o, by rw [ho]; rfl, ?_⟩
  intro f l hf σ opt s cs hc
  obtain ⟨r, er, k⟩ := serve_total hs opt cs s net (kept_self ha) hc
  have hsh := serve_shape opt cs s net r er
  have hd := simple_of_shapes hsh (simple_of_plain hp)
  obtain ⟨ls, q, hk, hm⟩ := k.maps_walk hs hd hw
  refine ⟨r, er, fun x hx => ?_⟩
  obtain ⟨m, z, ks, b1, b2, b3⟩ := k.predicts hs hd hx
  have d1 : ks = ls := List.map_injective_iff.mpr (Option.some_injective AnyLayer) (b2.symm.trans hk)
  subst d1
  obtain ⟨p, hp'⟩ := List.getLast?_eq_some_iff.mp hw.stop
  obtain ⟨b, hb, hsb⟩ := getElem?_map_eq hsh.symm hf
  obtain ⟨l', rfl⟩ := act_of_shape hsb.symm
  rw [hp', List.map_append, List.map_cons, List.map_nil, hb] at hk
  obtain ⟨ks1, ks2, rfl, _, e2⟩ := List.map_eq_append_iff.mp hk.symm
  obtain ⟨a, t, rfl, e3, e4⟩ := List.map_eq_cons_iff.mp e2
  cases e3
  cases List.map_eq_nil_iff.mp e4
  obtain ⟨q', m1, m2⟩ := mapsAll_append hm
  cases m2 with
  | cons m2 _ =>
  obtain ⟨u, u1, u2⟩ := yieldsAll_of_maps m1 hx
  obtain ⟨y, y1, _, y3⟩ := inRange_yields m2 u1
  have := composition_unique b3 (u2.append (.cons y1 (.nil y))).composition
  subst this
  exact ⟨m, z, b1, y3⟩

/-- A hyperbolic tangent, a sigmoid or a softmax anywhere on the walk to the first output layer bounds the predictions
for all inputs at once: they differ from what the later layers make of zeros by at most the product of the gains of
these layers. -/
theorem C109_bounded (ops : List Op) (hops : ∀ op ∈ ops, Joins op) (net : Net)
    (hg : net.graph = (built ops).graph) (n : Nat) (ha : Agrees net n) (hp : Plain net) (hl : ListsRight net.graph)
    (hacyc : Acyclic (trainArc net.graph)) (hloss : ∀ i ∈ net.graph.loss, ∃ x, trainArc net.graph x i)
    (hne : ∃ i, i < net.graph.layers.length ∧ i ∉ net.graph.loss) :
    ∃ p o, net.graph.outputs.head? = some o ∧ Walk net.graph p o ∧
      ∀ (σ : Type) (opt : σ → ℝ → ℝ → σ × ℝ) (s : σ) (cs : List UserCall), (∀ c ∈ cs, Suitable net n c) →
        ∃ r ls, serve opt cs (s, net) = .ok r ∧ p.map (fun i => r.2.layers[i]?) = ls.map some ∧
          ∀ before f l after, ls = before ++ .act f l :: after → Squashes f →
            ∃ q y0, Composition after (List.replicate q 0) y0 ∧
              ∀ x : List ℝ, x.length = n → ∃ m y, r.2.predict x = .ok (m, .ok y) ∧ y.length = y0.length ∧
                ∀ i, |vec y i - vec y0 i| ≤ gains after := by
  obtain ⟨h1, h2⟩ := reached_of_acyclic hops hg hl hacyc hloss hne
  have hs := shaped_reached hops hg ha hl h1 h2
  obtain ⟨o, os, ho, hw⟩ := hs.route_walk
  refine ⟨route net.graph, o, by rw [ho]; rfl, hw, ?_⟩
  intro σ opt s cs hc
  obtain ⟨r, er, k⟩ := serve_total hs opt cs s net (kept_self ha) hc
  have hd := simple_of_shapes (serve_shape opt cs s net r er) (simple_of_plain hp)
  obtain ⟨ls, q, hk, hm⟩ := k.maps_walk hs hd hw
  refine ⟨r, ls, er, hk, ?_⟩
  intro before f l after e hf
  subst e
  obtain ⟨q', y0, g1, g2, g3⟩ := squashed_close hf hm
  refine ⟨q', y0, g1, fun x hx => ?_⟩
  obtain ⟨y, y1, y2, y3⟩ := g3 x hx
  obtain ⟨m, z, ks, b1, b2, b3⟩ := k.predicts hs hd hx
  have d1 := List.map_injective_iff.mpr (Option.some_injective AnyLayer) (b2.symm.trans hk)
  rw [d1] at b3
  have := composition_unique b3 y1
  subst this
  exact ⟨m, z, b1, y2.trans g2.symm, y3⟩

/-! ### Examples -/

/-- The model of C89 ends in a hyperbolic tangent: whatever its weights are and however it has been trained, its
predictions are between -1 and 1. -/
example (w b : List ℝ) (hw : w.length = 6) (hb : b.length = 3) (eta : ℝ) :
    ∃ r, serve (Opt.gdStep eta) [.step [1, 2] [0, 1, 0], .train] ((), meshNet w b) = .ok r ∧
      ∀ x : List ℝ, x.length = 2 → ∃ m y, r.2.predict x = .ok (m, .ok y) ∧ ∀ v ∈ y, -1 < v ∧ v < 1 := by
  obtain ⟨o, h1, h2⟩ := C109_range mesh (by simp [mesh, Joins]) (meshNet w b) rfl 2
    (mesh_agrees w b hw hb) (mesh_plain w b) mesh_right (acyclic_of_lt (by decide)) mesh_loss
    ⟨0, by show 0 < (built mesh).graph.layers.length; decide, by show 0 ∉ (built mesh).graph.loss; decide⟩
  have ho : (built mesh).graph.outputs.head? = some 3 := by decide
  cases ho.symm.trans h1
  refine h2 .tanh (Act.Layer.new 3) rfl Unit (Opt.gdStep eta) () _ ?_
  intro c hc
  simp only [List.mem_cons, List.not_mem_nil, or_false] at hc
  rcases hc with rfl | rfl
  · exact mesh_suitable w b _ _ _ _ _ (.inr (by norm_num))
  · trivial

/-- The second theorem for the same model, with the hyperbolic tangent as the bounding layer. -/
example (w b : List ℝ) (hw : w.length = 6) (hb : b.length = 3) :
    ∃ y0, ∀ x : List ℝ, x.length = 2 → ∃ m y, (meshNet w b).predict x = .ok (m, .ok y) ∧
      ∀ i, |vec y i - vec y0 i| ≤ 1 := by
  obtain ⟨p, o, h1, h2, h3⟩ := C109_bounded mesh (by simp [mesh, Joins]) (meshNet w b) rfl 2
    (mesh_agrees w b hw hb) (mesh_plain w b) mesh_right (acyclic_of_lt (by decide)) mesh_loss
    ⟨0, by show 0 < (built mesh).graph.layers.length; decide, by show 0 ∉ (built mesh).graph.loss; decide⟩
  have ho : (built mesh).graph.outputs.head? = some 3 := by decide
  cases ho.symm.trans h1
  obtain ⟨r, ls, e, hk, h⟩ := h3 Unit (Opt.gdStep 1) () [] (by intro c hc; cases hc)
  cases e
  obtain ⟨p', hp'⟩ := List.getLast?_eq_some_iff.mp h2.stop
  rw [hp', List.map_append] at hk
  obtain ⟨ks1, ks2, rfl, _, e2⟩ := List.map_eq_append_iff.mp hk.symm
  obtain ⟨a, t, rfl, e3, e4⟩ := List.map_eq_cons_iff.mp e2
  cases List.map_eq_nil_iff.mp e4
  cases e3
  obtain ⟨q, y0, _, g⟩ := h ks1 .tanh (Act.Layer.new 3) [] rfl trivial
  refine ⟨y0, fun x hx => ?_⟩
  obtain ⟨m, y, y1, _, y3⟩ := g x hx
  exact ⟨m, y, y1, fun i => by simpa [gains] using y3 i⟩

/-- A rectifier is not bounded. -/
example (B : ℝ) : ∃ x y : ℝ, Act.relu x = y ∧ B < y :=
  ⟨max B 0 + 1, _, rfl, by
    have h1 := le_max_left B 0
    have h2 := le_max_right B 0
    unfold Act.relu
    rw [if_neg (by linarith)]
    linarith⟩

end

end Verif.Props
