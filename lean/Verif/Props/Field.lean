import Verif.Proofs.Field
import Verif.Props.Gain

/-! C110: convolutional networks treat all places of an image alike. -/

namespace Verif.Props

open Verif Verif.Net Verif.Graph Verif.Spec

noncomputable section

/-- **C110** for models of any shape without cycles and without dropout, recurrent and concatenation layers, after any
history of predictions, training steps, calls of the optimizer and resets of the scores, if the layers on the walk to
the first output layer make images from images.  Let the rectangle `p` of the prediction be computed from the rectangle
`q` of the input.  If another image shows the same in the rectangle moved by `down` and `right` times the product of
the strides, its prediction shows the same in `p` moved by `down` and `right`, whatever the rest of the two images
is. -/
theorem C110_moved (ops : List Op) (hops : ∀ op ∈ ops, Joins op) (net : Net)
    (hg : net.graph = (built ops).graph) (n : Nat) (ha : Agrees net n) (hp : Plain net) (hl : ListsRight net.graph)
    (hacyc : Acyclic (trainArc net.graph)) (hloss : ∀ i ∈ net.graph.loss, ∃ x, trainArc net.graph x i)
    (hne : ∃ i, i < net.graph.layers.length ∧ i ∉ net.graph.loss) :
    ∃ w o ls, net.graph.outputs.head? = some o ∧ Walk net.graph w o ∧
      w.map (fun i => net.layers[i]?) = ls.map some ∧
      ∀ s t : Shape3, s.size = n → AllOnImages s t ls →
      ∀ (σ : Type) (opt : σ → ℝ → ℝ → σ × ℝ) (st : σ) (cs : List UserCall), (∀ c ∈ cs, Suitable net n c) →
        ∃ r, serve opt cs (st, net) = .ok r ∧
          ∀ (q p : Window) (down right : Nat) (x x' : List ℝ), Sees ls q p → x.length = n → x'.length = n →
            SamePatch s x q x' (q.moved (down * (ls.map rowStride).prod) (right * (ls.map colStride).prod)) →
            ∃ m m' y y', r.2.predict x = .ok (m, .ok y) ∧ r.2.predict x' = .ok (m', .ok y') ∧
              SamePatch t y p y' (p.moved down right) := by
  obtain ⟨h1, h2⟩ := reached_of_acyclic hops hg hl hacyc hloss hne
  have hs := shaped_reached hops hg ha hl h1 h2
  obtain ⟨o, os, ho, hw⟩ := hs.route_walk
  obtain ⟨ls, _, hk0, _⟩ := (kept_self (n := n) ha).maps_walk hs (simple_of_plain hp) hw
  refine ⟨route net.graph, o, ls, by rw [ho]; rfl, hw, hk0, ?_⟩
  intro s t hn hi σ opt st cs hc
  obtain ⟨r, er, k⟩ := serve_total hs opt cs st net (kept_self ha) hc
  have hsh := serve_shape opt cs st net r er
  have hd := simple_of_shapes hsh (simple_of_plain hp)
  refine ⟨r, er, fun q p down right x x' hq hx hx' hsame => ?_⟩
  obtain ⟨m, z, ks, b1, b2, b3⟩ := k.predicts hs hd hx
  obtain ⟨m', z', ks', c1, c2, c3⟩ := k.predicts hs hd hx'
  have inj := List.map_injective_iff.mpr (Option.some_injective AnyLayer)
  have d2 : ks' = ks := inj (c2.symm.trans b2)
  subst d2
  have e : ls.map shape = ks'.map shape := by
    refine List.map_injective_iff.mpr (Option.some_injective AnyLayer) ?_
    have g : ∀ (as : List AnyLayer) (ts : List AnyLayer), (route net.graph).map (fun i => as[i]?) = ts.map some →
        (ts.map shape).map some = (route net.graph).map (fun i => (as.map shape)[i]?) := by
      intro as ts h
      have := congrArg (List.map (Option.map shape)) h
      simp only [List.map_map] at this ⊢
      rw [show (some ∘ shape) = (Option.map shape ∘ some) from rfl, ← this]
      simp [Function.comp_def]
    rw [g _ _ hk0, g _ _ b2, hsh]
  obtain ⟨y, y', f1, f2, f3⟩ := layers_patch (allOnImages_of_shapes hi e) (sees_of_shapes hq e)
    (sees_of_shapes (sees_moved hq down right) e) (hx.trans hn.symm) (hx'.trans hn.symm) hsame
  have g1 := composition_unique b3 f1.composition
  have g2 := composition_unique c3 f2.composition
  subst g1 g2
  exact ⟨m, m', z, z', b1, c1, f3⟩

/-- A rectangle of the prediction depends on the rectangle it is computed from only: changes of the image elsewhere do
not show in it. -/
theorem C110_local (ops : List Op) (hops : ∀ op ∈ ops, Joins op) (net : Net)
    (hg : net.graph = (built ops).graph) (n : Nat) (ha : Agrees net n) (hp : Plain net) (hl : ListsRight net.graph)
    (hacyc : Acyclic (trainArc net.graph)) (hloss : ∀ i ∈ net.graph.loss, ∃ x, trainArc net.graph x i)
    (hne : ∃ i, i < net.graph.layers.length ∧ i ∉ net.graph.loss) :
    ∃ w o ls, net.graph.outputs.head? = some o ∧ Walk net.graph w o ∧
      w.map (fun i => net.layers[i]?) = ls.map some ∧
      ∀ s t : Shape3, s.size = n → AllOnImages s t ls →
      ∀ (σ : Type) (opt : σ → ℝ → ℝ → σ × ℝ) (st : σ) (cs : List UserCall), (∀ c ∈ cs, Suitable net n c) →
        ∃ r, serve opt cs (st, net) = .ok r ∧
          ∀ (q p : Window) (x x' : List ℝ), Sees ls q p → x.length = n → x'.length = n → SamePatch s x q x' q →
            ∃ m m' y y', r.2.predict x = .ok (m, .ok y) ∧ r.2.predict x' = .ok (m', .ok y') ∧
              SamePatch t y p y' p := by
  obtain ⟨w, o, ls, h1, h2, h3, h4⟩ := C110_moved ops hops net hg n ha hp hl hacyc hloss hne
  refine ⟨w, o, ls, h1, h2, h3, fun s t hn hi σ opt st cs hc => ?_⟩
  obtain ⟨r, er, h⟩ := h4 s t hn hi σ opt st cs hc
  refine ⟨r, er, fun q p x x' hq hx hx' hsame => ?_⟩
  have z : ∀ u : Window, u.moved 0 0 = u := fun _ => rfl
  simpa [z] using h q p 0 0 x x' hq hx hx' (by simpa [z] using hsame)

/-! ### Example -/

/-- A convolution with two filters of 3 by 3 on images of 6 by 6, a hyperbolic tangent, and average pooling. -/
def eyeLayers (w : List ℝ) : List AnyLayer :=
  [.conv ⟨⟨6, 6, 1⟩, ⟨4, 4, 2⟩, ⟨3, 3⟩, 2, ⟨1, 1⟩, ⟨0, 0⟩, w, [0, 0], List.replicate 18 0, [0, 0],
    List.replicate 36 0, List.replicate 32 0, []⟩,
   .act .tanh (Act.Layer.new 32),
   .avgPool ⟨⟨4, 4, 2⟩, ⟨2, 2, 2⟩, ⟨2, 2⟩, ⟨2, 2⟩, List.replicate 32 0, List.replicate 8 0, []⟩]

def eye : List Op := [.addLayer, .addLayer, .addLayer, .edge ⟨0, false⟩ ⟨1, false⟩, .edge ⟨1, false⟩ ⟨2, false⟩]

def eyeNet (w : List ℝ) : Net := ⟨(built eye).graph, eyeLayers w⟩

theorem eye_graph : (built eye).graph.loss = [] ∧ (built eye).graph.inputs = [0] ∧
    (built eye).graph.outputs = [2] ∧ (built eye).graph.layers.length = 3 ∧
    (built eye).graph.training = [(0, [1]), (1, [2])] ∧ (built eye).graph.forward = [(0, [1]), (1, [2])] := by decide

theorem eye_onImages (w : List ℝ) (hw : w.length = 18) : AllOnImages ⟨6, 6, 1⟩ ⟨2, 2, 2⟩ (eyeLayers w) := by
  have p1 : placements 6 3 1 0 = 4 := by decide
  have p2 : placements 4 2 2 0 = 2 := by decide
  refine .cons (k := ⟨4, 4, 2⟩) ⟨by decide, ⟨⟨⟨6, 6, 1⟩, 3, 3, 1, 1, 0, 0⟩, ?_, rfl, rfl, rfl, rfl, ?_, ?_, ?_, rfl⟩,
    rfl, ?_⟩ (.cons (k := ⟨4, 4, 2⟩) ⟨by decide, ⟨rfl, by simp [Act.Layer.new, Shape3.size]⟩, rfl⟩
    (.cons (k := ⟨2, 2, 2⟩) ⟨by decide, ⟨⟨⟨4, 4, 2⟩, 2, 2, 2, 2, 0, 0⟩, ?_, ⟨rfl, rfl⟩, rfl, rfl, rfl, ?_, ?_, rfl⟩,
      rfl, ?_⟩ (.nil _)))
  · constructor <;> decide
  · simp [hw]
  · simp [Shape3.size]
  · simp [Shape3.size, Geom.rows, Geom.cols, p1]
  · simp [p1]
  · constructor <;> decide
  · simp [Shape3.size]
  · simp [Shape3.size, Geom.rows, Geom.cols, p2]
  · simp [p2]

theorem eye_layer {w : List ℝ} {i : Nat} {a : AnyLayer} (h : (eyeNet w).layers[i]? = some a) :
    i < 3 ∧ (eyeLayers w)[i]? = some a := by
  have h' : (eyeLayers w)[i]? = some a := h
  exact ⟨(List.getElem?_eq_some_iff.mp h').1, h'⟩

theorem eye_next {x y : Nat} (h : y ∈ successors (built eye).graph.forward x) : (x = 0 ∧ y = 1) ∨ (x = 1 ∧ y = 2) := by
  obtain ⟨s, h1, h2⟩ := (mem_successors (mok_run eye mok_empty).ok.forward x y).mp h
  have h1' : (x, s) ∈ (built eye).graph.forward := h1
  rw [eye_graph.2.2.2.2.2] at h1'
  simp only [List.mem_cons, Prod.mk.injEq, List.not_mem_nil, or_false] at h1'
  rcases h1' with ⟨rfl, rfl⟩ | ⟨rfl, rfl⟩ <;> simp at h2 <;> subst h2 <;> simp

theorem eye_agrees (w : List ℝ) (hw : w.length = 18) : Agrees (eyeNet w) 36 := by
  obtain ⟨g1, g2, _, g3, g4, _⟩ := eye_graph
  refine ⟨?_, g3.symm, ?_, ?_, ?_⟩
  · intro a ha
    have ha' : a ∈ eyeLayers w := ha
    simp only [eyeLayers, List.mem_cons, List.not_mem_nil, or_false] at ha'
    rcases ha' with rfl | rfl | rfl
    · refine ⟨.conv ⟨⟨6, 6, 1⟩, ⟨4, 4, 2⟩, ⟨3, 3⟩, 2, ⟨1, 1⟩, ⟨0, 0⟩, List.replicate 18 0, [0, 0],
        List.replicate 18 0, [0, 0], List.replicate 36 0, List.replicate 32 0, []⟩, [w, [0, 0]],
        .inl ⟨.conv 2 ⟨3, 3⟩ ⟨1, 1⟩ ⟨0, 0⟩, ⟨⟨6, 6, 1⟩, _, rfl, rfl⟩, fun _ => ?_⟩, ?_, rfl⟩
      · constructor <;> decide
      · simp [AnyLayer.params, hw]
    · exact ⟨_, [], .inr (.inl ⟨.tanh, 32, rfl, fun h => by cases h⟩), rfl, rfl⟩
    · refine ⟨_, [], .inl ⟨.avgPool ⟨2, 2⟩ ⟨2, 2⟩, ⟨⟨4, 4, 2⟩, _, rfl, rfl⟩, fun _ => ?_⟩, rfl, rfl⟩
      constructor <;> decide
  · intro i a ha
    show _ ↔ i ∈ (built eye).graph.loss
    rw [g1]
    have := List.mem_of_getElem? (eye_layer ha).2
    simp only [eyeLayers, List.mem_cons, List.not_mem_nil, or_false] at this
    rcases this with rfl | rfl | rfl <;> simp [Spec.AnyLayer.isLoss]
  · intro i a hi ha
    change i ∈ (built eye).graph.inputs at hi
    rw [g2, List.mem_singleton] at hi
    subst hi
    cases ha
    rfl
  · intro x y a c hxy hx hy
    obtain ⟨s, h1, h2⟩ := (mem_successors (mok_run eye mok_empty).ok.training x y).mp hxy
    have h1' : (x, s) ∈ (built eye).graph.training := h1
    rw [g4] at h1'
    simp only [List.mem_cons, Prod.mk.injEq, List.not_mem_nil, or_false] at h1'
    rcases h1' with ⟨rfl, rfl⟩ | ⟨rfl, rfl⟩ <;> simp at h2 <;> subst h2 <;> cases hx <;> cases hy
    · simp [AnyLayer.takes, AnyLayer.gives, AnyLayer.inputSize, AnyLayer.outputSize, Act.Layer.new, Shape3.size]
    · simp [AnyLayer.takes, AnyLayer.gives, AnyLayer.inputSize, AnyLayer.outputSize, Act.Layer.new, Shape3.size]

theorem eye_walk {g : DLGraph} (e : g = (built eye).graph) {p : List Nat} {o : Nat} (h : Walk g p o) (ho : o = 2) :
    p = [0, 1, 2] := by
  subst e ho
  obtain ⟨⟨i, h1, h2⟩, h3, h4⟩ := h
  rw [eye_graph.2.1, List.mem_singleton] at h1
  subst h1
  match p, h2, h3, h4 with
  | [0], _, _, h4 => simp at h4
  | 0 :: a :: q, _, h3, h4 =>
    rcases eye_next (h3 0 a (by simp)) with ⟨_, rfl⟩ | ⟨h, _⟩
    · match q, h3, h4 with
      | [], _, h4 => simp at h4
      | b :: q, h3, h4 =>
        rcases eye_next (h3 1 b (by simp)) with ⟨h, _⟩ | ⟨_, rfl⟩
        · cases h
        · match q, h3 with
          | [], _ => rfl
          | c :: q, h3 => rcases eye_next (h3 2 c (by simp)) with ⟨h, _⟩ | ⟨h, _⟩ <;> cases h
    · cases h

/-- The first cell of the prediction of this model is computed from the 4 by 4 cells in the first corner of the image.
If another image shows the same in its last corner, which is two cells further down and to the right, the last cell of
its prediction is the same. -/
example (w : List ℝ) (hw : w.length = 18) (x x' : List ℝ) (hx : x.length = 36) (hx' : x'.length = 36)
    (h : ∀ a b, a < 4 → b < 4 → vec x (a * 6 + b) = vec x' ((2 + a) * 6 + (2 + b))) :
    ∃ m m' y y', (eyeNet w).predict x = .ok (m, .ok y) ∧ (eyeNet w).predict x' = .ok (m', .ok y') ∧
      vec y 0 = vec y' 6 ∧ vec y 1 = vec y' 7 := by
  obtain ⟨p, o, ls, h1, h2, h3, h4⟩ := C110_moved eye (by simp [eye, Joins]) (eyeNet w) rfl 36 (eye_agrees w hw)
    ⟨fun f f1 l hm => by
        have hm' : AnyLayer.rnn f f1 l ∈ eyeLayers w := hm
        simp [eyeLayers] at hm',
      fun mx raw l hm => by
        have hm' : AnyLayer.dropout mx raw l ∈ eyeLayers w := hm
        simp [eyeLayers] at hm'⟩
    (C33_lists_partial [.addLayer, .addLayer, .addLayer, .edge ⟨0, false⟩ ⟨1, false⟩] [] ⟨1, false⟩ ⟨2, false⟩
      (by decide) (by decide) (by simp)).2
    (acyclic_of_lt (by decide)) (by
      intro i hi
      have hi' : i ∈ (built eye).graph.loss := hi
      rw [eye_graph.1] at hi'
      cases hi')
    ⟨0, by show 0 < (built eye).graph.layers.length; decide, by show 0 ∉ (built eye).graph.loss; decide⟩
  have ho : o = 2 := by
    have h1' : (built eye).graph.outputs.head? = some o := h1
    rw [eye_graph.2.2.1] at h1'
    cases h1'
    rfl
  cases eye_walk rfl h2 ho
  have hls : ls = eyeLayers w := List.map_injective_iff.mpr (Option.some_injective AnyLayer) h3.symm
  subst hls
  obtain ⟨r, er, g⟩ := h4 ⟨6, 6, 1⟩ ⟨2, 2, 2⟩ rfl (eye_onImages w hw) Unit (Opt.gdStep 1) () []
    (by intro c hc; cases hc)
  cases er
  obtain ⟨m, m', y, y', e1, e2, e3⟩ := g ⟨0, 0, 4, 4⟩ ⟨0, 0, 1, 1⟩ 1 1 x x'
    (.conv (q := ⟨0, 0, 2, 2⟩) rfl rfl (.act (by simp) (.avgPool (q := ⟨0, 0, 1, 1⟩) (.nil _)))) hx hx' (by
      intro a b ch ha hb hch
      have ha : a < 4 := ha
      have hb : b < 4 := hb
      have hch : ch < 1 := hch
      obtain rfl : ch = 0 := by omega
      refine ⟨⟨show 0 + a < 6 by omega, show 0 + b < 6 by omega, show 2 + a < 6 by omega, show 2 + b < 6 by omega⟩, ?_⟩
      have := h a b ha hb
      simpa [cellIdx, Window.moved, eyeLayers, rowStride, colStride] using this)
  refine ⟨m, m', y, y', e1, e2, ?_, ?_⟩
  · exact (e3 0 0 0 (by decide) (by decide) (by decide)).2
  · exact (e3 0 0 1 (by decide) (by decide) (by decide)).2

end

end Verif.Props
