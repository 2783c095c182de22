import Verif.Proofs.Mlpack
import Verif.Props.Net

/-! C95: layers work on the rows, columns and channels they are given. C96: networks of both frameworks. -/

namespace Verif.Props

open Verif Verif.Net Verif.Graph Verif.Spec

noncomputable section

/-- **C95**, unless a layer with a window follows a dropout layer that gets more than one column or channel without a
dense layer between them: for every input shape `g` and every list of descriptors that can be added, each layer works
on the rows, columns and channels that the layers before it give, and the output has the size of the last ones. -/
theorem C95_grids_partial (g : Shape3) (t : ActivationType) (ds : List Descriptor) (hp : PlaceableAll g ds)
    (hu : Undisturbed g ds) :
    ∃ f : Fnn, Fnn.empty.addAll (⟨.input [g], t⟩ :: ds) = .ok (f, none :: List.replicate ds.length none) ∧
      (∀ (i : Nat) (d : Descriptor), ds[i]? = some d →
        ∃ a, f.layers[2 * i]? = some a ∧ WorksOn (gridOf g (ds.take i)) a) ∧
      ∀ a, f.layers.getLast? = some a → a.outputSize = (gridOf g ds).size := by
  obtain ⟨f', s', e1, e2, e3, e4, ext, e5, e6, e7, e8⟩ := addAll_grid ds True g g
    ⟨Graph.Model.empty, [], [g], false⟩ 0 (seen_of ds True g hp hu (Or.inl trivial)) (fun _ => rfl) rfl pathGraph_empty
    rfl rfl
  have e5' : f'.layers = ext := by rw [e5]; rfl
  refine ⟨f', ?_, ?_, ?_⟩
  · show (Fnn.addAll ⟨Graph.Model.empty, [], [g], false⟩ ds >>= _) = _
    rw [e1]
    rfl
  · rw [e5']; exact e7
  · rw [e5']; exact e8

/-- A convolutional network: images of 8 rows, 8 columns and 3 channels, two convolutions, pooling, dropout, dense. -/
def convNet (p : ℝ) (raw : Nat → Nat) : List Descriptor :=
  [⟨.conv 4 ⟨3, 3⟩ ⟨1, 1⟩ ⟨1, 1⟩, .relu⟩, ⟨.maxPool ⟨2, 2⟩ ⟨2, 2⟩, .none⟩, ⟨.conv 8 ⟨3, 3⟩ ⟨1, 1⟩ ⟨0, 0⟩, .relu⟩,
    ⟨.dropout p 7 raw, .none⟩, ⟨.dense [⟨10, 1, 1⟩], .softmax⟩]

theorem conv_grids (p : ℝ) (raw : Nat → Nat) (i : Nat) (hi : i < 5) :
    gridOf ⟨8, 8, 3⟩ ((convNet p raw).take i)
      = ([⟨8, 8, 3⟩, ⟨8, 8, 4⟩, ⟨4, 4, 4⟩, ⟨2, 2, 8⟩, ⟨2, 2, 8⟩] : List Shape3).getD i ⟨0, 0, 0⟩ := by
  have h1 : placements 8 3 1 1 = 8 := by decide
  have h2 : placements 8 2 2 0 = 4 := by decide
  have h3 : placements 4 3 1 0 = 2 := by decide
  match i with
  | 0 | 1 | 2 | 3 | 4 => simp [gridOf, convNet, gridAfter, h1, h2, h3]
  | i + 5 => omega

theorem conv_placeable (p : ℝ) (raw : Nat → Nat) : PlaceableAll ⟨8, 8, 3⟩ (convNet p raw) := by
  intro i d hi
  have hlt : i < 5 := (List.getElem?_eq_some_iff.mp hi).1
  rw [conv_grids p raw i hlt]
  match i, hi with
  | 0, hi | 1, hi | 2, hi =>
    cases hi
    exact ⟨by decide, by decide, by decide, by decide, by decide, by decide, by decide, by decide, by decide, by decide⟩
  | 3, hi => cases hi; trivial
  | 4, hi => cases hi; rfl
  | i + 5, hi => omega

theorem conv_undisturbed (p : ℝ) (raw : Nat → Nat) : Undisturbed ⟨8, 8, 3⟩ (convNet p raw) := by
  refine ⟨?_, ?_⟩
  · intro i j d e hij hd he ⟨p', mx, raw', hk⟩ hw
    have hj : j < 5 := (List.getElem?_eq_some_iff.mp he).1
    match i, hd with
    | 0, hd | 1, hd | 2, hd => cases hd; cases hk
    | 3, hd =>
      obtain rfl : j = 4 := by omega
      cases he
      exact False.elim hw
    | i + 4, hd => omega
  · intro d u s hd hk hs
    simp only [convNet, List.mem_cons, List.not_mem_nil, or_false] at hd
    rcases hd with rfl | rfl | rfl | rfl | rfl
    all_goals first | (cases hk; done) | skip
    cases hk
    rw [List.mem_singleton] at hs
    subst hs
    exact ⟨rfl, rfl⟩

/-- The hypotheses of `C95_grids_partial` hold for the network above: its second convolution works on 4 rows, 4 columns
and 4 channels. -/
example (p : ℝ) (raw : Nat → Nat) : ∃ (f : Fnn) (a : AnyLayer),
    Fnn.empty.addAll (⟨.input [⟨8, 8, 3⟩], .none⟩ :: convNet p raw) = .ok (f, [none, none, none, none, none, none]) ∧
      f.layers[4]? = some a ∧ WorksOn ⟨4, 4, 4⟩ a := by
  obtain ⟨f, e1, e2, _⟩ := C95_grids_partial ⟨8, 8, 3⟩ .none (convNet p raw) (conv_placeable p raw)
    (conv_undisturbed p raw)
  obtain ⟨a, h1, h2⟩ := e2 2 _ rfl
  refine ⟨f, a, e1, h1, ?_⟩
  rw [conv_grids p raw 2 (by omega)] at h2
  exact h2

/-- **C95** is false with dropout layers: a pooling layer after a dropout layer works on one column and one channel
with as many rows as there are numbers, whatever the rows, columns and channels of the input are. -/
theorem C95_dropout_refuted (g : Shape3) (hg : ¬ Flat g) (t t1 t2 : ActivationType) (p : ℝ) (mx : Nat)
    (raw : Nat → Nat) (kernel stride : Shape2)
    (hk : (⟨⟨g.size, 1, 1⟩, kernel.h, kernel.w, stride.h, stride.w, 0, 0⟩ : Geom).Fits) :
    gridOf g [⟨.dropout p mx raw, t1⟩] = g ∧
    ∃ (f : Fnn) (l : Slide.PoolLayer ℝ),
      Fnn.empty.addAll [⟨.input [g], t⟩, ⟨.dropout p mx raw, t1⟩, ⟨.maxPool kernel stride, t2⟩]
        = .ok (f, [none, none, none]) ∧
      f.layers[2]? = some (.maxPool l) ∧ l.input = ⟨g.size, 1, 1⟩ ∧ l.input ≠ g ∧
      Nn.outputSize f.net = .ok (placements g.size kernel.h stride.h 0 * placements 1 kernel.w stride.w 0) := by
  refine ⟨rfl, ?_⟩
  obtain ⟨m', e1, e2⟩ := attach_ok (f := ⟨Graph.Model.empty, [], [g], false⟩) pathGraph_empty t1
    (.dropout mx raw (Drop.Layer.new g.size p)) (s := ⟨g.size, 1, 1⟩)
  have e3 : Fnn.add ⟨Graph.Model.empty, [], [g], false⟩ ⟨.dropout p mx raw, t1⟩ = .ok (⟨m', _, _, _⟩, none) := e1
  obtain ⟨l, l1, l2, l3⟩ := pool_mk hk
  obtain ⟨m2, a1, a2⟩ := attach_ok (f := ⟨m', [.dropout mx raw (Drop.Layer.new g.size p),
    .act t1.fn (Act.Layer.new (⟨g.size, 1, 1⟩ : Shape3).size)], [⟨g.size, 1, 1⟩], false⟩) e2 t2 (.maxPool l)
    (s := l.output)
  have e4 : Fnn.add ⟨m', [.dropout mx raw (Drop.Layer.new g.size p),
      .act t1.fn (Act.Layer.new (⟨g.size, 1, 1⟩ : Shape3).size)], [⟨g.size, 1, 1⟩], false⟩ ⟨.maxPool kernel stride, t2⟩
      = .ok (⟨m2, [.dropout mx raw (Drop.Layer.new g.size p), .act t1.fn (Act.Layer.new (⟨g.size, 1, 1⟩ : Shape3).size),
        .maxPool l, .act t2.fn (Act.Layer.new l.output.size)], [l.output], false⟩, none) := by
    rw [add_eq rfl]
    have : construct (.maxPool kernel stride) [⟨g.size, 1, 1⟩] = .ok (.maxPool l, [l.output]) := by
      show (LayerShape.shape [⟨g.size, 1, 1⟩] >>= fun s => Slide.PoolLayer.mk' s kernel stride >>= _) = _
      rw [show LayerShape.shape [⟨g.size, 1, 1⟩] = .ok ⟨g.size, 1, 1⟩ from rfl, Exec.bind_ok, l1]
      rfl
    simp only [this]
    exact a1
  refine ⟨⟨m2, [.dropout mx raw (Drop.Layer.new g.size p), .act t1.fn (Act.Layer.new (⟨g.size, 1, 1⟩ : Shape3).size),
        .maxPool l, .act t2.fn (Act.Layer.new l.output.size)], [l.output], false⟩, l, ?_, rfl, l2, ?_, ?_⟩
  rotate_left
  · rw [l2]
    intro h
    exact hg (h ▸ ⟨rfl, rfl⟩)
  rotate_left
  · show (Fnn.addAll ⟨Graph.Model.empty, [], [g], false⟩ [⟨.dropout p mx raw, t1⟩, ⟨.maxPool kernel stride, t2⟩] >>= _) = _
    simp only [Fnn.addAll]
    rw [e3, Exec.bind_ok]
    dsimp only
    simp only [List.nil_append, List.cons_append]
    rw [e4]
    rfl
  · unfold Nn.outputSize
    show (match m2.graph.outputs with | [] => _ | o :: _ => _) = _
    rw [(path_outputs a2).1]
    show Exec.ok _ = _
    simp [AnyLayer.outputSize, Act.Layer.new, l3, Shape3.size]

/-- The hypotheses of `C95_dropout_refuted` hold for images of 2 rows and 2 columns. -/
example : ¬ Flat ⟨2, 2, 1⟩ ∧ (⟨⟨(⟨2, 2, 1⟩ : Shape3).size, 1, 1⟩, 2, 1, 1, 1, 0, 0⟩ : Geom).Fits :=
  ⟨by simp [Flat], by decide, by decide, by decide, by decide, by decide, by decide, by decide, by decide, by decide,
    by decide⟩

/-- **C96** for the construction with mlpack: every list of descriptors that can be added makes, for each descriptor,
the layer of the library that stands for it, on the rows, columns and channels the layers before give, followed by its
activation; the sizes are those of the first and the last of these grids. -/
theorem C96_mlpack_layers (g : Shape3) (t : ActivationType) (ds : List Descriptor) (hp : PlaceableAll g ds) :
    ∃ f : Mlpack.Fnn, Mlpack.Fnn.empty.addAll (⟨.input [g], t⟩ :: ds) = .ok (f, none :: List.replicate ds.length none) ∧
      f.added.length = 2 * ds.length ∧
      (∀ (i : Nat) (d : Descriptor), ds[i]? = some d →
        (∃ l, f.added[2 * i]? = some l ∧ MlImplements (gridOf g (ds.take i)) d.kind l) ∧
        ∃ l, f.added[2 * i + 1]? = some l ∧ MlActivates d.activation l) ∧
      f.inputSize = .ok g.size ∧ f.outputSize = .ok (gridOf g ds).size ∧ (f.fitCheck = none ↔ ds ≠ []) := by
  obtain ⟨f', ext, e1, e2, e3, e4, e5, e6, e7⟩ := Mlpack.addAll_grid ds g ⟨[], [g], [g], 0, false⟩ hp rfl rfl
  have e5' : f'.added = ext := by rw [e5]; rfl
  refine ⟨f', ?_, ?_, ?_, ?_, ?_, ?_⟩
  · show (Mlpack.Fnn.addAll ⟨[], [g], [g], 0, false⟩ ds >>= _) = _
    rw [e1]
    rfl
  · rw [e5']; exact e6
  · rw [e5']; exact e7
  · unfold Mlpack.Fnn.inputSize; rw [e2]; rfl
  · unfold Mlpack.Fnn.outputSize; rw [e3]; rfl
  · unfold Mlpack.Fnn.fitCheck
    rw [e4]
    cases ds <;> simp

/-- **C96**, unless a layer with a window follows a dropout layer that gets more than one column or channel: both
frameworks accept the same descriptors and report the same sizes. -/
theorem C96_sizes_partial (g : Shape3) (t : ActivationType) (ds : List Descriptor) (hd : ds ≠ [])
    (hp : PlaceableAll g ds) (hu : Undisturbed g ds) :
    ∃ (f : Fnn) (m : Mlpack.Fnn) (outcomes : List (Option String)),
      Fnn.empty.addAll (⟨.input [g], t⟩ :: ds) = .ok (f, outcomes) ∧
      Mlpack.Fnn.empty.addAll (⟨.input [g], t⟩ :: ds) = .ok (m, outcomes) ∧
      (∀ o ∈ outcomes, o = none) ∧
      Nn.inputSize f.net = m.inputSize ∧ Nn.outputSize f.net = m.outputSize := by
  obtain ⟨f', s', e1, e2, e3, e4, ext, e5, e6, e7, e8⟩ := addAll_grid ds True g g
    ⟨Graph.Model.empty, [], [g], false⟩ 0 (seen_of ds True g hp hu (Or.inl trivial)) (fun _ => rfl) rfl pathGraph_empty
    rfl rfl
  have e5' : f'.layers = ext := by rw [e5]; rfl
  obtain ⟨m, m1, -, -, m2, m3, -⟩ := C96_mlpack_layers g t ds hp
  refine ⟨f', m, _, ?_, m1, ?_, ?_, ?_⟩
  · show (Fnn.addAll ⟨Graph.Model.empty, [], [g], false⟩ ds >>= _) = _
    rw [e1]
    rfl
  · intro o ho
    rcases List.mem_cons.mp ho with rfl | ho
    · rfl
    · exact (List.mem_replicate.mp ho).2
  · obtain ⟨d, ds, rfl⟩ := List.exists_cons_of_ne_nil hd
    obtain ⟨k, hk⟩ : ∃ k, 0 + 2 * (d :: ds).length = k + 2 := ⟨2 * ds.length, by simp; omega⟩
    rw [hk] at e4
    obtain ⟨a, h1, h2⟩ := e7 0 d rfl
    rw [m2]
    unfold Nn.inputSize
    show (match f'.model.graph.inputs with | [] => _ | i :: _ => _) = _
    rw [(path_outputs e4).2]
    show (rd f'.layers 0 >>= _) = _
    rw [e5', rd, h1]
    show Exec.ok a.inputSize = _
    congr 1
    cases a <;> first | exact h2 | (rw [show g = _ from h2.symm]; rfl)
  · obtain ⟨k, hk⟩ : ∃ k, 0 + 2 * ds.length = k + 2 :=
      ⟨2 * ds.length - 2, by have := List.length_pos_of_ne_nil hd; omega⟩
    rw [hk] at e4
    rw [m3]
    unfold Nn.outputSize
    show (match f'.model.graph.outputs with | [] => _ | i :: _ => _) = _
    rw [(path_outputs e4).1]
    show (rd f'.layers (k + 1) >>= _) = _
    have hl : ext.length = k + 2 := by omega
    obtain ⟨a, ha⟩ : ∃ a, ext[k + 1]? = some a := ⟨_, List.getElem?_eq_getElem (by omega)⟩
    rw [e5', rd, ha]
    show Exec.ok a.outputSize = _
    rw [e8 a (by rw [List.getLast?_eq_getElem?, hl]; exact ha)]

/-- The hypotheses of `C96_mlpack_layers` and `C96_sizes_partial` hold for the network above: the second convolution of
mlpack gets 4 channels of 4 rows and 4 columns. -/
example (p : ℝ) (raw : Nat → Nat) : ∃ m : Mlpack.Fnn,
    Mlpack.Fnn.empty.addAll (⟨.input [⟨8, 8, 3⟩], .none⟩ :: convNet p raw)
      = .ok (m, [none, none, none, none, none, none]) ∧
    m.added[4]? = some (.convolution 4 8 3 3 1 1 0 0 4 4) := by
  obtain ⟨m, m1, -, m2, -⟩ := C96_mlpack_layers ⟨8, 8, 3⟩ .none (convNet p raw) (conv_placeable p raw)
  obtain ⟨⟨l, h1, h2⟩, -⟩ := m2 2 _ rfl
  refine ⟨m, m1, h1.trans ?_⟩
  rw [conv_grids p raw 2 (by omega)] at h2
  exact congrArg some h2

example (p : ℝ) (raw : Nat → Nat) : ∃ (f : Fnn) (m : Mlpack.Fnn) (outcomes : List (Option String)),
    Fnn.empty.addAll (⟨.input [⟨8, 8, 3⟩], .none⟩ :: convNet p raw) = .ok (f, outcomes) ∧
      Mlpack.Fnn.empty.addAll (⟨.input [⟨8, 8, 3⟩], .none⟩ :: convNet p raw) = .ok (m, outcomes) ∧
      (∀ o ∈ outcomes, o = none) ∧
      Nn.inputSize f.net = m.inputSize ∧ Nn.outputSize f.net = m.outputSize :=
  C96_sizes_partial _ _ _ (by simp [convNet]) (conv_placeable p raw) (conv_undisturbed p raw)

/-- **C96** is false with dropout layers: for images of 2 rows and 2 columns, dropout and then pooling over windows of
2 rows and 1 column, the framework of the repository reports 3 outputs and mlpack 2. -/
theorem C96_dropout_refuted (t t1 t2 : ActivationType) (p : ℝ) (mx : Nat) (raw : Nat → Nat) :
    ∃ (f : Fnn) (m : Mlpack.Fnn) (outcomes : List (Option String)),
      Fnn.empty.addAll [⟨.input [⟨2, 2, 1⟩], t⟩, ⟨.dropout p mx raw, t1⟩, ⟨.maxPool ⟨2, 1⟩ ⟨1, 1⟩, t2⟩]
        = .ok (f, outcomes) ∧
      Mlpack.Fnn.empty.addAll [⟨.input [⟨2, 2, 1⟩], t⟩, ⟨.dropout p mx raw, t1⟩, ⟨.maxPool ⟨2, 1⟩ ⟨1, 1⟩, t2⟩]
        = .ok (m, outcomes) ∧
      Nn.outputSize f.net = .ok 3 ∧ m.outputSize = .ok 2 := by
  obtain ⟨-, f, l, e1, -, -, -, e2⟩ := C95_dropout_refuted ⟨2, 2, 1⟩ (by simp [Flat]) t t1 t2 p mx raw ⟨2, 1⟩ ⟨1, 1⟩
    ⟨by decide, by decide, by decide, by decide, by decide, by decide, by decide, by decide, by decide, by decide⟩
  obtain ⟨m, m1, -, -, -, m2, -⟩ := C96_mlpack_layers ⟨2, 2, 1⟩ t [⟨.dropout p mx raw, t1⟩, ⟨.maxPool ⟨2, 1⟩ ⟨1, 1⟩, t2⟩] (by
    intro i d hi
    match i, hi with
    | 0, hi => cases hi; trivial
    | 1, hi =>
      cases hi
      show (⟨⟨2, 2, 1⟩, 2, 1, 1, 1, 0, 0⟩ : Geom).Fits
      exact ⟨by decide, by decide, by decide, by decide, by decide, by decide, by decide, by decide, by decide,
        by decide⟩
    | i + 2, hi => simp at hi)
  refine ⟨f, m, _, e1, m1, ?_, ?_⟩
  · rw [e2]
    exact congrArg Exec.ok (by decide)
  · rw [m2]
    have : gridOf ⟨2, 2, 1⟩ [⟨.dropout p mx raw, t1⟩, ⟨.maxPool ⟨2, 1⟩ ⟨1, 1⟩, t2⟩]
        = ⟨placements 2 2 1 0, placements 2 1 1 0, 1⟩ := rfl
    rw [this]
    exact congrArg Exec.ok (by decide)

/-- **C96** is false for `fit` after a rejected call of `add`: with mlpack a network whose only descriptors are two
`Input` descriptors passes the check for networks without layers, the framework of the repository throws. -/
theorem C96_guard_refuted (u v : LayerShape) (t t' : ActivationType) :
    ∃ (f : Fnn) (m : Mlpack.Fnn) (outcomes : List (Option String)),
      Fnn.empty.addAll [⟨.input u, t⟩, ⟨.input v, t'⟩] = .ok (f, outcomes) ∧
      Mlpack.Fnn.empty.addAll [⟨.input u, t⟩, ⟨.input v, t'⟩] = .ok (m, outcomes) ∧
      (∀ lf batch, f.addLosses lf batch = .ok (f, some "The FNN has no layer: call add before fit")) ∧
      m.added = [] ∧ m.fitCheck = none := by
  refine ⟨⟨Graph.Model.empty, [], u, false⟩, ⟨[], u, u, 1, false⟩, [none, some _], rfl, rfl, ?_, rfl, rfl⟩
  intro lf batch
  rfl

end

end Verif.Props
