import Verif.Proofs.History
import Verif.Proofs.NnEval
import Verif.Props.Dense
import Verif.Props.Net

/-! Properties C72 and C73: data sets through feedforward networks. -/

namespace Verif.Props

open Verif.Net Verif.Graph Verif.Spec

noncomputable section

/-! ### C35 after training -/

theorem mapsAll_shape {n m : Nat} {as : List AnyLayer} (h : MapsAll n m as) : ∀ {bs : List AnyLayer},
    bs.map shape = as.map shape → MapsAll n m bs := by
  induction h with
  | nil n =>
    intro bs e
    rw [List.map_nil, List.map_eq_nil_iff] at e
    rw [e]
    exact .nil n
  | cons h1 _ ih =>
    intro bs e
    cases bs with
    | nil => cases e
    | cons b bs =>
      simp only [List.map_cons, List.cons.injEq] at e
      exact .cons (maps_core (core_of_shape e.1.symm) (maps_setParams h1 (lengths_of_shape e.1))) (ih e.2)

/-- **C35** after training (with the same exclusions as `C35_predict_partial`): after any history of `predict`,
`step`, `reset_score`, `train` with any optimizers, and `init`, `predict(x)` returns `layer_n(… layer_1(x))`,
computed with the layers as they are then. -/
theorem C35_history_partial (ops : List Op) (n0 n : Net) (hg : n0.graph = (built ops).graph)
    (hrun : Reaches n0 n) (p : List Nat) (hp : IsPath n0.graph p) (h2 : 2 ≤ p.length)
    (layers : List AnyLayer) (hk : p.map (fun i => n0.layers[i]?) = layers.map some)
    (x : List ℝ) (m : Nat) (hm : MapsAll x.length m layers) :
    ∃ (layers' : List AnyLayer) (n' : Net) (y : List ℝ), p.map (fun i => n.layers[i]?) = layers'.map some ∧
      n.predict x = .ok (n', .ok y) ∧ Composition layers' x y ∧ y.length = m := by
  obtain ⟨s1, s2⟩ := reaches_shape hrun
  have hget : ∀ (i : Nat) (a : AnyLayer), n0.layers[i]? = some a → ∃ b, n.layers[i]? = some b ∧ shape b = shape a := by
    intro i a ha
    have := congrArg (fun z => z[i]?) s2
    simp only [List.getElem?_map, ha, Option.map_some] at this
    cases hb : n.layers[i]? with
    | none => rw [hb] at this; cases this
    | some b =>
      rw [hb] at this
      simp only [Option.map_some, Option.some.injEq] at this
      exact ⟨b, rfl, this⟩
  have hex : ∀ (p : List Nat) (layers : List AnyLayer), p.map (fun i => n0.layers[i]?) = layers.map some →
      ∃ layers' : List AnyLayer, p.map (fun i => n.layers[i]?) = layers'.map some ∧
        layers'.map shape = layers.map shape := by
    intro p
    induction p with
    | nil =>
      intro layers h
      cases layers with
      | nil => exact ⟨[], rfl, rfl⟩
      | cons a as => cases h
    | cons i p ih =>
      intro layers h
      cases layers with
      | nil => cases h
      | cons a as =>
        simp only [List.map_cons, List.cons.injEq] at h
        obtain ⟨b, hb1, hb2⟩ := hget i a h.1
        obtain ⟨bs, hbs1, hbs2⟩ := ih as h.2
        exact ⟨b :: bs, by simp only [List.map_cons, hb1, hbs1], by simp only [List.map_cons, hb2, hbs2]⟩
  obtain ⟨layers', k1, k2⟩ := hex p layers hk
  have hok : MOk (built ops) := mok_run ops mok_empty
  have hs : SomeLists n0.graph := by
    rw [hg]
    exact someLists_run ops mok_empty someLists_empty
  have hl : Lists n0.graph := lists_of_path hs hp h2
  obtain ⟨y, hy1, hy2⟩ := yieldsAll_of_maps (mapsAll_shape hm k2) rfl
  obtain ⟨n', e⟩ := predict_path (n0 := n) (n := n) (by rw [s1, hg]; exact hok.ok) (by rw [s1]; exact hl) ⟨rfl, rfl⟩
    (by rw [s1]; exact hp) (by rintro rfl; simp at h2) k1 hy2
  exact ⟨layers', n', y, k1, e, hy2.composition, hy1⟩

/-- A dense layer and a rectifier, after a call of `train` with any optimizer: the hypotheses are met. -/
example {σ : Type} (opt : σ → ℝ → ℝ → σ × ℝ) (s : σ) (x : List ℝ) (hx : x.length = 2) :
    ∃ (layers' : List AnyLayer) (n' : Net) (y : List ℝ),
      (Net.train opt s ⟨(built twoLayers).graph, [.dense (denseNew 2 3), .act .relu (Act.Layer.new 3)]⟩).1.2.predict x
        = .ok (n', .ok y) ∧ Composition layers' x y ∧ y.length = 3 := by
  obtain ⟨ls, n', y, _, e1, e2, e3⟩ := C35_history_partial twoLayers
    ⟨(built twoLayers).graph, [.dense (denseNew 2 3), .act .relu (Act.Layer.new 3)]⟩ _ rfl
    (.train opt s (.refl _)) [0, 1] two_path (by simp) [.dense (denseNew 2 3), .act .relu (Act.Layer.new 3)] rfl x 3
    (.cons (k := 3) (by rw [hx]; exact ⟨rfl, rfl, rfl, rfl, rfl⟩) (.cons ⟨rfl, rfl⟩ (.nil _)))
  exact ⟨ls, n', y, e1, e2, e3⟩

/-- **C35** for feedforward networks in use: whatever data sets were predicted, evaluated or fitted before. -/
theorem C35_used_partial (ds : List Descriptor) (f : Fnn) (outcomes : List (Option String))
    (h : Fnn.empty.addAll ds = .ok (f, outcomes)) (hne : accepted ds outcomes ≠ [])
    (hr : ∀ a ∈ f.layers, Regular a) (z : AnyLayer) (hz : f.layers.getLast? = some z)
    (g : Fnn) (hg : Used f g) (x : List ℝ) (hx : x.length = declaredInput ds) :
    ∃ n' y, g.net.predict x = .ok (n', .ok y) ∧
      Composition (withTheta f.layers (paramsOf g.net f.layers.length)) x y ∧ y.length = z.outputSize := by
  obtain ⟨_, h1, h2⟩ := Nn.path_used h hne hr hg hz
  obtain ⟨y, hy1, hy2⟩ := yieldsAll_of_maps h2.maps hx
  obtain ⟨n', e⟩ := predict_path h2.ok h2.lists h1 h2.path h2.ne h2.layers hy2
  exact ⟨n', y, e, hy2.composition, hy1⟩

/-! ### C72: predictions -/

theorem paramsOf_same {n n' : Net} (h : Same n n') (k : Nat) : paramsOf n' k = paramsOf n k := by
  have e : ∀ m : Net, paramsOf m k = ((m.layers.map core).take k).map AnyLayer.params := by
    intro m
    unfold paramsOf
    rw [← List.map_take, List.map_map]
    exact List.map_congr_left fun a _ => (params_core a).symm
  rw [e, e, h.2]

/-- **C72** (for networks without dropout, for data sets without label columns): whatever was done with a
feedforward network before, `predict` returns a data set with one row per row of its argument: what the layers
compute, with their current parameters, from that row.  The parameters stay as they are. -/
theorem C72_predict_partial (ds : List Descriptor) (f : Fnn) (outcomes : List (Option String))
    (h : Fnn.empty.addAll ds = .ok (f, outcomes)) (hne : accepted ds outcomes ≠ [])
    (hr : ∀ a ∈ f.layers, Regular a) (z : AnyLayer) (hz : f.layers.getLast? = some z)
    (hpos : 0 < z.outputSize) (g : Fnn) (hg : Used f g) (d : Data.Dataset ℝ) (hd : Consistent d)
    (hsize : d.featureSize = declaredInput ds) :
    ∃ n' r, Nn.predict g.net d = .ok (n', .ok r) ∧
      rows r = (rows d).map (prediction (withTheta f.layers (paramsOf g.net f.layers.length))) ∧
      (∀ v ∈ rows r, v.length = z.outputSize) ∧ Consistent r ∧ r.labelsIdx = ∅ ∧
      paramsOf n' f.layers.length = paramsOf g.net f.layers.length := by
  obtain ⟨_, h1, h2⟩ := Nn.path_used h hne hr hg hz
  obtain ⟨n', r, e1, e2, e3, e4, e5, e6⟩ := h2.predict_data h1 hd hpos fun _ => hsize
  refine ⟨n', r, e1, e5, ?_, e3, e4, ?_⟩
  · intro v hv
    rw [e5] at hv
    obtain ⟨u, hu, rfl⟩ := List.mem_map.mp hv
    obtain ⟨i, hi, rfl⟩ := List.mem_map.mp hu
    rw [List.mem_range] at hi
    obtain ⟨_, _, _, e⟩ := h2.predict h1 (x := row d i) (by rw [Data.row_length hd hi, hsize])
    exact e
  · exact (paramsOf_same e2 _).trans (paramsOf_same h1 _).symm

theorem mapsAll_head {n m : Nat} {a : AnyLayer} {as : List AnyLayer} (h : MapsAll n m (a :: as)) :
    ∃ k, Maps n k a := by
  cases h with
  | cons h _ => exact ⟨_, h⟩

theorem dense_setParams (l : Dense.Layer ℝ) (ps : List (List ℝ)) :
    ∃ l', (AnyLayer.dense l).setParams ps = .dense l' :=
  match ps with
  | [] | [_] | [_, _] | _ :: _ :: _ :: _ => ⟨_, rfl⟩

/-- **C72 is false** for data sets with label columns: `predict` passes whole rows, labels included, to the
network.  If the first layer is dense and a row is longer than the network's input, this is undefined behaviour. -/
theorem C72_labelled_refuted (ds : List Descriptor) (f : Fnn) (outcomes : List (Option String))
    (h : Fnn.empty.addAll ds = .ok (f, outcomes)) (hne : accepted ds outcomes ≠ [])
    (hr : ∀ a ∈ f.layers, Regular a) (l : Dense.Layer ℝ) (hl : f.layers[0]? = some (.dense l))
    (hpos : 0 < l.outputSize) (g : Fnn) (hg : Used f g) (d : Data.Dataset ℝ) (hd : Consistent d)
    (hn : 0 < d.size) (hin : d.inputIdx.card = declaredInput ds) (hlab : d.labelsIdx ≠ ∅) :
    Nn.predict g.net d = .ub := by
  obtain ⟨z, hz⟩ : ∃ z, f.layers.getLast? = some z := by
    cases e : f.layers.getLast? with
    | none => rw [List.getLast?_eq_none_iff] at e; rw [e] at hl; cases hl
    | some z => exact ⟨z, rfl⟩
  obtain ⟨_, h1, h2⟩ := Nn.path_used h hne hr hg hz
  have hk : ∃ θ0 k, (withTheta f.layers (paramsOf g.net f.layers.length))[0]? = some ((AnyLayer.dense l).setParams θ0) ∧
      Maps (declaredInput ds) k ((AnyLayer.dense l).setParams θ0) := by
    have hm := h2.maps
    unfold withTheta at hm ⊢
    cases e1 : f.layers with
    | nil => rw [e1] at hl; cases hl
    | cons a as =>
      rw [e1] at hl hm
      cases hl
      cases e2 : paramsOf g.net (AnyLayer.dense l :: as).length with
      | nil =>
        rw [e2] at hm
        have := h2.layers
        unfold withTheta at this
        rw [e1, e2] at this
        simp at this
      | cons θ0 θ =>
        rw [e2] at hm
        obtain ⟨k, hk⟩ := mapsAll_head hm
        exact ⟨θ0, k, rfl, hk⟩
  obtain ⟨θ0, k, k1, k2⟩ := hk
  obtain ⟨b, b1, b2⟩ := getElem?_core h1.2 (i := 0) (by
    show (withTheta f.layers _ ++ _)[0]? = _
    rw [List.getElem?_append_left (by
      cases e : withTheta f.layers (paramsOf g.net f.layers.length) with
      | nil => rw [e] at k1; cases k1
      | cons a as => simp), k1])
  have k3 := maps_core b2 k2
  have k4 : b.outputSize = l.outputSize := by
    rw [Nn.outputSize_core b2, Nn.outputSize_setParams]
    rfl
  obtain ⟨l1, hl1⟩ := dense_setParams l θ0
  rw [hl1] at b2
  cases b with
  | dense l' =>
    obtain ⟨m1, m2, m3, m4, m5⟩ := k3
    have k5 : l'.outputSize = l.outputSize := k4
    have hlt : l'.inputSize < (row d 0).length := by
      rw [Data.row_length hd hn, m1, ← hin]
      have hsub : d.inputIdx ⊂ Finset.range d.featureSize := by
        rw [Finset.ssubset_iff_of_subset fun i hi => Finset.mem_range.mpr ((hd.inputs i).mp hi).1]
        obtain ⟨i, hi⟩ := Finset.nonempty_iff_ne_empty.mpr hlab
        exact ⟨i, Finset.mem_range.mpr (hd.labels i hi), fun e => ((hd.inputs i).mp e).2 hi⟩
      simpa using Finset.card_lt_card hsub
    have hub := C04_long_input_ub l' (row d 0) hlt (m3.trans m2.symm) (by omega) (by rw [m4, m1, m2])
      (m5.trans m2.symm)
    obtain ⟨a0, rest, hp⟩ : ∃ a rest, List.range f.layers.length = a :: rest := by
      cases e : List.range f.layers.length with
      | nil => exact absurd e h2.ne
      | cons a rest => exact ⟨a, rest, rfl⟩
    have ha0 : a0 = 0 := by
      have := congrArg (fun z => z[0]?) hp
      have hlen : 0 < f.layers.length := (List.getElem?_eq_some_iff.mp hl).1
      rw [List.getElem?_range hlen] at this
      cases this
      rfl
    subst ha0
    have hpath := h2.path
    rw [hp] at hpath
    obtain ⟨_, q2, q3⟩ := path_facts h2.ok h2.lists hpath
    have q2' : g.net.graph.inputs = [0] := q2
    have q3' : g.net.graph.outputs = [(0 :: rest).getLast (by simp)] := q3
    have hpred : g.net.predict (row d 0) = .ub := by
      unfold Net.predict
      rw [q3', q2']
      show (forwardAt (row d 0) g.net.layers (Source.external, 0) >>= _) >>= _ = Exec.ub
      have : forwardAt (row d 0) g.net.layers (Source.external, 0) = .ub := by
        unfold forwardAt
        show (rd g.net.layers 0 >>= _) = Exec.ub
        rw [rd_of_some b1, Exec.bind_ok]
        show (keep _ (l'.forward (row d 0)) _ >>= _) = Exec.ub
        rw [hub]
        rfl
      rw [this]
      rfl
    unfold Nn.predict
    rw [h2.outputSize h1, Exec.bind_ok]
    obtain ⟨j, hj⟩ : ∃ j, d.size = j + 1 := ⟨d.size - 1, by omega⟩
    rw [hj, List.range_succ_eq_map]
    have : Nn.predictRow d z.outputSize (g.net, List.replicate ((j + 1) * z.outputSize) 0) 0 = .ub := by
      unfold Nn.predictRow
      rw [Data.entry_ok hd hn, Exec.bind_ok]
      dsimp only
      rw [hpred]
      rfl
    show (Nn.predictRow d z.outputSize (g.net, List.replicate ((j + 1) * z.outputSize) 0) 0 >>= _) >>= _ = Exec.ub
    rw [this]
    rfl
  | _ => cases b2

/-- A small network: two inputs, three hidden units with ReLU, one sigmoid output. -/
def smallNet : List Descriptor :=
  [⟨.input [⟨2, 1, 1⟩], .none⟩, ⟨.dense [⟨3, 1, 1⟩], .relu⟩, ⟨.dense [⟨1, 1, 1⟩], .sigmoid⟩]

/-- Four points, the third column is a label. -/
def points : Data.Dataset ℝ := Data.ofVec [0, 0, 0, 0, 1, 1, 1, 0, 1, 1, 1, 0] 3 1 {2}

/-- The same points without labels. -/
def unlabelled : Data.Dataset ℝ := Data.ofVec [0, 0, 0, 1, 1, 0, 1, 1] 2 1 ∅

theorem small_built : ∃ f, Fnn.empty.addAll smallNet = .ok (f, [none, none, none]) ∧
    (∀ a ∈ f.layers, Regular a) ∧ (∃ l, f.layers[0]? = some (.dense l) ∧ 0 < l.outputSize) ∧
    ∃ z, f.layers.getLast? = some z ∧ z.outputSize = 1 := by
  refine ⟨_, rfl, ?_, ⟨_, rfl, by decide⟩, _, rfl, rfl⟩
  intro a ha
  obtain ⟨i, hi⟩ := List.mem_iff_getElem?.mp ha
  match i with
  | 0 | 1 | 2 | 3 => cases hi; trivial
  | i + 4 => cases hi

/-- The hypotheses of the two theorems are met: four predictions for the points without labels, also after a
prediction and a training run; undefined behaviour for the points with labels. -/
example (rg : Init.Random) : ∃ f, Fnn.empty.addAll smallNet = .ok (f, [none, none, none]) ∧
    (∀ g, Used f g → ∃ n' r, Nn.predict g.net unlabelled = .ok (n', .ok r) ∧ (rows r).length = 4) ∧
    (∃ n r, Nn.predict f.net unlabelled = .ok (n, r) ∧ Used f { f with layers := n.layers }) ∧
    Nn.predict f.net points = .ub := by
  obtain ⟨f, h1, h2, ⟨l, h3, h4⟩, z, h5, h6⟩ := small_built
  have hd : Consistent unlabelled := Data.consistent_ofVec _ _ _ _
  have hp : Consistent points := Data.consistent_ofVec _ _ _ _
  have key : ∀ g, Used f g → ∃ n' r, Nn.predict g.net unlabelled = .ok (n', .ok r) ∧ (rows r).length = 4 := by
    intro g hg
    obtain ⟨n', r, e1, e2, _⟩ := C72_predict_partial smallNet f _ h1 (by intro e; cases e) h2 z h5 (by omega) g hg
      unlabelled hd rfl
    refine ⟨n', r, e1, ?_⟩
    rw [e2]
    rfl
  refine ⟨f, h1, key, ?_, ?_⟩
  · obtain ⟨n', r, e1, _⟩ := key f .new
    exact ⟨n', _, e1, .predict _ .new e1⟩
  · exact C72_labelled_refuted smallNet f _ h1 (by intro e; cases e) h2 l h3 h4 f .new points hp (by decide)
      (by decide) (by decide)

/-! ### C73: evaluation -/

open Classical in
/-- **C73**: whatever was done with a feedforward network (without dropout) before, evaluating it on labelled
data of the right sizes gives the mean loss of its current predictions and the fraction of them that are
correct, over all samples; the other numbers of the result follow from these; the parameters stay as they are. -/
theorem C73_evaluate (ds : List Descriptor) (f : Fnn) (outcomes : List (Option String))
    (h : Fnn.empty.addAll ds = .ok (f, outcomes)) (hne : accepted ds outcomes ≠ [])
    (hr : ∀ a ∈ f.layers, Regular a) (z : AnyLayer) (hz : f.layers.getLast? = some z)
    (hpos : 0 < z.outputSize) (g : Fnn) (hg : Used f g) (lf : LossFn) (d : Data.Dataset ℝ) (hd : Consistent d)
    (hin : d.inputIdx.card = declaredInput ds) (hin0 : 0 < declaredInput ds)
    (hlab : d.labelsIdx.card = z.outputSize)
    (hu : ∀ i, i < d.size → (scoring lf z.outputSize).usable (sampleLabel d i)) :
    let y := fun i => prediction (withTheta f.layers (paramsOf g.net f.layers.length)) (sampleInput d i)
    ∃ n' r, Nn.evaluate lf g.net d = .ok (n', .ok r) ∧
      r.loss = meanOver d.size (fun i => (scoring lf z.outputSize).value (sampleLabel d i) (y i)) ∧
      r.accuracy = fractionOf d.size (fun i => (scoring lf z.outputSize).good (sampleLabel d i) (y i)) ∧
      0 ≤ r.accuracy ∧ r.accuracy ≤ 1 ∧ r.accuracyPerc = 100 * r.accuracy ∧
      r.errorRate = 1 - r.accuracy ∧ r.errorRatePerc = 100 * r.errorRate ∧
      paramsOf n' f.layers.length = paramsOf g.net f.layers.length := by
  intro y
  obtain ⟨_, h1, h2⟩ := Nn.path_used h hne hr hg hz
  obtain ⟨n', r, e1, e2, e3⟩ := h2.evaluate h1 lf hd hpos hin hin0 hlab hu
  have hacc : r.accuracy = fractionOf d.size (fun i => (scoring lf z.outputSize).good (sampleLabel d i) (y i)) := by
    rw [e3]
    rfl
  refine ⟨n', r, e1, by rw [e3]; rfl, hacc, ?_, ?_, ?_, by rw [e3]; rfl, ?_,
    (paramsOf_same e2 _).trans (paramsOf_same h1 _).symm⟩
  · rw [hacc]
    unfold fractionOf
    positivity
  · rw [hacc]
    unfold fractionOf
    refine div_le_one_of_le₀ ?_ (Nat.cast_nonneg _)
    have := Finset.card_filter_le (Finset.range d.size)
      fun i => (scoring lf z.outputSize).good (sampleLabel d i) (y i)
    rw [Finset.card_range] at this
    exact_mod_cast this
  · rw [e3]
    exact mul_comm _ _
  · rw [e3]
    exact mul_comm _ _

/-- **C73**, data without labels: `evaluate` throws and leaves the parameters as they are. -/
theorem C73_no_labels (ds : List Descriptor) (f : Fnn) (outcomes : List (Option String))
    (h : Fnn.empty.addAll ds = .ok (f, outcomes)) (hne : accepted ds outcomes ≠ [])
    (hr : ∀ a ∈ f.layers, Regular a) (z : AnyLayer) (hz : f.layers.getLast? = some z)
    (hpos : 0 < z.outputSize) (g : Fnn) (hg : Used f g) (lf : LossFn) (d : Data.Dataset ℝ) (hd : Consistent d)
    (hin : d.inputIdx.card = declaredInput ds) (hin0 : 0 < declaredInput ds)
    (hlab : d.labelsIdx = ∅) (hsz : 0 < d.size) :
    ∃ n' msg, Nn.evaluate lf g.net d = .ok (n', .error msg) ∧
      paramsOf n' f.layers.length = paramsOf g.net f.layers.length := by
  obtain ⟨_, h1, h2⟩ := Nn.path_used h hne hr hg hz
  obtain ⟨n', msg, e1, e2⟩ := h2.evaluate_unlabelled h1 lf hd hpos hin hin0 hlab hsz
  exact ⟨n', msg, e1, (paramsOf_same e2 _).trans (paramsOf_same h1 _).symm⟩

/-- The small network and the four points meet the hypotheses, for both losses where the labels allow it. -/
example : ∃ f, Fnn.empty.addAll smallNet = .ok (f, [none, none, none]) ∧
    (∀ g, Used f g → ∃ n' r, Nn.evaluate .mse g.net points = .ok (n', .ok r) ∧ r.accuracy ≤ 1) ∧
    (∀ g, Used f g → ∃ n' msg, Nn.evaluate .cce g.net unlabelled = .ok (n', .error msg)) := by
  obtain ⟨f, h1, h2, _, z, h5, h6⟩ := small_built
  have hd : Consistent unlabelled := Data.consistent_ofVec _ _ _ _
  have hp : Consistent points := Data.consistent_ofVec _ _ _ _
  refine ⟨f, h1, fun g hg => ?_, fun g hg => ?_⟩
  · obtain ⟨n', r, e1, _, _, _, e5, _⟩ := C73_evaluate smallNet f _ h1 (by intro e; cases e) h2 z h5 (by omega) g hg
      .mse points hp rfl (by decide) (by rw [h6]; rfl) (by
        intro i hi
        show sampleLabel points i ≠ []
        intro e
        have := congrArg List.length e
        unfold sampleLabel at this
        rw [Data.pick_row hp hi hp.labels, List.length_map, Data.iter_length] at this
        exact absurd this (by decide))
    exact ⟨n', r, e1, e5⟩
  · obtain ⟨n', msg, e1, _⟩ := C73_no_labels smallNet f _ h1 (by intro e; cases e) h2 z h5 (by omega) g hg
      .cce unlabelled hd rfl (by decide) rfl (by decide)
    exact ⟨n', msg, e1⟩

end

end Verif.Props
