import Verif.Proofs.Fnn
import Verif.Props.Graph
import Mathlib.Analysis.SpecialFunctions.Artanh
import Mathlib.Tactic.NormNum
import Mathlib.Tactic.Ring

/-! C35, C36, C64: models as functions and the construction of feedforward networks. -/

namespace Verif.Props

open Verif Verif.Net Verif.Graph Verif.Spec

/-! ### C36 -/

/-- **C36**: whatever descriptors are added to a new feedforward network (exceptions caught), its model
is the path layer₁, activation₁, layer₂, activation₂, … of the accepted descriptors: same forward and
training connections, reversed backward connections, layers of the described classes, consecutive
sizes agree, and the first layer takes the size declared by the leading `Input`. -/
theorem C36_chain (ds : List Descriptor) (f : Fnn) (outcomes : List (Option String))
    (h : Fnn.empty.addAll ds = .ok (f, outcomes)) :
    let acc := accepted ds outcomes
    f.layers.length = 2 * acc.length ∧
    f.model.graph.layers.length = 2 * acc.length ∧ f.model.graph.loss = [] ∧
    IsPath f.model.graph (List.range (2 * acc.length)) ∧
    (∀ x y, trainArc f.model.graph x y ↔ fwdArc f.model.graph x y) ∧
    (∀ x y, backArc f.model.graph x y ↔ fwdArc f.model.graph y x) ∧
    (∀ j d, acc[j]? = some d →
      (∃ a, f.layers[2 * j]? = some a ∧ Implements d.kind a) ∧
      (∃ b, f.layers[2 * j + 1]? = some b ∧ IsActivation d.activation b)) ∧
    (∀ i a b, f.layers[i]? = some a → f.layers[i + 1]? = some b → a.outputSize = b.inputSize) ∧
    (∀ a, f.layers[0]? = some a → a.inputSize = declaredInput ds) := by
  have hb := built_all h
  refine ⟨hb.layers, hb.graph.length, hb.graph.loss, isPath_of_pathGraph hb.graph, ?_, ?_, ?_,
    hb.sizes, hb.start⟩
  · intro x y
    exact (hb.graph.training x y).trans (hb.graph.forward x y).symm
  · intro x y
    exact (hb.graph.backward x y).trans (hb.graph.forward y x).symm
  · intro j d hd
    obtain ⟨a, b, h1, h2, h3, h4⟩ := hb.described j d hd
    refine ⟨⟨a, h1, h2⟩, b, h3, ?_⟩
    cases hda : d.activation <;> rw [hda] at h4 <;> exact ⟨_, h4⟩

/-- **C36**: after any first `add`, adding an `Input` throws and leaves the network as it was. -/
theorem C36_input_only_first (ds : List Descriptor) (hne : ds ≠ []) (f : Fnn)
    (outcomes : List (Option String)) (h : Fnn.empty.addAll ds = .ok (f, outcomes))
    (units : LayerShape) (t : ActivationType) :
    f.add ⟨.input units, t⟩
      = .ok (f, some "Model structure error: Input layer have to be put as first layer") := by
  have hf : f.firstAdd = false := by
    cases ds with
    | nil => exact absurd rfl hne
    | cons d ds =>
      obtain ⟨⟨f1, e⟩, h1, h⟩ := Exec.bind_eq_ok h
      obtain ⟨⟨f2, es⟩, h2, h⟩ := Exec.bind_eq_ok h
      cases h
      have h0 : Fnn.empty.addAll [d] = .ok (f1, [e]) := by
        show (Fnn.empty.add d >>= fun r => _) = _
        rw [h1]
        rfl
      have hf1 : f1.firstAdd = false := by
        by_cases hd : isInput d = true
        · obtain ⟨k, a⟩ := d
          cases k with
          | input units => cases h1; rfl
          | _ => simp [isInput] at hd
        · rw [add_first rfl (by simpa using hd)] at h1
          exact (built_add (built_empty (LayerShape.ofSize 0) 0
            (by intro s hs; cases hs; rfl) false) rfl h1).1
      have hb := built_all h0
      exact (built_addAll ds hb hf1 h2).1
  rw [add_eq hf]
  rfl

/-- The conditions under which every `add` succeeds: after a leading `Input` no other, and declared
shapes that are not empty lists. -/
def WellFormed : List Descriptor → Prop
  | [] => True
  | d :: ds => (∀ u, d.kind = .input u → u ≠ []) ∧ (∀ u, d.kind = .dense u → u ≠ []) ∧
      ∀ e ∈ ds, isInput e = false ∧ ∀ u, e.kind = .dense u → u ≠ []

theorem no_exception_tail (ds : List Descriptor) : ∀ {f f' : Fnn} {acc : List Descriptor} {n0 : Nat}
    {outs : List (Option String)}, Built f acc n0 → f.firstAdd = false → f.outputShape ≠ [] →
    (∀ e ∈ ds, isInput e = false ∧ ∀ u, e.kind = .dense u → u ≠ []) →
    f.addAll ds = .ok (f', outs) → ∀ o ∈ outs, o = none := by
  induction ds with
  | nil => intro f f' acc n0 outs _ _ _ _ h; cases h; simp
  | cons d ds ih =>
    intro f f' acc n0 outs hb hf hs hw h
    obtain ⟨⟨f1, e⟩, h1, h⟩ := Exec.bind_eq_ok h
    obtain ⟨⟨f2, es⟩, h2, h⟩ := Exec.bind_eq_ok h
    cases h
    have hd := hw d (by simp)
    obtain ⟨s, ss, hss⟩ := List.exists_cons_of_ne_nil hs
    have key : e = none ∧ f1.outputShape ≠ [] := by
      rw [add_eq hf] at h1
      cases hc : construct d.kind f.outputShape with
      | ub => rw [hc] at h1; cases h1
      | throw m =>
        rw [hss] at hc
        obtain ⟨k, a⟩ := d
        exfalso
        cases k with
        | input u => simp [isInput] at hd
        | dense u =>
          obtain ⟨v, vs, rfl⟩ := List.exists_cons_of_ne_nil (hd.2 u rfl)
          cases hc
        | dropout p mx raw => cases hc
        | conv nf k st p =>
          simp only [construct, LayerShape.shape, Exec.bind_ok, Slide.ConvLayer.mk',
            Slide.convOutputShape, Slide.outputSide] at hc
          split_ifs at hc <;> cases hc
        | maxPool k st =>
          simp only [construct, LayerShape.shape, Exec.bind_ok, Slide.PoolLayer.mk',
            Slide.poolOutputShape, Slide.outputSide] at hc
          split_ifs at hc <;> cases hc
        | avgPool k st =>
          simp only [construct, LayerShape.shape, Exec.bind_ok, Slide.PoolLayer.mk',
            Slide.poolOutputShape, Slide.outputSide] at hc
          split_ifs at hc <;> cases hc
      | ok r =>
        rw [hc] at h1
        obtain ⟨_, _, s', h4, _⟩ := construct_ok hc
        obtain ⟨a, sh⟩ := r
        dsimp only at h4 h1
        subst h4
        obtain ⟨m', e1, _⟩ := attach_ok hb.graph d.activation a (s := s')
        rw [e1] at h1
        cases h1
        exact ⟨rfl, by simp⟩
    obtain ⟨rfl, hs1⟩ := key
    obtain ⟨g1, g2 | g2⟩ := built_add hb hf h1
    · intro o ho
      rcases List.mem_cons.mp ho with rfl | ho
      · rfl
      · exact ih g2.2.2 g1 hs1 (fun x hx => hw x (by simp [hx])) h2 o ho
    · simp at g2

/-- **C36**: for a well-formed list no `add` throws, so the accepted descriptors are all but the
leading `Input`. -/
theorem C36_no_exception (ds : List Descriptor) (hw : WellFormed ds) (f : Fnn)
    (outcomes : List (Option String)) (h : Fnn.empty.addAll ds = .ok (f, outcomes)) :
    ∀ o ∈ outcomes, o = none := by
  cases ds with
  | nil => cases h; simp
  | cons d ds =>
    obtain ⟨hw1, hw2, hw3⟩ := hw
    by_cases hd : isInput d = true
    · obtain ⟨k, a⟩ := d
      cases k with
      | input units =>
        obtain ⟨⟨f1, e⟩, h1, h⟩ := Exec.bind_eq_ok h
        obtain ⟨⟨f2, es⟩, h2, h⟩ := Exec.bind_eq_ok h
        cases h
        cases h1
        have hu := hw1 units rfl
        intro o ho
        rcases List.mem_cons.mp ho with rfl | ho
        · rfl
        · exact no_exception_tail ds (built_empty units (declaredInput (⟨.input units, a⟩ :: ds)) (by
            intro s hs
            cases units with
            | nil => cases hs
            | cons u us => cases hs; rfl) false) rfl hu hw3 h2 o ho
      | _ => simp [isInput] at hd
    · have hd' : isInput d = false := by simpa using hd
      have h' : ({ Fnn.empty with firstAdd := false } : Fnn).addAll (d :: ds) = .ok (f, outcomes) := by
        unfold Fnn.addAll at h ⊢
        rw [add_first rfl hd'] at h
        exact h
      refine no_exception_tail (d :: ds) (built_empty (LayerShape.ofSize 0) 0
        (by intro s hs; cases hs; rfl) false) rfl (by simp [LayerShape.ofSize]) ?_ h'
      intro e he
      rcases List.mem_cons.mp he with rfl | he
      · exact ⟨hd', hw2⟩
      · exact hw3 e he

/-- Strides of a descriptor are positive. -/
def StridePos (d : Descriptor) : Prop :=
  match d.kind with
  | .conv _ _ s _ => 0 < s.h ∧ 0 < s.w
  | .maxPool _ s => 0 < s.h ∧ 0 < s.w
  | .avgPool _ s => 0 < s.h ∧ 0 < s.w
  | _ => True

theorem addAll_defined (ds : List Descriptor) : ∀ {f : Fnn} {acc : List Descriptor} {n0 : Nat},
    Built f acc n0 → f.firstAdd = false → (∀ d ∈ ds, StridePos d) →
    ∃ f' outs, f.addAll ds = .ok (f', outs) := by
  induction ds with
  | nil => intro f acc n0 _ _ _; exact ⟨f, [], rfl⟩
  | cons d ds ih =>
    intro f acc n0 hb hf hs
    have key : ∃ r, f.add d = .ok r := by
      rw [add_eq hf]
      cases hc : construct d.kind f.outputShape with
      | throw m => exact ⟨_, rfl⟩
      | ok r =>
        obtain ⟨_, _, s', h4, _⟩ := construct_ok hc
        obtain ⟨a, sh⟩ := r
        dsimp only at h4
        subst h4
        obtain ⟨m', e1, _⟩ := attach_ok hb.graph d.activation a (s := s')
        exact ⟨_, e1⟩
      | ub =>
        exfalso
        have hp := hs d (by simp)
        obtain ⟨k, a⟩ := d
        cases hsh : f.outputShape with
        | nil =>
          rw [hsh] at hc
          cases k with
          | input u => cases hc
          | dense u => cases u <;> cases hc
          | dropout p mx raw => cases hc
          | conv nf k st p => cases hc
          | maxPool k st => cases hc
          | avgPool k st => cases hc
        | cons s ss =>
          rw [hsh] at hc
          cases k with
          | input u => cases hc
          | dense u => cases u <;> cases hc
          | dropout p mx raw => cases hc
          | conv nf k st p =>
            obtain ⟨p1, p2⟩ : 0 < st.h ∧ 0 < st.w := hp
            simp only [construct, LayerShape.shape, Exec.bind_ok, Slide.ConvLayer.mk',
              Slide.convOutputShape, Slide.outputSide, if_neg (Nat.ne_of_gt p1),
              if_neg (Nat.ne_of_gt p2)] at hc
            split_ifs at hc <;> cases hc
          | maxPool k st =>
            obtain ⟨p1, p2⟩ : 0 < st.h ∧ 0 < st.w := hp
            simp only [construct, LayerShape.shape, Exec.bind_ok, Slide.PoolLayer.mk',
              Slide.poolOutputShape, Slide.outputSide, if_neg (Nat.ne_of_gt p1),
              if_neg (Nat.ne_of_gt p2)] at hc
            split_ifs at hc <;> cases hc
          | avgPool k st =>
            obtain ⟨p1, p2⟩ : 0 < st.h ∧ 0 < st.w := hp
            simp only [construct, LayerShape.shape, Exec.bind_ok, Slide.PoolLayer.mk',
              Slide.poolOutputShape, Slide.outputSide, if_neg (Nat.ne_of_gt p1),
              if_neg (Nat.ne_of_gt p2)] at hc
            split_ifs at hc <;> cases hc
    obtain ⟨⟨f1, e⟩, h1⟩ := key
    obtain ⟨g1, g2⟩ := built_add hb hf h1
    have next : ∃ f' outs, f1.addAll ds = .ok (f', outs) := by
      rcases g2 with g2 | g2
      · exact ih g2.2.2 g1 (fun x hx => hs x (by simp [hx]))
      · obtain ⟨_, rfl⟩ := g2
        exact ih hb g1 (fun x hx => hs x (by simp [hx]))
    obtain ⟨f', outs, h2⟩ := next
    refine ⟨f', e :: outs, ?_⟩
    show (f.add d >>= fun r => _) = _
    rw [h1, Exec.bind_ok]
    dsimp only
    rw [h2]
    rfl

/-- **C36**: construction never has undefined behaviour if the strides are positive, so the hypothesis
of `C36_chain` holds for every such list of descriptors. -/
theorem C36_defined (ds : List Descriptor) (hs : ∀ d ∈ ds, StridePos d) :
    ∃ f outcomes, Fnn.empty.addAll ds = .ok (f, outcomes) := by
  cases ds with
  | nil => exact ⟨_, _, rfl⟩
  | cons d ds =>
    by_cases hd : isInput d = true
    · obtain ⟨k, a⟩ := d
      cases k with
      | input units =>
        obtain ⟨f', outs, h⟩ := addAll_defined ds (built_empty units
          (declaredInput (⟨.input units, a⟩ :: ds)) (by
            intro s hs
            cases units with
            | nil => cases hs
            | cons u us => cases hs; rfl) false) rfl (fun x hx => hs x (by simp [hx]))
        refine ⟨f', none :: outs, ?_⟩
        show (Fnn.addAll ⟨Graph.Model.empty, [], units, false⟩ ds >>= fun q => _) = _
        rw [h]
        rfl
      | _ => simp [isInput] at hd
    · have hd' : isInput d = false := by simpa using hd
      obtain ⟨f', outs, h⟩ := addAll_defined (d :: ds) (built_empty (LayerShape.ofSize 0) 0
        (by intro s hs; cases hs; rfl) false) rfl hs
      refine ⟨f', outs, ?_⟩
      rw [← h]
      unfold Fnn.addAll
      rw [add_first rfl hd']
      rfl

/-- A zero stride is undefined behaviour (division by zero). -/
theorem C36_zero_stride : Fnn.empty.addAll
    [⟨.input [⟨4, 4, 1⟩], .linear⟩, ⟨.maxPool ⟨2, 2⟩ ⟨0, 1⟩, .linear⟩] = .ub := rfl

/-- An example: 2 inputs, 3 hidden nodes, 1 output. -/
def xorNet : List Descriptor :=
  [⟨.input [⟨2, 1, 1⟩], .none⟩, ⟨.dense [⟨3, 1, 1⟩], .relu⟩, ⟨.dense [⟨1, 1, 1⟩], .sigmoid⟩]

example : ∃ f, Fnn.empty.addAll xorNet = .ok (f, [none, none, none]) ∧
    accepted xorNet [none, none, none] = xorNet.tail ∧
    f.layers.map AnyLayer.inputSize = [2, 3, 3, 1] ∧ f.layers.map AnyLayer.outputSize = [3, 3, 1, 1] := by
  exact ⟨_, rfl, rfl, rfl, rfl⟩

/-! ### C64 -/

/-- **C64**: the first `fit` of a network with layers adds one loss layer, of the output size and
connected to the last activation (training forwards, gradients backwards), and leaves prediction
connections alone. -/
theorem C64_first_fit (ds : List Descriptor) (f : Fnn) (outcomes : List (Option String))
    (h : Fnn.empty.addAll ds = .ok (f, outcomes)) (hne : accepted ds outcomes ≠ [])
    (lf : LossFn) (batch : Nat) :
    let k := 2 * (accepted ds outcomes).length
    ∃ f' a, f.addLosses lf batch = .ok (f', none) ∧ f.layers.getLast? = some a ∧
      f'.layers = f.layers ++ [.loss lf (Loss.Layer.new a.outputSize batch (1 / 10))] ∧
      f'.model.graph.loss = [k] ∧ f'.model.graph.layers.length = k + 1 ∧
      IsPath f'.model.graph (List.range k) ∧
      (∀ x y, trainArc f'.model.graph x y ↔ (x, y) ∈ (List.range (k + 1)).zip (List.range (k + 1)).tail) ∧
      (∀ x y, backArc f'.model.graph x y ↔ trainArc f'.model.graph y x) := by
  intro k
  have hb := built_all h
  have hpos : 0 < (accepted ds outcomes).length := List.length_pos_iff.mpr hne
  obtain ⟨j, hj⟩ : ∃ j, 2 * (accepted ds outcomes).length = j + 2 := ⟨_, (Nat.sub_add_cancel (by omega)).symm⟩
  have hg := hb.graph
  have hlay := hb.layers
  rw [hj] at hg hlay
  have hlt : j + 1 < f.layers.length := by omega
  obtain ⟨m', e1, e2⟩ := addLosses_ok hg (List.getElem?_eq_getElem hlt) lf batch
  have hk : k = j + 2 := hj
  refine ⟨_, f.layers[j + 1], e1, ?_, rfl, ?_, ?_, ?_, ?_, ?_⟩
  · rw [List.getLast?_eq_getElem?, hlay]
    exact List.getElem?_eq_getElem hlt
  · rw [hk]; exact e2.loss
  · rw [hk]; exact e2.length
  · rw [hk]; exact isPath_of_pathLoss e2
  · intro x y
    rw [hk, mem_zip_range]
    exact e2.training x y
  · intro x y
    exact (e2.backward x y).trans (e2.training y x).symm

/-- **C64**: a later `fit` adds nothing. -/
theorem C64_later_fit (f : Fnn) (hl : f.model.graph.layers ≠ []) (hf : f.model.graph.loss ≠ [])
    (lf : LossFn) (batch : Nat) : f.addLosses lf batch = .ok (f, none) := by
  unfold Fnn.addLosses
  rw [if_neg hl, if_neg hf]

/-- **C64 is false** in one respect: the batch size of the first `fit` stays in the loss layer.  After
a `fit` with batch size 1, a `fit` with batch size 2 still scales gradients by 1, not 1/2. -/
theorem C64_batch_size_refuted :
    ¬ ∀ (ds : List Descriptor) (f f1 f2 : Fnn) (outcomes : List (Option String)) (b1 b2 : Nat),
      Fnn.empty.addAll ds = .ok (f, outcomes) → 0 < b1 → 0 < b2 →
      f.addLosses .mse b1 = .ok (f1, none) → f1.addLosses .mse b2 = .ok (f2, none) →
      ∀ l, AnyLayer.loss .mse l ∈ f2.layers → l.invBatch = 1 / (b2 : ℝ) := by
  intro h
  obtain ⟨f, hf⟩ : ∃ f, Fnn.empty.addAll xorNet = .ok (f, [none, none, none]) := ⟨_, rfl⟩
  obtain ⟨f1, a, h1, _, h3, h4, h5, _⟩ := C64_first_fit xorNet f _ hf
    (by intro e; cases e) .mse 1
  have h6 := C64_later_fit f1 (by intro e; rw [e] at h5; cases h5) (by rw [h4]; simp) .mse 2
  have := h xorNet f f1 f1 _ 1 2 hf (by omega) (by omega) h1 h6 (Loss.Layer.new a.outputSize 1 (1 / 10))
    (by rw [h3]; simp)
  simp [Loss.Layer.new] at this

/-! ### C35 -/

/-- **C35** (everything but what `C35_dropout_refuted`, `C35_recurrent_refuted` and
`C35_single_layer_refuted` exclude): take any model whose forward connections form a path through its
at least two non-loss layers, where consecutive sizes agree and no layer is recurrent or dropout; after
any history of `predict`, `step` and `reset_score` calls, `predict(x)` returns
`layer_n(… layer_1(x))`, computed with the layers as they were before the calls. -/
theorem C35_predict_partial (ops : List Op) (n0 n : Net) (hg : n0.graph = (built ops).graph)
    (calls : List Call) (hrun : n0.run calls = .ok n)
    (p : List Nat) (hp : IsPath n0.graph p) (h2 : 2 ≤ p.length)
    (layers : List AnyLayer) (hk : p.map (fun i => n0.layers[i]?) = layers.map some)
    (x : List ℝ) (m : Nat) (hm : MapsAll x.length m layers) :
    ∃ n' y, n.predict x = .ok (n', .ok y) ∧ Composition layers x y ∧ y.length = m := by
  have hok : MOk (built ops) := mok_run ops mok_empty
  have hs : SomeLists n0.graph := by
    rw [hg]
    exact someLists_run ops mok_empty someLists_empty
  have hl : Lists n0.graph := lists_of_path hs hp h2
  obtain ⟨y, hy1, hy2⟩ := yieldsAll_of_maps hm rfl
  obtain ⟨n', e⟩ := predict_path (by rw [hg]; exact hok.ok) hl (run_same calls hrun) hp
    (by rintro rfl; simp at h2) hk hy2
  exact ⟨n', y, e, hy2.composition, hy1⟩

/-- The composition is unique, so C35 determines the result. -/
theorem C35_composition_unique {ls : List AnyLayer} {x y y' : List ℝ} (h : Composition ls x y)
    (h' : Composition ls x y') : y = y' := by
  induction h with
  | nil x => cases h'; rfl
  | cons e1 e2 _ ih =>
    cases h' with
    | cons e1' e2' h' =>
      rw [e1] at e1'
      cases e1'
      rw [e2] at e2'
      cases e2'
      exact ih h'

/-- The layers of a built network with parameter values `θ`. -/
def withParams (layers : List AnyLayer) (θ : Nat → List (List ℝ)) : List AnyLayer :=
  layers.mapIdx fun i a => a.setParams (θ i)

/-- **C35** for feedforward networks: whatever descriptors without dropout are added (windows fit, no
empty softmax), for all parameter values, all inputs of the declared size and all call histories,
prediction is the composition of the layers. -/
theorem C35_fnn_partial (ds : List Descriptor) (f : Fnn) (outcomes : List (Option String))
    (h : Fnn.empty.addAll ds = .ok (f, outcomes)) (hne : accepted ds outcomes ≠ [])
    (hr : ∀ a ∈ f.layers, Regular a) (θ : Nat → List (List ℝ))
    (hθ : ∀ i a, f.layers[i]? = some a → (θ i).map List.length = a.params.map List.length)
    (calls : List Call) (n : Net)
    (hrun : Net.run ⟨f.model.graph, withParams f.layers θ⟩ calls = .ok n)
    (x : List ℝ) (hx : x.length = declaredInput ds) :
    ∃ n' y, n.predict x = .ok (n', .ok y) ∧ Composition (withParams f.layers θ) x y ∧
      ∀ a, f.layers.getLast? = some a → y.length = a.outputSize := by
  have hb := built_all h
  have hpos : 0 < (accepted ds outcomes).length := List.length_pos_iff.mpr hne
  obtain ⟨m, hm1, hm2⟩ := built_maps hb hne hr
  have hm3 := mapsAll_setParams hm2 hθ
  rw [← hx] at hm3
  obtain ⟨y, hy1, hy2⟩ := yieldsAll_of_maps hm3 rfl
  have hp := isPath_of_pathGraph hb.graph
  have hl := lists_of_path hb.graph.some hp (by simp; omega)
  have hlen : (withParams f.layers θ).length = 2 * (accepted ds outcomes).length := by
    simp [withParams, hb.layers]
  obtain ⟨n', e⟩ := predict_path (n0 := ⟨f.model.graph, withParams f.layers θ⟩) hb.graph.ok.ok hl
    (run_same calls hrun) hp (by intro e; simp at e; exact hne e)
    (ks := withParams f.layers θ) (by
      apply List.ext_getElem?
      intro i
      rw [List.getElem?_map, List.getElem?_map]
      by_cases hi : i < 2 * (accepted ds outcomes).length
      · rw [List.getElem?_range hi, Option.map_some]
        dsimp only
        rw [List.getElem?_eq_getElem (by omega)]
        rfl
      · rw [List.getElem?_eq_none (by simpa using hi), List.getElem?_eq_none (by omega)]
        rfl) hy2
  exact ⟨n', y, e, hy2.composition, fun a ha => by rw [hy1, hm1 a ha]⟩

/-- Two layers, connected. -/
def twoLayers : List Op := [.addLayer, .addLayer, .edge ⟨0, false⟩ ⟨1, false⟩]

theorem two_graph : (built twoLayers).graph.outputs = [1] ∧ (built twoLayers).graph.inputs = [0] ∧
    forwardArcs (built twoLayers).graph = [(0, 1)] ∧ trainingArcs (built twoLayers).graph = [(0, 1)] ∧
    (built twoLayers).graph.loss = [] ∧ backwardArcs (built twoLayers).graph = [] := by
  decide

theorem two_path : IsPath (built twoLayers).graph [0, 1] := by
  refine ⟨by simp, fun i => ?_, fun x y => ?_⟩
  · have h1 : (built twoLayers).graph.layers.length = 2 := rfl
    have h2 : (built twoLayers).graph.loss = [] := rfl
    rw [h1, h2]
    simp
    omega
  · have : (built twoLayers).graph.forward = [(0, [1])] := rfl
    rw [this]
    by_cases hx : x = 0
    · subst hx; simp [successors]
    · have : (0 == x) = false := by simp; omega
      simp [successors, this]
      intro h; exact absurd h hx

theorem predict_two (a b a' b' : AnyLayer) (x v y : List ℝ) (h1 : a.forward x = .ok (a', none))
    (h2 : a'.lastOutput = .ok v) (h3 : b.forward v = .ok (b', none)) (h4 : b'.lastOutput = .ok y) :
    Net.predict ⟨(built twoLayers).graph, [a, b]⟩ x
      = .ok (⟨(built twoLayers).graph, [a', b']⟩, .ok y) := by
  obtain ⟨g1, g2, g3, _⟩ := two_graph
  unfold Net.predict
  dsimp only
  rw [g1, g2, g3]
  simp [each, forwardAt, value, rd, h1, h2, h3, h4, Exec.bind_ok]

/-- A dropout layer of size 1 with probability 0, whose generator always gives its maximum. -/
noncomputable def keepAll : Drop.Layer := Drop.Layer.new 1 0

/-- **C35 is false** for dropout layers: a chain of a dropout and a linear layer, where both layers'
`forward` return their argument, predicts the input of the last training step instead of its own
input: after `step([5], …)`, `predict([7])` returns `[5]`. -/
theorem C35_dropout_refuted :
    ∃ n, Net.run ⟨(built twoLayers).graph,
        [.dropout 1 (fun _ => 1) keepAll, .act .linear (Act.Layer.new 1)]⟩ [.step [5] []] = .ok n ∧
      ∃ n', n.predict [7] = .ok (n', .ok [5]) := by
  obtain ⟨g1, g2, g3, g4, g5, g6⟩ := two_graph
  refine ⟨⟨(built twoLayers).graph,
    [.dropout 1 (fun _ => 1) { keepAll with output := [5], drawn := 1 }, .act .linear ⟨[5], [0]⟩]⟩, ?_, ?_⟩
  · have hd : (AnyLayer.dropout 1 (fun _ => 1) keepAll).trainingForward [5]
        = .ok (.dropout 1 (fun _ => 1) { keepAll with output := [5], drawn := 1 }, none) := by
      simp [AnyLayer.trainingForward, Drop.Layer.trainingForward, Drop.dropLoop, keepAll, Drop.Layer.new,
        Drop.uniform, Drop.scaleOf, forUp, forFrom, rd, wr, keep, Exec.bind_ok]
      norm_num
    have hl : (AnyLayer.act .linear (Act.Layer.new 1)).trainingForward [5]
        = .ok (.act .linear ⟨[5], [0]⟩, none) := by
      rfl
    simp [Net.run, Net.call, Net.step, g2, g4, g5, g6, each, next, trainAt, value, rd, hd, hl,
      Exec.bind_ok, AnyLayer.lastOutput]
  · exact ⟨_, predict_two _ _ _ _ _ [5] [5] rfl rfl rfl rfl⟩

/-- A recurrent layer with one input, one hidden and one output node, weights 1, over two steps. -/
noncomputable def counter (h : List ℝ) (o : List ℝ) : Rnn.Layer ℝ :=
  { Rnn.Layer.new 1 1 1 2 with wih := [1], whh := [1], who := [1], hidden := h, output := o }

theorem counter_forward (h0 h1 : ℝ) (o : ℝ × ℝ) :
    (AnyLayer.rnn Act.tanh Act.tanh1 (counter [h0, h1] [o.1, o.2])).forward [1, 1]
      = .ok (.rnn Act.tanh Act.tanh1 (counter [Real.tanh (1 + Real.tanh (1 + h0)), Real.tanh (1 + h0)]
        [Real.tanh (1 + h0), Real.tanh (1 + Real.tanh (1 + h0))]), none) := by
  simp [AnyLayer.forward, counter, Rnn.Layer.forward, Rnn.Layer.new, forUp, forFrom, Rnn.matarrMulAt,
    Rnn.arrSumAt, Rnn.mapAt, rd, wr, keep, Exec.bind_ok, Act.tanh]

/-- **C35 is false** for recurrent layers: the hidden state stays, so the same input predicted twice
gives two results. -/
theorem C35_recurrent_refuted :
    ∃ (l : Rnn.Layer ℝ) (n1 n2 : Net) (y1 y2 : List ℝ),
      Net.predict ⟨(built twoLayers).graph, [.rnn Act.tanh Act.tanh1 l, .act .linear (Act.Layer.new 2)]⟩ [1, 1]
        = .ok (n1, .ok y1) ∧
      n1.predict [1, 1] = .ok (n2, .ok y2) ∧ y1 ≠ y2 := by
  have h1 := counter_forward 0 0 (0, 0)
  have h2 := counter_forward (Real.tanh (1 + Real.tanh (1 + 0))) (Real.tanh (1 + 0))
    (Real.tanh (1 + 0), Real.tanh (1 + Real.tanh (1 + 0)))
  refine ⟨counter [0, 0] [0, 0], _, _, _, _, predict_two _ _ _ _ _ _ _ h1 rfl rfl rfl,
    predict_two _ _ _ _ _ _ _ h2 rfl rfl rfl, ?_⟩
  intro e
  have e0 := Real.tanh_injective (List.cons.inj e).1
  have e1 : Real.tanh (1 + Real.tanh (1 + 0)) = Real.tanh 0 := by rw [Real.tanh_zero]; linarith
  have e2 := Real.tanh_injective e1
  have e3 := Real.neg_one_lt_tanh (1 + 0)
  linarith

/-- **C35 is false** for a model of a single layer: it cannot predict. -/
theorem C35_single_layer_refuted (l : AnyLayer) (x : List ℝ) :
    Net.predict ⟨(built [.addLayer]).graph, [l]⟩ x
      = .ok (⟨(built [.addLayer]).graph, [l]⟩, .error "No output layers in model") := rfl

/-- The example network meets the hypotheses of `C35_fnn_partial`, for all parameter values, before
any call. -/
example (w1 w2 : List ℝ) (b1 b2 : List ℝ) (h1 : w1.length = 6) (h2 : b1.length = 3) (h3 : w2.length = 3)
    (h4 : b2.length = 1) (x : List ℝ) (hx : x.length = 2) :
    ∃ f, Fnn.empty.addAll xorNet = .ok (f, [none, none, none]) ∧
      ∃ n' y, Net.predict ⟨f.model.graph, withParams f.layers fun i =>
        if i = 0 then [w1, b1] else if i = 2 then [w2, b2] else []⟩ x = .ok (n', .ok y) ∧ y.length = 1 := by
  refine ⟨_, rfl, ?_⟩
  obtain ⟨n', y, e1, _, e3⟩ := C35_fnn_partial xorNet _ _ rfl (by intro e; cases e) (by
    intro a ha
    obtain ⟨i, hi⟩ := List.mem_iff_getElem?.mp ha
    match i with
    | 0 | 1 | 2 | 3 => cases hi; trivial
    | i + 4 => cases hi)
    (fun i => if i = 0 then [w1, b1] else if i = 2 then [w2, b2] else []) (by
      intro i a ha
      match i with
      | 0 => cases ha; simp [h1, h2, AnyLayer.params, denseNew, Shape3.size]
      | 1 => cases ha; rfl
      | 2 => cases ha; simp [h3, h4, AnyLayer.params, denseNew, Shape3.size]
      | 3 => cases ha; rfl
      | i + 4 => cases ha) [] _ rfl x hx
  exact ⟨n', y, e1, e3 _ rfl⟩

end Verif.Props
