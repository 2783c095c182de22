import Verif.Props.Nn

/-! Property C74: networks that are compiled at run time. -/

namespace Verif.Props

open Verif.Net Verif.Graph Verif.Spec

noncomputable section

theorem compile_new {ds : List Descriptor} {f : Fnn} (hf : each Fnn.add ds Fnn.empty = .ok (f, none))
    {n : Nn.Dynamic} (hl : n.layers = ds) (lf : LossFn) (o : Nn.OptimizerType) (init : Init.ModelInit) :
    n.compile lf o init = .ok (⟨some ⟨lf, init, f⟩, ds, o, lf⟩, none) := by
  unfold Nn.Dynamic.compile
  rw [hl, hf, Exec.bind_ok]

theorem ensure_ok {β : Type} {ds : List Descriptor} {f : Fnn} (hf : each Fnn.add ds Fnn.empty = .ok (f, none))
    {n n' : Nn.Dynamic} (hl : n.layers = ds) {call : Nn.Compiled → Exec (Nn.Compiled × Except String β)}
    {r : Except String β} (h : n.ensure call = .ok (n', r)) :
    (∃ c q, n.model = some c ∧ call c = .ok (q, r) ∧ n' = { n with model := some q }) ∨
    (n.model = none ∧ ∃ q, call ⟨.mse, .auto, f⟩ = .ok (q, r) ∧ n' = ⟨some q, ds, .adam, .mse⟩) := by
  unfold Nn.Dynamic.ensure at h
  cases hm : n.model with
  | some c =>
    rw [hm] at h
    left
    dsimp only at h
    rw [Exec.bind_ok, hm] at h
    dsimp only at h
    obtain ⟨q, h1, h2⟩ := Exec.bind_eq_ok h
    cases h2
    exact ⟨c, q.1, rfl, h1, rfl⟩
  | none =>
    rw [hm] at h
    right
    unfold Nn.Dynamic.compileDefault at h
    dsimp only at h
    rw [compile_new hf hl, Exec.bind_ok] at h
    dsimp only at h
    obtain ⟨q, h1, h2⟩ := Exec.bind_eq_ok h
    cases h2
    exact ⟨rfl, q.1, h1, rfl⟩

/-- **C74**: the state of a network after any sequence of calls, if its descriptors can be added.  Before the
first `compile` (explicit or by `predict`, `input_size`, `output_size`) it is as constructed; afterwards it is
the network of the descriptors in use, with the loss, the optimizer and the initialisation of the last
`compile`. -/
theorem C74_state_partial (ds : List Descriptor) (f : Fnn) (hf : each Fnn.add ds Fnn.empty = .ok (f, none))
    (c : Option Choice) (n : Nn.Dynamic) (h : DynamicUsed ds c n) :
    n.layers = ds ∧ (c = none → n = .new ds) ∧
    ∀ lf o init, c = some (lf, o, init) → n.optimizer = o ∧ n.loss = lf ∧
      ∃ g, Used f g ∧ n.model = some ⟨lf, init, g⟩ := by
  have hens : ∀ {β : Type} {c : Option Choice} {n n' : Nn.Dynamic} {r : Except String β}
      {call : Nn.Compiled → Exec (Nn.Compiled × Except String β)},
      (n.layers = ds ∧ (c = none → n = .new ds) ∧ ∀ lf o init, c = some (lf, o, init) → n.optimizer = o ∧
        n.loss = lf ∧ ∃ g, Used f g ∧ n.model = some ⟨lf, init, g⟩) →
      (∀ lf init g q, Used f g → call ⟨lf, init, g⟩ = .ok (q, r) → ∃ g', Used f g' ∧ q = ⟨lf, init, g'⟩) →
      n.ensure call = .ok (n', r) →
      n'.layers = ds ∧ ((some (c.getD defaultChoice) : Option Choice) = none → n' = .new ds) ∧
        ∀ lf o init, some (c.getD defaultChoice) = some (lf, o, init) → n'.optimizer = o ∧
        n'.loss = lf ∧ ∃ g, Used f g ∧ n'.model = some ⟨lf, init, g⟩ := by
    intro β c n n' r call ih hcall he
    obtain ⟨h1, h2, h3⟩ := ih
    rcases ensure_ok hf h1 he with ⟨m, q, e1, e2, rfl⟩ | ⟨e1, q, e2, rfl⟩
    · refine ⟨h1, (fun e => by cases e), ?_⟩
      intro lf o init e
      cases c with
      | none =>
        have := h2 rfl
        subst this
        cases e1
      | some c =>
        obtain ⟨a1, a2, g, a3, a4⟩ := h3 lf o init e
        rw [a4] at e1
        cases e1
        obtain ⟨g', b1, b2⟩ := hcall _ _ _ _ a3 e2
        exact ⟨a1, a2, g', b1, by rw [b2]⟩
    · refine ⟨rfl, (fun e => by cases e), ?_⟩
      intro lf o init e
      cases c with
      | none =>
        cases e
        obtain ⟨g', b1, b2⟩ := hcall _ _ _ _ .new e2
        exact ⟨rfl, rfl, g', b1, by rw [b2]⟩
      | some c =>
        obtain ⟨a1, a2, g, a3, a4⟩ := h3 c.1 c.2.1 c.2.2 rfl
        rw [a4] at e1
        cases e1
  induction h with
  | new => exact ⟨rfl, fun _ => rfl, by intro _ _ _ e; cases e⟩
  | compile lf o init _ hc ih =>
    rw [compile_new hf ih.1] at hc
    cases hc
    refine ⟨rfl, (fun e => by cases e), ?_⟩
    intro _ _ _ e
    cases e
    exact ⟨rfl, rfl, f, .new, rfl⟩
  | predict d _ hp ih =>
    refine hens ih ?_ hp
    intro lf init g q hg e
    obtain ⟨⟨n1, r1⟩, e1, e2⟩ := Exec.bind_eq_ok e
    cases e2
    exact ⟨_, .predict d hg e1, rfl⟩
  | inputSize _ hp ih =>
    refine hens ih ?_ hp
    intro lf init g q hg e
    obtain ⟨_, e1, e2⟩ := Exec.bind_eq_ok e
    cases e2
    exact ⟨_, hg, rfl⟩
  | outputSize _ hp ih =>
    refine hens ih ?_ hp
    intro lf init g q hg e
    obtain ⟨_, e1, e2⟩ := Exec.bind_eq_ok e
    cases e2
    exact ⟨_, hg, rfl⟩
  | @fit c n n' rg device d fuel epochs batch rate seed _ hp ih =>
    obtain ⟨h1, h2, h3⟩ := ih
    unfold Nn.Dynamic.fit at hp
    cases hm : n.model with
    | none => rw [hm] at hp; cases hp
    | some m =>
      rw [hm] at hp
      dsimp only at hp
      rw [Option.map_eq_some_iff] at hp
      obtain ⟨r, e1, e2⟩ := hp
      obtain ⟨g', e3, e4⟩ := Exec.bind_eq_ok e2
      cases e4
      subst e3
      refine ⟨h1, ?_, ?_⟩
      · intro e
        have := h2 e
        subst this
        cases hm
      · intro lf o init e
        obtain ⟨a1, a2, g, a3, a4⟩ := h3 lf o init e
        rw [hm] at a4
        cases a4
        exact ⟨a1, a2, g', .fit rg lf init n.optimizer rate device seed d fuel epochs batch a3 e1, rfl⟩
  | @evaluate c n n' r d _ hp ih =>
    obtain ⟨h1, h2, h3⟩ := ih
    unfold Nn.Dynamic.evaluate at hp
    cases hm : n.model with
    | none => rw [hm] at hp; cases hp; exact ⟨h1, h2, h3⟩
    | some m =>
      rw [hm] at hp
      dsimp only at hp
      obtain ⟨⟨n1, r1⟩, e1, e2⟩ := Exec.bind_eq_ok hp
      cases e2
      refine ⟨h1, ?_, ?_⟩
      · intro e
        have := h2 e
        subst this
        cases hm
      · intro lf o init e
        obtain ⟨a1, a2, g, a3, a4⟩ := h3 lf o init e
        rw [hm] at a4
        cases a4
        exact ⟨a1, a2, _, .evaluate n.loss d a3 e1, rfl⟩

/-- **C74**: before the first `compile`, `fit` and `evaluate` throw. -/
theorem C74_not_compiled_partial (ds : List Descriptor) (f : Fnn) (hf : each Fnn.add ds Fnn.empty = .ok (f, none))
    (n : Nn.Dynamic) (h : DynamicUsed ds none n) (rg : Init.Random) (device : Nat) (d : Data.Dataset ℝ)
    (fuel epochs batch : Nat) (rate : ℝ) (seed : Nat) :
    (∃ m, n.fit rg device d fuel epochs batch rate seed = some (.throw m)) ∧
    ∃ m, n.evaluate d = .ok (n, .error m) := by
  have := (C74_state_partial ds f hf none n h).2.1 rfl
  subst this
  exact ⟨⟨_, rfl⟩, _, rfl⟩

/-- **C74**: `compile` discards everything learned and every earlier choice: the network is the same, whatever
was done before, as after `compile` on a new one. -/
theorem C74_recompile_partial (ds : List Descriptor) (f : Fnn) (hf : each Fnn.add ds Fnn.empty = .ok (f, none))
    (c : Option Choice) (n : Nn.Dynamic) (h : DynamicUsed ds c n) (lf : LossFn) (o : Nn.OptimizerType)
    (init : Init.ModelInit) :
    ∃ n', n.compile lf o init = .ok (n', none) ∧ (Nn.Dynamic.new ds).compile lf o init = .ok (n', none) ∧
      n'.model = some ⟨lf, init, f⟩ :=
  ⟨_, compile_new hf (C74_state_partial ds f hf c n h).1 lf o init, compile_new hf rfl lf o init, rfl⟩

/-- **C74**: `fit` uses the loss, the optimizer and the initialisation of the last `compile`. -/
theorem C74_fit_partial (ds : List Descriptor) (f : Fnn) (hf : each Fnn.add ds Fnn.empty = .ok (f, none))
    (lf : LossFn) (o : Nn.OptimizerType) (init : Init.ModelInit) (n : Nn.Dynamic)
    (h : DynamicUsed ds (some (lf, o, init)) n) (rg : Init.Random) (device : Nat) (d : Data.Dataset ℝ)
    (fuel epochs batch : Nat) (rate : ℝ) (seed : Nat) :
    ∃ g, Used f g ∧ n.model = some ⟨lf, init, g⟩ ∧
      ∀ g', Nn.fit rg lf init o rate device seed d fuel epochs batch g = some (.ok g') →
        n.fit rg device d fuel epochs batch rate seed = some (.ok { n with model := some ⟨lf, init, g'⟩ }) := by
  obtain ⟨h1, _, h3⟩ := C74_state_partial ds f hf _ n h
  obtain ⟨a1, a2, g, a3, a4⟩ := h3 lf o init rfl
  refine ⟨g, a3, a4, fun g' e => ?_⟩
  unfold Nn.Dynamic.fit
  rw [a4, a1]
  dsimp only
  rw [e]
  rfl

theorem addAll_of_each : ∀ (ds : List Descriptor) (f0 f : Fnn), each Fnn.add ds f0 = .ok (f, none) →
    f0.addAll ds = .ok (f, ds.map fun _ => none) := by
  intro ds
  induction ds with
  | nil => intro f0 f h; cases h; rfl
  | cons d ds ih =>
    intro f0 f h
    obtain ⟨⟨f1, e⟩, h1, h2⟩ := Exec.bind_eq_ok h
    cases e with
    | some m => cases h2
    | none =>
      unfold Fnn.addAll
      rw [h1, Exec.bind_ok, ih f1 f h2, Exec.bind_ok]
      rfl

/-- **C74**: `evaluate` on a compiled network (without dropout) scores its current predictions with the loss of
the last `compile`. -/
theorem C74_evaluate_partial (ds : List Descriptor) (f : Fnn) (hf : each Fnn.add ds Fnn.empty = .ok (f, none))
    (lf : LossFn) (o : Nn.OptimizerType) (init : Init.ModelInit) (n : Nn.Dynamic)
    (h : DynamicUsed ds (some (lf, o, init)) n)
    (hne : accepted ds (ds.map fun _ => none) ≠ []) (hr : ∀ a ∈ f.layers, Regular a) (z : AnyLayer)
    (hz : f.layers.getLast? = some z) (hpos : 0 < z.outputSize) (d : Data.Dataset ℝ) (hd : Consistent d)
    (hin : d.inputIdx.card = declaredInput ds) (hin0 : 0 < declaredInput ds)
    (hlab : d.labelsIdx.card = z.outputSize)
    (hu : ∀ i, i < d.size → (scoring lf z.outputSize).usable (sampleLabel d i)) :
    ∃ g n' r, n.model = some ⟨lf, init, g⟩ ∧ n.evaluate d = .ok (n', .ok r) ∧
      let y := fun i => prediction (withTheta f.layers (paramsOf g.net f.layers.length)) (sampleInput d i)
      r.loss = meanOver d.size (fun i => (scoring lf z.outputSize).value (sampleLabel d i) (y i)) ∧
      r.accuracy = fractionOf d.size (fun i => (scoring lf z.outputSize).good (sampleLabel d i) (y i)) := by
  obtain ⟨h1, _, h3⟩ := C74_state_partial ds f hf _ n h
  obtain ⟨a1, a2, g, a3, a4⟩ := h3 lf o init rfl
  obtain ⟨n', r, e1, e2, e3, _⟩ := C73_evaluate ds f _ (addAll_of_each _ _ _ hf) hne hr z hz hpos g a3 lf d hd hin
    hin0 hlab hu
  refine ⟨g, { n with model := some ((⟨lf, init, g⟩ : Nn.Compiled).withNet n') }, r, a4, ?_, e2, e3⟩
  subst a2
  unfold Nn.Dynamic.evaluate
  rw [a4]
  dsimp only
  rw [e1, Exec.bind_ok]

/-- **C74**: without `compile`, `predict` works as after `compile` with squared errors, Adam and automatic
initialisation, and the network is compiled then: `fit` no longer throws. -/
theorem C74_default_partial (ds : List Descriptor) (f : Fnn) (hf : each Fnn.add ds Fnn.empty = .ok (f, none))
    (n : Nn.Dynamic) (h : DynamicUsed ds none n) (d : Data.Dataset ℝ) :
    ∃ n1, n.compile .mse .adam .auto = .ok (n1, none) ∧ n.predict d = n1.predict d := by
  have := (C74_state_partial ds f hf none n h).2.1 rfl
  subst this
  refine ⟨_, compile_new hf rfl .mse .adam .auto, ?_⟩
  unfold Nn.Dynamic.predict Nn.Dynamic.ensure
  have e1 : (Nn.Dynamic.new ds).model = none := rfl
  rw [e1]
  dsimp only
  unfold Nn.Dynamic.compileDefault
  rw [compile_new hf rfl, Exec.bind_ok]

theorem inputSize_of_maps {n k : Nat} {a : AnyLayer} (h : Maps n k a) (ha : ∀ g l, a ≠ .act g l) : a.inputSize = n := by
  cases a with
  | dense l => exact h.1
  | conv l => obtain ⟨g, _, h1, _, _, _, _, _, _, h2⟩ := h; rw [h2]; exact congrArg Shape3.size h1
  | maxPool l => obtain ⟨g, _, _, h1, _, _, _, _, h2⟩ := h; rw [h2]; exact congrArg Shape3.size h1
  | avgPool l => obtain ⟨g, _, _, h1, _, _, _, _, h2⟩ := h; rw [h2]; exact congrArg Shape3.size h1
  | act g l => exact absurd rfl (ha g l)
  | dropout mx raw l => exact h.elim
  | rnn f f1 l => exact h.elim
  | loss f l => exact h.elim

theorem act_of_core {a b : AnyLayer} (h : core b = core a) (ha : ∀ g l, a ≠ .act g l) : ∀ g l, b ≠ .act g l := by
  rintro g l rfl
  cases a with
  | act g' l' => exact ha g' l' rfl
  | _ => simp [core] at h

theorem act_of_setParams {a : AnyLayer} {ps : List (List ℝ)} (ha : ∀ g l, a ≠ .act g l) :
    ∀ g l, a.setParams ps ≠ .act g l := by
  intro g l h
  cases a with
  | act g' l' => exact ha g' l' rfl
  | dense l => unfold AnyLayer.setParams at h; split at h <;> simp_all
  | conv l => unfold AnyLayer.setParams at h; split at h <;> simp_all
  | rnn f f1 l => unfold AnyLayer.setParams at h; split at h <;> simp_all
  | _ => cases h

theorem sizes_used {ds : List Descriptor} {f : Fnn} {outcomes : List (Option String)}
    (h : Fnn.empty.addAll ds = .ok (f, outcomes)) (hne : accepted ds outcomes ≠ [])
    (hr : ∀ a ∈ f.layers, Regular a) {g : Fnn} (hg : Used f g) {a z : AnyLayer}
    (ha : f.layers.head? = some a) (ha' : ∀ g l, a ≠ .act g l) (hz : f.layers.getLast? = some z) :
    Nn.inputSize g.net = .ok (declaredInput ds) ∧ Nn.outputSize g.net = .ok z.outputSize := by
  obtain ⟨_, h1, h2⟩ := Nn.path_used h hne hr hg hz
  refine ⟨?_, h2.outputSize h1⟩
  cases e1 : f.layers with
  | nil => rw [e1] at ha; cases ha
  | cons a' as =>
    rw [e1] at ha
    cases ha
    have hp := h2.path
    have hlen : f.layers.length = as.length + 1 := by rw [e1]; rfl
    rw [hlen, List.range_succ_eq_map] at hp
    have hin := (path_facts h2.ok h2.lists hp).2.1
    have hk : ∃ θ0 k, (withTheta f.layers (paramsOf g.net f.layers.length))[0]? = some (a.setParams θ0) ∧
        Maps (declaredInput ds) k (a.setParams θ0) := by
      have hm := h2.maps
      unfold withTheta at hm ⊢
      rw [e1] at hm ⊢
      cases e2 : paramsOf g.net (a :: as).length with
      | nil =>
        have := h2.layers
        unfold withTheta at this
        rw [e1, e2] at this
        simp at this
      | cons θ0 θ =>
        rw [e2] at hm
        obtain ⟨k, hk⟩ := mapsAll_head hm
        exact ⟨θ0, k, rfl, hk⟩
    obtain ⟨θ0, k, k1, k2⟩ := hk
    obtain ⟨b, b1, b2⟩ := getElem?_core h1.2 (i := 0) (by
      show (withTheta f.layers _ ++ _)[0]? = _
      rw [List.getElem?_append_left (by
        cases e : withTheta f.layers (paramsOf g.net f.layers.length) with
        | nil => rw [e] at k1; cases k1
        | cons a as => simp), k1])
    unfold Nn.inputSize
    rw [h1.1, hin]
    dsimp only
    rw [rd_of_some b1, Exec.bind_ok, inputSize_of_maps (maps_core b2 k2) (act_of_core b2 (act_of_setParams ha'))]

/-- **C74**: a network without dropout whose first layer is no activation layer reports the declared input size
and the output size of its last layer, whatever was done before. -/
theorem C74_sizes_partial (ds : List Descriptor) (f : Fnn) (hf : each Fnn.add ds Fnn.empty = .ok (f, none))
    (c : Option Choice) (n : Nn.Dynamic) (h : DynamicUsed ds c n)
    (hne : accepted ds (ds.map fun _ => none) ≠ []) (hr : ∀ a ∈ f.layers, Regular a) (a z : AnyLayer)
    (ha : f.layers.head? = some a) (ha' : ∀ g l, a ≠ .act g l) (hz : f.layers.getLast? = some z) :
    ∃ n1 n2, n.inputSize = .ok (n1, .ok (declaredInput ds)) ∧ n.outputSize = .ok (n2, .ok z.outputSize) := by
  obtain ⟨h1, h2, h3⟩ := C74_state_partial ds f hf _ n h
  have key : ∀ {g : Fnn}, Used f g → Nn.inputSize g.net = .ok (declaredInput ds) ∧
      Nn.outputSize g.net = .ok z.outputSize := fun hg => sizes_used (addAll_of_each _ _ _ hf) hne hr hg ha ha' hz
  cases c with
  | none =>
    have := h2 rfl
    subst this
    have e1 : (Nn.Dynamic.new ds).model = none := rfl
    obtain ⟨k1, k2⟩ := key .new
    refine ⟨⟨some ⟨.mse, .auto, f⟩, ds, .adam, .mse⟩, ⟨some ⟨.mse, .auto, f⟩, ds, .adam, .mse⟩, ?_, ?_⟩
    · unfold Nn.Dynamic.inputSize Nn.Dynamic.ensure Nn.Dynamic.compileDefault
      rw [e1]
      dsimp only
      rw [compile_new hf rfl, Exec.bind_ok]
      dsimp only
      rw [k1, Exec.bind_ok, Exec.bind_ok]
    · unfold Nn.Dynamic.outputSize Nn.Dynamic.ensure Nn.Dynamic.compileDefault
      rw [e1]
      dsimp only
      rw [compile_new hf rfl, Exec.bind_ok]
      dsimp only
      rw [k2, Exec.bind_ok, Exec.bind_ok]
  | some c =>
    obtain ⟨_, _, g, a3, a4⟩ := h3 c.1 c.2.1 c.2.2 rfl
    obtain ⟨k1, k2⟩ := key a3
    refine ⟨{ n with model := some ⟨c.1, c.2.2, g⟩ }, { n with model := some ⟨c.1, c.2.2, g⟩ }, ?_, ?_⟩
    · unfold Nn.Dynamic.inputSize Nn.Dynamic.ensure
      rw [a4]
      dsimp only
      rw [Exec.bind_ok, a4]
      dsimp only
      rw [k1, Exec.bind_ok, Exec.bind_ok]
    · unfold Nn.Dynamic.outputSize Nn.Dynamic.ensure
      rw [a4]
      dsimp only
      rw [Exec.bind_ok, a4]
      dsimp only
      rw [k2, Exec.bind_ok, Exec.bind_ok]

/-- The small network of C72 meets the hypotheses: it is compiled, evaluated and compiled again. -/
example : ∃ f, each Fnn.add smallNet Fnn.empty = .ok (f, none) ∧
    ∃ n1 n2 n3 r, (Nn.Dynamic.new smallNet).compile .mse .gradientDescent .xavier = .ok (n1, none) ∧
      n1.evaluate points = .ok (n2, .ok r) ∧ n2.compile .cce .adam .auto = .ok (n3, none) ∧
      DynamicUsed smallNet (some (.cce, .adam, .auto)) n3 := by
  refine ⟨_, rfl, ?_⟩
  obtain ⟨f, h1, h2, _, z, h5, h6⟩ := small_built
  have hf : each Fnn.add smallNet Fnn.empty = .ok (f, none) := by
    have e : ∃ f', each Fnn.add smallNet Fnn.empty = .ok (f', none) := ⟨_, rfl⟩
    obtain ⟨f', e⟩ := e
    have := addAll_of_each _ _ _ e
    rw [h1] at this
    cases this
    exact e
  have hp : Consistent points := Data.consistent_ofVec _ _ _ _
  have d0 : DynamicUsed smallNet none (.new smallNet) := .new
  have e1 := compile_new hf (n := .new smallNet) rfl .mse .gradientDescent .xavier
  have d1 := DynamicUsed.compile _ _ _ d0 e1
  obtain ⟨g, n', r, b1, b2, _⟩ := C74_evaluate_partial smallNet f hf _ _ _ _ d1 (by intro e; cases e) h2 z h5 (by omega)
    points hp rfl (by decide) (by rw [h6]; rfl) (by
        intro i hi
        show sampleLabel points i ≠ []
        intro e
        have := congrArg List.length e
        unfold sampleLabel at this
        rw [Data.pick_row hp hi hp.labels, List.length_map, Data.iter_length] at this
        exact absurd this (by decide))
  have d2 := DynamicUsed.evaluate points d1 b2
  have e3 := compile_new hf (C74_state_partial _ f hf _ _ d2).1 .cce .adam .auto
  exact ⟨_, n', _, r, e1, b2, e3, .compile _ _ _ d2 e3⟩

/-- The small network reports two inputs and one output before it is compiled. -/
example : ∃ n1 n2, (Nn.Dynamic.new smallNet).inputSize = .ok (n1, .ok 2) ∧
    (Nn.Dynamic.new smallNet).outputSize = .ok (n2, .ok 1) := by
  obtain ⟨f, h1, h2, ⟨l, h3, _⟩, z, h5, h6⟩ := small_built
  have hf : each Fnn.add smallNet Fnn.empty = .ok (f, none) := by
    have e : ∃ f', each Fnn.add smallNet Fnn.empty = .ok (f', none) := ⟨_, rfl⟩
    obtain ⟨f', e⟩ := e
    have := addAll_of_each _ _ _ e
    rw [h1] at this
    cases this
    exact e
  obtain ⟨n1, n2, a1, a2⟩ := C74_sizes_partial smallNet f hf none _ .new (by intro e; cases e) h2 (.dense l) z
    (by rw [List.head?_eq_getElem?]; exact h3) (by simp) h5
  rw [h6] at a2
  exact ⟨n1, n2, a1, a2⟩

/-- **C74 is false** in another respect: a network whose only descriptor is an `Input` reports no inputs and no
outputs, whatever size is declared; a network without descriptors does the same. -/
theorem C74_input_only_refuted (ds : List Descriptor) (h : ds = [] ∨ ∃ units a, ds = [⟨.input units, a⟩]) :
    ∃ n, (Nn.Dynamic.new ds).inputSize = .ok (n, .ok 0) ∧ (Nn.Dynamic.new ds).outputSize = .ok (n, .ok 0) := by
  rcases h with rfl | ⟨units, a, rfl⟩ <;> exact ⟨_, rfl, rfl⟩

/-- For example, two inputs are declared. -/
example : declaredInput [⟨.input [⟨2, 1, 1⟩], .none⟩] = 2 := rfl

/-- **C74 is false** in one respect: `compile` that throws is not undone.  If adding a descriptor throws, the
descriptors before it stay as a network that `fit`, `evaluate` and `predict` accept. -/
theorem C74_failed_compile_refuted (ds : List Descriptor) (f : Fnn) (m : String)
    (hf : each Fnn.add ds Fnn.empty = .ok (f, some m)) (n : Nn.Dynamic) (hn : n.layers = ds) (lf : LossFn)
    (o : Nn.OptimizerType) (init : Init.ModelInit) :
    ∃ n', n.compile lf o init = .ok (n', some m) ∧ n'.model = some ⟨lf, init, f⟩ ∧
      ∀ d, n'.predict d = (do
        let r ← Nn.predict f.net d
        .ok ({ n' with model := some ((⟨lf, init, f⟩ : Nn.Compiled).withNet r.1) }, r.2)) := by
  have e : n.compile lf o init = .ok (⟨some ⟨lf, init, f⟩, n.layers, o, lf⟩, some m) := by
    unfold Nn.Dynamic.compile
    rw [hn, hf, Exec.bind_ok]
  refine ⟨_, e, rfl, fun d => ?_⟩
  unfold Nn.Dynamic.predict Nn.Dynamic.ensure
  dsimp only
  rw [Exec.bind_ok]
  dsimp only
  cases Nn.predict f.net d <;> rfl

/-- For example, an `Input` after the layers of the small network: the network before it predicts. -/
example : ∃ (f : Fnn) (m : String) (n' n'' : Nn.Dynamic) (r : Data.Dataset ℝ),
    (Nn.Dynamic.new (smallNet ++ [⟨.input [⟨2, 1, 1⟩], .none⟩])).compile .mse .adam .auto = .ok (n', some m) ∧
    n'.predict unlabelled = .ok (n'', .ok r) ∧ (rows r).length = 4 := by
  obtain ⟨f, h1, h2, _, z, h5, h6⟩ := small_built
  have hb : ∃ (f' : Fnn) (m : String), each Fnn.add (smallNet ++ [⟨.input [⟨2, 1, 1⟩], .none⟩]) Fnn.empty = .ok (f', some m) ∧
      Fnn.empty.addAll smallNet = .ok (f', [none, none, none]) := ⟨_, _, rfl, rfl⟩
  obtain ⟨f', m, e1, e2⟩ := hb
  rw [h1] at e2
  cases e2
  obtain ⟨n', k1, k2, k3⟩ := C74_failed_compile_refuted _ f m e1 (.new _) rfl .mse .adam .auto
  have hd : Consistent unlabelled := Data.consistent_ofVec _ _ _ _
  obtain ⟨n1, r, e3, e4, _⟩ := C72_predict_partial smallNet f _ h1 (by intro e; cases e) h2 z h5 (by omega) f .new
    unlabelled hd rfl
  have k4 := k3 unlabelled
  rw [e3, Exec.bind_ok] at k4
  exact ⟨f, m, n', _, r, k1, k4, by rw [e4]; rfl⟩

end

end Verif.Props
