import Verif.Spec.Nn
import Verif.Proofs.BackFnn
import Verif.Proofs.Init
import Verif.Proofs.Nn

/-! What stays the same in a model whatever is done with it. -/

namespace Verif.Net

open Verif.Graph Verif.Spec

/-- A layer without the contents of its buffers and the values of its parameters. -/
noncomputable def shape (a : AnyLayer) : AnyLayer :=
  core (a.setParams (a.params.map fun b => List.replicate b.length 0))

theorem core_setParams' (a : AnyLayer) (ps : List (List ℝ)) : core (a.setParams ps) = (core a).setParams ps := by
  cases a with
  | dense l => match ps with
    | [] | [_] | [_, _] | _ :: _ :: _ :: _ => rfl
  | conv l => match ps with
    | [] | [_] | [_, _] | _ :: _ :: _ :: _ => rfl
  | rnn f f1 l => match ps with
    | [] | [_] | [_, _] | [_, _, _] | [_, _, _, _] | [_, _, _, _, _] | _ :: _ :: _ :: _ :: _ :: _ :: _ => rfl
  | _ => rfl

theorem shape_of_core {a b : AnyLayer} (h : core a = core b) : shape a = shape b := by
  unfold shape
  rw [core_setParams', core_setParams', h, params_of_core h]

theorem params_setParams' {a : AnyLayer} {ps : List (List ℝ)} (h : ps.map List.length = a.params.map List.length) :
    (a.setParams ps).params = ps := by
  cases a with
  | dense l => obtain ⟨w, b, rfl⟩ : ∃ w b, ps = [w, b] := by
                 have := congrArg List.length h
                 simp [AnyLayer.params] at this
                 exact List.length_eq_two.mp this
               rfl
  | conv l => obtain ⟨w, b, rfl⟩ : ∃ w b, ps = [w, b] := by
                have := congrArg List.length h
                simp [AnyLayer.params] at this
                exact List.length_eq_two.mp this
              rfl
  | rnn f f1 l =>
    have := congrArg List.length h
    simp [AnyLayer.params] at this
    match ps, this with
    | [_, _, _, _, _], _ => rfl
  | _ =>
    have := congrArg List.length h
    simp [AnyLayer.params] at this
    rw [this]
    rfl

theorem setParams_twice {a : AnyLayer} {ps qs : List (List ℝ)}
    (h : qs.length = ps.length) : (a.setParams ps).setParams qs = a.setParams qs := by
  cases a with
  | dense l => match ps, qs, h with
    | [], [], _ | [_], [_], _ | [_, _], [_, _], _ | _ :: _ :: _ :: _, _ :: _ :: _ :: _, _ => rfl
  | conv l => match ps, qs, h with
    | [], [], _ | [_], [_], _ | [_, _], [_, _], _ | _ :: _ :: _ :: _, _ :: _ :: _ :: _, _ => rfl
  | rnn f f1 l => match ps, qs, h with
    | [], [], _ | [_], [_], _ | [_, _], [_, _], _ | [_, _, _], [_, _, _], _ | [_, _, _, _], [_, _, _, _], _
    | [_, _, _, _, _], [_, _, _, _, _], _
    | _ :: _ :: _ :: _ :: _ :: _ :: _, _ :: _ :: _ :: _ :: _ :: _ :: _, _ => rfl
  | _ => rfl

theorem zeros_of_lengths {ps qs : List (List ℝ)} (h : ps.map List.length = qs.map List.length) :
    (ps.map fun b => List.replicate b.length (0 : ℝ)) = qs.map fun b => List.replicate b.length 0 := by
  have := congrArg (List.map fun n => List.replicate n (0 : ℝ)) h
  rw [List.map_map, List.map_map] at this
  exact this

theorem shape_setParams {a : AnyLayer} {ps : List (List ℝ)} (h : ps.map List.length = a.params.map List.length) :
    shape (a.setParams ps) = shape a := by
  unfold shape
  rw [params_setParams' h, setParams_twice (by rw [List.length_map]), zeros_of_lengths h]

theorem core_setParamGrads (a : AnyLayer) (gs : List (List ℝ)) : core (a.setParamGrads gs) = core a := by
  cases a with
  | dense l => match gs with
    | [] | [_] | [_, _] | _ :: _ :: _ :: _ => rfl
  | conv l => match gs with
    | [] | [_] | [_, _] | _ :: _ :: _ :: _ => rfl
  | rnn f f1 l => match gs with
    | [] | [_] | [_, _] | [_, _, _] | [_, _, _, _] | [_, _, _, _, _] | _ :: _ :: _ :: _ :: _ :: _ :: _ => rfl
  | _ => rfl

theorem params_core (a : AnyLayer) : (core a).params = a.params := by cases a <;> rfl

theorem setParams_params (a : AnyLayer) : a.setParams a.params = a := by cases a <;> rfl

theorem lengths_of_shape {a b : AnyLayer} (h : shape a = shape b) :
    a.params.map List.length = b.params.map List.length := by
  have := congrArg (fun c => c.params.map List.length) h
  simp only [shape, params_core] at this
  rw [params_setParams' (by simp), params_setParams' (by simp)] at this
  rw [List.map_map, List.map_map] at this
  have e : (List.length ∘ fun b : List ℝ => List.replicate b.length (0 : ℝ)) = List.length := by
    funext b
    simp
  rw [e] at this
  exact this

/-- The parameters are all that can change. -/
theorem core_of_shape {a b : AnyLayer} (h : shape a = shape b) : core b = core (a.setParams b.params) := by
  have hl := lengths_of_shape h
  unfold shape at h
  rw [core_setParams', core_setParams'] at h
  have h2 := congrArg (fun c => c.setParams b.params) h
  rw [setParams_twice (by have := congrArg List.length hl; simp at this; simp [this]),
    setParams_twice (by simp)] at h2
  rw [core_setParams', h2, ← core_setParams', setParams_params]

/-! ### Training -/

theorem writeAt_lengths {k : Opt.Kind} {bs bs' : List (List ℝ)} {i : Nat} {v : ℝ}
    (h : Opt.writeAt k bs i v = .ok bs') : bs'.map List.length = bs.map List.length := by
  unfold Opt.writeAt at h
  obtain ⟨⟨b, off⟩, _, h⟩ := Exec.bind_eq_ok h
  obtain ⟨block, h1, h⟩ := Exec.bind_eq_ok h
  obtain ⟨block', h2, h⟩ := Exec.bind_eq_ok h
  have h3 := wr_length h2
  have h4 : bs[b]? = some block := by
    unfold rd at h1
    cases hb : bs[b]? with
    | none => rw [hb] at h1; cases h1
    | some x => rw [hb] at h1; cases h1; rfl
  have h5 : bs' = bs.set b block' := by
    unfold wr at h
    split at h
    · cases h; rfl
    · cases h
  rw [h5, List.map_set, h3]
  apply List.ext_getElem?
  intro j
  rw [List.getElem?_set]
  split
  · rename_i hj
    subst hj
    split
    · rw [List.getElem?_map, h4]; rfl
    · rename_i hlt
      rw [List.length_map] at hlt
      rw [List.getElem?_eq_none (by rw [List.length_map]; omega)]
  · rfl

theorem trainLoop_lengths {σ : Type} (opt : σ → ℝ → ℝ → σ × ℝ) (kf kt : Opt.Kind) : ∀ (n i : Nat)
    (s : Opt.TState σ ℝ), ((Opt.trainLoop opt kf kt n i s).state.params.map List.length)
      = s.params.map List.length := by
  intro n
  induction n with
  | zero => intro i s; rfl
  | succ n ih =>
    intro i s
    unfold Opt.trainLoop
    cases h : Opt.trainOne opt kf kt i s with
    | ok s' =>
      dsimp only
      rw [ih]
      unfold Opt.trainOne at h
      obtain ⟨p, _, h⟩ := Exec.bind_eq_ok h
      obtain ⟨g, _, h⟩ := Exec.bind_eq_ok h
      obtain ⟨ps, h1, h⟩ := Exec.bind_eq_ok h
      obtain ⟨gs, _, h⟩ := Exec.bind_eq_ok h
      cases h
      exact writeAt_lengths h1
    | throw m => rfl
    | ub => rfl

theorem shape_train {σ : Type} (opt : σ → ℝ → ℝ → σ × ℝ) (s : σ) (a : AnyLayer) :
    shape (a.train opt s).1.2 = shape a := by
  unfold AnyLayer.train
  dsimp only
  rw [shape_of_core (core_setParamGrads _ _)]
  exact shape_setParams (trainLoop_lengths _ _ _ _ _ _)

theorem shape_trainLayers {σ : Type} (opt : σ → ℝ → ℝ → σ × ℝ) : ∀ (ls : List AnyLayer) (s : σ),
    (trainLayers opt s ls).1.2.map shape = ls.map shape := by
  intro ls
  induction ls with
  | nil => intro s; rfl
  | cons a as ih =>
    intro s
    have h := shape_train opt s a
    unfold trainLayers
    split
    · rename_i s' a' e
      rw [e] at h
      rw [List.map_cons, List.map_cons, ih, h]
    · rename_i s' a' e1 _ e2
      rw [e2] at h
      rw [List.map_cons, List.map_cons, h]

/-! ### Initialisation -/

theorem fill_length' {σ : Type} (d : σ → ℝ × σ) : ∀ (ws : List ℝ) (s : σ), (Init.fill d ws s).1.length = ws.length := by
  intro ws
  induction ws with
  | nil => intro s; rfl
  | cons w ws ih => intro s; simp [Init.fill, ih]

theorem shape_initLayer (rg : Init.Random) (f : Init.InitFn) (pdf : Init.Pdf) (rne : rg.Engine) (a : AnyLayer) :
    shape (Init.initLayer rg f pdf rne a) = shape a := by
  cases a with
  | dense l => simp [shape, Init.initLayer, AnyLayer.setParams, AnyLayer.params, core, fill_length', Init.setAll]
  | conv l => simp [shape, Init.initLayer, AnyLayer.setParams, AnyLayer.params, core, fill_length', Init.setAll]
  | rnn f f1 l => simp [shape, Init.initLayer, AnyLayer.setParams, AnyLayer.params, core, fill_length', Init.setAll]
  | _ => rfl

theorem shape_initEach (rg : Init.Random) (g : DLGraph) (how : Init.ModelInit) (pdf : Init.Pdf)
    (rne : rg.Engine) : ∀ (is : List Nat) (ls ls' : List AnyLayer),
    Init.initEach rg g how pdf rne is ls = .ok ls' → ls'.map shape = ls.map shape := by
  intro is
  induction is with
  | nil => intro ls ls' h; cases h; rfl
  | cons i is ih =>
    intro ls ls' h
    unfold Init.initEach at h
    obtain ⟨l, h1, h⟩ := Exec.bind_eq_ok h
    obtain ⟨f, _, h⟩ := Exec.bind_eq_ok h
    rw [ih _ _ h, List.map_set, shape_initLayer]
    apply List.ext_getElem?
    intro j
    rw [List.getElem?_set]
    have h4 : ls[i]? = some l := by
      unfold rd at h1
      cases hb : ls[i]? with
      | none => rw [hb] at h1; cases h1
      | some x => rw [hb] at h1; cases h1; rfl
    split
    · rename_i hj
      subst hj
      split
      · rw [List.getElem?_map, h4]; rfl
      · rename_i hlt
        rw [List.length_map] at hlt
        rw [List.getElem?_eq_none (by rw [List.length_map]; omega)]
    · rfl

/-! ### Histories -/

/-- Graph, classes, sizes and settings are the same. -/
def SameShape (n n' : Net) : Prop := n'.graph = n.graph ∧ n'.layers.map shape = n.layers.map shape

theorem SameShape.trans {a b c : Net} (h : SameShape a b) (h' : SameShape b c) : SameShape a c :=
  ⟨h'.1.trans h.1, h'.2.trans h.2⟩

theorem sameShape_of_same {n n' : Net} (hs : Same n n') : SameShape n n' := by
  refine ⟨hs.1, ?_⟩
  have hl : n'.layers.length = n.layers.length := by
    have := congrArg List.length hs.2
    simpa using this
  apply List.ext_getElem?
  intro i
  have := congrArg (fun z => z[i]?) hs.2
  simp only [List.getElem?_map] at this ⊢
  cases h1 : n'.layers[i]? with
  | none => rw [h1] at this; cases h2 : n.layers[i]? with
    | none => rfl
    | some b => rw [h2] at this; cases this
  | some a =>
    cases h2 : n.layers[i]? with
    | none => rw [h1, h2] at this; cases this
    | some b =>
      rw [h1, h2] at this
      simp only [Option.map_some, Option.some.injEq] at this ⊢
      exact shape_of_core this

theorem sameShape_train {σ : Type} (opt : σ → ℝ → ℝ → σ × ℝ) (s : σ) (n : Net) :
    SameShape n (n.train opt s).1.2 := ⟨rfl, shape_trainLayers opt _ s⟩

theorem sameShape_init {rg : Init.Random} {how : Init.ModelInit} {pdf : Init.Pdf} {device seed s : Nat}
    {n n' : Net} (h : Init.init rg how pdf device seed n = .ok (n', s)) : SameShape n n' := by
  unfold Init.init at h
  obtain ⟨ls, h1, h2⟩ := Exec.bind_eq_ok h
  cases h2
  exact ⟨rfl, shape_initEach _ _ _ _ _ _ _ _ h1⟩

theorem reaches_shape {n n' : Net} (h : Reaches n n') : SameShape n n' := by
  induction h with
  | refl => exact ⟨rfl, rfl⟩
  | @call n1 n2 c _ hc ih =>
    exact ih.trans (sameShape_of_same (run_same [c] (by
      show (n1.call c >>= fun n => Net.run n []) = .ok n2
      rw [hc]
      rfl)))
  | train opt s _ ih => exact ih.trans (sameShape_train opt s _)
  | init rg how pdf device seed s _ hi ih => exact ih.trans (sameShape_init hi)

/-- Layers of the same shape are, up to buffers, the original ones with their current parameters. -/
theorem core_withTheta : ∀ (as bs : List AnyLayer), bs.map shape = as.map shape →
    bs.map core = (withTheta as (bs.map AnyLayer.params)).map core := by
  intro as
  induction as with
  | nil => intro bs h; rw [List.map_nil, List.map_eq_nil_iff] at h; rw [h]; rfl
  | cons a as ih =>
    intro bs h
    cases bs with
    | nil => cases h
    | cons b bs =>
      simp only [List.map_cons, List.cons.injEq] at h
      show core b :: bs.map core = core (a.setParams b.params) :: _
      rw [ih bs h.2, core_of_shape h.1.symm]
      rfl

theorem fits_of_shape : ∀ (as bs : List AnyLayer), bs.map shape = as.map shape →
    FitsTheta as (bs.map AnyLayer.params) := by
  unfold FitsTheta
  intro as
  induction as with
  | nil => intro bs h; rw [List.map_nil, List.map_eq_nil_iff] at h; rw [h]; rfl
  | cons a as ih =>
    intro bs h
    cases bs with
    | nil => cases h
    | cons b bs =>
      simp only [List.map_cons, List.cons.injEq] at h ⊢
      exact ⟨lengths_of_shape h.1, ih bs h.2⟩

theorem mapsAll_withTheta {n m : Nat} {ls : List AnyLayer} (h : MapsAll n m ls) :
    ∀ {θ : Theta}, FitsTheta ls θ → MapsAll n m (withTheta ls θ) := by
  induction h with
  | nil n => intro θ _; exact .nil n
  | cons h1 _ ih =>
    intro θ hθ
    cases θ with
    | nil => cases hθ
    | cons p θ =>
      unfold FitsTheta at hθ
      simp only [List.map_cons, List.cons.injEq] at hθ
      exact .cons (maps_setParams h1 hθ.1) (ih hθ.2)

/-! ### The training loops -/

theorem batchLoop_inv {σ : Type} {o : Training.Ops σ} (P : σ → Prop)
    (hs : ∀ i s s', P s → o.step i s = .ok s' → P s') (n : Nat) : ∀ (left i : Nat) (s : σ) (r : Nat × σ),
    P s → Training.batchLoop o n left i s = .ok r → P r.2 := by
  intro left
  induction left with
  | zero => intro i s r h e; cases e; exact h
  | succ left ih =>
    intro i s r h e
    unfold Training.batchLoop at e
    split at e
    · obtain ⟨s', e1, e2⟩ := Exec.bind_eq_ok e
      exact ih _ _ _ (hs _ _ _ h e1) e2
    · cases e; exact h

theorem epoch_inv {σ : Type} {o : Training.Ops σ} (P : σ → Prop) (hr : ∀ s s', P s → o.reset s = .ok s' → P s')
    (hs : ∀ i s s', P s → o.step i s = .ok s' → P s') (ht : ∀ s s', P s → o.train s = .ok s' → P s')
    (n b : Nat) : ∀ (fuel i : Nat) (s s' : σ), P s → Training.epoch o n b fuel i s = some (.ok s') → P s' := by
  intro fuel
  induction fuel with
  | zero =>
    intro i s s' h e
    unfold Training.epoch at e
    split at e
    · cases e
    · cases e; exact h
  | succ fuel ih =>
    intro i s s' h e
    unfold Training.epoch at e
    split at e
    · dsimp only at e
      split at e
      · rename_i i1 s1 e1
        unfold Training.batch at e1
        obtain ⟨s2, f1, e1⟩ := Exec.bind_eq_ok e1
        obtain ⟨r, f2, e1⟩ := Exec.bind_eq_ok e1
        obtain ⟨s3, f3, e1⟩ := Exec.bind_eq_ok e1
        cases e1
        exact ih _ _ _ (ht _ _ (batchLoop_inv P hs n _ _ _ _ (hr _ _ h f1) f2) f3) e
      · cases e
      · cases e
    · cases e; exact h

theorem trainingRun_inv {σ : Type} {o : Training.Ops σ} (P : σ → Prop)
    (hr : ∀ s s', P s → o.reset s = .ok s' → P s')
    (hs : ∀ i s s', P s → o.step i s = .ok s' → P s') (ht : ∀ s s', P s → o.train s = .ok s' → P s')
    (n b fuel : Nat) : ∀ (epochs : Nat) (s s' : σ), P s → Training.run o n b fuel epochs s = some (.ok s') →
      P s' := by
  intro epochs
  induction epochs with
  | zero => intro s s' h e; cases e; exact h
  | succ epochs ih =>
    intro s s' h e
    unfold Training.run at e
    split at e
    · cases e
    · rename_i s1 e1
      exact ih _ _ (epoch_inv P hr hs ht n b _ _ _ _ h e1) e
    · cases e
    · cases e

theorem sameShape_fit {τ : Type} {opt : τ → ℝ → ℝ → τ × ℝ} {d : Data.Dataset ℝ} {fuel epochs b : Nat}
    {s s' : τ × Net} (h : Training.fit opt d fuel epochs b s = some (.ok s')) : SameShape s.2 s'.2 := by
  refine trainingRun_inv (fun x => SameShape s.2 x.2) ?_ ?_ ?_ _ _ _ _ _ _ ⟨rfl, rfl⟩ h
  · intro x x' hx e
    cases e
    exact hx.trans (sameShape_of_same (resetScore_same _))
  · intro i x x' hx e
    obtain ⟨v, _, e⟩ := Exec.bind_eq_ok e
    obtain ⟨t, _, e⟩ := Exec.bind_eq_ok e
    obtain ⟨n', e1, e⟩ := Exec.bind_eq_ok e
    cases e
    obtain ⟨⟨n1, o⟩, e2, e1⟩ := Exec.bind_eq_ok e1
    cases o with
    | none => cases e1; exact hx.trans (sameShape_of_same (step_same e2))
    | some m => cases e1
  · intro x x' hx e
    obtain ⟨_, _, e⟩ := Exec.bind_eq_ok e
    cases e
    exact hx.trans (sameShape_train _ _ _)

theorem sameShape_nnTrain {o : Nn.OptimizerType} {rate : ℝ} {d : Data.Dataset ℝ} {fuel epochs b : Nat}
    {n n' : Net} (h : Nn.train o rate d fuel epochs b n = some (.ok n')) : SameShape n n' := by
  cases o with
  | gradientDescent =>
    unfold Nn.train at h
    dsimp only at h
    rw [Option.map_eq_some_iff] at h
    obtain ⟨r, h1, h2⟩ := h
    obtain ⟨s, e1, e2⟩ := Exec.bind_eq_ok h2
    cases e2
    subst e1
    exact sameShape_fit h1
  | adam =>
    unfold Nn.train at h
    dsimp only at h
    rw [Option.map_eq_some_iff] at h
    obtain ⟨r, h1, h2⟩ := h
    obtain ⟨s, e1, e2⟩ := Exec.bind_eq_ok h2
    cases e2
    subst e1
    exact sameShape_fit h1

/-! ### Predictions and evaluations -/

theorem nnPredict_same {n n' : Net} {d : Data.Dataset ℝ} {r : Except String (Data.Dataset ℝ)}
    (h : Nn.predict n d = .ok (n', r)) : Same n n' := by
  unfold Nn.predict at h
  obtain ⟨os, _, h⟩ := Exec.bind_eq_ok h
  obtain ⟨⟨s, e⟩, h1, h⟩ := Exec.bind_eq_ok h
  have key : Same n s.1 := by
    refine each_inv (fun x : Net × List ℝ => Same n x.1) ?_ _ _ _ _ ⟨rfl, rfl⟩ h1
    intro x i x' e hx hi
    unfold Nn.predictRow at hi
    obtain ⟨v, _, hi⟩ := Exec.bind_eq_ok hi
    obtain ⟨⟨n1, y⟩, h2, hi⟩ := Exec.bind_eq_ok hi
    have h3 := predict_same h2
    have h4 : Same n n1 := ⟨h3.1.trans hx.1, h3.2.trans hx.2⟩
    cases y with
    | error m => cases hi; exact h4
    | ok y =>
      obtain ⟨_, _, hi⟩ := Exec.bind_eq_ok hi
      cases hi
      exact h4
  cases e with
  | none => cases h; exact key
  | some m => cases h; exact key

theorem nnEvaluate_same {lf : LossFn} {n n' : Net} {d : Data.Dataset ℝ} {r : Except String Nn.EvaluationResult}
    (h : Nn.evaluate lf n d = .ok (n', r)) : Same n n' := by
  unfold Nn.evaluate at h
  obtain ⟨os, _, h⟩ := Exec.bind_eq_ok h
  obtain ⟨di, _, h⟩ := Exec.bind_eq_ok h
  obtain ⟨⟨n1, q⟩, h1, h⟩ := Exec.bind_eq_ok h
  have key := nnPredict_same h1
  cases q with
  | error m => cases h; exact key
  | ok q =>
    obtain ⟨⟨l, e⟩, _, h⟩ := Exec.bind_eq_ok h
    cases e with
    | none => cases h; exact key
    | some m => cases h; exact key

/-! ### Feedforward networks -/

/-- What holds of a network with `k` layers whatever is done with it. -/
structure Kept (f g : Fnn) (k : Nat) : Prop where
  graph : (PathGraph k k g.model ∧ g.layers.length = k) ∨ PathLoss k g.model
  shapes : (g.layers.take k).map shape = f.layers.map shape

theorem kept_of {f g : Fnn} {k : Nat} (h : Kept f g k) {n : Net} (hn : SameShape g.net n) :
    Kept f { g with layers := n.layers } k := by
  have hl : n.layers.length = g.layers.length := by
    have := congrArg List.length hn.2
    simpa [Fnn.net] using this
  refine ⟨?_, ?_⟩
  · rcases h.graph with ⟨h1, h2⟩ | h1
    · exact .inl ⟨h1, hl.trans h2⟩
    · exact .inr h1
  · show (n.layers.take k).map shape = _
    rw [List.map_take, hn.2, ← List.map_take]
    exact h.shapes

theorem kept_used {ds : List Descriptor} {f : Fnn} {outcomes : List (Option String)}
    (h : Fnn.empty.addAll ds = .ok (f, outcomes)) (hne : accepted ds outcomes ≠ []) {g : Fnn} (hg : Used f g) :
    Kept f g f.layers.length := by
  have hb := built_all h
  have hpos : 0 < (accepted ds outcomes).length := List.length_pos_iff.mpr hne
  have hlay := hb.layers
  induction hg with
  | new =>
    refine ⟨.inl ⟨?_, rfl⟩, by rw [List.take_length]⟩
    rw [hlay]
    exact hb.graph
  | predict d _ hp ih => exact kept_of ih (sameShape_of_same (nnPredict_same hp))
  | evaluate lf d _ hp ih => exact kept_of ih (sameShape_of_same (nnEvaluate_same hp))
  | @fit g g' rg lf init o rate device seed d fuel epochs batch _ hp ih =>
    unfold Nn.fit at hp
    obtain ⟨f1, ho, h1, hK⟩ : ∃ f1 o, g.addLosses lf batch = .ok (f1, o) ∧ Kept f f1 f.layers.length := by
      rcases ih.graph with ⟨h1, h2⟩ | h1
      · obtain ⟨j, hj⟩ : ∃ j, f.layers.length = j + 2 := ⟨f.layers.length - 2, by omega⟩
        rw [hj] at h1
        have hlt : j + 1 < g.layers.length := by omega
        obtain ⟨m', e1, e2⟩ := addLosses_ok h1 (List.getElem?_eq_getElem hlt) lf batch
        refine ⟨_, _, e1, .inr ?_, ?_⟩
        · rw [hj]; exact e2
        · dsimp only
          rw [List.take_append_of_le_length (by omega)]
          exact ih.shapes
      · refine ⟨g, none, ?_, ih⟩
        unfold Fnn.addLosses
        rw [if_neg (by intro e; have := h1.length; rw [e] at this; simp at this),
          if_neg (by rw [h1.loss]; simp)]
    rw [h1] at hp
    cases ho with
    | some m => cases hp
    | none =>
      dsimp only at hp
      split at hp
      · rename_i n s hi
        rw [Option.map_eq_some_iff] at hp
        obtain ⟨r, h3, h4⟩ := hp
        obtain ⟨n2, e1, e2⟩ := Exec.bind_eq_ok h4
        cases e2
        subst e1
        exact kept_of hK ((sameShape_init hi).trans (sameShape_nnTrain h3))
      · cases hp
      · cases hp

end Verif.Net

namespace Verif.Nn

open Verif.Net Verif.Graph Verif.Spec

theorem outputSize_setParams (a : AnyLayer) (ps : List (List ℝ)) : (a.setParams ps).outputSize = a.outputSize := by
  cases a with
  | dense l => match ps with
    | [] | [_] | [_, _] | _ :: _ :: _ :: _ => rfl
  | conv l => match ps with
    | [] | [_] | [_, _] | _ :: _ :: _ :: _ => rfl
  | rnn f f1 l => match ps with
    | [] | [_] | [_, _] | [_, _, _] | [_, _, _, _] | [_, _, _, _, _] | _ :: _ :: _ :: _ :: _ :: _ :: _ => rfl
  | _ => rfl

/-- A used network is a model on a path that computes the composition of its layers, with their current
parameters. -/
theorem path_used {ds : List Descriptor} {f : Fnn} {outcomes : List (Option String)}
    (h : Fnn.empty.addAll ds = .ok (f, outcomes)) (hne : accepted ds outcomes ≠ [])
    (hr : ∀ a ∈ f.layers, Regular a) {g : Fnn} (hg : Used f g) {z : AnyLayer}
    (hz : f.layers.getLast? = some z) :
    let ks := withTheta f.layers (paramsOf g.net f.layers.length)
    let n0 : Net := ⟨g.model.graph, ks ++ g.layers.drop f.layers.length⟩
    FitsTheta f.layers (paramsOf g.net f.layers.length) ∧
    Same n0 g.net ∧ Path n0 (List.range f.layers.length) ks (declaredInput ds) z.outputSize := by
  intro ks n0
  have hK := kept_used h hne hg
  have hb := built_all h
  have hpos : 0 < (accepted ds outcomes).length := List.length_pos_iff.mpr hne
  have hlay := hb.layers
  have hfit : FitsTheta f.layers (paramsOf g.net f.layers.length) := fits_of_shape _ _ hK.shapes
  have hcore := core_withTheta _ _ hK.shapes
  have hkl : ks.length = f.layers.length := by
    have h1 := congrArg List.length hcore
    have h2 := congrArg List.length hK.shapes
    rw [List.length_map, List.length_map] at h1 h2
    exact h1.symm.trans h2
  refine ⟨hfit, ⟨rfl, ?_⟩, ?_⟩
  · show g.layers.map core = (ks ++ g.layers.drop f.layers.length).map core
    conv_lhs => rw [← List.take_append_drop f.layers.length g.layers]
    rw [List.map_append, List.map_append, hcore]
    rfl
  have hgraph : Ok g.model.graph ∧ SomeLists g.model.graph ∧ IsPath g.model.graph (List.range f.layers.length) := by
    rcases hK.graph with ⟨h1, _⟩ | h1
    · exact ⟨h1.ok.ok, h1.some, isPath_of_pathGraph h1⟩
    · exact ⟨h1.ok.ok, h1.some, isPath_of_pathLoss h1⟩
  obtain ⟨hok, hsome, hpath⟩ := hgraph
  obtain ⟨m, hm1, hm2⟩ := built_maps hb hne hr
  have hm := hm1 z hz
  subst hm
  refine ⟨hok, lists_of_path hsome hpath (by simp; omega), hpath, ?_, ?_, mapsAll_withTheta hm2 hfit, ?_⟩
  · intro e
    rw [List.range_eq_nil] at e
    omega
  · apply List.ext_getElem?
    intro i
    rw [List.getElem?_map, List.getElem?_map]
    show (List.range _)[i]?.map (fun i => (ks ++ g.layers.drop f.layers.length)[i]?) = _
    by_cases hi : i < f.layers.length
    · rw [List.getElem?_range hi, Option.map_some, List.getElem?_append_left (by omega),
        List.getElem?_eq_getElem (by omega)]
      rfl
    · rw [List.getElem?_eq_none (by simpa using hi), List.getElem?_eq_none (by omega)]
      rfl
  · intro a ha
    have e : ks.getLast? = some (z.setParams ((paramsOf g.net f.layers.length).getD (f.layers.length - 1) [])) := by
      rw [List.getLast?_eq_getElem?, hkl]
      show (List.zipWith AnyLayer.setParams f.layers (paramsOf g.net f.layers.length))[f.layers.length - 1]? = _
      rw [List.getElem?_zipWith, ← List.getLast?_eq_getElem?, hz]
      have hl : f.layers.length - 1 < (paramsOf g.net f.layers.length).length := by
        have := congrArg List.length hfit
        simp only [List.length_map] at this
        omega
      rw [List.getElem?_eq_getElem hl, List.getD_eq_getElem?_getD, List.getElem?_eq_getElem hl]
      rfl
    rw [e] at ha
    cases ha
    exact outputSize_setParams _ _

end Verif.Nn
