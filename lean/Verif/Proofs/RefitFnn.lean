import Verif.Proofs.Refit

/-! Fitting feedforward networks again. -/

namespace Verif.Net

open Verif.Spec Verif.Graph

noncomputable section

theorem addLosses_uniform {m : Graph.Model} {k : Nat} (h : PathGraph (k + 2) (k + 2) m) :
    ∃ m', PathLoss (k + 2) m' ∧ ∀ (lf : LossFn) (batch : Nat) (f : Fnn) (a : AnyLayer), f.model = m → f.layers[k + 1]? = Option.some a →
      f.addLosses lf batch = .ok (⟨m', f.layers ++ [.loss lf (Loss.Layer.new a.outputSize batch (1 / 10))],
        f.outputShape, f.firstAdd⟩, none) := by
  have hlen : (m.apply .addLoss).1.graph.layers.length = k + 3 := by
    show (m.graph.addLoss ⟨m.fresh, true⟩).layers.length = _
    rw [addLoss_fresh h.ok]
    simp [h.length]
  have h1 : k + 1 < (m.apply .addLoss).1.graph.layers.length := by rw [hlen]; omega
  have h2 : k + 1 + 1 < (m.apply .addLoss).1.graph.layers.length := by rw [hlen]; omega
  obtain ⟨m', e1, e2⟩ := pathLoss_of h (List.getElem?_eq_getElem h1) (List.getElem?_eq_getElem h2)
  refine ⟨m', e2, ?_⟩
  rintro lf batch f a rfl ha
  unfold Fnn.addLosses
  rw [if_neg (by intro e; have := h.length; rw [e] at this; simp at this), if_pos h.loss,
    (path_outputs h).1]
  have e3 : Fnn.attachLoss lf batch f (k + 1) = .ok (⟨m', f.layers ++ [.loss lf (Loss.Layer.new
      a.outputSize batch (1 / 10))], f.outputShape, f.firstAdd⟩, none) := by
    unfold Fnn.attachLoss
    rw [rd_of_some ha, Exec.bind_ok]
    dsimp only
    rw [rd_ok h1, Exec.bind_ok]
    have e4 : (f.model.apply .addLoss).1.graph.layers.length - 1 = k + 1 + 1 := by rw [hlen]; omega
    rw [e4, rd_ok h2, Exec.bind_ok, e1]
  show each _ [k + 1] f = _
  unfold each
  rw [e3, Exec.bind_ok]
  rfl

theorem outputSize_core (a : AnyLayer) : (core a).outputSize = a.outputSize := by
  cases a <;> simp [core, AnyLayer.outputSize]

theorem outputSize_of_shape {a b : AnyLayer} (h : shape a = shape b) : a.outputSize = b.outputSize := by
  rw [← outputSize_core b, core_of_shape h, outputSize_core, Nn.outputSize_setParams]

theorem Twin.append {as bs : List AnyLayer} (h : Twin as bs) (c : AnyLayer) : Twin (as ++ [c]) (bs ++ [c]) := by
  refine ⟨?_, ?_⟩
  · rw [List.map_append, List.map_append, h.1]
  · rw [List.map_append, List.map_append, h.2]

/-- What a new layer offers to training. -/
theorem new_implements {k : Kind} {a : AnyLayer} (h : Implements k a) (hr : Regular a) :
    (Blocks a ∧ Simple a ∧ Zeroed a) ∧ GradFit a := by
  have two : ∀ (x y : Nat), ∀ b ∈ [List.replicate x (0 : ℝ), List.replicate y 0], ∀ v ∈ b, v = 0 := by
    intro x y b hb v hv
    rcases List.mem_pair.mp hb with rfl | rfl <;> exact List.eq_of_mem_replicate hv
  cases k with
  | input u => exact False.elim h
  | dense units =>
    obtain ⟨n, m, _, rfl⟩ := h
    refine ⟨⟨⟨by simp [AnyLayer.params, AnyLayer.kind, Opt.Kind.blockSizes, denseNew],
      by simp [AnyLayer.paramGrads, AnyLayer.kind, Opt.Kind.blockSizes, denseNew]⟩, trivial, ?_⟩, ?_⟩
    · exact two _ _
    · simp [GradFit, denseNew]
  | dropout p mx raw =>
    obtain ⟨n, rfl⟩ := h
    exact False.elim hr
  | conv nf kernel stride padding =>
    obtain ⟨s, l, h1, rfl⟩ := h
    obtain ⟨o, h2, h3⟩ := Exec.bind_eq_ok h1
    cases h3
    refine ⟨⟨⟨by simp [AnyLayer.params, AnyLayer.kind, Opt.Kind.blockSizes],
      by simp [AnyLayer.paramGrads, AnyLayer.kind, Opt.Kind.blockSizes]⟩, trivial, ?_⟩, trivial⟩
    exact two _ _
  | maxPool kernel stride =>
    obtain ⟨s, l, _, rfl⟩ := h
    exact ⟨⟨⟨rfl, rfl⟩, trivial, fun b hb => by cases hb⟩, trivial⟩
  | avgPool kernel stride =>
    obtain ⟨s, l, _, rfl⟩ := h
    exact ⟨⟨⟨rfl, rfl⟩, trivial, fun b hb => by cases hb⟩, trivial⟩

theorem built_new {f : Fnn} {ds : List Descriptor} {n0 : Nat} (hb : Built f ds n0)
    (hr : ∀ a ∈ f.layers, Regular a) : ∀ a ∈ f.layers, (Blocks a ∧ Simple a ∧ Zeroed a) ∧ GradFit a := by
  intro a ha
  obtain ⟨i, hi⟩ := List.getElem?_of_mem ha
  have hlt := (List.getElem?_eq_some_iff.mp hi).1
  rw [hb.layers] at hlt
  have hj : i / 2 < ds.length := by omega
  obtain ⟨x, y, g1, g2, g3, g4⟩ := hb.described (i / 2) ds[i / 2] (List.getElem?_eq_getElem hj)
  rcases Nat.mod_two_eq_zero_or_one i with h0 | h0
  · have : 2 * (i / 2) = i := by omega
    rw [this, hi] at g1
    cases g1
    exact new_implements g2 (hr a ha)
  · have : 2 * (i / 2) + 1 = i := by omega
    rw [this, hi] at g3
    cases g3
    subst g4
    exact ⟨⟨⟨rfl, rfl⟩, trivial, fun b hb => by cases hb⟩, trivial⟩

/-- A property that shapes, gradients and settings decide carries over to twins. -/
theorem twin_new {as bs : List AnyLayer} (h : Twin as bs) (ha : ∀ a ∈ as, (Blocks a ∧ Simple a ∧ Zeroed a) ∧ GradFit a) :
    ∀ b ∈ bs, (Blocks b ∧ Simple b ∧ Zeroed b) ∧ GradFit b := by
  intro b hb
  obtain ⟨a, h1, h2⟩ := map_all (pair_map h.1 h.2) b hb
  simp only [Prod.mk.injEq] at h2
  obtain ⟨⟨a1, a2, a3⟩, a4⟩ := ha a h1
  have hS := simple_of_shape h2.1.symm a2
  have hx : ∀ c, Simple c → frame c = some ((extra c).1.map List.length, (extra c).2) := by
    intro c hc
    cases c <;> first | exact hc.elim | rfl
  refine ⟨⟨blocks_of a1 a2 h2.1.symm (by rw [hx a a2, hx b hS, h2.2]), hS, ?_⟩, ?_⟩
  · have e : b.paramGrads = a.paramGrads := congrArg Prod.fst h2.2
    unfold Zeroed
    rw [e]
    exact a3
  · have e : b.lastInputGradient.length = a.lastInputGradient.length := congrArg (fun z => z.2.1) h2.2
    have e' := core_of_shape h2.1.symm
    cases a with
    | dense l =>
      cases b with
      | dense l' =>
        have hl := lengths_of_shape h2.1
        have e1 : l'.inputSize = l.inputSize := by
          have := congrArg (fun c : AnyLayer => c.inputSize) e'
          simpa [core, AnyLayer.inputSize, AnyLayer.setParams, AnyLayer.params] using this
        show l'.grads.input.length = l'.inputSize
        rw [e1]
        exact e.trans a4
      | dropout mx raw l' => exact hS.elim
      | _ => trivial
    | _ =>
      cases b with
      | dense l' => exact (show False from alike_of_shape h2.1).elim
      | dropout mx raw l' => exact hS.elim
      | _ => trivial

/-! ### Fits -/

theorem modelFit_rel {p : List Nat} {q nin m : Nat} {n1 n2 : Net} (h : NetRel p q nin m n1 n2) (hok : Ok n1.graph)
    (hl : Lists n1.graph) (hp : IsTrainingPath n1.graph p q) (hne : p ≠ []) {τ : Type} (opt : τ → ℝ → ℝ → τ × ℝ)
    (s : τ) (d : Data.Dataset ℝ) (hd : ∀ i x, i < d.size → d.input i = .ok x → x.length = nin) (fuel epochs b : Nat) :
    ORel (fun x y => x.2.layers.map AnyLayer.params = y.2.layers.map AnyLayer.params)
      (Training.fit opt d fuel epochs b (s, n1)) (Training.fit opt d fuel epochs b (s, n2)) := by
  have key : ORel (fun x y : τ × Net => x.1 = y.1 ∧ x.2.graph = n1.graph ∧ NetRel p q nin m x.2 y.2)
      (Training.fit opt d fuel epochs b (s, n1)) (Training.fit opt d fuel epochs b (s, n2)) := by
    refine trainingRun_rel _ _ ?_ ?_ ?_ _ _ _ _ _ ⟨rfl, rfl, h⟩
    · rintro ⟨s1, m1⟩ ⟨s2, m2⟩ ⟨rfl, h1, h2⟩
      obtain ⟨e1, e2⟩ := resetScore_ess m1
      obtain ⟨e3, e4⟩ := resetScore_ess m2
      refine ⟨rfl, h1, h2.of (h2.graph) (ess_trans (e2.flip.imp fun a b e => Ess.symm e) (ess_trans h2.ess e4))
        (h2.left e1 e2).fit (forall₂_map e2 fun a b e => shape_of_core e.1)⟩
    · rintro i hi ⟨s1, m1⟩ ⟨s2, m2⟩ ⟨rfl, h1, h2⟩
      show ERel _ (d.input i >>= fun x => _) (d.input i >>= fun x => _)
      cases hx : d.input i with
      | ok x =>
        rw [Exec.bind_ok, Exec.bind_ok]
        refine ERel.bind (Q := fun a b => a = b) (ERel.refl (fun _ => rfl) _) ?_
        rintro t _ rfl
        refine ERel.bind (Q := fun a b => a.graph = n1.graph ∧ NetRel p q nin m a b) ?_ ?_
        · unfold Training.raise
          refine (h2.step (h1 ▸ hok) (h1 ▸ hl) (h1 ▸ hp) hne (hd i x hi hx) t).bind ?_
          rintro ⟨a1, o1⟩ ⟨a2, o2⟩ ⟨rfl, g1, g2⟩
          cases o1 with
          | none => exact ⟨g1.trans h1, g2⟩
          | some msg => rfl
        · rintro a b ⟨g1, g2⟩
          exact ⟨rfl, g1, g2⟩
      | throw msg => rfl
      | ub => trivial
    · rintro ⟨s1, m1⟩ ⟨s2, m2⟩ ⟨rfl, h1, h2⟩
      obtain ⟨t1, t2, t3, t4⟩ := h2.train opt s1
      show ERel _ ((m1.train opt s1).2 >>= fun _ => _) ((m2.train opt s1).2 >>= fun _ => _)
      rw [← t2]
      cases (m1.train opt s1).2 with
      | ok u => exact ⟨t1, t3.trans h1, t4⟩
      | throw msg => rfl
      | ub => trivial
  revert key
  generalize Training.fit opt d fuel epochs b (s, n1) = r1
  generalize Training.fit opt d fuel epochs b (s, n2) = r2
  intro key
  cases r1 <;> cases r2 <;> first | exact key.elim | trivial | skip
  exact ERel.mono key fun x y h => forall₂_map h.2.2.ess fun a b e => e.params

/-- The parameters after a call, if it ends. -/
def afterNet (r : Option (Exec Net)) : Option (Exec (List (List (List ℝ)))) :=
  r.map fun r => do
    let n ← r
    .ok (n.layers.map AnyLayer.params)

theorem nnTrain_rel {p : List Nat} {q nin m : Nat} {n1 n2 : Net} (h : NetRel p q nin m n1 n2) (hok : Ok n1.graph)
    (hl : Lists n1.graph) (hp : IsTrainingPath n1.graph p q) (hne : p ≠ []) (o : Nn.OptimizerType) (rate : ℝ)
    (d : Data.Dataset ℝ) (hd : ∀ i x, i < d.size → d.input i = .ok x → x.length = nin) (fuel epochs b : Nat) :
    afterNet (Nn.train o rate d fuel epochs b n1) = afterNet (Nn.train o rate d fuel epochs b n2) := by
  have fin : ∀ {τ : Type} (r1 r2 : Option (Exec (τ × Net))),
      ORel (fun x y => x.2.layers.map AnyLayer.params = y.2.layers.map AnyLayer.params) r1 r2 →
      afterNet (r1.map fun r => do let s ← r; .ok s.2) = afterNet (r2.map fun r => do let s ← r; .ok s.2) := by
    intro τ r1 r2 h
    cases r1 <;> cases r2 <;> first | exact h.elim | rfl | skip
    rename_i e1 e2
    have h : ERel _ e1 e2 := h
    cases e1 <;> cases e2 <;> first | exact h.elim | rfl | skip
    · show some (Exec.ok _) = some (Exec.ok _)
      rw [h]
    · cases h; rfl
  cases o with
  | gradientDescent => exact fin _ _ (modelFit_rel h hok hl hp hne _ _ d hd fuel epochs b)
  | adam => exact fin _ _ (modelFit_rel h hok hl hp hne _ _ d hd fuel epochs b)

/-! ### Networks -/

/-- `f` as built, `f1` with its loss layer, `g` a network that was used. -/
structure Fitting (lf : LossFn) (batch : Nat) (f f1 : Fnn) : Prop where
  new : ∀ a ∈ f1.layers, (Blocks a ∧ Simple a ∧ Zeroed a) ∧ GradFit a
  later : f1.model.graph.layers ≠ [] ∧ f1.model.graph.loss ≠ []
  first : ∀ g : Fnn, g.model = f.model → Twin f.layers g.layers → ∃ g1, g.addLosses lf batch = .ok (g1, none) ∧
    g1.model = f1.model ∧ Twin f1.layers g1.layers
  sound : Init.Sound f1.net

/-- What holds of a network that was used. -/
def Again (f f1 g : Fnn) : Prop :=
  (g.model = f.model ∧ Twin f.layers g.layers) ∨ (g.model = f1.model ∧ Twin f1.layers g.layers)

theorem Again.addLosses {lf : LossFn} {batch : Nat} {f f1 g : Fnn} (hF : Fitting lf batch f f1) (h : Again f f1 g) :
    ∃ g1, g.addLosses lf batch = .ok (g1, none) ∧ g1.model = f1.model ∧ Twin f1.layers g1.layers := by
  rcases h with ⟨h1, h2⟩ | ⟨h1, h2⟩
  · exact hF.first g h1 h2
  · refine ⟨g, ?_, h1, h2⟩
    unfold Fnn.addLosses
    rw [h1, if_neg hF.later.1, if_neg hF.later.2]

theorem sound_of_twin {n n' : Net} (h : Init.Sound n) (hg : n'.graph = n.graph) (ht : Twin n.layers n'.layers) :
    Init.Sound n' := ⟨by rw [ht.length, h.layers, hg], by rw [hg]; exact h.arcs⟩

theorem again_used {lf : LossFn} {batch : Nat} {f f1 : Fnn} (hF : Fitting lf batch f f1) {g : Fnn}
    (hg : UsedWith lf batch f g) : Again f f1 g := by
  have more : ∀ {g : Fnn} {ls : List AnyLayer}, Again f f1 g → Twin g.layers ls → Again f f1 { g with layers := ls } := by
    rintro g ls (⟨h1, h2⟩ | ⟨h1, h2⟩) ht
    · exact .inl ⟨h1, h2.trans ht⟩
    · exact .inr ⟨h1, h2.trans ht⟩
  induction hg with
  | new => exact .inl ⟨rfl, rfl, rfl⟩
  | predict d _ hp ih => exact more ih (twin_of_ess (nnPredict_ess hp))
  | evaluate lf d _ hp ih => exact more ih (twin_of_ess (nnEvaluate_ess hp))
  | @fit g g' rg init o rate device seed d fuel epochs _ hp ih =>
    obtain ⟨g1, h1, h2, h3⟩ := ih.addLosses hF
    unfold Nn.fit at hp
    rw [h1] at hp
    dsimp only at hp
    have hs : Init.Sound g1.net := sound_of_twin hF.sound (show g1.model.graph = f1.model.graph by rw [h2]) h3
    obtain ⟨ls, e1, e2⟩ := init_twin (rg := rg) (how := init) (pdf := .normal) (device := device) (seed := seed) hs
    rw [e1] at hp
    dsimp only at hp
    rw [Option.map_eq_some_iff] at hp
    obtain ⟨r, k1, k2⟩ := hp
    obtain ⟨n2, e3, e4⟩ := Exec.bind_eq_ok k2
    cases e4
    subst e3
    have t1 : Twin f1.layers ls := h3.trans e2
    have hB := twin_new t1 hF.new
    exact .inr ⟨h2, t1.trans ⟨(sameShape_nnTrain k1).2, nnTrain_extra (fun a ha => (hB a ha).1) k1⟩⟩

theorem fitting_of {ds : List Descriptor} {f : Fnn} {outcomes : List (Option String)}
    (h : Fnn.empty.addAll ds = .ok (f, outcomes)) (hne : accepted ds outcomes ≠ [])
    (hr : ∀ a ∈ f.layers, Regular a) (lf : LossFn) (batch : Nat) : ∃ f1 : Fnn, Fitting lf batch f f1 ∧
      PathLoss f.layers.length f1.model ∧ ∃ l, f1.layers = f.layers ++ [.loss lf l] := by
  have hb := built_all h
  have hpos : 0 < (accepted ds outcomes).length := List.length_pos_iff.mpr hne
  have hlay := hb.layers
  obtain ⟨j, hj⟩ : ∃ j, f.layers.length = j + 2 := ⟨f.layers.length - 2, by omega⟩
  have hgr := hb.graph
  rw [← hlay, hj] at hgr
  obtain ⟨m', h1, h2⟩ := addLosses_uniform hgr
  have hlt : j + 1 < f.layers.length := by omega
  have hz := List.getElem?_eq_getElem hlt
  refine ⟨⟨m', f.layers ++ [.loss lf (Loss.Layer.new f.layers[j + 1].outputSize batch (1 / 10))],
      f.outputShape, f.firstAdd⟩, ⟨?_, ?_, ?_, ?_⟩, ?_, _, rfl⟩
  · intro a ha
    rcases List.mem_append.mp ha with ha | ha
    · exact built_new hb hr a ha
    · rw [List.mem_singleton.mp ha]
      exact ⟨⟨⟨rfl, rfl⟩, trivial, fun b hb => by cases hb⟩, trivial⟩
  · refine ⟨?_, ?_⟩
    · intro e
      have := h1.length
      rw [e] at this
      simp at this
    · rw [h1.loss]; simp
  · intro g hg ht
    have hlt' : j + 1 < g.layers.length := by rw [ht.length]; exact hlt
    refine ⟨_, h2 lf batch g _ hg (List.getElem?_eq_getElem hlt'), rfl, ?_⟩
    obtain ⟨a, e1, e2⟩ := getElem?_map_eq ht.1 (List.getElem?_eq_getElem hlt')
    rw [hz] at e1
    cases e1
    dsimp only
    rw [outputSize_of_shape e2]
    exact ht.append _
  · refine ⟨?_, ?_⟩
    · show (f.layers ++ [_]).length = m'.graph.layers.length
      rw [h1.length]
      simp [hj]
    · intro i k hk
      exact (h1.ok.ok.forwardRange i k hk).2
  · rw [hj]; exact h1

/-- **C76**, for networks without dropout whose earlier fits used the same batch size. -/
theorem refit {ds : List Descriptor} {f : Fnn} {outcomes : List (Option String)}
    (h : Fnn.empty.addAll ds = .ok (f, outcomes)) (hne : accepted ds outcomes ≠ [])
    (hr : ∀ a ∈ f.layers, Regular a) {lf : LossFn} {batch : Nat} {g g' : Fnn} (hg : UsedWith lf batch f g)
    (hg' : UsedWith lf batch f g')
    (rg : Init.Random) (init : Init.ModelInit) (o : Nn.OptimizerType) (rate : ℝ) (dev1 dev2 seed : Nat) (hs : seed ≠ 0)
    (d : Data.Dataset ℝ) (hd : ∀ i x, i < d.size → d.input i = .ok x → x.length = declaredInput ds) (fuel epochs : Nat) :
    fitted (Nn.fit rg lf init o rate dev1 seed d fuel epochs batch g)
      = fitted (Nn.fit rg lf init o rate dev2 seed d fuel epochs batch g') := by
  obtain ⟨f1, hF, hP, l, hL⟩ := fitting_of h hne hr lf batch
  have hb := built_all h
  have hpos : 0 < (accepted ds outcomes).length := List.length_pos_iff.mpr hne
  have hlay := hb.layers
  obtain ⟨m, _, hm2⟩ := built_maps hb hne hr
  obtain ⟨g1, a1, a2, a3⟩ := (again_used hF hg).addLosses hF
  obtain ⟨g2, b1, b2, b3⟩ := (again_used hF hg').addLosses hF
  have hs1 : Init.Sound g1.net := sound_of_twin hF.sound (show g1.model.graph = f1.model.graph by rw [a2]) a3
  obtain ⟨ls1, ls2, i1, i2, i3, i4, i5⟩ := init_ess (rg := rg) (how := init) (pdf := .normal) (dev1 := dev1)
    (dev2 := dev2) hs (n1 := g1.net) (n2 := g2.net) (show g1.model.graph = g2.model.graph by rw [a2, b2]) hs1
    (a3.symm.trans b3) (fun a ha => (twin_new a3 hF.new a ha).1.2.1) (by
      intro i hi a ha
      have hi : i ∈ g1.model.graph.loss := hi
      rw [a2, hP.loss, List.mem_singleton] at hi
      subst hi
      obtain ⟨c, c1, c2⟩ := getElem?_map_eq a3.1 (show g1.layers[f.layers.length]? = some a from ha)
      rw [hL] at c1
      simp at c1
      subst c1
      obtain ⟨l', rfl⟩ := shape_loss c2.symm
      rfl)
  have t1 : Twin f1.layers ls1 := a3.trans i4
  have hB := twin_new t1 hF.new
  have hbase : NetRel (List.range f.layers.length) f.layers.length (declaredInput ds) m f1.net f1.net := by
    refine ⟨rfl, ess_refl _, fun a ha => ⟨(hF.new a ha).2, (hF.new a ha).1.2.1.nonRec⟩, ⟨f.layers, ?_, .maps hm2⟩, lf, l, ?_⟩
    · apply List.ext_getElem?
      intro i
      rw [List.getElem?_map, List.getElem?_map]
      by_cases hi : i < f.layers.length
      · rw [List.getElem?_range hi, Option.map_some]
        show some (f1.layers[i]?) = _
        rw [hL, List.getElem?_append_left hi, List.getElem?_eq_getElem hi]
        rfl
      · rw [List.getElem?_eq_none (by simpa using hi), List.getElem?_eq_none (by omega)]
        rfl
    · show f1.layers[f.layers.length]? = _
      rw [hL]
      simp
  have hrel : NetRel (List.range f.layers.length) f.layers.length (declaredInput ds) m ⟨g1.net.graph, ls1⟩
      ⟨g2.net.graph, ls2⟩ :=
    hbase.of (show g1.model.graph = g2.model.graph by rw [a2, b2]) i3 (fun a ha => ⟨(hB a ha).2, (hB a ha).1.2.1.nonRec⟩)
      t1.1.symm
  have hgr : (⟨g1.net.graph, ls1⟩ : Net).graph = f1.model.graph := show g1.model.graph = f1.model.graph by rw [a2]
  have hpath : IsTrainingPath f1.model.graph (List.range f.layers.length) f.layers.length :=
    isTrainingPath_of_pathLoss hP
  have key := nnTrain_rel hrel (by rw [hgr]; exact hP.ok.ok)
    (by rw [hgr]; exact lists_of_path hP.some hpath.path (by simp; omega)) (by rw [hgr]; exact hpath)
    (by intro e; rw [List.range_eq_nil] at e; omega) o rate d hd fuel epochs batch
  unfold Nn.fit
  rw [a1, b1]
  dsimp only
  rw [i1, i2]
  dsimp only
  revert key
  generalize Nn.train o rate d fuel epochs batch ⟨g1.net.graph, ls1⟩ = r1
  generalize Nn.train o rate d fuel epochs batch ⟨g2.net.graph, ls2⟩ = r2
  intro key
  have e : ∀ (g : Fnn) (r : Option (Exec Net)), fitted (r.map fun r => do
      let n ← r
      .ok { g with layers := n.layers }) = afterNet r := by
    intro g r
    cases r with
    | none => rfl
    | some r => cases r <;> rfl
  rw [e, e, key]

end

end Verif.Net
