import Verif.Proofs.BackAll
import Verif.Proofs.Training

/-! Training as gradient descent. -/

namespace Verif.Net
open Verif.Spec Verif.Graph Finset

noncomputable section

theorem smoothAt_always {l : AnyLayer} (h : AlwaysSmooth l) (x : List ℝ) : SmoothAt x l := by
  cases l with
  | act f a =>
    cases f with
    | relu => exact h.elim
    | elu r =>
      have : r = 1 := h
      subst this
      exact ⟨zero_le_one, Or.inl rfl⟩
    | _ => trivial
  | dense => trivial
  | conv => trivial
  | _ => exact h.elim

theorem smoothAll_always {ks : List AnyLayer} {n m : Nat} (ht : Trainable n m ks) : ∀ {x : List ℝ},
    x.length = n → (∀ l ∈ ks, AlwaysSmooth l) → SmoothAll ks x := by
  induction ht with
  | nil n => intro x _ _; exact .nil x
  | @cons n k m l ls h1 h2 _ ih =>
    intro x hx hs
    have hl := smoothAt_always (hs l (by simp)) x
    obtain ⟨y, hy⟩ := adjoint_of h1 hx
    obtain ⟨l1, e1, e2⟩ := hy.1 l rfl
    exact .cons hl e1 e2 (ih hy.2.1 fun l' hl' => hs l' (by simp [hl']))

/-! ### Parameter values -/

theorem fitsTheta_length {ls : List AnyLayer} {θ : Theta} (h : FitsTheta ls θ) : θ.length = ls.length := by
  simpa using congrArg List.length h

theorem fitsTheta_get {ls : List AnyLayer} {θ : Theta} (h : FitsTheta ls θ) {j : Nat} {l : AnyLayer}
    (hj : ls[j]? = some l) : θ[j]? = some (θ.getD j []) ∧
      (θ.getD j []).map List.length = l.params.map List.length := by
  have hlt : j < θ.length := by
    rw [fitsTheta_length h]; exact (List.getElem?_eq_some_iff.mp hj).1
  have e : θ[j]? = some (θ.getD j []) := by simp [hlt]
  refine ⟨e, ?_⟩
  have := congrArg (fun z => z[j]?) h
  simp only [List.getElem?_map, hj, e, Option.map_some, Option.some.injEq] at this
  exact this

theorem withTheta_get {ls : List AnyLayer} {θ : Theta} (h : FitsTheta ls θ) {j : Nat} {l : AnyLayer}
    (hj : ls[j]? = some l) : (withTheta ls θ)[j]? = some (l.setParams (θ.getD j [])) := by
  obtain ⟨e, _⟩ := fitsTheta_get h hj
  unfold withTheta
  rw [List.getElem?_zipWith, hj, e]

theorem withTheta_length {ls : List AnyLayer} {θ : Theta} (h : FitsTheta ls θ) :
    (withTheta ls θ).length = ls.length := by
  simp [withTheta, fitsTheta_length h]

theorem setParams_setParams {a : AnyLayer} {ps qs : List (List ℝ)} (h : ps.length = a.params.length)
    (h' : qs.length = a.params.length) : (a.setParams ps).setParams qs = a.setParams qs := by
  cases a with
  | dense l =>
    match ps, h, qs, h' with
    | [w, c], _, [w', c'], _ => rfl
  | conv l =>
    match ps, h, qs, h' with
    | [w, c], _, [w', c'], _ => rfl
  | rnn f f1 l =>
    match ps, h, qs, h' with
    | [u1, u2, u3, u4, u5], _, [v1, v2, v3, v4, v5], _ => rfl
  | _ =>
    have h1 : ps = [] := List.length_eq_zero_iff.mp h
    have h2 : qs = [] := List.length_eq_zero_iff.mp h'
    subst h1 h2
    rfl

/-- Replacing one parameter of the layers with values `θ`. -/
theorem withTheta_set {ls : List AnyLayer} {θ : Theta} (h : FitsTheta ls θ) {j : Nat} {l : AnyLayer}
    (hj : ls[j]? = some l) (b k : Nat) (v : ℝ) :
    (withTheta ls θ).set j (withParam (l.setParams (θ.getD j [])) b k v)
      = withTheta ls (setTheta θ j b k v) := by
  obtain ⟨e, e'⟩ := fitsTheta_get h hj
  have hlen : (θ.getD j []).length = l.params.length := by simpa using congrArg List.length e'
  have hw : withParam (l.setParams (θ.getD j [])) b k v = l.setParams (setEntry (θ.getD j []) b k v) := by
    unfold withParam
    rw [(params_setParams hlen).1, setParams_setParams hlen (by unfold setEntry; rw [List.length_set]; exact hlen)]
  rw [hw]
  unfold withTheta setTheta
  apply List.ext_getElem?
  intro i
  by_cases hi : i = j
  · subst hi
    have hlt := (List.getElem?_eq_some_iff.mp hj).1
    have hlt' : i < θ.length := by rw [fitsTheta_length h]; exact hlt
    rw [List.getElem?_set_self (by simp [hlt, hlt']), List.getElem?_zipWith, hj,
      List.getElem?_set_self hlt']
  · rw [List.getElem?_set_ne (Ne.symm hi), List.getElem?_zipWith, List.getElem?_zipWith,
      List.getElem?_set_ne (Ne.symm hi)]

theorem trainable_withTheta {ls : List AnyLayer} {n m : Nat} (ht : Trainable n m ls) : ∀ {θ : Theta},
    FitsTheta ls θ → Trainable n m (withTheta ls θ) := by
  induction ht with
  | nil n =>
    intro θ h
    exact .nil n
  | @cons n k m l ls h1 h2 _ ih =>
    intro θ h
    cases θ with
    | nil => cases h
    | cons ps θ =>
      simp only [FitsTheta, List.map_cons, List.cons.injEq] at h
      refine .cons (maps_setParams h1 h.1) ?_ (ih h.2)
      cases l with
      | dense l =>
        obtain ⟨w, b, rfl⟩ := two_of_length (ps := ps)
          (by simpa [AnyLayer.params] using congrArg List.length h.1)
        exact h2
      | conv l =>
        obtain ⟨w, b, rfl⟩ := two_of_length (ps := ps)
          (by simpa [AnyLayer.params] using congrArg List.length h.1)
        simp [AnyLayer.params] at h
        exact ⟨h2.1, h2.2.1.trans h.1.1.symm, h2.2.2⟩
      | act f l => exact h2
      | maxPool l => exact h2
      | avgPool l => exact h2
      | dropout mx raw l => exact h2.elim
      | rnn f f1 l => exact h2.elim
      | loss f l => exact h2.elim

/-! ### A batch -/

theorem kind_of_core {l l' : AnyLayer} (h : core l' = core l) : l'.kind = l.kind := by
  cases l' <;> cases l <;> simp [core] at h <;> simp [AnyLayer.kind, h]

theorem trainable_get {ls : List AnyLayer} {n m : Nat} (ht : Trainable n m ls) : ∀ l ∈ ls,
    ∃ i o, Maps i o l ∧ HasGrads i o l := by
  induction ht with
  | nil n => simp
  | cons h1 h2 _ ih =>
    intro l hl
    rcases List.mem_cons.mp hl with rfl | hl
    · exact ⟨_, _, h1, h2⟩
    · exact ih l hl

theorem trainable_gd (eta : ℝ) {ls : List AnyLayer} {n m : Nat} (ht : Trainable n m ls)
    (hs : ∀ l ∈ ls, l.params.map List.length = l.kind.blockSizes) :
    Trainable n m (ls.map (gdLayer eta)) := by
  induction ht with
  | nil n => exact .nil n
  | cons h1 h2 _ ih =>
    obtain ⟨a1, a2, _⟩ := gdLayer_spec eta h1 h2 (hs _ (by simp))
    exact .cons a1 a2 (ih fun l hl => hs l (by simp [hl]))

/-- The layers of a network on a path are those of the path and the loss layer. -/
theorem mem_layers {n : Net} {p : List Nat} {q : Nat} {ks : List AnyLayer} {f : LossFn} {nin m : Nat}
    {inv : ℝ} (hp : IsTrainingPath n.graph p q) (hlen : n.layers.length = n.graph.layers.length)
    (hr : Ready n p q ks f nin m inv) {a : AnyLayer} (ha : a ∈ n.layers) :
    a ∈ ks ∨ ∃ l, a = .loss f l := by
  obtain ⟨i, hi⟩ := List.getElem?_of_mem ha
  have hlt := (List.getElem?_eq_some_iff.mp hi).1
  by_cases hq : i = q
  · subst hq
    obtain ⟨l, h1, _⟩ := hr.loss
    rw [hi] at h1
    cases h1
    exact Or.inr ⟨l, rfl⟩
  · left
    have hmem : i ∈ p := (hp.path.layers i).mpr ⟨by omega, by rw [hp.loss]; simpa using hq⟩
    have : n.layers[i]? ∈ p.map (fun i => n.layers[i]?) := List.mem_map_of_mem hmem
    rw [hr.layers, hi] at this
    obtain ⟨b, hb, e⟩ := List.mem_map.mp this
    cases e
    exact hb

theorem gdLayer_loss (eta : ℝ) (f : LossFn) (l : Loss.Layer) : gdLayer eta (.loss f l) = .loss f l := rfl

/-- `train` with gradient descent on a whole model. -/
theorem train_path {n : Net} {p : List Nat} {q : Nat} {ks : List AnyLayer} {f : LossFn} {nin m : Nat}
    {inv : ℝ} (eta : ℝ) (hp : IsTrainingPath n.graph p q)
    (hlen : n.layers.length = n.graph.layers.length) (hr : Ready n p q ks f nin m inv)
    (hs : ∀ l ∈ ks, l.params.map List.length = l.kind.blockSizes) :
    ∃ n', n.train (Opt.gdStep eta) () = (((), n'), .ok ()) ∧ n'.graph = n.graph ∧
      n'.layers.length = n.layers.length ∧ Ready n' p q (ks.map (gdLayer eta)) f nin m inv := by
  have h := trainLayers_gd eta n.layers (by
    intro a ha
    rcases mem_layers hp hlen hr ha with h | ⟨l, rfl⟩
    · obtain ⟨i, o, h1, h2⟩ := trainable_get hr.sizes a h
      exact ⟨hs a h, grads_fit h1 h2 (hs a h)⟩
    · exact ⟨rfl, rfl⟩)
  refine ⟨{ n with layers := n.layers.map (gdLayer eta) }, ?_, rfl, by simp, ?_, ?_, ?_⟩
  · unfold Net.train
    rw [h]
    rfl
  · have := congrArg (List.map (Option.map (gdLayer eta))) hr.layers
    rw [List.map_map, List.map_map] at this
    rw [List.map_map]
    show p.map (fun i => (n.layers.map (gdLayer eta))[i]?) = _
    simp only [List.getElem?_map]
    exact this
  · exact trainable_gd eta hr.sizes hs
  · obtain ⟨l, h1, h2⟩ := hr.loss
    refine ⟨l, ?_, h2⟩
    show (n.layers.map (gdLayer eta))[q]? = _
    rw [List.getElem?_map, h1]
    rfl

theorem learned_setParams (l : AnyLayer) (ps : List (List ℝ)) (b : Nat) :
    Learned (l.setParams ps) b ↔ Learned l b := by
  unfold AnyLayer.setParams
  split <;> rfl

theorem kind_setParams (l : AnyLayer) (ps : List (List ℝ)) : (l.setParams ps).kind = l.kind := by
  unfold AnyLayer.setParams
  split <;> rfl

theorem core_get {ks ks' : List AnyLayer} (h : ks'.map core = ks.map core) {j : Nat} {l l' : AnyLayer}
    (h1 : ks[j]? = some l) (h2 : ks'[j]? = some l') : core l' = core l := by
  have := congrArg (fun z => z[j]?) h
  simp only [List.getElem?_map, h1, h2, Option.map_some, Option.some.injEq] at this
  exact this

theorem length_of_core {ks ks' : List AnyLayer} (h : ks'.map core = ks.map core) :
    ks'.length = ks.length := by
  simpa using congrArg List.length h

/-- A state of a training run with parameter values `θ`. -/
structure AtTheta (g : DLGraph) (p : List Nat) (q : Nat) (ls : List AnyLayer) (f : LossFn) (nin m : Nat)
    (inv : ℝ) (θ : Theta) (n : Net) (ks : List AnyLayer) : Prop where
  graph : n.graph = g
  length : n.layers.length = g.layers.length
  ready : Ready n p q ks f nin m inv
  clean : Clean ks
  fits : FitsTheta ls θ
  core : ks.map core = (withTheta ls θ).map core

theorem AtTheta.params {g : DLGraph} {p : List Nat} {q : Nat} {ls : List AnyLayer} {f : LossFn}
    {nin m : Nat} {inv : ℝ} {θ : Theta} {n : Net} {ks : List AnyLayer}
    (h : AtTheta g p q ls f nin m inv θ n ks) : ks.map AnyLayer.params = θ := by
  apply List.ext_getElem?
  intro j
  have e1 := length_of_core h.core
  rw [withTheta_length h.fits] at e1
  by_cases hj : j < ls.length
  · have hl : ls[j]? = some ls[j] := List.getElem?_eq_getElem hj
    have h1 := withTheta_get h.fits hl
    obtain ⟨h2, h3⟩ := fitsTheta_get h.fits hl
    have h4 : ks[j]? = some (ks[j]'(by omega)) := List.getElem?_eq_getElem (by omega)
    rw [List.getElem?_map, h4, h2, Option.map_some, params_of_core (core_get h.core h1 h4),
      (params_setParams (by simpa using congrArg List.length h3)).1]
  · have := fitsTheta_length h.fits
    rw [List.getElem?_eq_none (by simp; omega), List.getElem?_eq_none (by omega)]

theorem each_step_length : ∀ (samples : List (List ℝ × List ℝ)) {n n' : Net} {e : Option String},
    each (fun n s => n.step s.1 s.2) samples n = .ok (n', e) → n'.layers.length = n.layers.length := by
  intro samples
  induction samples with
  | nil => intro n n' e h; cases h; rfl
  | cons s samples ih =>
    intro n n' e h
    obtain ⟨⟨n1, e1⟩, h1, h2⟩ := Exec.bind_eq_ok h
    have hs := length_of_core (step_same h1).2
    cases e1 with
    | none => exact (ih h2).trans hs
    | some m => cases h2; exact hs

theorem batch_path {g : DLGraph} {p : List Nat} {q : Nat} {ls : List AnyLayer} {f : LossFn} {nin m : Nat}
    {inv : ℝ} (eta : ℝ) (hok : Ok g) (hl : Lists g) (hp : IsTrainingPath g p q) (hne : p ≠ [])
    (ht : Trainable nin m ls) {θ : Theta} {n : Net} {ks : List AnyLayer}
    (h : AtTheta g p q ls f nin m inv θ n ks) (samples : List (List ℝ × List ℝ))
    (hs : ∀ s ∈ samples, GoodSample (withTheta ls θ) f nin m s.1 s.2) :
    ∃ n1 n2 ks2 θ', each (fun n s => n.step s.1 s.2) samples n = .ok (n1, none) ∧
      n1.train (Opt.gdStep eta) () = (((), n2), .ok ()) ∧
      AtTheta g p q ls f nin m inv θ' n2 ks2 ∧
      GdStep ls eta (fun θ => cost f m inv samples (withTheta ls θ)) θ θ' := by
  have htθ := trainable_withTheta ht h.fits
  obtain ⟨n1, ks1, a1, a2, a3, a4, a5, a6⟩ := steps_path hok hl hp hne htθ samples n ks h.graph h.ready
    h.core fun s hs' => (hs s hs').toFitSample
  have hlen1 : n1.layers.length = g.layers.length := (each_step_length _ a1).trans h.length
  have hcore1 : ks1.map core = ks.map core := a4.trans h.core.symm
  have hsized : ∀ l ∈ ks1, l.params.map List.length = l.kind.blockSizes := by
    intro l hl'
    obtain ⟨j, hj⟩ := List.mem_iff_getElem?.mp hl'
    have hlt := (List.getElem?_eq_some_iff.mp hj).1
    have hlt' : j < ks.length := by rw [← length_of_core hcore1]; exact hlt
    have hk : ks[j]? = some ks[j] := List.getElem?_eq_getElem hlt'
    have hc := core_get hcore1 hk hj
    rw [params_of_core hc, kind_of_core hc]
    exact h.clean.sized _ (List.getElem_mem hlt')
  obtain ⟨n2, b1, b2, b3, b4⟩ := train_path eta (by rw [a2]; exact hp) (by rw [a2]; exact hlen1) a3 hsized
  have hll : ks1.length = ls.length := by
    rw [length_of_core a4, withTheta_length h.fits]
  -- one layer
  have key : ∀ (j : Nat) (l : AnyLayer), ls[j]? = some l → ∃ l1, ks1[j]? = some l1 ∧
      (gdLayer eta l1).params.map List.length = l.params.map List.length ∧
      core (gdLayer eta l1) = core (l.setParams (gdLayer eta l1).params) ∧
      (gdLayer eta l1).params.map List.length = (gdLayer eta l1).kind.blockSizes ∧
      ∀ b k, b < l.params.length → k < (l.params.getD b []).length →
        entry (gdLayer eta l1).paramGrads b k = 0 ∧
        (Learned l b → ∃ D, HasDerivAt (fun v => cost f m inv samples (withTheta ls (setTheta θ j b k v))) D
            (entry (θ.getD j []) b k) ∧
          entry (gdLayer eta l1).params b k = entry (θ.getD j []) b k - eta * D) := by
    intro j l hj
    obtain ⟨t1, t2⟩ := fitsTheta_get h.fits hj
    have tlen : (θ.getD j []).length = l.params.length := by simpa using congrArg List.length t2
    have hw := withTheta_get h.fits hj
    have hjlt := (List.getElem?_eq_some_iff.mp hj).1
    have hkl : ks.length = ls.length := by rw [length_of_core h.core, withTheta_length h.fits]
    have hk : ks[j]? = some (ks[j]'(by omega)) := List.getElem?_eq_getElem (by omega)
    obtain ⟨l1, c1, c2⟩ := a6 j _ _ hk hw
    have hc1 : core l1 = core (l.setParams (θ.getD j [])) := core_get a4 hw c1
    have hck : core (ks[j]'(by omega)) = core (l.setParams (θ.getD j [])) := core_get h.core hw hk
    have hp1 : l1.params = θ.getD j [] := by
      rw [params_of_core hc1, (params_setParams tlen).1]
    have hpk : (ks[j]'(by omega)).params = θ.getD j [] := by
      rw [params_of_core hck, (params_setParams tlen).1]
    obtain ⟨i, o, m1, m2⟩ := trainable_get a3.sizes l1 (List.mem_of_getElem? c1)
    obtain ⟨_, _, d3, d4, ⟨P, d5, d6, d7⟩, d8⟩ := gdLayer_spec eta m1 m2 (hsized l1 (List.mem_of_getElem? c1))
    have hPl : P.length = l.params.length := by
      have := congrArg List.length d5
      simp only [List.length_map] at this
      rw [this, hp1, tlen]
    refine ⟨l1, c1, by rw [d6, d5, hp1]; exact t2, ?_, d3, ?_⟩
    · rw [d7, d6, core_setParams hc1, setParams_setParams tlen hPl]
    · intro b k hb hk'
      have hbk : b < (θ.getD j []).length ∧ k < ((θ.getD j []).getD b []).length := by
        refine ⟨by omega, ?_⟩
        have := congrArg (fun z => z.getD b 0) t2
        simp only [List.getD_eq_getElem?_getD, List.getElem?_map] at this hk' ⊢
        rw [List.getElem?_eq_getElem hb] at this hk'
        have hb' : b < (θ[j]?.getD []).length := by
          rw [← List.getD_eq_getElem?_getD]; omega
        rw [List.getElem?_eq_getElem hb'] at this ⊢
        simp only [Option.map_some, Option.getD_some] at this hk' ⊢
        omega
      obtain ⟨e1, e2⟩ := d8 b k (by rw [hp1]; exact hbk.1) (by rw [hp1]; exact hbk.2)
      refine ⟨e2, fun hlb => ?_⟩
      have e3 := c2 b k ((learned_setParams l _ b).mpr hlb) (by rw [(params_setParams tlen).1]; exact hbk.1)
        (by rw [(params_setParams tlen).1]; exact hbk.2)
        (fun s hs' => (hs s hs').smooth j _ hw (by
          rw [(params_setParams tlen).1]
          exact List.ne_nil_of_length_pos (by omega)))
      rw [(params_setParams tlen).1] at e3
      have hz := h.clean.zero _ (List.getElem_mem (by omega : j < ks.length)) b k (by rw [hpk]; exact hbk.1)
        (by rw [hpk]; exact hbk.2)
      rw [hz, sub_zero] at e3
      refine ⟨entry l1.paramGrads b k, ?_, by rw [e1, hp1]⟩
      have hfun : (fun v => cost f m inv samples
            ((withTheta ls θ).set j (withParam (l.setParams (θ.getD j [])) b k v)))
          = fun v => cost f m inv samples (withTheta ls (setTheta θ j b k v)) := by
        funext v
        rw [withTheta_set h.fits hj]
      rw [← hfun]
      exact e3
  have hfit : FitsTheta ls ((ks1.map (gdLayer eta)).map AnyLayer.params) := by
    unfold FitsTheta
    apply List.ext_getElem?
    intro j
    simp only [List.getElem?_map]
    by_cases hj : j < ls.length
    · obtain ⟨l1, c1, c2, _⟩ := key j ls[j] (List.getElem?_eq_getElem hj)
      rw [c1, List.getElem?_eq_getElem hj]
      simp only [Option.map_some, c2]
    · rw [List.getElem?_eq_none (by omega), List.getElem?_eq_none (by omega)]
      rfl
  have hθ : ∀ (j : Nat) (l1 : AnyLayer), ks1[j]? = some l1 →
      ((ks1.map (gdLayer eta)).map AnyLayer.params).getD j [] = (gdLayer eta l1).params := by
    intro j l1 hj
    rw [List.getD_eq_getElem?_getD, List.getElem?_map, List.getElem?_map, hj]
    rfl
  have hmem : ∀ l ∈ ks1.map (gdLayer eta), ∃ (j : Nat) (l0 l1 : AnyLayer), ls[j]? = some l0 ∧
      ks1[j]? = some l1 ∧ l = gdLayer eta l1 := by
    intro l hl'
    obtain ⟨l1, hl1, rfl⟩ := List.mem_map.mp hl'
    obtain ⟨j, hj⟩ := List.mem_iff_getElem?.mp hl1
    have hlt := (List.getElem?_eq_some_iff.mp hj).1
    exact ⟨j, ls[j]'(by omega), l1, List.getElem?_eq_getElem (by omega), hj, rfl⟩
  have hblk : ∀ {l0 l' : AnyLayer} {b k : Nat}, l'.params.map List.length = l0.params.map List.length →
      b < l'.params.length → k < (l'.params.getD b []).length →
      b < l0.params.length ∧ k < (l0.params.getD b []).length := by
    intro l0 l' b k e hb hk
    have e1 : l'.params.length = l0.params.length := by simpa using congrArg List.length e
    refine ⟨by omega, ?_⟩
    have := congrArg (fun z => z[b]?) e
    simp only [List.getElem?_map] at this
    rw [List.getElem?_eq_getElem hb, List.getElem?_eq_getElem (by omega)] at this
    simp only [Option.map_some, Option.some.injEq] at this
    rw [List.getD_eq_getElem?_getD, List.getElem?_eq_getElem hb] at hk
    rw [List.getD_eq_getElem?_getD, List.getElem?_eq_getElem (by omega)]
    simp only [Option.getD_some] at hk ⊢
    omega
  refine ⟨n1, n2, ks1.map (gdLayer eta), (ks1.map (gdLayer eta)).map AnyLayer.params, a1, b1,
    ⟨b2.trans a2, b3.trans hlen1, b4, ⟨?_, ?_⟩, hfit, ?_⟩, hfit, ?_⟩
  · intro l hl'
    obtain ⟨j, l0, l1, h1, h2, rfl⟩ := hmem l hl'
    obtain ⟨l1', c1, _, _, c4, _⟩ := key j l0 h1
    rw [h2] at c1
    cases c1
    exact c4
  · intro l hl' b k hb hk
    obtain ⟨j, l0, l1, h1, h2, rfl⟩ := hmem l hl'
    obtain ⟨l1', c1, c2, _, _, c5⟩ := key j l0 h1
    rw [h2] at c1
    cases c1
    obtain ⟨g1, g2⟩ := hblk c2 hb hk
    exact (c5 b k g1 g2).1
  · apply List.ext_getElem?
    intro j
    by_cases hj : j < ls.length
    · have hjj : ls[j]? = some ls[j] := List.getElem?_eq_getElem hj
      obtain ⟨l1, c1, _, c3, _⟩ := key j ls[j] hjj
      rw [List.getElem?_map, List.getElem?_map, List.getElem?_map, withTheta_get hfit hjj, c1, hθ j l1 c1]
      simp only [Option.map_some, c3]
    · rw [List.getElem?_eq_none (by simp; omega), List.getElem?_eq_none
        (by rw [List.length_map, withTheta_length hfit]; omega)]
  · intro j l b k hj hlb hb hk
    obtain ⟨l1, c1, _, _, _, c5⟩ := key j l hj
    obtain ⟨D, g1, g2⟩ := (c5 b k hb hk).2 hlb
    exact ⟨D, g1, by rw [hθ j l1 c1]; exact g2⟩

/-! ### The training loop -/

theorem atTheta_reset {g : DLGraph} {p : List Nat} {q : Nat} {ls : List AnyLayer} {f : LossFn}
    {nin m : Nat} {inv : ℝ} (hp : IsTrainingPath g p q) {θ : Theta} {n : Net} {ks : List AnyLayer}
    (h : AtTheta g p q ls f nin m inv θ n ks) : AtTheta g p q ls f nin m inv θ n.resetScore ks := by
  have hat : ∀ i, i ≠ q → n.resetScore.layers[i]? = n.layers[i]? := by
    intro i hi
    unfold Net.resetScore
    simp only [List.getElem?_mapIdx]
    cases hx : n.layers[i]? with
    | none => rfl
    | some a =>
      cases a <;> simp only [Option.map_some]
      rw [if_neg (by rw [h.graph, hp.loss]; simpa using hi)]
  refine ⟨h.graph, ?_, ⟨?_, h.ready.sizes, ?_⟩, h.clean, h.fits, h.core⟩
  · rw [← h.length]; simp [Net.resetScore]
  · rw [← h.ready.layers]
    apply List.map_congr_left
    intro i hi
    apply hat
    rintro rfl
    have := (hp.path.layers i).mp hi
    rw [hp.loss] at this
    simp at this
  · obtain ⟨l, h1, h2, h3, h4⟩ := h.ready.loss
    refine ⟨l.resetScore, ?_, h2, h3, h4⟩
    unfold Net.resetScore
    simp only [List.getElem?_mapIdx, h1, Option.map_some]
    rw [if_pos (by rw [h.graph, hp.loss]; simp)]

open Verif.Training in
theorem perform_steps {τ : Type} (opt : τ → ℝ → ℝ → τ × ℝ) (d : Data.Dataset ℝ)
    (s : Nat → List ℝ × List ℝ) : ∀ (is : List Nat) (t : τ) {n n' : Net},
    (∀ i ∈ is, d.input i = .ok (s i).1 ∧ d.label i = .ok (s i).2) →
    each (fun n s => n.step s.1 s.2) (is.map s) n = .ok (n', none) →
    performAll (modelOps opt d) (is.map .step) (t, n) = .ok (t, n') := by
  intro is
  induction is with
  | nil => intro t n n' _ h; cases h; rfl
  | cons i is ih =>
    intro t n n' hd h
    obtain ⟨⟨n1, e1⟩, h1, h2⟩ := Exec.bind_eq_ok h
    cases e1 with
    | some m => cases h2
    | none =>
      obtain ⟨d1, d2⟩ := hd i (by simp)
      have e : perform (modelOps opt d) (.step i) (t, n) = .ok (t, n1) := by
        show (d.input i >>= fun x => _) = _
        rw [d1, Exec.bind_ok, d2, Exec.bind_ok]
        show (raise (n.step (s i).1 (s i).2) >>= fun n => _) = _
        have h1' : n.step (s i).1 (s i).2 = .ok (n1, none) := h1
        unfold raise
        rw [h1']
        rfl
      show (perform (modelOps opt d) (.step i) (t, n) >>= fun s => _) = _
      rw [e, Exec.bind_ok]
      exact ih t (fun i hi => hd i (by simp [hi])) h2

/-- The calls for a batch. -/
def batchCalls (is : List Nat) : List TrainCall := .reset :: (is.map .step ++ [.train])

theorem trainCalls_batches (n b epochs : Nat) :
    trainCalls n b epochs = (batches n b epochs).flatMap batchCalls := by
  unfold trainCalls batches
  induction epochs with
  | zero => rfl
  | succ e ih =>
    rw [List.replicate_succ, List.replicate_succ, List.flatten_cons, List.flatten_cons,
      List.flatMap_append, ih]
    congr 1
    unfold epochCalls
    rw [List.flatMap_map]
    rfl

theorem fit_path {g : DLGraph} {p : List Nat} {q : Nat} {ls : List AnyLayer} {f : LossFn} {nin m : Nat}
    {inv : ℝ} (eta : ℝ) (hok : Ok g) (hl : Lists g) (hp : IsTrainingPath g p q) (hne : p ≠ [])
    (ht : Trainable nin m ls) (d : Data.Dataset ℝ) (s : Nat → List ℝ × List ℝ) :
    ∀ (bs : List (List Nat)) (θ : Theta) (n : Net) (ks : List AnyLayer),
    AtTheta g p q ls f nin m inv θ n ks →
    (∀ is ∈ bs, ∀ i ∈ is, d.input i = .ok (s i).1 ∧ d.label i = .ok (s i).2) →
    (∀ pre θ1, pre <+: bs → Descent ls eta
        (pre.map fun is θ => cost f m inv (is.map s) (withTheta ls θ)) θ θ1 →
      ∀ is ∈ bs, ∀ i ∈ is, GoodSample (withTheta ls θ1) f nin m (s i).1 (s i).2) →
    ∃ n' ks' θ', performAll (Training.modelOps (Opt.gdStep eta) d) (bs.flatMap batchCalls) ((), n)
        = .ok ((), n') ∧ AtTheta g p q ls f nin m inv θ' n' ks' ∧
      Descent ls eta (bs.map fun is θ => cost f m inv (is.map s) (withTheta ls θ)) θ θ' := by
  intro bs
  induction bs with
  | nil => intro θ n ks h _ _; exact ⟨n, ks, θ, rfl, h, .nil θ⟩
  | cons is bs ih =>
    intro θ n ks h hd hg
    obtain ⟨n1, n2, ks2, θ1, a1, a2, a3, a4⟩ := batch_path eta hok hl hp hne ht (atTheta_reset hp h)
      (is.map s) (by
        intro x hx
        obtain ⟨i, hi, rfl⟩ := List.mem_map.mp hx
        exact hg [] θ (List.nil_prefix) (.nil θ) is (by simp) i hi)
    obtain ⟨n', ks', θ', b1, b2, b3⟩ := ih θ1 n2 ks2 a3 (fun is' h' => hd is' (by simp [h']))
      (fun pre θ2 hpre hdes is' h' => hg (is :: pre) θ2 (by simpa using hpre) (.cons a4 hdes) is'
        (by simp [h']))
    refine ⟨n', ks', θ', ?_, b2, .cons a4 b3⟩
    rw [List.flatMap_cons, Training.performAll_append]
    have e1 : performAll (Training.modelOps (Opt.gdStep eta) d) (batchCalls is) ((), n) = .ok ((), n2) := by
      unfold batchCalls
      show (Exec.ok ((), n.resetScore) >>= fun s => _) = _
      rw [Exec.bind_ok, Training.performAll_append,
        perform_steps (Opt.gdStep eta) d s is () (hd is (by simp)) a1, Exec.bind_ok]
      show ((do let r := n1.train (Opt.gdStep eta) (); r.2; .ok r.1) >>= fun s => Exec.ok s) = _
      dsimp only
      rw [a2]
      rfl
    rw [e1, Exec.bind_ok]
    exact b1

end

end Verif.Net
