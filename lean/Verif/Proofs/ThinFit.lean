import Verif.Proofs.ThinStep
import Verif.Proofs.BackFit

/-! Training a model with dropout layers. -/

namespace Verif.Net
open Verif.Spec Verif.Graph Finset

noncomputable section

theorem thin_set (t : Nat) (ks : List AnyLayer) (j : Nat) {l : AnyLayer} (hd : ¬ IsDropout l)
    (b k : Nat) (v : ℝ) :
    thinned t (ks.set j (withParam l b k v)) = (thinned t ks).set j (withParam l b k v) := by
  unfold thinned
  rw [List.map_set]
  congr 1
  rcases dropout_or (withParam l b k v) with ⟨mx, raw, L, h⟩ | ⟨h, _⟩
  · exfalso
    unfold withParam AnyLayer.setParams at h
    split at h
    · cases h
    · cases h
    · cases h
    · subst h; exact hd trivial
  · exact h t

theorem not_dropout {l : AnyLayer} {b : Nat} (h : b < l.params.length) : ¬ IsDropout l := by
  rintro hd
  cases l <;> first | exact hd.elim | exact absurd h (Nat.not_lt_zero b)

/-- A list of samples. -/
theorem steps_thin {g : DLGraph} {p : List Nat} {q : Nat} {ks0 : List AnyLayer} {f : LossFn} {nin m : Nat}
    {inv : ℝ} (hok : Ok g) (hl : Lists g) (hp : IsTrainingPath g p q) (hne : p ≠ [])
    (h0 : Trainable nin m (thinned 0 ks0)) :
    ∀ (samples : List (List ℝ × List ℝ)) (t0 : Nat) (n : Net) (ks : List AnyLayer), n.graph = g →
    ReadyThin n p q ks f nin m inv → (∀ t, (thinned t ks).map core = (thinned (t0 + t) ks0).map core) →
    ks.map core = ks0.map core →
    (∀ i s, samples[i]? = some s → FitSample (thinned (t0 + i) ks0) f nin m s.1 s.2) →
    ∃ n' ks', each (fun n s => n.step s.1 s.2) samples n = .ok (n', none) ∧ n'.graph = g ∧
      ReadyThin n' p q ks' f nin m inv ∧
      (∀ t, (thinned t ks').map core = (thinned (t0 + samples.length + t) ks0).map core) ∧
      ks'.map core = ks0.map core ∧
      (∀ i, i ∉ p → i ≠ q → n'.layers[i]? = n.layers[i]?) ∧
      ∀ (j : Nat) (l l0 : AnyLayer), ks[j]? = some l → ks0[j]? = some l0 → ∃ l', ks'[j]? = some l' ∧
        ∀ b k, Learned l0 b → b < l0.params.length → k < (l0.params.getD b []).length →
          (∀ i s, samples[i]? = some s → SmoothFrom (j + 1) (thinned (t0 + i) ks0) s.1) →
          HasDerivAt (fun v => thinCost f m inv t0 samples (ks0.set j (withParam l0 b k v)))
            (entry l'.paramGrads b k - entry l.paramGrads b k) (entry l0.params b k) := by
  intro samples
  induction samples with
  | nil =>
    intro t0 n ks hg hr hc hc' _
    refine ⟨n, ks, rfl, hg, hr, by simpa using hc, hc', fun _ _ _ => rfl, ?_⟩
    intro j l l0 hj _
    refine ⟨l, hj, fun b k _ _ _ _ => ?_⟩
    rw [sub_self]
    exact hasDerivAt_const _ _
  | cons s samples ih =>
    intro t0 n ks hg hr hc hc' hs
    have h0t := trainable_thin 0 t0 h0
    have hcz : (thinned 0 ks).map core = (thinned t0 ks0).map core := hc 0
    have hgood := fitSample_core h0t hcz (hs 0 s rfl)
    obtain ⟨n1, ks1, a1, a2, a3, a4, a4', a4'', a5, a6⟩ := step_thin (by rw [hg]; exact hok)
      (by rw [hg]; exact hl) (by rw [hg]; exact hp) hne hr hgood
    obtain ⟨n2, ks2, b1, b2, b3, b4, b4', b5, b6⟩ := ih (t0 + 1) n1 ks1 (a2.trans hg) a3
      (fun t => by rw [a4 t, hc (t + 1), Nat.add_right_comm, Nat.add_assoc]) (a4'.trans hc')
      (fun i s' hs' => by
        have := hs (i + 1) s' hs'
        rwa [Nat.add_comm i 1, ← Nat.add_assoc] at this)
    refine ⟨n2, ks2, ?_, b2, b3, ?_, b4', fun i h1 h2 => (b5 i h1 h2).trans (a5 i h1 h2), ?_⟩
    · show (n.step s.1 s.2 >>= fun r => _) = _
      rw [a1, Exec.bind_ok]
      exact b1
    · intro t
      rw [b4 t, List.length_cons]
      congr 2
      omega
    · intro j l l0 hj hj0
      obtain ⟨l1, c1, c2⟩ := a6 j l hj
      obtain ⟨l2, d1, d2⟩ := b6 j l1 l0 c1 hj0
      refine ⟨l2, d1, fun b k h1 h2 h3 hsm => ?_⟩
      have hd := not_dropout h2
      have hcore : core l = core l0 := core_get hc' hj0 hj
      have hps := params_of_core hcore
      obtain ⟨e1, e2⟩ := c2 b k ((learned_of_core hcore b).mpr h1) (by rw [hps]; exact h2)
        (by rw [hps]; exact h3) (smoothFrom_core h0t hcz hgood.size _ (hsm 0 s rfl))
      have e3 := d2 b k h1 h2 h3 fun i s' hs' => by
        have := hsm (i + 1) s' hs'
        rwa [Nat.add_comm i 1, ← Nat.add_assoc] at this
      have hfun : (fun v => objective f m inv s.2 (prediction ((thinned 0 ks).set j (withParam l b k v)) s.1))
          = fun v => objective f m inv s.2 (prediction (thinned t0 (ks0.set j (withParam l0 b k v))) s.1) := by
        funext v
        obtain ⟨y, hy⟩ := e1 v
        rw [thin_set t0 ks0 j hd, prediction_core (ks' := (thinned t0 ks0).set j (withParam l0 b k v)) ?_ hy]
        rw [List.map_set, List.map_set, hcz, core_withParam hcore]
      rw [hfun, hps] at e2
      have := e2.add e3
      refine this.congr_deriv ?_
      ring

/-! ### Gradient descent -/

theorem thin_setParams {l : AnyLayer} (h : IsDropout l) (ps : List (List ℝ)) : l.setParams ps = l := by
  cases l <;> first | exact h.elim | rfl

theorem thin_of_core {l l' : AnyLayer} (h : core l' = core l) : IsDropout l' ↔ IsDropout l := by
  cases l' <;> cases l <;> simp [core] at h <;> simp [IsDropout]

theorem isDropout_setParams (l : AnyLayer) (ps : List (List ℝ)) : IsDropout (l.setParams ps) ↔ IsDropout l := by
  unfold AnyLayer.setParams
  split <;> rfl

theorem thinLayer_plain {l : AnyLayer} (h : ¬ IsDropout l) (t : Nat) : thinLayer t l = l := by
  rcases dropout_or l with ⟨mx, raw, L, rfl⟩ | ⟨h', _⟩
  · exact absurd trivial h
  · exact h' t

theorem trainable_thin_theta {m : Nat} : ∀ {ls : List AnyLayer} {n : Nat},
    Trainable n m (thinned 0 ls) → ∀ {θ : Theta}, FitsTheta ls θ → Trainable n m (thinned 0 (withTheta ls θ)) := by
  intro ls
  induction ls with
  | nil => intro n h θ _; exact h
  | cons l ls ih =>
    intro n h θ hθ
    cases θ with
    | nil => cases hθ
    | cons ps θ =>
      simp only [FitsTheta, List.map_cons, List.cons.injEq] at hθ
      cases h with
      | @cons _ k _ _ _ h1 h2 h3 =>
        by_cases hd : IsDropout l
        · refine .cons (k := k) ?_ ?_ (ih h3 hθ.2)
          · show Maps _ _ (thinLayer 0 (l.setParams ps)); rw [thin_setParams hd]; exact h1
          · show HasGrads _ _ (thinLayer 0 (l.setParams ps)); rw [thin_setParams hd]; exact h2
        · have hd' : ¬ IsDropout (l.setParams ps) := by rw [isDropout_setParams]; exact hd
          rw [thinLayer_plain hd] at h1 h2
          have := trainable_withTheta (.cons h1 h2 (.nil k)) (θ := [ps])
            (by simp [FitsTheta, hθ.1])
          cases this with
          | cons a1 a2 a3 =>
            cases a3
            refine .cons (k := k) ?_ ?_ (ih h3 hθ.2)
            · show Maps _ _ (thinLayer 0 (l.setParams ps)); rw [thinLayer_plain hd']; exact a1
            · show HasGrads _ _ (thinLayer 0 (l.setParams ps)); rw [thinLayer_plain hd']; exact a2

theorem thinned_get {ls : List AnyLayer} {n m : Nat} (h : Trainable n m (thinned 0 ls)) {l : AnyLayer}
    (hl : l ∈ ls) : ∃ i o, Maps i o (thinLayer 0 l) ∧ HasGrads i o (thinLayer 0 l) :=
  trainable_get h _ (List.mem_map_of_mem hl)

theorem gdLayer_dropout (eta : ℝ) {l : AnyLayer} (h : IsDropout l) : gdLayer eta l = l := by
  cases l <;> first | exact h.elim | rfl

theorem gdLayer_thin {a : AnyLayer} {n m : Nat} (eta : ℝ) (hm : Maps n m (thinLayer 0 a))
    (hg : HasGrads n m (thinLayer 0 a)) (hp : a.params.map List.length = a.kind.blockSizes) :
    Maps n m (thinLayer 0 (gdLayer eta a)) ∧ HasGrads n m (thinLayer 0 (gdLayer eta a)) ∧
    (gdLayer eta a).params.map List.length = (gdLayer eta a).kind.blockSizes ∧
    (∃ P, P.map List.length = a.params.map List.length ∧ (gdLayer eta a).params = P ∧
      core (gdLayer eta a) = core (a.setParams P)) ∧
    ∀ b k, b < a.params.length → k < (a.params.getD b []).length →
      entry (gdLayer eta a).params b k = entry a.params b k - eta * entry a.paramGrads b k ∧
      entry (gdLayer eta a).paramGrads b k = 0 := by
  by_cases hd : IsDropout a
  · rw [gdLayer_dropout eta hd]
    refine ⟨hm, hg, hp, ⟨a.params, rfl, rfl, by rw [thin_setParams hd]⟩, ?_⟩
    intro b k hb
    exact absurd hd (not_dropout hb)
  · rw [thinLayer_plain hd] at hm hg
    obtain ⟨h1, h2, h3, h4, h5, h6⟩ := gdLayer_spec eta hm hg hp
    have hd' : ¬ IsDropout (gdLayer eta a) := by
      obtain ⟨P, _, _, h7⟩ := h5
      rw [thin_of_core h7, isDropout_setParams]
      exact hd
    rw [thinLayer_plain hd']
    exact ⟨h1, h2, h3, h5, h6⟩

theorem thin_gd (eta : ℝ) : ∀ {ls : List AnyLayer} {n m : Nat}, Trainable n m (thinned 0 ls) →
    (∀ l ∈ ls, l.params.map List.length = l.kind.blockSizes) →
    Trainable n m (thinned 0 (ls.map (gdLayer eta))) := by
  intro ls
  induction ls with
  | nil => intro n m h _; exact h
  | cons l ls ih =>
    intro n m h hs
    cases h with
    | cons h1 h2 h3 =>
      obtain ⟨a1, a2, _⟩ := gdLayer_thin eta h1 h2 (hs _ (by simp))
      exact .cons a1 a2 (ih h3 fun l hl => hs l (by simp [hl]))

theorem mem_layers_thin {n : Net} {p : List Nat} {q : Nat} {ks : List AnyLayer} {f : LossFn} {nin m : Nat}
    {inv : ℝ} (hp : IsTrainingPath n.graph p q) (hlen : n.layers.length = n.graph.layers.length)
    (hr : ReadyThin n p q ks f nin m inv) {a : AnyLayer} (ha : a ∈ n.layers) :
    a ∈ ks ∨ ∃ l, a = .loss f l := by
  obtain ⟨i, hi⟩ := List.getElem?_of_mem ha
  have hlt := (List.getElem?_eq_some_iff.mp hi).1
  by_cases hq : i = q
  · subst hq
    obtain ⟨l, h1, _⟩ := hr.loss
    rw [hi] at h1
    cases h1
    exact Or.inr ⟨l, rfl⟩
  · left
    have hmem : i ∈ p := (hp.path.layers i).mpr ⟨by omega, by rw [hp.loss]; simpa using hq⟩
    have : n.layers[i]? ∈ p.map (fun i => n.layers[i]?) := List.mem_map_of_mem hmem
    rw [hr.layers, hi] at this
    obtain ⟨b, hb, e⟩ := List.mem_map.mp this
    cases e
    exact hb

/-- `train` with gradient descent on a whole model. -/
theorem train_path_thin {n : Net} {p : List Nat} {q : Nat} {ks : List AnyLayer} {f : LossFn} {nin m : Nat}
    {inv : ℝ} (eta : ℝ) (hp : IsTrainingPath n.graph p q)
    (hlen : n.layers.length = n.graph.layers.length) (hr : ReadyThin n p q ks f nin m inv)
    (hs : ∀ l ∈ ks, l.params.map List.length = l.kind.blockSizes) :
    ∃ n', n.train (Opt.gdStep eta) () = (((), n'), .ok ()) ∧ n'.graph = n.graph ∧
      n'.layers.length = n.layers.length ∧ ReadyThin n' p q (ks.map (gdLayer eta)) f nin m inv := by
  have h := trainLayers_gd eta n.layers (by
    intro a ha
    rcases mem_layers_thin hp hlen hr ha with h | ⟨l, rfl⟩
    · obtain ⟨i, o, h1, h2⟩ := thinned_get hr.sizes h
      refine ⟨hs a h, ?_⟩
      by_cases hd : IsDropout a
      · cases a <;> first | exact hd.elim | rfl
      · rw [thinLayer_plain hd] at h1 h2
        exact grads_fit h1 h2 (hs a h)
    · exact ⟨rfl, rfl⟩)
  refine ⟨{ n with layers := n.layers.map (gdLayer eta) }, ?_, rfl, by simp, ?_, ?_, ?_⟩
  · unfold Net.train
    rw [h]
    rfl
  · have := congrArg (List.map (Option.map (gdLayer eta))) hr.layers
    rw [List.map_map, List.map_map] at this
    rw [List.map_map]
    show p.map (fun i => (n.layers.map (gdLayer eta))[i]?) = _
    simp only [List.getElem?_map]
    exact this
  · exact thin_gd eta hr.sizes hs
  · obtain ⟨l, h1, h2⟩ := hr.loss
    refine ⟨l, ?_, h2⟩
    show (n.layers.map (gdLayer eta))[q]? = _
    rw [List.getElem?_map, h1]
    rfl

/-- A state of a training run with parameter values `θ` after `t` training passes. -/
structure AtThin (g : DLGraph) (p : List Nat) (q : Nat) (ls : List AnyLayer) (f : LossFn) (nin m : Nat)
    (inv : ℝ) (t : Nat) (θ : Theta) (n : Net) (ks : List AnyLayer) : Prop where
  graph : n.graph = g
  length : n.layers.length = g.layers.length
  ready : ReadyThin n p q ks f nin m inv
  clean : Clean ks
  fits : FitsTheta ls θ
  core : ks.map core = (withTheta ls θ).map core
  thin : ∀ i, (thinned i ks).map Net.core = (thinned (t + i) (withTheta ls θ)).map Net.core

theorem AtThin.params {g : DLGraph} {p : List Nat} {q : Nat} {ls : List AnyLayer} {f : LossFn}
    {nin m : Nat} {inv : ℝ} {t : Nat} {θ : Theta} {n : Net} {ks : List AnyLayer}
    (h : AtThin g p q ls f nin m inv t θ n ks) : ks.map AnyLayer.params = θ := by
  apply List.ext_getElem?
  intro j
  have e1 := length_of_core h.core
  rw [withTheta_length h.fits] at e1
  by_cases hj : j < ls.length
  · have hl : ls[j]? = some ls[j] := List.getElem?_eq_getElem hj
    have h1 := withTheta_get h.fits hl
    obtain ⟨h2, h3⟩ := fitsTheta_get h.fits hl
    have h4 : ks[j]? = some (ks[j]'(by omega)) := List.getElem?_eq_getElem (by omega)
    rw [List.getElem?_map, h4, h2, Option.map_some, params_of_core (core_get h.core h1 h4),
      (params_setParams (by simpa using congrArg List.length h3)).1]
  · have := fitsTheta_length h.fits
    rw [List.getElem?_eq_none (by simp; omega), List.getElem?_eq_none (by omega)]

theorem thinned_get? (t : Nat) (ls : List AnyLayer) (j : Nat) :
    (thinned t ls)[j]? = ls[j]?.map (thinLayer t) := by
  unfold thinned
  rw [List.getElem?_map]

theorem batch_thin {g : DLGraph} {p : List Nat} {q : Nat} {ls : List AnyLayer} {f : LossFn} {nin m : Nat}
    {inv : ℝ} (eta : ℝ) (hok : Ok g) (hl : Lists g) (hp : IsTrainingPath g p q) (hne : p ≠ [])
    (ht : Trainable nin m (thinned 0 ls)) {t : Nat} {θ : Theta} {n : Net} {ks : List AnyLayer}
    (h : AtThin g p q ls f nin m inv t θ n ks) (samples : List (List ℝ × List ℝ))
    (hs : ∀ i s, samples[i]? = some s → GoodThin (t + i) (withTheta ls θ) f nin m s.1 s.2) :
    ∃ n1 n2 ks2 θ', each (fun n s => n.step s.1 s.2) samples n = .ok (n1, none) ∧
      n1.train (Opt.gdStep eta) () = (((), n2), .ok ()) ∧
      AtThin g p q ls f nin m inv (t + samples.length) θ' n2 ks2 ∧
      GdStep ls eta (fun θ => thinCost f m inv t samples (withTheta ls θ)) θ θ' := by
  have htθ := trainable_thin_theta ht h.fits
  obtain ⟨n1, ks1, a1, a2, a3, a4, a4', a5, a6⟩ := steps_thin hok hl hp hne htθ samples t n ks h.graph h.ready
    h.thin h.core fun i s hs' => (hs i s hs').fit
  have hlen1 : n1.layers.length = g.layers.length := (each_step_length _ a1).trans h.length
  have hcore1 : ks1.map core = ks.map core := a4'.trans h.core.symm
  have hsized : ∀ l ∈ ks1, l.params.map List.length = l.kind.blockSizes := by
    intro l hl'
    obtain ⟨j, hj⟩ := List.mem_iff_getElem?.mp hl'
    have hlt := (List.getElem?_eq_some_iff.mp hj).1
    have hlt' : j < ks.length := by rw [← length_of_core hcore1]; exact hlt
    have hk : ks[j]? = some ks[j] := List.getElem?_eq_getElem hlt'
    have hc := core_get hcore1 hk hj
    rw [params_of_core hc, kind_of_core hc]
    exact h.clean.sized _ (List.getElem_mem hlt')
  obtain ⟨n2, b1, b2, b3, b4⟩ := train_path_thin eta (by rw [a2]; exact hp) (by rw [a2]; exact hlen1) a3 hsized
  have hll : ks1.length = ls.length := by
    rw [length_of_core a4', withTheta_length h.fits]
  -- one layer
  have key : ∀ (j : Nat) (l : AnyLayer), ls[j]? = some l → ∃ l1, ks1[j]? = some l1 ∧
      (gdLayer eta l1).params.map List.length = l.params.map List.length ∧
      core (gdLayer eta l1) = core (l.setParams (gdLayer eta l1).params) ∧
      (gdLayer eta l1).params.map List.length = (gdLayer eta l1).kind.blockSizes ∧
      ∀ b k, b < l.params.length → k < (l.params.getD b []).length →
        entry (gdLayer eta l1).paramGrads b k = 0 ∧
        (Learned l b → ∃ D, HasDerivAt (fun v => thinCost f m inv t samples
            (withTheta ls (setTheta θ j b k v))) D (entry (θ.getD j []) b k) ∧
          entry (gdLayer eta l1).params b k = entry (θ.getD j []) b k - eta * D) := by
    intro j l hj
    obtain ⟨t1, t2⟩ := fitsTheta_get h.fits hj
    have tlen : (θ.getD j []).length = l.params.length := by simpa using congrArg List.length t2
    have hw := withTheta_get h.fits hj
    have hjlt := (List.getElem?_eq_some_iff.mp hj).1
    have hkl : ks.length = ls.length := by rw [length_of_core h.core, withTheta_length h.fits]
    have hk : ks[j]? = some (ks[j]'(by omega)) := List.getElem?_eq_getElem (by omega)
    obtain ⟨l1, c1, c2⟩ := a6 j _ _ hk hw
    have hc1 : core l1 = core (l.setParams (θ.getD j [])) := core_get a4' hw c1
    have hck : core (ks[j]'(by omega)) = core (l.setParams (θ.getD j [])) := core_get h.core hw hk
    have hp1 : l1.params = θ.getD j [] := by
      rw [params_of_core hc1, (params_setParams tlen).1]
    have hpk : (ks[j]'(by omega)).params = θ.getD j [] := by
      rw [params_of_core hck, (params_setParams tlen).1]
    obtain ⟨i, o, m1, m2⟩ := thinned_get a3.sizes (List.mem_of_getElem? c1)
    obtain ⟨_, _, d3, ⟨P, d5, d6, d7⟩, d8⟩ := gdLayer_thin eta m1 m2 (hsized l1 (List.mem_of_getElem? c1))
    have hPl : P.length = l.params.length := by
      have := congrArg List.length d5
      simp only [List.length_map] at this
      rw [this, hp1, tlen]
    refine ⟨l1, c1, by rw [d6, d5, hp1]; exact t2, ?_, d3, ?_⟩
    · rw [d7, d6, core_setParams hc1, setParams_setParams tlen hPl]
    · intro b k hb hk'
      have hbk : b < (θ.getD j []).length ∧ k < ((θ.getD j []).getD b []).length := by
        refine ⟨by omega, ?_⟩
        have := congrArg (fun z => z.getD b 0) t2
        simp only [List.getD_eq_getElem?_getD, List.getElem?_map] at this hk' ⊢
        rw [List.getElem?_eq_getElem hb] at this hk'
        have hb' : b < (θ[j]?.getD []).length := by
          rw [← List.getD_eq_getElem?_getD]; omega
        rw [List.getElem?_eq_getElem hb'] at this ⊢
        simp only [Option.map_some, Option.getD_some] at this hk' ⊢
        omega
      obtain ⟨e1, e2⟩ := d8 b k (by rw [hp1]; exact hbk.1) (by rw [hp1]; exact hbk.2)
      refine ⟨e2, fun hlb => ?_⟩
      have e3 := c2 b k ((learned_setParams l _ b).mpr hlb) (by rw [(params_setParams tlen).1]; exact hbk.1)
        (by rw [(params_setParams tlen).1]; exact hbk.2)
        (fun i s hs' => (hs i s hs').smooth j _ hw (by
          rw [(params_setParams tlen).1]
          exact List.ne_nil_of_length_pos (by omega)))
      rw [(params_setParams tlen).1] at e3
      have hz := h.clean.zero _ (List.getElem_mem (by omega : j < ks.length)) b k (by rw [hpk]; exact hbk.1)
        (by rw [hpk]; exact hbk.2)
      rw [hz, sub_zero] at e3
      refine ⟨entry l1.paramGrads b k, ?_, by rw [e1, hp1]⟩
      have hfun : (fun v => thinCost f m inv t samples
            ((withTheta ls θ).set j (withParam (l.setParams (θ.getD j [])) b k v)))
          = fun v => thinCost f m inv t samples (withTheta ls (setTheta θ j b k v)) := by
        funext v
        rw [withTheta_set h.fits hj]
      rw [← hfun]
      exact e3
  have hfit : FitsTheta ls ((ks1.map (gdLayer eta)).map AnyLayer.params) := by
    unfold FitsTheta
    apply List.ext_getElem?
    intro j
    simp only [List.getElem?_map]
    by_cases hj : j < ls.length
    · obtain ⟨l1, c1, c2, _⟩ := key j ls[j] (List.getElem?_eq_getElem hj)
      rw [c1, List.getElem?_eq_getElem hj]
      simp only [Option.map_some, c2]
    · rw [List.getElem?_eq_none (by omega), List.getElem?_eq_none (by omega)]
      rfl
  have hθ : ∀ (j : Nat) (l1 : AnyLayer), ks1[j]? = some l1 →
      ((ks1.map (gdLayer eta)).map AnyLayer.params).getD j [] = (gdLayer eta l1).params := by
    intro j l1 hj
    rw [List.getD_eq_getElem?_getD, List.getElem?_map, List.getElem?_map, hj]
    rfl
  have hmem : ∀ l ∈ ks1.map (gdLayer eta), ∃ (j : Nat) (l0 l1 : AnyLayer), ls[j]? = some l0 ∧
      ks1[j]? = some l1 ∧ l = gdLayer eta l1 := by
    intro l hl'
    obtain ⟨l1, hl1, rfl⟩ := List.mem_map.mp hl'
    obtain ⟨j, hj⟩ := List.mem_iff_getElem?.mp hl1
    have hlt := (List.getElem?_eq_some_iff.mp hj).1
    exact ⟨j, ls[j]'(by omega), l1, List.getElem?_eq_getElem (by omega), hj, rfl⟩
  have hblk : ∀ {l0 l' : AnyLayer} {b k : Nat}, l'.params.map List.length = l0.params.map List.length →
      b < l'.params.length → k < (l'.params.getD b []).length →
      b < l0.params.length ∧ k < (l0.params.getD b []).length := by
    intro l0 l' b k e hb hk
    have e1 : l'.params.length = l0.params.length := by simpa using congrArg List.length e
    refine ⟨by omega, ?_⟩
    have := congrArg (fun z => z[b]?) e
    simp only [List.getElem?_map] at this
    rw [List.getElem?_eq_getElem hb, List.getElem?_eq_getElem (by omega)] at this
    simp only [Option.map_some, Option.some.injEq] at this
    rw [List.getD_eq_getElem?_getD, List.getElem?_eq_getElem hb] at hk
    rw [List.getD_eq_getElem?_getD, List.getElem?_eq_getElem (by omega)]
    simp only [Option.getD_some] at hk ⊢
    omega
  refine ⟨n1, n2, ks1.map (gdLayer eta), (ks1.map (gdLayer eta)).map AnyLayer.params, a1, b1,
    ⟨b2.trans a2, b3.trans hlen1, b4, ⟨?_, ?_⟩, hfit, ?_, ?_⟩, hfit, ?_⟩
  · intro l hl'
    obtain ⟨j, l0, l1, h1, h2, rfl⟩ := hmem l hl'
    obtain ⟨l1', c1, _, _, c4, _⟩ := key j l0 h1
    rw [h2] at c1
    cases c1
    exact c4
  · intro l hl' b k hb hk
    obtain ⟨j, l0, l1, h1, h2, rfl⟩ := hmem l hl'
    obtain ⟨l1', c1, c2, _, _, c5⟩ := key j l0 h1
    rw [h2] at c1
    cases c1
    obtain ⟨g1, g2⟩ := hblk c2 hb hk
    exact (c5 b k g1 g2).1
  · apply List.ext_getElem?
    intro j
    by_cases hj : j < ls.length
    · have hjj : ls[j]? = some ls[j] := List.getElem?_eq_getElem hj
      obtain ⟨l1, c1, _, c3, _⟩ := key j ls[j] hjj
      rw [List.getElem?_map, List.getElem?_map, List.getElem?_map, withTheta_get hfit hjj, c1, hθ j l1 c1]
      simp only [Option.map_some, c3]
    · rw [List.getElem?_eq_none (by simp; omega), List.getElem?_eq_none
        (by rw [List.length_map, withTheta_length hfit]; omega)]
  · intro i
    apply List.ext_getElem?
    intro j
    rw [List.getElem?_map, List.getElem?_map, thinned_get?, thinned_get?]
    by_cases hj : j < ls.length
    · have hjj : ls[j]? = some ls[j] := List.getElem?_eq_getElem hj
      obtain ⟨l1, c1, _, c3, _⟩ := key j ls[j] hjj
      rw [withTheta_get hfit hjj, List.getElem?_map, c1, hθ j l1 c1]
      simp only [Option.map_some]
      congr 1
      by_cases hd : IsDropout ls[j]
      · have hw := withTheta_get h.fits hjj
        have e := congrArg (fun z => z[j]?) (a4 i)
        simp only [List.getElem?_map, thinned_get?, hw, c1, Option.map_some, Option.some.injEq] at e
        rw [thin_setParams hd] at c3 e ⊢
        have hd1 : IsDropout (gdLayer eta l1) := (thin_of_core c3).mpr hd
        have hd2 : IsDropout l1 := by
          have := core_get a4' hw c1
          rw [thin_setParams hd] at this
          exact (thin_of_core this).mpr hd
        rw [gdLayer_dropout eta hd2]
        exact e
      · have hd1 : ¬ IsDropout (ls[j].setParams (gdLayer eta l1).params) := by
          rw [isDropout_setParams]; exact hd
        have hd2 : ¬ IsDropout (gdLayer eta l1) := by rw [thin_of_core c3]; exact hd1
        rw [thinLayer_plain hd1, thinLayer_plain hd2, c3]
    · rw [List.getElem?_eq_none (by simp; omega), List.getElem?_eq_none (by rw [withTheta_length hfit]; omega)]
      rfl
  · intro j l b k hj hlb hb hk
    obtain ⟨l1, c1, _, _, _, c5⟩ := key j l hj
    obtain ⟨D, g1, g2⟩ := (c5 b k hb hk).2 hlb
    exact ⟨D, g1, by rw [hθ j l1 c1]; exact g2⟩

/-! ### The training loop -/

theorem atThin_reset {g : DLGraph} {p : List Nat} {q : Nat} {ls : List AnyLayer} {f : LossFn}
    {nin m : Nat} {inv : ℝ} (hp : IsTrainingPath g p q) {t : Nat} {θ : Theta} {n : Net} {ks : List AnyLayer}
    (h : AtThin g p q ls f nin m inv t θ n ks) : AtThin g p q ls f nin m inv t θ n.resetScore ks := by
  have hat : ∀ i, i ≠ q → n.resetScore.layers[i]? = n.layers[i]? := by
    intro i hi
    unfold Net.resetScore
    simp only [List.getElem?_mapIdx]
    cases hx : n.layers[i]? with
    | none => rfl
    | some a =>
      cases a <;> simp only [Option.map_some]
      rw [if_neg (by rw [h.graph, hp.loss]; simpa using hi)]
  refine ⟨h.graph, ?_, ⟨?_, h.ready.sizes, ?_⟩, h.clean, h.fits, h.core, h.thin⟩
  · rw [← h.length]; simp [Net.resetScore]
  · rw [← h.ready.layers]
    apply List.map_congr_left
    intro i hi
    apply hat
    rintro rfl
    have := (hp.path.layers i).mp hi
    rw [hp.loss] at this
    simp at this
  · obtain ⟨l, h1, h2, h3, h4⟩ := h.ready.loss
    refine ⟨l.resetScore, ?_, h2, h3, h4⟩
    unfold Net.resetScore
    simp only [List.getElem?_mapIdx, h1, Option.map_some]
    rw [if_pos (by rw [h.graph, hp.loss]; simp)]

theorem fit_thin {g : DLGraph} {p : List Nat} {q : Nat} {ls : List AnyLayer} {f : LossFn} {nin m : Nat}
    {inv : ℝ} (eta : ℝ) (hok : Ok g) (hl : Lists g) (hp : IsTrainingPath g p q) (hne : p ≠ [])
    (ht : Trainable nin m (thinned 0 ls)) (d : Data.Dataset ℝ) (s : Nat → List ℝ × List ℝ) :
    ∀ (bs : List (List Nat)) (t : Nat) (θ : Theta) (n : Net) (ks : List AnyLayer),
    AtThin g p q ls f nin m inv t θ n ks →
    (∀ is ∈ bs, ∀ i ∈ is, d.input i = .ok (s i).1 ∧ d.label i = .ok (s i).2) →
    (∀ pre is θ1, pre ++ [is] <+: bs → Descent ls eta (thinCosts f m inv s ls t pre) θ θ1 →
      ∀ i k : Nat, is[i]? = some k →
        GoodThin (t + pre.flatten.length + i) (withTheta ls θ1) f nin m (s k).1 (s k).2) →
    ∃ n' ks' θ', performAll (Training.modelOps (Opt.gdStep eta) d) (bs.flatMap batchCalls) ((), n)
        = .ok ((), n') ∧ AtThin g p q ls f nin m inv (t + bs.flatten.length) θ' n' ks' ∧
      Descent ls eta (thinCosts f m inv s ls t bs) θ θ' := by
  intro bs
  induction bs with
  | nil => intro t θ n ks h _ _; exact ⟨n, ks, θ, rfl, h, .nil θ⟩
  | cons is bs ih =>
    intro t θ n ks h hd hg
    obtain ⟨n1, n2, ks2, θ1, a1, a2, a3, a4⟩ := batch_thin eta hok hl hp hne ht (atThin_reset hp h)
      (is.map s) (by
        intro i x hx
        rw [List.getElem?_map] at hx
        obtain ⟨k, hk, rfl⟩ := Option.map_eq_some_iff.mp hx
        have := hg [] is θ (by simp) (.nil θ) i k hk
        simpa using this)
    rw [List.length_map] at a3
    obtain ⟨n', ks', θ', b1, b2, b3⟩ := ih (t + is.length) θ1 n2 ks2 a3 (fun is' h' => hd is' (by simp [h']))
      (fun pre is' θ2 hpre hdes i k hk => by
        have := hg (is :: pre) is' θ2 (by simpa using hpre) (.cons a4 hdes) i k hk
        rw [List.flatten_cons, List.length_append] at this
        rwa [Nat.add_assoc t])
    refine ⟨n', ks', θ', ?_, ?_, .cons a4 b3⟩
    · rw [List.flatMap_cons, Training.performAll_append]
      have e1 : performAll (Training.modelOps (Opt.gdStep eta) d) (batchCalls is) ((), n) = .ok ((), n2) := by
        unfold batchCalls
        show (Exec.ok ((), n.resetScore) >>= fun s => _) = _
        rw [Exec.bind_ok, Training.performAll_append,
          perform_steps (Opt.gdStep eta) d s is () (hd is (by simp)) a1, Exec.bind_ok]
        show ((do let r := n1.train (Opt.gdStep eta) (); r.2; .ok r.1) >>= fun s => Exec.ok s) = _
        dsimp only
        rw [a2]
        rfl
      rw [e1, Exec.bind_ok]
      exact b1
    · rw [List.flatten_cons, List.length_append, ← Nat.add_assoc]
      exact b2

end

end Verif.Net
