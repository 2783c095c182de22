import Verif.Proofs.NnEval
import Verif.Proofs.BackAll
import Verif.Proofs.Session
import Verif.Proofs.Total
import Verif.Spec.Scores

/-! Scores of a model during training. -/

namespace Verif.Net

open Verif.Graph Verif.Spec

noncomputable section

theorem lossForward_behaves_of (lf : LossFn) {m : Nat} (hm : 0 < m) (tol : ℝ) :
    Loss.Behaves lf.forward (scoringOf lf m tol) m tol := by
  cases lf with
  | mse => exact Loss.mse_behaves hm _
  | cce => exact Loss.cce_behaves hm _

theorem usable_of_canScore {f : LossFn} {m : Nat} {t : List ℝ} {tol : ℝ} (h : CanScore f m t) :
    (scoringOf f m tol).usable t := by
  obtain ⟨h1, h2, h3⟩ := h
  cases f with
  | mse => intro e; rw [e] at h1; simp at h1; omega
  | cce =>
    have he := h3 rfl
    classical
    refine ⟨Nat.find he, (Nat.find_spec he).1, (Nat.find_spec he).2, ?_⟩
    intro i hi
    have := Nat.find_min he hi
    by_contra hne
    exact this ⟨lt_trans hi (Nat.find_spec he).1, hne⟩

theorem hasGrads_kept {a a' : AnyLayer} {n m : Nat} (hc : core a' = core a) (he : extra a' = extra a)
    (h : HasGrads n m a) : HasGrads n m a' := by
  simp only [extra, Prod.mk.injEq] at he
  obtain ⟨h1, h2, _⟩ := he
  cases a with
  | dense l =>
    cases a' <;> simp only [core, reduceCtorEq] at hc
    simp only [AnyLayer.paramGrads, AnyLayer.lastInputGradient, List.cons.injEq, and_true] at h1 h2
    obtain ⟨g1, g2, g3⟩ := h
    exact ⟨h2.trans g1, by rw [h1.1]; exact g2, by rw [h1.2]; exact g3⟩
  | conv l =>
    cases a' with
    | conv l' =>
      simp only [core, AnyLayer.conv.injEq] at hc
      simp only [AnyLayer.paramGrads, AnyLayer.lastInputGradient, List.cons.injEq, and_true] at h1 h2
      obtain ⟨g1, g2, g3, g4⟩ := h
      have c1 := congrArg Slide.ConvLayer.weights hc
      have c2 := congrArg Slide.ConvLayer.nFilters hc
      have c3 := congrArg Slide.ConvLayer.output hc
      dsimp only at c1 c2 c3
      exact ⟨h2.trans g1, by rw [h1.1, c1]; exact g2, by rw [h1.2, c2]; exact g3, by rw [c2, c3]; exact g4⟩
    | _ => simp only [core, reduceCtorEq] at hc
  | act f l =>
    cases a' <;> simp only [core, reduceCtorEq] at hc
    exact Eq.trans h2 h
  | maxPool l =>
    cases a' <;> simp only [core, reduceCtorEq] at hc
    exact Eq.trans h2 h
  | avgPool l =>
    cases a' <;> simp only [core, reduceCtorEq] at hc
    exact Eq.trans h2 h
  | dropout mx raw l => exact h.elim
  | rnn f f1 l => exact h.elim
  | loss f l => exact h.elim

theorem fit_train {σ : Type} (opt : σ → ℝ → ℝ → σ × ℝ) (s : σ) {a : AnyLayer} {n m : Nat} (hm : Maps n m a)
    (hg : HasGrads n m a) : Maps n m (a.train opt s).1.2 ∧ HasGrads n m (a.train opt s).1.2 := by
  have h1 := trainLoop_lengths opt a.kind a.kind a.kind.paramCount 0 ⟨s, a.params, a.paramGrads⟩
  have h2 := trainLoop_grads opt a.kind a.kind a.kind.paramCount 0 ⟨s, a.params, a.paramGrads⟩
  dsimp only at h1 h2
  refine ⟨?_, ?_⟩
  · unfold AnyLayer.train Opt.trainSelf
    exact maps_core (core_setParamGrads _ _) (maps_setParams hm h1)
  · unfold AnyLayer.train Opt.trainSelf
    dsimp only
    generalize (Opt.trainLoop opt a.kind a.kind a.kind.paramCount 0 ⟨s, a.params, a.paramGrads⟩).state.params
      = P at h1
    generalize (Opt.trainLoop opt a.kind a.kind a.kind.paramCount 0 ⟨s, a.params, a.paramGrads⟩).state.grads
      = G at h2
    cases a with
    | dense l =>
      obtain ⟨w, b, rfl⟩ := two_of_length (ps := P) (by simpa [AnyLayer.params] using congrArg List.length h1)
      obtain ⟨w', b', rfl⟩ := two_of_length (ps := G) (by simpa [AnyLayer.paramGrads] using congrArg List.length h2)
      simp [AnyLayer.paramGrads] at h2
      exact ⟨hg.1, h2.1.trans hg.2.1, h2.2.trans hg.2.2⟩
    | conv l =>
      obtain ⟨w, b, rfl⟩ := two_of_length (ps := P) (by simpa [AnyLayer.params] using congrArg List.length h1)
      obtain ⟨w', b', rfl⟩ := two_of_length (ps := G) (by simpa [AnyLayer.paramGrads] using congrArg List.length h2)
      simp [AnyLayer.paramGrads, AnyLayer.params] at h1 h2
      exact ⟨hg.1, h2.1.trans (hg.2.1.trans h1.1.symm), h2.2.trans hg.2.2.1, hg.2.2.2⟩
    | act f l =>
      have h1 : P = [] := by simpa [AnyLayer.params] using h1
      have h2 : G = [] := by simpa [AnyLayer.paramGrads] using h2
      subst h1 h2
      exact hg
    | maxPool l =>
      have h1 : P = [] := by simpa [AnyLayer.params] using h1
      have h2 : G = [] := by simpa [AnyLayer.paramGrads] using h2
      subst h1 h2
      exact hg
    | avgPool l =>
      have h1 : P = [] := by simpa [AnyLayer.params] using h1
      have h2 : G = [] := by simpa [AnyLayer.paramGrads] using h2
      subst h1 h2
      exact hg
    | dropout mx raw l => exact hg.elim
    | rnn f f1 l => exact hg.elim
    | loss f l => exact hg.elim

/-- `train` treats layers one by one, until one throws. -/
theorem trainLayers_at {σ : Type} (opt : σ → ℝ → ℝ → σ × ℝ) : ∀ (ls : List AnyLayer) (s : σ) (i : Nat)
    (a : AnyLayer), ls[i]? = some a →
    ∃ a', (trainLayers opt s ls).1.2[i]? = some a' ∧ (a' = a ∨ ∃ s', a' = (a.train opt s').1.2) := by
  intro ls
  induction ls with
  | nil => intro s i a h; simp at h
  | cons b bs ih =>
    intro s i a h
    unfold trainLayers
    split
    · rename_i s' b' e
      cases i with
      | zero =>
        simp only [List.getElem?_cons_zero, Option.some.injEq] at h
        subst h
        exact ⟨b', rfl, .inr ⟨s, by rw [e]⟩⟩
      | succ i => exact ih s' i a (by simpa using h)
    · rename_i s' b' e1 _ e2
      cases i with
      | zero =>
        simp only [List.getElem?_cons_zero, Option.some.injEq] at h
        subst h
        exact ⟨b', rfl, .inr ⟨s, by rw [e2]⟩⟩
      | succ i => exact ⟨a, by simpa using h, .inl rfl⟩

theorem loss_trained {σ : Type} (opt : σ → ℝ → ℝ → σ × ℝ) (s : σ) (f : LossFn) (l : Loss.Layer) :
    ((AnyLayer.loss f l).train opt s).1.2 = .loss f l := rfl

/-- What keeps the layers along a path trainable. -/
theorem trainable_kept {as bs : List AnyLayer} (hk : ∀ (i : Nat) (a : AnyLayer), as[i]? = some a →
      ∃ b, bs[i]? = some b ∧ ∀ n m, Maps n m a → HasGrads n m a → Maps n m b ∧ HasGrads n m b) {m : Nat} :
    ∀ {p : List Nat} {ks : List AnyLayer} {n : Nat}, p.map (fun i => as[i]?) = ks.map some →
      Trainable n m ks → ∃ ks', p.map (fun i => bs[i]?) = ks'.map some ∧ Trainable n m ks' := by
  intro p
  induction p with
  | nil =>
    intro ks n h1 h2
    have : ks = [] := by simpa using h1.symm
    subst this
    exact ⟨[], rfl, h2⟩
  | cons i p ih =>
    intro ks n h1 h2
    cases h2 with
    | nil => cases h1
    | cons h3 h4 h5 =>
      simp only [List.map_cons, List.cons.injEq] at h1
      obtain ⟨ks', e1, e2⟩ := ih h1.2 h5
      obtain ⟨b, e3, e4⟩ := hk _ _ h1.1
      obtain ⟨g1, g2⟩ := e4 _ _ h3 h4
      exact ⟨b :: ks', by simp [e1, e3], .cons g1 g2 e2⟩

theorem each_inv_mem {σ β : Type} {f : σ → β → Exec (σ × Option String)} (P : σ → Prop) :
    ∀ (bs : List β) (s s' : σ) (e : Option String),
    (∀ b ∈ bs, ∀ s s' e, P s → f s b = .ok (s', e) → P s') → P s → each f bs s = .ok (s', e) → P s' := by
  intro bs
  induction bs with
  | nil => intro s s' e _ hs h; cases h; exact hs
  | cons b bs ih =>
    intro s s' e step hs h
    obtain ⟨⟨t, et⟩, h1, h2⟩ := Exec.bind_eq_ok h
    cases et with
    | none => exact ih _ _ _ (fun b hb => step b (by simp [hb])) (step _ (by simp) _ _ _ hs h1) h2
    | some m => cases h2; exact step _ (by simp) _ _ _ hs h1

theorem forwardAt_other {x : List ℝ} {ls ls' : List AnyLayer} {s : Source × Nat} {e : Option String}
    (h : forwardAt x ls s = .ok (ls', e)) {i : Nat} (hi : s.2 ≠ i) : ls'[i]? = ls[i]? := by
  unfold forwardAt at h
  split at h
  · obtain ⟨l, h1, h⟩ := Exec.bind_eq_ok h
    obtain ⟨r, h2, h⟩ := Exec.bind_eq_ok h
    cases h
    exact List.getElem?_set_ne hi
  · cases h; rfl
  · cases h

/-- `predict` only touches input layers and layers that arcs lead to. -/
theorem predict_other {n n' : Net} {x : List ℝ} {r : Except String (List ℝ)}
    (h : n.predict x = .ok (n', r)) {i : Nat} (h1 : i ∉ n.graph.inputs)
    (h2 : ∀ a ∈ forwardArcs n.graph, a.2 ≠ i) : n'.layers[i]? = n.layers[i]? := by
  unfold Net.predict at h
  split at h
  · cases h; rfl
  · obtain ⟨⟨ls, e⟩, h3, h⟩ := Exec.bind_eq_ok h
    have key : ls[i]? = n.layers[i]? :=
      each_inv_mem (fun s => s[i]? = n.layers[i]?) _ _ _ _
        (fun b hb s s' e hs h => (forwardAt_other h (by
          rcases List.mem_append.mp hb with hb | hb
          · obtain ⟨j, hj, rfl⟩ := List.mem_map.mp hb
            exact fun e => h1 (e ▸ hj)
          · obtain ⟨a, ha, rfl⟩ := List.mem_map.mp hb
            exact h2 a ha)).trans hs) rfl h3
    cases e with
    | some m => cases h; exact key
    | none =>
      obtain ⟨l, _, h⟩ := Exec.bind_eq_ok h
      dsimp only at h
      split at h
      · cases h; exact key
      · cases h; exact key
      · cases h

theorem resetScore_at {n : Net} {q : Nat} {f : LossFn} {l : Loss.Layer} (hq : n.layers[q]? = some (.loss f l))
    (hl : n.graph.loss = [q]) : n.resetScore.layers[q]? = some (.loss f l.resetScore) := by
  show (n.layers.mapIdx _)[q]? = _
  rw [List.getElem?_mapIdx, hq, Option.map_some, hl]
  simp

theorem forall₂_get {as bs : List AnyLayer} (h : List.Forall₂ Ess as bs) {i : Nat} {a : AnyLayer}
    (ha : as[i]? = some a) : ∃ b, bs[i]? = some b ∧ Ess a b := by
  induction h generalizing i with
  | nil => simp at ha
  | cons h _ ih =>
    cases i with
    | zero => simp at ha; subst ha; exact ⟨_, rfl, h⟩
    | succ i => exact ih (by simpa using ha)

/-- The loss layer has counted the pairs in the log. -/
structure Counted (g : DLGraph) (p : List Nat) (q : Nat) (f : LossFn) (nin m : Nat) (tol : ℝ)
    (n : Net) (log : List (List ℝ × List ℝ)) : Prop where
  graph : n.graph = g
  ready : ∃ ks inv, Ready n p q ks f nin m inv
  tracks : ∃ l t, n.layers[q]? = some (.loss f l) ∧ l.tolerance = tol ∧
    Loss.Tracks (scoringOf f m tol) l (t, log)

theorem counted {n0 : Net} {p : List Nat} {q : Nat} {ks0 : List AnyLayer} {f : LossFn} {nin m : Nat} {inv tol : ℝ}
    {l0 : Loss.Layer} (hok : Ok n0.graph) (hl : Lists n0.graph) (hp : IsTrainingPath n0.graph p q) (hne : p ≠ [])
    (hr : Ready n0 p q ks0 f nin m inv) (hq0 : n0.layers[q]? = some (.loss f l0)) (htol : l0.tolerance = tol)
    {n : Net} {log : List (List ℝ × List ℝ)} (h : Scored n0 p f nin m n log) :
    Counted n0.graph p q f nin m tol n log := by
  have reset : ∀ {n : Net} {log : List (List ℝ × List ℝ)}, n.graph = n0.graph →
      (∃ ks inv, Ready n p q ks f nin m inv) → (∃ l, n.layers[q]? = some (.loss f l) ∧ l.tolerance = tol) →
      Counted n0.graph p q f nin m tol n.resetScore [] := by
    rintro n log hg ⟨ks, inv, hr⟩ ⟨l, h1, h2⟩
    have hr' := resetScore_at h1 (by rw [hg]; exact hp.loss)
    obtain ⟨ks', k1, k2⟩ := trainable_kept (as := n.layers) (bs := n.resetScore.layers) (by
      intro i a ha
      obtain ⟨b, hb, hE⟩ := forall₂_get (resetScore_ess n).2 ha
      exact ⟨b, hb, fun n m h h' => ⟨maps_core hE.1.symm h, hasGrads_kept hE.1.symm hE.2.1.symm h'⟩⟩) hr.layers hr.sizes
    obtain ⟨L, a1, a2, a3, a4⟩ := hr.loss
    have : L = l := by rw [a1] at h1; simpa using h1
    subst this
    exact ⟨hg, ⟨ks', inv, k1, k2, _, hr', a2, a3, a4⟩, _, L.target, hr', h2, rfl, rfl, rfl, rfl⟩
  induction h with
  | new => exact reset (log := []) rfl ⟨ks0, inv, hr⟩ ⟨l0, hq0, htol⟩
  | @step n n' log e x t ks _ hx ht hk hs ih =>
    obtain ⟨hg, ⟨ks', inv', hr'⟩, l, t0, b1, b2, b3⟩ := ih
    have hkk : ks = ks' := by
      have := hk.symm.trans hr'.layers
      exact List.map_injective_iff.mpr (Option.some_injective _) this
    subst hkk
    obtain ⟨n1, ks1, c1, c2, c3, c4, c5, ⟨L, L1, g, _, d1, d2, d3, d4⟩, _⟩ := step_path_scored (by rw [hg]; exact hok)
      (by rw [hg]; exact hl) (by rw [hg]; exact hp) hne hr' hx ht
    rw [c1] at hs
    cases hs
    have : L = l := by rw [d1] at b1; simpa using b1
    subst this
    obtain ⟨L0, a1, a2, a3, a4⟩ := hr'.loss
    have : L0 = L := by rw [a1] at d1; simpa using d1
    subst this
    have hu := usable_of_canScore (tol := tol) ht
    have h4 : Loss.Tracks (scoringOf f m tol) { L0.setTarget t with lastInput := prediction ks x } (t, log) := ⟨rfl, b3.2⟩
    obtain ⟨l', e', e1, e2, e3, e4, e5⟩ := Loss.tracks_forward (lossForward_behaves_of f ht.2.1 tol)
      (l := { L0.setTarget t with lastInput := prediction ks x }) a2 b2 (.inl ht.1) h4 d2
    rw [Nn.logStep_usable hu] at e5
    have hL : l' = L1 := by
      have d3' : (f.forward { L0.setTarget t with lastInput := prediction ks x } (prediction ks x) >>= fun r =>
          (.ok (AnyLayer.loss f r.1, r.2) : Exec _)) = .ok (.loss f L1, none) := d3
      rw [e1] at d3'
      cases d3'
      rfl
    subst hL
    exact ⟨c2.trans hg, ⟨ks1, inv', c3⟩, _, t, d4, e3, e5⟩
  | @train n log σ opt s _ ih =>
    obtain ⟨hg, ⟨ks, inv', hr'⟩, l, t0, b1, b2, b3⟩ := ih
    obtain ⟨ks', k1, k2⟩ := trainable_kept (as := n.layers) (bs := (n.train opt s).1.2.layers) (by
      intro i a ha
      obtain ⟨b, hb, hE⟩ := trainLayers_at opt n.layers s i a ha
      refine ⟨b, hb, fun n m h h' => ?_⟩
      rcases hE with rfl | ⟨s', rfl⟩
      · exact ⟨h, h'⟩
      · exact fit_train opt s' h h') hr'.layers hr'.sizes
    have hq : (n.train opt s).1.2.layers[q]? = some (.loss f l) := by
      obtain ⟨b, hb, hE⟩ := trainLayers_at opt n.layers s q _ b1
      rcases hE with rfl | ⟨s', rfl⟩
      · exact hb
      · exact hb
    obtain ⟨L, a1, a2, a3, a4⟩ := hr'.loss
    have : L = l := by rw [a1] at b1; simpa using b1
    subst this
    exact ⟨hg, ⟨ks', inv', k1, k2, L, hq, a2, a3, a4⟩, L, t0, hq, b2, b3⟩
  | @predict n n' log r x _ hs ih =>
    obtain ⟨hg, ⟨ks, inv', hr'⟩, l, t0, b1, b2, b3⟩ := ih
    obtain ⟨g1, g2⟩ := predict_ess hs
    obtain ⟨ks', k1, k2⟩ := trainable_kept (as := n.layers) (bs := n'.layers) (by
      intro i a ha
      obtain ⟨b, hb, hE⟩ := forall₂_get g2 ha
      exact ⟨b, hb, fun n m h h' => ⟨maps_core hE.1.symm h, hasGrads_kept hE.1.symm hE.2.1.symm h'⟩⟩)
      hr'.layers hr'.sizes
    obtain ⟨a, rest, rfl⟩ := List.exists_cons_of_ne_nil hne
    obtain ⟨f1, f2, f3, f4⟩ := training_facts hok hl hp
    obtain ⟨p3, p1, _⟩ := path_facts hok hl hp.path
    have hq : n'.layers[q]? = some (.loss f l) := by
      rw [predict_other hs (i := q)]
      · exact b1
      · rw [hg, p1]
        intro h
        exact f2 (by simp at h; simp [h])
      · rw [hg, p3]
        intro b hb e
        apply f2
        have := (List.of_mem_zip hb).2
        rw [e] at this
        simp [this]
    obtain ⟨L, a1, a2, a3, a4⟩ := hr'.loss
    have : L = l := by rw [a1] at b1; simpa using b1
    subst this
    exact ⟨g1.trans hg, ⟨ks', inv', k1, k2, L, hq, a2, a3, a4⟩, L, t0, hq, b2, b3⟩
  | @reset n log _ ih =>
    obtain ⟨hg, h1, l, t0, b1, b2, b3⟩ := ih
    exact reset (log := log) hg h1 ⟨l, b1, b2⟩

theorem sumScore_spec (score : Loss.Layer → ℝ) (ls : List AnyLayer) : ∀ (qs : List Nat)
    (hs : List (LossFn × Loss.Layer)), qs.map (fun q => ls[q]?) = hs.map (fun h => some (.loss h.1 h.2)) →
    Nn.sumScore score ls qs = .ok (hs.map fun h => score h.2).sum := by
  intro qs
  induction qs with
  | nil =>
    intro hs h
    have : hs = [] := by simpa using h.symm
    subst this
    rfl
  | cons q qs ih =>
    intro hs h
    cases hs with
    | nil => simp at h
    | cons b hs =>
      simp only [List.map_cons, List.cons.injEq] at h
      unfold Nn.sumScore
      rw [rd_of_some h.1, Exec.bind_ok, ih hs h.2, Exec.bind_ok]
      simp

end

end Verif.Net
