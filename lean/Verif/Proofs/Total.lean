import Verif.Proofs.RefitFnn
import Verif.Proofs.Dropout
import Verif.Props.Slide

/-! Calls on layers and models whose buffers have the right sizes return normally. -/

namespace Verif.Net

open Verif.Spec Verif.Graph

noncomputable section

/-! ### Layers -/

/-- The declared output shape of a convolution or pooling layer counts its outputs, and the buffer of an activation has its
size; the identity replaces its buffer. -/
def OutShape (m : Nat) : AnyLayer → Prop
  | .conv l => l.output.h * l.output.w * l.nFilters = m ∧ l.output.size = m
  | .maxPool l => l.output.size = m
  | .avgPool l => l.output.size = m
  | .act f l => f.isLinear = true ∨ l.output.length = m
  | _ => True

/-- All buffers of a layer from `n` to `m` values have the lengths the constructor gives them. -/
def Sized (n m : Nat) : AnyLayer → Prop
  | .dropout _ _ l => m = n ∧ l.size = n ∧ Drop.Good l
  | a => Maps n m a ∧ a.lastInputGradient.length = n ∧ Blocks a ∧ OutShape m a

/-- The output buffer has the right length. -/
def Filled (m : Nat) (a : AnyLayer) : Prop := ∃ y, a.lastOutput = .ok y ∧ y.length = m

theorem Sized.cases {n m : Nat} {a : AnyLayer} (h : Sized n m a) :
    (∃ mx raw l, a = .dropout mx raw l ∧ m = n ∧ l.size = n ∧ Drop.Good l) ∨
    (Maps n m a ∧ a.lastInputGradient.length = n ∧ Blocks a ∧ OutShape m a) := by
  cases a with
  | dropout mx raw l => exact .inl ⟨mx, raw, l, rfl, h⟩
  | _ => exact .inr h

theorem Sized.mk {n m : Nat} {a : AnyLayer} (h1 : Maps n m a) (h2 : a.lastInputGradient.length = n)
    (h3 : Blocks a) (h4 : OutShape m a) : Sized n m a := by
  cases a with
  | dropout mx raw l => exact h1.elim
  | _ => exact ⟨h1, h2, h3, h4⟩

theorem Sized.grad {n m : Nat} {a : AnyLayer} (h : Sized n m a) : a.lastInputGradient.length = n := by
  rcases h.cases with ⟨mx, raw, l, rfl, h1, h2, h3⟩ | ⟨_, h, _⟩
  · exact h3.inputGrad.trans h2
  · exact h

theorem Sized.blocks {n m : Nat} {a : AnyLayer} (h : Sized n m a) : Blocks a := by
  rcases h.cases with ⟨mx, raw, l, rfl, _⟩ | ⟨_, _, h, _⟩
  · exact ⟨rfl, rfl⟩
  · exact h

theorem outShape_core {m : Nat} {a b : AnyLayer} (h : core b = core a) (ha : OutShape m a) : OutShape m b := by
  cases b <;> cases a <;> simp only [core, reduceCtorEq] at h <;> try trivial
  case conv.conv b a =>
    simp at h
    obtain ⟨_, h1, _, h2, _⟩ := h
    unfold OutShape at ha ⊢
    dsimp only at ha ⊢
    rw [h1, h2]
    exact ha
  case maxPool.maxPool b a =>
    simp at h
    unfold OutShape at ha ⊢
    dsimp only at ha ⊢
    rw [h.2.1]
    exact ha
  case avgPool.avgPool b a =>
    simp at h
    unfold OutShape at ha ⊢
    dsimp only at ha ⊢
    rw [h.2.1]
    exact ha
  case act.act f b f' a =>
    simp at h
    obtain ⟨rfl, h1, _⟩ := h
    rcases ha with ha | ha
    · exact .inl ha
    · by_cases hf : f.isLinear = true
      · exact .inl hf
      · right
        simp [hf] at h1
        rw [h1]
        exact ha

theorem frame_facts {n m : Nat} {a b : AnyLayer} (hm : Maps n m a) (hc : core b = core a) (hf : frame b = frame a) :
    b.lastInputGradient.length = a.lastInputGradient.length ∧
      b.paramGrads.map List.length = a.paramGrads.map List.length := by
  cases a <;> first | exact hm.elim | skip
  all_goals
    cases b <;> simp only [core, reduceCtorEq] at hc
    simp only [frame, extra, Option.some.injEq, Prod.mk.injEq] at hf
    exact ⟨hf.2.1, hf.1⟩

theorem sized_of {n m : Nat} {a b : AnyLayer} (h : Sized n m a) (hm : Maps n m a) (hc : core b = core a)
    (hf : frame b = frame a) : Sized n m b := by
  obtain ⟨f1, f2⟩ := frame_facts hm hc hf
  rcases h.cases with ⟨mx, raw, l, rfl, _⟩ | ⟨_, h2, h3, h4⟩
  · exact hm.elim
  · refine .mk (maps_core hc hm) (f1.trans h2) ⟨?_, ?_⟩ (outShape_core hc h4)
    · rw [params_of_core hc, kind_of_core hc]; exact h3.1
    · rw [f2, kind_of_core hc]; exact h3.2

theorem good_training {mx : Nat} {raw : Nat → Nat} {l l' : Drop.Layer} {x y : List ℝ}
    (h : l.trainingForward mx raw x = .ok (l', y)) (hl : Drop.Good l) : l'.size = l.size ∧ Drop.Good l' := by
  obtain ⟨s, h1, h⟩ := Exec.bind_eq_ok h
  cases h
  have key := forUp_inv (fun s : List ℝ × List Nat => s.1.length = l.size ∧ ∀ i ∈ s.2, i < l.size) (by
    rintro i s s' ⟨h2, h3⟩ h
    dsimp only at h
    split at h
    · obtain ⟨_, _, h⟩ := Exec.bind_eq_ok h
      obtain ⟨o, h4, h⟩ := Exec.bind_eq_ok h
      cases h
      exact ⟨(wr_length h4).trans h2, h3⟩
    · obtain ⟨o, h4, h⟩ := Exec.bind_eq_ok h
      cases h
      refine ⟨(wr_length h4).trans h2, fun j hj => ?_⟩
      rcases List.mem_append.mp hj with hj | hj
      · exact h3 j hj
      · rw [List.mem_singleton.mp hj, ← h2]
        unfold wr at h4
        split at h4
        · assumption
        · cases h4) ⟨hl.output, by simp⟩ h1
  exact ⟨rfl, ⟨key.1, hl.inputGrad, hl.scale, key.2⟩⟩

theorem clearAt_length : ∀ (m : List Nat) {g g' : List ℝ}, Drop.clearAt m g = .ok g' → g'.length = g.length
  | [], _, _, h => by cases h; rfl
  | i :: is, g, g', h => by
    obtain ⟨r, h1, h⟩ := Exec.bind_eq_ok h
    rw [clearAt_length is h, wr_length h1]

theorem good_backward {l l' : Drop.Layer} {g y : List ℝ}
    (h : l.backward g = .ok (l', y)) (hl : Drop.Good l) : l'.size = l.size ∧ Drop.Good l' := by
  obtain ⟨s, h1, h⟩ := Exec.bind_eq_ok h
  obtain ⟨s', h2, h⟩ := Exec.bind_eq_ok h
  cases h
  have key : s.length = l.inputGrad.length :=
    forUp_inv (fun s => s.length = l.inputGrad.length) (by
      intro i s s' h2 h
      obtain ⟨_, _, h⟩ := Exec.bind_eq_ok h
      exact (wr_length h).trans h2) rfl h1
  exact ⟨rfl, ⟨hl.output, (clearAt_length _ h2).trans (key.trans hl.inputGrad), hl.scale, hl.mask⟩⟩

/-! #### Calls that return keep the lengths -/

theorem Sized.setLastInput {n m : Nat} {a : AnyLayer} (h : Sized n m a) (x : List ℝ) :
    Sized n m (a.setLastInput x) := by
  rcases h.cases with ⟨mx, raw, l, rfl, _⟩ | ⟨h1, _⟩
  · exact h
  · exact sized_of h h1 (core_setLastInput _ _) (frame_setLastInput _ _)

theorem Sized.forward' {n m : Nat} {a a' : AnyLayer} (h : Sized n m a) {x : List ℝ} {e : Option String}
    (hx : a.forward x = .ok (a', e)) : Sized n m a' := by
  rcases h.cases with ⟨mx, raw, l, rfl, _⟩ | ⟨h1, _⟩
  · cases hx; exact h
  · exact sized_of h h1 (core_forward hx) (frame_forward hx)

theorem Sized.trainingForward' {n m : Nat} {a a' : AnyLayer} (h : Sized n m a) {x : List ℝ} {e : Option String}
    (hx : a.trainingForward x = .ok (a', e)) : Sized n m a' := by
  rcases h.cases with ⟨mx, raw, l, rfl, h1, h2, h3⟩ | ⟨h1, _⟩
  · rcases keep_ok hx with rfl | ⟨⟨l', y⟩, k1, rfl, _⟩
    · exact h
    · obtain ⟨k2, k3⟩ := good_training k1 h3
      exact ⟨h1, k2.trans h2, k3⟩
  · exact sized_of h h1 (core_trainingForward hx) (frame_trainingForward hx)

theorem Sized.backward' {n m : Nat} {a a' : AnyLayer} (h : Sized n m a) {g : List ℝ} {e : Option String}
    (hx : a.backward g = .ok (a', e)) : Sized n m a' := by
  rcases h.cases with ⟨mx, raw, l, rfl, h1, h2, h3⟩ | ⟨h1, _⟩
  · rcases keep_ok hx with rfl | ⟨⟨l', y⟩, k1, rfl, _⟩
    · exact h
    · obtain ⟨k2, k3⟩ := good_backward k1 h3
      exact ⟨h1, k2.trans h2, k3⟩
  · exact sized_of h h1 (core_backward hx) (frame_backward hx)

/-! #### Calls with arguments of the right lengths return -/

theorem Sized.forward {n m : Nat} {a : AnyLayer} (h : Sized n m a) {x : List ℝ} (hx : x.length = n) :
    ∃ a', a.forward x = .ok (a', none) ∧ Filled m a' := by
  rcases h.cases with ⟨mx, raw, l, rfl, h1, h2, h3⟩ | ⟨h1, _⟩
  · exact ⟨_, rfl, _, rfl, by rw [h3.output, h2, h1]⟩
  · obtain ⟨y, hy, hY⟩ := yields_of_maps h1 hx
    obtain ⟨a', e1, e2⟩ := hY a rfl
    exact ⟨a', e1, y, e2, hy⟩

theorem Sized.trainingForward {n m : Nat} {a : AnyLayer} (h : Sized n m a) {x : List ℝ} (hx : x.length = n) :
    ∃ a', a.trainingForward x = .ok (a', none) ∧ Filled m a' := by
  rcases trainingForward_cases a x with ⟨mx, raw, l, rfl⟩ | h1
  · obtain ⟨h1, h2, h3⟩ := h
    obtain ⟨l', e1, e2, e3, _⟩ := Drop.training_eq mx raw l h3 x (hx.trans h2.symm)
    refine ⟨.dropout mx raw l', ?_, _, rfl, by rw [e2.output, e3, h2, h1]⟩
    show keep _ (l.trainingForward mx raw x) _ = _
    rw [e1]
    rfl
  · rw [h1]
    exact (h.setLastInput x).forward hx

theorem keep_returns {β : Type} {old : AnyLayer} {r : Exec β} {b : β} {wrap : β → AnyLayer} {P : AnyLayer → Prop}
    (h : r = .ok b) (hp : P (wrap b)) : ∃ a', keep old r wrap = .ok (a', none) ∧ P a' := by
  subst h
  exact ⟨_, rfl, hp⟩

theorem backward_returns {n m : Nat} {a : AnyLayer} (h : Sized n m a) {x g : List ℝ} (hx : x.length = n)
    (hg : g.length = m) : ∃ a', (a.setLastInput x).backward g = .ok (a', none) ∧
      a'.lastOutput = a.lastOutput := by
  cases a with
  | dense l =>
    obtain ⟨⟨h1, h2, h3, h4, h5⟩, h6, h7, _⟩ := h
    have hb := h7.2
    simp [AnyLayer.paramGrads, AnyLayer.kind, Opt.Kind.blockSizes] at hb
    have key := Dense.dense1_eq (s := l.grads) (g := g) (x := x) (w := l.weights) (n := n) (m := m) h6
      (by rw [hb.1, h1, h2]) (by rw [hb.2, h2]) (by omega) (by omega) (by omega)
    have e : ∃ r, Dense.Layer.backward { l with lastInput := x } g = .ok r ∧ r.output = l.output := by
      unfold Dense.Layer.backward
      dsimp only
      rw [hg, h1, key, Exec.bind_ok]
      exact ⟨_, rfl, rfl⟩
    obtain ⟨r, e, e'⟩ := e
    exact keep_returns (P := fun a' => a'.lastOutput = _) e (congrArg Exec.ok e')
  | conv l =>
    obtain ⟨⟨q, hq, h1, h2, h3, h4, h5, h6, h7, h8⟩, h9, h10, h11⟩ := h
    have hb := h10.2
    have hb1 := h10.1
    simp [AnyLayer.paramGrads, AnyLayer.kind, Opt.Kind.blockSizes] at hb
    simp [AnyLayer.params, AnyLayer.kind, Opt.Kind.blockSizes] at hb1
    have h9 : l.inputGrads.length = n := h9
    have h11 : l.output.h * l.output.w * l.nFilters = m := h11.1
    have key := Slide.convGrad_eq hq (nf := l.nFilters) (grads := g) (src := x)
      (k := l.weights) (N1 := n) (N2 := l.weightGrads.length)
      (by omega) (by omega) (by omega) (by omega) (by omega) ((0 : Nat → ℝ), vec l.weightGrads)
    simp only [Slide.ks, Slide.st, Slide.pd] at key
    have e1 : List.replicate n (0 : ℝ) = tab n (0 : Nat → ℝ) := by
      unfold tab; simp [Pi.zero_def]
    rw [← e1, ← eq_tab l.weightGrads] at key
    have hbg := Slide.convBiasGrads_eq (grads := g) (bg := l.biasGrads) (o := l.output) (nf := l.nFilters)
      (by omega) hb.2
    have e : ∃ r, Slide.ConvLayer.backward { l with lastInput := x } g = .ok r ∧ r.out = l.out := by
      unfold Slide.ConvLayer.backward
      dsimp only
      rw [hbg, Exec.bind_ok, h1, h2, h3, h4, h9, key, Exec.bind_ok]
      exact ⟨_, rfl, rfl⟩
    obtain ⟨r, e, e'⟩ := e
    exact keep_returns (P := fun a' => a'.lastOutput = _) e (congrArg Exec.ok e')
  | maxPool l =>
    obtain ⟨⟨q, hq, hp, h1, h2, h3, h6, h7, h8⟩, h9, _⟩ := h
    obtain ⟨ig, _, e1, _⟩ := Props.C13_max_pool_backward_actual { l with lastInput := x } q hq hp
      ⟨h1, h2, h3, h9.trans h8, h6.trans h7⟩ g (by omega) (by show x.length = _; omega)
    exact keep_returns (P := fun a' => a'.lastOutput = _) e1 rfl
  | avgPool l =>
    obtain ⟨⟨q, hq, hp, h1, h2, h3, h6, h7, h8⟩, h9, _⟩ := h
    obtain ⟨ig, e1, _⟩ := Props.C14_avg_pool_backward_partial { l with lastInput := x } q hq hp
      ⟨h1, h2, h3, h9.trans h8, h6.trans h7⟩ g (by omega)
    exact keep_returns (P := fun a' => a'.lastOutput = _) e1 rfl
  | act f l =>
    obtain ⟨h1, h2, _, hn⟩ := h
    have h2 : l.inputGradients.length = n := h2
    have hmn : m = n := by cases f <;> first | exact h1.1 | exact h1
    have hn : f.isLinear = true ∨ l.output.length = m := hn
    have e : ∃ r, f.backward l g = .ok r ∧ r.output = l.output := by
      cases f with
      | relu =>
        have hn := hn.resolve_left (by simp [ActFn.isLinear])
        exact ⟨_, Act.backwardWith_eq _ (by omega) (by omega), rfl⟩
      | elu a =>
        have hn := hn.resolve_left (by simp [ActFn.isLinear])
        exact ⟨_, Act.backwardWith_eq _ (by omega) (by omega), rfl⟩
      | tanh =>
        have hn := hn.resolve_left (by simp [ActFn.isLinear])
        exact ⟨_, Act.backwardWith_eq _ (by omega) (by omega), rfl⟩
      | sigmoid =>
        have hn := hn.resolve_left (by simp [ActFn.isLinear])
        exact ⟨_, Act.backwardWith_eq _ (by omega) (by omega), rfl⟩
      | linear =>
        show ∃ r, Act.linearBackward l g = .ok r ∧ _
        unfold Act.linearBackward
        rw [Act.mapArr_eq _ rfl (by omega)]
        exact ⟨_, rfl, rfl⟩
      | softmax =>
        have hn := hn.resolve_left (by simp [ActFn.isLinear])
        show ∃ r, Act.softmaxBackward l g = .ok r ∧ _
        unfold Act.softmaxBackward
        rw [Act.softmax1Opt_eq rfl (by omega) (by omega)]
        exact ⟨_, rfl, rfl⟩
    obtain ⟨r, e1, e3⟩ := e
    exact keep_returns (P := fun a' => a'.lastOutput = _) e1 (congrArg Exec.ok e3)
  | dropout mx raw l =>
    obtain ⟨h1, h2, h3⟩ := h
    obtain ⟨l', e1, _⟩ := Drop.backward_eq l h3 g (by omega)
    refine keep_returns (P := fun a' => a'.lastOutput = _) e1 (congrArg Exec.ok ?_)
    unfold Drop.Layer.backward at e1
    obtain ⟨_, _, e1⟩ := Exec.bind_eq_ok e1
    obtain ⟨_, _, e1⟩ := Exec.bind_eq_ok e1
    cases e1
    rfl
  | rnn f f1 l => exact h.1.elim
  | loss f l => exact h.1.elim

theorem Sized.setParams {n m : Nat} {a : AnyLayer} (h : Sized n m a) {ps : List (List ℝ)}
    (hl : ps.map List.length = a.params.map List.length) : Sized n m (a.setParams ps) := by
  rcases h.cases with ⟨mx, raw, l, rfl, _⟩ | ⟨h1, h2, h3, h4⟩
  · exact h
  · have e := extra_setParams a ps
    refine .mk (maps_setParams h1 hl) ?_ ⟨?_, ?_⟩ ?_
    · rw [← h2]; exact congrArg (fun t => t.2.1) e
    · rw [params_setParams' hl, (params_setParams (by simpa using congrArg List.length hl)).2.2, hl]; exact h3.1
    · rw [(params_setParams (by simpa using congrArg List.length hl)).2.1,
        (params_setParams (by simpa using congrArg List.length hl)).2.2]; exact h3.2
    · cases a with
      | conv l => unfold AnyLayer.setParams; split <;> first | exact h4 | simp_all [OutShape]
      | dense l => unfold AnyLayer.setParams; split <;> first | exact h4 | simp_all [OutShape]
      | rnn f f1 l => exact h1.elim
      | _ => exact h4

theorem Sized.setParamGrads {n m : Nat} {a : AnyLayer} (h : Sized n m a) {gs : List (List ℝ)}
    (hl : gs.map List.length = a.paramGrads.map List.length) : Sized n m (a.setParamGrads gs) := by
  rcases h.cases with ⟨mx, raw, l, rfl, _⟩ | ⟨h1, h2, h3, h4⟩
  · exact h
  · exact sized_of h h1 (paramGrads_setParamGrads (by simpa using congrArg List.length hl)).2.2.2
      (frame_setParamGrads hl).1

/-- `optimizer.train` on a layer returns. -/
theorem train_returns {σ : Type} (opt : σ → ℝ → ℝ → σ × ℝ) (s : σ) {a : AnyLayer} (h : Blocks a) :
    ∃ s' P G, a.train opt s = ((s', (a.setParams P).setParamGrads G), .ok ()) ∧
      P.map List.length = a.params.map List.length ∧ G.map List.length = a.paramGrads.map List.length := by
  obtain ⟨l', h1, h2, h3, h4, _⟩ := Opt.trainSelf_spec opt ⟨a.kind, a.params, a.paramGrads⟩ h.1 h.2 s
  unfold AnyLayer.train
  rw [h1]
  exact ⟨_, l'.params, l'.grads, rfl, Eq.trans h3 h.1.symm, Eq.trans h4 h.2.symm⟩

theorem Sized.train {σ : Type} (opt : σ → ℝ → ℝ → σ × ℝ) (s : σ) {n m : Nat} {a : AnyLayer} (h : Sized n m a) :
    ∃ s' a', a.train opt s = ((s', a'), .ok ()) ∧ Sized n m a' := by
  obtain ⟨s', P, G, h1, h2, h3⟩ := train_returns opt s h.blocks
  exact ⟨s', _, h1, (h.setParams h2).setParamGrads (by rw [paramGrads_setParams]; exact h3)⟩

end

end Verif.Net
