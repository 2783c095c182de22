import Mathlib.Tactic.FieldSimp
import Mathlib.Tactic.Linarith
import Verif.Proofs.Rescale
import Verif.Props.Reorder

/-! C116: only the ratio of learning rate and batch size matters. -/

namespace Verif.Props

open Verif Verif.Net Verif.Graph Verif.Spec

noncomputable section

/-- **C116** for the gradients: for every model (of any layers, connected in any way), every number `c`, learning rate
and calls of `predict`, `step`, `train` and `reset_score`: if all gradients and the factors of the loss layers are
multiplied by `c`, then gradient descent with the rate `eta` does with them what it does with the rate `c * eta`
without.  The calls throw the same exceptions, and in the end all gradients are again `c` times as large, and nothing
else is different. -/
theorem C116_gradients (c eta : ℝ) (cs : List UserCall) (n : Net) :
    SameEnd (fun r r' => r'.1.2 = rescaledModel c r.1.2 ∧ r'.2 = r.2)
      (session (Opt.gdStep (c * eta)) cs ((), n)) (session (Opt.gdStep eta) cs ((), rescaledModel c n)) :=
  Rescale.mono (Rescale.session_sc (Rescale.gd_follows c eta) cs n () () trivial) fun _ _ h => h.2

/-- **C116** for the gradients and Adam: if all gradients, the factors of the loss layers and the epsilon of the optimizer
are multiplied by a positive number, then Adam does the same with the same learning rate. -/
theorem C116_adam_gradients (c : ℝ) (hc : 0 < c) (eta b1 b2 eps : ℝ) (cs : List UserCall) (n : Net) :
    SameEnd (fun r r' => r'.1.2 = rescaledModel c r.1.2 ∧ r'.2 = r.2)
      (session (Opt.adamStep eta b1 b2 eps) cs (Opt.Adam.init, n))
      (session (Opt.adamStep eta b1 b2 (c * eps)) cs (Opt.Adam.init, rescaledModel c n)) :=
  Rescale.mono (Rescale.session_sc (Rescale.adam_follows hc eta b1 b2 eps) cs n Opt.Adam.init Opt.Adam.init
    ⟨by simp [Opt.Adam.init], by simp [Opt.Adam.init], rfl⟩) fun _ _ h => h.2

theorem times_none {c : ℝ} {v : List ℝ} (h : ∀ y ∈ v, y = 0) : times c v = v := by
  unfold times
  conv_rhs => rw [← List.map_id v]
  exact List.map_congr_left fun y hy => by rw [h y hy, mul_zero]; rfl

theorem rescaled_none {b b' : Nat} (hb : 0 < b) {a a' : AnyLayer} (h : ForBatches b b' a a') :
    a' = rescaled ((b : ℝ) / (b' : ℝ)) a := by
  obtain ⟨⟨h1, h2⟩, h3⟩ := h
  have hb : (b : ℝ) ≠ 0 := Nat.cast_ne_zero.mpr (by omega)
  cases a with
  | dense l =>
    simp only [AnyLayer.paramGrads, List.mem_cons, List.not_mem_nil, or_false, forall_eq_or_imp, forall_eq,
      AnyLayer.lastInputGradient] at h1 h2 h3
    rw [h3, rescaled, times_none h1.1, times_none h1.2, times_none h2]
  | conv l =>
    simp only [AnyLayer.paramGrads, List.mem_cons, List.not_mem_nil, or_false, forall_eq_or_imp, forall_eq,
      AnyLayer.lastInputGradient] at h1 h2 h3
    rw [h3, rescaled, times_none h1.1, times_none h1.2, times_none h2]
  | rnn f f1 l =>
    simp only [AnyLayer.paramGrads, List.mem_cons, List.not_mem_nil, or_false, forall_eq_or_imp, forall_eq,
      AnyLayer.lastInputGradient] at h1 h2 h3
    rw [h3, rescaled, times_none h1.1, times_none h1.2.1, times_none h1.2.2.1, times_none h1.2.2.2.1,
      times_none h1.2.2.2.2, times_none h2]
  | maxPool l => dsimp only at h3; rw [h3, rescaled, times_none (v := l.inputGrads) h2]
  | avgPool l => dsimp only at h3; rw [h3, rescaled, times_none (v := l.inputGrads) h2]
  | act f l => dsimp only at h3; rw [h3, rescaled, times_none (v := l.inputGradients) h2]
  | dropout mx raw l => dsimp only at h3; rw [h3, rescaled, times_none (v := l.inputGrad) h2]
  | loss f l =>
    dsimp only at h3
    rw [h3.2, rescaled, times_none (v := l.gradients) h2, h3.1]
    congr 2
    field_simp

theorem rescaledModel_none {b b' : Nat} (hb : 0 < b) {n n' : Net} (hg : n'.graph = n.graph)
    (hl : List.Forall₂ (ForBatches b b') n.layers n'.layers) : n' = rescaledModel ((b : ℝ) / (b' : ℝ)) n := by
  obtain ⟨g, ls⟩ := n
  obtain ⟨g', ls'⟩ := n'
  dsimp only at hg hl
  subst hg
  unfold rescaledModel
  congr 1
  dsimp only
  induction hl with
  | nil => rfl
  | cons h _ ih => rw [List.map_cons, rescaled_none hb h, ih]

theorem alike_rescaled (c : ℝ) (n : Net) : AlikeModels n (rescaledModel c n) := by
  refine ⟨rfl, ?_, fun x => Rescale.mono (Rescale.predict_sc n x) fun _ _ h => h.2⟩
  unfold rescaledModel
  dsimp only
  induction n.layers with
  | nil => exact .nil
  | cons a ls ih =>
    refine .cons ?_ ih
    cases a with
    | loss f l => exact ⟨rfl, rfl, rfl, rfl, rfl⟩
    | _ => exact ⟨rfl, rfl, trivial⟩

/-- **C116**: take two models that differ only in the batch sizes `b` and `b'` that their loss layers were made for,
and that have no gradients yet.  If `eta / b = eta' / b'`, gradient descent with the rates `eta` and `eta'` does the
same with them: after any calls of `predict`, `step`, `train` and `reset_score` they have thrown the same exceptions,
all parameters, outputs and scores are the same, and they predict the same. -/
theorem C116_history (b b' : Nat) (hb : 0 < b) (hb' : 0 < b') (eta eta' : ℝ)
    (hr : eta / (b : ℝ) = eta' / (b' : ℝ)) (n n' : Net) (hg : n'.graph = n.graph)
    (hl : List.Forall₂ (ForBatches b b') n.layers n'.layers) (cs : List UserCall) :
    SameEnd (fun r r' => AlikeModels r.1.2 r'.1.2 ∧ r'.2 = r.2)
      (session (Opt.gdStep eta) cs ((), n)) (session (Opt.gdStep eta') cs ((), n')) := by
  have e : eta = (b : ℝ) / (b' : ℝ) * eta' := by
    have h1 : (b : ℝ) ≠ 0 := Nat.cast_ne_zero.mpr (by omega)
    have h2 : (b' : ℝ) ≠ 0 := Nat.cast_ne_zero.mpr (by omega)
    rw [div_eq_div_iff h1 h2] at hr
    field_simp
    linarith
  rw [e, rescaledModel_none hb hg hl]
  exact Rescale.mono (C116_gradients _ eta' cs n) fun r r' h => ⟨h.1 ▸ alike_rescaled _ _, h.2⟩

/-- **C116** for training runs: the same, for any data set, number of epochs and batch size of the run. -/
theorem C116_fit (b b' : Nat) (hb : 0 < b) (hb' : 0 < b') (eta eta' : ℝ)
    (hr : eta / (b : ℝ) = eta' / (b' : ℝ)) (n n' : Net) (hg : n'.graph = n.graph)
    (hl : List.Forall₂ (ForBatches b b') n.layers n'.layers) (d : Data.Dataset ℝ) (fuel epochs size : Nat) :
    SameRun (fun r r' => AlikeModels r.2 r'.2)
      (Training.fit (Opt.gdStep eta) d fuel epochs size ((), n))
      (Training.fit (Opt.gdStep eta') d fuel epochs size ((), n')) := by
  have e : eta = (b : ℝ) / (b' : ℝ) * eta' := by
    have h1 : (b : ℝ) ≠ 0 := Nat.cast_ne_zero.mpr (by omega)
    have h2 : (b' : ℝ) ≠ 0 := Nat.cast_ne_zero.mpr (by omega)
    rw [div_eq_div_iff h1 h2] at hr
    field_simp
    linarith
  rw [e, rescaledModel_none hb hg hl]
  have := Rescale.fit_sc (Rescale.gd_follows ((b : ℝ) / (b' : ℝ)) eta') d fuel epochs size n (s := ()) (t := ()) trivial
  generalize Training.fit (Opt.gdStep ((b : ℝ) / (b' : ℝ) * eta')) d fuel epochs size ((), n) = x at this ⊢
  generalize Training.fit (Opt.gdStep eta') d fuel epochs size ((), rescaledModel ((b : ℝ) / (b' : ℝ)) n) = y at this ⊢
  cases this with
  | none => exact .none
  | some h => exact .some (Rescale.mono h fun r r' h => by rw [h.2]; exact alike_rescaled _ _)

/-- **C116** for Adam: two models that differ only in the batch sizes `b` and `b'` that their loss layers were made
for, and that have no gradients yet, are trained in the same way by new Adam optimizers with the same learning rate,
if `b * eps = b' * eps'`: the batch size matters only as far as epsilon does. -/
theorem C116_adam_history (b b' : Nat) (hb : 0 < b) (hb' : 0 < b') (eta b1 b2 eps eps' : ℝ)
    (hr : (b : ℝ) * eps = (b' : ℝ) * eps') (n n' : Net) (hg : n'.graph = n.graph)
    (hl : List.Forall₂ (ForBatches b b') n.layers n'.layers) (cs : List UserCall) :
    SameEnd (fun r r' => AlikeModels r.1.2 r'.1.2 ∧ r'.2 = r.2)
      (session (Opt.adamStep eta b1 b2 eps) cs (Opt.Adam.init, n))
      (session (Opt.adamStep eta b1 b2 eps') cs (Opt.Adam.init, n')) := by
  have h1 : (0 : ℝ) < b := Nat.cast_pos.mpr hb
  have h2 : (0 : ℝ) < b' := Nat.cast_pos.mpr hb'
  have e : eps' = (b : ℝ) / (b' : ℝ) * eps := by
    field_simp
    linarith
  rw [e, rescaledModel_none hb hg hl]
  exact Rescale.mono (C116_adam_gradients _ (div_pos h1 h2) eta b1 b2 eps cs n) fun r r' h =>
    ⟨h.1 ▸ alike_rescaled _ _, h.2⟩

/-- **C116** for training runs with Adam. -/
theorem C116_adam_fit (b b' : Nat) (hb : 0 < b) (hb' : 0 < b') (eta b1 b2 eps eps' : ℝ)
    (hr : (b : ℝ) * eps = (b' : ℝ) * eps') (n n' : Net) (hg : n'.graph = n.graph)
    (hl : List.Forall₂ (ForBatches b b') n.layers n'.layers) (d : Data.Dataset ℝ) (fuel epochs size : Nat) :
    SameRun (fun r r' => AlikeModels r.2 r'.2)
      (Training.fit (Opt.adamStep eta b1 b2 eps) d fuel epochs size (Opt.Adam.init, n))
      (Training.fit (Opt.adamStep eta b1 b2 eps') d fuel epochs size (Opt.Adam.init, n')) := by
  have h1 : (0 : ℝ) < b := Nat.cast_pos.mpr hb
  have h2 : (0 : ℝ) < b' := Nat.cast_pos.mpr hb'
  have e : eps' = (b : ℝ) / (b' : ℝ) * eps := by
    field_simp
    linarith
  rw [e, rescaledModel_none hb hg hl]
  have := Rescale.fit_sc (Rescale.adam_follows (div_pos h1 h2) eta b1 b2 eps) d fuel epochs size n
    (s := Opt.Adam.init) (t := Opt.Adam.init) ⟨by simp [Opt.Adam.init], by simp [Opt.Adam.init], rfl⟩
  generalize Training.fit (Opt.adamStep eta b1 b2 eps) d fuel epochs size (Opt.Adam.init, n) = x at this ⊢
  generalize Training.fit (Opt.adamStep eta b1 b2 ((b : ℝ) / (b' : ℝ) * eps)) d fuel epochs size
    (Opt.Adam.init, rescaledModel ((b : ℝ) / (b' : ℝ)) n) = y at this ⊢
  cases this with
  | none => exact .none
  | some h => exact .some (Rescale.mono h fun r r' h => by rw [h.2]; exact alike_rescaled _ _)

/-! ### Examples -/

/-- The model of `idleNet` with a loss layer for batches of size `k`. -/
def batchNet (k : Nat) (w u b w' b' : ℝ) : Net :=
  ⟨(built spareOps).graph, [.dense (twoInputs w u b), .dense (spareDense w' b'), .loss .mse (Loss.Layer.new 1 k 0)]⟩

/-- Whatever the parameters, two new models satisfy the hypotheses of `C116_history` and `C116_fit`. -/
theorem batchNet_layers (k k' : Nat) (hk : 0 < k) (hk' : 0 < k') (w u b w' b' : ℝ) :
    List.Forall₂ (ForBatches k k') (batchNet k w u b w' b').layers (batchNet k' w u b w' b').layers := by
  have hm : ((Nat.max k 1 : Nat) : ℝ) = k := by rw [show Nat.max k 1 = k from Nat.max_eq_left hk]
  have hm' : ((Nat.max k' 1 : Nat) : ℝ) = k' := by rw [show Nat.max k' 1 = k' from Nat.max_eq_left hk']
  refine .cons ⟨?_, rfl⟩ (.cons ⟨?_, rfl⟩ (.cons ⟨?_, ?_, ?_⟩ .nil))
  · simp [NoGradients, AnyLayer.paramGrads, AnyLayer.lastInputGradient, twoInputs, denseNew]
  · simp [NoGradients, AnyLayer.paramGrads, AnyLayer.lastInputGradient, spareDense, denseNew]
  · simp [NoGradients, AnyLayer.paramGrads, AnyLayer.lastInputGradient, Loss.Layer.new]
  · simp only [Loss.Layer.new, hm]
  · simp only [Loss.Layer.new, hm']

/-- A step and a training with the rate `eta` and the batch size 1 do what they do with the rate `3 * eta` and the batch
size 3, and both return. -/
example (eta w u b w' b' x y t : ℝ) :
    ∃ r r', session (Opt.gdStep eta) [.step [x, y] [t], .train] ((), batchNet 1 w u b w' b') = .ok r ∧
      session (Opt.gdStep (3 * eta)) [.step [x, y] [t], .train] ((), batchNet 3 w u b w' b') = .ok r' ∧
      AlikeModels r.1.2 r'.1.2 ∧ r'.2 = r.2 := by
  have key : ∃ r, session (Opt.gdStep eta) [.step [x, y] [t], .train] ((), batchNet 1 w u b w' b') = .ok r := by
    obtain ⟨l, gi, hl⟩ := swap_step w u b w' b' x y t
    generalize 2 * (b + w * x + u * y - t) = g at hl
    generalize Opt.gdStep eta = step
    unfold session
    rw [show (batchNet 1 w u b w' b').step [x, y] [t] = _ from hl]
    exact ⟨_, rfl⟩
  obtain ⟨r, hr⟩ := key
  have := C116_history 1 3 (by norm_num) (by norm_num) eta (3 * eta) (by push_cast; ring) (batchNet 1 w u b w' b')
    (batchNet 3 w u b w' b') rfl (batchNet_layers 1 3 (by norm_num) (by norm_num) w u b w' b') [.step [x, y] [t], .train]
  rw [hr] at this
  generalize session (Opt.gdStep (3 * eta)) [.step [x, y] [t], .train] ((), batchNet 3 w u b w' b') = e at this ⊢
  cases this with
  | ok h => exact ⟨r, _, hr, rfl, h⟩

end

end Verif.Props
