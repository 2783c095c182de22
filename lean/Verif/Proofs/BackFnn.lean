import Verif.Proofs.BackFit

/-! Feedforward networks as built by `add` are ready for training. -/

namespace Verif.Net

open Verif.Spec Verif.Graph

noncomputable section

theorem entry_replicate2 {a b : Nat} (i k : Nat) :
    entry [List.replicate a (0 : ℝ), List.replicate b 0] i k = 0 := by
  unfold entry vec
  match i with
  | 0 => by_cases h : k < a <;> simp [h]
  | 1 => by_cases h : k < b <;> simp [h]
  | i + 2 => simp

/-- What a new layer offers to training. -/
structure Fresh (a : AnyLayer) : Prop where
  grads : HasGrads a.inputSize a.outputSize a
  sized : a.params.map List.length = a.kind.blockSizes
  zero : ∀ b k, entry a.paramGrads b k = 0

theorem fresh_act (f : ActFn) (n : Nat) : Fresh (.act f (Act.Layer.new n)) := by
  refine ⟨rfl, rfl, fun b k => ?_⟩
  simp [AnyLayer.paramGrads, entry, vec]

theorem fresh_implements {k : Kind} {a : AnyLayer} (h : Implements k a) (hr : Regular a) : Fresh a := by
  cases k with
  | input u => exact False.elim h
  | dense units =>
    obtain ⟨n, m, _, rfl⟩ := h
    refine ⟨⟨by simp [denseNew, AnyLayer.inputSize], by simp [denseNew, AnyLayer.inputSize,
      AnyLayer.outputSize], by simp [denseNew, AnyLayer.outputSize]⟩,
      by simp [AnyLayer.params, AnyLayer.kind, Opt.Kind.blockSizes, denseNew], fun b k => ?_⟩
    exact entry_replicate2 b k
  | dropout p mx raw =>
    obtain ⟨n, rfl⟩ := h
    exact False.elim hr
  | conv nf kernel stride padding =>
    obtain ⟨s, l, h1, rfl⟩ := h
    obtain ⟨o, h2, h3⟩ := Exec.bind_eq_ok h1
    cases h3
    have hg : (⟨s, kernel.h, kernel.w, stride.h, stride.w, padding.h, padding.w⟩ : Geom).Fits := hr
    unfold Slide.convOutputShape at h2
    rw [Slide.outputSide_eq hg.h_pos hg.sh_pos hg.kh_pos hg.kh_le hg.h_lt, Exec.bind_ok,
      Slide.outputSide_eq hg.w_pos hg.sw_pos hg.kw_pos hg.kw_le hg.w_lt, Exec.bind_ok] at h2
    cases h2
    refine ⟨⟨by simp [AnyLayer.inputSize], by simp, by simp, by simp [AnyLayer.outputSize, Shape3.size]⟩,
      by simp [AnyLayer.params, AnyLayer.kind, Opt.Kind.blockSizes], fun b k => ?_⟩
    exact entry_replicate2 b k
  | maxPool kernel stride =>
    obtain ⟨s, l, h1, rfl⟩ := h
    obtain ⟨o, _, h3⟩ := Exec.bind_eq_ok h1
    cases h3
    refine ⟨by simp [HasGrads, AnyLayer.inputSize], rfl, fun b k => ?_⟩
    simp [AnyLayer.paramGrads, entry, vec]
  | avgPool kernel stride =>
    obtain ⟨s, l, h1, rfl⟩ := h
    obtain ⟨o, _, h3⟩ := Exec.bind_eq_ok h1
    cases h3
    refine ⟨by simp [HasGrads, AnyLayer.inputSize], rfl, fun b k => ?_⟩
    simp [AnyLayer.paramGrads, entry, vec]

theorem built_fresh {f : Fnn} {ds : List Descriptor} {n0 : Nat} (hb : Built f ds n0)
    (hr : ∀ a ∈ f.layers, Regular a) : ∀ a ∈ f.layers, Fresh a := by
  intro a ha
  obtain ⟨i, hi⟩ := List.getElem?_of_mem ha
  have hlt := (List.getElem?_eq_some_iff.mp hi).1
  rw [hb.layers] at hlt
  have hj : i / 2 < ds.length := by omega
  obtain ⟨x, y, g1, g2, g3, g4⟩ := hb.described (i / 2) ds[i / 2] (List.getElem?_eq_getElem hj)
  rcases Nat.mod_two_eq_zero_or_one i with h0 | h0
  · have : 2 * (i / 2) = i := by omega
    rw [this, hi] at g1
    cases g1
    exact fresh_implements g2 (hr a ha)
  · have : 2 * (i / 2) + 1 = i := by omega
    rw [this, hi] at g3
    cases g3
    subst g4
    exact fresh_act _ _

theorem trainable_of_sizes : ∀ (ls : List AnyLayer) (n0 : Nat), ls ≠ [] →
    (∀ i a b, ls[i]? = some a → ls[i + 1]? = some b → a.outputSize = b.inputSize) →
    (∀ a, ls[0]? = some a → a.inputSize = n0) →
    (∀ a ∈ ls, Maps a.inputSize a.outputSize a ∧ HasGrads a.inputSize a.outputSize a) →
    ∀ z, ls.getLast? = some z → Trainable n0 z.outputSize ls := by
  intro ls
  induction ls with
  | nil => intro n0 h; exact absurd rfl h
  | cons a ls ih =>
    intro n0 _ h1 h2 h3 z hz
    have ha := h2 a rfl
    obtain ⟨h4, h5⟩ := h3 a (by simp)
    cases ls with
    | nil =>
      cases hz
      rw [← ha]
      exact .cons h4 h5 (.nil _)
    | cons b ls =>
      have g := ih b.inputSize (by simp) (fun i x y hx hy => h1 (i + 1) x y hx hy)
        (by intro x hx; simp at hx; rw [hx]) (fun x hx => h3 x (by simp [hx])) z (by simpa using hz)
      have := h1 0 a b rfl rfl
      rw [← ha]
      refine .cons h4 h5 ?_
      rw [this]
      exact g

theorem mapsAll_of_trainable {n m : Nat} {ls : List AnyLayer} (ht : Trainable n m ls) : MapsAll n m ls := by
  induction ht with
  | nil n => exact .nil n
  | cons h1 _ _ ih => exact .cons h1 ih

/-- The layers that `add` makes, with any parameter values. -/
theorem built_trainable {f : Fnn} {ds : List Descriptor} {n0 : Nat} (hb : Built f ds n0) (hd : ds ≠ [])
    (hr : ∀ a ∈ f.layers, Regular a) {z : AnyLayer}
    (hz : f.layers.getLast? = some z) : Trainable n0 z.outputSize f.layers := by
  refine trainable_of_sizes f.layers n0 ?_ hb.sizes hb.start ?_ z hz
  · intro e
    rw [e] at hz
    cases hz
  · intro a ha
    refine ⟨?_, (built_fresh hb hr a ha).grads⟩
    obtain ⟨i, hi⟩ := List.getElem?_of_mem ha
    have hlt := (List.getElem?_eq_some_iff.mp hi).1
    rw [hb.layers] at hlt
    have hj : i / 2 < ds.length := by omega
    obtain ⟨x, y, g1, g2, g3, g4⟩ := hb.described (i / 2) ds[i / 2] (List.getElem?_eq_getElem hj)
    rcases Nat.mod_two_eq_zero_or_one i with h0 | h0
    · have : 2 * (i / 2) = i := by omega
      rw [this, hi] at g1
      cases g1
      exact maps_of_implements g2 (hr a ha)
    · have : 2 * (i / 2) + 1 = i := by omega
      rw [this, hi] at g3
      cases g3
      subst g4
      have := maps_act _ _ (hr _ ha)
      have e1 : (AnyLayer.act ds[i / 2].activation.fn (Act.Layer.new x.outputSize)).inputSize
          = x.outputSize := by simp [AnyLayer.inputSize, Act.Layer.new]
      have e2 : (AnyLayer.act ds[i / 2].activation.fn (Act.Layer.new x.outputSize)).outputSize
          = x.outputSize := by simp [AnyLayer.outputSize, Act.Layer.new]
      rw [e1, e2]
      exact this

theorem clean_withTheta {ls : List AnyLayer} (h : ∀ a ∈ ls, Fresh a) {θ : Theta} (hθ : FitsTheta ls θ) :
    Clean (withTheta ls θ) := by
  have key : ∀ l ∈ withTheta ls θ, ∃ a ps, a ∈ ls ∧ ps.map List.length = a.params.map List.length ∧
      l = a.setParams ps := by
    intro l hl
    obtain ⟨j, hj⟩ := List.getElem?_of_mem hl
    have hlt := (List.getElem?_eq_some_iff.mp hj).1
    rw [withTheta_length hθ] at hlt
    have e := withTheta_get hθ (List.getElem?_eq_getElem hlt)
    rw [hj] at e
    cases e
    exact ⟨ls[j], _, List.getElem_mem hlt, (fitsTheta_get hθ (List.getElem?_eq_getElem hlt)).2, rfl⟩
  constructor
  · intro l hl
    obtain ⟨a, ps, h1, h2, rfl⟩ := key l hl
    rw [kind_setParams, (params_setParams (by simpa using congrArg List.length h2)).1, h2]
    exact (h a h1).sized
  · intro l hl b k _ _
    obtain ⟨a, ps, h1, h2, rfl⟩ := key l hl
    rw [(params_setParams (by simpa using congrArg List.length h2)).2.1]
    exact (h a h1).zero b k

theorem alwaysSmooth_setParams (l : AnyLayer) (ps : List (List ℝ)) (h : AlwaysSmooth l) :
    AlwaysSmooth (l.setParams ps) := by
  unfold AnyLayer.setParams
  split <;> exact h

/-- Layers that are always differentiable above all layers with parameters. -/
theorem good_always {ls : List AnyLayer} {n m : Nat} (ht : Trainable n m ls)
    (h : ∀ (i j : Nat) (a c : AnyLayer), i < j → ls[i]? = some a → a.params ≠ [] → ls[j]? = some c → AlwaysSmooth c)
    {θ : Theta} (hθ : FitsTheta ls θ) {f : LossFn} {x t : List ℝ}
    (hx : FitSample (withTheta ls θ) f n m x t) : GoodSample (withTheta ls θ) f n m x t := by
  refine ⟨hx, fun i a' hi hp => ?_⟩
  obtain ⟨k, t1, t2⟩ := trainable_split (trainable_withTheta ht hθ) (i + 1)
  obtain ⟨y, y1, y2⟩ := yieldsAll_of_maps (mapsAll_of_trainable t1) hx.size
  unfold SmoothFrom
  rw [prediction_of y2]
  refine smoothAll_always t2 y1 fun c' hc' => ?_
  obtain ⟨j, hj⟩ := List.getElem?_of_mem hc'
  rw [List.getElem?_drop] at hj
  have hlt := (List.getElem?_eq_some_iff.mp hj).1
  have hlt' := (List.getElem?_eq_some_iff.mp hi).1
  rw [withTheta_length hθ] at hlt hlt'
  have e1 := withTheta_get hθ (List.getElem?_eq_getElem hlt)
  have e2 := withTheta_get hθ (List.getElem?_eq_getElem hlt')
  rw [hj] at e1
  rw [hi] at e2
  cases e1
  cases e2
  refine alwaysSmooth_setParams _ _ (h i (i + 1 + j) _ _ (by omega) (List.getElem?_eq_getElem hlt') ?_
    (List.getElem?_eq_getElem hlt))
  intro h0
  obtain ⟨_, q⟩ := fitsTheta_get hθ (List.getElem?_eq_getElem hlt')
  have ql : (θ.getD i []).length = ls[i].params.length := by simpa using congrArg List.length q
  rw [(params_setParams ql).1] at hp
  rw [h0] at ql
  exact hp (List.length_eq_zero_iff.mp ql)

theorem isTrainingPath_of_pathLoss {k : Nat} {m : Graph.Model} (h : PathLoss k m) :
    IsTrainingPath m.graph (List.range k) k := by
  refine ⟨isPath_of_pathLoss h, h.loss, fun x y => ?_, fun x y => ?_⟩
  · rw [← List.range_succ, mem_zip_range]; exact h.training x y
  · rw [← List.range_succ, mem_zip_range]; exact h.backward x y

/-- The network that the first `fit` trains, with parameter values `θ`. -/
theorem built_atTheta {f : Fnn} {ds : List Descriptor} {n0 : Nat} (hb : Built f ds n0) (hd : ds ≠ [])
    (hr : ∀ a ∈ f.layers, Regular a) {z : AnyLayer}
    (hz : f.layers.getLast? = some z) {m' : Graph.Model} (hm : PathLoss (2 * ds.length) m') (lf : LossFn)
    (batch : Nat) (hb1 : 1 ≤ batch) (tol : ℝ) {θ : Theta} (hθ : FitsTheta f.layers θ) :
    AtTheta m'.graph (List.range (2 * ds.length)) (2 * ds.length) f.layers lf n0 z.outputSize
      (1 / (batch : ℝ)) θ
      ⟨m'.graph, withTheta f.layers θ ++ [.loss lf (Loss.Layer.new z.outputSize batch tol)]⟩
      (withTheta f.layers θ) := by
  have hlen : (withTheta f.layers θ).length = 2 * ds.length := by rw [withTheta_length hθ, hb.layers]
  refine ⟨rfl, ?_, ⟨?_, ?_, ?_⟩, clean_withTheta (built_fresh hb hr) hθ, hθ, rfl⟩
  · rw [hm.length]; simp [hlen]
  · apply List.ext_getElem?
    intro i
    rw [List.getElem?_map, List.getElem?_map]
    by_cases hi : i < 2 * ds.length
    · rw [List.getElem?_range hi, Option.map_some]
      dsimp only
      rw [List.getElem?_append_left (by omega), List.getElem?_eq_getElem (by omega)]
      rfl
    · rw [List.getElem?_eq_none (by simpa using hi), List.getElem?_eq_none (by omega)]
      rfl
  · exact trainable_withTheta (built_trainable hb hd hr hz) hθ
  · refine ⟨Loss.Layer.new z.outputSize batch tol, ?_, rfl, ?_, ?_⟩
    · rw [List.getElem?_append_right (by omega)]
      simp [hlen]
    · simp [Loss.Layer.new]
    · simp [Loss.Layer.new, Nat.max_eq_left hb1]

end

end Verif.Net
