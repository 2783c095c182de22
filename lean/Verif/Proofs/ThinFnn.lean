import Verif.Proofs.ThinFit
import Verif.Proofs.BackFnn

/-! Feedforward networks with dropout layers are ready for training. -/

namespace Verif.Net

open Verif.Spec Verif.Graph

noncomputable section

theorem thinLayer_sizes (t : Nat) (a : AnyLayer) :
    (thinLayer t a).inputSize = a.inputSize ∧ (thinLayer t a).outputSize = a.outputSize := by
  cases a <;> exact ⟨rfl, rfl⟩

theorem implements_thin {k : Kind} {a : AnyLayer} (h : Implements k a) (hr : Regular (thinLayer 0 a)) :
    Maps a.inputSize a.outputSize (thinLayer 0 a) ∧ HasGrads a.inputSize a.outputSize (thinLayer 0 a) ∧
    a.params.map List.length = a.kind.blockSizes ∧ ∀ b k, entry a.paramGrads b k = 0 := by
  by_cases hd : IsDropout a
  · cases k with
    | dropout p mx raw =>
      obtain ⟨n, rfl⟩ := h
      refine ⟨maps_thin (by simp [Drop.Layer.new]), ?_, rfl, fun b k => ?_⟩
      · refine ⟨?_, ?_, ?_⟩ <;> simp [thinDense, Drop.Layer.new, AnyLayer.inputSize, AnyLayer.outputSize]
      · simp [AnyLayer.paramGrads, entry, vec]
    | input u => exact False.elim h
    | dense units => obtain ⟨n, m, _, rfl⟩ := h; exact hd.elim
    | conv nf kernel stride padding => obtain ⟨s, l, _, rfl⟩ := h; exact hd.elim
    | maxPool kernel stride => obtain ⟨s, l, _, rfl⟩ := h; exact hd.elim
    | avgPool kernel stride => obtain ⟨s, l, _, rfl⟩ := h; exact hd.elim
  · rw [thinLayer_plain hd] at hr ⊢
    obtain ⟨h1, h2, h3⟩ := fresh_implements h hr
    exact ⟨maps_of_implements h hr, h1, h2, h3⟩

theorem built_thin_fresh {f : Fnn} {ds : List Descriptor} {n0 : Nat} (hb : Built f ds n0)
    (hr : ∀ a ∈ f.layers, Regular (thinLayer 0 a)) : ∀ a ∈ f.layers,
    Maps a.inputSize a.outputSize (thinLayer 0 a) ∧ HasGrads a.inputSize a.outputSize (thinLayer 0 a) ∧
    a.params.map List.length = a.kind.blockSizes ∧ ∀ b k, entry a.paramGrads b k = 0 := by
  intro a ha
  obtain ⟨i, hi⟩ := List.getElem?_of_mem ha
  have hlt := (List.getElem?_eq_some_iff.mp hi).1
  rw [hb.layers] at hlt
  have hj : i / 2 < ds.length := by omega
  obtain ⟨x, y, g1, g2, g3, g4⟩ := hb.described (i / 2) ds[i / 2] (List.getElem?_eq_getElem hj)
  rcases Nat.mod_two_eq_zero_or_one i with h0 | h0
  · have : 2 * (i / 2) = i := by omega
    rw [this, hi] at g1
    cases g1
    exact implements_thin g2 (hr a ha)
  · have : 2 * (i / 2) + 1 = i := by omega
    rw [this, hi] at g3
    cases g3
    subst g4
    obtain ⟨h1, h2, h3⟩ := fresh_act ds[i / 2].activation.fn x.outputSize
    have := maps_act _ _ (hr _ ha)
    have e1 : (AnyLayer.act ds[i / 2].activation.fn (Act.Layer.new x.outputSize)).inputSize
        = x.outputSize := by simp [AnyLayer.inputSize, Act.Layer.new]
    have e2 : (AnyLayer.act ds[i / 2].activation.fn (Act.Layer.new x.outputSize)).outputSize
        = x.outputSize := by simp [AnyLayer.outputSize, Act.Layer.new]
    rw [e1, e2] at h1 ⊢
    exact ⟨this, h1, h2, h3⟩

theorem built_thin {f : Fnn} {ds : List Descriptor} {n0 : Nat} (hb : Built f ds n0)
    (hr : ∀ a ∈ f.layers, Regular (thinLayer 0 a)) {z : AnyLayer}
    (hz : f.layers.getLast? = some z) : Trainable n0 z.outputSize (thinned 0 f.layers) := by
  rw [← (thinLayer_sizes 0 z).2]
  refine trainable_of_sizes (thinned 0 f.layers) n0 ?_ ?_ ?_ ?_ (thinLayer 0 z) ?_
  · intro e
    rw [List.map_eq_nil_iff.mp e] at hz
    cases hz
  · intro i a b ha hb'
    rw [thinned_get?] at ha hb'
    obtain ⟨a', h1, rfl⟩ := Option.map_eq_some_iff.mp ha
    obtain ⟨b', h2, rfl⟩ := Option.map_eq_some_iff.mp hb'
    rw [(thinLayer_sizes 0 a').2, (thinLayer_sizes 0 b').1]
    exact hb.sizes i a' b' h1 h2
  · intro a ha
    rw [thinned_get?] at ha
    obtain ⟨a', h1, rfl⟩ := Option.map_eq_some_iff.mp ha
    rw [(thinLayer_sizes 0 a').1]
    exact hb.start a' h1
  · intro a ha
    obtain ⟨a', h1, rfl⟩ := List.mem_map.mp ha
    obtain ⟨g1, g2, _⟩ := built_thin_fresh hb hr a' h1
    rw [(thinLayer_sizes 0 a').1, (thinLayer_sizes 0 a').2]
    exact ⟨g1, g2⟩
  · unfold thinned
    rw [List.getLast?_map, hz]
    rfl

theorem clean_thin {ls : List AnyLayer} (h : ∀ a ∈ ls, a.params.map List.length = a.kind.blockSizes ∧
    ∀ b k, entry a.paramGrads b k = 0) {θ : Theta} (hθ : FitsTheta ls θ) : Clean (withTheta ls θ) := by
  have key : ∀ l ∈ withTheta ls θ, ∃ a ps, a ∈ ls ∧ ps.map List.length = a.params.map List.length ∧
      l = a.setParams ps := by
    intro l hl
    obtain ⟨j, hj⟩ := List.getElem?_of_mem hl
    have hlt := (List.getElem?_eq_some_iff.mp hj).1
    rw [withTheta_length hθ] at hlt
    have e := withTheta_get hθ (List.getElem?_eq_getElem hlt)
    rw [hj] at e
    cases e
    exact ⟨ls[j], _, List.getElem_mem hlt, (fitsTheta_get hθ (List.getElem?_eq_getElem hlt)).2, rfl⟩
  constructor
  · intro l hl
    obtain ⟨a, ps, h1, h2, rfl⟩ := key l hl
    rw [kind_setParams, (params_setParams (by simpa using congrArg List.length h2)).1, h2]
    exact (h a h1).1
  · intro l hl b k _ _
    obtain ⟨a, ps, h1, h2, rfl⟩ := key l hl
    rw [(params_setParams (by simpa using congrArg List.length h2)).2.1]
    exact (h a h1).2 b k

theorem thin_setParams_smooth {t : Nat} {l : AnyLayer} (ps : List (List ℝ)) (h : AlwaysSmooth (thinLayer 0 l)) :
    AlwaysSmooth (thinLayer t (l.setParams ps)) := by
  by_cases hd : IsDropout l
  · rw [thin_setParams hd]
    cases l <;> first | exact hd.elim | trivial
  · rw [thinLayer_plain (by rw [isDropout_setParams]; exact hd)]
    rw [thinLayer_plain hd] at h
    exact alwaysSmooth_setParams l ps h

/-- Layers that are always differentiable above all layers with parameters. -/
theorem good_thin_always {ls : List AnyLayer} {n m : Nat} (ht : Trainable n m (thinned 0 ls))
    (h : ∀ (i j : Nat) (a c : AnyLayer), i < j → ls[i]? = some a → a.params ≠ [] → ls[j]? = some c →
      AlwaysSmooth (thinLayer 0 c))
    {θ : Theta} (hθ : FitsTheta ls θ) {f : LossFn} {x y : List ℝ} {t : Nat}
    (hx : FitSample (thinned t (withTheta ls θ)) f n m x y) : GoodThin t (withTheta ls θ) f n m x y := by
  refine ⟨hx, fun i a' hi hp => ?_⟩
  obtain ⟨k, t1, t2⟩ := trainable_split (trainable_thin 0 t (trainable_thin_theta ht hθ)) (i + 1)
  obtain ⟨w, y1, y2⟩ := yieldsAll_of_maps (mapsAll_of_trainable t1) hx.size
  unfold SmoothFrom
  rw [prediction_of y2]
  refine smoothAll_always t2 y1 fun c' hc' => ?_
  obtain ⟨j, hj⟩ := List.getElem?_of_mem hc'
  rw [List.getElem?_drop, thinned_get?] at hj
  obtain ⟨c, hc, rfl⟩ := Option.map_eq_some_iff.mp hj
  have hlt := (List.getElem?_eq_some_iff.mp hc).1
  have hlt' := (List.getElem?_eq_some_iff.mp hi).1
  rw [withTheta_length hθ] at hlt hlt'
  have e1 := withTheta_get hθ (List.getElem?_eq_getElem hlt)
  have e2 := withTheta_get hθ (List.getElem?_eq_getElem hlt')
  rw [hc] at e1
  rw [hi] at e2
  cases e1
  cases e2
  refine thin_setParams_smooth _ (h i (i + 1 + j) _ _ (by omega) (List.getElem?_eq_getElem hlt') ?_
    (List.getElem?_eq_getElem hlt))
  intro h0
  obtain ⟨_, q⟩ := fitsTheta_get hθ (List.getElem?_eq_getElem hlt')
  have ql : (θ.getD i []).length = ls[i].params.length := by simpa using congrArg List.length q
  rw [(params_setParams ql).1] at hp
  rw [h0] at ql
  exact hp (List.length_eq_zero_iff.mp ql)

/-- The network that the first `fit` trains, with parameter values `θ`. -/
theorem built_atThin {f : Fnn} {ds : List Descriptor} {n0 : Nat} (hb : Built f ds n0)
    (hr : ∀ a ∈ f.layers, Regular (thinLayer 0 a)) {z : AnyLayer}
    (hz : f.layers.getLast? = some z) {m' : Graph.Model} (hm : PathLoss (2 * ds.length) m') (lf : LossFn)
    (batch : Nat) (hb1 : 1 ≤ batch) (tol : ℝ) {θ : Theta} (hθ : FitsTheta f.layers θ) :
    AtThin m'.graph (List.range (2 * ds.length)) (2 * ds.length) f.layers lf n0 z.outputSize
      (1 / (batch : ℝ)) 0 θ
      ⟨m'.graph, withTheta f.layers θ ++ [.loss lf (Loss.Layer.new z.outputSize batch tol)]⟩
      (withTheta f.layers θ) := by
  have hlen : (withTheta f.layers θ).length = 2 * ds.length := by rw [withTheta_length hθ, hb.layers]
  refine ⟨rfl, ?_, ⟨?_, ?_, ?_⟩, clean_thin (fun a ha => (built_thin_fresh hb hr a ha).2.2) hθ, hθ, rfl,
    fun i => by rw [Nat.zero_add]⟩
  · rw [hm.length]; simp [hlen]
  · apply List.ext_getElem?
    intro i
    rw [List.getElem?_map, List.getElem?_map]
    by_cases hi : i < 2 * ds.length
    · rw [List.getElem?_range hi, Option.map_some]
      dsimp only
      rw [List.getElem?_append_left (by omega), List.getElem?_eq_getElem (by omega)]
      rfl
    · rw [List.getElem?_eq_none (by simpa using hi), List.getElem?_eq_none (by omega)]
      rfl
  · exact trainable_thin_theta (built_thin hb hr hz) hθ
  · refine ⟨Loss.Layer.new z.outputSize batch tol, ?_, rfl, ?_, ?_⟩
    · rw [List.getElem?_append_right (by omega)]
      simp [hlen]
    · simp [Loss.Layer.new]
    · simp [Loss.Layer.new, Nat.max_eq_left hb1]

end

end Verif.Net
