import Verif.Spec.Range
import Verif.Proofs.Gain

/-! Proofs for C109. -/

namespace Verif.Net

open Verif.Spec Verif.Graph Verif.Props

noncomputable section

theorem mem_tab' {n : Nat} {f : Nat → ℝ} {v : ℝ} (h : v ∈ tab n f) : ∃ i, i < n ∧ v = f i := by
  unfold tab at h
  obtain ⟨i, hi, rfl⟩ := List.mem_map.mp h
  exact ⟨i, List.mem_range.mp hi, rfl⟩

theorem inRange_yields {f : ActFn} {l : Act.Layer} {n m : Nat} (h : Maps n m (.act f l)) {x : List ℝ}
    (hx : x.length = n) : ∃ y, Yields (.act f l) x y ∧ y.length = n ∧ InRange y f := by
  cases f with
  | relu =>
    refine ⟨_, pointwise_yields rfl rfl h.2 hx, by simp, fun v hv => ?_⟩
    obtain ⟨i, _, rfl⟩ := mem_tab' hv
    unfold Act.relu
    split <;> linarith
  | elu a =>
    refine ⟨_, pointwise_yields rfl rfl h.2 hx, by simp, fun ha v hv => ?_⟩
    obtain ⟨i, _, rfl⟩ := mem_tab' hv
    unfold Act.elu
    split
    · linarith
    · have := Real.exp_pos (vec x i)
      nlinarith
  | softmax =>
    refine ⟨_, softmax_yields h.2.2 h.2.1 hx, by simp, fun v hv => ?_, ?_⟩
    · obtain ⟨i, hi, rfl⟩ := mem_tab' hv
      exact ⟨Act.softmaxFn_pos h.2.2 _ _, Act.softmaxFn_le_one _ hi⟩
    · rw [← Act.softmaxFn_sum h.2.2 (vec x)]
      unfold tab
      rfl
  | tanh =>
    refine ⟨_, pointwise_yields rfl rfl h.2 hx, by simp, fun v hv => ?_⟩
    obtain ⟨i, _, rfl⟩ := mem_tab' hv
    exact ⟨Real.neg_one_lt_tanh _, Real.tanh_lt_one _⟩
  | sigmoid =>
    refine ⟨_, pointwise_yields rfl rfl h.2 hx, by simp, fun v hv => ?_⟩
    obtain ⟨i, _, rfl⟩ := mem_tab' hv
    have := Real.exp_pos (-vec x i)
    unfold Act.sigmoid
    exact ⟨by positivity, (div_lt_one (by linarith)).mpr (by linarith)⟩
  | linear =>
    obtain ⟨y, h1, h2⟩ := yields_of_maps h hx
    exact ⟨y, h2, h1.trans h, trivial⟩

theorem mapsAll_append : ∀ {ks ls : List AnyLayer} {n m : Nat}, MapsAll n m (ks ++ ls) →
    ∃ k, MapsAll n k ks ∧ MapsAll k m ls
  | [], _, n, _, h => ⟨n, .nil n, h⟩
  | _ :: _, _, _, _, .cons h1 h2 => by
    obtain ⟨k, a, b⟩ := mapsAll_append h2
    exact ⟨k, .cons h1 a, b⟩

theorem YieldsAll.append {ks ls : List AnyLayer} {x z y : List ℝ} (h : YieldsAll ks x z) (hl : YieldsAll ls z y) :
    YieldsAll (ks ++ ls) x y := by
  induction h with
  | nil x => exact hl
  | cons h1 _ ih => exact .cons h1 (ih hl)

theorem squashes_le {y : List ℝ} {f : ActFn} (hf : Squashes f) (h : InRange y f) (j : Nat) : |vec y j| ≤ 1 := by
  by_cases hj : j < y.length
  · have hm : vec y j ∈ y := by
      rw [show vec y j = y[j] from by simp [vec, List.getD_eq_getElem?_getD, hj]]
      exact List.getElem_mem hj
    cases f with
    | softmax => have := h.1 _ hm; exact abs_le.mpr ⟨by linarith, this.2⟩
    | tanh => have := h _ hm; exact abs_le.mpr ⟨this.1.le, this.2.le⟩
    | sigmoid => have := h _ hm; exact abs_le.mpr ⟨by linarith, this.2.le⟩
    | _ => exact hf.elim
  · rw [show vec y j = 0 from by unfold vec; rw [List.getD_eq_getElem?_getD, List.getElem?_eq_none (by omega)]; rfl]
    simp

/-- What follows a layer with values between -1 and 1 stays near what it makes of zeros. -/
theorem squashed_close {ks ls : List AnyLayer} {f : ActFn} {l : Act.Layer} {n m : Nat} (hf : Squashes f)
    (h : MapsAll n m (ks ++ .act f l :: ls)) :
    ∃ q y0, Composition ls (List.replicate q 0) y0 ∧ y0.length = m ∧
      ∀ x : List ℝ, x.length = n → ∃ y, Composition (ks ++ .act f l :: ls) x y ∧ y.length = m ∧
        ∀ i, |vec y i - vec y0 i| ≤ gains ls := by
  obtain ⟨k, h1, h2⟩ := mapsAll_append h
  cases h2 with
  | @cons _ q _ _ _ h2 h3 =>
  have hq : q = k := by cases f <;> first | exact h2.1 | exact hf.elim
  subst hq
  obtain ⟨y0, g1, g2⟩ := yieldsAll_of_maps h3 (x := List.replicate q 0) (by simp)
  refine ⟨q, y0, g2.composition, g1, fun x hx => ?_⟩
  obtain ⟨z, z1, z2⟩ := yieldsAll_of_maps h1 hx
  obtain ⟨u, u1, u2, u3⟩ := inRange_yields h2 z1
  obtain ⟨a, b, c1, c2, c3, c4, c5⟩ := inputs_close h3 (e := 1) (by norm_num) (x := List.replicate q 0) (by simp) u2
    (fun j => by
      rw [show vec (List.replicate q (0 : ℝ)) j = 0 from by
        simp only [vec, List.getD_eq_getElem?_getD, List.getElem?_replicate]; split <;> rfl, sub_zero]
      exact squashes_le hf u3 j)
  have := composition_unique g2.composition c1.composition
  subst this
  exact ⟨b, (z2.append (.cons u1 c2)).composition, c4, fun i => by simpa using c5 i⟩

theorem act_of_shape {f : ActFn} {l : Act.Layer} {a : AnyLayer} (h : shape a = shape (.act f l)) : ∃ k, a = .act f k := by
  cases a with
  | act f' k =>
    have : core (.act f' k) = core (.act f l) := h
    obtain ⟨k', e, _⟩ := act_core this
    cases e
    exact ⟨k, rfl⟩
  | dense l => simp [shape, core, AnyLayer.setParams, AnyLayer.params] at h
  | conv l => simp [shape, core, AnyLayer.setParams, AnyLayer.params] at h
  | rnn f f1 l => simp [shape, core, AnyLayer.setParams, AnyLayer.params] at h
  | _ => simp [shape, core, AnyLayer.setParams, AnyLayer.params] at h

end

end Verif.Net
