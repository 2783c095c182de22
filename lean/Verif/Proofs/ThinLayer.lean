import Verif.Spec.Thin
import Verif.Proofs.BackStep
import Verif.Proofs.Dropout

/-! One dropout layer in a training step. -/

namespace Verif.Net
open Verif.Spec Verif.Graph Finset

noncomputable section

/-- The dropout layer has drawn its numbers for pass 0 of `L`. -/
structure Drawn (mx : Nat) (raw : Nat → Nat) (L L' : Drop.Layer) : Prop where
  size : L'.size = L.size
  p : L'.p = L.p
  scale : L'.scale = L.scale
  drawn : L'.drawn = L.drawn + L.size
  output : L'.output.length = L.size
  inputGrad : L'.inputGrad.length = L.size
  mask : ∀ i ∈ L'.mask, i < L.size
  dropped : ∀ i, i < L.size → (i ∈ L'.mask ↔ ¬ L.p < (raw (L.drawn + i) : ℝ) / (mx : ℝ))

theorem dropFactor_zero (mx : Nat) (raw : Nat → Nat) (l : Drop.Layer) (i : Nat) :
    dropFactor mx raw l 0 i = if l.p < (raw (l.drawn + i) : ℝ) / (mx : ℝ) then l.scale else 0 := by
  unfold dropFactor
  rw [Nat.zero_mul, Nat.add_zero]

theorem mat_diag {n : Nat} (F : Nat → ℝ) {i j : Nat} (hi : i < n) (hj : j < n) :
    mat (tab (n * n) fun k => if k / n = k % n then F (k % n) else 0) n i j = if i = j then F j else 0 := by
  have hn : 0 < n := by omega
  have hlt : i * n + j < n * n := by
    have : (i + 1) * n ≤ n * n := Nat.mul_le_mul_right n hi
    rw [Nat.add_mul, Nat.one_mul] at this
    omega
  show vec _ _ = _
  rw [vec_tab _ hlt]
  have e1 : (i * n + j) / n = i := by
    rw [Nat.add_comm, Nat.add_mul_div_right _ _ hn, Nat.div_eq_of_lt hj, Nat.zero_add]
  have e2 : (i * n + j) % n = j := by
    rw [Nat.add_comm, Nat.add_mul_mod_self_right, Nat.mod_eq_of_lt hj]
  rw [e1, e2]

theorem maps_thin {mx : Nat} {raw : Nat → Nat} {l : Drop.Layer} {t : Nat} (h : l.output.length = l.size) :
    Maps l.size l.size (.dense (thinDense t mx raw l)) :=
  ⟨rfl, rfl, h, by simp [thinDense], by simp [thinDense]⟩

/-- What a dropout layer computes in a training pass. -/
theorem thin_yields {mx : Nat} {raw : Nat → Nat} {l : Drop.Layer} {t : Nat} (h : l.output.length = l.size)
    {x : List ℝ} (hx : x.length = l.size) :
    Yields (.dense (thinDense t mx raw l)) x (tab l.size fun i => dropFactor mx raw l t i * vec x i) := by
  have := dense_yields (maps_thin (t := t) (raw := raw) (mx := mx) h) hx
  convert this using 1
  apply tab_congr
  intro i hi
  have e : ∑ j ∈ range l.size, mat (thinDense t mx raw l).weights l.size i j * vec x j
      = ∑ j ∈ range l.size, if i = j then dropFactor mx raw l t i * vec x i else 0 := by
    apply Finset.sum_congr rfl
    intro j hj
    unfold thinDense
    rw [mat_diag _ hi (by simpa using hj)]
    split
    · next h => subst h; rfl
    · ring
  rw [e]
  have hb : vec (thinDense t mx raw l).biases i = 0 := by simp [thinDense, vec, hi]
  rw [hb, Finset.sum_ite_eq, if_pos (by simpa using hi), zero_add]

/-- `training_forward` of a dropout layer. -/
theorem drop_train {mx : Nat} {raw : Nat → Nat} {L : Drop.Layer} (ho : L.output.length = L.size)
    (hi : L.inputGrad.length = L.size) {x : List ℝ} (hx : x.length = L.size) :
    ∃ L', (AnyLayer.dropout mx raw L).trainingForward x = .ok (.dropout mx raw L', none) ∧
      Drawn mx raw L L' ∧ L'.output = tab L.size fun i => dropFactor mx raw L 0 i * vec x i := by
  classical
  refine ⟨{ L with
      output := tab L.size fun i => if (raw (L.drawn + i) : ℝ) / mx > L.p then vec x i * L.scale else 0
      mask := (List.range L.size).filter fun i => ¬ ((raw (L.drawn + i) : ℝ) / mx > L.p)
      drawn := L.drawn + L.size }, ?_, ?_, ?_⟩
  · show keep _ (L.trainingForward mx raw x) _ = _
    unfold Drop.Layer.trainingForward
    rw [Drop.dropLoop_eq mx raw L ho x hx, Exec.bind_ok]
    rfl
  · refine ⟨rfl, rfl, rfl, rfl, tab_length _ _, hi, ?_, ?_⟩
    · intro i hi'
      exact List.mem_range.mp (List.mem_filter.mp hi').1
    · intro i hi'
      dsimp only
      rw [List.mem_filter, decide_eq_true_iff]
      exact ⟨fun h => h.2, fun h => ⟨List.mem_range.mpr hi', h⟩⟩
  · apply tab_congr
    intro i _
    rw [dropFactor_zero]
    by_cases h : L.p < (raw (L.drawn + i) : ℝ) / (mx : ℝ)
    · rw [if_pos h, if_pos h]; ring
    · rw [if_neg h, if_neg h]; ring

/-- `backward` of a dropout layer after a training pass. -/
theorem drop_back {mx : Nat} {raw : Nat → Nat} {L L' : Drop.Layer} (h : Drawn mx raw L L') {g : List ℝ}
    (hg : g.length = L.size) :
    ∃ L'', (AnyLayer.dropout mx raw L').backward g = .ok (.dropout mx raw L'', none) ∧
      Drawn mx raw L L'' ∧ L''.output = L'.output ∧
      L''.inputGrad = tab L.size fun i => vec g i * dropFactor mx raw L 0 i := by
  refine ⟨{ L' with inputGrad := tab L.size fun i => vec g i * dropFactor mx raw L 0 i }, ?_, ?_, rfl, rfl⟩
  · show keep _ (L'.backward g) _ = _
    unfold Drop.Layer.backward
    rw [h.size, Drop.arrScale_eq h.inputGrad hg, Exec.bind_ok, Drop.clearAt_eq _ _ h.mask, Exec.bind_ok]
    unfold keep
    dsimp only
    congr 3
    congr 1
    apply tab_congr
    intro i hi
    rw [dropFactor_zero, h.scale]
    have hd := h.dropped i hi
    by_cases hk : L.p < (raw (L.drawn + i) : ℝ) / (mx : ℝ)
    · rw [if_neg (by rw [hd]; exact fun e => e hk), if_pos hk]
    · rw [if_pos (hd.mpr hk), if_neg hk, mul_zero]
  · exact ⟨h.size, h.p, h.scale, h.drawn, h.output, tab_length _ _, h.mask, h.dropped⟩

/-- The gradient that the dense layer in its place passes on. -/
theorem thin_back {mx : Nat} {raw : Nat → Nat} {L : Drop.Layer} (ho : L.output.length = L.size)
    (hi : L.inputGrad.length = L.size) {x y g gi : List ℝ} {gp : Nat → Nat → ℝ} (hx : x.length = L.size)
    (hy : y.length = L.size) (hg : g.length = L.size)
    (h : Back L.size L.size (.dense (thinDense 0 mx raw L)) x y g gi gp) :
    gi = tab L.size fun i => vec g i * dropFactor mx raw L 0 i := by
  obtain ⟨l'', b1, b2, _⟩ := h (.dense { thinDense 0 mx raw L with output := y })
    (by simp [core, thinDense, hy, ho]) ⟨hi, by simp [thinDense], by simp [thinDense]⟩ rfl
  have key := Dense.dense1_eq (s := (thinDense 0 mx raw L).grads) (g := g) (x := x)
    (w := (thinDense 0 mx raw L).weights) (n := L.size) (m := L.size) hi (by simp [thinDense])
    (by simp [thinDense]) (by omega) (by omega) (by simp [thinDense])
  have e : (AnyLayer.setLastInput x (.dense { thinDense 0 mx raw L with output := y })).backward g
      = keep (AnyLayer.setLastInput x (.dense { thinDense 0 mx raw L with output := y }))
        (Dense.Layer.backward { thinDense 0 mx raw L with output := y, lastInput := x } g) .dense := rfl
  rw [e] at b1
  unfold Dense.Layer.backward at b1
  dsimp only at b1
  rw [hg] at b1
  have e2 : (thinDense 0 mx raw L).inputSize = L.size := rfl
  rw [e2, key, Exec.bind_ok] at b1
  cases b1
  rw [← b2]
  show tab _ _ = _
  apply tab_congr
  intro j hj
  rw [ordSum_eq_sum, zero_add]
  have e3 : ∀ i ∈ range L.size, vec g i * mat (thinDense 0 mx raw L).weights L.size i j
      = if j = i then vec g j * dropFactor mx raw L 0 j else 0 := by
    intro i hi
    unfold thinDense
    rw [mat_diag _ (by simpa using hi) hj]
    by_cases h : i = j
    · subst h; rw [if_pos rfl, if_pos rfl]
    · rw [if_neg h, if_neg (Ne.symm h), mul_zero]
  rw [Finset.sum_congr rfl e3, Finset.sum_ite_eq, if_pos (by simpa using hj)]

end

end Verif.Net
