import Verif.Proofs.Loss

/-
Properties C19 (squared error), C20 (cross entropy), C22 (statistics), C23 (classification
decision).
-/

namespace Verif.Props
open Verif.Spec Verif.Loss Finset

/-! ### C19 -/

/-- C19: the value is the mean of the squared differences, non-negative, and zero exactly when
prediction and target agree. -/
theorem C19_mse_value (y yh : List ℝ) (n : Nat) (hn : 0 < n) (hy : n ≤ y.length)
    (hh : n ≤ yh.length) :
    ∃ v, meanSquaredError y yh n = .ok v ∧
      v = (∑ i ∈ range n, (vec y i - vec yh i) ^ 2) / n ∧ 0 ≤ v ∧
      (v = 0 ↔ ∀ i, i < n → vec y i = vec yh i) :=
  ⟨_, mse_eq hy hh, rfl, meanSq_nonneg _ _ _, meanSq_zero hn _ _⟩

/-- The gradient part of C19: with `norm = 1`, component `i` is the partial derivative of the mean
squared error with respect to the prediction `i`. -/
def C19GradientClaim (n : Nat) : Prop :=
  ∀ (dst y yh : List ℝ), dst.length = n → n ≤ y.length → n ≤ yh.length →
    ∃ g, meanSquaredError1 dst y yh 1 n = .ok g ∧ g.length = n ∧
      ∀ i, i < n → HasDerivAt (fun t => meanSq n (vec y) (replace (vec yh) i t)) (vec g i) (vec yh i)

/-- C19, gradient part, for one component.  Missing: two or more components, where it is false
(`C19_gradient_refuted`): the factor `1/n` is not there. -/
theorem C19_gradient_partial : C19GradientClaim 1 := by
  intro dst y yh hd hy hh
  refine ⟨_, mse1_eq hd hy hh, by simp, ?_⟩
  intro i hi
  rw [vec_tab _ hi]
  refine (meanSq_deriv (vec y) (vec yh) hi).congr_deriv ?_
  simp

/-- C19, gradient part, is false for every length above one. -/
theorem C19_gradient_refuted (n : Nat) (hn : 2 ≤ n) : ¬ C19GradientClaim n := by
  intro h
  obtain ⟨g, h1, -, h2⟩ := h (tab n fun _ => 0) (tab n fun _ => 1) (tab n fun _ => 0) (by simp)
    (by simp) (by simp)
  rw [mse1_eq (by simp) (by simp) (by simp)] at h1
  cases h1
  have hd := h2 0 (by omega)
  have hd' := meanSq_deriv (n := n) (vec (tab n fun _ => (1:ℝ))) (vec (tab n fun _ => (0:ℝ)))
    (show 0 < n by omega)
  have e := hd.unique hd'
  have hn' : (2:ℝ) ≤ n := by exact_mod_cast hn
  rw [vec_tab _ (by omega), vec_tab _ (by omega), vec_tab _ (by omega)] at e
  have hne : (n:ℝ) ≠ 0 := by positivity
  field_simp at e
  linarith

/-- C19, what the gradient really is: `norm` times the partial derivative of the *sum* of the
squared differences, i.e. `n * norm` times that of the mean. -/
theorem C19_gradient_actual (dst y yh : List ℝ) (norm : ℝ) (n : Nat) (hd : dst.length = n)
    (hy : n ≤ y.length) (hh : n ≤ yh.length) :
    ∃ g, meanSquaredError1 dst y yh norm n = .ok g ∧ g.length = n ∧
      ∀ i, i < n → ∃ d, vec g i = norm * d ∧
        HasDerivAt (fun t => ∑ k ∈ range n, (vec y k - replace (vec yh) i t k) ^ 2) d (vec yh i) ∧
        HasDerivAt (fun t => meanSq n (vec y) (replace (vec yh) i t)) (d / n) (vec yh i) := by
  refine ⟨_, mse1_eq hd hy hh, by simp, ?_⟩
  intro i hi
  refine ⟨-2 * (vec y i - vec yh i), ?_, sumSq_deriv _ _ hi, meanSq_deriv _ _ hi⟩
  rw [vec_tab _ hi]; ring

/-- C19: so with `norm = 1/n` it is the gradient of the mean. -/
theorem C19_gradient_scaled_partial (dst y yh : List ℝ) (n : Nat) (hd : dst.length = n)
    (hy : n ≤ y.length) (hh : n ≤ yh.length) :
    ∃ g, meanSquaredError1 dst y yh (1 / n) n = .ok g ∧
      ∀ i, i < n → HasDerivAt (fun t => meanSq n (vec y) (replace (vec yh) i t)) (vec g i)
        (vec yh i) := by
  refine ⟨_, mse1_eq hd hy hh, ?_⟩
  intro i hi
  rw [vec_tab _ hi]
  refine (meanSq_deriv (vec y) (vec yh) hi).congr_deriv ?_
  ring

/-- C19: `backward` of a squared error layer built for batches of `batch` samples, after
`set_target(y)` and `training_forward(x)`, leaves `1/batch` times the gradient of the sum of
squares (and thus `n/batch` times the gradient of the reported loss). -/
theorem C19_layer_backward (n batch : Nat) (tol : ℝ) (y x : List ℝ) (hn : 0 < n) (hb : 0 < batch)
    (hy : y.length = n) (hx : x.length = n) :
    ∃ l1 l2, trainingForward mseForward ((Loss.Layer.new n batch tol).setTarget y) x
        = .ok (l1, none) ∧ l1.loss = meanSq n (vec y) (vec x) ∧ mseBackward l1 = .ok l2 ∧
      l2.gradients.length = n ∧
      ∀ i, i < n → HasDerivAt
        (fun t => (∑ k ∈ range n, (vec y k - replace (vec x) i t k) ^ 2) / batch)
        (vec l2.gradients i) (vec x i) := by
  have hbm : ((Nat.max batch 1 : Nat) : ℝ) = batch := by
    congr 1; exact Nat.max_eq_left (by omega)
  have hne : y ≠ [] := by intro h; rw [h] at hy; simp at hy; omega
  have key : ∀ l1 : Loss.Layer, l1.gradients = List.replicate n 0 → l1.target = y →
      l1.lastInput = x → l1.invBatch = 1 / batch →
      ∃ l2, mseBackward l1 = .ok l2 ∧ l2.gradients.length = n ∧
      ∀ i, i < n → HasDerivAt
        (fun t => (∑ k ∈ range n, (vec y k - replace (vec x) i t k) ^ 2) / batch)
        (vec l2.gradients i) (vec x i) := by
    intro l1 g1 g2 g3 g4
    unfold mseBackward
    rw [g1, g2, g3, g4, mse1_eq rfl (by simp; omega) (by simp; omega)]
    refine ⟨_, rfl, by simp, ?_⟩
    intro i hi
    simp only []
    rw [vec_tab _ (by simpa using hi)]
    refine ((sumSq_deriv (vec y) (vec x) hi).div_const (batch : ℝ)).congr_deriv ?_
    ring
  obtain ⟨l1, e1, e2, e3, e4, e5, e6⟩ := mseForward_frame
    (l := { (Loss.Layer.new n batch tol).setTarget y with lastInput := x }) (x := x) hne hy hx
  obtain ⟨l2, k1, k2⟩ := key l1 e3 e4 e5 (e6.trans (by
    simp only [Loss.Layer.new, Loss.Layer.setTarget, hbm]))
  exact ⟨l1, l2, e1, e2, k1, k2⟩

/-- Non-vacuity of C19. -/
example : meanSquaredError [1, 2] [1, (0 : ℝ)] 2 = .ok 2 := by
  rw [mse_eq (by simp) (by simp)]
  congr 1
  simp [meanSq, sum_range_succ, vec]
  norm_num

/-! ### C20 -/

/-- C20: for non-negative targets and predictions not above 1, the cross entropy is non-negative;
it is `- ∑ y_i log ŷ_i` when all predictions are at least the machine epsilon. -/
theorem C20_cross_entropy_value (y yh : List ℝ) (n : Nat) (hy : n ≤ y.length) (hh : n ≤ yh.length)
    (hy0 : ∀ i, i < n → 0 ≤ vec y i) (hh1 : ∀ i, i < n → vec yh i ≤ 1) :
    ∃ v, crossEntropy y yh n = .ok v ∧ 0 ≤ v ∧
      ((∀ i, i < n → epsilon ≤ vec yh i) →
        v = - ∑ i ∈ range n, vec y i * Real.log (vec yh i)) := by
  refine ⟨_, crossEntropy_eq hy hh, crossEnt_nonneg hy0 hh1, ?_⟩
  intro h
  unfold crossEnt
  congr 1
  apply Finset.sum_congr rfl
  intro i hi
  rw [max_eq_left (h i (by simpa using hi))]

/-- C20: the loss of any prediction is finite, at most `52 log 2` per unit of target weight. -/
theorem C20_cross_entropy_bounded (y yh : List ℝ) (n : Nat) (hy : n ≤ y.length)
    (hh : n ≤ yh.length) (hy0 : ∀ i, i < n → 0 ≤ vec y i) :
    ∃ v, crossEntropy y yh n = .ok v ∧ v ≤ (∑ i ∈ range n, vec y i) * (52 * Real.log 2) := by
  refine ⟨_, crossEntropy_eq hy hh, ?_⟩
  unfold crossEnt
  rw [← Finset.sum_neg_distrib, Finset.sum_mul]
  apply Finset.sum_le_sum
  intro i hi
  rw [← mul_neg]
  apply mul_le_mul_of_nonneg_left _ (hy0 i (by simpa using hi))
  have h1 : Real.log epsilon ≤ Real.log (max (vec yh i) epsilon) :=
    Real.log_le_log epsilon_pos (le_max_right _ _)
  have h2 : Real.log epsilon = -52 * Real.log 2 := by
    unfold epsilon; rw [Real.log_zpow]; push_cast; ring
  linarith

/-- The gradient part of C20 at one point: component `i` of `cross_entropy_1` with `norm = 1` is
the partial derivative of `cross_entropy` with respect to prediction `i`. -/
def C20GradientAt (y yh : List ℝ) (n i : Nat) : Prop :=
  ∃ g, crossEntropy1 (List.replicate n 0) y yh 1 n = .ok g ∧
    HasDerivAt (fun t => crossEnt n (vec y) (replace (vec yh) i t)) (vec g i) (vec yh i)

/-- C20, gradient part, at every prediction above the machine epsilon.  Missing: positive
predictions below it, where it is false (`C20_gradient_refuted`). -/
theorem C20_gradient_partial (y yh : List ℝ) (n i : Nat) (hy : n ≤ y.length) (hh : n ≤ yh.length)
    (hi : i < n) (he : epsilon < vec yh i) : C20GradientAt y yh n i := by
  refine ⟨_, crossEntropy1_eq (by simp) hy hh, ?_⟩
  rw [vec_tab _ hi, one_mul, max_eq_left (lt_trans numMin_lt_epsilon he).le]
  exact crossEnt_deriv_above _ _ hi he

/-- C20: above `numeric_limits::min()` the gradient is that of the unclamped cross entropy. -/
theorem C20_gradient_unclamped (dst y yh : List ℝ) (norm : ℝ) (n i : Nat) (hd : dst.length = n)
    (hy : n ≤ y.length) (hh : n ≤ yh.length) (hi : i < n) (he : numMin ≤ vec yh i) :
    ∃ g d, crossEntropy1 dst y yh norm n = .ok g ∧ vec g i = norm * d ∧
      HasDerivAt (fun t => crossEntPure n (vec y) (replace (vec yh) i t)) d (vec yh i) := by
  refine ⟨_, -vec y i / vec yh i, crossEntropy1_eq hd hy hh, ?_, ?_⟩
  · rw [vec_tab _ hi, max_eq_left he]
  · exact crossEntPure_deriv _ _ hi (lt_of_lt_of_le numMin_pos he).ne'

/-- C20, gradient part, is false at every positive prediction below the machine epsilon whose
target is not zero: there `cross_entropy` is constant. -/
theorem C20_gradient_refuted (y yh : List ℝ) (n i : Nat) (hy : n ≤ y.length) (hh : n ≤ yh.length)
    (hi : i < n) (hp : 0 < vec yh i) (he : vec yh i < epsilon) (hne : vec y i ≠ 0) :
    ¬ C20GradientAt y yh n i := by
  rintro ⟨g, h1, h2⟩
  rw [crossEntropy1_eq (by simp) hy hh] at h1
  cases h1
  have := h2.unique (crossEnt_deriv_below (vec y) (vec yh) hi he)
  rw [vec_tab _ hi, one_mul, div_eq_zero_iff] at this
  rcases this with h | h
  · exact hne (neg_eq_zero.mp h)
  · exact (lt_of_lt_of_le hp (le_max_left _ _)).ne' h

/-- C20: `backward` of a cross entropy layer built for batches of `batch` samples, for any state
in which the target and the last input have the layer's size: `1/batch` times the partial
derivative of `cross_entropy`, at every prediction above the machine epsilon. -/
theorem C20_layer_backward_partial (l : Loss.Layer) (n batch i : Nat) (hb : 0 < batch)
    (hg : l.gradients.length = n) (ht : l.target.length = n) (hx : l.lastInput.length = n)
    (hinv : l.invBatch = (Loss.Layer.new n batch 0).invBatch)
    (hi : i < n) (he : epsilon < vec l.lastInput i) :
    ∃ l2, cceBackward l = .ok l2 ∧ l2.gradients.length = n ∧ HasDerivAt
        (fun t => crossEnt n (vec l.target) (replace (vec l.lastInput) i t) / batch)
        (vec l2.gradients i) (vec l.lastInput i) := by
  have hbm : ((Nat.max batch 1 : Nat) : ℝ) = batch := by
    congr 1; exact Nat.max_eq_left (by omega)
  unfold cceBackward
  rw [hinv, crossEntropy1_eq rfl (by omega) (by omega), hg]
  refine ⟨_, rfl, by simp, ?_⟩
  simp only []
  rw [vec_tab _ hi, max_eq_left (lt_trans numMin_lt_epsilon he).le]
  refine ((crossEnt_deriv_above (vec l.target) (vec l.lastInput) hi he).div_const
    (batch : ℝ)).congr_deriv ?_
  simp only [Loss.Layer.new, hbm]
  ring

/-- Non-vacuity of C20 and of its refutation: target 1, predictions 1/2 and `epsilon / 2`. -/
example : epsilon < vec [1 / 2] 0 ∧ 0 < vec [epsilon / 2] 0 ∧ vec [epsilon / 2] 0 < epsilon ∧
    vec [(1 : ℝ)] 0 ≠ 0 := by
  have h1 := epsilon_pos
  have h2 : epsilon < 1 / 2 := by
    unfold epsilon
    rw [show (1 / 2 : ℝ) = 2 ^ (-1 : ℤ) by norm_num]
    exact zpow_lt_zpow_right₀ (by norm_num) (by norm_num)
  refine ⟨h2, ?_, ?_, ?_⟩ <;> simp only [vec, List.getD_cons_zero]
  · linarith
  · linarith
  · norm_num

/-! ### C22 -/

/-- What C22 says about a layer after the calls `ops`, where `es` records for each call whether it
threw: with `E` the evaluations since the last reset,
accuracy is the fraction of correct ones and lies in `[0,1]`, the average loss is the mean of
their losses, and exactly the evaluations without a usable target threw. -/
def StatisticsOf (S : Scoring) (ops : List Op) (l : Loss.Layer) (es : List (Option String)) :
    Prop :=
  es.map Option.isSome = throwing S [] ops ∧
  (evalLog S ops ≠ [] →
    l.accuracy = goodCount S (evalLog S ops) / ((evalLog S ops).length : ℝ) ∧
    0 ≤ l.accuracy ∧ l.accuracy ≤ 1 ∧
    l.avgLoss = ((evalLog S ops).map fun p => S.value p.1 p.2).sum / ((evalLog S ops).length : ℝ))

theorem statistics_of_tracks {S : Scoring} {ops : List Op} {l : Loss.Layer}
    {es : List (Option String)} (he : es.map Option.isSome = throwing S [] ops)
    (h : Tracks S l (ops.foldl (logStep S) ([], []))) : StatisticsOf S ops l es := by
  obtain ⟨-, t2, t3, t4⟩ := h
  refine ⟨he, fun hne => ?_⟩
  have hlen : 0 < (evalLog S ops).length := List.length_pos_of_ne_nil hne
  have hlen' : (0:ℝ) < (evalLog S ops).length := by exact_mod_cast hlen
  unfold Loss.Layer.accuracy Loss.Layer.avgLoss
  rw [t3, t2, t4]
  refine ⟨rfl, by positivity, ?_, rfl⟩
  refine (div_le_one hlen').mpr ?_
  exact_mod_cast List.countP_le_length

/-- C22: mean squared error layer, after any history of calls on vectors of the layer's size. -/
theorem C22_mse_statistics (n batch : Nat) (tol : ℝ) (hn : 0 < n) (ops : List Op)
    (hs : Sized n ops) :
    ∃ l es, runOps mseForward (Loss.Layer.new n batch tol) ops = .ok (l, es) ∧
      StatisticsOf (mseScoring n tol) ops l es := by
  obtain ⟨l, es, h1, h2, h3⟩ := tracks_run (mse_behaves hn tol) ops hs (Loss.Layer.new n batch tol)
    ([], []) rfl rfl (Or.inr rfl) ⟨rfl, rfl, rfl, rfl⟩
  exact ⟨l, es, h1, statistics_of_tracks h2 h3⟩

/-- C22: categorical cross entropy layer. -/
theorem C22_cce_statistics (n batch : Nat) (tol : ℝ) (hn : 0 < n) (ops : List Op)
    (hs : Sized n ops) :
    ∃ l es, runOps cceForward (Loss.Layer.new n batch tol) ops = .ok (l, es) ∧
      StatisticsOf (cceScoring n) ops l es := by
  obtain ⟨l, es, h1, h2, h3⟩ := tracks_run (cce_behaves hn tol) ops hs (Loss.Layer.new n batch tol)
    ([], []) rfl rfl (Or.inr rfl) ⟨rfl, rfl, rfl, rfl⟩
  exact ⟨l, es, h1, statistics_of_tracks h2 h3⟩

/-- C22: an evaluation before any target is set throws and changes no statistic. -/
theorem C22_no_target (l : Loss.Layer) (x : List ℝ) (h : l.target = []) :
    (∃ msg, mseForward l x = .ok (l, some msg)) ∧ (∃ msg, cceForward l x = .ok (l, some msg)) := by
  unfold mseForward cceForward
  rw [h]
  exact ⟨⟨_, rfl⟩, ⟨_, rfl⟩⟩

/-- C22: `backward` changes no statistic. -/
theorem C22_backward_frame (l l' : Loss.Layer) :
    (mseBackward l = .ok l' ∨ cceBackward l = .ok l') → l' = { l with gradients := l'.gradients } := by
  rintro (h | h)
  · unfold mseBackward at h
    cases hd : meanSquaredError1 l.gradients l.target l.lastInput l.invBatch l.gradients.length with
    | ok d => rw [hd] at h; simp at h; subst h; rfl
    | throw m => rw [hd] at h; simp at h
    | ub => rw [hd] at h; simp at h
  · unfold cceBackward at h
    cases hd : crossEntropy1 l.gradients l.target l.lastInput l.invBatch l.gradients.length with
    | ok d => rw [hd] at h; simp at h; subst h; rfl
    | throw m => rw [hd] at h; simp at h
    | ub => rw [hd] at h; simp at h

/-- Non-vacuity of C22: a history with an early evaluation, a reset and three counted
evaluations, one of which comes after the target was changed. -/
example : Sized 2 [.forward [1, 0], .setTarget [1, 0], .forward [1, 0], .resetScore,
    .forward [0, 1], .trainingForward [1, 0], .setTarget [0, 0], .forward [1, 1],
    .setTarget [0, 1], .forward [1, 0]] := by
  intro op h
  simp only [List.mem_cons, List.not_mem_nil, or_false] at h
  rcases h with rfl | rfl | rfl | rfl | rfl | rfl | rfl | rfl | rfl | rfl <;> simp

/-! ### C23 -/

open Classical in
/-- C23: `forward` of the cross entropy layer counts a prediction as correct exactly when the
first maximal prediction sits at the first non-zero target entry, and as incorrect otherwise. -/
theorem C23_cce_decision (l : Loss.Layer) (x : List ℝ) (n : Nat) (hn : 0 < n)
    (hl : l.inputSize = n) (ht : l.target.length = n) (hx : x.length = n)
    (hnz : ∃ i, i < n ∧ vec l.target i ≠ 0) :
    ∃ l', cceForward l x = .ok (l', none) ∧
      (if ∃ k, IsFirstMax n (vec x) k ∧ IsFirstNonzero n (vec l.target) k
       then l'.correct = l.correct + 1 ∧ l'.incorrect = l.incorrect
       else l'.correct = l.correct ∧ l'.incorrect = l.incorrect + 1) := by
  obtain ⟨l', e, h1, -, -, -, h5, -, h7⟩ := cce_behaves hn l.tolerance l x hl rfl (Or.inl ht) hx
  have hu : (cceScoring n).usable l.target := by
    have hex : ∃ i, vec l.target i ≠ 0 := by obtain ⟨i, -, h⟩ := hnz; exact ⟨i, h⟩
    refine ⟨Nat.find hex, ?_, Nat.find_spec hex, ?_⟩
    · obtain ⟨i, hi, h⟩ := hnz
      exact lt_of_le_of_lt (Nat.find_min' hex h) hi
    · intro i hi
      exact not_not.mp (Nat.find_min hex hi)
  have he : e = none := by
    cases e with
    | none => rfl
    | some m => exact absurd hu (h5.mp rfl)
  subst he
  obtain ⟨-, c2, c3⟩ := h7 hu
  refine ⟨l', h1, ?_⟩
  by_cases hg : (cceScoring n).good l.target x
  · rw [if_pos hg] at c2 c3
    rw [if_pos (show ∃ k, _ from hg)]
    exact ⟨c2, c3⟩
  · rw [if_neg hg] at c2 c3
    rw [if_neg (show ¬ ∃ k, _ from hg)]
    exact ⟨c2, c3⟩

/-- C23: an all-zero target throws, and no statistic changes. -/
theorem C23_cce_zero_target (l : Loss.Layer) (x : List ℝ) (n : Nat) (hn : 0 < n)
    (hl : l.inputSize = n) (ht : l.target.length = n) (hx : x.length = n)
    (hz : ∀ i, i < n → vec l.target i = 0) :
    ∃ l' msg, cceForward l x = .ok (l', some msg) ∧ l'.correct = l.correct ∧
      l'.incorrect = l.incorrect ∧ l'.cumulative = l.cumulative := by
  obtain ⟨l', e, h1, -, -, -, h5, h6, -⟩ := cce_behaves hn l.tolerance l x hl rfl (Or.inl ht) hx
  have hu : ¬ (cceScoring n).usable l.target := by
    rintro ⟨k, h1, h2, -⟩; exact h2 (hz k h1)
  obtain ⟨m, rfl⟩ := Option.isSome_iff_exists.mp (h5.mpr hu)
  exact ⟨l', m, h1, h6 hu⟩

open Classical in
/-- C23: the squared error layer counts a prediction as correct exactly when its loss is within
the tolerance. -/
theorem C23_mse_decision (l : Loss.Layer) (x : List ℝ) (n : Nat) (hn : 0 < n)
    (hl : l.inputSize = n) (ht : l.target.length = n) (hx : x.length = n) :
    ∃ l', mseForward l x = .ok (l', none) ∧
      (if meanSq n (vec l.target) (vec x) ≤ l.tolerance
       then l'.correct = l.correct + 1 ∧ l'.incorrect = l.incorrect
       else l'.correct = l.correct ∧ l'.incorrect = l.incorrect + 1) := by
  obtain ⟨l', e, h1, -, -, -, h5, -, h7⟩ := mse_behaves hn l.tolerance l x hl rfl (Or.inl ht) hx
  have hu : (mseScoring n l.tolerance).usable l.target := by
    intro h; rw [h] at ht; simp at ht; omega
  have he : e = none := by
    cases e with
    | none => rfl
    | some m => exact absurd hu (h5.mp rfl)
  subst he
  obtain ⟨-, c2, c3⟩ := h7 hu
  refine ⟨l', h1, ?_⟩
  by_cases hg : (mseScoring n l.tolerance).good l.target x
  · rw [if_pos hg] at c2 c3
    rw [if_pos (show _ ≤ _ from hg)]
    exact ⟨c2, c3⟩
  · rw [if_neg hg] at c2 c3
    rw [if_neg (show ¬ _ ≤ _ from hg)]
    exact ⟨c2, c3⟩

/-- Non-vacuity of C23: target `[0, 0, 5]` of a layer with three inputs. -/
example : ((Loss.Layer.new 3 1 0.1).setTarget [0, 0, 5]).target.length = 3 ∧
    ∃ i, i < 3 ∧ vec ((Loss.Layer.new 3 1 0.1).setTarget [0, 0, 5]).target i ≠ 0 :=
  ⟨rfl, 2, by omega, by simp [Loss.Layer.setTarget, vec]⟩

end Verif.Props
