import Verif.Spec.Marks
import Verif.Proofs.Range
import Verif.Proofs.Scores
import Verif.Proofs.BackFnn

/-! Proofs for C111. -/

namespace Verif.Net

open Verif.Spec Verif.Graph Verif.Props

noncomputable section

theorem fraction_bounds (S : Scoring) (log : List (List ℝ × List ℝ)) : 0 ≤ fractionGood S log ∧ fractionGood S log ≤ 1 := by
  classical
  unfold fractionGood goodCount
  refine ⟨by positivity, ?_⟩
  refine div_le_one_of_le₀ ?_ (by positivity)
  exact_mod_cast List.countP_le_length

theorem fraction_one {S : Scoring} {log : List (List ℝ × List ℝ)} (h : log ≠ []) :
    fractionGood S log = 1 ↔ ∀ e ∈ log, S.good e.1 e.2 := by
  classical
  unfold fractionGood goodCount
  have : (log.length : ℝ) ≠ 0 := by
    have := List.length_pos_iff.mpr h
    positivity
  rw [div_eq_one_iff_eq this, Nat.cast_inj, List.countP_eq_length]
  simp

theorem fraction_zero {S : Scoring} {log : List (List ℝ × List ℝ)} (h : log ≠ []) :
    fractionGood S log = 0 ↔ ∀ e ∈ log, ¬ S.good e.1 e.2 := by
  classical
  unfold fractionGood goodCount
  have : (log.length : ℝ) ≠ 0 := by
    have := List.length_pos_iff.mpr h
    positivity
  rw [div_eq_zero_iff, or_iff_left this, Nat.cast_eq_zero, List.countP_eq_zero]
  simp

theorem mean_nonneg {S : Scoring} {log : List (List ℝ × List ℝ)} (h : ∀ e ∈ log, 0 ≤ S.value e.1 e.2) :
    0 ≤ meanLoss S log := by
  unfold meanLoss
  refine div_nonneg (List.sum_nonneg ?_) (by positivity)
  intro v hv
  obtain ⟨e, he, rfl⟩ := List.mem_map.mp hv
  exact h e he

theorem mean_zero {S : Scoring} {log : List (List ℝ × List ℝ)} (hne : log ≠ [])
    (h : ∀ e ∈ log, 0 ≤ S.value e.1 e.2) : meanLoss S log = 0 ↔ ∀ e ∈ log, S.value e.1 e.2 = 0 := by
  have hl : (log.length : ℝ) ≠ 0 := by
    have := List.length_pos_iff.mpr hne
    positivity
  unfold meanLoss
  rw [div_eq_zero_iff, or_iff_left hl]
  clear hl hne
  induction log with
  | nil => simp
  | cons e log ih =>
    have i1 := h e (by simp)
    have i2 : 0 ≤ (log.map fun e => S.value e.1 e.2).sum := by
      refine List.sum_nonneg ?_
      intro v hv
      obtain ⟨u, hu, rfl⟩ := List.mem_map.mp hv
      exact h u (by simp [hu])
    have ih := ih (fun u hu => h u (List.mem_cons_of_mem _ hu))
    rw [List.map_cons, List.sum_cons, List.forall_mem_cons]
    constructor
    · intro hs
      exact ⟨by linarith, ih.mp (by linarith)⟩
    · rintro ⟨a, b⟩
      rw [a, ih.mpr b, add_zero]

/-- Wrong predictions cost at least `d` each. -/
theorem mean_wrong {S : Scoring} {log : List (List ℝ × List ℝ)} (hne : log ≠ []) {d : ℝ}
    (h : ∀ e ∈ log, 0 ≤ S.value e.1 e.2) (hd : ∀ e ∈ log, ¬ S.good e.1 e.2 → d ≤ S.value e.1 e.2) :
    (1 - fractionGood S log) * d ≤ meanLoss S log := by
  classical
  have hl : (0 : ℝ) < log.length := by exact_mod_cast List.length_pos_iff.mpr hne
  have key : ((log.length : ℝ) - (goodCount S log : ℝ)) * d ≤ (log.map fun e => S.value e.1 e.2).sum := by
    unfold goodCount
    clear hl hne
    induction log with
    | nil => simp
    | cons e log ih =>
      have ih := ih (fun u hu => h u (by simp [hu])) (fun u hu => hd u (by simp [hu]))
      have i1 := h e (by simp)
      have i2 := hd e (by simp)
      rw [List.map_cons, List.sum_cons, List.length_cons, List.countP_cons]
      by_cases hg : S.good e.1 e.2
      · simp only [hg, decide_true, if_true]
        push_cast
        linarith
      · simp only [hg, decide_false, Bool.false_eq_true, if_false]
        have := i2 hg
        push_cast
        linarith
  unfold fractionGood meanLoss
  rw [le_div_iff₀ hl]
  calc (1 - (goodCount S log : ℝ) / log.length) * d * log.length
      = ((log.length : ℝ) - (goodCount S log : ℝ)) * d := by field_simp
    _ ≤ _ := key

theorem meanSq_nonneg (n : Nat) (y yh : Nat → ℝ) : 0 ≤ meanSq n y yh :=
  div_nonneg (Finset.sum_nonneg fun _ _ => sq_nonneg _) (by positivity)

theorem meanSq_zero {n : Nat} (hn : 0 < n) (y yh : Nat → ℝ) : meanSq n y yh = 0 ↔ ∀ i, i < n → yh i = y i := by
  unfold meanSq
  rw [div_eq_zero_iff, or_iff_left (by positivity), Finset.sum_eq_zero_iff_of_nonneg fun _ _ => sq_nonneg _]
  constructor
  · intro h i hi
    have := h i (Finset.mem_range.mpr hi)
    have := pow_eq_zero_iff (two_ne_zero) |>.mp this
    linarith
  · intro h i hi
    rw [h i (Finset.mem_range.mp hi), sub_self]
    norm_num

/-- The cross entropy for a target that names a class. -/
theorem crossEnt_class {m k : Nat} {t y : List ℝ} (hk : k < m) (h1 : vec t k = 1)
    (h0 : ∀ i, i < m → i ≠ k → vec t i = 0) :
    crossEnt m (vec t) (vec y) = - Real.log (max (vec y k) Loss.epsilon) := by
  unfold crossEnt
  rw [Finset.sum_eq_single k]
  · rw [h1, one_mul]
  · intro i hi hne
    rw [h0 i (Finset.mem_range.mp hi) hne, zero_mul]
  · intro h; exact absurd (Finset.mem_range.mpr hk) h

theorem epsilon_half : 0 < Loss.epsilon ∧ Loss.epsilon ≤ 1 / 2 := by
  unfold Loss.epsilon
  refine ⟨by positivity, ?_⟩
  rw [show (1 / 2 : ℝ) = 2 ^ (-1 : ℤ) by norm_num]
  exact zpow_le_zpow_right₀ (by norm_num) (by norm_num)

theorem class_marks {m : Nat} {t y : List ℝ} (ht : NamesClass m t) (hm : y.length = m) (hy : InRange y .softmax) :
    0 ≤ (cceScoring m).value t y ∧ (¬ (cceScoring m).good t y → Real.log 2 ≤ (cceScoring m).value t y) := by
  obtain ⟨k, hk, h1, h0⟩ := ht
  obtain ⟨hp, hs⟩ := hy
  have hv : ∀ i, i < m → vec y i ∈ y := fun i hi => by
    rw [show vec y i = y[i] from by simp [vec, List.getD_eq_getElem?_getD, hm, hi]]
    exact List.getElem_mem _
  have e := crossEnt_class (y := y) hk h1 h0
  obtain ⟨e0, e1⟩ := epsilon_half
  have hmax : 0 < max (vec y k) Loss.epsilon := lt_max_of_lt_right e0
  show 0 ≤ crossEnt m (vec t) (vec y) ∧ (_ → _ ≤ crossEnt m (vec t) (vec y))
  rw [e]
  refine ⟨?_, fun hg => ?_⟩
  · have : Real.log (max (vec y k) Loss.epsilon) ≤ 0 :=
      Real.log_nonpos hmax.le (max_le (hp _ (hv k hk)).2 (by linarith))
    linarith
  · have hhalf : vec y k ≤ 1 / 2 := by
      by_contra hc
      push Not at hc
      have hsum : ∀ i, i < m → i ≠ k → vec y i < 1 / 2 := by
        intro i hi hne
        have hs' : ∑ j ∈ Finset.range m, vec y j = 1 := by
          rw [← hs, ← hm]
          clear * -
          induction y with
          | nil => simp
          | cons a y ih =>
            rw [List.length_cons, Finset.sum_range_succ', List.sum_cons, ← ih]
            simp [vec, add_comm]
        have := Finset.add_le_sum (f := fun j => vec y j) (s := Finset.range m) (i := i) (j := k)
          (fun j hj => (hp _ (hv j (Finset.mem_range.mp hj))).1.le) (Finset.mem_range.mpr hi) (Finset.mem_range.mpr hk) hne
        linarith
      refine hg ⟨k, ⟨hk, fun i hi => ?_, fun i hi => ?_⟩, hk, by rw [h1]; norm_num, fun i hi => h0 i (by omega) (by omega)⟩
      · by_cases hik : i = k
        · rw [hik]
        · have := hsum i hi hik; linarith
      · have := hsum i (by omega) (by omega); linarith
    have : Real.log (max (vec y k) Loss.epsilon) ≤ Real.log (1 / 2) :=
      Real.log_le_log hmax (max_le hhalf e1)
    rw [one_div, Real.log_inv] at this
    linarith

/-- The layers keep their shapes. -/
theorem scored_shape {n0 : Net} {p : List Nat} {f : LossFn} {nin m : Nat} {n : Net} {log : List (List ℝ × List ℝ)}
    (h : Scored n0 p f nin m n log) : n.layers.map shape = n0.layers.map shape := by
  induction h with
  | new => exact shapes_of_cores (resetScore_same n0).2
  | step x t ks _ _ _ _ hs ih => exact (shapes_of_cores (step_same hs).2).trans ih
  | train opt s _ ih => exact (shape_trainLayers opt _ s).trans ih
  | predict x _ hp ih => exact (shapes_of_cores (predict_same hp).2).trans ih
  | reset _ ih => exact (shapes_of_cores (resetScore_same _).2).trans ih

/-- The layers `ks` at the places `p` have the shapes of `ks0`. -/
theorem shapes_at {as bs ks0 ks : List AnyLayer} {p : List Nat} (h : as.map shape = bs.map shape)
    (h0 : p.map (fun i => bs[i]?) = ks0.map some) (h1 : p.map (fun i => as[i]?) = ks.map some) :
    ks.map shape = ks0.map shape := by
  refine List.map_injective_iff.mpr (Option.some_injective AnyLayer) ?_
  have g : ∀ (as : List AnyLayer) (ts : List AnyLayer), p.map (fun i => as[i]?) = ts.map some →
      (ts.map shape).map some = p.map (fun i => (as.map shape)[i]?) := by
    intro as ts h
    have := congrArg (List.map (Option.map shape)) h
    simp only [List.map_map] at this ⊢
    rw [show (some ∘ shape) = (Option.map shape ∘ some) from rfl, ← this]
    simp [Function.comp_def]
  rw [g _ _ h0, g _ _ h1, h]

theorem softmax_last {ks0 ks : List AnyLayer} {l : Act.Layer} (h : ks.map shape = ks0.map shape)
    (h0 : ks0.getLast? = some (.act .softmax l)) : ∃ front k, ks = front ++ [.act .softmax k] := by
  obtain ⟨front0, rfl⟩ := List.getLast?_eq_some_iff.mp h0
  rw [List.map_append] at h
  obtain ⟨front, back, rfl, _, e2⟩ := List.map_eq_append_iff.mp h
  obtain ⟨a, t, rfl, e3, e4⟩ := List.map_eq_cons_iff.mp e2
  cases List.map_eq_nil_iff.mp e4
  obtain ⟨k, rfl⟩ := act_of_shape e3
  exact ⟨front, k, rfl⟩

theorem prediction_softmax {front : List AnyLayer} {k : Act.Layer} {n m : Nat}
    (h : MapsAll n m (front ++ [.act .softmax k])) {x : List ℝ} (hx : x.length = n) :
    (prediction (front ++ [.act .softmax k]) x).length = m ∧ InRange (prediction (front ++ [.act .softmax k]) x) .softmax := by
  obtain ⟨q, h1, h2⟩ := mapsAll_append h
  cases h2 with
  | cons h2 h3 =>
  cases h3
  obtain ⟨u, u1, u2⟩ := yieldsAll_of_maps h1 hx
  obtain ⟨y, y1, y2, y3⟩ := inRange_yields h2 u1
  rw [prediction_of (u2.append (.cons y1 (.nil y)))]
  exact ⟨y2.trans h2.1.symm, y3⟩

/-- The targets in the log suit the loss. -/
theorem scored_targets {n0 : Net} {p : List Nat} {f : LossFn} {nin m : Nat} {n : Net} {log : List (List ℝ × List ℝ)}
    (h : Scored n0 p f nin m n log) : ∀ e ∈ log, CanScore f m e.1 := by
  induction h with
  | new => simp
  | step x t ks _ _ ht _ _ ih =>
    intro e he
    rcases List.mem_append.mp he with he | he
    · exact ih e he
    · cases List.mem_singleton.mp he
      exact ht
  | train opt s _ ih => exact ih
  | predict x _ _ ih => exact ih
  | reset => simp

/-- What a model that ends with softmax predicts are probabilities. -/
theorem scored_softmax {n0 : Net} {p : List Nat} {q : Nat} {ks0 : List AnyLayer} {f : LossFn} {nin m : Nat} {inv tol : ℝ}
    {l0 : Loss.Layer} (hok : Ok n0.graph) (hl : Lists n0.graph) (hp : IsTrainingPath n0.graph p q) (hne : p ≠ [])
    (hr : Ready n0 p q ks0 f nin m inv) (hq0 : n0.layers[q]? = some (.loss f l0)) (htol : l0.tolerance = tol)
    {k : Act.Layer} (hk : ks0.getLast? = some (.act .softmax k))
    {n : Net} {log : List (List ℝ × List ℝ)} (h : Scored n0 p f nin m n log) :
    ∀ e ∈ log, e.2.length = m ∧ InRange e.2 .softmax := by
  induction h with
  | new => simp
  | step x t ks hs hx ht hks _ ih =>
    intro e he
    rcases List.mem_append.mp he with he | he
    · exact ih e he
    · cases List.mem_singleton.mp he
      obtain ⟨_, ⟨ks', inv', hr'⟩, _⟩ := counted hok hl hp hne hr hq0 htol hs
      cases List.map_injective_iff.mpr (Option.some_injective _) (hks.symm.trans hr'.layers)
      obtain ⟨front, k', rfl⟩ := softmax_last (shapes_at (scored_shape hs) hr.layers hks) hk
      exact prediction_softmax (mapsAll_of_trainable hr'.sizes) hx
  | train opt s _ ih => exact ih
  | predict x _ _ ih => exact ih
  | reset => simp

end

end Verif.Net
