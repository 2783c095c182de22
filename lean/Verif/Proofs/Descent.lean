import Mathlib.Analysis.Calculus.ContDiff.RCLike
import Mathlib.Analysis.Calculus.MeanValue
import Mathlib.Analysis.Calculus.ContDiff.Comp
import Mathlib.Analysis.Calculus.Deriv.Pi
import Mathlib.Analysis.Calculus.Deriv.Slope
import Mathlib.Analysis.Normed.Operator.BoundedLinearMaps
import Mathlib.Algebra.Order.Chebyshev

/-! Small steps against the gradient. -/

namespace Verif.Net
open Finset Filter Topology

noncomputable section

variable {ι : Type} [Fintype ι] [DecidableEq ι]

/-- The partial derivatives along the coordinates in `s`. -/
def partials (s : ι → Prop) [DecidablePred s] (C : (ι → ℝ) → ℝ) (e : ι → ℝ) : ι → ℝ :=
  fun i => if s i then fderiv ℝ C e (Pi.single i 1) else 0

variable {s : ι → Prop} [DecidablePred s] {C : (ι → ℝ) → ℝ}

theorem fderiv_partials (e : ι → ℝ) :
    fderiv ℝ C e (partials s C e) = ∑ i, partials s C e i ^ 2 := by
  have h : partials s C e = ∑ i, partials s C e i • (Pi.single i (1 : ℝ) : ι → ℝ) := by
    funext j
    simp [Pi.single_apply]
  conv_lhs => rw [h]
  rw [map_sum]
  apply Finset.sum_congr rfl
  intro i _
  rw [map_smul, smul_eq_mul, pow_two]
  by_cases hi : s i
  · simp [partials, hi]
  · simp [partials, hi]

theorem partials_hasDerivAt {e : ι → ℝ} (hC : DifferentiableAt ℝ C e) (i : ι) :
    HasDerivAt (fun v => C (Function.update e i v)) (fderiv ℝ C e (Pi.single i 1)) (e i) := by
  have h1 : HasDerivAt (fun v : ℝ => Function.update e i v) (Pi.single i (1 : ℝ)) (e i) :=
    hasDerivAt_update e i (e i)
  have h2 : HasFDerivAt C (fderiv ℝ C e) (Function.update e i (e i)) := by
    rw [Function.update_eq_self]; exact hC.hasFDerivAt
  exact h2.comp_hasDerivAt _ h1

/-- One small step does not increase `C`. -/
theorem small_step {e : ι → ℝ} (hC : DifferentiableAt ℝ C e) :
    ∃ δ > 0, ∀ eta : ℝ, 0 < eta → eta < δ → C (e - eta • partials s C e) ≤ C e ∧
      (∀ i, partials s C e i ≠ 0 → C (e - eta • partials s C e) < C e) := by
  by_cases h0 : partials s C e = 0
  · refine ⟨1, one_pos, fun eta _ _ => ?_⟩
    rw [h0]
    simp
  · obtain ⟨i, hi⟩ : ∃ i, partials s C e i ≠ 0 := by
      by_contra hh
      push Not at hh
      exact h0 (funext hh)
    have hpos : 0 < ∑ i, partials s C e i ^ 2 :=
      Finset.sum_pos' (fun i _ => sq_nonneg _) ⟨i, by simp, by positivity⟩
    have h1 : HasDerivAt (fun t : ℝ => e - t • partials s C e) (-partials s C e) 0 := by
      have := ((hasDerivAt_id (0 : ℝ)).smul_const (partials s C e)).const_sub e
      simpa using this
    have h2 : HasDerivAt (fun t : ℝ => C (e - t • partials s C e))
        (-∑ i, partials s C e i ^ 2) 0 := by
      have hf : HasFDerivAt C (fderiv ℝ C e) (e - (0 : ℝ) • partials s C e) := by
        simpa using hC.hasFDerivAt
      have := hf.comp_hasDerivAt _ h1
      rw [map_neg, fderiv_partials] at this
      exact this
    have h3 := hasDerivAt_iff_tendsto_slope.mp h2
    have h4 : ∀ᶠ t in 𝓝[≠] (0 : ℝ), slope (fun t : ℝ => C (e - t • partials s C e)) 0 t < 0 :=
      h3.eventually_lt_const (by linarith)
    have h5 : ∀ᶠ t in 𝓝[>] (0 : ℝ), slope (fun t : ℝ => C (e - t • partials s C e)) 0 t < 0 :=
      h4.filter_mono (nhdsWithin_mono _ fun x hx => ne_of_gt hx)
    obtain ⟨δ, hδ, h6⟩ := mem_nhdsGT_iff_exists_Ioo_subset.mp h5
    refine ⟨δ, hδ, fun eta h7 h8 => ?_⟩
    have h9 : slope (fun t : ℝ => C (e - t • partials s C e)) 0 eta < 0 := h6 ⟨h7, h8⟩
    have h10 : C (e - eta • partials s C e) < C e := by
      rw [slope_def_field] at h9
      simp only [zero_smul, sub_zero] at h9
      have := (div_neg_iff.mp h9)
      rcases this with ⟨_, h⟩ | ⟨h, _⟩
      · linarith
      · linarith
    exact ⟨h10.le, fun _ _ => h10⟩

theorem norm_sq_le (g : ι → ℝ) : ‖g‖ ^ 2 ≤ ∑ i, g i ^ 2 := by
  have h1 : ‖g‖ ≤ Real.sqrt (∑ i, g i ^ 2) := by
    rw [pi_norm_le_iff_of_nonneg (Real.sqrt_nonneg _)]
    intro i
    rw [Real.norm_eq_abs]
    apply Real.abs_le_sqrt
    exact Finset.single_le_sum (f := fun i => g i ^ 2) (fun i _ => sq_nonneg _) (Finset.mem_univ i)
  calc ‖g‖ ^ 2 ≤ Real.sqrt (∑ i, g i ^ 2) ^ 2 := by gcongr
    _ = _ := Real.sq_sqrt (Finset.sum_nonneg fun i _ => sq_nonneg _)

theorem continuous_partials {e0 : ι → ℝ} (hC : ContDiffAt ℝ 2 C e0) : ContinuousAt (partials s C) e0 := by
  have h1 : ContDiffAt ℝ 1 (fderiv ℝ C) e0 := hC.fderiv_right (by norm_num)
  refine continuousAt_pi.mpr fun i => ?_
  unfold partials
  split
  · exact h1.continuousAt.clm_apply continuousAt_const
  · exact continuousAt_const

theorem eventually_differentiableAt {e0 : ι → ℝ} (hC : ContDiffAt ℝ 2 C e0) :
    ∀ᶠ e in 𝓝 e0, DifferentiableAt ℝ C e := by
  filter_upwards [hC.eventually (by simp)] with e he
  exact he.differentiableAt (by norm_num)

/-- Small steps from points near `e0` do not increase `C`. -/
theorem small_steps {e0 : ι → ℝ} (hC : ContDiffAt ℝ 2 C e0) :
    ∀ᶠ p : (ι → ℝ) × ℝ in 𝓝 e0 ×ˢ 𝓝[>] 0, C (p.1 - p.2 • partials s C p.1) ≤ C p.1 ∧
      (∀ i, partials s C p.1 i ≠ 0 → C (p.1 - p.2 • partials s C p.1) < C p.1) := by
  have h1 : ContDiffAt ℝ 1 (fderiv ℝ C) e0 := hC.fderiv_right (by norm_num)
  obtain ⟨K, t, ht, hK⟩ := h1.exists_lipschitzOnWith
  obtain ⟨r, hr, hb⟩ := Metric.mem_nhds_iff.mp (Filter.inter_mem ht (eventually_differentiableAt hC))
  have hmove : Tendsto (fun p : (ι → ℝ) × ℝ => p.1 - p.2 • partials s C p.1) (𝓝 e0 ×ˢ 𝓝[>] 0) (𝓝 e0) := by
    have hg : Tendsto (fun p : (ι → ℝ) × ℝ => partials s C p.1) (𝓝 e0 ×ˢ 𝓝[>] 0) (𝓝 (partials s C e0)) :=
      (continuous_partials hC).tendsto.comp tendsto_fst
    have h2 : Tendsto (fun p : (ι → ℝ) × ℝ => p.2) (𝓝 e0 ×ˢ 𝓝[>] 0) (𝓝 0) :=
      (tendsto_snd (f := 𝓝 e0) (g := 𝓝[>] (0 : ℝ))).mono_right nhdsWithin_le_nhds
    have := (tendsto_fst (f := 𝓝 e0) (g := 𝓝[>] (0 : ℝ))).sub (h2.smul hg)
    simpa using this
  have e1 : ∀ᶠ p : (ι → ℝ) × ℝ in 𝓝 e0 ×ˢ 𝓝[>] 0, p.1 ∈ Metric.ball e0 r :=
    tendsto_fst.eventually (Metric.ball_mem_nhds e0 hr)
  have e2 : ∀ᶠ p : (ι → ℝ) × ℝ in 𝓝 e0 ×ˢ 𝓝[>] 0, p.1 - p.2 • partials s C p.1 ∈ Metric.ball e0 r :=
    hmove.eventually (Metric.ball_mem_nhds e0 hr)
  have e3 : ∀ᶠ p : (ι → ℝ) × ℝ in 𝓝 e0 ×ˢ 𝓝[>] 0, 0 < p.2 ∧ p.2 < 1 / (K + 1 : ℝ) :=
    tendsto_snd.eventually (by
      have : Set.Ioo (0 : ℝ) (1 / (K + 1 : ℝ)) ∈ 𝓝[>] (0 : ℝ) := Ioo_mem_nhdsGT (by positivity)
      exact this)
  filter_upwards [e1, e2, e3] with p f1 f2 f3
  obtain ⟨e, eta⟩ := p
  dsimp only at *
  generalize hG : partials s C e = G at *
  have hseg : segment ℝ e (e - eta • G) ⊆ Metric.ball e0 r :=
    (convex_ball e0 r).segment_subset f1 f2
  have hmv := Convex.norm_image_sub_le_of_norm_hasFDerivWithin_le' (f := C) (f' := fderiv ℝ C)
    (φ := fderiv ℝ C e) (C := K * ‖eta • G‖) (s := segment ℝ e (e - eta • G))
    (fun x hx => (hb (hseg hx)).2.hasFDerivAt.hasFDerivWithinAt) (by
      intro x hx
      have := hK.dist_le_mul x (hb (hseg hx)).1 e (hb f1).1
      rw [dist_eq_norm, dist_eq_norm] at this
      refine this.trans ?_
      gcongr
      have h2 := norm_sub_le_of_mem_segment hx
      simpa using h2) (convex_segment _ _) (left_mem_segment ℝ _ _) (right_mem_segment ℝ _ _)
  have hsub : e - eta • G - e = -(eta • G) := by abel
  have hder : fderiv ℝ C e G = ∑ i, G i ^ 2 := by rw [← hG]; exact fderiv_partials e
  rw [hsub, norm_neg, map_neg, map_smul, hder, smul_eq_mul, norm_smul, Real.norm_eq_abs, Real.norm_eq_abs,
    abs_of_pos f3.1] at hmv
  have hn := norm_sq_le G
  have hmv' := le_of_abs_le hmv
  have hKη : eta * K < 1 := by
    have : eta * (K + 1) < 1 := by
      have := f3.2
      rwa [lt_div_iff₀ (by positivity)] at this
    nlinarith [f3.1]
  have hS : 0 ≤ ∑ i, G i ^ 2 := Finset.sum_nonneg fun i _ => sq_nonneg _
  have hb2 : (K : ℝ) * (eta * ‖G‖) * (eta * ‖G‖) ≤ eta * (eta * K) * ∑ i, G i ^ 2 := by
    have : (K : ℝ) * (eta * ‖G‖) * (eta * ‖G‖) = eta * (eta * K) * ‖G‖ ^ 2 := by ring
    rw [this]
    have hk : (0:ℝ) ≤ K := K.coe_nonneg
    have := f3.1
    gcongr
  have key : C (e - eta • G) ≤ C e - eta * (1 - eta * K) * ∑ i, G i ^ 2 := by nlinarith
  have hfac : 0 < eta * (1 - eta * K) := mul_pos f3.1 (by linarith)
  refine ⟨by nlinarith [mul_nonneg hfac.le hS], fun i hi => ?_⟩
  have hpos : 0 < ∑ i, G i ^ 2 :=
    Finset.sum_pos' (fun i _ => sq_nonneg _) ⟨i, by simp, by positivity⟩
  nlinarith [mul_pos hfac hpos]

/-- The points of gradient descent. -/
def points (s : ι → Prop) [DecidablePred s] (C : (ι → ℝ) → ℝ) (eta : ℝ) (e : ι → ℝ) : Nat → ι → ℝ
  | 0 => e
  | k + 1 => points s C eta e k - eta • partials s C (points s C eta e k)

theorem points_succ (eta : ℝ) (e : ι → ℝ) (k : Nat) :
    points s C eta e (k + 1) = points s C eta (e - eta • partials s C e) k := by
  induction k with
  | zero => rfl
  | succ k ih =>
    show points s C eta e (k + 1) - eta • partials s C (points s C eta e (k + 1)) = _
    rw [ih]
    rfl

theorem points_near {e0 : ι → ℝ} (hC : ContDiffAt ℝ 2 C e0) (k : Nat) :
    Tendsto (fun eta => points s C eta e0 k) (𝓝[>] 0) (𝓝 e0) := by
  induction k with
  | zero => exact tendsto_const_nhds
  | succ k ih =>
    have hp : Tendsto (fun eta : ℝ => partials s C (points s C eta e0 k)) (𝓝[>] 0) (𝓝 (partials s C e0)) :=
      (continuous_partials hC).tendsto.comp ih
    have he : Tendsto (fun eta : ℝ => eta) (𝓝[>] 0) (𝓝 0) := tendsto_id.mono_left nhdsWithin_le_nhds
    have := ih.sub (he.smul hp)
    simpa [points] using this

/-- What holds near `e0` holds at the first points of gradient descent with a small enough rate. -/
theorem eventually_points {e0 : ι → ℝ} (hC : ContDiffAt ℝ 2 C e0) {Q : (ι → ℝ) → Prop}
    (hQ : ∀ᶠ e in 𝓝 e0, Q e) (n : Nat) :
    ∃ δ > 0, ∀ eta : ℝ, 0 < eta → eta < δ → ∀ k ≤ n, Q (points s C eta e0 k) ∧
      (C (points s C eta e0 (k + 1)) ≤ C (points s C eta e0 k) ∧
      ∀ i, partials s C (points s C eta e0 k) i ≠ 0 →
        C (points s C eta e0 (k + 1)) < C (points s C eta e0 k)) := by
  have h : ∀ᶠ eta in 𝓝[>] (0 : ℝ), ∀ k ∈ Finset.range (n + 1), Q (points s C eta e0 k) ∧
      (C (points s C eta e0 (k + 1)) ≤ C (points s C eta e0 k) ∧
      ∀ i, partials s C (points s C eta e0 k) i ≠ 0 →
        C (points s C eta e0 (k + 1)) < C (points s C eta e0 k)) :=
    (Filter.eventually_all_finset _).mpr fun k _ => ((points_near hC k).eventually hQ).and
      (((points_near hC k).prodMk tendsto_id).eventually (small_steps hC))
  obtain ⟨δ, hδ, h6⟩ := mem_nhdsGT_iff_exists_Ioo_subset.mp h
  refine ⟨δ, hδ, fun eta h1 h2 k hk => ?_⟩
  have hh := (h6 ⟨h1, h2⟩)
  exact hh k (by simp; omega)

/-! ### Several functions in turn -/

/-- The points of gradient descent with the functions `Cs` in turn. -/
def walk (s : ι → Prop) [DecidablePred s] (eta : ℝ) : List ((ι → ℝ) → ℝ) → (ι → ℝ) → ι → ℝ
  | [], e => e
  | C :: Cs, e => walk s eta Cs (e - eta • partials s C e)

theorem walk_append (eta : ℝ) (Cs Cs' : List ((ι → ℝ) → ℝ)) (e : ι → ℝ) :
    walk s eta (Cs ++ Cs') e = walk s eta Cs' (walk s eta Cs e) := by
  induction Cs generalizing e with
  | nil => rfl
  | cons C Cs ih => exact ih _

theorem walk_near {e0 : ι → ℝ} : ∀ (Cs : List ((ι → ℝ) → ℝ)), (∀ C ∈ Cs, ContDiffAt ℝ 2 C e0) →
    ∀ (a : ℝ → ι → ℝ), Tendsto a (𝓝[>] 0) (𝓝 e0) →
    Tendsto (fun eta => walk s eta Cs (a eta)) (𝓝[>] 0) (𝓝 e0) := by
  intro Cs
  induction Cs with
  | nil => intro _ a ha; exact ha
  | cons C Cs ih =>
    intro hC a ha
    refine ih (fun C hC' => hC C (by simp [hC'])) _ ?_
    have hp : Tendsto (fun eta : ℝ => partials s C (a eta)) (𝓝[>] 0) (𝓝 (partials s C e0)) :=
      (continuous_partials (hC C (by simp))).tendsto.comp ha
    have he : Tendsto (fun eta : ℝ => eta) (𝓝[>] 0) (𝓝 0) := tendsto_id.mono_left nhdsWithin_le_nhds
    have := ha.sub (he.smul hp)
    simpa using this

theorem walk_slope {e0 : ι → ℝ} : ∀ (Cs : List ((ι → ℝ) → ℝ)), (∀ C ∈ Cs, ContDiffAt ℝ 2 C e0) →
    ∀ (a : ℝ → ι → ℝ) (g : ι → ℝ), Tendsto a (𝓝[>] 0) (𝓝 e0) →
    Tendsto (fun eta : ℝ => eta⁻¹ • (a eta - e0)) (𝓝[>] 0) (𝓝 g) →
    Tendsto (fun eta : ℝ => eta⁻¹ • (walk s eta Cs (a eta) - e0)) (𝓝[>] 0)
      (𝓝 (g - (Cs.map fun C => partials s C e0).sum)) := by
  intro Cs
  induction Cs with
  | nil => intro _ a g _ hg; simpa [walk] using hg
  | cons C Cs ih =>
    intro hC a g ha hg
    have hp : Tendsto (fun eta : ℝ => partials s C (a eta)) (𝓝[>] 0) (𝓝 (partials s C e0)) :=
      (continuous_partials (hC C (by simp))).tendsto.comp ha
    have he : Tendsto (fun eta : ℝ => eta) (𝓝[>] 0) (𝓝 0) := tendsto_id.mono_left nhdsWithin_le_nhds
    have h1 : Tendsto (fun eta : ℝ => a eta - eta • partials s C (a eta)) (𝓝[>] 0) (𝓝 e0) := by
      simpa using ha.sub (he.smul hp)
    have h2 : Tendsto (fun eta : ℝ => eta⁻¹ • (a eta - eta • partials s C (a eta) - e0)) (𝓝[>] 0)
        (𝓝 (g - partials s C e0)) := by
      refine (hg.sub hp).congr' ?_
      filter_upwards [self_mem_nhdsWithin] with eta heta
      have : eta ≠ 0 := ne_of_gt heta
      rw [sub_right_comm, smul_sub _ (a eta - e0), smul_smul, inv_mul_cancel₀ this, one_smul]
    have := ih (fun C hC' => hC C (by simp [hC'])) _ _ h1 h2
    simp only [List.map_cons, List.sum_cons, ← sub_sub]
    exact this

/-- Steps for parts of `C` in turn decrease `C`. -/
theorem walk_descends {e0 : ι → ℝ} {Cs : List ((ι → ℝ) → ℝ)} (hC : ∀ C ∈ Cs, ContDiffAt ℝ 2 C e0)
    {F : (ι → ℝ) → ℝ} (hF : DifferentiableAt ℝ F e0) {N : ℝ} (hN : 0 < N)
    (hs : (Cs.map fun C => partials s C e0).sum = N • partials s F e0) (hne : ∃ i, partials s F e0 i ≠ 0)
    {Q : (ι → ℝ) → Prop} (hQ : ∀ᶠ e in 𝓝 e0, Q e) :
    ∃ δ > 0, ∀ eta : ℝ, 0 < eta → eta < δ → F (walk s eta Cs e0) < F e0 ∧
      ∀ pre, pre <+: Cs → Q (walk s eta pre e0) := by
  obtain ⟨i, hi⟩ := hne
  have hpos : 0 < ∑ i, partials s F e0 i ^ 2 :=
    Finset.sum_pos' (fun i _ => sq_nonneg _) ⟨i, by simp, by positivity⟩
  have h1 := walk_slope (s := s) Cs hC (fun _ => e0) 0 tendsto_const_nhds (by simp)
  have h2 : HasDerivWithinAt (fun eta => if 0 < eta then walk s eta Cs e0 else e0)
      (0 - (Cs.map fun C => partials s C e0).sum) (Set.Ioi 0) 0 := by
    rw [hasDerivWithinAt_iff_tendsto_slope' (by simp)]
    refine h1.congr' ?_
    filter_upwards [self_mem_nhdsWithin] with eta heta
    have : 0 < eta := heta
    simp [slope, this]
  have h3 : HasDerivWithinAt (fun eta => F (if 0 < eta then walk s eta Cs e0 else e0))
      (-(N * ∑ i, partials s F e0 i ^ 2)) (Set.Ioi 0) 0 := by
    have hf : HasFDerivAt F (fderiv ℝ F e0) (if (0 : ℝ) < 0 then walk s 0 Cs e0 else e0) := by
      simpa using hF.hasFDerivAt
    have := hf.comp_hasDerivWithinAt _ h2
    rw [hs, zero_sub, map_neg, map_smul, fderiv_partials, smul_eq_mul] at this
    exact this
  rw [hasDerivWithinAt_iff_tendsto_slope' (by simp)] at h3
  have h4 := h3.eventually_lt_const (u := 0) (by
    have := mul_pos hN hpos
    linarith)
  have h5 : ∀ᶠ eta in 𝓝[>] (0 : ℝ), ∀ k ∈ Finset.range (Cs.length + 1), Q (walk s eta (Cs.take k) e0) :=
    (Filter.eventually_all_finset _).mpr fun k _ =>
      (walk_near (s := s) (Cs.take k) (fun C h => hC C (List.mem_of_mem_take h)) (fun _ => e0)
        tendsto_const_nhds).eventually hQ
  obtain ⟨δ, hδ, h6⟩ := mem_nhdsGT_iff_exists_Ioo_subset.mp (h4.and h5)
  refine ⟨δ, hδ, fun eta a1 a2 => ?_⟩
  obtain ⟨h7, h8⟩ := h6 ⟨a1, a2⟩
  constructor
  · rw [slope_def_field] at h7
    simp only [a1, if_true, lt_irrefl, if_false, sub_zero] at h7
    rcases div_neg_iff.mp h7 with ⟨_, h⟩ | ⟨h, _⟩
    · linarith
    · linarith
  · intro pre hpre
    have := h8 pre.length (by simp; have := hpre.length_le; omega)
    rwa [← List.prefix_iff_eq_take.mp hpre] at this

end

end Verif.Net
