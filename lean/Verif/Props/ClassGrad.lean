import Verif.Props.Finite

/-
C84: the gradient a classifier (softmax with cross-entropy) passes down is prediction minus target.
-/

namespace Verif.Props
open Spec Verif.Float Finset

/-- The computed gradient of the loss. -/
theorem cgrad_loss {R : ℝ → ℝ} {u e G norm g : ℝ} (hR : ∀ x, |R x - x| ≤ u * |x| + e) (hu0 : 0 < u) (he0 : 0 < e)
    (hu1 : u ≤ 1 / 1000) (hee : e ≤ u * u) (hG1 : 1 ≤ G) (hn0 : 0 ≤ norm) (hn1 : norm ≤ 1)
    (hg : g = R (norm * R (-G))) : |g + norm * G| ≤ 3 * u * G ∧ |g| ≤ 1.01 * G := by
  have hq := hR (-G)
  rw [abs_neg, abs_of_pos (by linarith : 0 < G), sub_neg_eq_add] at hq
  generalize R (-G) = q at hq hg
  have hgr := hR (norm * q)
  rw [← hg] at hgr
  have hqa : |q| ≤ G + (u * G + e) := by
    have := abs_sub_abs_le_abs_sub q (-G)
    rw [abs_neg, abs_of_pos (by linarith : 0 < G), sub_neg_eq_add] at this
    linarith
  have hnq : |norm * q| ≤ |q| := by
    rw [abs_mul, abs_of_nonneg hn0]
    have := mul_le_mul_of_nonneg_right hn1 (abs_nonneg q)
    linarith
  have hg1 : |g + norm * G| ≤ 3 * u * G := by
    have e1 : g + norm * G = (g - norm * q) + norm * (q + G) := by ring
    rw [e1]
    refine (abs_add_le _ _).trans ?_
    rw [abs_mul, abs_of_nonneg hn0]
    have h1 : norm * |q + G| ≤ 1 * (u * G + e) := mul_le_mul hn1 hq (abs_nonneg _) zero_le_one
    have h2 : |g - norm * q| ≤ u * (G + (u * G + e)) + e := by
      refine hgr.trans ?_
      have := mul_le_mul_of_nonneg_left (hnq.trans hqa) hu0.le
      linarith
    have h3 : u * u ≤ u * (1 / 1000) := mul_le_mul_of_nonneg_left hu1 hu0.le
    have h4 : u * 1 ≤ u * G := mul_le_mul_of_nonneg_left hG1 hu0.le
    have h5 : u * (u * G) ≤ 1 / 1000 * (u * G) := mul_le_mul_of_nonneg_right hu1 (by positivity)
    have h6 : u * e ≤ 1 / 1000 * e := mul_le_mul_of_nonneg_right hu1 he0.le
    linarith
  refine ⟨hg1, ?_⟩
  have := abs_sub_abs_le_abs_sub g (-(norm * G))
  rw [abs_neg, sub_neg_eq_add, abs_of_nonneg (mul_nonneg hn0 (by linarith))] at this
  have h1 : norm * G ≤ 1 * G := mul_le_mul_of_nonneg_right hn1 (by linarith)
  have h2 : u * G ≤ 1 / 1000 * G := mul_le_mul_of_nonneg_right hu1 (by linarith)
  linarith

/-- The exact factor of the gradient of the softmax, and the first rounding. -/
theorem cgrad_factor {R : ℝ → ℝ} {u e p a yi norm G : ℝ} (hR : ∀ x, |R x - x| ≤ u * |x| + e) (hu0 : 0 < u)
    (he0 : 0 < e) (hp0 : 0 < p) (hp1 : p ≤ 1) (hGp : G * p = 1) (hy0 : 0 ≤ yi) (hy1 : yi ≤ 1)
    (ha : a = 0 ∨ a = 1 ∧ yi = p) : |yi * (a - p)| ≤ p ∧ |yi * R (a - p) - yi * (a - p)| ≤ u * p + e ∧
      yi * (a - p) * -(norm * G) = norm * (yi - a) := by
  have h1 := hR (a - p)
  have e1 : yi * R (a - p) - yi * (a - p) = yi * (R (a - p) - (a - p)) := by ring
  rw [e1, abs_mul, abs_mul, abs_of_nonneg hy0]
  have e2 : yi * (a - p) * -(norm * G) = -norm * yi * (a * G - G * p) := by ring
  rw [e2, hGp]
  have hye : yi * e ≤ 1 * e := mul_le_mul_of_nonneg_right hy1 he0.le
  rcases ha with rfl | ⟨rfl, rfl⟩
  · rw [zero_sub, abs_neg, abs_of_pos hp0] at h1 ⊢
    have h2 : yi * p ≤ 1 * p := mul_le_mul_of_nonneg_right hy1 hp0.le
    refine ⟨by linarith, ?_, by ring⟩
    refine (mul_le_mul_of_nonneg_left h1 hy0).trans ?_
    have h3 : yi * (u * p) ≤ 1 * (u * p) := mul_le_mul_of_nonneg_right hy1 (by positivity)
    linarith
  · rw [abs_of_nonneg (by linarith : (0 : ℝ) ≤ 1 - yi)] at h1 ⊢
    have h2 : yi * (1 - yi) ≤ yi * 1 := mul_le_mul_of_nonneg_left (by linarith) hy0
    refine ⟨by linarith, ?_, ?_⟩
    · refine (mul_le_mul_of_nonneg_left h1 hy0).trans ?_
      have h3 : u * (yi * (1 - yi)) ≤ u * (yi * 1) := mul_le_mul_of_nonneg_left h2 hu0.le
      linarith
    · have : yi * G = 1 := by rw [mul_comm]; exact hGp
      calc -norm * yi * (1 * G - 1) = -norm * (yi * G) + norm * yi := by ring
        _ = norm * (yi - 1) := by rw [this]; ring

/-- The error analysis of one element of the gradient, for any rounding `R`: `p` the prediction of the target class,
`yi` the prediction of class `i`, `a` one or zero. -/
theorem cgrad_abs {R : ℝ → ℝ} {u e p a yi norm g : ℝ} (hR : ∀ x, |R x - x| ≤ u * |x| + e) (hu0 : 0 < u) (he0 : 0 < e)
    (hu1 : u ≤ 1 / 1000) (heu : e ≤ u * p) (hee : e ≤ u * u) (hp0 : 0 < p) (hp1 : p ≤ 1) (hn0 : 0 ≤ norm)
    (hn1 : norm ≤ 1) (hg : g = R (norm * R (-1 / p))) (hy0 : 0 ≤ yi) (hy1 : yi ≤ 1)
    (ha : a = 0 ∨ a = 1 ∧ yi = p) : |R (R (yi * R (a - p)) * g) - norm * (yi - a)| ≤ 16 * u := by
  have heu' : e ≤ u := by
    have := mul_le_mul_of_nonneg_left hp1 hu0.le
    linarith
  have hGp : 1 / p * p = 1 := by field_simp
  have hG0 : 0 < 1 / p := by positivity
  rw [show -1 / p = -(1 / p) by ring] at hg
  generalize 1 / p = G at hGp hG0 hg
  have hG1 : 1 ≤ G := by
    have := mul_le_mul_of_nonneg_left hp1 hG0.le
    linarith
  have heG : e * G ≤ u := by
    have := mul_le_mul_of_nonneg_right heu hG0.le
    have e1 : u * p * G = u * (G * p) := by ring
    rw [e1, hGp] at this
    linarith
  obtain ⟨hg1, hga⟩ := cgrad_loss hR hu0 he0 hu1 hee hG1 hn0 hn1 hg
  obtain ⟨hX, hW, hT⟩ := cgrad_factor (norm := norm) hR hu0 he0 hp0 hp1 hGp hy0 hy1 ha
  generalize yi * (a - p) = X at hX hW hT
  generalize yi * R (a - p) = W at hW ⊢
  have hWa : |W| ≤ p + (u * p + e) := by
    have := abs_sub_abs_le_abs_sub W X
    linarith
  have hp2 := hR W
  generalize R W = p2 at hp2 ⊢
  have hp2X : |p2 - X| ≤ 2.1 * u * p + 2.1 * e := by
    have e1 : p2 - X = (p2 - W) + (W - X) := by ring
    rw [e1]
    refine (abs_add_le _ _).trans ?_
    have h1 := mul_le_mul_of_nonneg_left hWa hu0.le
    have h2 : u * (u * p) ≤ 1 / 1000 * (u * p) := mul_le_mul_of_nonneg_right hu1 (by positivity)
    have h3 : u * e ≤ 1 / 1000 * e := mul_le_mul_of_nonneg_right hu1 he0.le
    have h4 : 0 < u * p := by positivity
    linarith
  have hprod : |p2 * g - norm * (yi - a)| ≤ 8 * u := by
    rw [← hT]
    have e1 : p2 * g - X * -(norm * G) = (p2 - X) * g + X * (g + norm * G) := by ring
    rw [e1]
    refine (abs_add_le _ _).trans ?_
    rw [abs_mul, abs_mul]
    have h1 : |p2 - X| * |g| ≤ (2.1 * u * p + 2.1 * e) * (1.01 * G) :=
      mul_le_mul hp2X hga (abs_nonneg _) (by positivity)
    have h2 : |X| * |g + norm * G| ≤ p * (3 * u * G) := mul_le_mul hX hg1 (abs_nonneg _) hp0.le
    have e2 : (2.1 * u * p + 2.1 * e) * (1.01 * G) = 2.121 * u * (G * p) + 2.121 * (e * G) := by ring
    have e3 : p * (3 * u * G) = 3 * u * (G * p) := by ring
    rw [e2, hGp] at h1
    rw [e3, hGp] at h2
    linarith
  have hTa : |norm * (yi - a)| ≤ 1 := by
    rw [abs_mul, abs_of_nonneg hn0]
    have : |yi - a| ≤ 1 := by
      rw [abs_le]
      rcases ha with rfl | ⟨rfl, rfl⟩ <;> constructor <;> linarith
    have h1 := mul_le_mul hn1 this (abs_nonneg _) zero_le_one
    linarith
  have hpa : |p2 * g| ≤ 1 + 8 * u := by
    have := abs_sub_abs_le_abs_sub (p2 * g) (norm * (yi - a))
    linarith
  have hp3 := hR (p2 * g)
  generalize R (p2 * g) = r at hp3 ⊢
  have e1 : r - norm * (yi - a) = (r - p2 * g) + (p2 * g - norm * (yi - a)) := by ring
  rw [e1]
  refine (abs_add_le _ _).trans ?_
  have h1 := mul_le_mul_of_nonneg_left hpa hu0.le
  have h2 : u * (8 * u) ≤ 1 / 1000 * (8 * u) := mul_le_mul_of_nonneg_right hu1 (by linarith)
  linarith

theorem cgrad_err {p a yi norm g : ℝ} (hp : Loss.numMin ≤ p) (hp1 : p ≤ 1) (hn0 : 0 ≤ norm) (hn1 : norm ≤ 1)
    (hg : g = double.rnd (norm * double.rnd (-1 / p))) (hy0 : 0 ≤ yi) (hy1 : yi ≤ 1)
    (ha : a = 0 ∨ a = 1 ∧ yi = p) : |cgrad p a yi g - norm * (yi - a)| ≤ 2 ^ (-49 : ℤ) := by
  have hmin : (0 : ℝ) < Loss.numMin := by rw [numMin_pow]; positivity
  have hgoal : (2 : ℝ) ^ (-49 : ℤ) = 16 * double.u := by rw [double_u]; norm_num
  rw [hgoal]
  refine cgrad_abs double.err (by rw [double_u]; positivity) (by rw [double_e]; positivity)
    (by rw [double_u]; norm_num) ?_ ?_ (by linarith) hp1 hn0 hn1 hg hy0 hy1 ha
  · have : double.e = double.u * Loss.numMin := by
      rw [double_e, double_u, numMin_pow, ← zpow_add₀ (by norm_num)]
      norm_num
    rw [this]
    exact mul_le_mul_of_nonneg_left hp double.u_nonneg
  · rw [double_e, double_u, ← zpow_add₀ (by norm_num)]
    exact zpow_le_zpow_right₀ (by norm_num) (by norm_num)

/-- C84: the gradient of a classifier with `double`: if the softmax outputs are `z` and the probability given to the
target class is not below the smallest normal number, the gradient passed down is `norm * (z - y)` up to `2^-49`. -/
theorem C84_float_partial (d1 d2 : List (Fl double)) (z y : List ℝ) (norm : ℝ) (n c : Nat)
    (hd1 : d1.length = n) (hd2 : d2.length = n) (hz : z.length = n) (hy : OneHot y n c)
    (hz1 : ∀ i, i < n → 0 ≤ vec z i ∧ vec z i ≤ 1) (hn0 : 0 ≤ norm) (hn1 : norm ≤ 1)
    (hp : Loss.numMin ≤ vec z c) :
    ∃ g d, crossEntropy1F d1 (fins double y) (fins double z) (.fin norm) n
        = .ok (fins double g) ∧
      softmax1OptF d2 (fins double z) (fins double g) n = .ok (fins double d) ∧ d.length = n ∧
      ∀ i, i < n → |vec d i - norm * (vec z i - vec y i)| ≤ 2 ^ (-49 : ℤ) := by
  obtain ⟨g, d, h1, h2, h3, h4, h5, h6, -⟩ := classifier_gradient d1 d2 z y norm n c hd1 hd2 hz hy hz1 hn0 hn1
  refine ⟨g, d, h1, h2, h4, fun i hi => ?_⟩
  obtain ⟨-, hc, hy1⟩ := hy
  have hm : Loss.stdMax (vec z c) Loss.numMin = vec z c := by
    unfold Loss.stdMax
    rw [if_neg (not_lt.mpr hp)]
  rw [hm] at h5
  rw [h6 i hi, hy1 i hi]
  refine cgrad_err hp (hz1 c hc).2 hn0 hn1 h5 (hz1 i hi).1 (hz1 i hi).2 ?_
  by_cases hic : i = c
  · right
    rw [if_pos hic, hic]
    exact ⟨rfl, rfl⟩
  · left
    rw [if_neg hic]

/-- What C84 says about one classifier: for the logits `x` the gradient passed down is the exact `norm * (prediction -
target)` within a tenth of `norm`. -/
def C84Claim (L : Lib double) : Prop :=
  ∀ (x y : List ℝ) (norm : ℝ) (n c : Nat), x.length = n → OneHot y n c → 0 < norm → norm ≤ 1 →
    ∃ z g d, stableSoftmaxF L (List.replicate n 0) (fins double x) n = .ok (fins double z) ∧
      crossEntropy1F (List.replicate n 0) (fins double y) (fins double z) (.fin norm) n = .ok (fins double g) ∧
      softmax1OptF (List.replicate n 0) (fins double z) (fins double g) n = .ok (fins double d) ∧
      ∀ i, i < n → |vec d i - norm * (softmaxFn n (vec x) i - vec y i)| ≤ norm / 10

/-- C84: if the prediction of the target class is zero, the gradient passed down is zero in all components, whatever
the other predictions are. -/
theorem C84_vanishing_actual (d1 d2 : List (Fl double)) (z y : List ℝ) (norm : ℝ) (n c : Nat)
    (hd1 : d1.length = n) (hd2 : d2.length = n) (hz : z.length = n) (hy : OneHot y n c)
    (hz1 : ∀ i, i < n → 0 ≤ vec z i ∧ vec z i ≤ 1) (hn0 : 0 ≤ norm) (hn1 : norm ≤ 1) (hp : vec z c = 0) :
    ∃ g, crossEntropy1F d1 (fins double y) (fins double z) (.fin norm) n
        = .ok (fins double g) ∧
      softmax1OptF d2 (fins double z) (fins double g) n
        = .ok (fins double (List.replicate n 0)) := by
  obtain ⟨g, d, h1, h2, h3, h4, h5, h6, -⟩ := classifier_gradient d1 d2 z y norm n c hd1 hd2 hz hy hz1 hn0 hn1
  refine ⟨g, h1, ?_⟩
  rw [h2]
  congr 2
  apply List.ext_getElem?
  intro i
  by_cases hi : i < n
  · rw [getElem?_vec (by omega), h6 i hi, List.getElem?_replicate, if_pos hi]
    congr 1
    unfold cgrad
    by_cases hic : i = c
    · rw [hic, hp, zero_mul, Arith.zero, zero_mul, Arith.zero]
    · rw [if_neg hic, hp, sub_zero, Arith.zero, mul_zero, Arith.zero, zero_mul, Arith.zero]
  · rw [List.getElem?_eq_none (by omega), List.getElem?_eq_none (by simp; omega)]

/-- Numbers below half of the smallest positive number are rounded to zero. -/
theorem double_underflow {x : ℝ} (h0 : 0 ≤ x) (h : x < 2 ^ (-1075 : ℤ)) : double.rnd x = 0 := by
  have h1 : |double.rnd x - x| ≤ |0 - x| := round_best (B := binary64) x double.zero
  rw [zero_sub, abs_neg, abs_of_nonneg h0] at h1
  obtain ⟨m, k, -, hk, e⟩ := round_format (B := binary64) x
  have e' : double.rnd x = m * 2 ^ k := e
  have hn := rnd_nonneg (A := double) h0
  have h2 : double.rnd x < 2 ^ (-1074 : ℤ) := by
    have h3 := (abs_le.mp h1).2
    have h4 : (2 : ℝ) ^ (-1074 : ℤ) = 2 ^ (-1075 : ℤ) + 2 ^ (-1075 : ℤ) := by
      rw [show (-1074 : ℤ) = 1 + -1075 by norm_num, zpow_add₀ (by norm_num), zpow_one]
      ring
    rw [h4]
    calc double.rnd x ≤ x + x := by linarith
      _ < _ := add_lt_add h h
  by_contra hne
  have hpos : 0 < double.rnd x := lt_of_le_of_ne hn (Ne.symm hne)
  have h2k : (0 : ℝ) < 2 ^ k := by positivity
  have hm : 1 ≤ m := by
    by_contra hm
    have : (m : ℝ) ≤ 0 := by exact_mod_cast (by omega : m ≤ 0)
    rw [e'] at hpos
    have := mul_nonpos_of_nonpos_of_nonneg this h2k.le
    linarith
  have hm' : (1 : ℝ) ≤ m := by exact_mod_cast hm
  have h3 : (2 : ℝ) ^ (-1074 : ℤ) ≤ 2 ^ k := zpow_le_zpow_right₀ (by norm_num) hk
  have h4 : (2 : ℝ) ^ k ≤ m * 2 ^ k := le_mul_of_one_le_left h2k.le hm'
  rw [e'] at h2
  exact absurd (h3.trans h4) (not_le.mpr h2)

theorem exp_underflow : double.rnd (Real.exp (-2000)) = 0 := by
  refine double_underflow (Real.exp_pos _).le ?_
  have h1 : (2 : ℝ) ^ 2000 ≤ Real.exp 2000 := by
    have : Real.exp 2000 = Real.exp 1 ^ 2000 := by
      rw [← Real.exp_nat_mul]
      norm_num
    rw [this]
    refine pow_le_pow_left₀ (by norm_num) ?_ _
    linarith [Real.add_one_le_exp 1]
  rw [Real.exp_neg, show (-1075 : ℤ) = -(1075 : ℕ) by norm_num, zpow_neg, zpow_natCast]
  have h2 : (2 : ℝ) ^ 1075 < 2 ^ 2000 := pow_lt_pow_right₀ (by norm_num) (by norm_num)
  exact inv_strictAnti₀ (by positivity) (lt_of_lt_of_le h2 h1)

/-- C84 is false: if the exponential of the target's logit minus the largest logit underflows, the gradient is zero
in all components although the prediction is as wrong as it can be.  Here the logits are `0` and `-2000` and the
second class is the target. -/
theorem C84_refuted : ¬ C84Claim (Lib.correct double) := by
  intro h
  have hy : OneHot [0, 1] 2 1 := by
    refine ⟨rfl, by norm_num, fun i hi => ?_⟩
    interval_cases i <;> simp [vec]
  obtain ⟨z', g', d', a1, a2, a3, a4⟩ := h [0, -2000] [0, 1] 1 2 1 rfl hy one_pos le_rfl
  obtain ⟨v, S, inv, z, -, -, -, -, -, h1, h2, h3⟩ :=
    stable_finite (Lib.correct double) (dst := List.replicate 2 0) (x := [0, -2000]) (n := 2) (by simp) (by norm_num) (by simp)
  obtain ⟨-, h4⟩ := h3 0 (by norm_num) (fun j hj => by interval_cases j <;> simp [vec])
  have hx : double.rnd (-2000) = -2000 := by
    have := double_exact (m := -2000) (k := 0) (by norm_num) (by norm_num)
    simpa using this
  have hb : (2000 : ℝ) < double.big := by
    rw [double_big]
    calc (2000 : ℝ) < 2 ^ (11 : ℤ) := by norm_num
      _ ≤ 2 ^ (1024 : ℤ) := zpow_le_zpow_right₀ (by norm_num) (by norm_num)
  have hv : v 1 = 0 := by
    have h5 := h4 1 (by norm_num)
    have e1 : (.fin (vec [0, -2000] 1) - .fin (vec [(0 : ℝ), -2000] 0) : Fl double) = .fin (-2000) := by
      rw [fl_sub]
      show Fl.round double (-2000 - 0) = _
      unfold Fl.round
      rw [sub_zero, hx, if_pos]
      rw [abs_neg, abs_of_pos (by norm_num)]
      exact hb
    rw [e1] at h5
    have e2 : (Lib.correct double).expF (.fin (-2000)) = .fin (double.rnd (Real.exp (-2000))) := by
      show (if |double.rnd (Real.exp (-2000))| < _ then _ else _) = _
      rw [if_pos]
      · rfl
      · rw [exp_underflow, abs_zero]
        linarith
    rw [e2, exp_underflow] at h5
    injection h5 with h5
    exact h5.symm
  have hz : z' = tab 2 z := by
    rw [h1] at a1
    injection a1 with a1
    have inj : Function.Injective (Fl.fin : ℝ → Fl double) := fun a b h => by injection h
    exact (List.map_injective_iff.mpr inj a1).symm
  subst hz
  obtain ⟨g, b1, b2⟩ := C84_vanishing_actual (List.replicate 2 0) (List.replicate 2 0) (tab 2 z) [0, 1] 1 2 1
    (by simp) (by simp) (by simp) hy
    (fun i hi => by rw [vec_tab _ hi]; exact (h2 i hi).2.2.2) zero_le_one le_rfl (by
      rw [vec_tab _ (by norm_num), (h2 1 (by norm_num)).2.2.1, hv, zero_mul, Arith.zero])
  have hg : fins double g' = fins double g := by
    rw [b1] at a2
    injection a2 with a2
    exact a2.symm
  rw [hg, b2] at a3
  injection a3 with a3
  have inj : Function.Injective (Fl.fin : ℝ → Fl double) := fun a b h => by injection h
  have hd : d' = List.replicate 2 0 := (List.map_injective_iff.mpr inj a3).symm
  have := a4 1 (by norm_num)
  rw [hd] at this
  have hs : softmaxFn 2 (vec [0, -2000]) 1 ≤ 1 / 2 := by
    unfold softmaxFn
    rw [sum_range_succ, sum_range_one]
    have e0 : vec [(0 : ℝ), -2000] 0 = 0 := rfl
    have e1 : vec [(0 : ℝ), -2000] 1 = -2000 := rfl
    rw [e0, e1, Real.exp_zero]
    have p := Real.exp_pos (-2000)
    have q : Real.exp (-2000) ≤ 1 := Real.exp_le_one_iff.mpr (by norm_num)
    rw [div_le_iff₀ (by linarith)]
    linarith
  have e2 : vec (List.replicate 2 (0 : ℝ)) 1 = 0 := rfl
  have e3 : vec [(0 : ℝ), 1] 1 = 1 := rfl
  rw [e2, e3, one_mul] at this
  have := (abs_le.mp this).2
  linarith

/-- C84 in exact arithmetic: if the predictions of the classes with a target are not below the smallest normal number
and the targets add up to one, the gradient passed down is `norm * (z - y)`. -/
theorem C84_exact_partial (d1 d2 z y : List ℝ) (norm : ℝ) (n : Nat) (hd1 : d1.length = n) (hd2 : d2.length = n)
    (hz : z.length = n) (hy : y.length = n) (hsum : ∑ j ∈ range n, vec y j = 1) (hp : ∀ j, j < n → vec y j ≠ 0 → Loss.numMin ≤ vec z j) :
    ∃ g d, Loss.crossEntropy1 d1 y z norm n = .ok g ∧
      Act.softmax1OptNoCheck d2 z g n = .ok d ∧ d.length = n ∧
      ∀ i, i < n → vec d i = norm * (vec z i - vec y i) := by
  have hmin : (0 : ℝ) < Loss.numMin := by rw [numMin_pow]; positivity
  refine ⟨_, _, Loss.crossEntropy1_eq hd1 (by omega) (by omega),
    Act.softmax1Opt_eq hd2 (by omega) (by simp), by simp, fun i hi => ?_⟩
  rw [vec_tab _ hi]
  have key : ∀ j ∈ range n, vec z i * ((if i = j then 1 else 0) - vec z j)
      * vec (tab n fun i => norm * (-vec y i / max (vec z i) Loss.numMin)) j
      = (if i = j then -(norm * vec y j) else 0) + norm * vec z i * vec y j := by
    intro j hj
    have hj : j < n := by simpa using hj
    rw [vec_tab _ hj]
    by_cases h0 : vec y j = 0
    · rw [h0]
      split <;> simp
    · have hpj := hp j hj h0
      have hz0 : vec z j ≠ 0 := by linarith
      rw [max_eq_left hpj]
      by_cases hij : i = j
      · subst hij
        rw [if_pos rfl, if_pos rfl]
        field_simp
        ring
      · rw [if_neg hij, if_neg hij]
        field_simp
        ring
  rw [sum_congr rfl key, sum_add_distrib, sum_ite_eq, if_pos (by simpa using hi), ← mul_sum, hsum]
  ring

/-- C84 in exact arithmetic fails for every prediction of the target class below the smallest normal number. -/
theorem C84_exact_refuted (d1 d2 z y : List ℝ) (norm : ℝ) (n c : Nat) (hd1 : d1.length = n)
    (hd2 : d2.length = n) (hz : z.length = n) (hy : OneHot y n c)
    (hn : 0 < norm) (hz1 : vec z c < Loss.numMin) :
    ∃ g d, Loss.crossEntropy1 d1 y z norm n = .ok g ∧
      Act.softmax1OptNoCheck d2 z g n = .ok d ∧
      vec d c ≠ norm * (vec z c - vec y c) := by
  obtain ⟨hyl, hc, hy1⟩ := hy
  have hmin : (0 : ℝ) < Loss.numMin := by rw [numMin_pow]; positivity
  have hmin1 : Loss.numMin ≤ 1 := by
    rw [numMin_pow]
    exact zpow_le_one_of_nonpos₀ (by norm_num) (by norm_num)
  refine ⟨_, _, Loss.crossEntropy1_eq hd1 (by omega) (by omega),
    Act.softmax1Opt_eq hd2 (by omega) (by simp), ?_⟩
  rw [vec_tab _ hc, sum_eq_single c]
  · rw [if_pos rfl, vec_tab _ hc, hy1 c hc, if_pos rfl, max_eq_right hz1.le]
    intro h
    have h2 : vec z c * (1 - vec z c) * (norm * (-1 / Loss.numMin)) * Loss.numMin
        = norm * (vec z c - 1) * Loss.numMin := by rw [h]
    have h3 : vec z c * (1 - vec z c) * (norm * (-1 / Loss.numMin)) * Loss.numMin
        = -(norm * (1 - vec z c)) * vec z c := by
      field_simp
    rw [h3] at h2
    have h4 : norm * (1 - vec z c) * (Loss.numMin - vec z c) = 0 := by linarith
    have h5 : 0 < norm * (1 - vec z c) * (Loss.numMin - vec z c) := by
      apply mul_pos (mul_pos hn (by linarith)) (by linarith)
    linarith
  · intro j hj hjc
    have hj : j < n := by simpa using hj
    rw [vec_tab _ hj, hy1 j hj, if_neg hjc]
    simp
  · intro h
    exact absurd (by simpa using hc) h

/-- Predictions and a target for which the gradient is right. -/
example : Loss.numMin ≤ vec [1/4, 3/4] 0 ∧ ∑ j ∈ range 2, vec [(1 : ℝ), 0] j = 1 := by
  constructor
  · rw [numMin_pow]
    calc (2 : ℝ) ^ (-1022 : ℤ) ≤ 2 ^ (-2 : ℤ) := zpow_le_zpow_right₀ (by norm_num) (by norm_num)
      _ = vec [1/4, 3/4] 0 := by simp [vec]; norm_num
  · simp [sum_range_succ, vec]

end Verif.Props
