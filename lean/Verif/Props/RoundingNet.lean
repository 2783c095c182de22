import Verif.Proofs.NearChain
import Verif.Props.Rounding
import Mathlib.Analysis.SpecialFunctions.Exponential
import Mathlib.Tactic.IntervalCases

/-
C82, continued: whole networks, the bounds for `double` in plain numbers, and integer data.
-/

namespace Verif.Props
open Spec Verif.Float Finset Dense Filter

/-- C82: a whole network.  For every chain of layers that fit together, all parameters and every input, the
floating-point forward pass returns finite numbers as close to the exact output as wanted, provided the format is
precise enough. -/
theorem C82_network (ss : List Stage) (n m : Nat) (hs : ChainFits ss n m) (x : List ℝ) (hx : x.length = n) :
    ∃ y, runAll ss x = .ok y ∧ y.length = m ∧ ∀ ε > 0, ∃ δ > 0, ∀ (A : Arith) (L : Lib A), Precise A L δ →
      ∃ z, runAllF L ss (fins A x) = .ok (fins A z) ∧ z.length = m ∧
        ∀ j, j < m → |vec z j - vec y j| < ε := by
  obtain ⟨y, h1, h2, Y, h3, h4, h5⟩ := tracks_chain fine_isFine hs (X := fun f => fins f.A x) hx (nearL_fins x)
  refine ⟨y, h1, h2, fun ε hε => ?_⟩
  have key : ∀ᶠ f : Format in fine, ∀ j ∈ range m, ∃ t, vec (Y f) j = .fin t ∧ |t - vec y j| < ε := by
    rw [Finset.eventually_all]
    intro j hj
    have hj : j < m := by simpa using hj
    obtain ⟨s, hf, hl⟩ := h5 j (by omega)
    filter_upwards [hf, (Metric.tendsto_nhds.mp hl) ε hε] with f e1 e2
    exact ⟨s f, e1, by simpa [Real.dist_eq] using e2⟩
  obtain ⟨δ, hδ, hP⟩ := eventually_fine (key.and (h3.and h4))
  refine ⟨δ, hδ, fun A L hL => ?_⟩
  obtain ⟨k1, k2, k3⟩ := hP ⟨A, L⟩ hL
  have k1' : ∀ j, ∃ t, j < m → vec (Y ⟨A, L⟩) j = .fin t ∧ |t - vec y j| < ε := fun j => by
    by_cases hj : j < m
    · obtain ⟨t, h⟩ := k1 j (by simpa using hj)
      exact ⟨t, fun _ => h⟩
    · exact ⟨0, fun h => absurd h hj⟩
  choose t ht using k1'
  refine ⟨tab m t, ?_, by simp, fun j hj => by rw [vec_tab t hj]; exact (ht j hj).2⟩
  rw [show runAllF L ss (fins A x) = _ from k2]
  congr 1
  have hl : (Y ⟨A, L⟩).length = m := by omega
  apply List.ext_getElem?
  intro j
  by_cases hj : j < m
  · rw [getElem?_vec (by omega), (ht j hj).1, fins, List.getElem?_map, tab_getElem? _ hj]
    rfl
  · rw [List.getElem?_eq_none (by omega), List.getElem?_eq_none (by simp [fins]; omega)]

/-- Formats of any precision exist, with a library that rounds correctly. -/
theorem precise_exists (δ : ℝ) (hδ : 0 < δ) : ∃ (A : Arith) (L : Lib A), Precise A L δ := by
  obtain ⟨p, hp⟩ := exists_pow_lt_of_lt_one hδ (by norm_num : (1 / 2 : ℝ) < 1)
  obtain ⟨q, hq⟩ := pow_unbounded_of_one_lt (1 / δ) (by norm_num : (1 : ℝ) < 2)
  have hp' : (2 : ℝ) ^ (-(p + 1 : ℕ) : ℤ) ≤ δ := by
    rw [zpow_neg, zpow_natCast, pow_succ, ← one_div]
    rw [one_div_pow] at hp
    have : 1 / ((2 : ℝ) ^ p * 2) ≤ 1 / 2 ^ p := one_div_le_one_div_of_le (by positivity)
      (by have : (0 : ℝ) < 2 ^ p := by positivity
          linarith)
    linarith
  let B : Bin := ⟨p + 1, -p, q + 1, by omega, by omega, by omega⟩
  refine ⟨B.arith, Lib.correct _, ⟨hp', ?_, hp', ?_⟩⟩
  · show (2 : ℝ) ^ (-(p : ℤ) - 1) ≤ δ
    rw [show (-(p : ℤ) - 1) = -(p + 1 : ℕ) by push_cast; ring]
    exact hp'
  · show 1 / δ ≤ (2 : ℝ) ^ ((q + 1 : ℕ) : ℤ)
    rw [zpow_natCast, pow_succ]
    have : (0 : ℝ) < 2 ^ q := by positivity
    linarith

/-- A chain of a convolution, a pooling and a dense layer with a softmax at the end fits. -/
example : ChainFits [.conv ⟨3, 3, 1⟩ ⟨2, 2⟩ 1 ⟨1, 1⟩ ⟨0, 0⟩ 4 [1, 2, 3, 4], .relu 4, .maxPool ⟨2, 2, 1⟩ ⟨1, 2⟩ ⟨1, 1⟩ 2,
    .dense 2 2 [1, -1, 2, 0] [0, 1], .tanh 2, .softmax 2] 9 2 := by
  refine ⟨4, ⟨⟨⟨3, 3, 1⟩, 2, 2, 1, 1, 0, 0⟩, ?_, rfl, rfl, rfl, rfl, rfl, rfl, by decide, rfl⟩, 4, ⟨rfl, rfl⟩, 2,
    ⟨⟨⟨2, 2, 1⟩, 1, 2, 1, 1, 0, 0⟩, ?_, ⟨rfl, rfl⟩, rfl, rfl, rfl, rfl, rfl, by decide⟩, 2, ⟨rfl, rfl, rfl, rfl⟩, 2,
    ⟨rfl, rfl⟩, 2, ⟨rfl, rfl, by norm_num⟩, rfl⟩
  all_goals constructor <;> decide

/-! ### The bounds for `double` -/

theorem pow_le_two {u : ℝ} (hu : 0 ≤ u) {k : Nat} (h : k * u ≤ 1) : (1 + u) ^ k ≤ 1 + 2 * (k * u) := by
  have h1 : (1 + u) ^ k ≤ Real.exp (k * u) := by
    rw [Real.exp_nat_mul]
    refine pow_le_pow_left₀ (by linarith) ?_ k
    linarith [Real.add_one_le_exp u]
  have h0 : 0 ≤ k * u := by positivity
  have h2 := Real.abs_exp_sub_one_le (x := k * u) (by rw [abs_of_nonneg h0]; exact h)
  rw [abs_of_nonneg h0] at h2
  linarith [(abs_le.mp h2).2]

theorem sumErr_double {n : Nat} {M : ℝ} (hn : n < 2 ^ 50) (hM : 0 ≤ M) :
    sumErr double n M ≤ (n + 1) * 2 ^ (-52 : ℤ) * M + n * 2 ^ (-1073 : ℤ) := by
  have hu : double.u = 2 ^ (-53 : ℤ) := C82_double.1
  have he : double.e = 2 ^ (-1075 : ℤ) := C82_double.2.1
  have hn' : (n : ℝ) + 1 ≤ 2 ^ 50 := by exact_mod_cast hn
  have h1 : ((n + 1 : ℕ) : ℝ) * double.u ≤ 1 := by
    rw [hu]; push_cast
    calc ((n : ℝ) + 1) * 2 ^ (-53 : ℤ) ≤ 2 ^ 50 * 2 ^ (-53 : ℤ) := by gcongr
      _ ≤ 1 := by norm_num
  have h2 := pow_le_two double.u_nonneg h1
  have h3 : (1 + double.u) ^ n ≤ 2 := by
    have : (1 + double.u) ^ n ≤ (1 + double.u) ^ (n + 1) :=
      pow_le_pow_right₀ (by linarith [double.u_nonneg]) (by omega)
    have h4 : ((n + 1 : ℕ) : ℝ) * double.u ≤ 1 / 2 := by
      rw [hu]; push_cast
      calc ((n : ℝ) + 1) * 2 ^ (-53 : ℤ) ≤ 2 ^ 50 * 2 ^ (-53 : ℤ) := by gcongr
        _ ≤ 1 / 2 := by norm_num
    linarith
  unfold sumErr
  have e1 : (1 + double.u) ^ (n + 1) - 1 ≤ (n + 1) * 2 ^ (-52 : ℤ) := by
    rw [hu] at h2 ⊢
    push_cast at h2
    have : (2 : ℝ) ^ (-52 : ℤ) = 2 * 2 ^ (-53 : ℤ) := by norm_num
    rw [this]; linarith
  have e2 : 2 * n * (1 + double.u) ^ n * double.e ≤ n * 2 ^ (-1073 : ℤ) := by
    have : (2 : ℝ) ^ (-1073 : ℤ) = 4 * 2 ^ (-1075 : ℤ) := by
      rw [show (-1073 : ℤ) = 2 + -1075 by norm_num, zpow_add₀ (by norm_num)]; norm_num
    rw [he, this]
    have hp : (0 : ℝ) < 2 ^ (-1075 : ℤ) := by positivity
    calc 2 * (n : ℝ) * (1 + double.u) ^ n * 2 ^ (-1075 : ℤ) ≤ 2 * n * 2 * 2 ^ (-1075 : ℤ) := by gcongr
      _ = n * (4 * 2 ^ (-1075 : ℤ)) := by ring
  have := mul_le_mul_of_nonneg_right e1 hM
  linarith

theorem denseMag_nonneg (w b x : List ℝ) (n i : Nat) : 0 ≤ denseMag w b x n i :=
  add_nonneg (abs_nonneg _) (Finset.sum_nonneg fun _ _ => abs_nonneg _)

/-- Magnitudes up to `2^1000` leave room below the overflow threshold of `double`. -/
theorem sumErr_double_lt {n : Nat} {M : ℝ} (hn : n < 2 ^ 50) (h0 : 0 ≤ M) (hM : M ≤ 2 ^ 1000) :
    M + sumErr double n M < double.big := by
  have h := sumErr_double hn h0
  have hn' : (n : ℝ) + 1 ≤ 2 ^ 50 := by exact_mod_cast hn
  rw [C82_double.2.2.1]
  have a1 : ((n : ℝ) + 1) * 2 ^ (-52 : ℤ) * M ≤ 2 ^ 1000 := by
    have : ((n : ℝ) + 1) * 2 ^ (-52 : ℤ) ≤ 1 := by
      calc ((n : ℝ) + 1) * 2 ^ (-52 : ℤ) ≤ 2 ^ 50 * 2 ^ (-52 : ℤ) := by gcongr
        _ ≤ 1 := by norm_num
    nlinarith
  have a2 : (n : ℝ) * 2 ^ (-1073 : ℤ) ≤ 2 ^ 1000 := by
    have : (2 : ℝ) ^ (-1073 : ℤ) ≤ 1 := zpow_le_one_of_nonpos₀ (by norm_num) (by norm_num)
    have : (n : ℝ) * 2 ^ (-1073 : ℤ) ≤ 2 ^ 50 * 1 := by
      gcongr; linarith
    calc _ ≤ _ := this
      _ = 2 ^ 50 := by ring
      _ ≤ 2 ^ 1000 := pow_le_pow_right₀ (by norm_num) (by norm_num)
  have a3 : (3 : ℝ) * 2 ^ 1000 < 2 ^ (1024 : ℤ) := by
    rw [show (1024 : ℤ) = ((24 + 1000 : ℕ) : ℤ) by norm_num, zpow_natCast, pow_add]
    gcongr
    norm_num
  revert a1 a2 a3 hM
  generalize (2 : ℝ) ^ 1000 = T
  generalize (2 : ℝ) ^ (1024 : ℤ) = U
  intro a1 a2 a3 hM
  linarith

/-- C82: a dense layer with `double`: the error is at most `(n + 1) 2^-52` of the sum of the absolute values
added up, and `n 2^-1073`. -/
theorem C82_dense_double (dst : List (Fl double)) (x w b : List ℝ) (n m : Nat) (hn : n < 2 ^ 50)
    (hd : m ≤ dst.length) (hx : n ≤ x.length) (hw : m * n ≤ w.length) (hb : m ≤ b.length)
    (hbig : ∀ i, i < m → denseMag w b x n i ≤ 2 ^ 1000) :
    ∃ d, dense dst (fins double x) (fins double w) (fins double b) n m = .ok d ∧ d.length = dst.length ∧
      (∀ i, i < m → ∃ s, d[i]? = some (.fin s) ∧
        |s - denseOut w b x n i| ≤ (n + 1) * 2 ^ (-52 : ℤ) * denseMag w b x n i + n * 2 ^ (-1073 : ℤ)) := by
  obtain ⟨d, h1, h2, h3, -⟩ := C82_dense_forward double dst x w b n m hd hx hw hb fun i hi =>
    sumErr_double_lt hn (denseMag_nonneg w b x n i) (hbig i hi)
  refine ⟨d, h1, h2, fun i hi => ?_⟩
  obtain ⟨s, e, hs⟩ := h3 i hi
  exact ⟨s, e, hs.trans (sumErr_double hn (denseMag_nonneg w b x n i))⟩

/-- A dense layer whose magnitudes are small enough. -/
example : ∀ i, i < 2 → denseMag [1/2, -3, 2, 1/4] [1, 2] [3/8, 5] 2 i ≤ (2 : ℝ) ^ 1000 := by
  have h : (2 : ℝ) ^ 10 ≤ 2 ^ 1000 := pow_le_pow_right₀ (by norm_num) (by norm_num)
  intro i hi
  refine le_trans ?_ h
  interval_cases i <;> simp [denseMag, sum_range_succ, mat, vec, abs_le] <;> norm_num [abs_of_nonneg, abs_of_neg]

/-- A 2x2 convolution of a 3x3 image whose sums stay below the overflow threshold. -/
example (r c f : Nat) (_ : r < 2) (_ : c < 2) (_ : f < 1) :
    let g : Geom := ⟨⟨3, 3, 1⟩, 2, 2, 1, 1, 0, 0⟩
    let x : List ℝ := [1, 2, 3, 4, 5, 6, 7, 8, 9]
    let k : List ℝ := [1, -1, 1/2, 2]
    g.Fits ∧ corrMag g 1 (vec x) (vec k) r c f
      + sumErr double 4 (corrMag g 1 (vec x) (vec k) r c f) < double.big := by
  refine ⟨by constructor <;> decide, sumErr_double_lt (by norm_num) ?_ ?_⟩
  · exact sum_nonneg fun _ _ => sum_nonneg fun _ _ => sum_nonneg fun _ _ => abs_nonneg _
  · have h : (2 : ℝ) ^ 10 ≤ 2 ^ 1000 := pow_le_pow_right₀ (by norm_num) (by norm_num)
    refine le_trans ?_ h
    interval_cases r <;> interval_cases c <;> interval_cases f <;>
      simp [corrMag, sum_range_succ, padded, cellIdx, vec] <;> norm_num [abs_of_nonneg, abs_of_neg]

/-- A step of gradient descent that does not overflow. -/
example : |(3 : ℝ)| + |1 / 10 * 5| + sumErr double 1 (|(3 : ℝ)| + |1 / 10 * 5|) < double.big := by
  refine sumErr_double_lt (by norm_num) (by positivity) ?_
  have h : (2 : ℝ) ^ 10 ≤ 2 ^ 1000 := pow_le_pow_right₀ (by norm_num) (by norm_num)
  refine le_trans ?_ h
  norm_num [abs_of_nonneg]

/-- An average of four numbers that does not overflow. -/
example : 2 * (10 + sumErr double 4 10) + double.e < double.big ∧ double.rnd (2 * 2 : ℕ) = (2 * 2 : ℕ) ∧
    double.u ≤ 1 := by
  have h := sumErr_double (n := 4) (M := 10) (by norm_num) (by norm_num)
  have h1 : (2 : ℝ) ^ (-1073 : ℤ) ≤ 1 := zpow_le_one_of_nonpos₀ (by norm_num) (by norm_num)
  have h2 : (2 : ℝ) ^ (-1075 : ℤ) ≤ 1 := zpow_le_one_of_nonpos₀ (by norm_num) (by norm_num)
  have h3 : (2 : ℝ) ^ (-52 : ℤ) ≤ 1 := zpow_le_one_of_nonpos₀ (by norm_num) (by norm_num)
  have h4 : (2 : ℝ) ^ (10 : ℤ) ≤ 2 ^ (1024 : ℤ) := zpow_le_zpow_right₀ (by norm_num) (by norm_num)
  have h5 : (2 : ℝ) ^ (-53 : ℤ) ≤ 1 := zpow_le_one_of_nonpos₀ (by norm_num) (by norm_num)
  have h6 : (2 : ℝ) ^ (10 : ℤ) = 1024 := by norm_num
  rw [C82_double.1, C82_double.2.1, C82_double.2.2.1]
  refine ⟨?_, ?_, h5⟩
  · rw [h6] at h4
    push_cast at h
    clear h5 h6
    revert h h1 h2 h3 h4
    generalize (2 : ℝ) ^ (-1073 : ℤ) = a
    generalize (2 : ℝ) ^ (-1075 : ℤ) = b
    generalize (2 : ℝ) ^ (-52 : ℤ) = c
    generalize (2 : ℝ) ^ (1024 : ℤ) = d
    intro h h1 h2 h3 h4
    linarith
  · have := C82_double.2.2.2.1 4 0 (by norm_num) (by norm_num)
    simpa using this

/-! ### Integers -/

theorem round_int {z : ℤ} (h : |z| ≤ 2 ^ 53) : Fl.round double (z : ℝ) = .fin z := by
  have h1 := C82_double.2.2.2.1 z 0 h (by norm_num)
  rw [zpow_zero, mul_one] at h1
  unfold Fl.round
  rw [if_pos, h1]
  rw [h1, C82_double.2.2.1]
  have : |(z : ℝ)| ≤ 2 ^ 53 := by exact_mod_cast h
  refine lt_of_le_of_lt this ?_
  rw [show (1024 : ℤ) = ((1024 : ℕ) : ℤ) by norm_num, zpow_natCast]
  exact pow_lt_pow_right₀ (by norm_num) (by norm_num)

theorem sum_int {n : Nat} {b : ℤ} {p : Nat → ℤ × ℤ} (h : |b| + ∑ j ∈ range n, |(p j).1 * (p j).2| ≤ 2 ^ 53) :
    ordSum (.fin b : Fl double) n (fun j => .fin (p j).1 * .fin (p j).2)
      = .fin ((b + ∑ j ∈ range n, (p j).1 * (p j).2 : ℤ) : ℝ) := by
  induction n with
  | zero => simp [ordSum]
  | succ n ih =>
    rw [sum_range_succ] at h
    have h1 := abs_nonneg ((p n).1 * (p n).2)
    have hs : |b + ∑ j ∈ range n, (p j).1 * (p j).2| ≤ |b| + ∑ j ∈ range n, |(p j).1 * (p j).2| :=
      (abs_add_le _ _).trans (add_le_add le_rfl (abs_sum_le_sum_abs _ _))
    have h2 : 0 ≤ |b| + ∑ j ∈ range n, |(p j).1 * (p j).2| :=
      add_nonneg (abs_nonneg _) (sum_nonneg fun _ _ => abs_nonneg _)
    show ordSum _ n _ + _ = _
    rw [ih (by linarith)]
    dsimp only
    rw [fl_mul, ← Int.cast_mul, round_int (by linarith), fl_add, ← Int.cast_add,
      round_int ((abs_add_le _ _).trans (by linarith)), sum_range_succ, add_assoc]

/-- C82: integer data.  A dense layer with integer parameters on integer inputs returns the exact result if the
absolute values add up to at most `2^53`. -/
theorem C82_integers (dst : List (Fl double)) (x w b : List ℤ) (n m : Nat)
    (hd : m ≤ dst.length) (hx : n ≤ x.length) (hw : m * n ≤ w.length) (hb : m ≤ b.length)
    (hbig : ∀ i, i < m → |vec b i| + ∑ j ∈ range n, |mat w n i j * vec x j| ≤ 2 ^ 53) :
    ∃ d, dense dst (fins double (x.map (↑))) (fins double (w.map (↑))) (fins double (b.map (↑))) n m = .ok d ∧
      d.length = dst.length ∧
      ∀ i, i < m → d[i]? = some (.fin ((vec b i + ∑ j ∈ range n, mat w n i j * vec x j : ℤ) : ℝ)) := by
  obtain ⟨d, h1, h2, h3, h4⟩ := C04_dense_forward dst (fins double (x.map (↑))) (fins double (w.map (↑)))
    (fins double (b.map (↑))) n m hd (by simpa [fins] using hx) (by simpa [fins] using hw) (by simpa [fins] using hb)
  refine ⟨d, h1, h2, fun i hi => ?_⟩
  rw [h3 i hi, vec_fins]
  simp only [mat_fins, vec_fins]
  have hv : ∀ (l : List ℤ) k, vec (l.map (fun z : ℤ => (z : ℝ))) k = ((vec l k : ℤ) : ℝ) := by
    intro l k
    unfold vec
    rw [List.getD_eq_getElem?_getD, List.getD_eq_getElem?_getD, List.getElem?_map]
    cases l[k]? <;> simp
  have hm : ∀ (l : List ℤ) i j, mat (l.map (fun z : ℤ => (z : ℝ))) n i j = ((mat l n i j : ℤ) : ℝ) := by
    intro l i j
    rw [mat_eq_vec, mat_eq_vec, hv]
  simp only [hv, hm]
  rw [sum_int (p := fun j => (mat w n i j, vec x j)) (hbig i hi)]

/-- Pixel values and small integer weights. -/
example : ∀ i, i < 2 → |vec [1, -7] i| + ∑ j ∈ range 2, |mat [3, -2, 5, 1] 2 i j * vec [255, 128] j| ≤ (2 ^ 53 : ℤ) := by
  intro i hi
  interval_cases i <;> decide

end Verif.Props
