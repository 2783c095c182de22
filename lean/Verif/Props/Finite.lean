import Verif.Proofs.Finite
import Verif.Props.RoundingNet

/-
C83: finite inputs give finite results.
-/

namespace Verif.Props
open Spec Verif.Float Finset Filter

/-- C83: the sigmoid of any number, infinities included, is finite and between zero and one. -/
theorem C83_sigmoid (A : Arith) (L : Lib A) (x : Fl A) (h : x ≠ .nan) :
    ∃ s, sigmoidF L x = .fin s ∧ 0 ≤ s ∧ s ≤ 1 := by
  have hn : -x ≠ .nan := by
    rcases x with x | b | _
    · exact fun h => by cases h
    · exact fun h => by cases h
    · exact absurd rfl h
  refine recip_unit ?_
  rcases exp_atLeast L hn with e | ⟨s, e, hs⟩
  · rw [e]
    exact .inl rfl
  · exact add_atLeast (c := 1) (d := 0) (.inr ⟨1, rfl, le_rfl⟩) ⟨s, e, hs⟩ A.one zero_le_one (by norm_num)

/-- C83: the hyperbolic tangent of any number, infinities included, is finite and at most one in size. -/
theorem C83_tanh (A : Arith) (L : Lib A) (x : Fl A) (h : x ≠ .nan) :
    ∃ s, L.tanhF x = .fin s ∧ |s| ≤ 1 := by
  rcases x with x | b | _
  · exact ⟨_, rfl, L.tanh_range x⟩
  · refine ⟨_, rfl, ?_⟩
    cases b <;> simp
  · exact absurd rfl h

/-- C83: the rectifier of a finite number is exact. -/
theorem C83_relu (A : Arith) (x : ℝ) : reluF (.fin x : Fl A) = .fin (max x 0) := by
  unfold reluF
  rw [fl_zero]
  by_cases h : x < 0
  · rw [if_pos ((fl_lt _ _).mpr h), max_eq_right h.le]
  · rw [if_neg (fun h' => h ((fl_lt _ _).mp h')), max_eq_left (not_lt.mp h)]

/-- C83: the exponential unit with a saturation value `a` of the format: positive numbers are returned, others
give a finite number of at most the size of `a`. -/
theorem C83_elu (A : Arith) (L : Lib A) (a x : ℝ) (ha : A.rnd |a| = |a|) (hb : |a| < A.big) :
    (0 < x → eluF L (.fin a) (.fin x : Fl A) = .fin x) ∧
      (x ≤ 0 → ∃ s, eluF L (.fin a) (.fin x : Fl A) = .fin s ∧ |s| ≤ |a|) := by
  refine ⟨fun h => ?_, fun h => ?_⟩
  · unfold eluF
    rw [fl_zero, if_pos ((fl_lt _ _).mpr h)]
  · unfold eluF
    rw [fl_zero]
    rw [if_neg (fun h' => not_lt.mpr h ((fl_lt _ _).mp h'))]
    obtain ⟨t, e, h0, h1⟩ := exp_unit L (x := .fin x) (.inr ⟨x, rfl, h⟩)
    rw [e]
    obtain ⟨r, e2, hr⟩ := round_bounded (A := A) (x := t - 1) A.one A.one_lt_big (abs_le.mpr ⟨by linarith, by linarith⟩)
    have e3 : (.fin t - 1 : Fl A) = .fin r := e2
    rw [e3, fl_mul]
    refine round_bounded ha hb ?_
    rw [abs_mul]
    nlinarith [abs_nonneg a]

/-- C83: a softmax layer on finite numbers: every output is finite and between zero and one, and the outputs of
the largest inputs are the largest outputs. -/
theorem C83_softmax (A : Arith) (L : Lib A) (dst : List (Fl A)) (x : List ℝ) (n : Nat) (hd : dst.length = n) (hn : 0 < n) (hx : x.length = n) :
    ∃ z, stableSoftmaxF L dst (fins A x) n = .ok (fins A z) ∧ z.length = n ∧
      (∀ j, j < n → 0 ≤ vec z j ∧ vec z j ≤ 1) ∧
      ∀ k, k < n → (∀ j, j < n → vec x j ≤ vec x k) → ∀ j, j < n → vec z j ≤ vec z k := by
  obtain ⟨v, S, inv, z, -, -, i0, i1, -, h1, h2, h3⟩ := stable_finite L hd hn (by omega : n ≤ x.length)
  refine ⟨tab n z, h1, by simp, fun j hj => ?_, fun k hk hmax j hj => ?_⟩
  · rw [vec_tab _ hj]
    exact (h2 j hj).2.2.2
  · rw [vec_tab _ hj, vec_tab _ hk, (h2 j hj).2.2.1, (h2 k hk).2.2.1, (h3 k hk hmax).1]
    apply A.mono
    have := (h2 j hj).2.1
    nlinarith

/-- A bound for the distance of the sum of `n` softmax outputs from one. -/
noncomputable def softmaxErr (A : Arith) (n : Nat) : ℝ :=
  let E := sumErr A n n
  let D := (1 + E) * A.u + n * A.e + E
  D + A.u * (1 + D) + n * A.e

/-- C83: the outputs of a softmax layer add up to one, up to rounding. -/
theorem C83_softmax_sum (A : Arith) (L : Lib A) (dst : List (Fl A)) (x : List ℝ) (n : Nat) (hd : dst.length = n) (hn : 0 < n) (hx : x.length = n)
    (hbig : n + sumErr A n n < A.big) :
    ∃ z, stableSoftmaxF L dst (fins A x) n = .ok (fins A z) ∧
      |∑ j ∈ range n, vec z j - 1| ≤ softmaxErr A n := by
  obtain ⟨v, S, inv, z, hS, hinv, i0, i1, hSe, h1, h2, h3⟩ := stable_finite L hd hn (by omega : n ≤ x.length)
  refine ⟨tab n z, h1, ?_⟩
  have hv0 : ∀ j ∈ range n, 0 ≤ v j := fun j hj => (h2 j (by simpa using hj)).1
  have hT0 : 0 ≤ ∑ j ∈ range n, v j := sum_nonneg hv0
  have habs : ∑ j ∈ range n, |v j| = ∑ j ∈ range n, v j := sum_congr rfl fun j hj => abs_of_nonneg (hv0 j hj)
  have hTn : ∑ j ∈ range n, v j ≤ n := by
    have := sum_le_sum (f := v) (g := fun _ => (1 : ℝ)) (s := range n)
      fun j hj => (h2 j (by simpa using hj)).2.1
    simpa using this
  have hmono : sumErr A n (∑ j ∈ range n, v j) ≤ sumErr A n n := sumErr_mono le_rfl hT0 hTn
  obtain ⟨s, e, hs⟩ := fl_sum (A := A) (P := fun _ => True) (b := 0) (n := n) (t := fun j => .fin (v j)) (q := v)
    (fun j _ _ => ⟨v j, rfl, by
      rw [sub_self, abs_zero]
      exact add_nonneg (mul_nonneg A.u_nonneg (abs_nonneg _)) A.e_nonneg⟩)
    (fun _ _ h => absurd trivial h) (by
      rw [abs_zero, zero_add, habs]
      linarith)
  rw [ordSumIf_true, show (Fl.fin 0 : Fl A) = 0 from rfl, ← hSe] at e
  rw [abs_zero, zero_add, zero_add, habs] at hs
  have hs1 : 1 ≤ s := by
    rcases hS with h | ⟨s', h, hs'⟩
    · rw [h] at e; cases e
    · rw [h] at e; injection e with e; rw [← e]; exact hs'
  have hinv' : |inv - 1 / s| ≤ A.u * (1 / s) + A.e := by
    rw [e] at hinv
    have h := fl_div (A := A) 1 s (by linarith)
    rw [show (Fl.fin 1 : Fl A) = 1 from rfl, hinv] at h
    have hr : inv = A.rnd (1 / s) := by
      unfold Fl.round at h
      split at h
      · injection h
      · cases h
    rw [hr]
    have := A.err (1 / s)
    rwa [abs_of_nonneg (by positivity : 0 ≤ 1 / s)] at this
  set T := ∑ j ∈ range n, v j with hT
  set E := sumErr A n n with hE
  have hTs : |T / s - 1| ≤ E := by
    have : T / s - 1 = (T - s) / s := by field_simp
    rw [this, abs_div, abs_of_pos (by linarith : 0 < s), div_le_iff₀ (by linarith), abs_sub_comm]
    have hE0 : 0 ≤ E := sumErr_nonneg n (by positivity)
    nlinarith
  have hu := A.u_nonneg
  have he := A.e_nonneg
  have hD : |T * inv - 1| ≤ (1 + E) * A.u + n * A.e + E := by
    have e1 : T * inv - 1 = T * (inv - 1 / s) + (T / s - 1) := by ring
    rw [e1]
    refine (abs_add_le _ _).trans ?_
    rw [abs_mul, abs_of_nonneg hT0]
    have e2 : T * |inv - 1 / s| ≤ T * (A.u * (1 / s) + A.e) := mul_le_mul_of_nonneg_left hinv' hT0
    have e3 : T * (A.u * (1 / s) + A.e) = T / s * A.u + T * A.e := by ring
    have e4 : T / s * A.u ≤ (1 + E) * A.u := by
      apply mul_le_mul_of_nonneg_right _ hu
      have := (abs_le.mp hTs).2
      linarith
    have e5 : T * A.e ≤ n * A.e := mul_le_mul_of_nonneg_right hTn he
    linarith
  have hz : |∑ j ∈ range n, z j - T * inv| ≤ A.u * (T * inv) + n * A.e := by
    rw [hT, sum_mul, ← sum_sub_distrib]
    refine (abs_sum_le_sum_abs _ _).trans ?_
    have : ∀ j ∈ range n, |z j - v j * inv| ≤ A.u * (v j * inv) + A.e := by
      intro j hj
      have hj' : j < n := by simpa using hj
      rw [(h2 j hj').2.2.1]
      have := A.err (v j * inv)
      rwa [abs_of_nonneg (mul_nonneg (hv0 j hj) i0)] at this
    refine (sum_le_sum this).trans ?_
    rw [sum_add_distrib, ← mul_sum]
    simp
  have hsum : ∑ j ∈ range n, vec (tab n z) j = ∑ j ∈ range n, z j :=
    sum_congr rfl fun j hj => vec_tab _ (by simpa using hj)
  rw [hsum]
  have e1 : ∑ j ∈ range n, z j - 1 = (∑ j ∈ range n, z j - T * inv) + (T * inv - 1) := by ring
  rw [e1]
  refine (abs_add_le _ _).trans ?_
  unfold softmaxErr
  simp only []
  rw [← hE]
  have e2 : A.u * (T * inv) ≤ A.u * (1 + ((1 + E) * A.u + n * A.e + E)) := by
    apply mul_le_mul_of_nonneg_left _ hu
    have := (abs_le.mp hD).2
    linarith
  linarith

/-- C83: with `double` and at most a million classes the outputs add up to one within `2^-10`. -/
theorem C83_softmax_sum_double (L : Lib double) (dst : List (Fl double)) (x : List ℝ) (n : Nat) (hd : dst.length = n)
    (hn : 0 < n) (hn' : n ≤ 2 ^ 20)
    (hx : x.length = n) :
    ∃ z, stableSoftmaxF L dst (fins double x) n = .ok (fins double z) ∧
      |∑ j ∈ range n, vec z j - 1| ≤ (n + 2) ^ 2 * 2 ^ (-51 : ℤ) := by
  have hnr : (n : ℝ) ≤ 2 ^ 20 := by exact_mod_cast hn'
  have hn1 : (1 : ℝ) ≤ n := by exact_mod_cast hn
  have hlt : n < 2 ^ 50 := by have : (2:ℕ) ^ 20 < 2 ^ 50 := by norm_num
                              omega
  obtain ⟨z, h1, h2⟩ := C83_softmax_sum double L dst x n hd hn hx (sumErr_double_lt hlt (by positivity)
    (hnr.trans (pow_le_pow_right₀ (by norm_num) (by norm_num))))
  refine ⟨z, h1, h2.trans ?_⟩
  have hE := sumErr_double (n := n) (M := n) hlt (by positivity)
  have hE0 : 0 ≤ sumErr double n n := sumErr_nonneg n (by positivity)
  unfold softmaxErr
  simp only []
  rw [double_u, double_e]
  have t1 : (2 : ℝ) ^ (-1073 : ℤ) ≤ 2 ^ (-100 : ℤ) := zpow_le_zpow_right₀ (by norm_num) (by norm_num)
  have t2 : (2 : ℝ) ^ (-1075 : ℤ) ≤ 2 ^ (-100 : ℤ) := zpow_le_zpow_right₀ (by norm_num) (by norm_num)
  have p1 : (0 : ℝ) < 2 ^ (-1075 : ℤ) := by positivity
  have p2 : (0 : ℝ) < 2 ^ (-1073 : ℤ) := by positivity
  revert hE hE0 t1 t2 p1 p2
  generalize sumErr double n n = E
  generalize (2 : ℝ) ^ (-1073 : ℤ) = a
  generalize (2 : ℝ) ^ (-1075 : ℤ) = b
  norm_num
  intro hE hE0 t1 t2 p1 p2
  have q1 : (n : ℝ) * a ≤ 2 ^ 20 * (1 / 1267650600228229401496703205376) := by gcongr
  have q2 : (n : ℝ) * b ≤ 2 ^ 20 * (1 / 1267650600228229401496703205376) := by gcongr
  have q3 : (n : ℝ) * n ≤ 2 ^ 20 * 2 ^ 20 := by gcongr
  have q4 : (n + 1) * (1 / 4503599627370496) * (n : ℝ) ≤ 1 := by nlinarith
  nlinarith

/-- C83: cross-entropy with `double`: finite for targets and predictions between zero and one, zero
included. -/
theorem C83_loss (L : Lib double) (hv : L.v ≤ 1) (y yh : List ℝ) (n : Nat) (hn : n ≤ 2 ^ 40)
    (hy : n ≤ y.length) (hh : n ≤ yh.length) (hy1 : ∀ i, i < n → 0 ≤ vec y i ∧ vec y i ≤ 1)
    (hh1 : ∀ i, i < n → 0 ≤ vec yh i ∧ vec yh i ≤ 1) :
    ∃ s, crossEntropyF L (fins double y) (fins double yh) n = .ok (.fin s) ∧ |s| ≤ 128 * n := by
  have hbig : (2 : ℝ) ^ (53 : ℤ) < double.big := by
    rw [double_big]
    exact zpow_lt_zpow_right₀ (by norm_num) (by norm_num)
  have hterm : ∀ i, i < n → ∃ t, crossEntropySF L (.fin (vec y i)) (.fin (vec yh i)) = .fin t ∧ |t| ≤ 128 := by
    intro i hi
    obtain ⟨y0, y1⟩ := hy1 i hi
    obtain ⟨h0, h1⟩ := hh1 i hi
    unfold crossEntropySF
    rw [stdMaxF_fin]
    have he : (0 : ℝ) < Loss.epsilon := Loss.epsilon_pos
    have hle : Loss.epsilon ≤ 1 := zpow_le_one_of_nonpos₀ (by norm_num) (by norm_num)
    have m1 : Loss.epsilon ≤ Loss.stdMax (vec yh i) Loss.epsilon ∧ Loss.stdMax (vec yh i) Loss.epsilon ≤ 1 := by
      unfold Loss.stdMax
      split
      · exact ⟨le_rfl, hle⟩
      · next h => exact ⟨not_lt.mp h, h1⟩
    generalize Loss.stdMax (vec yh i) Loss.epsilon = m at m1
    have hm : 0 < m := by linarith
    have l1 : Real.log m ≤ 0 := Real.log_nonpos hm.le m1.2
    have l2 : -(52 * Real.log 2) ≤ Real.log m := by
      have := Real.log_le_log he m1.1
      have e : Real.log Loss.epsilon = -(52 * Real.log 2) := by
        unfold Loss.epsilon
        rw [Real.log_zpow]
        push_cast
        ring
      rwa [e] at this
    have l3 : Real.log 2 ≤ 1 := (Real.log_le_sub_one_of_pos (by norm_num)).trans (by norm_num)
    have l4 : |Real.log m| ≤ 52 := by
      rw [abs_of_nonpos l1]
      linarith
    have l5 := L.log_err m hm
    have l6 : double.e ≤ 1 := by
      rw [double_e]
      exact zpow_le_one_of_nonpos₀ (by norm_num) (by norm_num)
    have l7 : |L.log m| ≤ 128 := by
      have h8 : |L.log m| ≤ |L.log m - Real.log m| + |Real.log m| := by
        have := abs_add_le (L.log m - Real.log m) (Real.log m)
        rwa [sub_add_cancel] at this
      have h9 : L.v * |Real.log m| ≤ 1 * |Real.log m| := mul_le_mul_of_nonneg_right hv (abs_nonneg _)
      linarith
    have h128 : double.rnd 128 = 128 := by
      have := double_exact (m := 128) (k := 0) (by norm_num) (by norm_num)
      simpa using this
    have hlt : (128 : ℝ) < double.big := by
      refine lt_trans ?_ hbig
      norm_num
    have e : L.logF (.fin m) = .fin (L.log m) := by
      show (if 0 < m then (if _ then _ else _) else _) = _
      rw [if_pos hm, if_pos (lt_of_le_of_lt l7 hlt)]
    rw [e, fl_neg, fl_mul]
    refine round_bounded h128 hlt ?_
    rw [abs_mul, abs_neg, abs_of_nonneg y0]
    nlinarith [abs_nonneg (L.log m)]
  rw [crossEntropyF_eq L (by simpa [fins] using hy) (by simpa [fins] using hh)]
  simp only [vec_fins]
  have key : ∀ k, k ≤ n → ∃ s, (ordSum (0 : Fl double) k fun i =>
      crossEntropySF L (.fin (vec y i)) (.fin (vec yh i))) = .fin s ∧ |s| ≤ 128 * k := by
    intro k
    induction k with
    | zero => exact fun _ => ⟨0, rfl, by simp⟩
    | succ k ih =>
      intro hk
      obtain ⟨s, e, hs⟩ := ih (by omega)
      obtain ⟨t, e2, ht⟩ := hterm k (by omega)
      have hr : double.rnd (128 * (k + 1 : ℕ)) = 128 * (k + 1 : ℕ) := by
        have := double_exact (m := 128 * (k + 1 : ℕ)) (k := 0) (by
          rw [abs_of_nonneg (by positivity)]
          have : k + 1 ≤ 2 ^ 40 := by omega
          norm_num at this ⊢
          omega) (by norm_num)
        push_cast at this ⊢
        simpa using this
      have hkr : ((k + 1 : ℕ) : ℝ) ≤ 2 ^ 40 := by exact_mod_cast (by omega : k + 1 ≤ 2 ^ 40)
      have := round_bounded (A := double) (x := s + t) hr (by
        refine lt_of_le_of_lt ?_ hbig
        calc (128 : ℝ) * (k + 1 : ℕ) ≤ 128 * 2 ^ 40 := by gcongr
          _ ≤ 2 ^ (53 : ℤ) := by norm_num) (by
        refine (abs_add_le _ _).trans ?_
        push_cast
        linarith)
      obtain ⟨r, e3, hr'⟩ := this
      refine ⟨r, ?_, hr'⟩
      show ordSum _ k _ + _ = _
      rw [e]
      simp only []
      rw [e2, fl_add, e3]
  obtain ⟨s, e, hs⟩ := key n le_rfl
  exact ⟨s, by rw [e], hs⟩

theorem numMin_pow : Loss.numMin = (2 : ℝ) ^ (-1022 : ℤ) := rfl

/-- C83: the gradient of cross-entropy with `double`: finite for targets and predictions between zero and one and
a normalizer between zero and one, and zero where the target is zero. -/
theorem C83_loss_gradient (dst : List (Fl double)) (y yh : List ℝ) (norm : ℝ) (n : Nat) (hd : dst.length = n)
    (hy : n ≤ y.length) (hh : n ≤ yh.length) (hn0 : 0 ≤ norm) (hn1 : norm ≤ 1)
    (hy1 : ∀ i, i < n → 0 ≤ vec y i ∧ vec y i ≤ 1) :
    ∃ g, crossEntropy1F dst (fins double y) (fins double yh) (.fin norm) n = .ok (fins double g) ∧ g.length = n ∧
      ∀ i, i < n → |vec g i| ≤ 2 ^ (1022 : ℤ) ∧ (vec y i = 0 → vec g i = 0) ∧
        vec g i = double.rnd (norm * double.rnd (-vec y i / Loss.stdMax (vec yh i) Loss.numMin)) := by
  have hp : double.rnd ((2 : ℝ) ^ (1022 : ℤ)) = 2 ^ (1022 : ℤ) := double_pow (by norm_num)
  have hlt : (2 : ℝ) ^ (1022 : ℤ) < double.big := by
    rw [double_big]
    exact zpow_lt_zpow_right₀ (by norm_num) (by norm_num)
  have hterm : ∀ i, i < n → crossEntropyS1F (.fin (vec y i)) (.fin (vec yh i)) (.fin norm : Fl double)
      = .fin (double.rnd (norm * double.rnd (-vec y i / Loss.stdMax (vec yh i) Loss.numMin))) ∧
      |double.rnd (norm * double.rnd (-vec y i / Loss.stdMax (vec yh i) Loss.numMin))| ≤ 2 ^ (1022 : ℤ) := by
    intro i hi
    obtain ⟨y0, y1⟩ := hy1 i hi
    unfold crossEntropyS1F
    rw [stdMaxF_fin]
    have m1 : Loss.numMin ≤ Loss.stdMax (vec yh i) Loss.numMin := by
      unfold Loss.stdMax
      split
      · exact le_rfl
      · next h => exact not_lt.mp h
    have hmin : 0 < Loss.numMin := by rw [numMin_pow]; positivity
    generalize Loss.stdMax (vec yh i) Loss.numMin = m at m1
    have hm : 0 < m := by linarith
    have b1 : |-vec y i / m| ≤ 2 ^ (1022 : ℤ) := by
      rw [abs_div, abs_neg, abs_of_nonneg y0, abs_of_pos hm, div_le_iff₀ hm]
      have e : (2 : ℝ) ^ (1022 : ℤ) * 2 ^ (-1022 : ℤ) = 1 := by
        rw [← zpow_add₀ (by norm_num)]; norm_num
      rw [numMin_pow] at m1
      have p : (0 : ℝ) < 2 ^ (1022 : ℤ) := by positivity
      have := mul_le_mul_of_nonneg_left m1 p.le
      rw [e] at this
      exact y1.trans this
    have b2 := abs_rnd_le hp b1
    rw [fl_neg, fl_div _ _ hm.ne']
    have e1 : Fl.round double (-vec y i / m) = .fin (double.rnd (-vec y i / m)) := by
      unfold Fl.round
      rw [if_pos (lt_of_le_of_lt b2 hlt)]
    rw [e1, fl_mul]
    have b3 : |norm * double.rnd (-vec y i / m)| ≤ 2 ^ (1022 : ℤ) := by
      rw [abs_mul, abs_of_nonneg hn0]
      have := mul_le_mul_of_nonneg_right hn1 (abs_nonneg (double.rnd (-vec y i / m)))
      linarith
    have b4 := abs_rnd_le hp b3
    refine ⟨?_, b4⟩
    unfold Fl.round
    rw [if_pos (lt_of_le_of_lt b4 hlt)]
  refine ⟨tab n fun i => double.rnd (norm * double.rnd (-vec y i / Loss.stdMax (vec yh i) Loss.numMin)), ?_,
    by simp, fun i hi => ?_⟩
  · rw [crossEntropy1F_eq hd (by simpa [fins] using hy) (by simpa [fins] using hh), fins_tab]
    congr 1
    apply tab_congr
    intro i hi
    rw [vec_fins, vec_fins, (hterm i hi).1]
  · rw [vec_tab _ hi]
    refine ⟨(hterm i hi).2, fun h0 => ?_, rfl⟩
    rw [h0, neg_zero, zero_div, Arith.zero, mul_zero, Arith.zero]

/-- A list with a one at `c` and zeros elsewhere. -/
def OneHot (y : List ℝ) (n c : Nat) : Prop :=
  y.length = n ∧ c < n ∧ ∀ i, i < n → vec y i = if i = c then 1 else 0

/-- A sum in which only one summand is not zero. -/
theorem ordSum_single {n c : Nat} {t : Nat → Fl double} {p : ℝ} (hc : c < n) (hp : double.rnd p = p)
    (hb : |p| < double.big) (ht : t c = .fin p) (h0 : ∀ j, j < n → j ≠ c → t j = .fin 0) :
    ordSum 0 n t = .fin p := by
  have hr : ∀ s : ℝ, double.rnd s = s → |s| < double.big → Fl.round double s = .fin s := by
    intro s h1 h2
    unfold Fl.round
    rw [h1, if_pos h2]
  have hz : Fl.round double 0 = .fin 0 := hr 0 double.zero (by
    rw [abs_zero]; exact lt_trans one_pos double.one_lt_big)
  have key : ∀ m, m ≤ n → ordSum 0 m t = .fin (if c < m then p else 0) := by
    intro m
    induction m with
    | zero => intro _; simp [ordSum]; rfl
    | succ m ih =>
      intro hm
      show ordSum 0 m t + t m = _
      rw [ih (by omega)]
      by_cases hcm : m = c
      · subst hcm
        rw [ht, fl_add, if_neg (by omega), if_pos (by omega), zero_add, hr p hp hb]
      · rw [h0 m (by omega) hcm, fl_add, add_zero]
        by_cases h : c < m
        · rw [if_pos h, if_pos (by omega), hr p hp hb]
        · rw [if_neg h, if_neg (by omega), hz]
  rw [key n le_rfl, if_pos hc]

/-- The element of the classifier gradient, with all roundings. -/
noncomputable def cgrad (p a yi g : ℝ) : ℝ := double.rnd (double.rnd (yi * double.rnd (a - p)) * g)

/-- The gradient a classifier computes for its logits: softmax outputs `z`, target class `c`. -/
theorem classifier_gradient (d1 d2 : List (Fl double)) (z y : List ℝ) (norm : ℝ) (n c : Nat)
    (hd1 : d1.length = n) (hd2 : d2.length = n) (hz : z.length = n) (hy : OneHot y n c)
    (hz1 : ∀ i, i < n → 0 ≤ vec z i ∧ vec z i ≤ 1) (hn0 : 0 ≤ norm) (hn1 : norm ≤ 1) :
    ∃ g d, crossEntropy1F d1 (fins double y) (fins double z) (.fin norm) n
        = .ok (fins double g) ∧
      softmax1OptF d2 (fins double z) (fins double g) n = .ok (fins double d) ∧
      g.length = n ∧ d.length = n ∧
      vec g c = double.rnd (norm * double.rnd (-1 / Loss.stdMax (vec z c) Loss.numMin)) ∧
      (∀ i, i < n → vec d i = cgrad (vec z c) (if i = c then 1 else 0) (vec z i) (vec g c)) ∧
      ∀ i, i < n → |vec d i| ≤ 2 ^ (1022 : ℤ) := by
  obtain ⟨hyl, hc, hy1⟩ := hy
  obtain ⟨g, h1, h2, h3⟩ := C83_loss_gradient d1 y z norm n hd1 (by omega) (by omega) hn0 hn1
    (fun i hi => by rw [hy1 i hi]; split <;> norm_num)
  have hp : double.rnd ((2 : ℝ) ^ (1022 : ℤ)) = 2 ^ (1022 : ℤ) := double_pow (by norm_num)
  have hlt : (2 : ℝ) ^ (1022 : ℤ) < double.big := by
    rw [double_big]
    exact zpow_lt_zpow_right₀ (by norm_num) (by norm_num)
  have fin1 : ∀ x : ℝ, |x| ≤ 1 → Fl.round double x = .fin (double.rnd x) ∧ |double.rnd x| ≤ 1 := by
    intro x hx
    have := abs_rnd_le double.one hx
    refine ⟨?_, this⟩
    unfold Fl.round
    rw [if_pos (lt_of_le_of_lt this double.one_lt_big)]
  have hterm : ∀ i j, i < n → j < n → ∃ q, (vec (fins double z) i * ((if i = j then 1 else 0) - vec (fins double z) j)
      * vec (fins double g) j) = .fin q ∧ q = cgrad (vec z j) (if i = j then 1 else 0) (vec z i) (vec g j) ∧
      |q| ≤ 2 ^ (1022 : ℤ) := by
    intro i j hi hj
    obtain ⟨zi0, zi1⟩ := hz1 i hi
    obtain ⟨zj0, zj1⟩ := hz1 j hj
    refine ⟨_, ?_, rfl, ?_⟩
    · rw [vec_fins, vec_fins, vec_fins]
      have e1 : ((if i = j then 1 else 0) - .fin (vec z j) : Fl double)
          = .fin (double.rnd ((if i = j then 1 else 0) - vec z j)) := by
        have : ((if i = j then 1 else 0) : Fl double) = .fin (if i = j then 1 else 0) := by split <;> rfl
        rw [this, fl_sub]
        refine (fin1 _ ?_).1
        rw [abs_le]
        split <;> constructor <;> linarith
      have b1 : |double.rnd ((if i = j then 1 else 0) - vec z j)| ≤ 1 := by
        refine (fin1 _ ?_).2
        rw [abs_le]
        split <;> constructor <;> linarith
      rw [e1, fl_mul, (fin1 _ (by rw [abs_mul, abs_of_nonneg zi0]; nlinarith [abs_nonneg (double.rnd ((if i = j then 1 else 0) - vec z j))])).1, fl_mul]
      unfold Fl.round cgrad
      rw [if_pos]
      refine lt_of_le_of_lt (abs_rnd_le hp ?_) hlt
      have b2 := (fin1 (vec z i * double.rnd ((if i = j then 1 else 0) - vec z j)) (by rw [abs_mul, abs_of_nonneg zi0]; nlinarith [abs_nonneg (double.rnd ((if i = j then 1 else 0) - vec z j))])).2
      rw [abs_mul]
      have := (h3 j hj).1
      nlinarith [abs_nonneg (vec g j)]
    · have b1 : |double.rnd ((if i = j then 1 else 0) - vec z j)| ≤ 1 := by
        refine (fin1 _ ?_).2
        rw [abs_le]
        split <;> constructor <;> linarith
      have b2 := (fin1 (vec z i * double.rnd ((if i = j then 1 else 0) - vec z j)) (by rw [abs_mul, abs_of_nonneg zi0]; nlinarith [abs_nonneg (double.rnd ((if i = j then 1 else 0) - vec z j))])).2
      refine abs_rnd_le hp ?_
      rw [abs_mul]
      have := (h3 j hj).1
      nlinarith [abs_nonneg (vec g j)]
  have hval : ∀ i, i < n → (ordSum 0 n fun j => vec (fins double z) i
      * ((if i = j then 1 else 0) - vec (fins double z) j) * vec (fins double g) j)
      = .fin (cgrad (vec z c) (if i = c then 1 else 0) (vec z i) (vec g c)) := by
    intro i hi
    obtain ⟨q, e, hq, hb⟩ := hterm i c hi hc
    rw [← hq]
    refine ordSum_single hc (by rw [hq]; exact double_idem _) (lt_of_le_of_lt hb hlt) e ?_
    intro j hj hjc
    obtain ⟨q', e', hq', -⟩ := hterm i j hi hj
    rw [e', hq']
    have : vec g j = 0 := (h3 j hj).2.1 (by rw [hy1 j hj, if_neg hjc])
    unfold cgrad
    rw [this, mul_zero, Arith.zero]
  refine ⟨g, tab n fun i => cgrad (vec z c) (if i = c then 1 else 0) (vec z i) (vec g c), h1, ?_, h2, by simp, ?_,
    fun i hi => vec_tab _ hi, fun i hi => ?_⟩
  · rw [softmax1OptF_eq hd2 (by simp [fins, hz]) (by simp [fins, h2]), fins_tab]
    congr 1
    apply tab_congr
    intro i hi
    exact hval i hi
  · rw [(h3 c hc).2.2, hy1 c hc, if_pos rfl]
  · rw [vec_tab _ hi]
    obtain ⟨q, e, hq, hb⟩ := hterm i c hi hc
    rw [← hq]
    exact hb

/-- C83: a classifier with `double`: for all finite logits and every target class, prediction, loss gradient and the
gradient passed to the layer below the softmax are finite. -/
theorem C83_classifier (L : Lib double) (dst d1 d2 : List (Fl double)) (x y : List ℝ) (norm : ℝ) (n c : Nat)
    (hd : dst.length = n) (hd1 : d1.length = n) (hd2 : d2.length = n) (hx : x.length = n)
    (hy : OneHot y n c) (hn0 : 0 ≤ norm) (hn1 : norm ≤ 1) :
    ∃ z g d, stableSoftmaxF L dst (fins double x) n = .ok (fins double z) ∧
      crossEntropy1F d1 (fins double y) (fins double z) (.fin norm) n = .ok (fins double g) ∧
      softmax1OptF d2 (fins double z) (fins double g) n = .ok (fins double d) ∧
      z.length = n ∧ g.length = n ∧ d.length = n := by
  obtain ⟨z, h1, h2, h3, -⟩ := C83_softmax double L dst x n hd (by have := hy.2.1; omega) hx
  obtain ⟨g, d, e1, e2, e3, e4, -⟩ := classifier_gradient d1 d2 z y norm n c hd1 hd2 h2 hy h3 hn0 hn1
  exact ⟨z, g, d, h1, e1, e2, h2, e3, e4⟩

/-- A one-hot target. -/
example : OneHot [0, 1, 0] 3 1 := by
  refine ⟨rfl, by norm_num, fun i hi => ?_⟩
  interval_cases i <;> simp [vec]

/-- C83 for the softmax function that does not subtract the maximum. -/
def C83SoftmaxClaim (A : Arith) (L : Lib A) : Prop :=
  ∀ (x : List ℝ) (n : Nat), 0 < n → x.length = n →
    ∃ z, softmaxF L (List.replicate n 0) (fins A x) n = .ok (fins A z)

/-- C83 is false of `DLMath::softmax`, in every format and with every library of relative accuracy below one: for
large inputs the exponential overflows and the result is not a number. -/
theorem C83_softmax_refuted (A : Arith) (L : Lib A) (hv : L.v < 1) : ¬ C83SoftmaxClaim A L := by
  intro h
  obtain ⟨x, hx⟩ : ∃ x, A.big ≤ L.exp x := by
    refine ⟨(A.big + A.e) / (1 - L.v), ?_⟩
    have h1 := (abs_le.mp (L.exp_err ((A.big + A.e) / (1 - L.v)))).1
    have h2 := Real.add_one_le_exp ((A.big + A.e) / (1 - L.v))
    have h3 : (A.big + A.e) / (1 - L.v) * (1 - L.v) = A.big + A.e := div_mul_cancel₀ _ (by linarith)
    nlinarith
  obtain ⟨z, hz⟩ := h [x] 1 one_pos rfl
  rw [softmaxF_eq L (by simp) (by simp [fins])] at hz
  have e1 : L.expF (vec (fins A [x]) 0) = .inf false := by
    rw [vec_fins]
    show (if _ then _ else _) = _
    rw [if_neg]
    have : vec [x] 0 = x := rfl
    rw [this, not_lt]
    exact hx.trans (le_abs_self _)
  have e2 : (tab 1 fun i => L.expF (vec (fins A [x]) i) * (1 / ordSum 0 1 fun j => L.expF (vec (fins A [x]) j)))
      = [Fl.nan] := by
    show [L.expF (vec (fins A [x]) 0) * (1 / (0 + L.expF (vec (fins A [x]) 0)))] = _
    rw [e1]
    show [(.inf false : Fl A) * .fin 0] = [.nan]
    show [if (0 : ℝ) = 0 then (Fl.nan : Fl A) else _] = _
    rw [if_pos rfl]
  rw [e2] at hz
  injection hz with hz
  cases z with
  | nil => cases hz
  | cons a z =>
    injection hz with hz
    cases hz

end Verif.Props
