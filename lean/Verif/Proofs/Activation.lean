import Verif.Model.Activation
import Verif.Spec.Activation
import Verif.Spec.Dense
import Verif.Proofs.Tab
import Verif.Proofs.Slide
import Verif.Proofs.Pool
import Mathlib.Analysis.Calculus.Deriv.Inv
import Mathlib.Analysis.Calculus.Deriv.Add
import Mathlib.Analysis.Calculus.Deriv.Mul
import Mathlib.Analysis.SpecialFunctions.ExpDeriv
import Mathlib.Algebra.BigOperators.Field
import Mathlib.Tactic.Ring
import Mathlib.Tactic.Linarith
import Mathlib.Tactic.FieldSimp
import Mathlib.Tactic.Positivity

namespace Verif.Act
open Verif.Spec Finset Verif.Slide

/-! ### Scalar derivatives -/

theorem relu_deriv {x : ℝ} (h : x ≠ 0) : HasDerivAt relu (relu1 x) x := by
  rcases lt_or_gt_of_ne h with hx | hx
  · have e : relu1 x = 0 := by unfold relu1; rw [if_neg (not_lt.mpr hx.le)]
    rw [e]
    refine (hasDerivAt_const x (0 : ℝ)).congr_of_eventuallyEq ?_
    filter_upwards [gt_mem_nhds hx] with y hy
    unfold relu; rw [if_pos hy]
  · have e : relu1 x = 1 := by unfold relu1; rw [if_pos hx]
    rw [e]
    refine (hasDerivAt_id x).congr_of_eventuallyEq ?_
    filter_upwards [lt_mem_nhds hx] with y hy
    unfold relu; rw [if_neg (not_lt.mpr hy.le)]; rfl

theorem eluNeg_deriv (alpha x : ℝ) :
    HasDerivAt (fun y => alpha * (Real.exp y - 1)) (alpha * Real.exp x) x :=
  ((Real.hasDerivAt_exp x).sub_const 1).const_mul alpha

theorem elu_deriv {alpha x : ℝ} (h : x ≠ 0 ∨ alpha = 1) :
    HasDerivAt (elu alpha) (elu1 alpha x) x := by
  rcases lt_trichotomy x 0 with hx | hx | hx
  · have e : elu1 alpha x = alpha * Real.exp x := by unfold elu1; rw [if_neg (not_lt.mpr hx.le)]
    rw [e]
    refine (eluNeg_deriv alpha x).congr_of_eventuallyEq ?_
    filter_upwards [gt_mem_nhds hx] with y hy
    unfold elu; rw [if_neg (not_lt.mpr (le_of_lt hy))]
  · subst hx
    have ha : alpha = 1 := by rcases h with h | h; · exact absurd rfl h
                              · exact h
    subst ha
    have e : elu1 1 0 = 1 := by simp [elu1]
    rw [e]
    have h1 : HasDerivWithinAt (elu 1) 1 (Set.Iic 0) 0 := by
      have := (eluNeg_deriv 1 0).hasDerivWithinAt (s := Set.Iic 0)
      simp only [Real.exp_zero, mul_one] at this
      refine this.congr ?_ ?_
      · intro y hy; unfold elu; rw [if_neg (not_lt.mpr hy)]
      · simp [elu]
    have h2 : HasDerivWithinAt (elu 1) 1 (Set.Ici 0) 0 := by
      have := (hasDerivAt_id (0 : ℝ)).hasDerivWithinAt (s := Set.Ici 0)
      refine this.congr ?_ ?_
      · intro y hy
        rcases eq_or_lt_of_le (show (0:ℝ) ≤ y from hy) with h0 | h0
        · subst h0; simp [elu]
        · unfold elu; rw [if_pos h0]; rfl
      · simp [elu]
    have := h1.union h2
    rw [Set.Iic_union_Ici] at this
    exact this.hasDerivAt (by simp)
  · have e : elu1 alpha x = 1 := by unfold elu1; rw [if_pos hx]
    rw [e]
    refine (hasDerivAt_id x).congr_of_eventuallyEq ?_
    filter_upwards [lt_mem_nhds hx] with y hy
    unfold elu; rw [if_pos hy]; rfl

theorem tanh_deriv (x : ℝ) : HasDerivAt tanh (tanh1 x) x := by
  have hc : Real.cosh x ≠ 0 := (Real.cosh_pos x).ne'
  have h := (Real.hasDerivAt_sinh x).fun_div (Real.hasDerivAt_cosh x) hc
  have e : tanh = fun y => Real.sinh y / Real.cosh y := by
    funext y; exact Real.tanh_eq_sinh_div_cosh y
  rw [e]
  refine h.congr_deriv ?_
  unfold tanh1 tanh1Opt
  rw [Real.tanh_eq_sinh_div_cosh]
  field_simp

theorem sigmoid_deriv (x : ℝ) : HasDerivAt sigmoid (sigmoid1 x) x := by
  have hp : 1 + Real.exp (-x) ≠ 0 := by positivity
  have h1 : HasDerivAt (fun y : ℝ => 1 + Real.exp (-y)) (-Real.exp (-x)) x := by
    have := ((hasDerivAt_id x).neg.exp).const_add (1 : ℝ)
    simpa using this
  have h2 := (hasDerivAt_const x (1 : ℝ)).fun_div h1 hp
  refine h2.congr_deriv ?_
  unfold sigmoid1 sigmoid1Opt sigmoid
  field_simp
  ring

/-! ### The derivative recovered from the output -/

theorem relu1_of_output (x : ℝ) : relu1 (relu x) = relu1 x := by
  unfold relu1 relu
  by_cases h : x < 0
  · rw [if_pos h, if_neg (lt_irrefl _), if_neg (not_lt.mpr h.le)]
  · rw [if_neg h]

theorem elu1_of_output {alpha : ℝ} (ha : 0 ≤ alpha) (x : ℝ) :
    elu1Opt alpha (elu alpha x) = elu1 alpha x := by
  unfold elu1Opt elu1 elu
  by_cases h : x > 0
  · simp [h]
  · rw [if_neg h, if_neg h, if_neg]
    · ring
    · have : Real.exp x ≤ 1 := Real.exp_le_one_iff.mpr (not_lt.mp h)
      have : alpha * (Real.exp x - 1) ≤ 0 :=
        mul_nonpos_of_nonneg_of_nonpos ha (by linarith)
      exact not_lt.mpr this

/-! ### Loops -/

theorem mapArr_eq (f : ℝ → ℝ) {dst src : List ℝ} {n : Nat} (hd : dst.length = n)
    (hs : n ≤ src.length) : mapArr f dst src n = .ok (tab n fun i => f (vec src i)) := by
  unfold mapArr
  have key := forUp_tab (n := n) (L := n) (f := vec dst) (r := fun i => f (vec src i))
    (body := fun i dst => do let x ← rd src i; wr dst i (f x)) le_rfl ?_
  · rw [show dst = tab n (vec dst) by rw [← hd]; exact eq_tab dst]
    rw [key]
    congr 1
    apply tab_congr
    intro i hi; rw [if_pos hi]
  · intro i g hi
    rw [rd_vec (by omega), Exec.bind_ok, wr_tab _ _ hi]

theorem arrMulInPlace_eq {dst src : List ℝ} {n : Nat} (hd : dst.length = n)
    (hs : n ≤ src.length) :
    arrMulInPlace dst src n = .ok (tab n fun i => vec dst i * vec src i) := by
  unfold arrMulInPlace
  have key := forUp_tab_in (n := n) (L := n) (f := vec dst) (r := fun i v => v * vec src i)
    (body := fun i dst => do let a ← rd dst i; let b ← rd src i; wr dst i (a * b)) le_rfl ?_
  · rw [show dst = tab n (vec dst) by rw [← hd]; exact eq_tab dst]
    rw [key]
    congr 1
    apply tab_congr
    intro i hi; rw [if_pos hi, vec_tab _ hi]
  · intro i g hi
    rw [rd_tab _ hi, Exec.bind_ok, rd_vec (by omega), Exec.bind_ok, wr_tab _ _ hi]

theorem forwardWith_eq (f : ℝ → ℝ) {l : Layer} {x : List ℝ} (hx : l.output.length ≤ x.length) :
    l.forwardWith f x
      = .ok { l with output := tab l.output.length fun i => f (vec x i) } := by
  unfold Layer.forwardWith
  rw [mapArr_eq f rfl hx]; rfl

theorem backwardWith_eq (f1 : ℝ → ℝ) {l : Layer} {g : List ℝ}
    (ho : l.inputGradients.length ≤ l.output.length) (hg : l.inputGradients.length ≤ g.length) :
    l.backwardWith f1 g = .ok
      { l with
        inputGradients := tab l.inputGradients.length (fun i => f1 (vec l.output i) * vec g i) }
    := by
  unfold Layer.backwardWith
  rw [mapArr_eq f1 rfl ho, Exec.bind_ok, arrMulInPlace_eq (by simp) hg, Exec.bind_ok]
  simp only [Exec.pure_eq_ok]
  congr 2
  apply tab_congr
  intro i hi; rw [vec_tab _ hi]

/-! ### max_element -/

theorem maxElement_spec {α : Type _} [LinearOrder α] [Zero α] {src : List α} {n : Nat} (hn : 0 < n)
    (hs : n ≤ src.length) :
    ∃ k, maxElement src n = .ok k ∧ IsFirstMax n (vec src) k := by
  unfold maxElement
  rw [if_neg (by omega)]
  have key := forFrom_returns (body := fun i best => do
      let b ← rd src best
      let x ← rd src i
      pure (if b < x then i else best))
    (fun i k => IsFirstMax i (vec src) k) (n - 1) 1 0 ?_ ?_
  · rw [show 1 + (n - 1) = n by omega] at key
    exact key
  · refine ⟨by omega, ?_, ?_⟩
    · intro i hi; rw [show i = 0 by omega]
    · intro i hi; omega
  · rintro i k h1 h2 ⟨hk, hle, hlt⟩
    rw [rd_vec (by omega), Exec.bind_ok, rd_vec (by omega), Exec.bind_ok]
    refine ⟨_, rfl, ?_⟩
    by_cases hc : vec src k < vec src i
    · rw [if_pos hc]
      refine ⟨by omega, ?_, ?_⟩
      · intro j hj
        rcases Nat.lt_succ_iff_lt_or_eq.mp hj with hj | hj
        · exact (lt_of_le_of_lt (hle j hj) hc).le
        · rw [hj]
      · intro j hj
        exact lt_of_le_of_lt (hle j hj) hc
    · rw [if_neg hc]
      refine ⟨by omega, ?_, hlt⟩
      intro j hj
      rcases Nat.lt_succ_iff_lt_or_eq.mp hj with hj | hj
      · exact hle j hj
      · rw [hj]; exact not_lt.mp hc

theorem firstMax_unique {α : Type _} [LinearOrder α] {n : Nat} {x : Nat → α} {k l : Nat}
    (hk : IsFirstMax n x k) (hl : IsFirstMax n x l) : k = l := by
  rcases lt_trichotomy k l with h | h | h
  · exact absurd (hk.2.1 l hl.1) (not_le.mpr (hl.2.2 k h))
  · exact h
  · exact absurd (hl.2.1 k hk.1) (not_le.mpr (hk.2.2 l h))

theorem max_spec {α : Type _} [LinearOrder α] [Zero α] {src : List α} {n : Nat} (hn : 0 < n)
    (hs : n ≤ src.length) :
    ∃ k, IsFirstMax n (vec src) k ∧ max src n = .ok (vec src k) := by
  obtain ⟨k, h1, h2⟩ := maxElement_spec hn hs
  refine ⟨k, h2, ?_⟩
  have := h2.1
  unfold max
  rw [h1, Exec.bind_ok, if_pos h2.1, rd_vec (by omega)]

/-! ### Softmax -/

/-- Both softmax bodies, for any shift `d`. -/
theorem softmaxBody_eq {dst src : List ℝ} {n : Nat} (d : ℝ) (hd : dst.length = n)
    (hs : n ≤ src.length) :
    (do
      let s ← forUp n (dst, (0 : ℝ)) fun i s => do
        let x ← rd src i
        let dst ← wr s.1 i (Real.exp (x - d))
        let v ← rd dst i
        pure (dst, s.2 + v)
      let inv := 1 / s.2
      forUp n s.1 fun i dst => do
        let v ← rd dst i
        wr dst i (v * inv))
    = Exec.ok (tab n fun i => Real.exp (vec src i - d)
        * (1 / ∑ j ∈ range n, Real.exp (vec src j - d))) := by
  have key := forUp_eq (n := n)
    (S := fun k => (tab n (fun i => if i < k then Real.exp (vec src i - d) else vec dst i),
        ∑ j ∈ range k, Real.exp (vec src j - d)))
    (body := fun i (s : List ℝ × ℝ) => do
        let x ← rd src i
        let dst ← wr s.1 i (Real.exp (x - d))
        let v ← rd dst i
        pure (dst, s.2 + v)) ?_
  · have e : (dst, (0 : ℝ)) = (tab n (fun i => if i < 0 then Real.exp (vec src i - d) else vec dst i),
        ∑ j ∈ range 0, Real.exp (vec src j - d)) := by
      simp only [Nat.not_lt_zero, if_false, range_zero, sum_empty]
      rw [← hd, ← eq_tab]
    rw [e, key, Exec.bind_ok]
    simp only []
    have k2 := forUp_tab_in (n := n) (L := n)
      (f := fun i => if i < n then Real.exp (vec src i - d) else vec dst i)
      (r := fun i v => v * (1 / ∑ j ∈ range n, Real.exp (vec src j - d)))
      (body := fun i dst => do
        let v ← rd dst i
        wr dst i (v * (1 / ∑ j ∈ range n, Real.exp (vec src j - d)))) le_rfl ?_
    · rw [k2]
      congr 1
      apply tab_congr
      intro i hi; rw [if_pos hi, if_pos hi]
    · intro i g hi
      rw [rd_tab _ hi, Exec.bind_ok, wr_tab _ _ hi]
  · intro i hi
    rw [rd_vec (by omega), Exec.bind_ok, wr_tab _ _ hi, Exec.bind_ok, rd_tab _ hi, Exec.bind_ok,
      upd_self, sum_range_succ]
    simp only [Exec.pure_eq_ok]
    congr 2
    apply tab_congr
    intro k hk
    unfold upd
    by_cases hki : k = i
    · subst hki; simp
    · rw [if_neg hki]
      simp only []
      by_cases hlt : k < i
      · rw [if_pos hlt, if_pos (by omega)]
      · rw [if_neg hlt, if_neg (by omega)]

theorem softmax_eq {dst src : List ℝ} {n : Nat} (hd : dst.length = n) (hs : n ≤ src.length) :
    softmax dst src n = .ok (tab n (softmaxFn n (vec src))) := by
  have h := softmaxBody_eq 0 hd hs
  simp only [sub_zero] at h
  unfold softmax
  rw [h]
  congr 1
  apply tab_congr
  intro i _
  unfold softmaxFn
  rw [mul_one_div]

theorem sum_exp_pos {n : Nat} (hn : 0 < n) (x : Nat → ℝ) : 0 < ∑ j ∈ range n, Real.exp (x j) :=
  Finset.sum_pos (fun _ _ => Real.exp_pos _) ⟨0, by simpa using hn⟩

theorem softmaxFn_shift {n : Nat} (x : Nat → ℝ) (c : ℝ) (i : Nat) :
    softmaxFn n (fun k => x k + c) i = softmaxFn n x i := by
  unfold softmaxFn
  simp only [Real.exp_add]
  rw [← Finset.sum_mul, mul_div_mul_right _ _ (Real.exp_pos c).ne']

theorem stableSoftmax_eq {dst src : List ℝ} {n : Nat} (hn : 0 < n) (hd : dst.length = n)
    (hs : n ≤ src.length) :
    stableSoftmaxNoCheck dst src n = .ok (tab n (softmaxFn n (vec src))) := by
  unfold stableSoftmaxNoCheck
  obtain ⟨k, -, h⟩ := max_spec hn hs
  rw [h, Exec.bind_ok, softmaxBody_eq (vec src k) hd hs]
  congr 1
  apply tab_congr
  intro i _
  rw [← softmaxFn_shift (vec src) (-vec src k)]
  unfold softmaxFn
  simp only [← sub_eq_add_neg]
  rw [mul_one_div]

theorem softmaxFn_pos {n : Nat} (hn : 0 < n) (x : Nat → ℝ) (i : Nat) : 0 < softmaxFn n x i :=
  div_pos (Real.exp_pos _) (sum_exp_pos hn x)

theorem softmaxFn_sum {n : Nat} (hn : 0 < n) (x : Nat → ℝ) :
    ∑ i ∈ range n, softmaxFn n x i = 1 := by
  unfold softmaxFn
  rw [← Finset.sum_div, div_self (sum_exp_pos hn x).ne']

theorem softmaxFn_le_one {n : Nat} (x : Nat → ℝ) {i : Nat} (hi : i < n) : softmaxFn n x i ≤ 1 := by
  rw [← softmaxFn_sum (show 0 < n by omega) x]
  exact Finset.single_le_sum (f := softmaxFn n x)
    (fun k _ => (softmaxFn_pos (by omega) x k).le) (by simpa using hi)

theorem softmaxFn_lt {n : Nat} (hn : 0 < n) (x : Nat → ℝ) (i j : Nat) :
    softmaxFn n x i < softmaxFn n x j ↔ x i < x j := by
  unfold softmaxFn
  rw [div_lt_div_iff_of_pos_right (sum_exp_pos hn x), Real.exp_lt_exp]

theorem softmax1Opt_eq {dst s g : List ℝ} {n : Nat} (hd : dst.length = n) (hs : n ≤ s.length)
    (hg : n ≤ g.length) :
    softmax1OptNoCheck dst s g n = .ok (tab n fun i =>
      ∑ j ∈ range n, vec s i * ((if i = j then 1 else 0) - vec s j) * vec g j) := by
  unfold softmax1OptNoCheck
  have key := forUp_tab (n := n) (L := n) (f := vec dst)
    (r := fun i => ∑ j ∈ range n, vec s i * ((if i = j then 1 else 0) - vec s j) * vec g j)
    (body := fun i dst => do
      let dst ← wr dst i 0
      forUp n dst fun j dst => do
        let si ← rd s i
        let sj ← rd s j
        let g ← rd g j
        let d ← rd dst i
        wr dst i (d + si * ((if i = j then 1 else 0) - sj) * g)) le_rfl ?_
  · rw [show dst = tab n (vec dst) by rw [← hd]; exact eq_tab dst]
    rw [key]
    congr 1
    apply tab_congr
    intro i hi; rw [if_pos hi]
  · intro i f hi
    rw [wr_tab _ _ hi, Exec.bind_ok]
    rw [accLoop (v := fun j => vec s i * ((if i = j then 1 else 0) - vec s j) * vec g j)]
    · rw [upd_upd, upd_self, ordSum_eq_sum, zero_add]
    · intro j f' hj
      rw [rd_vec (by omega), Exec.bind_ok, rd_vec (by omega), Exec.bind_ok, rd_vec (by omega),
        Exec.bind_ok, rd_tab _ hi, Exec.bind_ok, wr_tab _ _ hi]

/-- Partial derivative of component `j` of the softmax with respect to `x i`. -/
theorem softmaxFn_deriv {n : Nat} (hn : 0 < n) (x : Nat → ℝ) {i : Nat} (hi : i < n) (j : Nat) :
    HasDerivAt (fun t => softmaxFn n (replace x i t) j)
      (softmaxFn n x i * ((if i = j then 1 else 0) - softmaxFn n x j)) (x i) := by
  have hr : replace x i (x i) = x := by
    funext k; unfold replace; split
    · next h => rw [h]
    · rfl
  have hnum : ∀ k, HasDerivAt (fun t => Real.exp (replace x i t k))
      (if i = k then Real.exp (x i) else 0) (x i) := by
    intro k
    unfold replace
    by_cases h : k = i
    · subst h; simpa using Real.hasDerivAt_exp (x k)
    · simp only [if_neg h, if_neg (Ne.symm h)]; exact hasDerivAt_const _ _
  have hden : HasDerivAt (fun t => ∑ k ∈ range n, Real.exp (replace x i t k))
      (Real.exp (x i)) (x i) := by
    have := HasDerivAt.fun_sum (u := range n) (fun k _ => hnum k)
    refine this.congr_deriv ?_
    rw [Finset.sum_ite_eq, if_pos (by simpa using hi)]
  have hp := (sum_exp_pos hn x).ne'
  have := (hnum j).fun_div hden (by rw [hr]; exact hp)
  rw [hr] at this
  refine this.congr_deriv ?_
  unfold softmaxFn
  by_cases h : i = j
  · subst h; simp only [if_true]; field_simp
  · simp only [if_neg h]; field_simp; ring

theorem softmax_grad {n : Nat} (hn : 0 < n) (x g : Nat → ℝ) {i : Nat} (hi : i < n) :
    HasDerivAt (fun t => ∑ j ∈ range n, g j * softmaxFn n (replace x i t) j)
      (∑ j ∈ range n, softmaxFn n x i * ((if i = j then 1 else 0) - softmaxFn n x j) * g j)
      (x i) := by
  have := HasDerivAt.fun_sum (u := range n)
    (fun j _ => (softmaxFn_deriv hn x hi j).const_mul (g j))
  refine this.congr_deriv ?_
  apply Finset.sum_congr rfl
  intro j _
  ring

theorem softmax_grad_sum {n : Nat} (hn : 0 < n) (x g : Nat → ℝ) :
    ∑ i ∈ range n, ∑ j ∈ range n,
      softmaxFn n x i * ((if i = j then 1 else 0) - softmaxFn n x j) * g j = 0 := by
  rw [Finset.sum_comm]
  apply Finset.sum_eq_zero
  intro j hj
  rw [← Finset.sum_mul]
  have : ∑ i ∈ range n, softmaxFn n x i * ((if i = j then 1 else 0) - softmaxFn n x j) = 0 := by
    simp only [mul_sub, Finset.sum_sub_distrib, mul_ite, mul_one, mul_zero]
    rw [Finset.sum_ite_eq', if_pos hj, ← Finset.sum_mul, softmaxFn_sum hn, one_mul, sub_self]
  rw [this, zero_mul]

end Verif.Act
