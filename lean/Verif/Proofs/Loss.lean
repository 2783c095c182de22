import Verif.Spec.Loss
import Verif.Proofs.Activation
import Mathlib.Analysis.SpecialFunctions.Log.Deriv
import Mathlib.Analysis.Calculus.Deriv.Pow

namespace Verif.Loss
open Verif.Spec Finset Verif.Slide

theorem epsilon_pos : 0 < epsilon := by unfold epsilon; positivity
theorem numMin_pos : 0 < numMin := by unfold numMin; positivity
theorem numMin_lt_epsilon : numMin < epsilon := by
  unfold numMin epsilon
  exact zpow_lt_zpow_right₀ (by norm_num) (by norm_num)
theorem epsilon_lt_one : epsilon < 1 := by
  unfold epsilon
  exact zpow_lt_one_of_neg₀ (by norm_num) (by norm_num)

theorem stdMax_eq (a b : ℝ) : stdMax a b = max a b := by
  unfold stdMax
  split
  · next h => rw [max_eq_right h.le]
  · next h => rw [max_eq_left (not_lt.mp h)]

theorem forUp_sum {n : Nat} {v : Nat → ℝ} {body : Nat → ℝ → Exec ℝ}
    (h : ∀ i r, i < n → body i r = .ok (r + v i)) :
    forUp n (0 : ℝ) body = .ok (∑ i ∈ range n, v i) := by
  have := forUp_eq (n := n) (body := body) (fun k => ∑ i ∈ range k, v i) ?_
  · simpa using this
  · intro i hi
    rw [h i _ hi, sum_range_succ]

theorem crossEntropy_eq {y yh : List ℝ} {n : Nat} (hy : n ≤ y.length) (hh : n ≤ yh.length) :
    crossEntropy y yh n = .ok (crossEnt n (vec y) (vec yh)) := by
  unfold crossEntropy
  rw [forUp_sum (v := fun i => crossEntropyS (vec y i) (vec yh i))]
  · congr 1
    unfold crossEnt crossEntropyS
    rw [← Finset.sum_neg_distrib]
    apply Finset.sum_congr rfl
    intro i _
    rw [stdMax_eq, neg_mul]
  · intro i r hi
    rw [rd_vec (by omega), Exec.bind_ok, rd_vec (by omega), Exec.bind_ok]; rfl

theorem mse_eq {y yh : List ℝ} {n : Nat} (hy : n ≤ y.length) (hh : n ≤ yh.length) :
    meanSquaredError y yh n = .ok (meanSq n (vec y) (vec yh)) := by
  unfold meanSquaredError
  rw [forUp_sum (v := fun i => squaredError (vec y i) (vec yh i))]
  · rw [Exec.bind_ok]
    simp only [Exec.pure_eq_ok]
    congr 1
    unfold meanSq squaredError
    congr 1
    apply Finset.sum_congr rfl
    intro i _
    ring
  · intro i r hi
    rw [rd_vec (by omega), Exec.bind_ok, rd_vec (by omega), Exec.bind_ok]; rfl

theorem zip_loop {f : ℝ → ℝ → ℝ} {dst y yh : List ℝ} {n : Nat} (hd : dst.length = n)
    (hy : n ≤ y.length) (hh : n ≤ yh.length) :
    (forUp n dst fun i dst => do
      let a ← rd y i
      let b ← rd yh i
      wr dst i (f a b)) = .ok (tab n fun i => f (vec y i) (vec yh i)) := by
  have key := forUp_tab (n := n) (L := n) (f := vec dst) (r := fun i => f (vec y i) (vec yh i))
    (body := fun i dst => do
      let a ← rd y i
      let b ← rd yh i
      wr dst i (f a b)) le_rfl ?_
  · rw [show dst = tab n (vec dst) by rw [← hd]; exact eq_tab dst]
    rw [key]
    congr 1
    apply tab_congr
    intro i hi; rw [if_pos hi]
  · intro i g hi
    rw [rd_vec (by omega), Exec.bind_ok, rd_vec (by omega), Exec.bind_ok, wr_tab _ _ hi]

theorem crossEntropy1_eq {dst y yh : List ℝ} {norm : ℝ} {n : Nat} (hd : dst.length = n)
    (hy : n ≤ y.length) (hh : n ≤ yh.length) :
    crossEntropy1 dst y yh norm n
      = .ok (tab n fun i => norm * (-vec y i / max (vec yh i) numMin)) := by
  unfold crossEntropy1
  rw [zip_loop (f := fun a b => crossEntropyS1 a b norm) hd hy hh]
  simp only [crossEntropyS1, stdMax_eq]

theorem mse1_eq {dst y yh : List ℝ} {norm : ℝ} {n : Nat} (hd : dst.length = n)
    (hy : n ≤ y.length) (hh : n ≤ yh.length) :
    meanSquaredError1 dst y yh norm n
      = .ok (tab n fun i => -2 * norm * (vec y i - vec yh i)) := by
  unfold meanSquaredError1
  exact zip_loop (f := fun a b => squaredError1 a b norm) hd hy hh

/-! ### Values -/

theorem meanSq_nonneg (n : Nat) (y yh : Nat → ℝ) : 0 ≤ meanSq n y yh :=
  div_nonneg (Finset.sum_nonneg fun _ _ => sq_nonneg _) (by positivity)

theorem meanSq_zero {n : Nat} (hn : 0 < n) (y yh : Nat → ℝ) :
    meanSq n y yh = 0 ↔ ∀ i, i < n → y i = yh i := by
  unfold meanSq
  rw [div_eq_zero_iff, Finset.sum_eq_zero_iff_of_nonneg (fun _ _ => sq_nonneg _)]
  constructor
  · rintro (h | h) i hi
    · have := h i (by simpa using hi)
      rw [sq_eq_zero_iff, sub_eq_zero] at this
      exact this
    · exact absurd h (by positivity)
  · intro h
    left
    intro i hi
    rw [h i (by simpa using hi), sub_self, sq, mul_zero]

theorem crossEnt_nonneg {n : Nat} {y yh : Nat → ℝ} (hy : ∀ i, i < n → 0 ≤ y i)
    (hh : ∀ i, i < n → yh i ≤ 1) : 0 ≤ crossEnt n y yh := by
  unfold crossEnt
  rw [← Finset.sum_neg_distrib]
  apply Finset.sum_nonneg
  intro i hi
  have hi' : i < n := by simpa using hi
  rw [← mul_neg]
  apply mul_nonneg (hy i hi')
  rw [neg_nonneg]
  apply Real.log_nonpos
  · exact le_trans epsilon_pos.le (le_max_right _ _)
  · exact max_le (hh i hi') epsilon_lt_one.le

/-! ### Derivatives -/

theorem sum_replace_deriv {n : Nat} (F : Nat → ℝ → ℝ) (x : Nat → ℝ) {i : Nat} (hi : i < n) {d : ℝ}
    (h : HasDerivAt (F i) d (x i)) :
    HasDerivAt (fun t => ∑ k ∈ range n, F k (replace x i t k)) d (x i) := by
  have : ∀ k ∈ range n, HasDerivAt (fun t => F k (replace x i t k)) (if i = k then d else 0) (x i) := by
    intro k _
    unfold replace
    by_cases hk : k = i
    · subst hk; simpa using h
    · simp only [if_neg hk, if_neg (Ne.symm hk)]; exact hasDerivAt_const _ _
  refine (HasDerivAt.fun_sum this).congr_deriv ?_
  rw [Finset.sum_ite_eq, if_pos (by simpa using hi)]

theorem meanSq_deriv {n : Nat} (y yh : Nat → ℝ) {i : Nat} (hi : i < n) :
    HasDerivAt (fun t => meanSq n y (replace yh i t)) (-2 * (y i - yh i) / n) (yh i) := by
  unfold meanSq
  apply HasDerivAt.div_const
  apply sum_replace_deriv (fun k t => (y k - t) ^ 2) yh hi
  have := ((hasDerivAt_id (yh i)).const_sub (y i)).fun_pow 2
  refine this.congr_deriv ?_
  simp

theorem sumSq_deriv {n : Nat} (y yh : Nat → ℝ) {i : Nat} (hi : i < n) :
    HasDerivAt (fun t => ∑ k ∈ range n, (y k - replace yh i t k) ^ 2) (-2 * (y i - yh i))
      (yh i) := by
  apply sum_replace_deriv (fun k t => (y k - t) ^ 2) yh hi
  have := ((hasDerivAt_id (yh i)).const_sub (y i)).fun_pow 2
  refine this.congr_deriv ?_
  simp

theorem crossEntPure_deriv {n : Nat} (y yh : Nat → ℝ) {i : Nat} (hi : i < n) (h : yh i ≠ 0) :
    HasDerivAt (fun t => crossEntPure n y (replace yh i t)) (-y i / yh i) (yh i) := by
  unfold crossEntPure
  have := (sum_replace_deriv (fun k t => y k * Real.log t) yh hi
    ((Real.hasDerivAt_log h).const_mul (y i))).fun_neg
  refine this.congr_deriv ?_
  rw [neg_div, div_eq_mul_inv]

theorem crossEnt_deriv_above {n : Nat} (y yh : Nat → ℝ) {i : Nat} (hi : i < n)
    (h : epsilon < yh i) :
    HasDerivAt (fun t => crossEnt n y (replace yh i t)) (-y i / yh i) (yh i) := by
  unfold crossEnt
  have hne : yh i ≠ 0 := (lt_trans epsilon_pos h).ne'
  have h1 : HasDerivAt (fun t => y i * Real.log (max t epsilon)) (y i * (yh i)⁻¹) (yh i) := by
    refine ((Real.hasDerivAt_log hne).const_mul (y i)).congr_of_eventuallyEq ?_
    filter_upwards [lt_mem_nhds h] with t ht
    rw [max_eq_left (le_of_lt ht)]
  have := (sum_replace_deriv (fun k t => y k * Real.log (max t epsilon)) yh hi h1).fun_neg
  refine this.congr_deriv ?_
  rw [neg_div, div_eq_mul_inv]

theorem crossEnt_deriv_below {n : Nat} (y yh : Nat → ℝ) {i : Nat} (hi : i < n)
    (h : yh i < epsilon) :
    HasDerivAt (fun t => crossEnt n y (replace yh i t)) 0 (yh i) := by
  unfold crossEnt
  have h1 : HasDerivAt (fun t => y i * Real.log (max t epsilon)) 0 (yh i) := by
    refine (hasDerivAt_const (yh i) (y i * Real.log epsilon)).congr_of_eventuallyEq ?_
    filter_upwards [gt_mem_nhds h] with t ht
    rw [max_eq_right (le_of_lt ht)]
  have := (sum_replace_deriv (fun k t => y k * Real.log (max t epsilon)) yh hi h1).fun_neg
  simpa using this

/-! ### `_argactive` -/

theorem argactiveFrom_spec {t : List ℝ} : ∀ (k i : Nat), i + k ≤ t.length →
    (∀ j, j < i → vec t j = 0) →
    (∃ a, argactiveFrom t i k = .ok a ∧ IsFirstNonzero (i + k) (vec t) a) ∨
    (argactiveFrom t i k = .throw "_target is an array of 0.0 values" ∧
      ∀ j, j < i + k → vec t j = 0) := by
  intro k
  induction k with
  | zero => intro i _ h; right; exact ⟨rfl, h⟩
  | succ k ih =>
    intro i hl h
    unfold argactiveFrom
    rw [rd_vec (by omega), Exec.bind_ok]
    by_cases hz : vec t i = 0
    · rw [if_neg (not_not.mpr hz)]
      have := ih (i + 1) (by omega) (by
        intro j hj
        rcases Nat.lt_succ_iff_lt_or_eq.mp hj with hj | hj
        · exact h j hj
        · rw [hj]; exact hz)
      rw [show i + 1 + k = i + (k + 1) by omega] at this
      exact this
    · rw [if_pos hz]
      exact Or.inl ⟨i, rfl, by omega, hz, h⟩

theorem firstNonzero_unique {n : Nat} {t : Nat → ℝ} {k l : Nat} (hk : IsFirstNonzero n t k)
    (hl : IsFirstNonzero n t l) : k = l := by
  rcases lt_trichotomy k l with h | h | h
  · exact absurd (hl.2.2 k h) hk.2.1
  · exact h
  · exact absurd (hk.2.2 l h) hl.2.1

theorem crossEnt_zero {n : Nat} {y yh : Nat → ℝ} (h : ∀ i, i < n → y i = 0) :
    crossEnt n y yh = 0 := by
  unfold crossEnt
  rw [Finset.sum_eq_zero, neg_zero]
  intro i hi
  rw [h i (by simpa using hi), zero_mul]

/-! ### Statistics -/

open Classical in
/-- One evaluation does what the scoring says. -/
def Behaves (fwd : Layer → List ℝ → Exec (Layer × Option String)) (S : Scoring) (n : Nat)
    (tol : ℝ) : Prop :=
  ∀ (l : Layer) (x : List ℝ), l.inputSize = n → l.tolerance = tol →
    (l.target.length = n ∨ l.target = []) → x.length = n →
    ∃ l' e, fwd l x = .ok (l', e) ∧ l'.inputSize = n ∧ l'.tolerance = tol ∧
      l'.target = l.target ∧ (e.isSome ↔ ¬ S.usable l.target) ∧
      (¬ S.usable l.target → l'.correct = l.correct ∧ l'.incorrect = l.incorrect ∧
        l'.cumulative = l.cumulative) ∧
      (S.usable l.target → l'.cumulative = l.cumulative + S.value l.target x ∧
        l'.correct = l.correct + (if S.good l.target x then 1 else 0) ∧
        l'.incorrect = l.incorrect + (if S.good l.target x then 0 else 1))

theorem mse_behaves {n : Nat} (hn : 0 < n) (tol : ℝ) :
    Behaves mseForward (mseScoring n tol) n tol := by
  intro l x hl htol ht hx
  unfold mseForward
  by_cases he : l.target = []
  · refine ⟨l, _, by rw [if_pos (by simp [he])], hl, htol, rfl, ?_, ?_, ?_⟩
    · simp [mseScoring, he]
    · intro _; exact ⟨rfl, rfl, rfl⟩
    · intro h; exact absurd he h
  · have hlen : l.target.length = n := by rcases ht with h | h
                                          · exact h
                                          · exact absurd h he
    rw [if_neg (by simp [he]), hx, mse_eq (by omega) (by omega), Exec.bind_ok]
    have hnn := meanSq_nonneg n (vec l.target) (vec x)
    simp only []
    have hiff : (-l.tolerance ≤ meanSq n (vec l.target) (vec x) ∧
        meanSq n (vec l.target) (vec x) ≤ l.tolerance) ↔ (mseScoring n tol).good l.target x := by
      unfold mseScoring
      simp only []
      rw [← htol]
      constructor
      · exact fun h => h.2
      · intro h; exact ⟨by linarith, h⟩
    by_cases hg : (mseScoring n tol).good l.target x
    · rw [if_pos (hiff.mpr hg)]
      refine ⟨_, _, rfl, hl, htol, rfl, ?_, ?_, ?_⟩
      · simp [mseScoring, he]
      · intro h; exact absurd he h
      · intro _; rw [if_pos hg, if_pos hg]; exact ⟨rfl, rfl, rfl⟩
    · rw [if_neg (fun h => hg (hiff.mp h))]
      refine ⟨_, _, rfl, hl, htol, rfl, ?_, ?_, ?_⟩
      · simp [mseScoring, he]
      · intro h; exact absurd he h
      · intro _; rw [if_neg hg, if_neg hg]; exact ⟨rfl, rfl, rfl⟩

theorem mseForward_frame {l : Layer} {x : List ℝ} {n : Nat} (he : l.target ≠ [])
    (ht : l.target.length = n) (hx : x.length = n) :
    ∃ l', mseForward l x = .ok (l', none) ∧ l'.loss = meanSq n (vec l.target) (vec x) ∧
      l'.gradients = l.gradients ∧ l'.target = l.target ∧ l'.lastInput = l.lastInput ∧
      l'.invBatch = l.invBatch := by
  unfold mseForward
  rw [if_neg (by simp [he]), hx, mse_eq (by omega) (by omega), Exec.bind_ok]
  simp only []
  split
  · exact ⟨_, rfl, rfl, rfl, rfl, rfl, rfl⟩
  · exact ⟨_, rfl, rfl, rfl, rfl, rfl, rfl⟩

theorem cce_behaves {n : Nat} (hn : 0 < n) (tol : ℝ) :
    Behaves cceForward (cceScoring n) n tol := by
  intro l x hl htol ht hx
  unfold cceForward
  by_cases he : l.target = []
  · have hu : ¬ (cceScoring n).usable l.target := by
      rintro ⟨k, -, h, -⟩
      apply h
      rw [he]; rfl
    refine ⟨l, _, by rw [if_pos (by simp [he])], hl, htol, rfl, ?_, ?_, ?_⟩
    · simp [hu]
    · intro _; exact ⟨rfl, rfl, rfl⟩
    · intro h; exact absurd h hu
  · have hlen : l.target.length = n := by rcases ht with h | h
                                          · exact h
                                          · exact absurd h he
    rw [if_neg (by simp [he]), hx, crossEntropy_eq (by omega) (by omega), Exec.bind_ok]
    obtain ⟨k, hk, hmk⟩ := Act.maxElement_spec (src := x) hn (by omega)
    have hm : Act.maxAndArgmax x n = .ok (vec x k, k) := by
      have := hmk.1
      unfold Act.maxAndArgmax
      rw [hk, Exec.bind_ok, if_pos hmk.1, rd_vec (by omega)]; rfl
    simp only []
    rw [hm, Exec.bind_ok]
    unfold argactive
    simp only []
    rw [hl]
    rcases argactiveFrom_spec (t := l.target) n 0 (by omega) (by intro j hj; omega) with
      ⟨a, h1, h2⟩ | ⟨h1, h2⟩
    · rw [Nat.zero_add] at h2
      have hu : (cceScoring n).usable l.target := ⟨a, h2⟩
      have hiff : k = a ↔ (cceScoring n).good l.target x := by
        constructor
        · intro h; exact ⟨k, hmk, h ▸ h2⟩
        · rintro ⟨c, hc1, hc2⟩
          rw [Act.firstMax_unique hmk hc1, firstNonzero_unique h2 hc2]
      rw [h1]
      simp only []
      by_cases hg : k = a
      · rw [if_pos hg]
        refine ⟨_, _, rfl, rfl, htol, rfl, ?_, ?_, ?_⟩
        · simp [hu]
        · intro h; exact absurd hu h
        · intro _; rw [if_pos (hiff.mp hg), if_pos (hiff.mp hg)]; exact ⟨rfl, rfl, rfl⟩
      · have hg' := fun h => hg (hiff.mpr h)
        rw [if_neg hg]
        refine ⟨_, _, rfl, rfl, htol, rfl, ?_, ?_, ?_⟩
        · simp [hu]
        · intro h; exact absurd hu h
        · intro _; rw [if_neg hg', if_neg hg']; exact ⟨rfl, rfl, rfl⟩
    · rw [Nat.zero_add] at h2
      have hu : ¬ (cceScoring n).usable l.target := by
        rintro ⟨a, ha1, ha2, -⟩
        exact ha2 (h2 a ha1)
      rw [h1]
      refine ⟨_, _, rfl, rfl, htol, rfl, ?_, ?_, ?_⟩
      · simp [hu]
      · intro _
        refine ⟨rfl, rfl, ?_⟩
        simp only []
        rw [crossEnt_zero h2, add_zero]
      · intro h; exact absurd h hu

/-- The state of a layer agrees with an evaluation log. -/
def Tracks (S : Scoring) (l : Layer) (s : List ℝ × List (List ℝ × List ℝ)) : Prop :=
  l.target = s.1 ∧ l.correct = goodCount S s.2 ∧ l.correct + l.incorrect = s.2.length ∧
    l.cumulative = (s.2.map fun p => S.value p.1 p.2).sum

theorem tracks_forward {fwd : Layer → List ℝ → Exec (Layer × Option String)} {S : Scoring} {n : Nat}
    {tol : ℝ} (hb : Behaves fwd S n tol) {l : Layer} {s : List ℝ × List (List ℝ × List ℝ)}
    (hl : l.inputSize = n) (htol : l.tolerance = tol) (ht : s.1.length = n ∨ s.1 = [])
    (htr : Tracks S l s) {x : List ℝ} (hx : x.length = n) :
    ∃ l' e, fwd l x = .ok (l', e) ∧ l'.inputSize = n ∧ l'.tolerance = tol ∧
      (e.isSome ↔ ¬ S.usable s.1) ∧ Tracks S l' (logStep S s (.forward x)) := by
  obtain ⟨t1, t2, t3, t4⟩ := htr
  obtain ⟨l', e, h1, h2, h3, h4, h5, h6, h7⟩ := hb l x hl htol (by rw [t1]; exact ht) hx
  rw [t1] at h4 h5 h6 h7
  refine ⟨l', e, h1, h2, h3, h5, ?_⟩
  unfold logStep
  simp only []
  by_cases hu : S.usable s.1
  · obtain ⟨c1, c2, c3⟩ := h7 hu
    rw [if_pos hu]
    unfold Tracks
    simp only []
    refine ⟨h4, ?_, ?_, ?_⟩
    · rw [c2, t2]
      unfold goodCount
      rw [List.countP_append]
      congr 1
      by_cases hg : S.good s.1 x <;> simp [hg]
    · rw [c2, c3, List.length_append, ← t3]
      by_cases hg : S.good s.1 x <;> simp [hg] <;> omega
    · rw [c1, t4]; simp
  · obtain ⟨c1, c2, c3⟩ := h6 hu
    rw [if_neg hu]
    exact ⟨h4, by rw [c1, t2], by rw [c1, c2, t3], by rw [c3, t4]⟩

theorem tracks_run {fwd : Layer → List ℝ → Exec (Layer × Option String)} {S : Scoring} {n : Nat}
    {tol : ℝ} (hb : Behaves fwd S n tol) (ops : List Op) (hs : Sized n ops) :
    ∀ (l : Layer) (s : List ℝ × List (List ℝ × List ℝ)),
      l.inputSize = n → l.tolerance = tol → (s.1.length = n ∨ s.1 = []) → Tracks S l s →
      ∃ l' es, runOps fwd l ops = .ok (l', es) ∧ es.map Option.isSome = throwing S s.1 ops ∧
        Tracks S l' (ops.foldl (logStep S) s) := by
  induction ops with
  | nil => intro l s _ _ _ h; exact ⟨l, [], rfl, rfl, h⟩
  | cons op ops ih =>
    intro l s hl htol ht htr
    have hs' : Sized n ops := fun o ho => hs o (by simp [ho])
    have hop := hs op (by simp)
    cases op with
    | setTarget t =>
      simp only at hop
      obtain ⟨t1, t2, t3, t4⟩ := htr
      obtain ⟨l', es, h1, h2, h3⟩ := ih hs' (l.setTarget t) (t, s.2) hl htol hop ⟨rfl, t2, t3, t4⟩
      refine ⟨l', none :: es, ?_, ?_, h3⟩
      · simp only [runOps, stepOp, Exec.bind_ok, h1]; rfl
      · simp [throwing, h2]
    | resetScore =>
      obtain ⟨t1, t2, t3, t4⟩ := htr
      obtain ⟨l', es, h1, h2, h3⟩ := ih hs' l.resetScore (s.1, []) hl htol ht
        ⟨t1, rfl, rfl, rfl⟩
      refine ⟨l', none :: es, ?_, ?_, h3⟩
      · simp only [runOps, stepOp, Exec.bind_ok, h1]; rfl
      · simp [throwing, h2]
    | forward x =>
      obtain ⟨l1, e, e1, e2, e3, e4, e5⟩ := tracks_forward hb hl htol ht htr (x := x) hop
      have hsame : (logStep S s (.forward x)).1 = s.1 := by
        unfold logStep; simp only []; split <;> rfl
      obtain ⟨l', es, h1, h2, h3⟩ := ih hs' l1 _ e2 e3 (by rw [hsame]; exact ht) e5
      refine ⟨l', e :: es, ?_, ?_, h3⟩
      · simp only [runOps, stepOp, e1, Exec.bind_ok, h1]; rfl
      · rw [hsame] at h2
        simp only [List.map_cons, throwing, h2]
        congr 1
        rw [Bool.eq_iff_iff]; simpa using e4
    | trainingForward x =>
      have htr' : Tracks S { l with lastInput := x } s := htr
      obtain ⟨l1, e, e1, e2, e3, e4, e5⟩ := tracks_forward hb (l := { l with lastInput := x })
        hl htol ht htr' (x := x) hop
      have hsame : (logStep S s (.forward x)).1 = s.1 := by
        unfold logStep; simp only []; split <;> rfl
      obtain ⟨l', es, h1, h2, h3⟩ := ih hs' l1 _ e2 e3 (by rw [hsame]; exact ht) e5
      refine ⟨l', e :: es, ?_, ?_, h3⟩
      · simp only [runOps, stepOp, trainingForward, e1, Exec.bind_ok, h1]; rfl
      · rw [hsame] at h2
        simp only [List.map_cons, throwing, h2]
        congr 1
        rw [Bool.eq_iff_iff]; simpa using e4

end Verif.Loss
