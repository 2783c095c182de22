import Verif.Spec.Recurrent
import Verif.Spec.Dense
import Verif.Proofs.DenseGrad
import Mathlib.Analysis.Calculus.Deriv.Comp
import Mathlib.Tactic.Linarith

/-
Backpropagation through time is the derivative of the recurrence (pure mathematics about the
specification, no program in it).
-/

namespace Verif.Rnn
open Verif.Spec Finset

/-- The cell `c` with other weights and bias of the hidden part. -/
def withHidden (c : Cell ℝ) (A B : Nat → Nat → ℝ) (b : Nat → ℝ) : Cell ℝ :=
  { c with
    wih := A, whh := B, bh := b }

/-- Directional derivative of the state. -/
def dstate (B : Nat → Nat → ℝ) (h : Nat) (d dir : Nat → Nat → ℝ) : Nat → Nat → ℝ
  | 0 => fun _ => 0
  | t + 1 => fun i => d t i * (dir t i + ∑ j ∈ range h, B i j * dstate B h d dir t j)

theorem state_deriv {c : Cell ℝ} {act dact : ℝ → ℝ} (hact : ∀ z, HasDerivAt act (dact z) z)
    {A B X : ℝ → Nat → Nat → ℝ} {b : ℝ → Nat → ℝ} {A' B' X' : Nat → Nat → ℝ} {b' : Nat → ℝ} {θ : ℝ}
    (hA : ∀ i j, HasDerivAt (fun u => A u i j) (A' i j) θ)
    (hB : ∀ i j, HasDerivAt (fun u => B u i j) (B' i j) θ)
    (hX : ∀ i j, HasDerivAt (fun u => X u i j) (X' i j) θ)
    (hb : ∀ i, HasDerivAt (fun u => b u i) (b' i) θ) (s0 : Nat → ℝ) (t : Nat) :
    ∀ i, HasDerivAt (fun u => (withHidden c (A u) (B u) (b u)).state act (X u) s0 t i)
      (dstate (B θ) c.h
        (fun t i => dact ((withHidden c (A θ) (B θ) (b θ)).pre (X θ t)
          ((withHidden c (A θ) (B θ) (b θ)).state act (X θ) s0 t) i))
        (fun t i => ∑ j ∈ range c.n, (A' i j * X θ t j + A θ i j * X' t j)
          + ∑ j ∈ range c.h, B' i j * (withHidden c (A θ) (B θ) (b θ)).state act (X θ) s0 t j
          + b' i) t i) θ := by
  induction t with
  | zero => intro i; exact hasDerivAt_const _ _
  | succ t ih =>
    intro i
    have h1 : HasDerivAt (fun u => ∑ j ∈ range c.n, A u i j * X u t j)
        (∑ j ∈ range c.n, (A' i j * X θ t j + A θ i j * X' t j)) θ :=
      HasDerivAt.fun_sum fun j _ => (hA i j).mul (hX t j)
    have h2 := HasDerivAt.fun_sum (u := range c.h) fun j (_ : j ∈ range c.h) =>
      (hB i j).mul (ih j)
    have h3 := (h1.add h2).add (hb i)
    refine ((hact _).comp θ h3).congr_deriv ?_
    show _ = dact _ * _
    congr 1
    rw [sum_add_distrib (s := range c.h)]
    ring

/-- The adjoint identity. -/
theorem adjoint (c : Cell ℝ) (d dir g : Nat → Nat → ℝ) (T k : Nat) (hk : k ≤ T) :
    ∑ q ∈ range k, ∑ o ∈ range c.o, g (T - 1 - q) o *
        ∑ j ∈ range c.h, c.who o j * dstate c.whh c.h d dir (T - 1 - q + 1) j
      = ∑ q ∈ range k, ∑ i ∈ range c.h, c.delta d g T (T - 1 - q) i * dir (T - 1 - q) i
        + ∑ j ∈ range c.h, c.carry d g T k j * dstate c.whh c.h d dir (T - k) j := by
  induction k with
  | zero => simp [Cell.carry]
  | succ k ih =>
    rw [sum_range_succ, ih (by omega), sum_range_succ, add_assoc, add_assoc]
    congr 1
    obtain ⟨t, rfl⟩ : ∃ t, T = t + 1 + k := ⟨T - 1 - k, by omega⟩
    have e1 : t + 1 + k - 1 - k = t := by omega
    have e2 : t + 1 + k - k = t + 1 := by omega
    have e3 : t + 1 + k - (k + 1) = t := by omega
    rw [e1, e2, e3]
    set V := dstate c.whh c.h d dir with hV
    set K := c.carry d g (t + 1 + k) with hK
    have hd : ∀ i, c.delta d g (t + 1 + k) t i
        = d t i * (∑ o ∈ range c.o, c.who o i * g t o + K k i) := by
      intro i
      unfold Cell.delta
      rw [show t + 1 + k - 1 - t = k by omega]
    have hK1 : ∀ j, K (k + 1) j = ∑ i ∈ range c.h, c.whh i j * c.delta d g (t + 1 + k) t i := by
      intro j
      show ∑ i ∈ range c.h, _ = _
      apply sum_congr rfl
      intro i _
      rw [hd i, e1]
    have hV1 : ∀ j, V (t + 1) j = d t j * (dir t j + ∑ l ∈ range c.h, c.whh j l * V t l) :=
      fun j => rfl
    have l1 : ∑ o ∈ range c.o, g t o * ∑ j ∈ range c.h, c.who o j * V (t + 1) j
        = ∑ j ∈ range c.h, (∑ o ∈ range c.o, c.who o j * g t o) * V (t + 1) j := by
      simp_rw [mul_sum, sum_mul]
      rw [sum_comm]
      apply sum_congr rfl; intro j _
      apply sum_congr rfl; intro o _
      ring
    have l2 : ∑ j ∈ range c.h, K (k + 1) j * V t j
        = ∑ i ∈ range c.h, c.delta d g (t + 1 + k) t i * ∑ l ∈ range c.h, c.whh i l * V t l := by
      simp_rw [hK1, sum_mul, mul_sum]
      rw [sum_comm]
      apply sum_congr rfl; intro i _
      apply sum_congr rfl; intro j _
      ring
    rw [l1, l2, ← sum_add_distrib, ← sum_add_distrib]
    apply sum_congr rfl
    intro j _
    rw [hV1, hd]
    ring

/-- The derivative of the objective in the hidden part and the input. -/
theorem objective_deriv {c : Cell ℝ} {act dact : ℝ → ℝ} (hact : ∀ z, HasDerivAt act (dact z) z)
    {A B X : ℝ → Nat → Nat → ℝ} {b : ℝ → Nat → ℝ} {A' B' X' : Nat → Nat → ℝ} {b' : Nat → ℝ} {θ : ℝ}
    (hA : ∀ i j, HasDerivAt (fun u => A u i j) (A' i j) θ)
    (hB : ∀ i j, HasDerivAt (fun u => B u i j) (B' i j) θ)
    (hX : ∀ i j, HasDerivAt (fun u => X u i j) (X' i j) θ)
    (hb : ∀ i, HasDerivAt (fun u => b u i) (b' i) θ) (s0 : Nat → ℝ) (g : Nat → Nat → ℝ) (T : Nat)
    (hA0 : A θ = c.wih) (hB0 : B θ = c.whh) (hb0 : b θ = c.bh) :
    HasDerivAt (fun u => (withHidden c (A u) (B u) (b u)).objective act (X u) s0 g T)
      (∑ t ∈ range T, ∑ i ∈ range c.h,
        c.delta (fun t i => dact (c.pre (X θ t) (c.state act (X θ) s0 t) i)) g T t i
          * (∑ j ∈ range c.n, (A' i j * X θ t j + c.wih i j * X' t j)
            + ∑ j ∈ range c.h, B' i j * c.state act (X θ) s0 t j + b' i)) θ := by
  have hc : withHidden c (A θ) (B θ) (b θ) = c := by
    unfold withHidden; rw [hA0, hB0, hb0]
  have hs := state_deriv hact hA hB hX hb s0 (c := c)
  rw [hc, hA0, hB0] at hs
  have key := adjoint c (fun t i => dact (c.pre (X θ t) (c.state act (X θ) s0 t) i))
    (fun t i => ∑ j ∈ range c.n, (A' i j * X θ t j + c.wih i j * X' t j)
            + ∑ j ∈ range c.h, B' i j * c.state act (X θ) s0 t j + b' i) g T T le_rfl
  rw [Nat.sub_self] at key
  simp only [dstate, mul_zero, sum_const_zero, add_zero] at key
  have hfull : HasDerivAt (fun u => (withHidden c (A u) (B u) (b u)).objective act (X u) s0 g T)
      (∑ t ∈ range T, ∑ o ∈ range c.o, g t o * ∑ j ∈ range c.h, c.who o j
        * dstate c.whh c.h (fun t i => dact (c.pre (X θ t) (c.state act (X θ) s0 t) i))
          (fun t i => ∑ j ∈ range c.n, (A' i j * X θ t j + c.wih i j * X' t j)
            + ∑ j ∈ range c.h, B' i j * c.state act (X θ) s0 t j + b' i) (t + 1) j) θ := by
    apply HasDerivAt.fun_sum
    intro t _
    show HasDerivAt (fun y => ∑ o ∈ range c.o, g t o * (∑ j ∈ range c.h, c.who o j
      * (withHidden c (A y) (B y) (b y)).state act (X y) s0 (t + 1) j + c.bo o)) _ θ
    apply HasDerivAt.fun_sum
    intro o _
    apply HasDerivAt.const_mul
    apply HasDerivAt.add_const
    apply HasDerivAt.fun_sum
    intro j _
    exact (hs (t + 1) j).const_mul (c.who o j)
  refine hfull.congr_deriv ?_
  rw [← sum_range_reflect, ← sum_range_reflect (fun t => ∑ i ∈ range c.h, _)]
  exact key

theorem const_deriv (M : Nat → Nat → ℝ) (θ : ℝ) (i j : Nat) :
    HasDerivAt (fun _ : ℝ => M i j) ((fun _ _ => 0 : Nat → Nat → ℝ) i j) θ := hasDerivAt_const _ _

theorem replace_deriv (f : Nat → ℝ) (i : Nat) (θ : ℝ) (k : Nat) :
    HasDerivAt (fun u => replace f i u k) (if k = i then 1 else 0) θ := by
  unfold replace
  by_cases h : k = i
  · simp only [h, if_true]; exact hasDerivAt_id _
  · simp only [h, if_false]; exact hasDerivAt_const _ _

theorem replace2_deriv (f : Nat → Nat → ℝ) (i j : Nat) (θ : ℝ) (k l : Nat) :
    HasDerivAt (fun u => replace2 f i j u k l) (if k = i ∧ l = j then 1 else 0) θ := by
  unfold replace2
  by_cases h : k = i ∧ l = j
  · simp only [h, and_self, if_true]; exact hasDerivAt_id _
  · simp only [h, if_false]; exact hasDerivAt_const _ _

theorem replace_self (f : Nat → ℝ) (i : Nat) : replace f i (f i) = f := by
  funext k; unfold replace; split
  · next h => rw [h]
  · rfl

theorem replace2_self (f : Nat → Nat → ℝ) (i j : Nat) : replace2 f i j (f i j) = f := by
  funext k l; unfold replace2; split
  · next h => rw [h.1, h.2]
  · rfl

section params
variable {act dact : ℝ → ℝ} (hact : ∀ z, HasDerivAt act (dact z) z) (c : Cell ℝ)
  (x : Nat → Nat → ℝ) (s0 : Nat → ℝ) (g : Nat → Nat → ℝ) (T : Nat)
include hact

/-- The true local factors. -/
def trueFactor (act dact : ℝ → ℝ) (c : Cell ℝ) (x : Nat → Nat → ℝ) (s0 : Nat → ℝ) (t i : Nat) : ℝ :=
  dact (c.pre (x t) (c.state act x s0 t) i)

theorem deriv_bh {i : Nat} (hi : i < c.h) :
    HasDerivAt (fun u => ({ c with bh := replace c.bh i u }).objective act x s0 g T)
      (∑ t ∈ range T, c.delta (trueFactor act dact c x s0) g T t i) (c.bh i) := by
  have := objective_deriv hact (c := c) (A := fun _ => c.wih) (B := fun _ => c.whh)
    (X := fun _ => x) (b := fun u => replace c.bh i u) (θ := c.bh i) (const_deriv _ _)
    (const_deriv _ _) (const_deriv _ _) (replace_deriv _ _ _) s0 g T rfl rfl (replace_self _ _)
  refine this.congr_deriv ?_
  apply sum_congr rfl
  intro t _
  simp only [zero_mul, mul_zero, add_zero, sum_const_zero, zero_add, mul_ite, mul_one]
  rw [sum_ite_eq' (range c.h) i, if_pos (by simpa using hi)]
  rfl

theorem deriv_wih {i j : Nat} (hi : i < c.h) (hj : j < c.n) :
    HasDerivAt (fun u => ({ c with wih := replace2 c.wih i j u }).objective act x s0 g T)
      (∑ t ∈ range T, c.delta (trueFactor act dact c x s0) g T t i * x t j) (c.wih i j) := by
  have := objective_deriv hact (c := c) (A := fun u => replace2 c.wih i j u) (B := fun _ => c.whh)
    (X := fun _ => x) (b := fun _ => c.bh) (θ := c.wih i j) (b' := fun _ => 0) (replace2_deriv _ _ _ _)
    (const_deriv _ _) (const_deriv _ _) (fun _ => hasDerivAt_const _ _) s0 g T (replace2_self _ _ _)
    rfl rfl
  refine this.congr_deriv ?_
  apply sum_congr rfl
  intro t _
  simp only [zero_mul, mul_zero, add_zero, sum_const_zero, ite_mul, one_mul]
  have e : ∀ k, ∑ l ∈ range c.n, (if k = i ∧ l = j then x t l else 0) = if k = i then x t j else 0 := by
    intro k
    by_cases h : k = i
    · simp only [h, true_and, if_true]
      rw [sum_ite_eq' (range c.n) j, if_pos (by simpa using hj)]
    · simp [h]
  simp only [e, mul_ite, mul_zero]
  rw [sum_ite_eq' (range c.h) i, if_pos (by simpa using hi)]
  rfl

theorem deriv_whh {i j : Nat} (hi : i < c.h) (hj : j < c.h) :
    HasDerivAt (fun u => ({ c with whh := replace2 c.whh i j u }).objective act x s0 g T)
      (∑ t ∈ range T, c.delta (trueFactor act dact c x s0) g T t i * c.state act x s0 t j)
      (c.whh i j) := by
  have := objective_deriv hact (c := c) (A := fun _ => c.wih) (B := fun u => replace2 c.whh i j u)
    (X := fun _ => x) (b := fun _ => c.bh) (θ := c.whh i j) (b' := fun _ => 0) (const_deriv _ _)
    (replace2_deriv _ _ _ _) (const_deriv _ _) (fun _ => hasDerivAt_const _ _) s0 g T rfl
    (replace2_self _ _ _) rfl
  refine this.congr_deriv ?_
  apply sum_congr rfl
  intro t _
  simp only [zero_mul, mul_zero, add_zero, sum_const_zero, ite_mul, one_mul, zero_add]
  have e : ∀ k, ∑ l ∈ range c.h, (if k = i ∧ l = j then c.state act x s0 t l else 0)
      = if k = i then c.state act x s0 t j else 0 := by
    intro k
    by_cases h : k = i
    · simp only [h, true_and, if_true]
      rw [sum_ite_eq' (range c.h) j, if_pos (by simpa using hj)]
    · simp [h]
  simp only [e, mul_ite, mul_zero]
  rw [sum_ite_eq' (range c.h) i, if_pos (by simpa using hi)]
  rfl

theorem deriv_x {τ j : Nat} (hτ : τ < T) (hj : j < c.n) :
    HasDerivAt (fun u => c.objective act (replace2 x τ j u) s0 g T)
      (∑ i ∈ range c.h, c.delta (trueFactor act dact c x s0) g T τ i * c.wih i j) (x τ j) := by
  have := objective_deriv hact (c := c) (A := fun _ => c.wih) (B := fun _ => c.whh)
    (X := fun u => replace2 x τ j u) (b := fun _ => c.bh) (θ := x τ j) (b' := fun _ => 0)
    (const_deriv _ _) (const_deriv _ _) (replace2_deriv _ _ _ _) (fun _ => hasDerivAt_const _ _)
    s0 g T rfl rfl rfl
  refine this.congr_deriv ?_
  simp only [replace2_self, zero_mul, add_zero, sum_const_zero, zero_add, mul_ite, mul_one, mul_zero]
  have e : ∀ t k, ∑ l ∈ range c.n, (if t = τ ∧ l = j then c.wih k l else 0)
      = if t = τ then c.wih k j else 0 := by
    intro t k
    by_cases h : t = τ
    · simp only [h, true_and, if_true]
      rw [sum_ite_eq' (range c.n) j, if_pos (by simpa using hj)]
    · simp [h]
  simp only [e, mul_ite, mul_zero]
  rw [sum_eq_single τ]
  · simp; rfl
  · intro t _ h; simp [h]
  · intro h; exact absurd (by simpa using hτ) h

omit hact

theorem deriv_bo {i : Nat} (hi : i < c.o) :
    HasDerivAt (fun u => ({ c with bo := replace c.bo i u }).objective act x s0 g T)
      (∑ t ∈ range T, g t i) (c.bo i) := by
  have hst : ∀ u t, ({ c with bo := replace c.bo i u } : Cell ℝ).state act x s0 t
      = c.state act x s0 t := by
    intro u t
    induction t with
    | zero => rfl
    | succ t ih => funext k; simp only [Cell.state, ih]; rfl
  unfold Cell.objective
  apply HasDerivAt.fun_sum
  intro t _
  have : HasDerivAt (fun u => ∑ k ∈ range c.o, g t k *
      (∑ j ∈ range c.h, c.who k j * c.state act x s0 (t + 1) j + replace c.bo i u k))
      (∑ k ∈ range c.o, g t k * (if k = i then 1 else 0)) (c.bo i) := by
    apply HasDerivAt.fun_sum
    intro k _
    exact ((replace_deriv _ _ _ _).const_add _).const_mul _
  refine (this.congr_deriv ?_).congr_of_eventuallyEq (Filter.Eventually.of_forall fun u => ?_)
  · simp only [mul_ite, mul_one, mul_zero]
    rw [sum_ite_eq' (range c.o) i, if_pos (by simpa using hi)]
  · simp only [Cell.out, hst]

theorem deriv_who {i j : Nat} (hi : i < c.o) (hj : j < c.h) :
    HasDerivAt (fun u => ({ c with who := replace2 c.who i j u }).objective act x s0 g T)
      (∑ t ∈ range T, g t i * c.state act x s0 (t + 1) j) (c.who i j) := by
  have hst : ∀ u t, ({ c with who := replace2 c.who i j u } : Cell ℝ).state act x s0 t
      = c.state act x s0 t := by
    intro u t
    induction t with
    | zero => rfl
    | succ t ih => funext k; simp only [Cell.state, ih]; rfl
  unfold Cell.objective
  apply HasDerivAt.fun_sum
  intro t _
  have : HasDerivAt (fun u => ∑ k ∈ range c.o, g t k *
      (∑ l ∈ range c.h, replace2 c.who i j u k l * c.state act x s0 (t + 1) l + c.bo k))
      (∑ k ∈ range c.o, g t k * (∑ l ∈ range c.h, (if k = i ∧ l = j then 1 else 0)
        * c.state act x s0 (t + 1) l)) (c.who i j) := by
    apply HasDerivAt.fun_sum
    intro k _
    apply HasDerivAt.const_mul
    apply HasDerivAt.add_const
    apply HasDerivAt.fun_sum
    intro l _
    exact (replace2_deriv _ _ _ _ _ _).mul_const _
  refine (this.congr_deriv ?_).congr_of_eventuallyEq (Filter.Eventually.of_forall fun u => ?_)
  · have e : ∀ k, ∑ l ∈ range c.h, (if k = i ∧ l = j then (1:ℝ) else 0) * c.state act x s0 (t + 1) l
        = if k = i then c.state act x s0 (t + 1) j else 0 := by
      intro k
      simp only [ite_mul, one_mul, zero_mul]
      by_cases h : k = i
      · simp only [h, true_and, if_true]
        rw [sum_ite_eq' (range c.h) j, if_pos (by simpa using hj)]
      · simp [h]
    simp only [e, mul_ite, mul_zero]
    rw [sum_ite_eq' (range c.o) i, if_pos (by simpa using hi)]
  · simp only [Cell.out, hst]

end params

end Verif.Rnn
