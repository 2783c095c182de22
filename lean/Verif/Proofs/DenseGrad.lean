import Verif.Spec.Dense
import Mathlib.Analysis.Calculus.Deriv.Add
import Mathlib.Analysis.Calculus.Deriv.Mul
import Mathlib.Tactic.Ring

namespace Verif.Dense
open Verif.Spec Finset

variable {m n : Nat}

theorem hasDerivAt_of_affine {f : ℝ → ℝ} {c a x : ℝ} (h : ∀ t, f t = a + c * t) :
    HasDerivAt f c x := by
  have : f = fun t => a + c * t := funext h
  rw [this]
  simpa using ((hasDerivAt_id x).const_mul c).const_add a

theorem sum_replace_split (s : Finset ℕ) (i : ℕ) (hi : i ∈ s) (F : ℕ → ℝ) (G : ℝ) :
    ∑ k ∈ s, (if k = i then G else F k) = G + ∑ k ∈ s.erase i, F k := by
  rw [← Finset.add_sum_erase s _ hi, if_pos rfl]
  congr 1
  apply Finset.sum_congr rfl
  intro k hk
  rw [if_neg (Finset.ne_of_mem_erase hk)]

theorem deriv_bias (g b : ℕ → ℝ) (W : ℕ → ℕ → ℝ) (x : ℕ → ℝ) {i : ℕ} (hi : i < m) :
    HasDerivAt (fun t => denseObjective g W (replace b i t) x n m) (g i) (b i) := by
  apply hasDerivAt_of_affine (a := g i * (∑ j ∈ range n, W i j * x j)
    + ∑ k ∈ (range m).erase i, g k * affine W b x n k)
  intro t
  unfold denseObjective
  have : ∀ k ∈ range m, g k * affine W (replace b i t) x n k
      = if k = i then g i * (t + ∑ j ∈ range n, W i j * x j) else g k * affine W b x n k := by
    intro k _
    unfold affine replace
    split
    · next h => subst h; rfl
    · rfl
  rw [Finset.sum_congr rfl this, sum_replace_split _ _ (by simpa using hi)]
  ring

theorem deriv_weight (g b : ℕ → ℝ) (W : ℕ → ℕ → ℝ) (x : ℕ → ℝ) {i j : ℕ} (hi : i < m)
    (hj : j < n) :
    HasDerivAt (fun t => denseObjective g (replace2 W i j t) b x n m) (g i * x j) (W i j) := by
  apply hasDerivAt_of_affine (a := g i * (b i + ∑ l ∈ (range n).erase j, W i l * x l)
    + ∑ k ∈ (range m).erase i, g k * affine W b x n k)
  intro t
  unfold denseObjective
  have : ∀ k ∈ range m, g k * affine (replace2 W i j t) b x n k
      = if k = i then g i * (b i + (t * x j + ∑ l ∈ (range n).erase j, W i l * x l))
        else g k * affine W b x n k := by
    intro k _
    unfold affine replace2
    split
    · next h =>
      subst h
      congr 2
      rw [← sum_replace_split (range n) j (by simpa using hj) (fun l => W k l * x l)]
      apply Finset.sum_congr rfl
      intro l _
      by_cases hl : l = j
      · subst hl; simp
      · simp [hl]
    · next h =>
      congr 2
      apply Finset.sum_congr rfl
      intro l _
      simp [h]
  rw [Finset.sum_congr rfl this, sum_replace_split _ _ (by simpa using hi)]
  ring

theorem deriv_input (g b : ℕ → ℝ) (W : ℕ → ℕ → ℝ) (x : ℕ → ℝ) {j : ℕ} (hj : j < n) :
    HasDerivAt (fun t => denseObjective g W b (replace x j t) n m)
      (∑ i ∈ range m, g i * W i j) (x j) := by
  apply hasDerivAt_of_affine
    (a := ∑ i ∈ range m, g i * (b i + ∑ l ∈ (range n).erase j, W i l * x l))
  intro t
  unfold denseObjective
  rw [Finset.sum_mul, ← Finset.sum_add_distrib]
  apply Finset.sum_congr rfl
  intro i _
  unfold affine replace
  have : ∑ l ∈ range n, W i l * (if l = j then t else x l)
      = W i j * t + ∑ l ∈ (range n).erase j, W i l * x l := by
    rw [← sum_replace_split (range n) j (by simpa using hj)]
    apply Finset.sum_congr rfl
    intro l _
    by_cases hl : l = j
    · subst hl; simp
    · simp [hl]
  rw [this]
  ring

end Verif.Dense
