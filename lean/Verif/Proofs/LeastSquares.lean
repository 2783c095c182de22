import Verif.Proofs.Quadratic
import Verif.Proofs.BackAll
import Verif.Props.Dense
import Verif.Proofs.NnEval
import Verif.Spec.LeastSquares

/-! Gradient descent on the parameters of a linear network. -/

namespace Verif.Spec

open Verif.Net Finset

noncomputable section

variable {n m N : Nat}

/-- The layers of a linear network. -/
abbrev linearLayers (n m : Nat) : List AnyLayer := [.dense (denseNew n m), .act .linear (Act.Layer.new m)]

/-- Weights and biases as coefficients of the inputs and of an additional input 1. -/
def coef (n : Nat) (w c : List ℝ) (k j : Nat) : ℝ := if j < n then mat w n k j else vec c k

@[inherit_doc coef] def withOne (n : Nat) (s : Nat → List ℝ × List ℝ) (i j : Nat) : ℝ :=
  if j < n then vec (s i).1 j else 1

theorem total_coef (s : Nat → List ℝ × List ℝ) (w c : List ℝ) :
    Quad.total N m (n + 1) (withOne n s) (fun i k => vec (s i).2 k) (coef n w c) = fitError n m N s w c := by
  unfold Quad.total fitError Quad.err
  refine sum_congr rfl fun i _ => sum_congr rfl fun k _ => ?_
  rw [sum_range_succ]
  congr 2
  rw [add_comm]
  congr 1
  · simp [coef, withOne]
  · refine sum_congr rfl fun j hj => ?_
    simp [coef, withOne, mem_range.mp hj]

theorem sum_rows (f : Nat → ℝ) (m n : Nat) : ∑ i ∈ range (m * n), f i = ∑ k ∈ range m, ∑ j ∈ range n, f (k * n + j) := by
  induction m with
  | zero => simp
  | succ m ih => rw [Nat.succ_mul, sum_range_add, ih, sum_range_succ]

theorem inner_coef (w c w' c' : List ℝ) : Quad.inner m (n + 1) (fun k j => coef n w c k j - coef n w' c' k j)
    (fun k j => coef n w c k j - coef n w' c' k j) = sqDist (m * n) w w' + sqDist m c c' := by
  unfold Quad.inner sqDist
  rw [sum_rows, ← sum_add_distrib]
  refine sum_congr rfl fun k _ => ?_
  rw [sum_range_succ]
  congr 1
  · refine sum_congr rfl fun j hj => ?_
    simp [coef, mem_range.mp hj, mat, vec, sq]
  · simp [coef, sq]

theorem size_withOne (s : Nat → List ℝ × List ℝ) : Quad.size N (n + 1) (withOne n s) = inputSize n N s := by
  unfold Quad.size inputSize
  refine sum_congr rfl fun i _ => ?_
  rw [sum_range_succ]
  congr 1
  · refine sum_congr rfl fun j hj => ?_
    simp [withOne, mem_range.mp hj]
  · simp [withOne]

theorem linear_theta {θ : Theta} (h : FitsTheta (linearLayers n m) θ) :
    ∃ w c, θ = [[w, c], []] ∧ w.length = m * n ∧ c.length = m := by
  unfold FitsTheta at h
  have h' : θ.map (List.map List.length) = [[m * n, m], []] := by
    rw [h]; simp [AnyLayer.params, denseNew]
  match θ, h' with
  | [], h' => simp at h'
  | [_], h' => simp at h'
  | _ :: _ :: _ :: _, h' => simp at h'
  | [p, r], h' =>
    simp only [List.map_cons, List.map_nil, List.cons.injEq, List.map_eq_nil_iff, and_true] at h'
    obtain ⟨h1, rfl⟩ := h'
    match p, h1 with
    | [], h1 => simp at h1
    | [_], h1 => simp at h1
    | _ :: _ :: _ :: _, h1 => simp at h1
    | [w, c], h1 =>
      simp only [List.map_cons, List.map_nil, List.cons.injEq, and_true] at h1
      exact ⟨w, c, rfl, h1⟩

theorem linear_prediction {w c x : List ℝ} (hw : w.length = m * n) (hc : c.length = m) (hx : x.length = n) {k : Nat}
    (hk : k < m) : vec (prediction (withTheta (linearLayers n m) [[w, c], []]) x) k
      = vec c k + ∑ j ∈ range n, mat w n k j * vec x j := by
  have e := Props.C04_layer_forward { denseNew n m with weights := w, biases := c } x hx (by simp [denseNew]) hw hc
  have : prediction (withTheta (linearLayers n m) [[w, c], []]) x = tab m (affine (mat w n) (vec c) (vec x) n) := by
    show prediction [.dense { denseNew n m with weights := w, biases := c }, .act .linear (Act.Layer.new m)] x = _
    unfold prediction
    have e' : (AnyLayer.dense { denseNew n m with weights := w, biases := c }).forward x
      = .ok (.dense { denseNew n m with weights := w, biases := c, output := tab m (affine (mat w n) (vec c) (vec x) n) }, none) := by
      unfold AnyLayer.forward
      dsimp only
      rw [e]
      rfl
    rw [e']
    rfl
  rw [this, vec_tab _ hk]
  rfl

/-- The cost of a batch of all samples. -/
def fullCost (n m N : Nat) (b : ℝ) (s : Nat → List ℝ × List ℝ) (θ : Theta) : ℝ :=
  ((List.range N).map fun i => 1 / b * ∑ k ∈ range m,
    (vec (s i).2 k - vec (prediction (withTheta (linearLayers n m) θ) (s i).1) k) ^ 2).sum

theorem fullCost_eq {s : Nat → List ℝ × List ℝ} (hs : ∀ i < N, (s i).1.length = n) {b : ℝ} {w c : List ℝ}
    (hw : w.length = m * n) (hc : c.length = m) : fullCost n m N b s [[w, c], []] = 1 / b * fitError n m N s w c := by
  unfold fullCost fitError
  rw [Nn.sum_range_map, mul_sum]
  refine sum_congr rfl fun i hi => ?_
  congr 1
  refine sum_congr rfl fun k hk => ?_
  rw [linear_prediction hw hc (hs i (mem_range.mp hi)) (mem_range.mp hk)]

theorem mat_set {w : List ℝ} {k j k' j' : Nat} (hj : j < n) (hj' : j' < n) (hi : k * n + j < w.length) (v : ℝ) :
    mat (w.set (k * n + j) v) n k' j' = if k' = k ∧ j' = j then v else mat w n k' j' := by
  unfold mat
  rw [List.getD_eq_getElem?_getD, List.getElem?_set]
  by_cases h : k * n + j = k' * n + j'
  · have h1 : k = k' ∧ j = j' := by
      have e1 := congrArg (· / n) h
      have e2 := congrArg (· % n) h
      have hn : 0 < n := by omega
      simp only [Nat.mul_comm _ n, Nat.mul_add_div hn, Nat.div_eq_of_lt hj, Nat.div_eq_of_lt hj', Nat.add_zero,
        Nat.mul_add_mod, Nat.mod_eq_of_lt hj, Nat.mod_eq_of_lt hj'] at e1 e2
      exact ⟨e1, e2⟩
    rw [if_pos h, if_pos hi, if_pos ⟨h1.1.symm, h1.2.symm⟩]
    rfl
  · rw [if_neg h, if_neg (by rintro ⟨rfl, rfl⟩; exact h rfl), List.getD_eq_getElem?_getD]

theorem vec_set {c : List ℝ} {k k' : Nat} (hk : k < c.length) (v : ℝ) :
    vec (c.set k v) k' = if k' = k then v else vec c k' := by
  unfold vec
  rw [List.getD_eq_getElem?_getD, List.getElem?_set]
  by_cases h : k = k'
  · rw [if_pos h, if_pos hk, if_pos h.symm]
    rfl
  · rw [if_neg h, if_neg (fun e => h e.symm), List.getD_eq_getElem?_getD]

theorem total_congr {X Y P Q : Nat → Nat → ℝ} {q : Nat} (h : ∀ k < m, ∀ j < q, P k j = Q k j) :
    Quad.total N m q X Y P = Quad.total N m q X Y Q := by
  unfold Quad.total Quad.err
  refine sum_congr rfl fun i _ => sum_congr rfl fun k hk => ?_
  congr 2
  exact sum_congr rfl fun j hj => by rw [h k (mem_range.mp hk) j (mem_range.mp hj)]

theorem cost_weight {s : Nat → List ℝ × List ℝ} (hs : ∀ i < N, (s i).1.length = n) {b : ℝ} {w c : List ℝ}
    (hw : w.length = m * n) (hc : c.length = m) {k j : Nat} (hj : j < n) (hlt : k * n + j < m * n) (v : ℝ) :
    fullCost n m N b s [[w.set (k * n + j) v, c], []]
      = 1 / b * Quad.total N m (n + 1) (withOne n s) (fun i k => vec (s i).2 k)
        fun k' j' => if k' = k ∧ j' = j then v else coef n w c k' j' := by
  rw [fullCost_eq hs (by rw [List.length_set]; exact hw) hc, ← total_coef]
  congr 1
  refine total_congr fun k' _ j' hj' => ?_
  unfold coef
  by_cases h' : j' < n
  · rw [if_pos h', if_pos h', mat_set hj h' (by omega)]
  · rw [if_neg h', if_neg h', if_neg (by rintro ⟨_, rfl⟩; exact h' hj)]

theorem cost_bias {s : Nat → List ℝ × List ℝ} (hs : ∀ i < N, (s i).1.length = n) {b : ℝ} {w c : List ℝ}
    (hw : w.length = m * n) (hc : c.length = m) {k : Nat} (hk : k < m) (v : ℝ) :
    fullCost n m N b s [[w, c.set k v], []]
      = 1 / b * Quad.total N m (n + 1) (withOne n s) (fun i k => vec (s i).2 k)
        fun k' j' => if k' = k ∧ j' = n then v else coef n w c k' j' := by
  rw [fullCost_eq hs hw (by rw [List.length_set]; exact hc), ← total_coef]
  congr 1
  refine total_congr fun k' _ j' hj' => ?_
  unfold coef
  by_cases h' : j' < n
  · rw [if_pos h', if_pos h', if_neg (by rintro ⟨_, rfl⟩; omega)]
  · rw [if_neg h', if_neg h', vec_set (by omega)]
    have : j' = n := by omega
    simp only [this, and_true]

/-- A step of gradient descent moves the coefficients against the gradient. -/
theorem gd_coef {s : Nat → List ℝ × List ℝ} (hs : ∀ i < N, (s i).1.length = n) {b eta : ℝ} {w c w' c' : List ℝ}
    (hw : w.length = m * n) (hc : c.length = m)
    (h : GdStep (linearLayers n m) eta (fullCost n m N b s) [[w, c], []] [[w', c'], []]) {k j : Nat} (hk : k < m)
    (hj : j < n + 1) :
    coef n w' c' k j = coef n w c k j
      - eta * (1 / b) * Quad.grad N (n + 1) (withOne n s) (fun i k => vec (s i).2 k) (coef n w c) k j := by
  have key : ∀ D, HasDerivAt (fun v => 1 / b * Quad.total N m (n + 1) (withOne n s) (fun i k => vec (s i).2 k)
        fun k' j' => if k' = k ∧ j' = j then v else coef n w c k' j') D (coef n w c k j) →
      D = 1 / b * Quad.grad N (n + 1) (withOne n s) (fun i k => vec (s i).2 k) (coef n w c) k j := by
    intro D hD
    exact hD.unique ((Quad.total_deriv (coef n w c) hk hj).const_mul (1 / b))
  by_cases hjn : j < n
  · have hlt : k * n + j < m * n := by
      calc k * n + j < k * n + n := by omega
        _ = (k + 1) * n := by ring
        _ ≤ m * n := Nat.mul_le_mul_right n hk
    have e0 : ∀ u v : List ℝ, coef n u v k j = vec u (k * n + j) := by
      intro u v; simp only [coef, if_pos hjn]; rfl
    have hh : ∃ D, HasDerivAt (fun v => fullCost n m N b s [[w.set (k * n + j) v, c], []]) D (vec w (k * n + j)) ∧
        vec w' (k * n + j) = vec w (k * n + j) - eta * D :=
      h.2 0 _ 0 (k * n + j) rfl trivial (by simp [AnyLayer.params]) (by simpa [AnyLayer.params, denseNew] using hlt)
    obtain ⟨D, d1, d2⟩ := hh
    simp only [cost_weight hs hw hc hjn hlt] at d1
    rw [← e0 w c] at d1
    rw [e0, d2, key D d1, e0]
    ring
  · have hjn' : j = n := by omega
    subst hjn'
    have e0 : ∀ u v : List ℝ, coef j u v k j = vec v k := by
      intro u v; simp only [coef, if_neg hjn]
    have hh : ∃ D, HasDerivAt (fun v => fullCost j m N b s [[w, c.set k v], []]) D (vec c k) ∧
        vec c' k = vec c k - eta * D :=
      h.2 0 _ 1 k rfl trivial (by simp [AnyLayer.params]) (by simpa [AnyLayer.params, denseNew] using hk)
    obtain ⟨D, d1, d2⟩ := hh
    simp only [cost_bias hs hw hc hk] at d1
    rw [← e0 w c] at d1
    rw [e0, d2, key D d1, e0]
    ring

theorem fits_linear {w c : List ℝ} (hw : w.length = m * n) (hc : c.length = m) :
    FitsTheta (linearLayers n m) [[w, c], []] := by
  unfold FitsTheta
  simp [AnyLayer.params, denseNew, hw, hc]

theorem descent_coef {s : Nat → List ℝ × List ℝ} (hs : ∀ i < N, (s i).1.length = n) {b eta : ℝ} : ∀ (T : Nat)
    {w c : List ℝ} {θ : Theta}, w.length = m * n → c.length = m →
    Descent (linearLayers n m) eta (List.replicate T (fullCost n m N b s)) [[w, c], []] θ →
    ∃ (w' c' : List ℝ) (P : Nat → Nat → Nat → ℝ), θ = [[w', c'], []] ∧ w'.length = m * n ∧ c'.length = m ∧
      P 0 = coef n w c ∧ P T = coef n w' c' ∧ ∀ t < T, ∀ k < m, ∀ j < n + 1, P (t + 1) k j = P t k j
        - eta * (1 / b) * Quad.grad N (n + 1) (withOne n s) (fun i k => vec (s i).2 k) (P t) k j := by
  intro T
  induction T with
  | zero =>
    intro w c θ hw hc h
    cases h
    exact ⟨w, c, fun _ => coef n w c, rfl, hw, hc, rfl, rfl, by omega⟩
  | succ T ih =>
    intro w c θ hw hc h
    cases h with
    | cons h1 h2 =>
      obtain ⟨w1, c1, rfl, hw1, hc1⟩ := linear_theta h1.1
      obtain ⟨w', c', P, e1, e2, e3, e4, e5, e6⟩ := ih hw1 hc1 h2
      refine ⟨w', c', fun t => if t = 0 then coef n w c else P (t - 1), e1, e2, e3, rfl, ?_, ?_⟩
      · simpa using e5
      · intro t ht k hk j hj
        match t with
        | 0 =>
          simp only [Nat.zero_add, one_ne_zero, if_false, Nat.sub_self, if_true]
          rw [e4]
          exact gd_coef hs hw hc h1 hk hj
        | t + 1 =>
          simp only [Nat.add_sub_cancel, Nat.succ_ne_zero, if_false]
          exact e6 t (by omega) k hk j hj

/-- After `T` steps of gradient descent the error exceeds that of any other coefficients by a bound that tends
to 0. -/
theorem descent_le {s : Nat → List ℝ × List ℝ} (hs : ∀ i < N, (s i).1.length = n) {b eta : ℝ} (hb : 0 < b)
    (he : 0 < eta) (hsz : 2 * eta * inputSize n N s ≤ b) {T : Nat} (hT : 1 ≤ T) {w c : List ℝ} {θ : Theta}
    (hw : w.length = m * n) (hc : c.length = m)
    (h : Descent (linearLayers n m) eta (List.replicate T (fullCost n m N b s)) [[w, c], []] θ)
    (u v : List ℝ) :
    ∃ w' c', θ = [[w', c'], []] ∧ w'.length = m * n ∧ c'.length = m ∧ fitError n m N s w' c'
      ≤ fitError n m N s u v + b / (2 * eta * T) * (sqDist (m * n) w u + sqDist m c v) := by
  obtain ⟨w', c', P, e1, e2, e3, e4, e5, e6⟩ := descent_coef hs T hw hc h
  refine ⟨w', c', e1, e2, e3, ?_⟩
  have ha : 0 < eta * (1 / b) := by positivity
  have h1 := Quad.steps_le (m := m) ha (by
    rw [size_withOne]
    rw [show 2 * (eta * (1 / b)) * inputSize n N s = 2 * eta * inputSize n N s / b by ring, div_le_one hb]
    exact hsz) (coef n u v) P T e6
  rw [e4, e5, total_coef, total_coef, inner_coef, inner_coef] at h1
  have h2 : 0 ≤ sqDist (m * n) w' u + sqDist m c' v :=
    add_nonneg (sum_nonneg fun _ _ => sq_nonneg _) (sum_nonneg fun _ _ => sq_nonneg _)
  have hT' : (0 : ℝ) < T := by exact_mod_cast hT
  have h3 : fitError n m N s w' c' - fitError n m N s u v
      ≤ b / (2 * eta * T) * (sqDist (m * n) w u + sqDist m c v) := by
    rw [div_mul_eq_mul_div, le_div_iff₀ (by positivity)]
    have h4 : 2 * (eta * (1 / b)) * (T * (fitError n m N s w' c' - fitError n m N s u v))
        ≤ sqDist (m * n) w u + sqDist m c v := by linarith
    calc (fitError n m N s w' c' - fitError n m N s u v) * (2 * eta * T)
        = b * (2 * (eta * (1 / b)) * (T * (fitError n m N s w' c' - fitError n m N s u v))) := by
          field_simp
      _ ≤ b * (sqDist (m * n) w u + sqDist m c v) := mul_le_mul_of_nonneg_left h4 hb.le
  linarith

end

end Verif.Spec
