import Verif.Proofs.Activation

/-
Properties C15 (activation derivatives), C16 (activation layers), C17, C18 (softmax) and
C21 (argmax).
-/

namespace Verif.Props
open Verif.Spec Verif.Act Finset

/-! ### C15 -/

/-- C15: `relu_1` is the derivative of `relu` away from 0. -/
theorem C15_relu_derivative (x : ℝ) (h : x ≠ 0) : HasDerivAt relu (relu1 x) x := relu_deriv h

/-- C15: `elu_1` is the derivative of `elu` away from 0, and at 0 as well for `alpha = 1`. -/
theorem C15_elu_derivative (alpha x : ℝ) (h : x ≠ 0 ∨ alpha = 1) :
    HasDerivAt (elu alpha) (elu1 alpha x) x := elu_deriv h

/-- C15: `tanh_1` is the derivative of `tanh` everywhere. -/
theorem C15_tanh_derivative (x : ℝ) : HasDerivAt Real.tanh (tanh1 x) x := tanh_deriv x

/-- C15: `sigmoid_1` is the derivative of the logistic function everywhere. -/
theorem C15_sigmoid_derivative (x : ℝ) :
    HasDerivAt (fun y => 1 / (1 + Real.exp (-y))) (sigmoid1 x) x := sigmoid_deriv x

/-- C15: the functions themselves are the textbook ones. -/
theorem C15_values (alpha x : ℝ) :
    relu x = Max.max x 0 ∧ (0 < x → elu alpha x = x) ∧
    (x ≤ 0 → elu alpha x = alpha * (Real.exp x - 1)) ∧
    Act.tanh x = Real.sinh x / Real.cosh x ∧ 0 < sigmoid x ∧ sigmoid x < 1 ∧
    sigmoid (-x) = 1 - sigmoid x := by
  have hp := Real.exp_pos (-x)
  have hq := Real.exp_pos x
  refine ⟨?_, ?_, ?_, Real.tanh_eq_sinh_div_cosh x, ?_, ?_, ?_⟩
  · unfold relu
    split
    · next h => rw [max_eq_right h.le]
    · next h => rw [max_eq_left (not_lt.mp h)]
  · intro h; unfold elu; rw [if_pos h]
  · intro h; unfold elu; rw [if_neg (not_lt.mpr h)]
  · unfold sigmoid; positivity
  · unfold sigmoid; rw [div_lt_one (by positivity)]; linarith
  · unfold sigmoid
    rw [neg_neg, Real.exp_neg]
    have : Real.exp x ≠ 0 := hq.ne'
    field_simp
    ring

/-- C15: the array overloads apply the function to each of the first `n` elements. -/
theorem C15_arrays (f : ℝ → ℝ) (dst src : List ℝ) (hs : dst.length ≤ src.length) :
    mapArr f dst src dst.length = .ok (tab dst.length fun i => f (vec src i)) :=
  mapArr_eq f rfl hs

/-- The exclusions in C15 are needed: `relu` has no derivative at 0. -/
theorem C15_relu_at_zero : ¬ ∃ d, HasDerivAt relu d 0 := by
  rintro ⟨d, h⟩
  have h1 : HasDerivWithinAt relu 0 (Set.Iic 0) 0 := by
    refine ((hasDerivAt_const (0:ℝ) (0 : ℝ)).hasDerivWithinAt).congr ?_ (by simp [relu])
    intro y hy
    unfold relu
    split
    · rfl
    · next hn => exact le_antisymm hy (not_lt.mp hn)
  have h2 : HasDerivWithinAt relu 1 (Set.Ici 0) 0 := by
    refine ((hasDerivAt_id (0:ℝ)).hasDerivWithinAt).congr ?_ (by simp [relu])
    intro y hy
    unfold relu
    rw [if_neg (not_lt.mpr hy)]; rfl
  have e1 := (uniqueDiffOn_Iic (0:ℝ) 0 (by simp)).eq_deriv _ h.hasDerivWithinAt h1
  have e2 := (uniqueDiffOn_Ici (0:ℝ) 0 (by simp)).eq_deriv _ h.hasDerivWithinAt h2
  rw [e1] at e2
  exact zero_ne_one e2

/-! ### C16 -/

/-- What C16 asks of an activation layer with buffers of length `n`: after `forward(x)` the
output holds the function values, and `backward(g)` then leaves `g i` times the derivative of
`f` at the input `x i` (which the layer has not stored) in every cell `i` where `ok (x i)`. -/
def BackwardFromOutput (f : ℝ → ℝ) (ok : ℝ → Prop) (fwd bwd : Act.Layer → List ℝ → Exec Act.Layer) :
    Prop :=
  ∀ (l : Act.Layer) (x g : List ℝ) (n : Nat), l.output.length = n → l.inputGradients.length = n →
    x.length = n → g.length = n →
    ∃ l1 l2, fwd l x = .ok l1 ∧ bwd l1 g = .ok l2 ∧
      l1.output = x.map f ∧ l2.output = l1.output ∧ l2.inputGradients.length = n ∧
      ∀ i, i < n → ok (vec x i) →
        ∃ d, HasDerivAt f d (vec x i) ∧ vec l2.inputGradients i = d * vec g i

theorem tab_map_vec (f : ℝ → ℝ) (x : List ℝ) : tab x.length (fun i => f (vec x i)) = x.map f := by
  conv_rhs => rw [eq_tab x]
  unfold tab
  rw [List.map_map]; rfl

theorem backwardFromOutput_of {f f1 fo : ℝ → ℝ} {ok : ℝ → Prop}
    (hd : ∀ x, ok x → HasDerivAt f (f1 x) x) (ho : ∀ x, fo (f x) = f1 x) :
    BackwardFromOutput f ok (Act.Layer.forwardWith f) (Act.Layer.backwardWith fo) := by
  intro l x g n hl hi hx hg
  refine ⟨_, _, forwardWith_eq f (by omega), backwardWith_eq fo (by simp; omega) (by simp; omega),
    ?_, rfl, ?_, ?_⟩
  · rw [show l.output.length = x.length by omega, tab_map_vec]
  · simpa using hi
  · intro i hin hok
    refine ⟨f1 (vec x i), hd _ hok, ?_⟩
    simp only []
    rw [vec_tab _ (by omega), vec_tab _ (by omega), ho]

/-- C16: ReLU layer. -/
theorem C16_relu : BackwardFromOutput relu (· ≠ 0) reluForward reluBackward :=
  backwardFromOutput_of (fun _ h => relu_deriv h) relu1_of_output

/-- C16: tanh layer. -/
theorem C16_tanh : BackwardFromOutput Real.tanh (fun _ => True) tanhForward tanhBackward :=
  backwardFromOutput_of (fun x _ => tanh_deriv x) (fun _ => rfl)

/-- C16: sigmoid layer. -/
theorem C16_sigmoid : BackwardFromOutput sigmoid (fun _ => True) sigmoidForward sigmoidBackward :=
  backwardFromOutput_of (fun x _ => sigmoid_deriv x) (fun _ => rfl)

/-- C16: ELU layer for a non-negative `alpha`.  Missing: negative `alpha`, for which the claim is
false (`C16_elu_refuted`). -/
theorem C16_elu_partial (alpha : ℝ) (ha : 0 ≤ alpha) :
    BackwardFromOutput (elu alpha) (fun x => x ≠ 0 ∨ alpha = 1) (eluForward alpha)
      (eluBackward alpha) :=
  backwardFromOutput_of (fun _ h => elu_deriv h) (elu1_of_output ha)

/-- C16 is false for negative `alpha`: the ELU layer accepts any `alpha`, but then the sign of
the output does not tell the sign of the input. -/
theorem C16_elu_refuted : ¬ ∀ alpha : ℝ,
    BackwardFromOutput (elu alpha) (fun x => x ≠ 0 ∨ alpha = 1) (eluForward alpha)
      (eluBackward alpha) := by
  intro h
  have hneg : Real.exp (-1) < 1 := by rw [Real.exp_lt_one_iff]; norm_num
  obtain ⟨l1, l2, h1, h2, -, -, -, h4⟩ :=
    h (-1) ⟨[0], [0]⟩ [-1] [1] 1 rfl rfl rfl rfl
  obtain ⟨d, hd, hv⟩ := h4 0 (by omega) (Or.inl (by simp [vec]))
  have hd' : HasDerivAt (elu (-1)) (elu1 (-1) (-1)) (-1) := elu_deriv (Or.inl (by norm_num))
  have e : d = elu1 (-1) (-1) := by
    have hd0 : HasDerivAt (elu (-1)) d (-1) := by simpa [vec] using hd
    exact hd0.unique hd'
  unfold eluForward at h1
  rw [forwardWith_eq _ (by simp)] at h1
  cases h1
  unfold eluBackward at h2
  rw [backwardWith_eq _ (by simp) (by simp)] at h2
  cases h2
  simp only [] at hv
  rw [vec_tab _ (by simp), vec_tab _ (by simp), e] at hv
  have e2 : elu (-1) (-1) = 1 - Real.exp (-1) := by
    unfold elu; rw [if_neg (by norm_num)]; ring
  have e3 : vec [(-1 : ℝ)] 0 = -1 := rfl
  rw [e3, e2] at hv
  unfold elu1Opt elu1 at hv
  rw [if_pos (by linarith), if_neg (by norm_num)] at hv
  have e4 : vec [(1 : ℝ)] 0 = 1 := rfl
  rw [e4] at hv
  have := Real.exp_pos (-1)
  linarith

/-- C16: linear layer. -/
theorem C16_linear : BackwardFromOutput (fun x => x) (fun _ => True) linearForward
    linearBackward := by
  intro l x g n hl hi hx hg
  refine ⟨⟨x, l.inputGradients⟩, ⟨x, tab l.inputGradients.length (fun i => vec g i)⟩, rfl, ?_,
    by simp, rfl, by simpa using hi, ?_⟩
  · unfold linearBackward
    simp only []
    rw [mapArr_eq _ rfl (by omega)]
    rfl
  · intro i hin _
    refine ⟨1, hasDerivAt_id _, ?_⟩
    simp only []
    rw [vec_tab _ (by omega), one_mul]

/-- Non-vacuity of C16: a freshly constructed layer of any size meets the size hypotheses, and
`alpha = 1` (the default of `EluLayer`) meets the one of `C16_elu_partial`. -/
example : (Act.Layer.new 3).output.length = 3 ∧ (Act.Layer.new 3).inputGradients.length = 3 ∧
    (0 : ℝ) ≤ 1 := by
  refine ⟨rfl, rfl, by norm_num⟩

/-! ### C17 -/

/-- C17: `softmax` and `stable_softmax` compute the same values, those of the definition. -/
theorem C17_softmax_values (dst src : List ℝ) (n : Nat) (hn : 0 < n) (hd : dst.length = n)
    (hs : n ≤ src.length) :
    softmax dst src n = .ok (tab n (softmaxFn n (vec src))) ∧
    stableSoftmax dst (some src) n = softmax dst src n := by
  refine ⟨softmax_eq hd hs, ?_⟩
  rw [softmax_eq hd hs]
  exact stableSoftmax_eq hn hd hs

/-- C17: every component lies in `(0,1]`, the components sum to 1, adding a constant to all
inputs changes nothing, and the order of the inputs is kept. -/
theorem C17_softmax_laws (dst src : List ℝ) (n : Nat) (hn : 0 < n) (hd : dst.length = n)
    (hs : src.length = n) :
    ∃ r, softmax dst src n = .ok r ∧ r.length = n ∧
      (∀ i, i < n → 0 < vec r i ∧ vec r i ≤ 1) ∧
      ∑ i ∈ range n, vec r i = 1 ∧
      (∀ i j, i < n → j < n → (vec r i < vec r j ↔ vec src i < vec src j)) ∧
      (∀ c, softmax dst (src.map (· + c)) n = .ok r) := by
  refine ⟨_, softmax_eq hd (by omega), by simp, ?_, ?_, ?_, ?_⟩
  · intro i hi
    rw [vec_tab _ hi]
    exact ⟨softmaxFn_pos hn _ _, softmaxFn_le_one _ hi⟩
  · rw [Finset.sum_congr rfl (fun i hi => vec_tab _ (by simpa using hi))]
    exact softmaxFn_sum hn _
  · intro i j hi hj
    rw [vec_tab _ hi, vec_tab _ hj]
    exact softmaxFn_lt hn _ _ _
  · intro c
    rw [softmax_eq hd (by simp; omega)]
    congr 1
    apply tab_congr
    intro i hi
    rw [← softmaxFn_shift (vec src) c]
    have e : ∀ k, k < n → vec (src.map (· + c)) k = vec src k + c := by
      intro k hk
      have hk' : k < src.length := by omega
      simp [vec, hk']
    unfold softmaxFn
    rw [e i hi, Finset.sum_congr rfl (fun k hk => by rw [e k (by simpa using hk)])]

/-- C17: with more than one component the values are strictly below 1. -/
theorem C17_softmax_lt_one (x : Nat → ℝ) (n i : Nat) (h1 : 1 < n) (hi : i < n) :
    softmaxFn n x i < 1 := by
  obtain ⟨j, hj, hij⟩ : ∃ j, j < n ∧ i ≠ j := by
    by_cases h : i = 0
    · exact ⟨1, h1, by omega⟩
    · exact ⟨0, by omega, h⟩
  rw [← softmaxFn_sum (show 0 < n by omega) x]
  exact Finset.single_lt_sum (f := softmaxFn n x) hij.symm (by simpa using hi) (by simpa using hj)
    (softmaxFn_pos (by omega) x j) (fun k _ _ => (softmaxFn_pos (by omega) x k).le)

/-- C17: the softmax layer returns these values. -/
theorem C17_layer (l : Act.Layer) (x : List ℝ) (hn : 0 < l.output.length)
    (hx : l.output.length ≤ x.length) :
    softmaxForward l x
      = .ok { l with output := tab l.output.length (softmaxFn l.output.length (vec x)) } := by
  unfold softmaxForward
  rw [stableSoftmax_eq hn rfl hx]; rfl

/-- C17 (limit of the claim): a null source throws, an empty one is undefined behaviour in the
stable version (it dereferences the end iterator). -/
theorem C17_degenerate (dst : List ℝ) (n : Nat) :
    stableSoftmax dst none n = .throw "stable softmax error: src null" ∧
    stableSoftmax dst (some []) 0 = .ub := ⟨rfl, rfl⟩

/-- Non-vacuity of C17. -/
example : 0 < 3 ∧ [0, 0, (0 : ℝ)].length = 3 ∧ [1, -2, (5 : ℝ)].length = 3 := by simp

/-! ### C18 -/

/-- C18: component `i` of `softmax_1` with incoming gradient `g` is the partial derivative of
`∑ j, g j * softmax(x) j` with respect to `x i`, and the components sum to zero. -/
theorem C18_softmax_gradient (dst src g : List ℝ) (n : Nat) (hn : 0 < n) (hd : dst.length = n)
    (hs : n ≤ src.length) (hg : n ≤ g.length) :
    ∃ r, softmax1 dst src g n = .ok r ∧ r.length = n ∧
      (∀ i, i < n → HasDerivAt
        (fun t => ∑ j ∈ range n, vec g j * softmaxFn n (replace (vec src) i t) j)
        (vec r i) (vec src i)) ∧
      ∑ i ∈ range n, vec r i = 0 := by
  refine ⟨tab n (fun i => ∑ j ∈ range n, softmaxFn n (vec src) i
      * ((if i = j then 1 else 0) - softmaxFn n (vec src) j) * vec g j), ?_, by simp, ?_, ?_⟩
  · unfold softmax1
    rw [softmax_eq (by simp) hs, Exec.bind_ok, softmax1Opt_eq hd (by simp) hg]
    congr 1
    apply tab_congr
    intro i hi
    apply Finset.sum_congr rfl
    intro j hj
    rw [vec_tab _ hi, vec_tab _ (by simpa using hj)]
  · intro i hi
    rw [vec_tab _ hi]
    exact softmax_grad hn _ _ hi
  · rw [Finset.sum_congr rfl (fun i hi => vec_tab _ (by simpa using hi))]
    exact softmax_grad_sum hn _ _

/-- C18: `SoftmaxLayer::backward` after `forward(x)` computes the same from the stored output
alone. -/
theorem C18_layer_gradient (l : Act.Layer) (x g : List ℝ) (n : Nat) (hn : 0 < n)
    (ho : l.output.length = n) (hi : l.inputGradients.length = n) (hx : n ≤ x.length)
    (hg : n ≤ g.length) :
    ∃ l1 l2, softmaxForward l x = .ok l1 ∧ softmaxBackward l1 g = .ok l2 ∧
      l2.output = l1.output ∧ l2.inputGradients.length = n ∧
      (∀ i, i < n → HasDerivAt
        (fun t => ∑ j ∈ range n, vec g j * softmaxFn n (replace (vec x) i t) j)
        (vec l2.inputGradients i) (vec x i)) ∧
      ∑ i ∈ range n, vec l2.inputGradients i = 0 := by
  have hb : softmaxBackward { l with output := tab n (softmaxFn n (vec x)) } g = .ok
      ⟨tab n (softmaxFn n (vec x)), tab n (fun i => ∑ j ∈ range n, softmaxFn n (vec x) i
        * ((if i = j then 1 else 0) - softmaxFn n (vec x) j) * vec g j)⟩ := by
    unfold softmaxBackward
    simp only []
    rw [softmax1Opt_eq rfl (by simp; omega) (by omega), Exec.bind_ok, hi]
    simp only [Exec.pure_eq_ok]
    congr 2
    apply tab_congr
    intro i hi
    apply Finset.sum_congr rfl
    intro j hj
    rw [vec_tab _ hi, vec_tab _ (by simpa using hj)]
  refine ⟨{ l with output := tab n (softmaxFn n (vec x)) }, _, ?_, hb, rfl, by simp, ?_, ?_⟩
  · rw [C17_layer l x (by omega) (by omega), ho]
  · intro i hin
    simp only []
    rw [vec_tab _ hin]
    exact softmax_grad hn _ _ hin
  · simp only []
    rw [Finset.sum_congr rfl (fun i hi => vec_tab _ (by simpa using hi))]
    exact softmax_grad_sum hn _ _

/-- Non-vacuity of C18: a fresh layer of size 2. -/
example : 0 < 2 ∧ (Act.Layer.new 2).output.length = 2 ∧ (Act.Layer.new 2).inputGradients.length = 2
    ∧ 2 ≤ [1, (2 : ℝ)].length := by simp [Act.Layer.new]

/-! ### C21 -/

/-- C21: on a non-empty array `argmax` returns the least index of a maximal element, `max` that
element, and `max_and_argmax` both. -/
theorem C21_argmax {α : Type} [LinearOrder α] [Zero α] (src : List α) (n : Nat) (hn : 0 < n)
    (hs : n ≤ src.length) :
    ∃ k, IsFirstMax n (vec src) k ∧ argmax src n = .ok k ∧ Act.max src n = .ok (vec src k) ∧
      maxAndArgmax src n = .ok (vec src k, k) := by
  obtain ⟨k, h1, h2⟩ := maxElement_spec hn hs
  have := h2.1
  refine ⟨k, h2, h1, ?_, ?_⟩
  · unfold Act.max
    rw [h1, Exec.bind_ok, if_pos h2.1, rd_vec (by omega)]
  · unfold maxAndArgmax
    rw [h1, Exec.bind_ok, if_pos h2.1, rd_vec (by omega)]; rfl

/-- C21: the index described by the specification is unique, so the result is determined. -/
theorem C21_unique {α : Type} [LinearOrder α] (x : Nat → α) (n k l : Nat)
    (hk : IsFirstMax n x k) (hl : IsFirstMax n x l) : k = l := firstMax_unique hk hl

/-- C21 (limit of the claim): on an empty array `max` and `max_and_argmax` dereference the end
iterator; `argmax` returns 0, which is no valid index. -/
theorem C21_empty (src : List Int) :
    Act.max src 0 = .ub ∧ maxAndArgmax src 0 = .ub ∧ argmax src 0 = .ok 0 := ⟨rfl, rfl, rfl⟩

/-- Non-vacuity of C21: ties are resolved to the first position. -/
example : maxAndArgmax [1, 7, 3, 7, (2 : Int)] 5 = .ok (7, 1) := by decide

end Verif.Props
