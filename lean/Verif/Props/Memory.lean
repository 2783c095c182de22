import Verif.Proofs.Memory
import Mathlib.Tactic.NormNum
import Mathlib.Tactic.Ring

/-! C78: array functions on arrays that may overlap. -/

namespace Verif.Props

open Verif Verif.Spec Finset

noncomputable section

/-- **C78** (element-wise functions of one array): if the destination does not begin inside the source - in
particular if they are the same array - the call stores the function of what the source held before the call, and
nothing else changes.  `f` is any of relu, relu_1, elu, elu_1, elu_1_opt, tanh, tanh_1, tanh_1_opt, sigmoid, sigmoid_1,
sigmoid_1_opt. -/
theorem C78_elementwise_partial (f : ℝ → ℝ) (dst src n : Nat) (m : List ℝ) (hd : dst + n ≤ m.length)
    (hs : src + n ≤ m.length) (h : InPlace dst src n) :
    ∃ m', Mem.map1 f dst src n m = .ok m' ∧ Stored m m' dst n fun i => f (cell m src i) :=
  Mem.map1_stored hd hs h

/-- **C78** (`arr_mul` and `arr_sum` with a number). -/
theorem C78_scalar_partial (val : ℝ) (dst src n : Nat) (m : List ℝ) (hd : dst + n ≤ m.length)
    (hs : src + n ≤ m.length) (h : InPlace dst src n) :
    (∃ m', Mem.arrMulVal dst src val n m = .ok m' ∧ Stored m m' dst n fun i => cell m src i * val) ∧
    ∃ m', Mem.arrSumVal dst src val n m = .ok m' ∧ Stored m m' dst n fun i => cell m src i + val :=
  ⟨Mem.map1_stored hd hs h, Mem.map1_stored hd hs h⟩

/-- **C78** (`arr_mul` and `arr_sum` of two arrays): the destination may be either of the operands, or both. -/
theorem C78_arrays_partial (dst src1 src2 n : Nat) (m : List ℝ) (hd : dst + n ≤ m.length)
    (h1 : src1 + n ≤ m.length) (h2 : src2 + n ≤ m.length) (o1 : InPlace dst src1 n) (o2 : InPlace dst src2 n) :
    (∃ m', Mem.arrMul dst src1 src2 n m = .ok m' ∧ Stored m m' dst n fun i => cell m src1 i * cell m src2 i) ∧
    ∃ m', Mem.arrSum dst src1 src2 n m = .ok m' ∧ Stored m m' dst n fun i => cell m src1 i + cell m src2 i :=
  ⟨Mem.map2_stored hd h1 h2 o1 o2, Mem.map2_stored hd h1 h2 o1 o2⟩

/-- **C78** (derivatives of the losses). -/
theorem C78_losses_partial (dst y yh n : Nat) (norm : ℝ) (m : List ℝ) (hd : dst + n ≤ m.length)
    (h1 : y + n ≤ m.length) (h2 : yh + n ≤ m.length) (o1 : InPlace dst y n) (o2 : InPlace dst yh n) :
    (∃ m', Mem.crossEntropy1 dst y yh norm n m = .ok m' ∧
      Stored m m' dst n fun i => Loss.crossEntropyS1 (cell m y i) (cell m yh i) norm) ∧
    ∃ m', Mem.meanSquaredError1 dst y yh norm n m = .ok m' ∧
      Stored m m' dst n fun i => 2 * norm * (cell m yh i - cell m y i) := by
  refine ⟨Mem.map2_stored hd h1 h2 o1 o2, ?_⟩
  obtain ⟨m', e, h⟩ := Mem.map2_stored (f := fun a b => Loss.squaredError1 a b norm) hd h1 h2 o1 o2
  refine ⟨m', e, Mem.stored_congr h fun i _ => ?_⟩
  unfold Loss.squaredError1
  ring

/-- **C78** (`softmax`, `stable_softmax` and `stable_softmax_no_check`): they may work in place.  The second and third
need at least one number, because they take the maximum. -/
theorem C78_softmax_partial (dst src n : Nat) (m : List ℝ) (hd : dst + n ≤ m.length)
    (hs : src + n ≤ m.length) (h : InPlace dst src n) :
    (∃ m', Mem.softmax dst src n m = .ok m' ∧ Stored m m' dst n (softmaxFn n (cell m src))) ∧
    (0 < n →
      (∃ m', Mem.stableSoftmaxNoCheck dst src n m = .ok m' ∧ Stored m m' dst n (softmaxFn n (cell m src))) ∧
      ∃ m', Mem.stableSoftmax dst (some src) n m = .ok m' ∧ Stored m m' dst n (softmaxFn n (cell m src))) := by
  refine ⟨Mem.softmaxLoops_stored 0 hd hs h, fun hn => ?_⟩
  obtain ⟨k, -, hk⟩ := Act.max_spec (src := m.drop src) hn (by simp; omega)
  have key : ∃ m', Mem.stableSoftmaxNoCheck dst src n m = .ok m' ∧
      Stored m m' dst n (softmaxFn n (cell m src)) := by
    unfold Mem.stableSoftmaxNoCheck
    rw [hk, Exec.bind_ok]
    exact Mem.softmaxLoops_stored _ hd hs h
  exact ⟨key, key⟩

/-- **C78** (`matarr_mul` and `matarr_mul_no_check`): right if the destination is apart from the matrix and the
vector. -/
theorem C78_matarr_mul_partial (dst mat src rows cols : Nat) (m : List ℝ) (hd : dst + rows ≤ m.length)
    (hm : mat + rows * cols ≤ m.length) (hs : src + cols ≤ m.length)
    (o1 : NoOverlap dst rows mat (rows * cols)) (o2 : NoOverlap dst rows src cols) :
    (∃ m', Mem.matarrMulNoCheck dst mat src rows cols m = .ok m' ∧
      Stored m m' dst rows fun i => ∑ j ∈ range cols, cell m mat (i * cols + j) * cell m src j) ∧
    (src ≠ dst → ∃ m', Mem.matarrMul dst mat src rows cols m = .ok m' ∧
      Stored m m' dst rows fun i => ∑ j ∈ range cols, cell m mat (i * cols + j) * cell m src j) := by
  refine ⟨Mem.matarr_stored hd hm hs o1 o2, fun h => ?_⟩
  unfold Mem.matarrMul
  rw [if_neg h]
  exact Mem.matarr_stored hd hm hs o1 o2

/-- **C78** (`matarr_mul`, `softmax_1_opt`, `stable_softmax`): they throw if the source is the destination or null,
whatever the memory. -/
theorem C78_checked_partial (dst mat gradients rows cols : Nat) (m : List ℝ) :
    (∃ e, Mem.matarrMul dst mat dst rows cols m = .throw e) ∧
    (∃ e, Mem.softmax1Opt dst dst gradients cols m = .throw e) ∧
    ∃ e, Mem.stableSoftmax dst none cols m = .throw e :=
  ⟨⟨_, by unfold Mem.matarrMul; rw [if_pos rfl]⟩, ⟨_, by unfold Mem.softmax1Opt; rw [if_pos rfl]⟩, _, rfl⟩

/-- **C78** (`dense` and `dense_simd_opt`): right if the destination is apart from the input and the weights; it may
be the array of the biases. -/
theorem C78_dense_partial (dst src weights bias n k : Nat) (m : List ℝ) (hd : dst + k ≤ m.length)
    (hs : src + n ≤ m.length) (hw : weights + k * n ≤ m.length) (hb : bias + k ≤ m.length)
    (o1 : NoOverlap dst k src n) (o2 : NoOverlap dst k weights (k * n)) (o3 : InPlace dst bias k) :
    ∃ m', Mem.dense dst src weights bias n k m = .ok m' ∧
      Stored m m' dst k (affine (fun i j => cell m weights (i * n + j)) (cell m bias) (cell m src) n) :=
  Mem.dense_stored hd hs hw hb o1 o2 o3

/-- **C78** (`softmax_1_opt` and `softmax_1_opt_no_check`): right if the destination is apart from both operands. -/
theorem C78_softmax_1_opt_partial (dst src gradients n : Nat) (m : List ℝ) (hd : dst + n ≤ m.length)
    (hs : src + n ≤ m.length) (hg : gradients + n ≤ m.length) (o1 : NoOverlap dst n src n)
    (o2 : NoOverlap dst n gradients n) :
    (∃ m', Mem.softmax1OptNoCheck dst src gradients n m = .ok m' ∧ Stored m m' dst n fun i =>
      ∑ j ∈ range n, cell m src i * ((if i = j then 1 else 0) - cell m src j) * cell m gradients j) ∧
    (src ≠ dst → ∃ m', Mem.softmax1Opt dst src gradients n m = .ok m' ∧ Stored m m' dst n fun i =>
      ∑ j ∈ range n, cell m src i * ((if i = j then 1 else 0) - cell m src j) * cell m gradients j) := by
  refine ⟨Mem.softmax1OptNoCheck_stored hd hs hg o1 o2, fun h => ?_⟩
  unfold Mem.softmax1Opt
  rw [if_neg h]
  exact Mem.softmax1OptNoCheck_stored hd hs hg o1 o2

/-- **C78** (`softmax_1`): right if the destination is apart from the gradients, however it overlaps the source. -/
theorem C78_softmax_1_partial (dst src gradients n : Nat) (m : List ℝ) (hd : dst + n ≤ m.length)
    (hs : src + n ≤ m.length) (hg : gradients + n ≤ m.length) (o : NoOverlap dst n gradients n) :
    ∃ m', Mem.softmax1 dst src gradients n m = .ok m' ∧ Stored m m' dst n fun i =>
      ∑ j ∈ range n, softmaxFn n (cell m src) i * ((if i = j then 1 else 0) - softmaxFn n (cell m src) j)
        * cell m gradients j :=
  Mem.softmax1_stored hd hs hg o

/-- `arr_mul(a, a, a + 1, 2)`: a product in place with an overlapping second operand. -/
example : ∃ m', Mem.arrMul 0 0 1 2 [2, 3, 5] = .ok m' ∧ Stored [2, 3, 5] m' 0 2
    fun i => cell [2, 3, 5] 0 i * cell [2, 3, 5] 1 i :=
  (C78_arrays_partial 0 0 1 2 [2, 3, 5] (by simp) (by simp) (by simp) (Or.inl (by omega)) (Or.inl (by omega))).1

/-- `dense` with two inputs, one output, which is written over the bias. -/
example : ∃ m', Mem.dense 4 0 2 4 2 1 [1, 2, 3, 4, 5] = .ok m' ∧ Stored [1, 2, 3, 4, 5] m' 4 1
    (affine (fun i j => cell [1, 2, 3, 4, 5] 2 (i * 2 + j)) (cell [1, 2, 3, 4, 5] 4) (cell [1, 2, 3, 4, 5] 0) 2) :=
  C78_dense_partial 4 0 2 4 2 1 [1, 2, 3, 4, 5] (by simp) (by simp) (by simp) (by simp) (Or.inr (by omega))
    (Or.inr (by omega)) (Or.inl (by omega))

/-- `softmax_1` in place. -/
example : ∃ m', Mem.softmax1 0 0 2 2 [0, 0, 1, 0] = .ok m' ∧ Stored [0, 0, 1, 0] m' 0 2 fun i =>
    ∑ j ∈ range 2, softmaxFn 2 (cell [0, 0, 1, 0] 0) i
      * ((if i = j then 1 else 0) - softmaxFn 2 (cell [0, 0, 1, 0] 0) j) * cell [0, 0, 1, 0] 2 j :=
  C78_softmax_1_partial 0 0 2 2 [0, 0, 1, 0] (by simp) (by simp) (by simp) (Or.inl (by omega))

/-! ### What is excluded -/

/-- **C78 is false** for element-wise functions if the destination begins inside the source. -/
theorem C78_overlap_refuted : ¬ ∀ (val : ℝ) (dst src n : Nat) (m : List ℝ), dst + n ≤ m.length →
    src + n ≤ m.length →
    ∃ m', Mem.arrMulVal dst src val n m = .ok m' ∧ Stored m m' dst n fun i => cell m src i * val := by
  intro h
  obtain ⟨m', h1, -, h2, -⟩ := h 2 1 0 2 [1, 5, 0] (by simp) (by simp)
  have e : Mem.arrMulVal 1 0 2 2 [1, 5, 0] = .ok [1, 1 * 2, 1 * 2 * 2] := rfl
  rw [e] at h1
  cases h1
  have := h2 1 (by omega)
  simp [cell] at this

/-- **C78 is false** for `dense` if the destination is the input: it neither throws nor gives the output of the
layer. -/
theorem C78_dense_refuted : ¬ ∀ (dst src weights bias n k : Nat) (m : List ℝ), dst + k ≤ m.length →
    src + n ≤ m.length → weights + k * n ≤ m.length → bias + k ≤ m.length → NoOverlap dst k weights (k * n) →
    NoOverlap dst k bias k → (∃ e, Mem.dense dst src weights bias n k m = .throw e) ∨
    ∃ m', Mem.dense dst src weights bias n k m = .ok m' ∧
      Stored m m' dst k (affine (fun i j => cell m weights (i * n + j)) (cell m bias) (cell m src) n) := by
  intro h
  have e : Mem.dense 0 0 1 2 1 1 [1, 1, 0] = .ok [0 + 1 * 0, 1, 0] := rfl
  rcases h 0 0 1 2 1 1 [1, 1, 0] (by simp) (by simp) (by simp) (by simp) (Or.inl (by omega)) (Or.inl (by omega)) with
    ⟨x, h⟩ | ⟨m', h1, -, h2, -⟩
  · rw [e] at h
    cases h
  · rw [e] at h1
    cases h1
    have := h2 0 (by omega)
    simp [affine, cell] at this

/-- **C78 is false** for `matarr_mul` if the destination overlaps the vector without being the same pointer: its check
does not see that. -/
theorem C78_matarr_mul_refuted : ¬ ∀ (dst mat src rows cols : Nat) (m : List ℝ), dst + rows ≤ m.length →
    mat + rows * cols ≤ m.length → src + cols ≤ m.length → NoOverlap dst rows mat (rows * cols) →
    (∃ e, Mem.matarrMul dst mat src rows cols m = .throw e) ∨
    ∃ m', Mem.matarrMul dst mat src rows cols m = .ok m' ∧
      Stored m m' dst rows fun i => ∑ j ∈ range cols, cell m mat (i * cols + j) * cell m src j := by
  intro h
  have e : Mem.matarrMul 1 2 0 1 2 [0, 1, 1, 1] = .ok [0, 0 + 1 * 0 + 1 * (0 + 1 * 0), 1, 1] := rfl
  rcases h 1 2 0 1 2 [0, 1, 1, 1] (by simp) (by simp) (by simp) (Or.inl (by omega)) with ⟨x, h⟩ | ⟨m', h1, -, h2, -⟩
  · rw [e] at h
    cases h
  · rw [e] at h1
    cases h1
    have := h2 0 (by omega)
    simp [cell, sum_range_succ] at this

/-- **C78 is false** for `softmax_1_opt` if the destination is the array of the gradients: its check does not see
that. -/
theorem C78_softmax_1_opt_refuted : ¬ ∀ (dst src gradients n : Nat) (m : List ℝ), dst + n ≤ m.length →
    src + n ≤ m.length → gradients + n ≤ m.length → NoOverlap dst n src n →
    (∃ e, Mem.softmax1Opt dst src gradients n m = .throw e) ∨
    ∃ m', Mem.softmax1Opt dst src gradients n m = .ok m' ∧ Stored m m' dst n fun i =>
      ∑ j ∈ range n, cell m src i * ((if i = j then 1 else 0) - cell m src j) * cell m gradients j := by
  intro h
  rcases h 0 2 0 2 [1, 0, 1 / 2, 1 / 2] (by simp) (by simp) (by simp) (Or.inl (by omega)) with
    ⟨x, h⟩ | ⟨m', h1, -, h2, -⟩
  · simp [Mem.softmax1Opt, Mem.softmax1OptNoCheck, forUp, forFrom, rd, wr] at h
  · simp [Mem.softmax1Opt, Mem.softmax1OptNoCheck, forUp, forFrom, rd, wr] at h1
    subst h1
    have := h2 0 (by omega)
    simp [cell, sum_range_succ] at this
    norm_num at this

/-- **C78 is false** for `softmax_1` if the destination is the array of the gradients. -/
theorem C78_softmax_1_refuted : ¬ ∀ (dst src gradients n : Nat) (m : List ℝ), dst + n ≤ m.length →
    src + n ≤ m.length → gradients + n ≤ m.length → NoOverlap dst n src n →
    (∃ e, Mem.softmax1 dst src gradients n m = .throw e) ∨
    ∃ m', Mem.softmax1 dst src gradients n m = .ok m' ∧ Stored m m' dst n fun i =>
      ∑ j ∈ range n, softmaxFn n (cell m src) i * ((if i = j then 1 else 0) - softmaxFn n (cell m src) j)
        * cell m gradients j := by
  intro h
  have e : Mem.softmax1 0 2 0 2 [1, 0, 0, 0] = .ok [0, 0, 0, 0] := by
    unfold Mem.softmax1
    rw [Act.softmax_eq (by simp) (by simp)]
    simp [tab, List.range_succ, forUp, forFrom, rd, wr]
  rcases h 0 2 0 2 [1, 0, 0, 0] (by simp) (by simp) (by simp) (Or.inl (by omega)) with ⟨x, h⟩ | ⟨m', h1, -, h2, -⟩
  · rw [e] at h
    cases h
  · rw [e] at h1
    cases h1
    have := h2 0 (by omega)
    simp [softmaxFn, cell, sum_range_succ] at this
    norm_num at this

end

end Verif.Props
