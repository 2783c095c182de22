import Verif.Proofs.Dense
import Verif.Proofs.Threads
import Verif.Spec.Dense
import Verif.Proofs.DenseGrad
import Mathlib.Analysis.Calculus.Deriv.Add
import Mathlib.Analysis.Calculus.Deriv.Mul
import Mathlib.Tactic.Ring

/-
Properties C04, C05 (dense layer) and C06, C07 (threaded dense kernels).
-/

namespace Verif.Props
open Verif.Spec Verif.Dense Verif.Threads Finset

/-! ### C04 -/

/-- C04: `dense` writes `b i + W i 0 * x 0 + W i 1 * x 1 + …` (in this order of operations,
for any number type) into every output cell and leaves the cells behind them alone. -/
theorem C04_dense_forward {α : Type} [Zero α] [Add α] [Mul α] (dst src w b : List α) (n m : Nat)
    (hd : m ≤ dst.length) (hs : n ≤ src.length) (hw : m * n ≤ w.length) (hb : m ≤ b.length) :
    ∃ d, dense dst src w b n m = .ok d ∧ d.length = dst.length ∧
      (∀ i, i < m → d[i]? = some (ordSum (vec b i) n fun j => mat w n i j * vec src j)) ∧
      (∀ i, m ≤ i → d[i]? = dst[i]?) := by
  refine ⟨_, dense_eq hd hs hw hb, by simp, ?_, ?_⟩
  · intro i hi
    rw [tab_getElem? _ (by omega), if_pos hi]
  · intro i hi
    by_cases h : i < dst.length
    · rw [tab_getElem? _ h, if_neg (by omega), getElem?_vec h]
    · rw [tab_getElem?_none _ (by omega), List.getElem?_eq_none (by omega)]

/-- C04: in exact arithmetic the outputs of a `DenseLayer` are `W x + b` whenever the input
has the layer's input size. -/
theorem C04_layer_forward {α : Type} [CommSemiring α] (l : Layer α) (x : List α)
    (hx : x.length = l.inputSize) (ho : l.output.length = l.outputSize)
    (hw : l.weights.length = l.outputSize * l.inputSize) (hb : l.biases.length = l.outputSize) :
    l.forward x = .ok { l with
      output := tab l.outputSize
        (affine (mat l.weights l.inputSize) (vec l.biases) (vec x) l.inputSize) } := by
  unfold Layer.forward
  rw [ho, hx, dense_eq (by omega) (by omega) (by omega) (by omega), Exec.bind_ok, ho]
  simp only [Exec.pure_eq_ok]
  congr 2
  apply tab_congr
  intro i hi
  rw [if_pos hi, ordSum_eq_sum]
  rfl

/-- C04: the trained parameters and gradients are not touched by `forward`. -/
theorem C04_forward_frame {α : Type} [Add α] [Mul α] (l l' : Layer α) (x : List α)
    (h : l.forward x = .ok l') : l' = { l with output := l'.output } := by
  unfold Layer.forward at h
  cases hd : dense l.output x l.weights l.biases x.length l.output.length with
  | ok d => rw [hd] at h; simp at h; subst h; rfl
  | throw m => rw [hd] at h; simp at h
  | ub => rw [hd] at h; simp at h

/-- Non-vacuity of C04: a layer with 2 inputs and 2 outputs. -/
example : (Layer.forward (α := Int)
    { inputSize := 2, outputSize := 2, weights := [1, 2, 3, 4], biases := [10, 20],
      grads := ⟨[0, 0], [0, 0, 0, 0], [0, 0]⟩, output := [0, 0], lastInput := [] } [5, 6])
    = .ok
    { inputSize := 2, outputSize := 2, weights := [1, 2, 3, 4], biases := [10, 20],
      grads := ⟨[0, 0], [0, 0, 0, 0], [0, 0]⟩, output := [27, 59], lastInput := [] } := by decide

/-- C04 (limit of the claim): `forward` trusts the length of the vector it is given.  With a
vector one element too short the layer silently uses weights of the wrong row. -/
theorem C04_short_input_misaligned :
    ∃ l : Layer Int, l.inputSize = 2 ∧ l.outputSize = 2 ∧ l.weights.length = 4 ∧
      l.biases = [0, 0] ∧ l.weights = [1, 2, 3, 4] ∧
      l.forward [1] = .ok { l with output := [1, 2] } :=
  ⟨{ inputSize := 2, outputSize := 2, weights := [1, 2, 3, 4], biases := [0, 0],
     grads := ⟨[0, 0], [0, 0, 0, 0], [0, 0]⟩, output := [0, 0], lastInput := [] },
    rfl, rfl, rfl, rfl, rfl, by decide⟩

/-- C04 (limit of the claim): with a vector longer than the input size the layer reads
behind its weights. -/
theorem C04_long_input_ub {α : Type} [Zero α] [Add α] [Mul α] (l : Layer α) (x : List α)
    (hx : l.inputSize < x.length) (ho : l.output.length = l.outputSize) (hpos : 0 < l.outputSize)
    (hw : l.weights.length = l.outputSize * l.inputSize) (hb : l.biases.length = l.outputSize) :
    l.forward x = .ub := by
  unfold Layer.forward
  rw [dense_ub (by omega) (by omega) (by omega)]
  · rfl
  · rw [hw, ho]
    exact (Nat.mul_lt_mul_left hpos).mpr hx

/-- C04: `matarr_mul` computes the matrix-vector product. -/
theorem C04_matarr_mul {α : Type} [CommSemiring α] (dst mm src : List α) (rows cols : Nat)
    (hd : dst.length = rows) (hs : cols ≤ src.length) (hm : rows * cols ≤ mm.length) :
    matarrMul dst mm src rows cols = .ok (tab rows fun i =>
      ∑ j ∈ range cols, mat mm cols i j * vec src j) := by
  rw [matarrMul_eq (by omega) hs hm, hd]
  congr 1
  apply tab_congr
  intro i hi
  rw [if_pos hi, ordSum_eq_sum, zero_add]

/-! ### C05 -/

/-- C05: values left by one `dense_1` call, for any number type, in program order. -/
theorem C05_dense_backward {α : Type} [Zero α] [Add α] [Mul α] (s : Grads α) (g x w : List α)
    (n m : Nat) (hig : s.input.length = n) (hwg : s.weight.length = m * n)
    (hbg : s.bias.length = m) (hg : m ≤ g.length) (hx : n ≤ x.length) (hw : m * n ≤ w.length) :
    ∃ r, dense1 s g x w n m = .ok r ∧
      r.input.length = n ∧ r.weight.length = m * n ∧ r.bias.length = m ∧
      (∀ i, i < m → vec r.bias i = vec s.bias i + vec g i) ∧
      (∀ i j, i < m → j < n → mat r.weight n i j = mat s.weight n i j + vec g i * vec x j) ∧
      (∀ j, j < n → vec r.input j = ordSum 0 m fun i => vec g i * mat w n i j) := by
  refine ⟨_, dense1_eq hig hwg hbg hg hx hw, by simp, by simp, by simp, ?_, ?_, ?_⟩
  · intro i hi; rw [vec_tab _ hi]
  · intro i j hi hj
    rw [mat_eq_vec, vec_tab _ (rowmajor_lt hi hj)]
    have e1 : (i * n + j) / n = i := by
      rw [Nat.mul_comm, Nat.mul_add_div (by omega), Nat.div_eq_of_lt hj, Nat.add_zero]
    have e2 : (i * n + j) % n = j := by
      rw [Nat.mul_comm, Nat.mul_add_mod, Nat.mod_eq_of_lt hj]
    rw [e1, e2]; rfl
  · intro j hj; rw [vec_tab _ hj]

/-- C05: over ℝ, what a backward call adds to the bias and weight gradients, and what it
stores as input gradient, are the partial derivatives of `g · (W x + b)`. -/
theorem C05_backward_is_gradient (s : Grads ℝ) (g x w b : List ℝ)
    (n m : Nat) (hig : s.input.length = n) (hwg : s.weight.length = m * n)
    (hbg : s.bias.length = m) (hg : m ≤ g.length) (hx : n ≤ x.length) (hw : m * n ≤ w.length) :
    ∃ r, dense1 s g x w n m = .ok r ∧
      (∀ i, i < m → HasDerivAt
        (fun t => denseObjective (vec g) (mat w n) (replace (vec b) i t) (vec x) n m)
        (vec r.bias i - vec s.bias i) (vec b i)) ∧
      (∀ i j, i < m → j < n → HasDerivAt
        (fun t => denseObjective (vec g) (replace2 (mat w n) i j t) (vec b) (vec x) n m)
        (mat r.weight n i j - mat s.weight n i j) (mat w n i j)) ∧
      (∀ j, j < n → HasDerivAt
        (fun t => denseObjective (vec g) (mat w n) (vec b) (replace (vec x) j t) n m)
        (vec r.input j) (vec x j)) := by
  obtain ⟨r, h1, -, -, -, hb', hw', hi'⟩ := C05_dense_backward s g x w n m hig hwg hbg hg hx hw
  refine ⟨r, h1, ?_, ?_, ?_⟩
  · intro i hi
    rw [hb' i hi, add_sub_cancel_left]
    exact deriv_bias _ _ _ _ hi
  · intro i j hi hj
    rw [hw' i j hi hj, add_sub_cancel_left]
    exact deriv_weight _ _ _ _ hi hj
  · intro j hj
    rw [hi' j hj, ordSum_eq_sum, zero_add]
    exact deriv_input _ _ _ _ hj

/-- The calls `backward(g)` after `training_forward(x)`, one after the other, without an
optimizer step in between. -/
def backwards {α : Type} [Zero α] [Add α] [Mul α] (w : List α) (n m : Nat) :
    Grads α → List (List α × List α) → Exec (Grads α)
  | s, [] => .ok s
  | s, (g, x) :: rest => dense1 s g x w n m >>= fun s' => backwards w n m s' rest

/-- C05: any number of successive backward calls leaves the sum of all their gradients. -/
theorem C05_backward_accumulates {α : Type} [CommSemiring α] (w : List α) (n m : Nat)
    (calls : List (List α × List α)) (s : Grads α)
    (hig : s.input.length = n) (hwg : s.weight.length = m * n) (hbg : s.bias.length = m)
    (hw : m * n ≤ w.length) (hc : ∀ c ∈ calls, m ≤ c.1.length ∧ n ≤ c.2.length) :
    ∃ r, backwards w n m s calls = .ok r ∧
      (∀ i, i < m → vec r.bias i = vec s.bias i + (calls.map fun c => vec c.1 i).sum) ∧
      (∀ i j, i < m → j < n → mat r.weight n i j
        = mat s.weight n i j + (calls.map fun c => vec c.1 i * vec c.2 j).sum) := by
  induction calls generalizing s with
  | nil => exact ⟨s, rfl, by simp, by simp⟩
  | cons c calls ih =>
    obtain ⟨g, x⟩ := c
    have hc0 := hc (g, x) (by simp)
    obtain ⟨r, h1, l1, l2, l3, hb', hw', -⟩ :=
      C05_dense_backward s g x w n m hig hwg hbg hc0.1 hc0.2 hw
    obtain ⟨r', h2, hb2, hw2⟩ := ih r l1 l2 l3 (fun c hcc => hc c (by simp [hcc]))
    refine ⟨r', by simp only [backwards, h1, Exec.bind_ok, h2], ?_, ?_⟩
    · intro i hi
      rw [hb2 i hi, hb' i hi, List.map_cons, List.sum_cons, add_assoc]
    · intro i j hi hj
      rw [hw2 i j hi hj, hw' i j hi hj, List.map_cons, List.sum_cons, add_assoc]

/-- Non-vacuity of C05: two backward calls of a 2-input 2-output layer over the integers. -/
example : backwards (α := Int) [1, 2, 3, 4] 2 2 ⟨[7, 7], [0, 0, 0, 0], [0, 0]⟩
    [([1, 2], [5, 6]), ([1, 0], [1, 1])]
    = .ok ⟨[1, 2], [6, 7, 10, 12], [2, 2]⟩ := by decide

/-! ### C06 -/

/-- C06: for every schedule of the tasks of `dense_thread_opt` that lets them all finish,
the destination holds exactly what the sequential `dense` computes (same operations in the
same order, so also for floating point). -/
theorem C06_threaded_forward {α : Type} [Zero α] [Add α] [Mul α] (dst src w b : List α) (n m : Nat)
    (hd : dst.length = m) (hs : n ≤ src.length) (hw : m * n ≤ w.length) (hb : m ≤ b.length)
    (sched : List Nat)
    (hf : Finished (run sched (vec dst) (denseTasks src w b n m)).2) :
    .ok (tab m (run sched (vec dst) (denseTasks src w b n m)).1) = dense dst src w b n m := by
  rw [dense_eq (by omega) hs hw hb, hd]
  congr 1
  apply tab_congr
  intro i hi
  rw [if_pos hi, dense_run src w b n m _ sched hf hi]

/-- C06: no schedule writes outside the first `m` cells, finished or not. -/
theorem C06_threaded_forward_frame {α : Type} [Zero α] [Add α] [Mul α] (dst src w b : List α)
    (n m : Nat) (sched : List Nat) (i : Nat) (hi : m ≤ i) :
    (run sched (vec dst) (denseTasks src w b n m)).1 i = vec dst i := by
  apply run_untouched
  intro t ht o ho
  obtain ⟨k, hk, rfl⟩ := tab_mem ht
  simp only [denseTask, List.mem_cons] at ho
  rcases ho with rfl | ho
  · simp [Op.cell]; omega
  · obtain ⟨j, _, rfl⟩ := tab_mem ho
    simp [Op.cell]; omega

/-- Non-vacuity of C06: an interleaved schedule of two tasks that finishes. -/
example : (run [0, 1, 1, 0, 0, 1, 0, 1, 0, 1] (vec [0, 0])
      (denseTasks (α := Int) [5, 6] [1, 2, 3, 4] [10, 20] 2 2)).2 = [⟨[], none⟩, ⟨[], none⟩] ∧
    tab 2 (run [0, 1, 1, 0, 0, 1, 0, 1, 0, 1] (vec [0, 0])
      (denseTasks (α := Int) [5, 6] [1, 2, 3, 4] [10, 20] 2 2)).1 = [27, 59] := by decide

/-! ### C07 -/

/-- C07 is false: with two outputs there is a schedule in which one task's contribution to
an input gradient is lost. -/
theorem C07_threaded_backward_refuted :
    ∃ (s : Grads Int) (g x w : List Int) (sched : List Nat),
      Finished (run sched (dense1Mem s) (dense1Tasks g x w 1 2)).2 ∧
      dense1 s g x w 1 2 = .ok ⟨[3], [1, 1], [1, 1]⟩ ∧
      (run sched (dense1Mem s) (dense1Tasks g x w 1 2)).1 (.input 0) = 2 :=
  ⟨⟨[0], [0, 0], [0, 0]⟩, [1, 1], [1], [1, 2], [0, 0, 0, 0, 1, 1, 1, 1, 0, 1, 0, 1],
    by unfold Finished; decide, by decide, by decide⟩

/-- C07, the part that holds on every schedule: bias and weight gradients.
Missing for the full property: the input gradients (refuted above). -/
theorem C07_threaded_backward_partial {α : Type} [Zero α] [Add α] [Mul α] (s : Grads α)
    (g x w : List α) (n m : Nat)
    (hig : s.input.length = n) (hwg : s.weight.length = m * n) (hbg : s.bias.length = m)
    (hg : m ≤ g.length) (hx : n ≤ x.length) (hw : m * n ≤ w.length) (sched : List Nat)
    (hf : Finished (run sched (dense1Mem s) (dense1Tasks g x w n m)).2) :
    ∃ r, dense1 s g x w n m = .ok r ∧
      r.bias = tab m (fun i => (run sched (dense1Mem s) (dense1Tasks g x w n m)).1 (.bias i)) ∧
      r.weight = tab (m * n)
        (fun q => (run sched (dense1Mem s) (dense1Tasks g x w n m)).1 (.weight q)) := by
  refine ⟨_, dense1_eq hig hwg hbg hg hx hw, ?_, ?_⟩
  · exact tab_congr fun i hi => by rw [dense1_run_bias g x w n m _ sched hf hi]; rfl
  · apply tab_congr
    intro q hq
    have hn : 0 < n := Nat.pos_of_ne_zero (by rintro rfl; simp at hq)
    have h1 : q / n < m := Nat.div_lt_of_lt_mul (by rwa [Nat.mul_comm])
    have h2 : q % n < n := Nat.mod_lt _ hn
    have := dense1_run_weight g x w n m (dense1Mem s) sched hf h1 h2
    rw [Nat.div_add_mod'] at this
    rw [this]; rfl

/-- C07, schedules that do not interrupt a `+=`: all gradients are the sequential ones (in
exact arithmetic, where the order of the summands does not matter). -/
theorem C07_threaded_backward_noOverlap_partial {α : Type} [CommSemiring α] (s : Grads α)
    (g x w : List α) (n m : Nat)
    (hig : s.input.length = n) (hwg : s.weight.length = m * n) (hbg : s.bias.length = m)
    (hg : m ≤ g.length) (hx : n ≤ x.length) (hw : m * n ≤ w.length) (sched : List Nat)
    (hs : NoOverlap sched (dense1Mem s) (dense1Tasks g x w n m))
    (hf : Finished (run sched (dense1Mem s) (dense1Tasks g x w n m)).2) :
    dense1 s g x w n m = .ok
      { input := tab n fun j => (run sched (dense1Mem s) (dense1Tasks g x w n m)).1 (.input j)
        weight := tab (m * n) fun q =>
          (run sched (dense1Mem s) (dense1Tasks g x w n m)).1 (.weight q)
        bias := tab m fun i => (run sched (dense1Mem s) (dense1Tasks g x w n m)).1 (.bias i) } := by
  obtain ⟨r, h1, h2, h3⟩ := C07_threaded_backward_partial s g x w n m hig hwg hbg hg hx hw sched hf
  rw [h1, ← h2, ← h3]
  rw [dense1_eq hig hwg hbg hg hx hw] at h1
  cases h1
  congr 2
  apply tab_congr
  intro j hj
  rw [dense1_run_input g x w n m _ sched hs hf hj, ordSum_eq_sum]
  rfl

/-- Non-vacuity: a schedule of two tasks without overlap that switches between them. -/
example : NoOverlap [0, 0, 1, 1, 0, 0, 1, 1, 1, 1, 0, 0] (dense1Mem ⟨[0], [0, 0], [0, 0]⟩)
      (dense1Tasks (α := Int) [1, 1] [1] [1, 2] 1 2) ∧
    Finished (run [0, 0, 1, 1, 0, 0, 1, 1, 1, 1, 0, 0] (dense1Mem ⟨[0], [0, 0], [0, 0]⟩)
      (dense1Tasks (α := Int) [1, 1] [1] [1, 2] 1 2)).2 ∧
    (run [0, 0, 1, 1, 0, 0, 1, 1, 1, 1, 0, 0] (dense1Mem ⟨[0], [0, 0], [0, 0]⟩)
      (dense1Tasks (α := Int) [1, 1] [1] [1, 2] 1 2)).1 (.input 0) = 3 := by
  refine ⟨?_, by unfold Finished; decide, by decide⟩
  simp [NoOverlap, dense1Tasks, dense1Task, tab, stepTask, List.range_succ]
  and_intros <;>
  · rintro (_ | _ | k) t h
    · simp at h; subst h; simp
    · simp at h; subst h; simp
    · simp at h

end Verif.Props
