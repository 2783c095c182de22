import Verif.Proofs.RecurrentBack
import Verif.Proofs.RecurrentGrad
import Verif.Proofs.Activation
import Mathlib.Tactic.NormNum
import Mathlib.Analysis.SpecialFunctions.Artanh

/-
Properties C29 (recurrent forward) and C30 (backpropagation through time).

`cell l` reads the weight buffers of a layer as the matrices and vectors of `Spec.Cell`;
`Sized l` says that the buffers have the lengths that the constructor gives them.
-/

namespace Verif.Props
open Verif.Spec Verif.Rnn Finset

/-! ### C29 -/

/-- The constructor gives the buffers their lengths, so `Sized` holds of every new layer. -/
theorem C29_new_sized (n o h T : Nat) : Sized (Layer.new (α := ℝ) n o h T) := by
  constructor <;> simp [Layer.new, Nat.mul_comm]

/-- `time_steps(T)` keeps the lengths right. -/
theorem C29_time_steps_sized (l : Layer ℝ) (hl : Sized l) (T : Nat) : Sized (l.setTimeSteps T) := by
  have hr : ∀ (v : List ℝ) m, (resize v m).length = m := by
    intro v m; unfold resize; simp; omega
  refine ⟨hl.wih, hl.whh, hl.who, hl.bh, hl.bo, ?_, ?_⟩
  · simp only [Layer.setTimeSteps, hr]; exact Nat.mul_comm _ _
  · simp only [Layer.setTimeSteps, hr]; exact Nat.mul_comm _ _

/-- `time_steps(T)` keeps the current hidden state (block 0) and all parameters. -/
theorem C29_time_steps_keeps_state (l : Layer ℝ) (hl : Sized l) (T : Nat) :
    (∀ i, i < l.hiddenSize → vec (l.setTimeSteps T).hidden i = vec l.hidden i) ∧
      cell (l.setTimeSteps T) = cell l ∧ (l.setTimeSteps T).timeSteps = T := by
  refine ⟨?_, rfl, rfl⟩
  intro i hi
  have h1 : l.hiddenSize ≤ l.hidden.length := by
    rw [hl.hidden]; exact Nat.le_mul_of_pos_left _ (Nat.lt_of_lt_of_le Nat.one_pos (Nat.le_max_right _ _))
  have h2 : l.hiddenSize ≤ l.hiddenSize * Nat.max T 1 :=
    Nat.le_mul_of_pos_right _ (Nat.lt_of_lt_of_le Nat.one_pos (Nat.le_max_right _ _))
  simp only [Layer.setTimeSteps, resize, vec, List.getD_eq_getElem?_getD]
  rw [List.getElem?_append_left (by rw [List.length_take]; exact lt_min (by omega) (by omega)),
    List.getElem?_take_of_lt (by omega)]

/-- `hidden_state(h)` throws iff `h` is longer than the hidden size; otherwise the leading entries of
the state become `h` and everything else stays. -/
theorem C29_set_hidden (l : Layer ℝ) (hl : Sized l) (h : List ℝ) :
    (l.hiddenSize < h.length → ∃ m, l.setHidden h = .throw m) ∧
    (h.length ≤ l.hiddenSize → ∃ l', l.setHidden h = .ok l' ∧ Sized l' ∧
      (∀ i, vec l'.hidden i = if i < h.length then vec h i else vec l.hidden i) ∧
      { l' with hidden := l.hidden } = l) := by
  have h1 : l.hiddenSize ≤ l.hidden.length := by
    rw [hl.hidden]; exact Nat.le_mul_of_pos_left _ (Nat.lt_of_lt_of_le Nat.one_pos (Nat.le_max_right _ _))
  constructor
  · intro hh
    exact ⟨_, by unfold Layer.setHidden; rw [if_pos hh]⟩
  · intro hh
    refine ⟨{ l with hidden := h ++ l.hidden.drop h.length },
      by unfold Layer.setHidden; rw [if_neg (by omega)], ?_, ?_, rfl⟩
    · refine ⟨hl.wih, hl.whh, hl.who, hl.bh, hl.bo, hl.output, ?_⟩
      simp only [List.length_append, List.length_drop]
      rw [← hl.hidden]; omega
    · intro i
      simp only [vec, List.getD_eq_getElem?_getD]
      split
      · next hi => rw [List.getElem?_append_left hi]
      · next hi =>
        rw [List.getElem?_append_right (by omega), List.getElem?_drop]
        congr 2
        omega

/-- The claim C29 for one call. -/
def C29Claim (l : Layer ℝ) (inputs : List ℝ) : Prop :=
  ∃ l', l.forward Act.tanh inputs = .ok l' ∧
    l'.output.length = l.timeSteps * l.outputSize ∧
    (∀ t i, t < l.timeSteps → i < l.outputSize → mat l'.output l.outputSize t i
      = (cell l).out Real.tanh (mat inputs l.inputSize) (vec l.hidden) t i) ∧
    (∀ i, i < l.hiddenSize → vec l'.hidden i
      = (cell l).state Real.tanh (mat inputs l.inputSize) (vec l.hidden) l.timeSteps i)

theorem vec_slots0 {T H i : Nat} (F : Nat → Nat → ℝ) (hT : 0 < T) (hi : i < H) :
    vec (slots T H F) i = F 0 i := by
  have := mat_slots F hT hi
  rw [mat_eq_vec] at this
  simpa using this

/-- C29 for every number of time steps except one; nothing but the outputs and the hidden state
changes.  Missing: `T = 1`, where it is false (`C29_forward_refuted`). -/
theorem C29_forward_partial (l : Layer ℝ) (hl : Sized l) (hT : l.timeSteps ≠ 1) (inputs : List ℝ)
    (hx : inputs.length = l.timeSteps * l.inputSize) :
    C29Claim l inputs ∧
      ∀ l', l.forward Act.tanh inputs = .ok l' →
        Sized l' ∧ { l' with
          output := l.output, hidden := l.hidden } = l := by
  have h := forward_eq Act.tanh hl hT hx
  constructor
  · refine ⟨_, h, by simp, ?_, ?_⟩
    · intro t i ht hi
      exact mat_slots _ ht hi
    · intro i hi
      have := vec_slots0 (fun s => (cell l).state Act.tanh (mat inputs l.inputSize) (vec l.hidden)
          (if s = 0 then l.timeSteps else s)) (T := Nat.max l.timeSteps 1)
          (Nat.lt_of_lt_of_le Nat.one_pos (Nat.le_max_right _ _)) hi
      rw [if_pos rfl] at this
      exact this
  · intro l' h'
    rw [h] at h'
    cases h'
    exact ⟨⟨hl.wih, hl.whh, hl.who, hl.bh, hl.bo, by simp, by simp⟩, rfl⟩

/-- One unit everywhere, all weights 1, biases and state 0, one time step. -/
noncomputable def oneStepRnn : Layer ℝ :=
  { Layer.new 1 1 1 1 with
    wih := [1], whh := [1], who := [1] }

/-- C29 is false for a single time step: the product with the input overwrites the state before it
is used, so the layer computes `tanh (W_ih x + W_hh (W_ih x) + b_h)`. -/
theorem C29_forward_refuted :
    Sized oneStepRnn ∧ [(1:ℝ)].length = oneStepRnn.timeSteps * oneStepRnn.inputSize ∧
      ¬ C29Claim oneStepRnn [1] := by
  have hs : Sized oneStepRnn := by constructor <;> simp [oneStepRnn, Layer.new]
  refine ⟨hs, by simp [oneStepRnn, Layer.new], ?_⟩
  rintro ⟨l', h, -, h2, -⟩
  rw [forward_eq_one Act.tanh hs (by simp [oneStepRnn, Layer.new])
    (by simp [oneStepRnn, Layer.new])] at h
  cases h
  have := h2 0 0 (by simp [oneStepRnn, Layer.new]) (by simp [oneStepRnn, Layer.new])
  simp [oneStepRnn, Layer.new, cell, Cell.out, Cell.state, Cell.pre, mat, vec, tab, Act.tanh] at this
  have := Real.tanh_injective this
  norm_num at this

/-- What a call with a single time step computes. -/
theorem C29_one_step_actual (l : Layer ℝ) (hl : Sized l) (hT : l.timeSteps = 1) (inputs : List ℝ)
    (hx : inputs.length = l.inputSize) :
    ∃ l', l.forward Act.tanh inputs = .ok l' ∧
      ∀ i, i < l.hiddenSize → vec l'.hidden i = Real.tanh ((cell l).pre (vec inputs)
        (fun j => ∑ k ∈ range l.inputSize, mat l.wih l.inputSize j k * vec inputs k) i) := by
  refine ⟨_, forward_eq_one Act.tanh hl hT hx, ?_⟩
  intro i hi
  exact vec_tab _ hi

/-- Successive calls of `forward`, with the outputs of each call. -/
noncomputable def calls (l : Layer ℝ) : List (List ℝ) → Exec (Layer ℝ × List (List ℝ))
  | [] => .ok (l, [])
  | x :: xs => do
    let l' ← l.forward Act.tanh x
    let r ← calls l' xs
    pure (r.1, l'.output :: r.2)

theorem state_shift (c : Cell ℝ) (act : ℝ → ℝ) (x : Nat → Nat → ℝ) (s0 : Nat → ℝ) (a : Nat) :
    ∀ b, c.state act x s0 (a + b) = c.state act (fun t => x (a + t)) (c.state act x s0 a) b := by
  intro b
  induction b with
  | zero => rfl
  | succ b ih => funext i; rw [← Nat.add_assoc]; simp only [Cell.state, ih]

theorem state_congr {c : Cell ℝ} {act : ℝ → ℝ} {x y : Nat → Nat → ℝ} {s s' : Nat → ℝ} {T : Nat}
    (hx : ∀ t, t < T → ∀ j, j < c.n → x t j = y t j) (hs : ∀ j, j < c.h → s j = s' j) :
    ∀ t, t ≤ T → ∀ i, i < c.h → c.state act x s t i = c.state act y s' t i := by
  intro t
  induction t with
  | zero => intro _ i hi; exact hs i hi
  | succ t ih =>
    intro ht i hi
    simp only [Cell.state, Cell.pre]
    congr 2
    · congr 1
      · apply sum_congr rfl; intro j hj; rw [hx t (by omega) j (by simpa using hj)]
      · apply sum_congr rfl; intro j hj; rw [ih (by omega) j (by simpa using hj)]

theorem out_congr {c : Cell ℝ} {act : ℝ → ℝ} {x y : Nat → Nat → ℝ} {s s' : Nat → ℝ} {T t : Nat}
    (hx : ∀ t, t < T → ∀ j, j < c.n → x t j = y t j) (hs : ∀ j, j < c.h → s j = s' j)
    (ht : t < T) (i : Nat) : c.out act x s t i = c.out act y s' t i := by
  unfold Cell.out
  congr 1
  apply sum_congr rfl
  intro j hj
  rw [state_congr hx hs (t + 1) (by omega) j (by simpa using hj)]

/-- C29 over any number of calls: the outputs of call `k` are those of one run of the recurrence
over all the inputs put after each other, from the hidden state that the layer had at the
beginning.  Missing: `T = 1`. -/
theorem C29_calls_partial (l : Layer ℝ) (hl : Sized l) (hT : l.timeSteps ≠ 1)
    (xs : List (List ℝ)) (hx : ∀ x ∈ xs, x.length = l.timeSteps * l.inputSize) :
    ∃ l' outs, calls l xs = .ok (l', outs) ∧ outs.length = xs.length ∧
      ∀ k t i, k < xs.length → t < l.timeSteps → i < l.outputSize →
        mat (outs.getD k []) l.outputSize t i
          = (cell l).out Real.tanh
            (fun q j => mat (xs.getD (q / l.timeSteps) []) l.inputSize (q % l.timeSteps) j)
            (vec l.hidden) (k * l.timeSteps + t) i := by
  induction xs generalizing l with
  | nil => exact ⟨l, [], rfl, rfl, by intro k t i hk; simp at hk⟩
  | cons x xs ih =>
    obtain ⟨⟨l1, h1, -, h2, h3⟩, hrest⟩ := C29_forward_partial l hl hT x (hx x (by simp))
    obtain ⟨hs1, he⟩ := hrest l1 h1
    have hin : l1.inputSize = l.inputSize := by rw [← he]
    have hout : l1.outputSize = l.outputSize := by rw [← he]
    have hhs : l1.hiddenSize = l.hiddenSize := by rw [← he]
    have hts : l1.timeSteps = l.timeSteps := by rw [← he]
    have hcell : cell l1 = cell l := by rw [← he]; rfl
    obtain ⟨l', outs, h4, h5, h6⟩ := ih l1 hs1 (by rw [hts]; exact hT)
      (by intro y hy; rw [hts, hin]; exact hx y (by simp [hy]))
    refine ⟨l', l1.output :: outs, ?_, by simp [h5], ?_⟩
    · simp [calls, h1, h4]
    · intro k t i hk ht hi
      have hTpos : 0 < l.timeSteps := by omega
      have hfirst : ∀ q, q < l.timeSteps → ∀ j, mat ((x :: xs).getD (q / l.timeSteps) [])
          l.inputSize (q % l.timeSteps) j = mat x l.inputSize q j := by
        intro q hq j
        rw [Nat.div_eq_of_lt hq, Nat.mod_eq_of_lt hq]; rfl
      cases k with
      | zero =>
        rw [Nat.zero_mul, Nat.zero_add]
        show mat l1.output l.outputSize t i = _
        rw [h2 t i ht hi]
        exact out_congr (T := l.timeSteps) (fun q hq j _ => (hfirst q hq j).symm)
          (fun _ _ => rfl) ht i
      | succ k =>
        show mat (outs.getD k []) l.outputSize t i = _
        have := h6 k t i (by simpa using hk) (by rw [hts]; exact ht) (by rw [hout]; exact hi)
        rw [hout, hin, hts, hcell] at this
        rw [this]
        unfold Cell.out
        congr 1
        apply sum_congr rfl
        intro j hj
        congr 1
        rw [show (k + 1) * l.timeSteps + t + 1 = l.timeSteps + (k * l.timeSteps + t + 1) by ring,
          state_shift _ _ _ _ l.timeSteps (k * l.timeSteps + t + 1)]
        apply state_congr (T := k * l.timeSteps + t + 1) _ _ _ le_rfl _ (by simpa using hj)
        · intro q _ a _
          rw [Nat.add_div_left _ hTpos, Nat.add_mod_left]
          rfl
        · intro a ha
          rw [h3 a ha]
          refine state_congr (T := l.timeSteps) ?_ (fun _ _ => rfl) _ le_rfl a ha
          intro q hq b _
          exact (hfirst q hq b).symm

/-- Non-vacuity: two inputs, three hidden units, one output, two time steps, three calls. -/
example : ∃ (l : Layer ℝ) (xs : List (List ℝ)), Sized l ∧ l.timeSteps ≠ 1 ∧ xs.length = 3 ∧
    ∀ x ∈ xs, x.length = l.timeSteps * l.inputSize :=
  ⟨Layer.new 2 1 3 2, List.replicate 3 [1, 2, 3, 4], C29_new_sized _ _ _ _, by simp [Layer.new],
    by simp, by intro x hx; rw [List.eq_of_mem_replicate hx]; simp [Layer.new]⟩

/-! ### C30 -/

/-- A training step on the layer: forward in training mode, then backward. -/
noncomputable def forwardBackward (act1 : ℝ → ℝ) (l : Layer ℝ) (inputs gradients : List ℝ) :
    Exec (Layer ℝ) := do
  let l' ← l.trainingForward Act.tanh inputs
  l'.backward act1 gradients

/-- The accumulators grow by the exact derivatives of `∑ t i, g t i * y_t i` with respect to the
output bias and the hidden-to-output weights. -/
def OutputGradientsExact (l l' : Layer ℝ) (inputs gradients : List ℝ) : Prop :=
  let x := mat inputs l.inputSize
  let g := mat gradients l.outputSize
  (∀ i, i < l.outputSize →
    HasDerivAt (fun u => ({ cell l with bo := replace (vec l.bo) i u }).objective Real.tanh x
      (vec l.hidden) g l.timeSteps) (vec l'.gbo i - vec l.gbo i) (vec l.bo i)) ∧
  (∀ i j, i < l.outputSize → j < l.hiddenSize →
    HasDerivAt (fun u => ({ cell l with who := replace2 (mat l.who l.hiddenSize) i j u }).objective
      Real.tanh x (vec l.hidden) g l.timeSteps)
      (mat l'.gho l.hiddenSize i j - mat l.gho l.hiddenSize i j) (mat l.who l.hiddenSize i j))

/-- The same for the hidden bias, the input-to-hidden weights and the inputs. -/
def HiddenGradientsExact (l l' : Layer ℝ) (inputs gradients : List ℝ) : Prop :=
  let x := mat inputs l.inputSize
  let g := mat gradients l.outputSize
  (∀ i, i < l.hiddenSize →
    HasDerivAt (fun u => ({ cell l with bh := replace (vec l.bh) i u }).objective Real.tanh x
      (vec l.hidden) g l.timeSteps) (vec l'.gbh i - vec l.gbh i) (vec l.bh i)) ∧
  (∀ i j, i < l.hiddenSize → j < l.inputSize →
    HasDerivAt (fun u => ({ cell l with wih := replace2 (mat l.wih l.inputSize) i j u }).objective
      Real.tanh x (vec l.hidden) g l.timeSteps)
      (mat l'.gih l.inputSize i j - mat l.gih l.inputSize i j) (mat l.wih l.inputSize i j)) ∧
  (∀ t j, t < l.timeSteps → j < l.inputSize →
    HasDerivAt (fun u => (cell l).objective Real.tanh (replace2 x t j u) (vec l.hidden) g
      l.timeSteps) (mat l'.inputGrads l.inputSize t j) (x t j))

/-- The same for the hidden-to-hidden weights, up to an error `e i j`. -/
def RecurrentGradientsUpTo (e : Nat → Nat → ℝ) (l l' : Layer ℝ) (inputs gradients : List ℝ) :
    Prop :=
  ∀ i j, i < l.hiddenSize → j < l.hiddenSize →
    HasDerivAt (fun u => ({ cell l with whh := replace2 (mat l.whh l.hiddenSize) i j u }).objective
      Real.tanh (mat inputs l.inputSize) (vec l.hidden) (mat gradients l.outputSize) l.timeSteps)
      (mat l'.ghh l.hiddenSize i j - mat l.ghh l.hiddenSize i j - e i j)
      (mat l.whh l.hiddenSize i j)

/-- The claim C30. -/
def C30Claim (l : Layer ℝ) (inputs gradients : List ℝ) : Prop :=
  ∃ l', forwardBackward Act.tanh1 l inputs gradients = .ok l' ∧
    OutputGradientsExact l l' inputs gradients ∧ HiddenGradientsExact l l' inputs gradients ∧
    RecurrentGradientsUpTo (fun _ _ => 0) l l' inputs gradients

/-- Buffer lengths before a training step. -/
structure TrainSized (l : Layer ℝ) (inputs gradients : List ℝ) : Prop extends Sized l where
  gih : l.gih.length = l.hiddenSize * l.inputSize
  ghh : l.ghh.length = l.hiddenSize * l.hiddenSize
  gho : l.gho.length = l.outputSize * l.hiddenSize
  gbh : l.gbh.length = l.hiddenSize
  gbo : l.gbo.length = l.outputSize
  ig : l.inputGrads.length = l.timeSteps * l.inputSize
  inputs : inputs.length = l.timeSteps * l.inputSize
  gradients : gradients.length = l.timeSteps * l.outputSize

/-- The layer after the forward pass of a training step. -/
noncomputable def afterForward (l : Layer ℝ) (inputs : List ℝ) : Layer ℝ :=
  { l with
    lastInput := inputs
    hidden := slots (Nat.max l.timeSteps 1) l.hiddenSize (fun s =>
        (cell l).state Act.tanh (mat inputs l.inputSize) (vec l.hidden)
          (if s = 0 then l.timeSteps else s))
    output := slots l.timeSteps l.outputSize
        ((cell l).out Act.tanh (mat inputs l.inputSize) (vec l.hidden)) }

@[simp] theorem af_inputSize (l : Layer ℝ) (x : List ℝ) : (afterForward l x).inputSize = l.inputSize := rfl
@[simp] theorem af_outputSize (l : Layer ℝ) (x : List ℝ) : (afterForward l x).outputSize = l.outputSize := rfl
@[simp] theorem af_hiddenSize (l : Layer ℝ) (x : List ℝ) : (afterForward l x).hiddenSize = l.hiddenSize := rfl
@[simp] theorem af_timeSteps (l : Layer ℝ) (x : List ℝ) : (afterForward l x).timeSteps = l.timeSteps := rfl
@[simp] theorem af_wih (l : Layer ℝ) (x : List ℝ) : (afterForward l x).wih = l.wih := rfl
@[simp] theorem af_gih (l : Layer ℝ) (x : List ℝ) : (afterForward l x).gih = l.gih := rfl
@[simp] theorem af_ghh (l : Layer ℝ) (x : List ℝ) : (afterForward l x).ghh = l.ghh := rfl
@[simp] theorem af_gho (l : Layer ℝ) (x : List ℝ) : (afterForward l x).gho = l.gho := rfl
@[simp] theorem af_gbh (l : Layer ℝ) (x : List ℝ) : (afterForward l x).gbh = l.gbh := rfl
@[simp] theorem af_gbo (l : Layer ℝ) (x : List ℝ) : (afterForward l x).gbo = l.gbo := rfl
@[simp] theorem af_lastInput (l : Layer ℝ) (x : List ℝ) : (afterForward l x).lastInput = x := rfl
@[simp] theorem af_cell (l : Layer ℝ) (x : List ℝ) : cell (afterForward l x) = cell l := rfl

theorem forwardBackward_eq (act1 : ℝ → ℝ) {l : Layer ℝ} {inputs gradients : List ℝ}
    (hl : TrainSized l inputs gradients) (hT : l.timeSteps ≠ 1) :
    forwardBackward act1 l inputs gradients = (afterForward l inputs).backward act1 gradients ∧
      SizedBack (afterForward l inputs) gradients := by
  constructor
  · unfold forwardBackward Layer.trainingForward
    rw [forward_eq Act.tanh (l := { l with lastInput := inputs })
      ⟨hl.wih, hl.whh, hl.who, hl.bh, hl.bo, hl.output, hl.hidden⟩ hT hl.inputs, Exec.bind_ok]
    rfl
  · exact ⟨⟨hl.wih, hl.whh, hl.who, hl.bh, hl.bo, by simp [afterForward], by simp [afterForward]⟩,
      hl.gih, hl.ghh, hl.gho, hl.gbh, hl.gbo, hl.ig, hl.inputs, hl.gradients⟩

/-- Blocks of the hidden buffer that `backward` reads. -/
theorem afterForward_cur (l : Layer ℝ) (inputs : List ℝ) {t j : Nat} (ht : t < l.timeSteps)
    (hj : j < l.hiddenSize) :
    mat (afterForward l inputs).hidden l.hiddenSize (cur l.timeSteps t) j
      = (cell l).state Real.tanh (mat inputs l.inputSize) (vec l.hidden) (t + 1) j := by
  have hmax : Nat.max l.timeSteps 1 = l.timeSteps := Nat.max_eq_left (by omega)
  unfold afterForward
  rw [mat_slots _ (by rw [hmax]; unfold cur; split <;> omega) hj]
  unfold cur
  by_cases h : t + 1 ≥ l.timeSteps
  · rw [if_pos h, if_pos rfl, show l.timeSteps = t + 1 by omega]; rfl
  · rw [if_neg h, if_neg (by omega)]; rfl

theorem afterForward_block (l : Layer ℝ) (inputs : List ℝ) {t j : Nat} (ht : t < l.timeSteps)
    (hj : j < l.hiddenSize) :
    mat (afterForward l inputs).hidden l.hiddenSize t j
      = (cell l).state Real.tanh (mat inputs l.inputSize) (vec l.hidden)
        (if t = 0 then l.timeSteps else t) j := by
  have hmax : Nat.max l.timeSteps 1 = l.timeSteps := Nat.max_eq_left (by omega)
  unfold afterForward
  rw [mat_slots _ (by rw [hmax]; exact ht) hj]
  rfl

theorem carry_congr {c : Cell ℝ} {d d' g : Nat → Nat → ℝ} {T : Nat}
    (h : ∀ t i, t < T → i < c.h → d t i = d' t i) :
    ∀ k, k ≤ T → ∀ j, c.carry d g T k j = c.carry d' g T k j := by
  intro k
  induction k with
  | zero => intro _ _; rfl
  | succ k ih =>
    intro hk j
    simp only [Cell.carry]
    apply sum_congr rfl
    intro i hi
    rw [h _ _ (by omega) (by simpa using hi), ih (by omega)]

theorem delta_congr {c : Cell ℝ} {d d' g : Nat → Nat → ℝ} {T : Nat}
    (h : ∀ t i, t < T → i < c.h → d t i = d' t i) {t i : Nat} (ht : t < T) (hi : i < c.h) :
    c.delta d g T t i = c.delta d' g T t i := by
  unfold Cell.delta
  rw [h _ _ ht hi, carry_congr h _ (by omega)]

/-- C30, what the backward pass accumulates, in terms of the states `h_t` of the recurrence: the
local factor of step `t` is `act1 (h_{t+1})`, and step 0 multiplies the gradient of `W_hh` with
the last state instead of the initial one. -/
theorem C30_backward_actual (act1 : ℝ → ℝ) (l : Layer ℝ) (inputs gradients : List ℝ)
    (hl : TrainSized l inputs gradients) (hT : l.timeSteps ≠ 1) :
    let x := mat inputs l.inputSize
    let g := mat gradients l.outputSize
    let h := (cell l).state Real.tanh x (vec l.hidden)
    let δ := (cell l).delta (fun t i => act1 (h (t + 1) i)) g l.timeSteps
    ∃ l', forwardBackward act1 l inputs gradients = .ok l' ∧
      (∀ i, i < l.outputSize → vec l'.gbo i = vec l.gbo i + ∑ t ∈ range l.timeSteps, g t i) ∧
      (∀ i j, i < l.outputSize → j < l.hiddenSize → mat l'.gho l.hiddenSize i j
        = mat l.gho l.hiddenSize i j + ∑ t ∈ range l.timeSteps, g t i * h (t + 1) j) ∧
      (∀ i, i < l.hiddenSize → vec l'.gbh i = vec l.gbh i + ∑ t ∈ range l.timeSteps, δ t i) ∧
      (∀ i j, i < l.hiddenSize → j < l.inputSize → mat l'.gih l.inputSize i j
        = mat l.gih l.inputSize i j + ∑ t ∈ range l.timeSteps, δ t i * x t j) ∧
      (∀ i j, i < l.hiddenSize → j < l.hiddenSize → mat l'.ghh l.hiddenSize i j
        = mat l.ghh l.hiddenSize i j + ∑ t ∈ range l.timeSteps,
          δ t i * h (if t = 0 then l.timeSteps else t) j) ∧
      (∀ t j, t < l.timeSteps → j < l.inputSize → mat l'.inputGrads l.inputSize t j
        = ∑ i ∈ range l.hiddenSize, δ t i * mat l.wih l.inputSize i j) := by
  intro x g h δ
  obtain ⟨h1, h2⟩ := forwardBackward_eq act1 hl hT
  have hb := backward_eq act1 h2
  simp only [af_inputSize, af_outputSize, af_hiddenSize, af_timeSteps, af_wih, af_gih, af_ghh,
    af_gho, af_gbh, af_gbo, af_lastInput, af_cell] at hb
  have hδ : ∀ t i, t < l.timeSteps → i < l.hiddenSize →
      (cell l).delta (factor act1 (afterForward l inputs))
        (mat gradients l.outputSize) l.timeSteps t i = δ t i := by
    intro t i ht hi
    apply delta_congr _ ht hi
    intro t i ht hi
    unfold factor
    show act1 (mat (afterForward l inputs).hidden l.hiddenSize (cur l.timeSteps t) i) = _
    rw [afterForward_cur l inputs ht hi]
  refine ⟨_, h1.trans hb, ?_, ?_, ?_, ?_, ?_, ?_⟩
  · intro i hi
    exact vec_tab _ hi
  · intro i j hi hj
    dsimp only
    rw [mat_slots _ hi hj]
    congr 1
    apply sum_congr rfl
    intro t ht
    rw [afterForward_cur l inputs (by simpa using ht) hj]
  · intro i hi
    dsimp only
    rw [vec_tab _ hi]
    congr 1
    apply sum_congr rfl
    intro t ht
    exact hδ t i (by simpa using ht) hi
  · intro i j hi hj
    dsimp only
    rw [mat_slots _ hi hj]
    congr 1
    apply sum_congr rfl
    intro t ht
    rw [hδ t i (by simpa using ht) hi]
  · intro i j hi hj
    dsimp only
    rw [mat_slots _ hi hj]
    congr 1
    apply sum_congr rfl
    intro t ht
    rw [hδ t i (by simpa using ht) hi, afterForward_block l inputs (by simpa using ht) hj]
  · intro t j ht hj
    dsimp only
    rw [mat_slots _ ht hj]
    apply sum_congr rfl
    intro i hi
    rw [hδ t i ht (by simpa using hi)]

/-- C30, output part: the gradients of `b_o` and `W_ho` are exact, whatever derivative `act1` the
backward pass uses.  Missing: the other parameters (see `C30_backward_refuted`) and `T = 1`. -/
theorem C30_output_partial (act1 : ℝ → ℝ) (l : Layer ℝ) (inputs gradients : List ℝ)
    (hl : TrainSized l inputs gradients) (hT : l.timeSteps ≠ 1) :
    ∃ l', forwardBackward act1 l inputs gradients = .ok l' ∧
      OutputGradientsExact l l' inputs gradients := by
  obtain ⟨l', h, h1, h2, -⟩ := C30_backward_actual act1 l inputs gradients hl hT
  refine ⟨l', h, ?_, ?_⟩
  · intro i hi
    rw [h1 i hi, add_sub_cancel_left]
    exact deriv_bo (cell l) _ _ _ _ hi
  · intro i j hi hj
    rw [h2 i j hi hj, add_sub_cancel_left]
    exact deriv_who (cell l) _ _ _ _ hi hj

/-- C30 for a backward pass that takes the derivative from the stored (already activated) state in
the right way, i.e. with `tanh_1_opt` where the code has `tanh_1`: then `b_h`, `W_ih` and the inputs
get exact gradients, and the gradient of `W_hh` is off by exactly the term of step 0, for which the
code uses the last state instead of the initial one. -/
theorem C30_opt_derivative_partial (l : Layer ℝ) (inputs gradients : List ℝ)
    (hl : TrainSized l inputs gradients) (hT : l.timeSteps ≠ 1) :
    ∃ l', forwardBackward Act.tanh1Opt l inputs gradients = .ok l' ∧
      OutputGradientsExact l l' inputs gradients ∧
      HiddenGradientsExact l l' inputs gradients ∧
      RecurrentGradientsUpTo (fun i j => if l.timeSteps = 0 then 0 else
          (cell l).delta (trueFactor Real.tanh Act.tanh1 (cell l) (mat inputs l.inputSize)
            (vec l.hidden)) (mat gradients l.outputSize) l.timeSteps 0 i *
          ((cell l).state Real.tanh (mat inputs l.inputSize) (vec l.hidden) l.timeSteps j
            - vec l.hidden j)) l l' inputs gradients := by
  obtain ⟨l', h, h1, h2, h3, h4, h5, h6⟩ :=
    C30_backward_actual Act.tanh1Opt l inputs gradients hl hT
  refine ⟨l', h, ⟨?_, ?_⟩, ⟨?_, ?_, ?_⟩, ?_⟩
  · intro i hi
    rw [h1 i hi, add_sub_cancel_left]
    exact deriv_bo (cell l) _ _ _ _ hi
  · intro i j hi hj
    rw [h2 i j hi hj, add_sub_cancel_left]
    exact deriv_who (cell l) _ _ _ _ hi hj
  · intro i hi
    rw [h3 i hi, add_sub_cancel_left]
    exact deriv_bh Act.tanh_deriv (cell l) _ _ _ _ hi
  · intro i j hi hj
    rw [h4 i j hi hj, add_sub_cancel_left]
    exact deriv_wih Act.tanh_deriv (cell l) _ _ _ _ hi hj
  · intro t j ht hj
    rw [h6 t j ht hj]
    exact deriv_x Act.tanh_deriv (cell l) _ _ _ _ ht hj
  · intro i j hi hj
    rw [h5 i j hi hj, add_sub_cancel_left]
    refine (deriv_whh Act.tanh_deriv (cell l) _ _ _ _ hi hj).congr_deriv ?_
    dsimp only
    by_cases h0 : l.timeSteps = 0
    · rw [if_pos h0, h0]; simp
    · rw [if_neg h0]
      obtain ⟨n, hn⟩ : ∃ n, l.timeSteps = n + 1 := ⟨l.timeSteps - 1, by omega⟩
      have e : ∀ (f f' : Nat → ℝ), (∀ t, t ≠ 0 → f t = f' t) →
          ∑ t ∈ range l.timeSteps, f t = ∑ t ∈ range l.timeSteps, f' t - (f' 0 - f 0) := by
        intro f f' hf
        rw [hn, sum_range_succ', sum_range_succ' f']
        rw [sum_congr rfl fun t _ => hf (t + 1) (by omega)]
        ring
      rw [e _ (fun t => (cell l).delta (trueFactor Real.tanh Act.tanh1 (cell l)
        (mat inputs l.inputSize) (vec l.hidden)) (mat gradients l.outputSize) l.timeSteps t i
          * (cell l).state Real.tanh (mat inputs l.inputSize) (vec l.hidden)
            (if t = 0 then l.timeSteps else t) j)]
      · rw [if_pos rfl]
        show _ - _ = _ - _
        congr 1
        exact (mul_sub _ _ _).symm
      · intro t ht0
        rw [if_neg ht0]
        rfl

/-- The layer of the counterexample below: one unit everywhere, `W_ih = W_ho = 1`, the other
parameters 0, two time steps. -/
noncomputable def tinyRnn : Layer ℝ :=
  { Layer.new 1 1 1 2 with
    wih := [1], who := [1] }

theorem tinyRnn_sized : TrainSized tinyRnn [1, 0] [1, 0] := by
  refine ⟨⟨?_, ?_, ?_, ?_, ?_, ?_, ?_⟩, ?_, ?_, ?_, ?_, ?_, ?_, ?_, ?_⟩ <;>
    simp [tinyRnn, Layer.new]

theorem tanh_tanh_one : Real.tanh (Real.tanh 1) * Real.tanh (Real.tanh 1)
    ≠ Real.tanh 1 * Real.tanh 1 := by
  intro e
  have hb : Real.tanh 1 ∈ Set.Ioo (-1:ℝ) 1 := Real.tanh_bijOn.mapsTo (Set.mem_univ _)
  rcases mul_self_eq_mul_self_iff.mp e with h | h
  · exact hb.2.ne (Real.tanh_injective h)
  · rw [← Real.tanh_neg] at h
    exact hb.1.ne' (Real.tanh_injective h)

/-- C30 is false for the backward pass of the code: `tanh_1` is applied to the activated state, so
already for one unit and two time steps the gradient of the hidden bias is wrong. -/
theorem C30_backward_refuted : TrainSized tinyRnn [1, 0] [1, 0] ∧ ¬ C30Claim tinyRnn [1, 0] [1, 0] := by
  refine ⟨tinyRnn_sized, ?_⟩
  rintro ⟨l', h, -, ⟨h2, -⟩, -⟩
  obtain ⟨l'', h', -, -, h3, -⟩ := C30_backward_actual Act.tanh1 tinyRnn [1, 0] [1, 0] tinyRnn_sized
    (by simp [tinyRnn, Layer.new])
  rw [h] at h'
  cases h'
  have hi : 0 < tinyRnn.hiddenSize := by simp [tinyRnn, Layer.new]
  have hd := h2 0 hi
  have hd' := deriv_bh Act.tanh_deriv (cell tinyRnn) (mat [1, 0] 1) (vec tinyRnn.hidden)
    (mat [1, 0] 1) 2 (i := 0) hi
  have e := hd.unique hd'
  rw [h3 0 hi, add_sub_cancel_left] at e
  simp [tinyRnn, Layer.new, cell, Cell.delta, Cell.carry, Cell.pre, Cell.state,
    trueFactor, mat, vec, Act.tanh1, Act.tanh1Opt, sum_range_succ] at e
  exact tanh_tanh_one e

end Verif.Props
