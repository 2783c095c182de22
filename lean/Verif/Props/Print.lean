import Verif.Proofs.Print
import Verif.Proofs.NetLayer

/-! C97: printing a model shows all its parameters. -/

namespace Verif.Props

open Verif Verif.Net Verif.Print Verif.Spec

noncomputable section

/-- What the output of a layer shows, whatever is printed after it. -/
structure Shows (items : List Item) (xs : List ℝ) (ps : List (Nat × ℝ)) (ss : List (String × List Nat × List ℝ)) :
    Prop where
  numbers : ∀ rest, numbers (items ++ rest) = xs ++ numbers rest
  indexed : indexed items = ps
  sections : sections items = ss

/-- One section: a header, a body, the rest. -/
theorem headed {i : List Item} {x : List ℝ} {p : List (Nat × ℝ)} (h : Body i x p) (t : String) (d : List Nat)
    (rest : List Item) :
    numbers (.head t d :: (i ++ rest)) = x ++ numbers rest ∧ indexed (.head t d :: (i ++ rest)) = p ++ indexed rest ∧
    sections (.head t d :: (i ++ rest)) = (t, d, x ++ numbers (rest.takeWhile notHead))
      :: sections rest :=
  ⟨h.numbers rest, h.indexed rest, by
    show (t, d, numbers ((i ++ rest).takeWhile _)) :: sections (i ++ rest) = _
    rw [h.takeWhile, h.numbers, h.sections]⟩

theorem numbers_text (s : String) (r : List Item) : numbers (.text s :: r) = numbers r := rfl
theorem indexed_text (s : String) (r : List Item) : indexed (.text s :: r) = indexed r := rfl
theorem sections_text (s : String) (r : List Item) : sections (.text s :: r) = sections r := rfl

theorem dense_shows (name : String) (l : Dense.Layer ℝ) (h : ParamsSized (.dense l)) :
    ∃ items, layer name (.dense l) = .ok items ∧ Shows items (l.weights ++ l.biases) (l.weights.zipIdx.map Prod.swap)
      [("Weights", [l.outputSize, l.inputSize], l.weights), ("Biases", [l.outputSize, 1], l.biases)] := by
  obtain ⟨w, w1, w2⟩ := matrix_ok (body_text "\n") h.1
  obtain ⟨b, b1, b2⟩ := column_ok h.2
  refine ⟨[.text name, .head "Weights" [l.outputSize, l.inputSize]] ++ w ++ [.head "Biases" [l.outputSize, 1]] ++ b
    ++ [.text "\n"], ?_, ?_, ?_, ?_⟩
  · show Print.dense name l = _
    unfold Print.dense
    rw [w1, Exec.bind_ok, b1, Exec.bind_ok]
  all_goals simp only [List.append_assoc, List.cons_append, List.nil_append]
  · intro rest
    simp only [numbers_text]
    rw [(headed w2 _ _ _).1, (headed b2 _ _ _).1]
    rfl
  · simp only [indexed_text]
    rw [(headed w2 _ _ _).2.1, (headed b2 _ _ _).2.1]
    simp [indexed]
  · simp only [sections_text]
    rw [(headed w2 _ _ _).2.2, (headed b2 _ _ _).2.2]
    simp [sections, numbers, List.takeWhile, notHead]

theorem conv_shows (name : String) (l : Slide.ConvLayer ℝ) (h : ParamsSized (.conv l)) :
    ∃ items, layer name (.conv l) = .ok items ∧ Shows items (l.weights ++ l.biases) []
      [("Weights", [l.kernel.h, l.kernel.w, l.input.c, l.nFilters], l.weights),
        ("Biases", [1, 1, l.nFilters], l.biases)] := by
  obtain ⟨w, w1, w2⟩ := conv_weights h.1 h.2.2.1 h.2.2.2
  obtain ⟨b, b1, b2⟩ := column_ok h.2.1
  refine ⟨[.text name, .head "Weights" [l.kernel.h, l.kernel.w, l.input.c, l.nFilters]] ++ w
    ++ [.head "Biases" [1, 1, l.nFilters]] ++ b ++ [.text "\n"], ?_, ?_, ?_, ?_⟩
  · show Print.conv name l = _
    unfold Print.conv
    rw [w1, Exec.bind_ok, b1, Exec.bind_ok]
  all_goals simp only [List.append_assoc, List.cons_append, List.nil_append]
  · intro rest
    simp only [numbers_text]
    rw [(headed w2 _ _ _).1, (headed b2 _ _ _).1]
    rfl
  · simp only [indexed_text]
    rw [(headed w2 _ _ _).2.1, (headed b2 _ _ _).2.1]
    simp [indexed]
  · simp only [sections_text]
    rw [(headed w2 _ _ _).2.2, (headed b2 _ _ _).2.2]
    simp [sections, numbers, List.takeWhile, notHead]

theorem recurrent_shows (name : String) (f f1 : ℝ → ℝ) (l : Rnn.Layer ℝ) (h : ParamsSized (.rnn f f1 l)) :
    ∃ items, layer name (.rnn f f1 l) = .ok items ∧ Shows items (l.wih ++ l.whh ++ l.who ++ l.bh ++ l.bo)
      (l.wih.zipIdx.map Prod.swap ++ l.whh.zipIdx.map Prod.swap ++ l.who.zipIdx.map Prod.swap)
      [("Weights input to hidden", [l.hiddenSize, l.inputSize], l.wih),
        ("Weights hidden to hidden", [l.hiddenSize, l.inputSize], l.whh),
        ("Weights hidden to output", [l.outputSize, l.inputSize], l.who),
        ("Biases to hidden", [l.hiddenSize, 1], l.bh), ("Biases to output", [l.outputSize, 1], l.bo)] := by
  obtain ⟨ih, a1, a2⟩ := matrix_ok Body.nil h.1
  obtain ⟨hh, b1, b2⟩ := matrix_ok Body.nil h.2.1
  obtain ⟨ho, c1, c2⟩ := matrix_ok Body.nil h.2.2.1
  obtain ⟨bh, d1, d2⟩ := column_ok h.2.2.2.1
  obtain ⟨bo, e1, e2⟩ := column_ok h.2.2.2.2
  refine ⟨[.text name, .head "Weights input to hidden" [l.hiddenSize, l.inputSize]] ++ ih
    ++ [.head "Weights hidden to hidden" [l.hiddenSize, l.inputSize]] ++ hh
    ++ [.head "Weights hidden to output" [l.outputSize, l.inputSize]] ++ ho
    ++ [.head "Biases to hidden" [l.hiddenSize, 1]] ++ bh
    ++ [.head "Biases to output" [l.outputSize, 1]] ++ bo ++ [.text "\n"], ?_, ?_, ?_, ?_⟩
  · show Print.recurrent name l = _
    unfold Print.recurrent
    rw [a1, Exec.bind_ok, b1, Exec.bind_ok, c1, Exec.bind_ok, d1, Exec.bind_ok, e1, Exec.bind_ok]
  all_goals simp only [List.append_assoc, List.cons_append, List.nil_append]
  · intro rest
    simp only [numbers_text]
    rw [(headed a2 _ _ _).1, (headed b2 _ _ _).1, (headed c2 _ _ _).1, (headed d2 _ _ _).1, (headed e2 _ _ _).1]
    rfl
  · simp only [indexed_text]
    rw [(headed a2 _ _ _).2.1, (headed b2 _ _ _).2.1, (headed c2 _ _ _).2.1, (headed d2 _ _ _).2.1,
      (headed e2 _ _ _).2.1]
    simp [indexed]
  · simp only [sections_text]
    rw [(headed a2 _ _ _).2.2, (headed b2 _ _ _).2.2, (headed c2 _ _ _).2.2, (headed d2 _ _ _).2.2,
      (headed e2 _ _ _).2.2]
    simp [sections, numbers, List.takeWhile, notHead]

theorem layer_shows (name : String) (a : AnyLayer) (h : ParamsSized a) :
    ∃ items, layer name a = .ok items ∧ ∀ rest, numbers (items ++ rest) = shown a ++ numbers rest := by
  cases a with
  | dense l => obtain ⟨i, h1, h2⟩ := dense_shows name l h; exact ⟨i, h1, h2.numbers⟩
  | conv l => obtain ⟨i, h1, h2⟩ := conv_shows name l h; exact ⟨i, h1, h2.numbers⟩
  | rnn f f1 l => obtain ⟨i, h1, h2⟩ := recurrent_shows name f f1 l h; exact ⟨i, h1, h2.numbers⟩
  | loss f l =>
    refine ⟨_, rfl, fun rest => ?_⟩
    show [l.avgLoss, l.accuracy * 100] ++ numbers rest = [l.avgLoss, 100 * l.accuracy] ++ numbers rest
    rw [mul_comm]
  | maxPool l => exact ⟨_, rfl, fun _ => rfl⟩
  | avgPool l => exact ⟨_, rfl, fun _ => rfl⟩
  | act f l => exact ⟨_, rfl, fun _ => rfl⟩
  | dropout mx raw l => exact ⟨_, rfl, fun _ => rfl⟩

/-- **C97**, the numbers, except for convolutional layers without filters: `print` shows, layer by layer, every
parameter once and nothing else, and the scores of loss layers. -/
theorem C97_numbers_partial (ls : List (String × AnyLayer)) (h : ∀ a ∈ ls, ParamsSized a.2) :
    ∃ items, Print.model ls = .ok items ∧ numbers items = ls.flatMap (fun a => shown a.2) := by
  induction ls with
  | nil => exact ⟨_, rfl, rfl⟩
  | cons a ls ih =>
    obtain ⟨x, h1, h2⟩ := layer_shows a.1 a.2 (h a List.mem_cons_self)
    obtain ⟨y, h3, h4⟩ := ih fun b hb => h b (List.mem_cons_of_mem _ hb)
    refine ⟨x ++ y, ?_, ?_⟩
    · show (layer a.1 a.2 >>= _) = _
      rw [h1, Exec.bind_ok, h3, Exec.bind_ok]
    · rw [h2, h4, List.flatMap_cons]

/-- What is shown of a layer that is no loss layer are its parameters, in some order; for dense and convolutional
layers in the order of `param(i)`. -/
theorem C97_all_parameters (a : AnyLayer) (h : ∀ f l, a ≠ .loss f l) :
    (shown a).Perm a.params.flatten ∧ ((∀ f f1 l, a ≠ .rnn f f1 l) → shown a = a.params.flatten) := by
  cases a with
  | loss f l => exact absurd rfl (h f l)
  | rnn f f1 l =>
    refine ⟨?_, fun h => absurd rfl (h f f1 l)⟩
    simp only [shown, AnyLayer.params, List.flatten_cons, List.flatten_nil, List.append_nil, List.append_assoc]
    exact ((List.perm_append_comm_assoc _ _ _).append_left _).append_left _
  | dense l => exact ⟨by simp [shown, AnyLayer.params], fun _ => by simp [shown, AnyLayer.params]⟩
  | conv l => exact ⟨by simp [shown, AnyLayer.params], fun _ => by simp [shown, AnyLayer.params]⟩
  | _ => exact ⟨by simp [shown, AnyLayer.params], fun _ => by simp [shown, AnyLayer.params]⟩

/-- **C97**, indices: the weights of a dense layer are shown with their index. -/
theorem C97_indices (name : String) (l : Dense.Layer ℝ) (h : ParamsSized (.dense l)) :
    ∃ items, layer name (.dense l) = .ok items ∧
      ∀ (i : Nat) (x : ℝ), (i, x) ∈ indexed items ↔ l.weights[i]? = some x := by
  obtain ⟨i, h1, h2⟩ := dense_shows name l h
  refine ⟨i, h1, fun k x => ?_⟩
  rw [h2.indexed]
  simp [List.mem_zipIdx_iff_getElem?]

/-- **C97**, dimensions, except for recurrent layers: each header of a dense or convolutional layer announces as many
numbers as follow it. -/
theorem C97_dimensions_partial (name : String) (a : AnyLayer) (h : ParamsSized a) (hr : ∀ f f1 l, a ≠ .rnn f f1 l) :
    ∃ items, layer name a = .ok items ∧ ∀ s ∈ sections items, s.2.2.length = s.2.1.prod := by
  cases a with
  | dense l =>
    obtain ⟨i, h1, h2⟩ := dense_shows name l h
    refine ⟨i, h1, ?_⟩
    rw [h2.sections]
    simp [h.1, h.2]
  | conv l =>
    obtain ⟨i, h1, h2⟩ := conv_shows name l h
    refine ⟨i, h1, ?_⟩
    rw [h2.sections]
    simp [h.1, h.2.1, Nat.mul_assoc]
  | rnn f f1 l => exact absurd rfl (hr f f1 l)
  | loss f l => exact ⟨_, rfl, by simp [loss, sections]⟩
  | maxPool l => exact ⟨_, rfl, by simp [noParams, sections]⟩
  | avgPool l => exact ⟨_, rfl, by simp [noParams, sections]⟩
  | act f l => exact ⟨_, rfl, by simp [noParams, sections]⟩
  | dropout mx raw l => exact ⟨_, rfl, by simp [noParams, sections]⟩

/-- **C97** is false of the dimensions of recurrent layers: whenever the hidden size differs from the number of inputs,
the matrix from hidden to hidden values is announced with a wrong number of columns. -/
theorem C97_dimensions_refuted (name : String) (f f1 : ℝ → ℝ) (l : Rnn.Layer ℝ) (h : ParamsSized (.rnn f f1 l))
    (hp : 0 < l.hiddenSize) (hne : l.hiddenSize ≠ l.inputSize) :
    ∃ items, layer name (.rnn f f1 l) = .ok items ∧
      ∃ s ∈ sections items, s.1 = "Weights hidden to hidden" ∧ s.2.2 = l.whh ∧ s.2.2.length ≠ s.2.1.prod := by
  obtain ⟨i, h1, h2⟩ := recurrent_shows name f f1 l h
  refine ⟨i, h1, ("Weights hidden to hidden", [l.hiddenSize, l.inputSize], l.whh), ?_, rfl, rfl, ?_⟩
  · rw [h2.sections]; simp
  · simp only [List.prod_cons, List.prod_nil, Nat.mul_one, h.2.1]
    intro e
    exact hne (Nat.eq_of_mul_eq_mul_left hp e)

/-- **C97** is false of convolutional layers without filters: printing them is undefined behaviour. -/
theorem C97_no_filters_refuted (name : String) (input : Shape3) (kernel stride padding : Shape2)
    (l : Slide.ConvLayer ℝ) (h : Slide.ConvLayer.mk' input kernel 0 stride padding = .ok l)
    (h1 : 0 < kernel.h) (h2 : 0 < kernel.w) (h3 : 0 < input.c) : layer name (.conv l) = .ub := by
  have e : l.weights = [] ∧ l.nFilters = 0 ∧ l.kernel = kernel ∧ l.input = input := by
    obtain ⟨o, _, h⟩ := Exec.bind_eq_ok h
    cases h
    exact ⟨by simp, rfl, rfl, rfl⟩
  show Print.conv name l = _
  unfold Print.conv
  rw [e.2.2.1, e.2.2.2, e.2.1, e.1, upTo_ub h1 (upTo_ub h2 (upTo_ub h3 (by
    dsimp only
    rw [upTo_ub (n := pred64 0) (by decide) (by rfl)]
    rfl)))]
  rfl

/-- The hypotheses hold for new layers. -/
example : ParamsSized (.dense ⟨3, 2, [1, 2, 3, 4, 5, 6], [7, 8], ⟨[], [], []⟩, [], []⟩) := ⟨rfl, rfl⟩

example : ParamsSized (.rnn id id (Rnn.Layer.new 3 2 4 1)) ∧ (4 : Nat) ≠ 3 :=
  ⟨⟨by simp [Rnn.Layer.new], by simp [Rnn.Layer.new], by simp [Rnn.Layer.new], by simp [Rnn.Layer.new],
    by simp [Rnn.Layer.new]⟩, by decide⟩

example : ∃ l : Slide.ConvLayer ℝ, Slide.ConvLayer.mk' ⟨4, 4, 1⟩ ⟨2, 2⟩ 0 ⟨1, 1⟩ ⟨0, 0⟩ = .ok l := ⟨_, rfl⟩

example : ∃ l : Slide.ConvLayer ℝ, Slide.ConvLayer.mk' ⟨4, 4, 1⟩ ⟨2, 2⟩ 3 ⟨1, 1⟩ ⟨0, 0⟩ = .ok l ∧ ParamsSized (.conv l) :=
  ⟨_, rfl, by simp, by simp, by decide, by simp⟩

end

end Verif.Props
