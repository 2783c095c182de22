import Verif.Props.ShapeHistory

/-! C89: an example with a recurrent layer. -/

namespace Verif.Props

open Verif Verif.Net Verif.Graph Verif.Spec

noncomputable section

/-- A recurrent layer for two time steps, with one input, two outputs and a hidden state of length three, and any
parameters. -/
def seqLayer (f f1 : ℝ → ℝ) (ps : List (List ℝ)) : AnyLayer :=
  (AnyLayer.rnn f f1 (Rnn.Layer.new 1 2 3 2)).setParams ps

/-- The tree of `fork`, with the recurrent layer at its root. -/
def seqNet (f f1 : ℝ → ℝ) (ps : List (List ℝ)) : Net :=
  ⟨(built fork).graph, [seqLayer f f1 ps, .act .relu (Act.Layer.new 4),
    .act .softmax (Act.Layer.new 4), .loss .mse (Loss.Layer.new 4 4 0), .loss .cce (Loss.Layer.new 4 4 0)]⟩

variable {f f1 : ℝ → ℝ} {ps : List (List ℝ)}

theorem seq_layers {i : Nat} {a : AnyLayer} (h : (seqNet f f1 ps).layers[i]? = some a) :
    (i = 0 ∧ a = seqLayer f f1 ps) ∨
    (i = 1 ∧ a = .act .relu (Act.Layer.new 4)) ∨ (i = 2 ∧ a = .act .softmax (Act.Layer.new 4)) ∨
    (i = 3 ∧ a = .loss .mse (Loss.Layer.new 4 4 0)) ∨ (i = 4 ∧ a = .loss .cce (Loss.Layer.new 4 4 0)) := by
  unfold seqNet at h
  dsimp only at h
  match i, h with
  | 0, h => cases h; exact .inl ⟨rfl, rfl⟩
  | 1, h => cases h; exact .inr (.inl ⟨rfl, rfl⟩)
  | 2, h => cases h; exact .inr (.inr (.inl ⟨rfl, rfl⟩))
  | 3, h => cases h; exact .inr (.inr (.inr (.inl ⟨rfl, rfl⟩)))
  | 4, h => cases h; exact .inr (.inr (.inr (.inr ⟨rfl, rfl⟩)))
  | i + 5, h => simp at h

theorem seq_sizes : AnyLayer.takes (seqLayer f f1 ps) = 2 ∧ AnyLayer.gives (seqLayer f f1 ps) = 4 := by
  unfold seqLayer
  rw [takes_setParams, gives_setParams]
  exact ⟨rfl, rfl⟩

theorem seqLayer_loss : Spec.AnyLayer.isLoss (seqLayer f f1 ps) = false := by
  unfold seqLayer AnyLayer.setParams
  split
  all_goals first | rfl | (rename_i e; cases e)

theorem seq_agrees (hp : ps.map List.length = [3, 9, 3, 6, 2]) : Agrees (seqNet f f1 ps) 2 := by
  obtain ⟨g1, g2, _, g3, g4, _⟩ := fork_graph
  have in4 : ∀ f, AnyLayer.takes (.act f (Act.Layer.new 4)) = 4 := by
    intro f; simp [AnyLayer.takes, AnyLayer.inputSize, Act.Layer.new]
  have out4 : ∀ f, AnyLayer.gives (.act f (Act.Layer.new 4)) = 4 := by
    intro f; simp [AnyLayer.gives, AnyLayer.outputSize, Act.Layer.new]
  refine ⟨?_, g3.symm, ?_, ?_, ?_⟩
  · intro a ha
    obtain ⟨i, hi⟩ := List.getElem?_of_mem ha
    rcases seq_layers hi with ⟨_, rfl⟩ | ⟨_, rfl⟩ | ⟨_, rfl⟩ | ⟨_, rfl⟩ | ⟨_, rfl⟩
    · refine ⟨_, ps, .inr (.inr (.inl ⟨f, f1, 1, 2, 3, 2, rfl⟩)), ?_, rfl⟩
      rw [hp]
      simp [AnyLayer.params, Rnn.Layer.new]
    · exact ⟨_, [], .inr (.inl ⟨.relu, 4, rfl, fun h => by cases h⟩), rfl, rfl⟩
    · exact ⟨_, [], .inr (.inl ⟨.softmax, 4, rfl, fun _ => by decide⟩), rfl, rfl⟩
    · exact ⟨_, [], .inr (.inr (.inr ⟨.mse, 4, 4, 0, rfl⟩)), rfl, rfl⟩
    · exact ⟨_, [], .inr (.inr (.inr ⟨.cce, 4, 4, 0, rfl⟩)), rfl, rfl⟩
  · intro i a ha
    show _ ↔ i ∈ (built fork).graph.loss
    rw [g1]
    rcases seq_layers ha with ⟨rfl, rfl⟩ | ⟨rfl, rfl⟩ | ⟨rfl, rfl⟩ | ⟨rfl, rfl⟩ | ⟨rfl, rfl⟩ <;>
      first | (rw [seqLayer_loss]; simp) | simp [Spec.AnyLayer.isLoss]
  · intro i a hi ha
    change i ∈ (built fork).graph.inputs at hi
    rw [g2, List.mem_singleton] at hi
    subst hi
    cases ha
    exact seq_sizes.1
  · intro x y a c hxy hx hy
    obtain ⟨s, h1, h2⟩ := (mem_successors (mok_run fork mok_empty).ok.training x y).mp hxy
    have h1' : (x, s) ∈ (built fork).graph.training := h1
    rw [g4] at h1'
    have ha : AnyLayer.gives a = 4 := by
      rcases seq_layers hx with ⟨rfl, rfl⟩ | ⟨rfl, rfl⟩ | ⟨rfl, rfl⟩ | ⟨rfl, rfl⟩ | ⟨rfl, rfl⟩
      · exact seq_sizes.2
      · exact out4 _
      · exact out4 _
      · simp at h1'
      · simp at h1'
    have hc : y ≠ 0 := by
      rintro rfl
      simp only [List.mem_cons, Prod.mk.injEq, List.not_mem_nil, or_false] at h1'
      rcases h1' with ⟨_, rfl⟩ | ⟨_, rfl⟩ | ⟨_, rfl⟩ <;> simp at h2
    rw [ha]
    rcases seq_layers hy with ⟨rfl, rfl⟩ | ⟨rfl, rfl⟩ | ⟨rfl, rfl⟩ | ⟨rfl, rfl⟩ | ⟨rfl, rfl⟩
    · exact absurd rfl hc
    · exact (in4 _).symm
    · exact (in4 _).symm
    · rfl
    · rfl

/-- The hypotheses of `C89_any_shape_partial` for this model: it serves two steps and a training update by
gradient descent and a prediction, whatever the activations of the recurrent layer and its parameters are. -/
example (hp : ps.map List.length = [3, 9, 3, 6, 2]) (x1 x2 x3 x4 : ℝ) :
    ∃ r, serve (Opt.gdStep (1 / 10)) [.step [x1, x2] [0, 1, 0, 0], .step [x3, x4] [1, 0, 0, 0], .train, .predict [x1, x2]]
      ((), seqNet f f1 ps) = .ok r := by
  refine C89_any_shape_partial fork (by simp [fork, Joins]) (seqNet f f1 ps) rfl 2 (seq_agrees hp) fork_right
    (acyclic_of_lt (by decide)) fork_loss
    ⟨0, by show 0 < (built fork).graph.layers.length; decide, by show 0 ∉ (built fork).graph.loss; decide⟩ _ _ _ _ ?_
  have key : ∀ (f' : LossFn) l, AnyLayer.loss f' l ∈ (seqNet f f1 ps).layers → l.inputSize = 4 := by
    intro f' l hl
    obtain ⟨i, hi⟩ := List.getElem?_of_mem hl
    rcases seq_layers hi with ⟨_, e⟩ | ⟨_, e⟩ | ⟨_, e⟩ | ⟨_, e⟩ | ⟨_, e⟩
    · have := seqLayer_loss (f := f) (f1 := f1) (ps := ps)
      rw [← e] at this
      cases this
    all_goals cases e
    · rfl
    · rfl
  intro c hc
  simp only [List.mem_cons, List.not_mem_nil, or_false] at hc
  rcases hc with rfl | rfl | rfl | rfl
  · refine ⟨rfl, fun f' l hl => ?_⟩
    rw [key f' l hl]
    exact ⟨rfl, by decide, fun _ => ⟨1, by decide, by simp [vec]⟩⟩
  · refine ⟨rfl, fun f' l hl => ?_⟩
    rw [key f' l hl]
    exact ⟨rfl, by decide, fun _ => ⟨0, by decide, by simp [vec]⟩⟩
  · trivial
  · rfl

end

end Verif.Props
