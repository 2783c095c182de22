import Verif.Proofs.Calls

/-! C85: a layer differentiates at the input of its last training pass. -/

namespace Verif.Props

open Verif Verif.Net Verif.Spec Verif.Calls

noncomputable section

/-- **C85** (if the vectors stay): for all layers and all programs that leave the vector of a layer's last
training pass alone until its `backward` and `last_input` are called, everything that the program sees is
what it would see if every layer kept a copy of that vector. -/
theorem C85_values_partial (ls : List (AnyLayer × Nat)) (cs : List Op) (h : LeavesInputs (unmarked ls) cs) :
    (World.start ls).run cs = (Copies.start ls).run cs :=
  run_same cs (sim_start ls) h

/-- **C85** for training loops: any number of passes forth and back through a chain of any length, with any
other calls between them that need no remembered input, also calls that change or destroy the inputs of
earlier passes. -/
theorem C85_loops_partial (ls : List (AnyLayer × Nat)) (n : Nat) (ps : List (List Op × Nat × Nat))
    (h : ∀ p ∈ ps, ∀ c ∈ p.1, Free c) :
    (World.start ls).run (ps.map fun p => p.1 ++ pass n p.2.1 p.2.2).flatten =
      (Copies.start ls).run (ps.map fun p => p.1 ++ pass n p.2.1 p.2.2).flatten :=
  run_same _ (sim_start ls) (leaves_passes n ps _ h)

/-- A dense layer with one input and one output, with the weight `a` and the bias 0. -/
def scaling (a : ℝ) : AnyLayer × Nat := (.dense { denseNew 1 1 with weights := [a] }, 1)

/-- Unfolding a program. -/
local macro "unfold_program" : tactic => `(tactic|
  simp [World.start, Copies.start, scaling, Training.alloc, World.run, Copies.run, World.step, Copies.step, live,
    World.value, Copies.value, Copies.layer, Training.Obj.view, Training.Heap.block, AnyLayer.setParams,
    AnyLayer.trainingForward, AnyLayer.setLastInput, AnyLayer.forward, AnyLayer.backward, keep, returned, shown,
    shownTraining, lastAfter, AnyLayer.lastOutput, AnyLayer.lastInputGradient, AnyLayer.params, AnyLayer.paramGrads,
    World.put, Copies.put, World.behind, Training.Heap.put, Dense.Layer.forward, Dense.Layer.backward, Dense.dense,
    Dense.dense1, Dense.fill, forUp, forFrom, rd, wr, denseNew, List.range_succ])

/-- **C85 is false** when the caller writes to the vector between the two calls: the layer is trained at 2,
the gradient of its weight should be 2 but is taken at the new value 5, and `last_input` shows it. -/
theorem C85_written_refuted :
    (Copies.start [scaling 1]).run [.create [2], .create [1], .trainingForward 0 (.vec 0), .write 0 0 5,
      .backward 0 (.vec 1), .gradients 0, .lastInput 0] = .ok [[2], [1], [2], [1], [2]] ∧
    (World.start [scaling 1]).run [.create [2], .create [1], .trainingForward 0 (.vec 0), .write 0 0 5,
      .backward 0 (.vec 1), .gradients 0, .lastInput 0] = .ok [[2], [1], [5], [1], [5]] := by
  refine ⟨?_, ?_⟩ <;> unfold_program

/-- **C85 is false** when the vector is destroyed between the two calls, for example because it was a
temporary: `backward` and `last_input` read freed memory. -/
theorem C85_destroyed_refuted :
    (Copies.start [scaling 1]).run [.create [2], .create [1], .trainingForward 0 (.vec 0), .destroy 0,
      .backward 0 (.vec 1), .gradients 0] = .ok [[2], [1], [2], [1]] ∧
    (World.start [scaling 1]).run [.create [2], .create [1], .trainingForward 0 (.vec 0), .destroy 0,
      .backward 0 (.vec 1), .gradients 0] = .ub ∧
    (World.start [scaling 1]).run [.create [2], .trainingForward 0 (.vec 0), .destroy 0, .lastInput 0] = .ub := by
  refine ⟨?_, ?_, ?_⟩ <;> unfold_program

set_option maxHeartbeats 1000000 in
/-- **C85 is false** without any change by the caller: a prediction between the training pass and `backward`
overwrites the output of the first layer, which is the input of the second. -/
theorem C85_predict_refuted :
    (Copies.start [scaling 1, scaling 1]).run [.create [2], .create [7], .create [1], .trainingForward 0 (.vec 0),
      .trainingForward 1 (.out 0), .forward 0 (.vec 1), .backward 1 (.vec 2), .gradients 1] =
      .ok [[2], [2], [7], [1], [2], [1]] ∧
    (World.start [scaling 1, scaling 1]).run [.create [2], .create [7], .create [1], .trainingForward 0 (.vec 0),
      .trainingForward 1 (.out 0), .forward 0 (.vec 1), .backward 1 (.vec 2), .gradients 1] =
      .ok [[2], [2], [7], [1], [7], [1]] := by
  refine ⟨?_, ?_⟩ <;> unfold_program

/-- The hypotheses of `C85_loops_partial`: two layers trained on two samples, with an optimizer step, a prediction
and the destruction of the first sample between the passes. -/
example : (World.start [scaling 1, scaling 3]).run
    ([([.create [2], .create [1]], 0, 1),
      ([.train 0 (1 / 2), .train 1 (1 / 2), .destroy 0, .create [4], .forward 0 (.vec 2)], 2, 1)].map
        fun p => p.1 ++ pass 2 p.2.1 p.2.2).flatten =
    (Copies.start [scaling 1, scaling 3]).run
    ([([.create [2], .create [1]], 0, 1),
      ([.train 0 (1 / 2), .train 1 (1 / 2), .destroy 0, .create [4], .forward 0 (.vec 2)], 2, 1)].map
        fun p => p.1 ++ pass 2 p.2.1 p.2.2).flatten :=
  C85_loops_partial _ 2 _ (by
    intro p hp c hc
    simp only [List.mem_cons, List.not_mem_nil, or_false] at hp
    rcases hp with rfl | rfl
    · simp only [List.mem_cons, List.not_mem_nil, or_false] at hc
      rcases hc with rfl | rfl <;> trivial
    · simp only [List.mem_cons, List.not_mem_nil, or_false] at hc
      rcases hc with rfl | rfl | rfl | rfl | rfl <;> first | trivial | (intro e; cases e))

/-- What such a program sees: outputs, input gradients, and the gradients of both layers. -/
example : (World.start [scaling 1, scaling 3]).run ([.create [2], .create [1]] ++ pass 2 0 1 ++
    [.gradients 0, .gradients 1, .lastInput 1]) = .ok [[2], [6], [3], [3], [6], [3], [2], [1], [2]] := by
  unfold pass
  unfold_program
  norm_num

end

end Verif.Props
