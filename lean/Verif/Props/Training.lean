import Verif.Proofs.Training

namespace Verif.Props

open Verif.Spec Verif.Training

/-! ### C37: sequential training -/

/-- **C37** With a batch size of at least 1, the training loop ends, for every number of samples and
of epochs, and makes exactly the calls of the specification: per epoch `⌈n / b⌉` batches, each of them
`reset_score`, one `step` for each of the next `b` samples (fewer in the last batch), `train`. -/
theorem C37_sequential {σ : Type} (o : Ops σ) (n b epochs fuel : Nat) (hb : 1 ≤ b)
    (hf : batchCount n b ≤ fuel) (s : σ) :
    run o n b fuel epochs s = some (performAll o (trainCalls n b epochs) s) := by
  induction epochs generalizing s with
  | zero => rfl
  | succ e ih =>
    have h := epoch_eq o n b hb (batchCount n b) 0 fuel s (by omega) hf
    rw [Nat.zero_mul, Nat.zero_min, ← List.range_eq_range'] at h
    unfold run
    rw [h]
    show _ = some (performAll o ((List.replicate (e + 1) (epochCalls n b)).flatten) s)
    rw [List.replicate_succ, List.flatten_cons, performAll_append]
    show (match some (performAll o (epochCalls n b) s) with
      | none => none
      | some (.ok s) => run o n b fuel e s
      | some (.throw m) => some (.throw m)
      | some .ub => some .ub) = _
    cases performAll o (epochCalls n b) s with
    | ok t => exact ih t
    | throw m => rfl
    | ub => rfl

/-- **C37** The calls of an epoch step on every sample once, in order, and call the optimizer (and
`reset_score`) `⌈n / b⌉` times. -/
theorem C37_epoch (n b : Nat) (hb : 1 ≤ b) :
    (epochCalls n b).filterMap TrainCall.sample = List.range n ∧
    (epochCalls n b).count .train = batchCount n b ∧
    (epochCalls n b).count .reset = batchCount n b ∧
    b * batchCount n b < n + b ∧ n ≤ b * batchCount n b := by
  refine ⟨epochCalls_samples n b hb, epochCalls_count n b _ (.inl rfl), epochCalls_count n b _ (.inr rfl),
    ?_, ?_⟩
  · by_cases h : batchCount n b = 0
    · rw [h]; omega
    · have : (batchCount n b - 1) * b < n := (lt_batchCount hb).mp (by omega)
      have h2 : (batchCount n b - 1) * b + b = batchCount n b * b := by
        rw [← Nat.succ_mul]; congr 1; omega
      rw [Nat.mul_comm]
      omega
  · have : ¬ batchCount n b * b < n := fun h => by
      have := (lt_batchCount hb).mpr h
      omega
    rw [Nat.mul_comm]
    omega

/-- **C37** for `fit` on a model and a data set. -/
theorem C37_fit {τ : Type} (opt : τ → ℝ → ℝ → τ × ℝ) (d : Data.Dataset ℝ) (b epochs fuel : Nat)
    (hb : 1 ≤ b) (hf : batchCount d.size b ≤ fuel) (s : τ × Net.Net) :
    fit opt d fuel epochs b s = some (performAll (modelOps opt d) (trainCalls d.size b epochs) s) :=
  C37_sequential _ _ _ _ _ hb hf s

/-- With batch size 0 and at least one sample and one epoch the loop never ends (unless a call
throws). -/
theorem C37_batch_zero {σ : Type} (o : Ops σ) (n epochs : Nat) (hn : 0 < n)
    (hr : ∀ s, ∃ s', o.reset s = .ok s') (ht : ∀ s, ∃ s', o.train s = .ok s') (fuel : Nat) (s : σ) :
    run o n 0 fuel (epochs + 1) s = none := by
  unfold run
  rw [epoch_zero_batch o n hr ht fuel 0 s hn]

/-- Five samples, batches of two, two epochs; the operations record what they do. -/
example : run (σ := List TrainCall) ⟨fun l => .ok (l ++ [.reset]), fun i l => .ok (l ++ [.step i]),
    fun l => .ok (l ++ [.train])⟩ 5 2 3 2 [] = some (.ok (trainCalls 5 2 2)) := by decide

example : epochCalls 5 2 = [.reset, .step 0, .step 1, .train, .reset, .step 2, .step 3, .train,
    .reset, .step 4, .train] := by decide

/-! ### C38: the tasks of thread-parallel training -/

/-- **C38** (data entry mode) For every number of samples and every batch size of at least 1 an epoch
ends, its tasks have one sample each, and their samples are all samples, each once. -/
theorem C38_entry_tasks (n b fuel : Nat) (hb : 1 ≤ b) (hf : batchCount n b ≤ fuel) :
    ∃ rs, entryRounds n b fuel = some rs ∧ rs.flatten.flatten = List.range n ∧
      rs.length = batchCount n b ∧ ∀ r ∈ rs, ∀ task ∈ r, task.length = 1 := by
  have hn : n ≤ 0 + fuel * b := by
    have h := (C37_epoch n b hb).2.2.2.2
    have := Nat.mul_le_mul_left b hf
    rw [Nat.mul_comm fuel b]
    omega
  obtain ⟨rs, h1, h2, h3, h4⟩ := rounds_spec (fun i => entryTasks n b i) n b
    (fun r => ∀ task ∈ r, task.length = 1) hb
    (by
      intro i hi
      left
      rw [entryTasks_eq]
      dsimp only
      omega)
    (by
      intro i hi
      rw [entryTasks_eq]
      refine ⟨?_, ?_⟩
      · dsimp only
        generalize List.range' i (min b (n - i)) = l
        induction l with
        | nil => rfl
        | cons a l ih => exact congrArg (a :: ·) ih
      · intro task ht
        obtain ⟨_, _, rfl⟩ := List.mem_map.mp ht
        rfl) fuel 0 hn
  refine ⟨rs, h1, ?_, h4, h3⟩
  rw [h2, List.range_eq_range']
  simp

/-- **C38** (data batch mode) For every number of samples, every batch size and number of worker
threads of at least 1 (as long as `i` does not wrap around) an epoch ends, each of its rounds has one
task per thread, with at most `b` samples, and the samples of the tasks are all samples, each once. -/
theorem C38_batch_tasks (n b threads fuel : Nat) (hb : 1 ≤ b) (ht : 1 ≤ threads)
    (hw : n + threads * b < 2 ^ 64) (hf : batchCount n (threads * b) ≤ fuel) :
    ∃ rs, batchRounds n b threads fuel = some rs ∧ rs.flatten.flatten = List.range n ∧
      rs.length = batchCount n (threads * b) ∧
      ∀ r ∈ rs, r.length = threads ∧ ∀ task ∈ r, task.length ≤ b := by
  have hp : 1 ≤ threads * b := Nat.mul_pos ht hb
  have hn : n ≤ 0 + fuel * (threads * b) := by
    have h := (C37_epoch n (threads * b) hp).2.2.2.2
    have := Nat.mul_le_mul_left (threads * b) hf
    rw [Nat.mul_comm fuel]
    omega
  obtain ⟨rs, h1, h2, h3, h4⟩ := rounds_spec (fun i => batchTasks n b threads i) n (threads * b)
    (fun r => r.length = threads ∧ ∀ task ∈ r, task.length ≤ b) hp
    (fun i hi => .inr (batchTasks_spec n b threads i (by omega)).1)
    (by
      intro i hi
      obtain ⟨_, e2, e3, e4⟩ := batchTasks_spec n b threads i (by omega)
      refine ⟨?_, e2, e4⟩
      rw [e3, Nat.min_eq_left (by omega : i ≤ n)]) fuel 0 hn
  refine ⟨rs, h1, ?_, h4, h3⟩
  rw [h2, List.range_eq_range']
  simp

/-- **C38** Every execution of a round executes each task once and applies the optimizer once to the
result of each task, in the order of the tasks and after the task. -/
theorem C38_execution (tasks : List (List Nat)) (es : List Event)
    (h : Execution tasks.length ⟨[], 0⟩ es) :
    (stepped tasks es).Perm tasks.flatten ∧ applied es = List.range tasks.length := by
  refine ⟨?_, ?_⟩
  · have h1 := execution_tasks h List.nodup_nil (by simp) (by simp)
    rw [List.nil_append] at h1
    have h2 : stepped tasks es = (es.filterMap taskOf).flatMap
        fun t => tasks.getD t [] := by
      unfold stepped
      clear h h1
      induction es with
      | nil => rfl
      | cons e es ih =>
        cases e with
        | task t => exact congrArg (tasks.getD t [] ++ ·) ih
        | train t => exact ih
    rw [h2]
    refine (h1.flatMap_right _).trans ?_
    have h3 : (List.range tasks.length).flatMap (fun t => tasks.getD t []) = tasks.flatten := by
      rw [List.flatMap_def]
      congr 1
      apply List.ext_getElem
      · simp
      · intro i h1 h2
        simp [h2]
    rw [h3]
  · have := (execution_trains h).2
    rw [this, List.range_eq_range']
    rfl

/-- **C38** for an epoch: whatever the workers do in each round, the samples stepped on are all
samples, each once, and the optimizer is applied as often as there are tasks. -/
theorem C38_epoch (n : Nat) (rs : List (List (List Nat))) (hr : rs.flatten.flatten = List.range n)
    (ess : List (List Event))
    (h : List.Forall₂ (fun tasks es => Execution tasks.length ⟨[], 0⟩ es) rs ess) :
    ((List.zipWith stepped rs ess).flatten).Perm (List.range n) ∧
    ((ess.map applied).flatten).length = rs.flatten.length := by
  rw [← hr]
  clear hr
  induction h with
  | nil => exact ⟨List.Perm.refl _, rfl⟩
  | cons h1 _ ih =>
    obtain ⟨e1, e2⟩ := C38_execution _ _ h1
    refine ⟨?_, ?_⟩
    · rw [List.zipWith_cons_cons, List.flatten_cons, List.flatten_cons, List.flatten_append]
      exact e1.append ih.1
    · rw [List.map_cons, List.flatten_cons, List.flatten_cons, List.length_append, List.length_append,
        ih.2, e2, List.length_range]

/-- **C38** A round never gets stuck: from every point that can be reached, with any set of finished
tasks, it can be completed. -/
theorem C38_no_deadlock (k : Nat) (p : Progress) (hp : p.trained ≤ k) : ∃ es, Execution k p es := by
  refine ⟨((List.range k).filter (· ∉ p.finished)).map .task ++ (List.range' p.trained (k - p.trained)).map .train,
    execution_tasks_first k _ p.finished p.trained (List.nodup_range.filter _) ?_ ?_ _ ?_⟩
  · intro t ht; simpa using (List.mem_filter.mp ht).1
  · intro t ht; simpa using (List.mem_filter.mp ht).2
  · refine execution_exists_trains k _ ?_ _ _ (by omega)
    intro t ht
    by_cases h : t ∈ p.finished
    · exact List.mem_append_right _ h
    · exact List.mem_append_left _ (by simp [ht, h])

/-- Without the bound on sizes the data batch mode can go on for ever: with two threads and a batch
size of 2^63, `i` is back at 0 after each round. -/
theorem C38_wraps_around (n : Nat) (hn : 0 < n) (fuel : Nat) : batchRounds n (2 ^ 63) 2 fuel = none := by
  unfold batchRounds
  induction fuel with
  | zero => unfold rounds; rw [if_pos hn]
  | succ fuel ih =>
    unfold rounds
    rw [if_pos hn]
    dsimp only
    have : (batchTasks n (2 ^ 63) 2 0).1 = 0 := by simp [batchTasks]
    rw [this, ih]
    rfl

/-- Seven samples, batches of two, three threads: the second round has two tasks that have nothing to do. -/
example : batchRounds 7 2 3 5 = some [[[0, 1], [2, 3], [4, 5]], [[6], [], []]] := by decide

example : entryRounds 5 2 5 = some [[[0], [1]], [[2], [3]], [[4]]] := by decide

/-- An execution in which the main thread already trains while a task is pending. -/
example : Execution 2 ⟨[], 0⟩ [.task 0, .train 0, .task 1, .train 1] :=
  .task (by decide) (by decide) (.train (p := ⟨[0], 0⟩) (by decide) (by decide)
    (.task (by decide) (by decide) (.train (p := ⟨[1, 0], 1⟩) (by decide) (by decide) (.done _))))

end Verif.Props
