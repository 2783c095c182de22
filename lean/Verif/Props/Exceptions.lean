import Verif.Props.ParallelFit
import Verif.Props.Training
import Verif.Spec.Stepped

/-! C99: exceptions of training steps reach the caller. -/

namespace Verif.Props

open Verif.Spec Verif.Training Verif.Net Verif.Graph

theorem stepped_of_steps (d : Data.Dataset ℝ) : ∀ (is : List Nat) (n n' : Net),
    steps d is n = .ok (n', none) → Stepped d is n n' := by
  intro is
  induction is with
  | nil => intro n n' h; cases h; exact .nil n
  | cons i is ih =>
    intro n n' h
    obtain ⟨x, h1, h⟩ := Exec.bind_eq_ok h
    obtain ⟨t, h2, h⟩ := Exec.bind_eq_ok h
    obtain ⟨⟨n1, e⟩, h3, h⟩ := Exec.bind_eq_ok h
    cases e with
    | none => exact .cons h1 h2 h3 (ih n1 n' h)
    | some m => cases h

/-- **C99**, sequential training: if `fit` returns, then every call of `step` in it has returned: at each of them
the model reached by the calls before it makes a step that does not throw. -/
theorem C99_sequential {τ : Type} (opt : τ → ℝ → ℝ → τ × ℝ) (d : Data.Dataset ℝ) (b epochs fuel : Nat)
    (hb : 1 ≤ b) (hf : batchCount d.size b ≤ fuel) (s s' : τ × Net)
    (h : fit opt d fuel epochs b s = some (.ok s')) (cs1 cs2 : List TrainCall) (i : Nat)
    (hc : trainCalls d.size b epochs = cs1 ++ .step i :: cs2) :
    ∃ s1 n, performAll (modelOps opt d) cs1 s = .ok s1 ∧ Stepped d [i] s1.2 n := by
  rw [C37_fit opt d b epochs fuel hb hf s, hc, performAll_append] at h
  injection h with h
  obtain ⟨s1, h1, h⟩ := Exec.bind_eq_ok h
  refine ⟨s1, ?_⟩
  obtain ⟨s2, h2, _⟩ := Exec.bind_eq_ok (show (perform (modelOps opt d) (.step i) s1 >>= fun s => _) = _ from h)
  obtain ⟨x, a1, h2⟩ := Exec.bind_eq_ok h2
  obtain ⟨t, a2, h2⟩ := Exec.bind_eq_ok h2
  obtain ⟨n, a3, h2⟩ := Exec.bind_eq_ok h2
  obtain ⟨⟨n1, e⟩, a4, a3⟩ := Exec.bind_eq_ok a3
  cases e with
  | none => exact ⟨n1, h1, .cons a1 a2 a4 (.nil _)⟩
  | some m => cases a3

theorem events_taken {τ : Type} (opt : τ → ℝ → ℝ → τ × ℝ) (d : Data.Dataset ℝ) (m : Mod)
    (tasks : List (List Nat)) {k : Nat} {p : Progress} {es : List Event} (hex : Execution k p es) :
    ∀ {r r' : Round τ} {t : Nat} {c : Mod} {e : Option String}, r.events opt d m tasks es = .ok r' → t < k →
      t ∈ p.finished → p.trained ≤ t → r.results t = some (c, e) → e = none := by
  induction hex with
  | done f => intro r r' t c e _ h1 _ h2; dsimp only at h2; omega
  | @task p u es hu hn _ ih =>
    intro r r' t c e h h1 h2 h3 h4
    obtain ⟨r1, a1, h⟩ := Exec.bind_eq_ok h
    have hne : t ≠ u := fun e => hn (e ▸ h2)
    refine ih h h1 (by simp [h2]) h3 (c := c) ?_
    obtain ⟨sm, _, a1⟩ := Exec.bind_eq_ok a1
    obtain ⟨n, _, a1⟩ := Exec.bind_eq_ok a1
    cases a1
    show (if t = u then _ else r.results t) = _
    rw [if_neg hne, h4]
  | @train p es hk hf _ ih =>
    intro r r' t c e h h1 h2 h3 h4
    obtain ⟨r1, a1, h⟩ := Exec.bind_eq_ok h
    unfold Round.event at a1
    dsimp only at a1
    by_cases ht : p.trained = t
    · subst ht
      rw [h4] at a1
      cases e with
      | none => rfl
      | some msg => cases a1
    · refine ih h h1 h2 (show p.trained + 1 ≤ t by omega) (c := c) ?_
      split at a1
      · cases a1
      · cases a1
      · obtain ⟨_, _, a1⟩ := Exec.bind_eq_ok a1
        cases a1
        exact h4

theorem execution_suffix {k : Nat} : ∀ (es1 es2 : List Event) (p : Progress), (∀ u < p.trained, u ∈ p.finished) →
    Execution k p (es1 ++ es2) → ∃ p', Execution k p' es2 ∧ ∀ u < p'.trained, u ∈ p'.finished := by
  intro es1
  induction es1 with
  | nil => intro es2 p hp h; exact ⟨p, h, hp⟩
  | cons e es1 ih =>
    intro es2 p hp h
    cases h with
    | task ht hn h => exact ih es2 ⟨_ :: p.finished, p.trained⟩ (fun u hu => List.mem_cons_of_mem _ (hp u hu)) h
    | train hk hf h =>
      refine ih es2 _ (fun u hu => ?_) h
      have hu : u < p.trained + 1 := hu
      rcases Nat.lt_succ_iff_lt_or_eq.mp hu with hu | rfl
      · exact hp u hu
      · exact hf

/-- A round that returns: every task has made all its steps, from the state of the memory when it was taken. -/
theorem round_tasks {τ : Type} (opt : τ → ℝ → ℝ → τ × ℝ) (d : Data.Dataset ℝ) (m : Mod)
    (tasks : List (List Nat)) (r r' : Round τ) (es1 es2 : List Event) (t : Nat)
    (hex : Execution tasks.length ⟨[], 0⟩ (es1 ++ .task t :: es2))
    (h : r.events opt d m tasks (es1 ++ .task t :: es2) = .ok r') :
    ∃ r1 samples n, r.events opt d m tasks es1 = .ok r1 ∧ tasks[t]? = some samples ∧
      Stepped d samples (m.copy.view r1.heap) n := by
  obtain ⟨p, hp, hinv⟩ := execution_suffix es1 (.task t :: es2) _ (by simp) hex
  rw [events_append] at h
  obtain ⟨r1, h1, h⟩ := Exec.bind_eq_ok h
  obtain ⟨r2, h2, h⟩ := Exec.bind_eq_ok h
  obtain ⟨sm, a1, h2⟩ := Exec.bind_eq_ok h2
  obtain ⟨⟨n, e⟩, a2, h2⟩ := Exec.bind_eq_ok h2
  cases hp with
  | task ht hn hrest =>
    have he : e = none := by
      refine events_taken opt d m tasks hrest (t := t) (c := m.copy.update n) h ht (by simp) ?_ ?_
      · show p.trained ≤ t
        by_contra hlt
        exact hn (hinv t (by omega))
      · cases h2
        show (if t = t then _ else _) = _
        rw [if_pos rfl]
    subst he
    refine ⟨r1, sm, n, h1, rd_eq_ok a1, stepped_of_steps d sm _ n ?_⟩
    unfold caught at a2
    split at a2
    · cases a2
    · exact a2

/-- The state between the rounds `rs`, and in the round before its first event. -/
theorem rounds_split {τ : Type} (opt : τ → ℝ → ℝ → τ × ℝ) (d : Data.Dataset ℝ) :
    ∀ (rs1 rs2 : List (List (List Nat) × List Event)) (s s' : Trainer τ),
    s.rounds opt d (rs1 ++ rs2) = .ok s' → ∃ s1, s.rounds opt d rs1 = .ok s1 ∧ s1.rounds opt d rs2 = .ok s' := by
  intro rs1
  induction rs1 with
  | nil => intro rs2 s s' h; exact ⟨s, rfl, h⟩
  | cons r rs1 ih =>
    intro rs2 s s' h
    obtain ⟨s1, h1, h⟩ := Exec.bind_eq_ok h
    obtain ⟨s2, h2, h3⟩ := ih rs2 s1 s' h
    refine ⟨s2, ?_, h3⟩
    show (s.round opt d r.1 r.2 >>= fun s => _) = _
    rw [h1]
    exact h2

/-- Where a round starts: the model after `reset_score`, and the state before the first event. -/
noncomputable def roundStart {τ : Type} (s : Trainer τ) : Mod × Round τ :=
  let n := (s.model.view s.heap).resetScore
  (s.model.update n, ⟨s.opt, s.heap.store s.model.objs n.layers, fun _ => none⟩)

/-- **C99**, thread-parallel training: if training returns, under whatever schedule, then every step of every task
of every round has returned: the task copies the model as it is in memory when a worker takes the task, and no
step on its samples throws. -/
theorem C99_parallel {τ : Type} (opt : τ → ℝ → ℝ → τ × ℝ) (d : Data.Dataset ℝ) (s s' : Trainer τ)
    (rs rs1 rs2 : List (List (List Nat) × List Event)) (tasks : List (List Nat)) (es1 es2 : List Event) (t : Nat)
    (hrs : rs = rs1 ++ (tasks, es1 ++ .task t :: es2) :: rs2)
    (hex : ∀ r ∈ rs, Execution r.1.length ⟨[], 0⟩ r.2) (h : s.rounds opt d rs = .ok s') :
    ∃ (s1 : Trainer τ) (r1 : Round τ) (samples : List Nat) (n : Net),
      s.rounds opt d rs1 = .ok s1 ∧
      (roundStart s1).2.events opt d (roundStart s1).1 tasks es1 = .ok r1 ∧ tasks[t]? = some samples ∧
      Stepped d samples ((roundStart s1).1.copy.view r1.heap) n := by
  subst hrs
  obtain ⟨s1, h1, h⟩ := rounds_split opt d _ _ s s' h
  obtain ⟨s2, h2, _⟩ := Exec.bind_eq_ok (show (s1.round opt d tasks (es1 ++ .task t :: es2) >>= fun s => _) = _ from h)
  obtain ⟨r', h3, _⟩ := Exec.bind_eq_ok h2
  obtain ⟨r1, samples, n, a1, a2, a3⟩ := round_tasks opt d _ tasks _ r' es1 es2 t
    (hex (tasks, es1 ++ .task t :: es2) (by simp)) h3
  exact ⟨s1, r1, samples, n, h1, a1, a2, a3⟩

/-- The hypotheses of `C99_parallel`: the run of `three_rounds`.  In its first round the task of sample 0 is taken
second, and its step succeeds. -/
example (w0 w1 b0 b1 : ℝ) : ∃ (m : Mod) (h : Heap) (n : Net),
    Stepped (Data.ofVec [1, 0, 2, 1, 3, 0] 2 1 {1}) [0] (m.copy.view h) n := by
  obtain ⟨t, ht⟩ := three_rounds w0 w1 b0 b1
  obtain ⟨s1, r1, samples, n, _, _, h3, h4⟩ := C99_parallel _ _ _ t _ [] [([[2]], [.task 0, .train 0])] [[0], [1]]
    [.task 1] [.train 0, .train 1] 0 rfl (by
      intro r hr
      rcases List.mem_pair.mp hr with rfl | rfl
      · exact .task (by decide) (by decide) (.task (by decide) (by decide) (.train (p := ⟨[0, 1], 0⟩) (by decide)
          (by decide) (.train (p := ⟨[0, 1], 1⟩) (by decide) (by decide) (.done _))))
      · exact .task (by decide) (by decide) (.train (p := ⟨[0], 0⟩) (by decide) (by decide) (.done _))) ht
  cases h3
  exact ⟨_, _, n, h4⟩

/-- The hypothesis of `C99_sequential` about calls: two epochs of five samples in batches of two; the third step of
the second epoch. -/
example : trainCalls 5 2 2 = (trainCalls 5 2 1 ++ [.reset, .step 0, .step 1, .train, .reset]) ++
    .step 2 :: [.step 3, .train, .reset, .step 4, .train] := by decide

end Verif.Props
