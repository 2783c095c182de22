import Verif.Props.World

namespace Verif.Props

open Verif.Spec Verif.Training Verif.Net Verif.Graph

/-! ### C39: schedules of thread-parallel training -/

theorem steps_params (d : Data.Dataset ℝ) : ∀ (is : List Nat) {n n' : Net} {e : Option String},
    steps d is n = .ok (n', e) → weightsOf n' = weightsOf n := by
  intro is
  induction is with
  | nil => intro n n' e h; cases h; rfl
  | cons i is ih =>
    intro n n' e h
    obtain ⟨x, _, h⟩ := Exec.bind_eq_ok h
    obtain ⟨t, _, h⟩ := Exec.bind_eq_ok h
    obtain ⟨r, hr, h⟩ := Exec.bind_eq_ok h
    have h1 : weightsOf r.1 = weightsOf n := call_params (c := .step x t) (n' := r.1) (by
      simp [Net.call, hr])
    cases hm : r.2 with
    | none =>
      rw [hm] at h
      exact (ih h).trans h1
    | some m =>
      rw [hm] at h
      cases h
      exact h1

/-- What a task computes: its steps on a model in the state of `m`. -/
noncomputable def taskResult (d : Data.Dataset ℝ) (m : Mod) (tasks : List (List Nat)) (h : Heap) (t : Nat) :
    Exec (Mod × Option String) := do
  let samples ← rd tasks t
  let n ← caught (m.view h) (steps d samples (m.view h))
  .ok (m.update n.1, n.2)

theorem copy_eq (m : Mod) : m.copy = m := by
  show (⟨m.graph, m.objs.map Obj.clone⟩ : Mod) = m
  rw [show Obj.clone = id from rfl, List.map_id]

/-- The world of a round: the model that is trained. -/
theorem event_task {τ : Type} (opt : τ → ℝ → ℝ → τ × ℝ) (d : Data.Dataset ℝ) (m : Mod)
    (tasks : List (List Nat)) (r : Round τ) {A : List (List Nat)} (hA : Inv A ⟨r.heap, [m]⟩) (t : Nat) :
    r.event opt d m tasks (.task t) = (taskResult d m tasks r.heap t >>= fun q =>
      .ok ⟨r.opt, r.heap, fun u => if u = t then some q else r.results u⟩) := by
  unfold Round.event taskResult
  dsimp only
  rw [copy_eq]
  cases hs : rd tasks t with
  | throw msg => rfl
  | ub => rfl
  | ok samples =>
    simp only [Exec.bind_ok]
    cases hc : caught (m.view r.heap) (steps d samples (m.view r.heap)) with
    | throw msg => rfl
    | ub => rfl
    | ok n =>
      simp only [Exec.bind_ok]
      have hw : weightsOf n.1 = weightsOf (m.view r.heap) := by
        cases hq : steps d samples (m.view r.heap) with
        | ok q =>
          rw [hq] at hc
          cases hc
          exact steps_params d samples hq
        | throw msg => rw [hq] at hc; cases hc; rfl
        | ub => rw [hq] at hc; cases hc
      have := put_same (k := 0) hA (m := m) rfl (n' := n.1) hw
      rw [show r.heap.store m.objs n.1.layers = r.heap from this]

/-- `caught` turns exceptions into results, so a task either returns or is undefined. -/
theorem taskResult_cases (d : Data.Dataset ℝ) (m : Mod) (tasks : List (List Nat)) (h : Heap) (t : Nat) :
    (∃ q, taskResult d m tasks h t = .ok q) ∨ taskResult d m tasks h t = .ub := by
  unfold taskResult
  cases hs : rd tasks t with
  | throw msg => unfold rd at hs; split at hs <;> cases hs
  | ub => exact .inr rfl
  | ok samples =>
    simp only [Exec.bind_ok]
    cases steps d samples (m.view h) with
    | ok q => exact .inl ⟨_, rfl⟩
    | throw msg => exact .inl ⟨_, rfl⟩
    | ub => exact .inr rfl

/-- The state after the tasks `ts`, in whatever order they are executed. -/
theorem events_tasks {τ : Type} (opt : τ → ℝ → ℝ → τ × ℝ) (d : Data.Dataset ℝ) (m : Mod)
    (tasks : List (List Nat)) (heap : Heap) {A : List (List Nat)} (hA : Inv A ⟨heap, [m]⟩) (s : τ) :
    ∀ (ts : List Nat) (res : Nat → Option (Mod × Option String)),
    ((∀ t ∈ ts, taskResult d m tasks heap t ≠ .ub) →
      Round.events opt d m tasks ⟨s, heap, res⟩ (ts.map .task) = .ok ⟨s, heap, fun u =>
        if u ∈ ts then (match taskResult d m tasks heap u with | .ok q => some q | _ => none)
        else res u⟩) ∧
    ((∃ t ∈ ts, taskResult d m tasks heap t = .ub) →
      Round.events opt d m tasks ⟨s, heap, res⟩ (ts.map .task) = .ub) := by
  intro ts
  induction ts with
  | nil => intro res; exact ⟨fun _ => by simp [Round.events], fun ⟨t, h, _⟩ => absurd h (by simp)⟩
  | cons t ts ih =>
    intro res
    have he := event_task opt d m tasks ⟨s, heap, res⟩ hA t
    rcases taskResult_cases d m tasks heap t with ⟨q, hq⟩ | hq
    · rw [hq, Exec.bind_ok] at he
      obtain ⟨i1, i2⟩ := ih (fun u => if u = t then some q else res u)
      refine ⟨fun h => ?_, fun ⟨u, hu, h⟩ => ?_⟩
      · show (Round.event opt d m tasks ⟨s, heap, res⟩ (.task t) >>= _) = _
        rw [he, Exec.bind_ok]
        refine (i1 (fun u hu => h u (by simp [hu]))).trans ?_
        congr 2
        funext u
        by_cases h1 : u ∈ ts
        · simp [h1]
        · by_cases h2 : u = t
          · subst h2; simp [h1, hq]
          · simp [h1, h2]
      · show (Round.event opt d m tasks ⟨s, heap, res⟩ (.task t) >>= _) = _
        rw [he, Exec.bind_ok]
        rcases List.mem_cons.mp hu with rfl | hu
        · rw [hq] at h; cases h
        · exact i2 ⟨u, hu, h⟩
    · refine ⟨fun h => absurd hq (h t (by simp)), fun _ => ?_⟩
      show (Round.event opt d m tasks ⟨s, heap, res⟩ (.task t) >>= _) = _
      rw [he, hq]
      rfl

theorem events_append {τ : Type} (opt : τ → ℝ → ℝ → τ × ℝ) (d : Data.Dataset ℝ) (m : Mod)
    (tasks : List (List Nat)) : ∀ (es fs : List Event) (r : Round τ),
    r.events opt d m tasks (es ++ fs) = (r.events opt d m tasks es >>= fun r => r.events opt d m tasks fs) := by
  intro es
  induction es with
  | nil => intro fs r; rfl
  | cons e es ih =>
    intro fs r
    show (r.event opt d m tasks e >>= fun r => r.events opt d m tasks (es ++ fs)) = _
    simp only [ih]
    show _ = ((r.event opt d m tasks e >>= fun r => r.events opt d m tasks es) >>= _)
    cases r.event opt d m tasks e <;> rfl

theorem barrier_shape {k : Nat} {es : List Event} (h : Execution k ⟨[], 0⟩ es) (hb : Barrier es) :
    ∃ ts : List Nat, ts.Perm (List.range k) ∧ es = ts.map .task ++ (List.range k).map .train := by
  obtain ⟨ts, us, rfl⟩ := hb
  have h1 := execution_tasks h List.nodup_nil (by simp) (by simp)
  have h2 := (execution_trains h).2
  have e1 : (ts.map Event.task ++ us.map Event.train).filterMap taskOf = ts := by
    rw [List.filterMap_append, List.filterMap_map, List.filterMap_map,
      show taskOf ∘ Event.train = fun _ => none from rfl, show taskOf ∘ Event.task = some from rfl]
    simp
  have e2 : applied (ts.map Event.task ++ us.map Event.train) = us := by
    unfold applied
    rw [List.filterMap_append, List.filterMap_map, List.filterMap_map]
    have a1 : ∀ l : List Nat, l.filterMap (fun _ => (none : Option Nat)) = [] := by simp
    have a2 : us.filterMap (fun t => some t) = us := by simp
    exact (congrArg₂ (· ++ ·) (a1 ts) a2).trans (List.nil_append us)
  rw [List.nil_append, e1] at h1
  rw [e2] at h2
  refine ⟨ts, h1, ?_⟩
  rw [h2, List.range_eq_range']
  rfl

/-- **C39**, partial: two executions of a round of tasks in which all tasks finish before the first
result is applied end in the same way, and with the same optimizer state, parameters and results.
Missing: the code does not wait for all tasks before it applies the first result, and then the claim
is false (`C39_refuted`). -/
theorem C39_barrier_partial {τ : Type} (opt : τ → ℝ → ℝ → τ × ℝ) (d : Data.Dataset ℝ) (net : Net)
    (tasks : List (List Nat)) (s : τ) (es es' : List Event)
    (h : Execution tasks.length ⟨[], 0⟩ es) (h' : Execution tasks.length ⟨[], 0⟩ es')
    (hb : Barrier es) (hb' : Barrier es') (heap : Heap) (objs : List Obj)
    (hobj : alloc [] net.layers = (heap, objs)) :
    Round.events opt d ⟨net.graph, objs⟩ tasks ⟨s, heap, fun _ => none⟩ es =
    Round.events opt d ⟨net.graph, objs⟩ tasks ⟨s, heap, fun _ => none⟩ es' := by
  have hA : Inv (addrs objs) ⟨heap, [⟨net.graph, objs⟩]⟩ := by
    have := inv_of net
    unfold World.of at this
    rw [hobj] at this
    exact this
  obtain ⟨ts, p, rfl⟩ := barrier_shape h hb
  obtain ⟨ts', p', rfl⟩ := barrier_shape h' hb'
  have hm : ∀ t, t ∈ ts ↔ t ∈ ts' := fun t => (p.trans p'.symm).mem_iff
  have : Round.events opt d ⟨net.graph, objs⟩ tasks ⟨s, heap, fun _ => none⟩ (ts.map .task) =
      Round.events opt d ⟨net.graph, objs⟩ tasks ⟨s, heap, fun _ => none⟩ (ts'.map .task) := by
    obtain ⟨a1, a2⟩ := events_tasks opt d ⟨net.graph, objs⟩ tasks heap hA s ts (fun _ => none)
    obtain ⟨b1, b2⟩ := events_tasks opt d ⟨net.graph, objs⟩ tasks heap hA s ts' (fun _ => none)
    by_cases hu : ∃ t ∈ ts, taskResult d ⟨net.graph, objs⟩ tasks heap t = .ub
    · rw [a2 hu]
      obtain ⟨t, ht, hu⟩ := hu
      rw [b2 ⟨t, (hm t).mp ht, hu⟩]
    · have hn : ∀ t ∈ ts, taskResult d ⟨net.graph, objs⟩ tasks heap t ≠ .ub :=
        fun t ht e => hu ⟨t, ht, e⟩
      rw [a1 hn, b1 (fun t ht => hn t ((hm t).mpr ht))]
      congr 2
      funext u
      simp only [hm u]
  rw [events_append, events_append, this]

/-- Two samples: 1 with target 0, twice. -/
def twice : Data.Dataset ℝ := ⟨[1, 0, 1, 0], 2, 1, 4, 2, 2, {1}, {0}⟩

theorem twice_sample (i : Nat) (hi : i < 2) : twice.input i = .ok [1] ∧ twice.label i = .ok [0] := by
  have h : i = 0 ∨ i = 1 := by omega
  rcases h with rfl | rfl <;>
    simp [twice, Data.Dataset.input, Data.Dataset.label, Data.Dataset.fieldFromRow, Data.iter, Data.collect, rd]

theorem tiny_steps (w b gi gw gb o ag : ℝ) (li ao : List ℝ) (l : Loss.Layer) (hg : l.gradients.length = 1)
    (hb : l.invBatch = 1) (i : Nat) (hi : i < 2) :
    ∃ l' : Loss.Layer, steps twice [i] (tiny w b ⟨[gi], [gw], [gb]⟩ [o] li ⟨ao, [ag]⟩ l)
      = .ok (tiny w b ⟨[2 * (w + b) * w], [gw + 2 * (w + b)], [gb + 2 * (w + b)]⟩ [b + w] [1]
          ⟨[b + w], [2 * (w + b)]⟩ l', none) := by
  obtain ⟨l', h, _⟩ := tiny_step w b gi gw gb o ag li ao l hg hb
  obtain ⟨h1, h2⟩ := twice_sample i hi
  exact ⟨l', by simp [steps, h1, h2, h]⟩

/-- The objects of `tiny`: the parameters are at the addresses 0 and 1, `w0` and `b0` are not used. -/
noncomputable def tinyMod (w0 b0 : ℝ) (g : Dense.Grads ℝ) (out li : List ℝ) (a : Act.Layer) (l : Loss.Layer) :
    Mod :=
  ⟨(built lossOps).graph, [⟨.dense ⟨1, 1, [w0], [b0], g, out, li⟩, [0, 1]⟩, ⟨.act .linear a, []⟩,
    ⟨.loss .mse l, []⟩]⟩

theorem tiny_task (eta w b : ℝ) (m m' : Mod) (n : Net) (res : Nat → Option (Mod × Option String)) (t : Nat)
    (ht : t < 2) (hs : steps twice [t] (m.view [[w], [b]]) = .ok (n, none)) (hm : m.update n = m')
    (hw : Heap.store [[w], [b]] m.objs n.layers = [[w], [b]]) :
    Round.event (Opt.gdStep eta) twice m [[0], [1]] ⟨(), [[w], [b]], res⟩ (.task t)
      = .ok ⟨(), [[w], [b]], fun u => if u = t then some (m', none) else res u⟩ := by
  have h1 : rd [[0], [1]] t = .ok [t] := by
    have : t = 0 ∨ t = 1 := by omega
    rcases this with rfl | rfl <;> rfl
  subst hm
  simp [Round.event, copy_eq, h1, hs, caught, hw]

theorem tiny_apply (eta w b w0 b0 gi gw gb : ℝ) (out li : List ℝ) (a : Act.Layer) (l : Loss.Layer)
    (m : Mod) (res : Nat → Option (Mod × Option String)) (t : Nat)
    (hr : res t = some (tinyMod w0 b0 ⟨[gi], [gw], [gb]⟩ out li a l, none)) :
    Round.event (Opt.gdStep eta) twice m [[0], [1]] ⟨(), [[w], [b]], res⟩ (.train t)
      = .ok ⟨(), [[w - eta * gw], [b - eta * gb]], res⟩ := by
  have h1 : (tinyMod w0 b0 ⟨[gi], [gw], [gb]⟩ out li a l).view [[w], [b]] = tiny w b ⟨[gi], [gw], [gb]⟩ out li a l :=
    rfl
  simp only [Round.event, hr, h1, tiny_train, Exec.bind_ok]
  rfl

/-- **C39 is false**: two samples in two tasks, gradient descent with learning rate 1/4.  If both tasks
finish before the first result is applied, weight and bias end as 0 and -1; if the second task starts
after the first result has been applied, as 1/2 and -1/2.  (The executions of this model take a task
as one step.  In C++ the second task may also read the parameters while they are written, which is a
data race.) -/
theorem C39_refuted :
    ∃ (es es' : List Event) (r r' : Round Unit),
      Execution 2 ⟨[], 0⟩ es ∧ Execution 2 ⟨[], 0⟩ es' ∧
      Round.events (Opt.gdStep (1 / 4)) twice ⟨tinyNew.graph, (alloc [] tinyNew.layers).2⟩ [[0], [1]]
        ⟨(), (alloc [] tinyNew.layers).1, fun _ => none⟩ es = .ok r ∧
      Round.events (Opt.gdStep (1 / 4)) twice ⟨tinyNew.graph, (alloc [] tinyNew.layers).2⟩ [[0], [1]]
        ⟨(), (alloc [] tinyNew.layers).1, fun _ => none⟩ es' = .ok r' ∧
      r.heap = [[0], [-1]] ∧ r'.heap = [[1 / 2], [-(1 / 2)]] := by
  have hb1 : (Loss.Layer.new 1 1 0).invBatch = 1 := by simp [Loss.Layer.new]
  obtain ⟨la, ha⟩ := tiny_steps 1 0 0 0 0 0 0 [] [0] (Loss.Layer.new 1 1 0) rfl hb1 0 (by omega)
  obtain ⟨lb, hb⟩ := tiny_steps 1 0 0 0 0 0 0 [] [0] (Loss.Layer.new 1 1 0) rfl hb1 1 (by omega)
  obtain ⟨lc, hc⟩ := tiny_steps (1 / 2) (-(1 / 2)) 0 0 0 0 0 [] [0] (Loss.Layer.new 1 1 0) rfl hb1 1 (by omega)
  norm_num at ha hb hc
  let m : Mod := tinyMod 1 0 ⟨[0], [0], [0]⟩ [0] [] ⟨[0], [0]⟩ (Loss.Layer.new 1 1 0)
  let ma : Mod := tinyMod 1 0 ⟨[2], [2], [2]⟩ [1] [1] ⟨[1], [2]⟩ la
  let mb : Mod := tinyMod 1 0 ⟨[2], [2], [2]⟩ [1] [1] ⟨[1], [2]⟩ lb
  let mc : Mod := tinyMod (1 / 2) (-(1 / 2)) ⟨[0], [0], [0]⟩ [0] [1] ⟨[0], [0]⟩ lc
  have e1 : (alloc [] tinyNew.layers).1 = [[1], [0]] := rfl
  have e2 : (⟨tinyNew.graph, (alloc [] tinyNew.layers).2⟩ : Mod) = m := rfl
  rw [e1, e2]
  let r0 : Nat → Option (Mod × Option String) := fun _ => none
  let r1 : Nat → Option (Mod × Option String) := fun u => if u = 0 then some (ma, none) else r0 u
  let r2 : Nat → Option (Mod × Option String) := fun u => if u = 1 then some (mb, none) else r1 u
  let r3 : Nat → Option (Mod × Option String) := fun u => if u = 1 then some (mc, none) else r1 u
  have s1 := tiny_task (1 / 4) 1 0 m ma _ r0 0 (by omega) ha rfl rfl
  have s2 := tiny_task (1 / 4) 1 0 m mb _ r1 1 (by omega) hb rfl rfl
  have s3 := tiny_apply (1 / 4) 1 0 1 0 2 2 2 [1] [1] ⟨[1], [2]⟩ la m r2 0 rfl
  have s4 := tiny_apply (1 / 4) (1 / 2) (-(1 / 2)) 1 0 2 2 2 [1] [1] ⟨[1], [2]⟩ lb m r2 1 rfl
  have s5 := tiny_apply (1 / 4) 1 0 1 0 2 2 2 [1] [1] ⟨[1], [2]⟩ la m r1 0 rfl
  have s6 := tiny_task (1 / 4) (1 / 2) (-(1 / 2)) m mc _ r1 1 (by omega) hc rfl rfl
  have s7 := tiny_apply (1 / 4) (1 / 2) (-(1 / 2)) (1 / 2) (-(1 / 2)) 0 0 0 [0] [1] ⟨[0], [0]⟩ lc m r3 1 rfl
  have t1 : (1 : ℝ) - 1 / 4 * 2 = 1 / 2 := by norm_num
  have t2 : (0 : ℝ) - 1 / 4 * 2 = -(1 / 2) := by norm_num
  have t3 : (1 / 2 : ℝ) - 1 / 4 * 2 = 0 := by norm_num
  have t4 : (-(1 / 2) : ℝ) - 1 / 4 * 2 = -1 := by norm_num
  have t5 : (1 / 2 : ℝ) - 1 / 4 * 0 = 1 / 2 := by norm_num
  have t6 : (-(1 / 2) : ℝ) - 1 / 4 * 0 = -(1 / 2) := by norm_num
  rw [t1, t2] at s3 s5
  rw [t3, t4] at s4
  rw [t5, t6] at s7
  refine ⟨[.task 0, .task 1, .train 0, .train 1], [.task 0, .train 0, .task 1, .train 1],
    ⟨(), [[0], [-1]], r2⟩, ⟨(), [[1 / 2], [-(1 / 2)]], r3⟩,
    .task (by decide) (by decide) (.task (by decide) (by decide) (.train (p := ⟨[1, 0], 0⟩) (by decide)
      (by decide) (.train (p := ⟨[1, 0], 1⟩) (by decide) (by decide) (.done _)))),
    .task (by decide) (by decide) (.train (p := ⟨[0], 0⟩) (by decide) (by decide)
      (.task (by decide) (by decide) (.train (p := ⟨[1, 0], 1⟩) (by decide) (by decide) (.done _)))),
    ?_, ?_, rfl, rfl⟩
  · unfold Round.events
    rw [s1, Exec.bind_ok]
    unfold Round.events
    rw [s2, Exec.bind_ok]
    unfold Round.events
    rw [s3, Exec.bind_ok]
    unfold Round.events
    rw [s4, Exec.bind_ok]
    rfl
  · unfold Round.events
    rw [s1, Exec.bind_ok]
    unfold Round.events
    rw [s5, Exec.bind_ok]
    unfold Round.events
    rw [s6, Exec.bind_ok]
    unfold Round.events
    rw [s7, Exec.bind_ok]
    rfl

/-- A history of two models: a copy is made, steps, and is trained.  The original gets the new
parameters and keeps its gradients. -/
example : ∃ w : World, (World.of tinyNew).run
      [.copy 0, .call 1 (.step [1] [0]), .train 1 (Opt.gdStep (1 / 4)) ()] = .ok w ∧
    stateOf w 0 = some (tiny (1 / 2) (-(1 / 2)) ⟨[0], [0], [0]⟩ [0] [] ⟨[0], [0]⟩ (Loss.Layer.new 1 1 0)) ∧
    ∃ l, stateOf w 1 = some (tiny (1 / 2) (-(1 / 2)) ⟨[2], [0], [0]⟩ [1] [1] ⟨[1], [2]⟩ l) := by
  have hb1 : (Loss.Layer.new 1 1 0).invBatch = 1 := by simp [Loss.Layer.new]
  obtain ⟨la, ha, _⟩ := tiny_step 1 0 0 0 0 0 0 [] [0] (Loss.Layer.new 1 1 0) rfl hb1
  norm_num at ha
  let m : Mod := tinyMod 1 0 ⟨[0], [0], [0]⟩ [0] [] ⟨[0], [0]⟩ (Loss.Layer.new 1 1 0)
  let ma : Mod := tinyMod 1 0 ⟨[2], [2], [2]⟩ [1] [1] ⟨[1], [2]⟩ la
  let mb : Mod := tinyMod (1 - 1 / 4 * 2) (0 - 1 / 4 * 2) ⟨[2], [0], [0]⟩ [1] [1] ⟨[1], [2]⟩ la
  have w0 : World.of tinyNew = ⟨[[1], [0]], [m]⟩ := rfl
  have a1 : World.act ⟨[[1], [0]], [m]⟩ (.copy 0 : Action Unit) = .ok ⟨[[1], [0]], [m, m]⟩ := rfl
  have a2 : World.act ⟨[[1], [0]], [m, m]⟩ (.call 1 (.step [1] [0]) : Action Unit)
      = .ok ⟨[[1], [0]], [m, ma]⟩ := by
    have e : m.view [[1], [0]] = tinyNew := rfl
    have f : tinyNew.step [1] [0] = .ok (tiny 1 0 ⟨[2], [2], [2]⟩ [1] [1] ⟨[1], [2]⟩ la, none) := ha
    simp [World.act, rd, Net.call, e, f]
    rfl
  have a3 : World.act ⟨[[1], [0]], [m, ma]⟩ (.train 1 (Opt.gdStep (1 / 4)) ())
      = .ok ⟨[[1 - 1 / 4 * 2], [0 - 1 / 4 * 2]], [m, mb]⟩ := by
    have e : ma.view [[1], [0]] = tiny 1 0 ⟨[2], [2], [2]⟩ [1] [1] ⟨[1], [2]⟩ la := rfl
    simp only [World.act, rd, List.getElem?_cons_succ, List.getElem?_cons_zero, Exec.bind_ok, e, tiny_train]
    rfl
  refine ⟨⟨[[1 - 1 / 4 * 2], [0 - 1 / 4 * 2]], [m, mb]⟩, ?_, ?_, la, ?_⟩
  · rw [w0]
    unfold World.run
    rw [a1, Exec.bind_ok]
    unfold World.run
    rw [a2, Exec.bind_ok]
    unfold World.run
    rw [a3, Exec.bind_ok]
    rfl
  · show some (tiny (1 - 1 / 4 * 2) (0 - 1 / 4 * 2) ⟨[0], [0], [0]⟩ [0] [] ⟨[0], [0]⟩ (Loss.Layer.new 1 1 0)) = _
    norm_num
  · show some (tiny (1 - 1 / 4 * 2) (0 - 1 / 4 * 2) ⟨[2], [0], [0]⟩ [1] [1] ⟨[1], [2]⟩ la) = _
    norm_num

end Verif.Props
