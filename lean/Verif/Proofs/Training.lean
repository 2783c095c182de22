import Verif.Spec.Training
import Verif.Proofs.Net

namespace Verif.Training

open Verif.Net Verif.Spec

/-! ### The sequential loop -/

theorem performAll_append {σ : Type} (o : Ops σ) : ∀ (cs ds : List TrainCall) (s : σ),
    performAll o (cs ++ ds) s = performAll o cs s >>= performAll o ds := by
  intro cs
  induction cs with
  | nil => intro ds s; rfl
  | cons c cs ih =>
    intro ds s
    show (perform o c s >>= fun s => performAll o (cs ++ ds) s) = _
    simp only [ih]
    show _ = ((perform o c s >>= fun s => performAll o cs s) >>= performAll o ds)
    cases perform o c s <;> rfl

theorem batchLoop_eq {σ : Type} (o : Ops σ) (n : Nat) : ∀ (left i : Nat) (s : σ),
    batchLoop o n left i s = (performAll o ((List.range' i (min left (n - i))).map .step) s >>=
      fun s => .ok (i + min left (n - i), s)) := by
  intro left
  induction left with
  | zero => intro i s; simp [batchLoop, performAll]
  | succ left ih =>
    intro i s
    unfold batchLoop
    by_cases h : i < n
    · rw [if_pos h]
      have h1 : min (left + 1) (n - i) = min left (n - (i + 1)) + 1 := by omega
      rw [h1, List.range'_succ, List.map_cons]
      simp only [ih]
      show _ = ((perform o (.step i) s >>= fun s => performAll o _ s) >>= _)
      show (o.step i s >>= _) = ((o.step i s >>= _) >>= _)
      cases o.step i s with
      | ok t =>
        simp only [Exec.bind_ok]
        rw [show i + 1 + min left (n - (i + 1)) = i + (min left (n - (i + 1)) + 1) by omega]
      | throw m => rfl
      | ub => rfl
    · rw [if_neg h]
      have : min (left + 1) (n - i) = 0 := by omega
      rw [this]
      simp [performAll]

theorem take_range' : ∀ (b i m : Nat), (List.range' i m).take b = List.range' i (min b m) := by
  intro b
  induction b with
  | zero => intro i m; simp
  | succ b ih =>
    intro i m
    cases m with
    | zero => simp
    | succ m => rw [List.range'_succ, List.take_succ_cons, ih, ← List.range'_succ]; congr 1; omega

theorem batchSamples_eq (n b k : Nat) :
    batchSamples n b k = List.range' (k * b) (min b (n - k * b)) := by
  unfold batchSamples
  rw [List.range_eq_range', List.drop_range', take_range']
  simp

theorem batch_eq {σ : Type} (o : Ops σ) (n b k : Nat) (s : σ) :
    batch o n b (k * b) s =
      (performAll o (.reset :: ((batchSamples n b k).map .step ++ [.train])) s >>=
        fun s => .ok (k * b + min b (n - k * b), s)) := by
  unfold batch
  show _ = ((o.reset s >>= fun s => performAll o _ s) >>= _)
  simp only [performAll_append, batchLoop_eq, batchSamples_eq]
  cases o.reset s with
  | ok t =>
    simp only [Exec.bind_ok]
    cases performAll o ((List.range' (k * b) (min b (n - k * b))).map .step) t with
    | ok u =>
      simp only [Exec.bind_ok]
      show (o.train u >>= _) = ((o.train u >>= _) >>= _)
      cases o.train u <;> rfl
    | throw m => rfl
    | ub => rfl
  | throw m => rfl
  | ub => rfl

theorem lt_batchCount {n b k : Nat} (hb : 1 ≤ b) : k < batchCount n b ↔ k * b < n := by
  unfold batchCount
  rw [Nat.lt_iff_add_one_le, Nat.le_div_iff_mul_le (by omega)]
  rw [Nat.add_mul]
  omega

theorem epoch_eq {σ : Type} (o : Ops σ) (n b : Nat) (hb : 1 ≤ b) : ∀ (left k fuel : Nat) (s : σ),
    k + left = batchCount n b → left ≤ fuel →
    epoch o n b fuel (min (k * b) n) s =
      some (performAll o ((List.range' k left).flatMap fun k =>
        .reset :: ((batchSamples n b k).map .step ++ [.train])) s) := by
  intro left
  induction left with
  | zero =>
    intro k fuel s hk _
    have : ¬ k * b < n := fun h => by have := (lt_batchCount hb).mpr h; omega
    unfold epoch
    rw [if_neg (by omega)]
    rfl
  | succ left ih =>
    intro k fuel s hk hf
    have h1 : k * b < n := (lt_batchCount hb).mp (by omega)
    rw [Nat.min_eq_left (by omega)]
    unfold epoch
    rw [if_pos h1]
    obtain ⟨fuel, rfl⟩ : ∃ f, fuel = f + 1 := ⟨fuel - 1, by omega⟩
    rw [List.range'_succ, List.flatMap_cons, performAll_append]
    dsimp only
    rw [batch_eq]
    cases hp : performAll o (.reset :: ((batchSamples n b k).map .step ++ [.train])) s with
    | ok t =>
      simp only [Exec.bind_ok]
      have h2 : k * b + min b (n - k * b) = min ((k + 1) * b) n := by
        rw [Nat.add_mul]; omega
      rw [h2]
      exact ih (k + 1) fuel t (by omega) (by omega)
    | throw m => rfl
    | ub => rfl

theorem epoch_zero_batch {σ : Type} (o : Ops σ) (n : Nat)
    (hr : ∀ s, ∃ s', o.reset s = .ok s') (ht : ∀ s, ∃ s', o.train s = .ok s') :
    ∀ (fuel i : Nat) (s : σ), i < n → epoch o n 0 fuel i s = none := by
  intro fuel
  induction fuel with
  | zero => intro i s h; unfold epoch; rw [if_pos h]
  | succ fuel ih =>
    intro i s h
    unfold epoch
    rw [if_pos h]
    obtain ⟨s1, h1⟩ := hr s
    obtain ⟨s2, h2⟩ := ht s1
    have : batch o n 0 i s = .ok (i, s2) := by simp [batch, h1, h2, batchLoop]
    dsimp only
    rw [this]
    exact ih i s2 h

theorem epochCalls_samples (n b : Nat) (hb : 1 ≤ b) :
    (epochCalls n b).filterMap TrainCall.sample = List.range n := by
  have key : ∀ left k, k + left = batchCount n b →
      ((List.range' k left).flatMap fun k =>
        TrainCall.reset :: ((batchSamples n b k).map .step ++ [.train])).filterMap TrainCall.sample
        = List.range' (min (k * b) n) (n - k * b) := by
    intro left
    induction left with
    | zero =>
      intro k hk
      have : ¬ k * b < n := fun h => by have := (lt_batchCount hb).mpr h; omega
      rw [show n - k * b = 0 by omega]
      rfl
    | succ left ih =>
      intro k hk
      have h1 : k * b < n := (lt_batchCount hb).mp (by omega)
      rw [List.range'_succ, List.flatMap_cons, List.filterMap_append, ih (k + 1) (by omega),
        batchSamples_eq]
      have h2 : ∀ l : List Nat, (TrainCall.reset :: (l.map TrainCall.step ++ [.train])).filterMap
          TrainCall.sample = l := by
        intro l
        induction l with
        | nil => rfl
        | cons a l ih => exact congrArg (a :: ·) ih
      rw [h2, Nat.add_mul, Nat.one_mul, show min (k * b) n = k * b by omega]
      by_cases h3 : k * b + b ≤ n
      · rw [show min b (n - k * b) = b by omega, show min (k * b + b) n = k * b + b by omega,
          List.range'_append_1]
        congr 1
        omega
      · rw [show n - (k * b + b) = 0 by omega, show min b (n - k * b) = n - k * b by omega]
        simp
  have := key (batchCount n b) 0 (by omega)
  rw [epochCalls, List.range_eq_range', this, List.range_eq_range']
  simp

theorem epochCalls_count (n b : Nat) (c : TrainCall) (hc : c = .train ∨ c = .reset) :
    (epochCalls n b).count c = batchCount n b := by
  have h0 : ∀ l : List Nat, (l.map TrainCall.step).count c = 0 := by
    intro l
    rw [List.count_eq_zero]
    rcases hc with rfl | rfl <;> simp
  have key : ∀ ks : List Nat, (ks.flatMap fun k =>
      TrainCall.reset :: ((batchSamples n b k).map .step ++ [.train])).count c = ks.length := by
    intro ks
    induction ks with
    | nil => rfl
    | cons k ks ih =>
      rw [List.flatMap_cons, List.count_append, ih, List.count_cons, List.count_append, h0]
      rcases hc with rfl | rfl <;> simp <;> omega
  rw [epochCalls, key, List.length_range]

/-! ### Tasks -/

theorem taskSamples_eq (n : Nat) : ∀ (left idx : Nat),
    taskSamples n left idx = List.range' idx (min left (n - idx)) := by
  intro left
  induction left with
  | zero => intro idx; simp [taskSamples]
  | succ left ih =>
    intro idx
    unfold taskSamples
    by_cases h : idx < n
    · rw [if_pos h, ih, show min (left + 1) (n - idx) = min left (n - (idx + 1)) + 1 by omega,
        List.range'_succ]
    · rw [if_neg h, show min (left + 1) (n - idx) = 0 by omega]
      rfl

theorem entryTasks_eq (n : Nat) : ∀ (left i : Nat),
    entryTasks n left i =
      (i + min left (n - i), (List.range' i (min left (n - i))).map fun j => [j]) := by
  intro left
  induction left with
  | zero => intro i; simp [entryTasks]
  | succ left ih =>
    intro i
    unfold entryTasks
    by_cases h : i < n
    · rw [if_pos h, ih, show min (left + 1) (n - i) = min left (n - (i + 1)) + 1 by omega,
        List.range'_succ]
      simp only [List.map_cons, Prod.mk.injEq, and_true]
      omega
    · rw [if_neg h, show min (left + 1) (n - i) = 0 by omega]
      rfl

theorem batchTasks_spec (n b : Nat) : ∀ (threads i : Nat), i + threads * b < 2 ^ 64 →
    (batchTasks n b threads i).1 = i + threads * b ∧
    (batchTasks n b threads i).2.length = threads ∧
    (batchTasks n b threads i).2.flatten = List.range' (min i n) (min (threads * b) (n - i)) ∧
    ∀ t ∈ (batchTasks n b threads i).2, t.length ≤ b := by
  intro threads
  induction threads with
  | zero => intro i _; simp [batchTasks]
  | succ threads ih =>
    intro i h
    rw [Nat.add_mul, Nat.one_mul] at h
    unfold batchTasks
    rw [Nat.mod_eq_of_lt (a := i + b) (by omega)]
    obtain ⟨h1, h2, h3, h4⟩ := ih (i + b) (by omega)
    refine ⟨?_, ?_, ?_, ?_⟩
    · dsimp only; rw [h1, Nat.add_mul]; omega
    · simp [h2]
    · rw [List.flatten_cons, h3, taskSamples_eq, Nat.add_mul, Nat.one_mul]
      generalize threads * b = c
      by_cases hi : i + b ≤ n
      · rw [show min b (n - i) = b by omega, show min (i + b) n = i + b by omega,
          show min i n = i by omega, List.range'_append_1]
        congr 1
        omega
      · rw [show n - (i + b) = 0 by omega]
        simp only [Nat.min_zero, List.range'_zero, List.append_nil]
        by_cases hi2 : i ≤ n
        · rw [Nat.min_eq_left hi2]
          congr 1
          omega
        · rw [show n - i = 0 by omega]
          simp
    · intro t ht
      rcases List.mem_cons.mp ht with rfl | ht
      · rw [taskSamples_eq, List.length_range']; omega
      · exact h4 t ht

theorem rounds_spec (tasks : Nat → Nat × List (List Nat)) (n adv : Nat) (P : List (List Nat) → Prop)
    (hadv : 1 ≤ adv)
    (h : ∀ i, i < n → (tasks i).1 = min (i + adv) n ∨ (tasks i).1 = i + adv)
    (h' : ∀ i, i < n → (tasks i).2.flatten = List.range' i (min adv (n - i)) ∧ P (tasks i).2) :
    ∀ (fuel i : Nat), n ≤ i + fuel * adv →
    ∃ rs, rounds tasks n fuel i = some rs ∧ rs.flatten.flatten = List.range' (min i n) (n - i) ∧
      (∀ r ∈ rs, P r) ∧ rs.length = batchCount (n - i) adv := by
  have hdone : ∀ fuel i, ¬ i < n → ∃ rs, rounds tasks n fuel i = some rs ∧
      rs.flatten.flatten = List.range' (min i n) (n - i) ∧
      (∀ r ∈ rs, P r) ∧ rs.length = batchCount (n - i) adv := by
    intro fuel i hi
    refine ⟨[], ?_, ?_, by simp, ?_⟩
    · unfold rounds; rw [if_neg hi]
    · rw [show n - i = 0 by omega]; rfl
    · rw [show n - i = 0 by omega, batchCount, Nat.div_eq_of_lt (by omega)]; rfl
  intro fuel
  induction fuel with
  | zero => intro i hi; exact hdone 0 i (by omega)
  | succ fuel ih =>
    intro i hi
    by_cases hin : i < n
    · have hi' : n ≤ (tasks i).1 + fuel * adv := by
        rw [Nat.add_mul] at hi
        rcases h i hin with e | e <;> rw [e] <;> omega
      obtain ⟨rs, e1, e2, e3, e4⟩ := ih (tasks i).1 hi'
      obtain ⟨f1, f2⟩ := h' i hin
      refine ⟨(tasks i).2 :: rs, ?_, ?_, ?_, ?_⟩
      · unfold rounds
        rw [if_pos hin]
        dsimp only
        rw [e1]
        rfl
      · rw [List.flatten_cons, List.flatten_append, e2, f1, Nat.min_eq_left (by omega : i ≤ n)]
        by_cases h3 : i + adv ≤ n
        · have : (tasks i).1 = i + adv := by rcases h i hin with e | e <;> omega
          rw [this, show min adv (n - i) = adv by omega, show min (i + adv) n = i + adv by omega,
            List.range'_append_1]
          congr 1
          omega
        · have : n - (tasks i).1 = 0 := by rcases h i hin with e | e <;> omega
          rw [this, Nat.min_eq_right (by omega)]
          simp
      · intro r hr
        rcases List.mem_cons.mp hr with rfl | hr
        · exact f2
        · exact e3 r hr
      · rw [List.length_cons, e4]
        have : n - (tasks i).1 = n - i - adv := by rcases h i hin with e | e <;> omega
        rw [this]
        unfold batchCount
        by_cases h3 : adv ≤ n - i
        · rw [show n - i + adv - 1 = (n - i - adv + adv - 1) + adv by omega,
            Nat.add_div_right _ (by omega)]
        · rw [show n - i - adv + adv - 1 = adv - 1 by omega, Nat.div_eq_of_lt (by omega : adv - 1 < adv),
            Nat.div_eq_of_lt_le (k := 1) (by omega) (by omega)]
    · exact hdone _ i hin

/-! ### Executions of a round -/

/-- The task that an event executes. -/
def taskOf : Event → Option Nat
  | .task t => some t
  | .train _ => none

theorem execution_tasks {k : Nat} {p : Progress} {es : List Event} (h : Execution k p es)
    (hnd : p.finished.Nodup) (hlt : ∀ t ∈ p.finished, t < k) (htr : ∀ t < p.trained, t ∈ p.finished) :
    (p.finished ++ es.filterMap taskOf).Perm (List.range k) := by
  induction h with
  | done f =>
    rw [List.filterMap_nil, List.append_nil]
    rw [List.perm_ext_iff_of_nodup hnd List.nodup_range]
    intro a
    rw [List.mem_range]
    exact ⟨hlt a, htr a⟩
  | @task p t es ht hn _ ih =>
    have := ih (List.nodup_cons.mpr ⟨hn, hnd⟩) (by
      intro u hu
      rcases List.mem_cons.mp hu with rfl | hu
      · exact ht
      · exact hlt u hu) (fun u hu => List.mem_cons_of_mem _ (htr u hu))
    refine List.Perm.trans ?_ this
    rw [List.filterMap_cons]
    exact List.perm_middle
  | @train p es hk hf _ ih =>
    refine ih hnd hlt ?_
    intro t ht
    by_cases h : t < p.trained
    · exact htr t h
    · have : t = p.trained := by dsimp only at ht; omega
      rw [this]; exact hf

theorem execution_trains {k : Nat} {p : Progress} {es : List Event} (h : Execution k p es) :
    p.trained ≤ k ∧ applied es = List.range' p.trained (k - p.trained) := by
  induction h with
  | done f => simp [applied]
  | task _ _ _ ih => exact ih
  | @train p es hk _ _ ih =>
    refine ⟨by omega, ?_⟩
    obtain ⟨_, h⟩ := ih
    rw [show k - p.trained = k - (p.trained + 1) + 1 by omega, List.range'_succ]
    unfold applied at *
    rw [List.filterMap_cons]
    exact congrArg _ h

theorem execution_exists_trains (k : Nat) (f : List Nat) (hf : ∀ t, t < k → t ∈ f) :
    ∀ (left i : Nat), i + left = k → Execution k ⟨f, i⟩ ((List.range' i left).map .train) := by
  intro left
  induction left with
  | zero => intro i h; obtain rfl : i = k := (by omega); exact .done f
  | succ left ih =>
    intro i h
    exact .train (p := ⟨f, i⟩) (show i < k by omega) (hf i (by omega)) (ih (i + 1) (by omega))

theorem execution_tasks_first (k : Nat) (ts f : List Nat) (i : Nat) (hnd : ts.Nodup)
    (hlt : ∀ t ∈ ts, t < k) (hdis : ∀ t ∈ ts, t ∉ f) (us : List Event)
    (h : Execution k ⟨ts.reverse ++ f, i⟩ us) : Execution k ⟨f, i⟩ (ts.map .task ++ us) := by
  induction ts generalizing f with
  | nil => exact h
  | cons t ts ih =>
    refine .task (p := ⟨f, i⟩) (hlt t (by simp)) (hdis t (by simp)) ?_
    refine ih (t :: f) (List.nodup_cons.mp hnd).2 (fun u hu => hlt u (by simp [hu])) ?_ (by simpa using h)
    intro u hu hm
    rcases List.mem_cons.mp hm with rfl | hm
    · exact (List.nodup_cons.mp hnd).1 hu
    · exact hdis u (by simp [hu]) hm

end Verif.Training
