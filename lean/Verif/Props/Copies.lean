import Verif.Props.World

/-!
Copies of a model that are used by different threads.
-/

namespace Verif.Props

open Verif.Net Verif.Training

noncomputable section

/-- Calls on models in the order in which they happen: the position of the model, and the call. -/
abbrev Interleaving := List (Nat × Call)

/-- The calls on one model, in their order. -/
def callsOn (k : Nat) (cs : Interleaving) : List Call := (cs.filter fun c => c.1 = k).map Prod.snd

theorem callsOn_same (k : Nat) (c : Call) (cs : Interleaving) : callsOn k ((k, c) :: cs) = c :: callsOn k cs := by
  simp [callsOn]

theorem callsOn_other {k j : Nat} (h : j ≠ k) (c : Call) (cs : Interleaving) :
    callsOn k ((j, c) :: cs) = callsOn k cs := by
  simp [callsOn, h]

/-- The memory and the models after the calls. -/
def happen (τ : Type) (w : World) (cs : Interleaving) : Exec World :=
  w.run (cs.map fun c => (Action.call c.1 c.2 : Action τ))

theorem reachable_act {τ : Type} {n : Net} {w w' : World} (h : Reachable τ n w) {a : Action τ}
    (e : w.act a = .ok w') : Reachable τ n w' := by
  obtain ⟨as, h⟩ := h
  refine ⟨as ++ [a], ?_⟩
  generalize World.of n = v at h
  induction as generalizing v with
  | nil =>
    cases h
    show (w.act a >>= _) = _
    rw [e, Exec.bind_ok]
    rfl
  | cons b as ih =>
    obtain ⟨u, h1, h2⟩ := Exec.bind_eq_ok (show (v.act b >>= _) = _ from h)
    show (v.act b >>= _) = _
    rw [h1, Exec.bind_ok]
    exact ih u h2

/-- Copies of a model are used in any interleaving of calls of `predict`, `step` and `reset_score`.  Each copy
ends as if it had been used alone. -/
theorem C100_own_calls {τ : Type} {n : Net} (cs : Interleaving) {w w' : World} (h : Reachable τ n w)
    (e : happen τ w cs = .ok w') (k : Nat) (nk : Net) (hk : stateOf w k = some nk) :
    ∃ nk', nk.run (callsOn k cs) = .ok nk' ∧ stateOf w' k = some nk' := by
  induction cs generalizing w nk with
  | nil =>
    cases e
    exact ⟨nk, rfl, hk⟩
  | cons c cs ih =>
    obtain ⟨j, c⟩ := c
    obtain ⟨u, e1, e2⟩ := Exec.bind_eq_ok (show (w.act (.call j c) >>= _) = _ from e)
    obtain ⟨⟨nj, nj', a1, a2, a3, _⟩, a4⟩ := C40_call h e1
    by_cases hj : j = k
    · subst hj
      rw [hk] at a1
      cases a1
      obtain ⟨nk', b1, b2⟩ := ih (reachable_act h e1) e2 nj' a3
      refine ⟨nk', ?_, b2⟩
      rw [callsOn_same]
      show (nk.call c >>= _) = _
      rw [a2, Exec.bind_ok]
      exact b1
    · rw [callsOn_other hj]
      exact ih (reachable_act h e1) e2 nk ((a4 k (Ne.symm hj)).trans hk)

/-- If the calls on each copy succeed when it is used alone, so does every interleaving of them. -/
theorem C100_no_interference {τ : Type} {n : Net} (cs : Interleaving) {w : World} (h : Reachable τ n w)
    (hc : ∀ c ∈ cs, ∃ nk nk', stateOf w c.1 = some nk ∧ nk.run (callsOn c.1 cs) = .ok nk') :
    ∃ w', happen τ w cs = .ok w' := by
  induction cs generalizing w with
  | nil => exact ⟨w, rfl⟩
  | cons c cs ih =>
    obtain ⟨j, c⟩ := c
    obtain ⟨nj, nj', h1, h2⟩ := hc (j, c) (by simp)
    dsimp only at h1 h2
    rw [callsOn_same] at h2
    obtain ⟨m, h3, h4⟩ := Exec.bind_eq_ok (show (nj.call c >>= _) = _ from h2)
    obtain ⟨u, e1⟩ := act_call τ h1 h3
    obtain ⟨⟨mj, mj', a1, a2, a3, _⟩, a4⟩ := C40_call h e1
    rw [h1] at a1
    cases a1
    rw [h3] at a2
    cases a2
    obtain ⟨w', e2⟩ := ih (reachable_act h e1) (by
      intro b hb
      by_cases hj : b.1 = j
      · exact ⟨m, nj', by rw [hj]; exact a3, by rw [hj]; exact h4⟩
      · obtain ⟨nb, nb', b1, b2⟩ := hc b (by simp [hb])
        rw [callsOn_other (Ne.symm hj)] at b2
        exact ⟨nb, nb', (a4 _ hj).trans b1, b2⟩)
    refine ⟨w', ?_⟩
    show (w.act (.call j c) >>= _) = _
    rw [e1, Exec.bind_ok]
    exact e2

theorem length_act {τ : Type} {w w' : World} {j : Nat} {c : Call} (e : w.act (.call j c : Action τ) = .ok w') :
    w'.models.length = w.models.length := by
  obtain ⟨m, _, e⟩ := Exec.bind_eq_ok (show (rd w.models j >>= _) = _ from e)
  obtain ⟨n, _, e⟩ := Exec.bind_eq_ok e
  cases e
  simp [World.put]

theorem length_happen {τ : Type} (cs : Interleaving) {w w' : World} (e : happen τ w cs = .ok w') :
    w'.models.length = w.models.length := by
  induction cs generalizing w with
  | nil => cases e; rfl
  | cons c cs ih =>
    obtain ⟨u, e1, e2⟩ := Exec.bind_eq_ok (show (w.act (.call c.1 c.2) >>= _) = _ from e)
    exact (ih e2).trans (length_act e1)

/-- The schedule of the threads does not matter: two interleavings in which each copy gets the same calls in the
same order leave all copies in the same states. -/
theorem C100_schedule {τ : Type} {n : Net} {cs cs' : Interleaving} {w w1 : World} (h : Reachable τ n w)
    (hs : ∀ k, callsOn k cs = callsOn k cs') (e : happen τ w cs = .ok w1) :
    ∃ w2, happen τ w cs' = .ok w2 ∧ ∀ k, stateOf w2 k = stateOf w1 k := by
  obtain ⟨w2, e2⟩ := C100_no_interference cs' h (by
    intro c hc
    have h1 : c.1 < w.models.length := by
      have : c.2 ∈ callsOn c.1 cs := by
        rw [hs]
        exact List.mem_map_of_mem (List.mem_filter.mpr ⟨hc, by simp⟩)
      obtain ⟨c', hc', _⟩ := List.mem_map.mp this
      obtain ⟨hc1, hc2⟩ := List.mem_filter.mp hc'
      simp only [decide_eq_true_eq] at hc2
      obtain ⟨l1, l2, rfl⟩ := List.append_of_mem hc1
      clear hc hs hc' hc1 this
      rw [← hc2]
      clear hc2
      induction l1 generalizing w with
      | nil =>
        obtain ⟨u, e1, _⟩ := Exec.bind_eq_ok (show (w.act (.call c'.1 c'.2) >>= _) = _ from e)
        obtain ⟨m, hm, _⟩ := Exec.bind_eq_ok (show (rd w.models c'.1 >>= _) = _ from e1)
        exact (List.getElem?_eq_some_iff.mp (rd_eq_ok hm)).1
      | cons b l1 ih =>
        obtain ⟨u, e1, e2⟩ := Exec.bind_eq_ok (show (w.act (.call b.1 b.2) >>= _) = _ from e)
        rw [← length_act e1]
        exact ih (reachable_act h e1) e2
    obtain ⟨nk, hk⟩ : ∃ nk, stateOf w c.1 = some nk := by
      exact ⟨(w.models[c.1]).view w.heap, by unfold stateOf; rw [List.getElem?_eq_getElem h1]; rfl⟩
    obtain ⟨nk', b1, _⟩ := C100_own_calls cs h e c.1 nk hk
    rw [hs] at b1
    exact ⟨nk, nk', hk, b1⟩)
  refine ⟨w2, e2, fun k => ?_⟩
  cases hk : stateOf w k with
  | some nk =>
    obtain ⟨a, a1, a2⟩ := C100_own_calls cs h e k nk hk
    obtain ⟨b, b1, b2⟩ := C100_own_calls cs' h e2 k nk hk
    rw [hs, b1] at a1
    cases a1
    rw [a2, b2]
  | none =>
    have h0 : w.models.length ≤ k := by
      unfold stateOf at hk
      simpa using hk
    have l1 := length_happen cs e
    have l2 := length_happen cs' e2
    unfold stateOf
    rw [List.getElem?_eq_none (by omega), List.getElem?_eq_none (by omega)]
    rfl

/-- The theorems apply to a model and its copy: a step on the copy and a step on the original, in both orders. -/
example : ∃ w1 w2 w3, (World.of tinyNew).run [(.copy 0 : Action Unit)] = .ok w1 ∧
    happen Unit w1 [(0, .step [1] [0]), (1, .resetScore), (1, .step [1] [0])] = .ok w2 ∧
    happen Unit w1 [(1, .resetScore), (1, .step [1] [0]), (0, .step [1] [0])] = .ok w3 ∧
    ∀ k, stateOf w3 k = stateOf w2 k := by
  have s0 := C40_single tinyNew
  obtain ⟨w1, e1, _⟩ := act_copy Unit s0
  obtain ⟨c1, c2⟩ := C40_copy e1
  have hl : (World.of tinyNew).models.length = 1 := rfl
  rw [hl, s0] at c1
  have c2 := (c2 0 (by rw [hl]; decide)).trans s0
  have r1 : (World.of tinyNew).run [(.copy 0 : Action Unit)] = .ok w1 := by
    unfold World.run
    rw [e1, Exec.bind_ok]
    rfl
  have hs : ∃ n, tinyNew.call (.step [1] [0]) = .ok n := by
    obtain ⟨l', hs, _, _⟩ := tiny_step 1 0 0 0 0 0 0 [] [0] (Loss.Layer.new 1 1 0) (by simp [Loss.Layer.new])
      (by simp [Loss.Layer.new])
    have hs' := congrArg (fun e : Exec (Net × Option String) => e >>= fun r => Exec.ok r.1) hs
    exact ⟨_, hs'⟩
  obtain ⟨n0, h0⟩ := hs
  have hreset : tinyNew.resetScore = tinyNew := by
    simp [tinyNew, tiny, Net.resetScore, Loss.Layer.resetScore, Loss.Layer.new]
  obtain ⟨w2, e2⟩ := C100_no_interference (τ := Unit) [(0, .step [1] [0]), (1, .resetScore), (1, .step [1] [0])]
    ⟨_, r1⟩ (by
      intro c hc
      have : c.1 = 0 ∨ c.1 = 1 := by
        rcases List.mem_cons.mp hc with rfl | hc
        · exact .inl rfl
        · rcases List.mem_cons.mp hc with rfl | hc
          · exact .inr rfl
          · exact .inr (by rw [List.mem_singleton.mp hc])
      rcases this with e | e <;> rw [e]
      · refine ⟨_, n0, c2, ?_⟩
        show (tinyNew.call (.step [1] [0]) >>= fun n => .ok n) = _
        rw [h0]
        rfl
      · refine ⟨_, n0, c1, ?_⟩
        show (tinyNew.resetScore.call (.step [1] [0]) >>= fun n => .ok n) = _
        rw [hreset, h0]
        rfl)
  obtain ⟨w3, e3, h3⟩ := C100_schedule ⟨_, r1⟩
    (cs' := [(1, .resetScore), (1, .step [1] [0]), (0, .step [1] [0])]) (by
      intro k
      by_cases h1 : k = 0
      · subst h1; rfl
      · by_cases h2 : k = 1
        · subst h2; rfl
        · simp [callsOn, Ne.symm h1, Ne.symm h2]) e2
  exact ⟨w1, w2, w3, r1, e2, e3, h3⟩

end

end Verif.Props
