import Verif.Spec.Spare
import Verif.Proofs.Idle
import Verif.Proofs.ShapeGraph

/-! Proofs for C113. -/

namespace Verif

namespace Opt

/-- Training without gradients, whatever the sizes of the blocks. -/
theorem trainLoop_still {σ : Type} {opt : σ → ℝ → ℝ → σ × ℝ} (ho : ∀ s p, (opt s p 0).2 = p) {k : Kind}
    {P G : List (List ℝ)} (hz : ∀ b ∈ G, Zeros b) : ∀ (m i : Nat) (s : σ),
    (trainLoop opt k k m i ⟨s, P, G⟩).state.params = P ∧ (trainLoop opt k k m i ⟨s, P, G⟩).state.grads = G
  | 0, _, _ => ⟨rfl, rfl⟩
  | m + 1, i, s => by
    unfold trainLoop
    cases e : trainOne opt k k i ⟨s, P, G⟩ with
    | throw _ => exact ⟨rfl, rfl⟩
    | ub => exact ⟨rfl, rfl⟩
    | ok s' =>
      unfold trainOne at e
      obtain ⟨p, e1, e⟩ := Exec.bind_eq_ok e
      obtain ⟨g, e2, e⟩ := Exec.bind_eq_ok e
      obtain ⟨P', e3, e⟩ := Exec.bind_eq_ok e
      obtain ⟨G', e4, e⟩ := Exec.bind_eq_ok e
      cases e
      have hg : g = 0 := by
        unfold readAt at e2
        obtain ⟨⟨b, off⟩, _, e2⟩ := Exec.bind_eq_ok e2
        obtain ⟨block, f1, e2⟩ := Exec.bind_eq_ok e2
        exact always_rd (hz block (List.mem_of_getElem? (Net.some_of_rd f1))) off g e2
      subst hg
      dsimp only at e3 e4 ⊢
      rw [ho, writeAt_same e1] at e3
      rw [writeAt_same e2] at e4
      cases e3
      cases e4
      exact trainLoop_still ho hz m (i + 1) _

end Opt

namespace Net

open Verif.Graph Verif.Spec Verif.Props

noncomputable section

/-- The layer has the parameters `ps` and no gradients. -/
def Unused (ps : List (List ℝ)) (a : AnyLayer) : Prop := a.params = ps ∧ ∀ b ∈ a.paramGrads, Zeros b

theorem forward_blocks {a a' : AnyLayer} {x : List ℝ} {e : Option String} (h : a.forward x = .ok (a', e)) :
    a'.params = a.params ∧ a'.paramGrads = a.paramGrads := by
  cases a with
  | dropout mx raw l => cases h; exact ⟨rfl, rfl⟩
  | loss f l =>
    obtain ⟨o, h2, h3⟩ := Exec.bind_eq_ok h
    cases h3
    exact ⟨rfl, rfl⟩
  | act f l =>
    rcases keep_ok h with rfl | ⟨l', h1, rfl, _⟩ <;> exact ⟨rfl, rfl⟩
  | _ =>
    rcases keep_ok h with rfl | ⟨l', h1, rfl, _⟩
    · exact ⟨rfl, rfl⟩
    · obtain ⟨o, h2, h3⟩ := Exec.bind_eq_ok h1
      cases h3
      exact ⟨rfl, rfl⟩

theorem unused_forward {ps : List (List ℝ)} {a a' : AnyLayer} {x : List ℝ} {e : Option String} (hu : Unused ps a)
    (h : a.forward x = .ok (a', e)) : Unused ps a' := by
  obtain ⟨h1, h2⟩ := forward_blocks h
  exact ⟨h1.trans hu.1, by rw [h2]; exact hu.2⟩

theorem unused_setLastInput {ps : List (List ℝ)} {a : AnyLayer} (hu : Unused ps a) (x : List ℝ) :
    Unused ps (a.setLastInput x) := by
  cases a <;> exact hu

theorem unused_trainingForward {ps : List (List ℝ)} {a a' : AnyLayer} {x : List ℝ} {e : Option String}
    (hu : Unused ps a) (h : a.trainingForward x = .ok (a', e)) : Unused ps a' := by
  rcases trainingForward_cases a x with ⟨mx, raw, l, rfl⟩ | h1
  · rcases keep_ok h with rfl | ⟨l', h1, rfl, _⟩ <;> exact hu
  · rw [h1] at h
    exact unused_forward (unused_setLastInput hu x) h

/-- The layer at `i` is one. -/
def UnusedAt (ps : List (List ℝ)) (i : Nat) (ls : List AnyLayer) : Prop := ∃ a, ls[i]? = some a ∧ Unused ps a

variable {ps : List (List ℝ)} {i : Nat}

theorem unusedAt_set {ls : List AnyLayer} (h : UnusedAt ps i ls) {k : Nat} {a : AnyLayer} (ha : k = i → Unused ps a) :
    UnusedAt ps i (ls.set k a) := by
  obtain ⟨b, h1, h2⟩ := h
  by_cases e : k = i
  · subst e
    exact ⟨a, List.getElem?_set_self (List.getElem?_eq_some_iff.mp h1).1, ha rfl⟩
  · exact ⟨b, by rw [List.getElem?_set_ne e]; exact h1, h2⟩

theorem unused_read {ls : List AnyLayer} (h : UnusedAt ps i ls) {a : AnyLayer} (ha : rd ls i = .ok a) : Unused ps a := by
  obtain ⟨b, h1, h2⟩ := h
  have := some_of_rd ha
  rw [h1] at this
  cases this
  exact h2

theorem unused_predict {ls : List AnyLayer} (h : UnusedAt ps i ls) (x : List ℝ) (s : Source × Nat) :
    (forwardAt x ls s).Always fun r => UnusedAt ps i r.1 := by
  unfold forwardAt
  cases value ls x s.1 with
  | ub => intro r e; cases e
  | throw m => exact Exec.always_ok h
  | ok v =>
    intro r e
    obtain ⟨l, h1, e⟩ := Exec.bind_eq_ok e
    obtain ⟨r1, h2, e⟩ := Exec.bind_eq_ok e
    cases e
    exact unusedAt_set h fun hi => unused_forward (unused_read h (hi ▸ h1)) h2

theorem unused_trainAt {st : Steps} (h : UnusedAt ps i st.layers) (x : List ℝ) (s : Source × Nat) :
    (trainAt x st s).Always fun r => UnusedAt ps i r.1.layers := by
  unfold trainAt
  cases value st.layers x s.1 with
  | ub => intro r e; cases e
  | throw m => exact Exec.always_ok h
  | ok v =>
    intro r e
    obtain ⟨l, h1, e⟩ := Exec.bind_eq_ok e
    obtain ⟨r1, h2, e⟩ := Exec.bind_eq_ok e
    cases e
    exact unusedAt_set h fun hi => unused_trainingForward (unused_read h (hi ▸ h1)) h2

theorem unused_backwardAt {st : Steps} (h : UnusedAt ps i st.layers) (x : List ℝ) {k : Nat} (hk : k ≠ i) (g : List ℝ) :
    (backwardAt x st k g).Always fun r => UnusedAt ps i r.1.layers := by
  intro r e
  obtain ⟨l, h1, e⟩ := Exec.bind_eq_ok e
  obtain ⟨l1, h2, e⟩ := Exec.bind_eq_ok e
  obtain ⟨r1, h3, e⟩ := Exec.bind_eq_ok e
  cases e
  exact unusedAt_set h fun hi => absurd hi hk

/-! A run stays in a set of layers that is closed under its arcs. -/

theorem run_within {succ : Nat → List Nat} {P : Nat → Prop} (hP : ∀ x, P x → ∀ y ∈ succ x, P y) :
    ∀ (fuel : Nat) (curr : List Nat) (ret : List (Nat × Nat)) (done : List Nat) (r : List (Nat × Nat)),
    (∀ c ∈ curr, P c) → (∀ a ∈ ret, P a.1 ∧ P a.2) → runLoop succ fuel curr ret done = some r → ∀ a ∈ r, P a.1 ∧ P a.2
  | _, [], ret, _, r, _, h, e => by
    unfold runLoop at e; cases e; exact h
  | 0, _ :: _, _, _, _, _, _, e => by unfold runLoop at e; cases e
  | fuel + 1, l :: ls, ret, done, r, hc, h, e => by
    unfold runLoop at e
    have inner : ∀ (curr : List Nat) (f : Nat) (ts : List Nat) (w : Wave), P f → (∀ t ∈ ts, P t) →
        (∀ a ∈ w.ret, P a.1 ∧ P a.2) ∧ (∀ t ∈ w.next, P t) →
        (∀ a ∈ (ts.foldl (visitArc curr f) w).ret, P a.1 ∧ P a.2) ∧ ∀ t ∈ (ts.foldl (visitArc curr f) w).next, P t := by
      intro curr f ts
      induction ts with
      | nil => intro w _ _ hw; exact hw
      | cons t ts ih =>
        intro w hf ht hw
        refine ih _ hf (fun t h => ht t (by simp [h])) ⟨?_, ?_⟩
        · intro a ha
          rcases List.mem_append.mp ha with ha | ha
          · exact hw.1 a ha
          · cases List.mem_singleton.mp ha
            exact ⟨hf, ht t (by simp)⟩
        · intro u hu
          unfold visitArc at hu
          dsimp only at hu
          split at hu
          · rcases List.mem_append.mp hu with hu | hu
            · exact hw.2 u hu
            · cases List.mem_singleton.mp hu
              exact ht t (by simp)
          · exact hw.2 u hu
    have outer : ∀ (curr fs : List Nat) (w : Wave), (∀ f ∈ fs, P f) → (∀ a ∈ w.ret, P a.1 ∧ P a.2) ∧ (∀ t ∈ w.next, P t) →
        (∀ a ∈ (fs.foldl (visitLayer succ curr) w).ret, P a.1 ∧ P a.2) ∧ ∀ t ∈ (fs.foldl (visitLayer succ curr) w).next, P t := by
      intro curr fs
      induction fs with
      | nil => intro w _ hw; exact hw
      | cons f fs ih =>
        intro w hf hw
        exact ih _ (fun f h => hf f (by simp [h])) 
          (inner curr f (succ f) w (hf f (by simp)) (hP f (hf f (by simp))) hw)
    obtain ⟨o1, o2⟩ := outer (l :: ls) (l :: ls) ⟨ret, [], done⟩ hc ⟨h, by simp⟩
    exact run_within hP fuel _ _ _ r o2 o1 e

/-- The backward run does not touch layers that no loss depends on. -/
theorem spare_arcs {g : DLGraph} (hj : Joined g) (hi : NoLossNeeds g i) :
    i ∉ g.loss ∧ ∀ a ∈ backwardArcs g, a.1 ≠ i ∧ a.2 ≠ i := by
  have hl : i ∉ g.loss := fun h => hi i h .refl
  refine ⟨hl, ?_⟩
  have hrun : ∀ a ∈ backwardArcs g, (∃ q ∈ g.loss, Relation.ReflTransGen (trainArc g) a.1 q) ∧
      ∃ q ∈ g.loss, Relation.ReflTransGen (trainArc g) a.2 q := by
    unfold backwardArcs
    cases e : g.backwardRun (g.backward.length + 2) with
    | none => simp
    | some r =>
      refine run_within (P := fun x => ∃ q ∈ g.loss, Relation.ReflTransGen (trainArc g) x q) ?_ _ _ _ _ r ?_ (by simp) e
      · rintro x ⟨q, hq, hx⟩ y hy
        exact ⟨q, hq, .head ((hj.back y x).mp hy) hx⟩
      · intro c hc
        exact ⟨c, hc, .refl⟩
  intro a ha
  obtain ⟨⟨q, hq, h⟩, q', hq', h'⟩ := hrun a ha
  exact ⟨fun e => hi q hq (e ▸ h), fun e => hi q' hq' (e ▸ h')⟩

theorem unused_step {m : Net} (h : UnusedAt ps i m.layers) (hl : i ∉ m.graph.loss)
    (hb : ∀ a ∈ backwardArcs m.graph, a.2 ≠ i) (x t : List ℝ) :
    (m.step x t).Always fun r => r.1.graph = m.graph ∧ UnusedAt ps i r.1.layers := by
  unfold Net.step
  refine Exec.Always.bind (Q := fun p => UnusedAt ps i p.1.layers) ?_ fun p hp => Exec.always_ok ⟨rfl, hp⟩
  refine next_always (P := UnusedAt ps i) (Q := fun st : Steps => UnusedAt ps i st.layers) ?_ (fun s hs => hs) ?_
  · refine always_each (UnusedAt ps i) _ _ h fun s k hk hs r hr => ?_
    obtain ⟨a, h1, hr⟩ := Exec.bind_eq_ok hr
    split at hr
    · cases hr
      exact unusedAt_set hs fun e => absurd (e ▸ hk) hl
    · cases hr; exact hs
  · intro ls hls
    refine next_always (P := fun st : Steps => UnusedAt ps i st.layers)
      (Q := fun st : Steps => UnusedAt ps i st.layers) ?_ (fun s hs => hs) fun st hst => ?_
    · exact always_each (fun st : Steps => UnusedAt ps i st.layers) _ _ (by exact hls) fun s a _ hs => unused_trainAt hs x a
    refine next_always (P := fun st : Steps => UnusedAt ps i st.layers)
      (Q := fun st : Steps => UnusedAt ps i st.layers) ?_ (fun s hs => hs) fun st hst => ?_
    · exact always_each (fun st : Steps => UnusedAt ps i st.layers) _ _ hst fun s a ha hs =>
        unused_backwardAt hs x (fun e => hl (e ▸ ha)) []
    · refine always_each (fun st : Steps => UnusedAt ps i st.layers) _ _ hst fun s a ha hs r hr => ?_
      obtain ⟨l, _, hr⟩ := Exec.bind_eq_ok hr
      exact unused_backwardAt hs x (hb a ha) _ r hr

theorem setBlocks_self (a : AnyLayer) : (a.setParams a.params).setParamGrads a.paramGrads = a := by
  cases a <;> rfl

theorem unused_train {σ : Type} {opt : σ → ℝ → ℝ → σ × ℝ} (ho : ∀ s p, (opt s p 0).2 = p) {a : AnyLayer}
    (h : Unused ps a) (s : σ) : (a.train opt s).1.2 = a := by
  unfold AnyLayer.train Opt.trainSelf
  dsimp only
  obtain ⟨h1, h2⟩ := Opt.trainLoop_still ho (k := a.kind) (P := a.params) h.2 a.kind.paramCount 0 s
  rw [h1, h2, setBlocks_self]

theorem unused_trainLayers {σ : Type} {opt : σ → ℝ → ℝ → σ × ℝ} (ho : ∀ s p, (opt s p 0).2 = p) :
    ∀ (ls : List AnyLayer) (i : Nat) (s : σ), UnusedAt ps i ls → UnusedAt ps i (trainLayers opt s ls).1.2
  | [], i, s, h => h
  | a :: ls, i, s, ⟨l, h1, h2⟩ => by
    unfold trainLayers
    match hi : i with
    | 0 =>
      cases h1
      have e := unused_train ho h2 s
      split
      · next s' a' he => rw [he] at e; cases e; exact ⟨_, rfl, h2⟩
      · next s' a' er he he2 => rw [he2] at e; cases e; exact ⟨_, rfl, h2⟩
    | i + 1 =>
      split
      · exact unused_trainLayers ho ls i _ ⟨l, h1, h2⟩
      · exact ⟨l, h1, h2⟩

theorem unused_reset {m : Net} (h : UnusedAt ps i m.layers) : UnusedAt ps i m.resetScore.layers := by
  obtain ⟨a, h1, h2⟩ := h
  show UnusedAt ps i (m.layers.mapIdx _)
  unfold UnusedAt
  rw [List.getElem?_mapIdx, h1]
  cases a with
  | loss f l =>
    refine ⟨_, rfl, ?_⟩
    dsimp only
    split <;> exact h2
  | _ => exact ⟨_, rfl, h2⟩

/-- What is preserved. -/
def Rested (ps : List (List ℝ)) (i : Nat) (g : DLGraph) (m : Net) : Prop := m.graph = g ∧ UnusedAt ps i m.layers

theorem rested_predict {g : DLGraph} {m : Net} (h : Rested ps i g m) (x : List ℝ) :
    (m.predict x).Always fun r => Rested ps i g r.1 := by
  unfold Net.predict
  split
  · exact Exec.always_ok h
  · refine Exec.Always.bind (always_each (UnusedAt ps i) _ _ h.2 fun s b _ hs => unused_predict hs x b) fun r hr => ?_
    dsimp only
    split
    · exact Exec.always_ok ⟨h.1, hr⟩
    · refine Exec.Always.bind (Exec.always_true _) fun a _ => ?_
      split
      · exact Exec.always_ok ⟨h.1, hr⟩
      · exact Exec.always_ok ⟨h.1, hr⟩
      · intro _ e; cases e

theorem rested_step {g : DLGraph} (hl : i ∉ g.loss) (hb : ∀ a ∈ backwardArcs g, a.2 ≠ i) {m : Net}
    (h : Rested ps i g m) (x t : List ℝ) : (m.step x t).Always fun r => Rested ps i g r.1 := by
  intro r e
  obtain ⟨h1, h2⟩ := unused_step h.2 (by rw [h.1]; exact hl) (by rw [h.1]; exact hb) x t r e
  exact ⟨h1.trans h.1, h2⟩

theorem rested_serve {σ : Type} {opt : σ → ℝ → ℝ → σ × ℝ} (ho : ∀ s p, (opt s p 0).2 = p) {g : DLGraph}
    (hl : i ∉ g.loss) (hb : ∀ a ∈ backwardArcs g, a.2 ≠ i) : ∀ (cs : List UserCall) (s : σ × Net),
    Rested ps i g s.2 → (serve opt cs s).Always fun r => Rested ps i g r.2
  | [], s, h => Exec.always_ok h
  | .predict x :: cs, s, h => by
    unfold serve
    refine Exec.Always.bind (rested_predict h x) fun r hr => ?_
    split
    · exact rested_serve ho hl hb cs _ hr
    · intro _ e; cases e
  | .resetScore :: cs, s, h => by
    unfold serve
    exact rested_serve ho hl hb cs _ ⟨h.1, unused_reset h.2⟩
  | .step x t :: cs, s, h => by
    unfold serve
    refine Exec.Always.bind (rested_step hl hb h x t) fun r hr => ?_
    split
    · exact rested_serve ho hl hb cs _ hr
    · intro _ e; cases e
  | .train :: cs, s, h => by
    unfold serve
    refine Exec.Always.bind (Exec.always_true _) fun _ _ => ?_
    exact rested_serve ho hl hb cs _ ⟨h.1, unused_trainLayers ho _ _ _ h.2⟩

theorem rested_fit {σ : Type} {opt : σ → ℝ → ℝ → σ × ℝ} (ho : ∀ s p, (opt s p 0).2 = p) {g : DLGraph}
    (hl : i ∉ g.loss) (hb : ∀ a ∈ backwardArcs g, a.2 ≠ i) {d : Data.Dataset ℝ}
    {fuel epochs b : Nat} {s s' : σ × Net} (h : Rested ps i g s.2)
    (e : Training.fit opt d fuel epochs b s = some (.ok s')) : Rested ps i g s'.2 := by
  refine trainingRun_inv (fun x => Rested ps i g x.2) ?_ ?_ ?_ _ _ _ _ _ _ h e
  · intro x x' hx e
    cases e
    exact ⟨hx.1, unused_reset hx.2⟩
  · intro k x x' hx e
    obtain ⟨u, h1, e⟩ := Exec.bind_eq_ok e
    obtain ⟨t, h2, e⟩ := Exec.bind_eq_ok e
    obtain ⟨m, h3, e⟩ := Exec.bind_eq_ok e
    cases e
    unfold Training.raise at h3
    obtain ⟨p, h4, h3⟩ := Exec.bind_eq_ok h3
    have := rested_step hl hb hx u t p h4
    split at h3
    · cases h3; exact this
    · cases h3
  · intro x x' hx e
    obtain ⟨_, _, e⟩ := Exec.bind_eq_ok e
    cases e
    exact ⟨hx.1, unused_trainLayers ho _ _ _ hx.2⟩

end

end Net

end Verif
