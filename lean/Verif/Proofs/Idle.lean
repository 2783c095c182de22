import Verif.Spec.Idle
import Verif.Spec.Shape
import Verif.Proofs.Still
import Verif.Proofs.History

/-! Proofs for C112. -/

namespace Verif

/-- The values at the places `j`, `n + j`, `2 n + j`, … are zero. -/
def NoColumn (n j : Nat) (l : List ℝ) : Prop := ∀ k v, l[k * n + j]? = some v → v = 0

/-- The lists agree at the places `j`, `n + j`, `2 n + j`, … -/
def SameColumn (n j : Nat) (a b : List ℝ) : Prop := ∀ k : Nat, a[k * n + j]? = b[k * n + j]?

theorem column_ne {n j j' i k : Nat} (h : j < n) (h' : j' < n) (hne : j' ≠ j) : i * n + j' ≠ k * n + j := by
  intro e
  have := congrArg (· % n) e
  simp only [Nat.mul_add_mod', Nat.mod_eq_of_lt h, Nat.mod_eq_of_lt h'] at this
  exact hne this

theorem noColumn_set {n j i : Nat} {l : List ℝ} {v : ℝ} (h : NoColumn n j l) (hv : ∀ k, i = k * n + j → v = 0) :
    NoColumn n j (l.set i v) := by
  intro k w hw
  by_cases e : i = k * n + j
  · subst e
    have hlt : k * n + j < l.length := by
      have := (List.getElem?_eq_some_iff.mp hw).1
      rwa [List.length_set] at this
    rw [List.getElem?_set_self hlt] at hw
    rw [← Option.some.inj hw]
    exact hv k rfl
  · rw [List.getElem?_set_ne e] at hw
    exact h k w hw

theorem wr_eq_set {α : Type _} {l l' : List α} {i : Nat} {v : α} (h : wr l i v = .ok l') : l' = l.set i v := by
  unfold wr at h
  split at h
  · cases h; rfl
  · cases h

namespace Dense

theorem dense1_column {s : Grads ℝ} {g x w : List ℝ} {n m j : Nat} (hj : j < n) (hx : ∀ v, x[j]? = some v → v = 0)
    (hw : NoColumn n j s.weight) :
    (dense1 s g x w n m).Always fun s' => s'.weight.length = s.weight.length ∧ NoColumn n j s'.weight := by
  unfold dense1
  refine Exec.Always.bind (Exec.always_true _) fun ig _ => ?_
  refine always_loop (fun s' : Grads ℝ => s'.weight.length = s.weight.length ∧ NoColumn n j s'.weight) ⟨rfl, hw⟩ ?_
  intro i s' hs'
  refine Exec.Always.bind (Exec.always_true _) fun b _ => ?_
  refine Exec.Always.bind (Exec.always_true _) fun g0 _ => ?_
  refine Exec.Always.bind (Exec.always_true _) fun bg _ => ?_
  refine always_forUp (fun _ (s' : Grads ℝ) => s'.weight.length = s.weight.length ∧ NoColumn n j s'.weight) hs' ?_
  intro j' s' hj' hs' r hr
  obtain ⟨wg0, e1, hr⟩ := Exec.bind_eq_ok hr
  obtain ⟨g1, e2, hr⟩ := Exec.bind_eq_ok hr
  obtain ⟨x0, e3, hr⟩ := Exec.bind_eq_ok hr
  obtain ⟨wg, e4, hr⟩ := Exec.bind_eq_ok hr
  obtain ⟨_, _, hr⟩ := Exec.bind_eq_ok hr
  obtain ⟨_, _, hr⟩ := Exec.bind_eq_ok hr
  obtain ⟨_, _, hr⟩ := Exec.bind_eq_ok hr
  cases hr
  cases wr_eq_set e4
  refine ⟨(List.length_set ..).trans hs'.1, noColumn_set hs'.2 fun k hk => ?_⟩
  by_cases e : j' = j
  · subst e
    rw [hx x0 (Net.some_of_rd e3), hs'.2 i wg0 (Net.some_of_rd e1), mul_zero, add_zero]
  · exact absurd hk (column_ne hj hj' e)

end Dense

/-! ### The optimizer -/

namespace Opt

/-- Two blocks of weights `w` and gradients `g` of the same length. -/
structure Held (n j : Nat) (W : List ℝ) {σ : Type} (s : TState σ ℝ) : Prop where
  blocks : ∃ w b g c, s.params = [w, b] ∧ s.grads = [g, c] ∧ w.length = g.length ∧ SameColumn n j w W ∧ NoColumn n j g

theorem locate_dense {a1 a2 u v i : Nat} {r : Nat × Nat} (h : locate (.dense a1 a2) [u, v] i = .ok r) :
    r = if i < u then (0, i) else (1, i - u) := by
  unfold locate at h
  split at h
  · cases h
  · dsimp only at h
    split at h <;> cases h
    · next hi => rw [if_pos hi]
    · next hi => rw [if_neg hi]

theorem read_dense {a1 a2 i : Nat} {w b : List ℝ} {p : ℝ} (h : readAt (.dense a1 a2) [w, b] i = .ok p)
    (hi : i < w.length) : w[i]? = some p := by
  unfold readAt at h
  obtain ⟨r, h1, h⟩ := Exec.bind_eq_ok h
  cases locate_dense h1
  rw [if_pos hi] at h
  obtain ⟨c, h2, h⟩ := Exec.bind_eq_ok h
  cases h2
  exact Net.some_of_rd h

theorem write_dense {a1 a2 i : Nat} {w b : List ℝ} {v : ℝ} {P : List (List ℝ)}
    (h : writeAt (.dense a1 a2) [w, b] i v = .ok P) :
    (i < w.length ∧ P = [w.set i v, b]) ∨ (¬ i < w.length ∧ ∃ b', P = [w, b']) := by
  unfold writeAt at h
  obtain ⟨r, h1, h⟩ := Exec.bind_eq_ok h
  cases locate_dense h1
  by_cases hi : i < w.length
  · rw [if_pos hi] at h
    obtain ⟨c, h2, h⟩ := Exec.bind_eq_ok h
    cases h2
    obtain ⟨c, h3, h⟩ := Exec.bind_eq_ok h
    cases wr_eq_set h3
    cases wr_eq_set h
    exact .inl ⟨hi, rfl⟩
  · rw [if_neg hi] at h
    obtain ⟨c, h2, h⟩ := Exec.bind_eq_ok h
    obtain ⟨c', h3, h⟩ := Exec.bind_eq_ok h
    cases wr_eq_set h
    exact .inr ⟨hi, _, rfl⟩

theorem held_one {n j : Nat} {W : List ℝ} {σ : Type} {opt : σ → ℝ → ℝ → σ × ℝ} (ho : ∀ s p, (opt s p 0).2 = p)
    {k : Kind} (hk : ∃ a b, k = .dense a b) (i : Nat) {s : TState σ ℝ} (h : Held n j W s) :
    (trainOne opt k k i s).Always (Held n j W) := by
  intro s' e
  obtain ⟨w, b, g, c, hp, hg, hlen, hw, hz⟩ := h.blocks
  obtain ⟨a1, a2, rfl⟩ := hk
  unfold trainOne at e
  obtain ⟨p, e1, e⟩ := Exec.bind_eq_ok e
  obtain ⟨q, e2, e⟩ := Exec.bind_eq_ok e
  obtain ⟨P, e3, e⟩ := Exec.bind_eq_ok e
  obtain ⟨G, e4, e⟩ := Exec.bind_eq_ok e
  cases e
  rw [hp] at e1 e3
  rw [hg] at e2 e4
  rcases write_dense e3 with ⟨hi, rfl⟩ | ⟨hi, b', rfl⟩ <;> rcases write_dense e4 with ⟨hi', rfl⟩ | ⟨hi', c', rfl⟩
  · refine ⟨_, _, _, _, rfl, rfl, by simpa using hlen, fun m => ?_, noColumn_set hz fun _ _ => rfl⟩
    by_cases hm : i = m * n + j
    · subst hm
      have e1 := read_dense e1 hi
      have e2 := hz m _ (read_dense e2 hi')
      rw [List.getElem?_set_self hi, e2, ho, ← hw m, e1]
    · rw [List.getElem?_set_ne hm]
      exact hw m
  · exact absurd (hlen ▸ hi) hi'
  · exact absurd (hlen ▸ hi') hi
  · exact ⟨_, _, _, _, rfl, rfl, hlen, hw, hz⟩

theorem held_loop {n j : Nat} {W : List ℝ} {σ : Type} {opt : σ → ℝ → ℝ → σ × ℝ} (ho : ∀ s p, (opt s p 0).2 = p)
    {k : Kind} (hk : ∃ a b, k = .dense a b) : ∀ (m i : Nat) (s : TState σ ℝ), Held n j W s →
    Held n j W (trainLoop opt k k m i s).state
  | 0, _, _, h => h
  | m + 1, i, s, h => by
    unfold trainLoop
    cases e : trainOne opt k k i s with
    | ok s' => exact held_loop ho hk m (i + 1) s' (held_one ho hk i h s' e)
    | throw _ => exact h
    | ub => exact h

end Opt

/-! ### Models -/

namespace Net

open Verif.Graph Verif.Spec

noncomputable section

/-- A dense layer with `n` inputs whose weights of the input `j` are those in `W`, without gradients for them. -/
structure Blind (n j : Nat) (W : List ℝ) (l : Dense.Layer ℝ) : Prop where
  inputs : l.inputSize = n
  length : l.weights.length = l.grads.weight.length
  weights : SameColumn n j l.weights W
  grads : NoColumn n j l.grads.weight
  last : ∀ v, l.lastInput[j]? = some v → v = 0

/-- The layer at `i` is one. -/
def BlindAt (n j : Nat) (W : List ℝ) (i : Nat) (ls : List AnyLayer) : Prop :=
  ∃ l, ls[i]? = some (.dense l) ∧ Blind n j W l

variable {n j : Nat} {W : List ℝ} {i : Nat}

theorem blindAt_set {ls : List AnyLayer} (h : BlindAt n j W i ls) {k : Nat} {a : AnyLayer}
    (ha : k = i → ∃ l, a = .dense l ∧ Blind n j W l) : BlindAt n j W i (ls.set k a) := by
  obtain ⟨l, h1, h2⟩ := h
  by_cases e : k = i
  · obtain ⟨l', rfl, h'⟩ := ha e
    subst e
    exact ⟨l', List.getElem?_set_self (List.getElem?_eq_some_iff.mp h1).1, h'⟩
  · exact ⟨l, by rw [List.getElem?_set_ne e]; exact h1, h2⟩

theorem blind_read {ls : List AnyLayer} (h : BlindAt n j W i ls) {a : AnyLayer} (ha : rd ls i = .ok a) :
    ∃ l, a = .dense l ∧ Blind n j W l := by
  obtain ⟨l, h1, h2⟩ := h
  have := some_of_rd ha
  rw [h1] at this
  exact ⟨l, (Option.some.inj this).symm, h2⟩

theorem blind_forward {l : Dense.Layer ℝ} (h : Blind n j W l) (x : List ℝ) :
    (AnyLayer.forward (.dense l) x).Always fun r => ∃ l', r.1 = .dense l' ∧ Blind n j W l' := by
  intro r e
  show ∃ _, _
  unfold AnyLayer.forward keep at e
  dsimp only at e
  cases h1 : l.forward x with
  | ub => rw [h1] at e; cases e
  | throw m => rw [h1] at e; cases e; exact ⟨l, rfl, h⟩
  | ok l' =>
    rw [h1] at e
    cases e
    unfold Dense.Layer.forward at h1
    obtain ⟨out, _, h1⟩ := Exec.bind_eq_ok h1
    cases h1
    exact ⟨_, rfl, h.1, h.2, h.3, h.4, h.5⟩

theorem blind_last {l : Dense.Layer ℝ} (h : Blind n j W l) {x : List ℝ} (hx : ∀ v, x[j]? = some v → v = 0) :
    Blind n j W { l with lastInput := x } := ⟨h.1, h.2, h.3, h.4, hx⟩

theorem blind_backward (hj : j < n) {l : Dense.Layer ℝ} (h : Blind n j W l) (g : List ℝ) :
    (AnyLayer.backward (.dense l) g).Always fun r => ∃ l', r.1 = .dense l' ∧ Blind n j W l' := by
  intro r e
  unfold AnyLayer.backward keep at e
  dsimp only at e
  cases h1 : l.backward g with
  | ub => rw [h1] at e; cases e
  | throw m => rw [h1] at e; cases e; exact ⟨l, rfl, h⟩
  | ok l' =>
    rw [h1] at e
    cases e
    unfold Dense.Layer.backward at h1
    obtain ⟨G, h2, h1⟩ := Exec.bind_eq_ok h1
    cases h1
    rw [h.inputs] at h2
    obtain ⟨g1, g2⟩ := Dense.dense1_column hj h.last h.grads _ h2
    exact ⟨_, rfl, h.1, h.2.trans g1.symm, h.3, g2, h.5⟩

theorem blind_predict {ls : List AnyLayer} (h : BlindAt n j W i ls) (x : List ℝ) (s : Source × Nat) :
    (forwardAt x ls s).Always fun r => BlindAt n j W i r.1 := by
  unfold forwardAt
  cases value ls x s.1 with
  | ub => intro r e; cases e
  | throw m => exact Exec.always_ok h
  | ok v =>
    intro r e
    obtain ⟨l, h1, e⟩ := Exec.bind_eq_ok e
    obtain ⟨r1, h2, e⟩ := Exec.bind_eq_ok e
    cases e
    refine blindAt_set h fun hi => ?_
    rw [hi] at h1
    obtain ⟨l', rfl, hl⟩ := blind_read h h1
    exact blind_forward hl v _ h2

/-- Moreover the layer reads from the argument of the call. -/
def BlindStep (n j : Nat) (W : List ℝ) (i : Nat) (st : Steps) : Prop :=
  BlindAt n j W i st.layers ∧ ∀ s, st.from_[i]? = some (some s) → s = .external

theorem blind_trainAt {st : Steps} (h : BlindStep n j W i st) {x : List ℝ} (hx : ∀ v, x[j]? = some v → v = 0)
    {s : Source × Nat} (hs : s.2 = i → s.1 = .external) : (trainAt x st s).Always fun r => BlindStep n j W i r.1 := by
  unfold trainAt
  cases hv : value st.layers x s.1 with
  | ub => intro r e; cases e
  | throw m => exact Exec.always_ok h
  | ok v =>
    intro r e
    obtain ⟨l, h1, e⟩ := Exec.bind_eq_ok e
    obtain ⟨r1, h2, e⟩ := Exec.bind_eq_ok e
    cases e
    refine ⟨blindAt_set h.1 fun hi => ?_, fun s' hs' => ?_⟩
    · rw [hi] at h1
      obtain ⟨l', rfl, hl⟩ := blind_read h.1 h1
      rw [hs hi] at hv
      cases hv
      exact blind_forward (blind_last hl hx) x _ h2
    · by_cases hi : s.2 = i
      · subst hi
        have hlt : s.2 < st.from_.length := by
          have := (List.getElem?_eq_some_iff.mp hs').1
          rwa [List.length_set] at this
        change (st.from_.set s.2 (some s.1))[s.2]? = _ at hs'
        rw [List.getElem?_set_self hlt] at hs'
        rw [← Option.some.inj (Option.some.inj hs')]
        exact hs rfl
      · change (st.from_.set s.2 (some s.1))[i]? = _ at hs'
        rw [List.getElem?_set_ne hi] at hs'
        exact h.2 s' hs'

theorem blind_backwardAt (hj : j < n) {st : Steps} (h : BlindStep n j W i st) {x : List ℝ}
    (hx : ∀ v, x[j]? = some v → v = 0) (k : Nat) (g : List ℝ) :
    (backwardAt x st k g).Always fun r => BlindStep n j W i r.1 := by
  intro r e
  obtain ⟨l, h1, e⟩ := Exec.bind_eq_ok e
  obtain ⟨l1, h2, e⟩ := Exec.bind_eq_ok e
  obtain ⟨r1, h3, e⟩ := Exec.bind_eq_ok e
  cases e
  refine ⟨blindAt_set h.1 fun hi => ?_, h.2⟩
  subst hi
  obtain ⟨l', rfl, hl⟩ := blind_read h.1 h1
  unfold follow at h2
  split at h2
  · next s hs =>
    cases h.2 s hs
    obtain ⟨v, hv, h2⟩ := Exec.bind_eq_ok h2
    cases hv
    cases h2
    exact blind_backward hj (blind_last hl hx) g _ h3
  · cases h2
    exact blind_backward hj hl g _ h3

theorem next_always {σ τ : Type} {r : Exec (σ × Option String)} {fail : σ → τ} {f : σ → Exec (τ × Option String)}
    {P : σ → Prop} {Q : τ → Prop} (hr : r.Always fun p => P p.1) (hfail : ∀ s, P s → Q (fail s))
    (hf : ∀ s, P s → (f s).Always fun p => Q p.1) : (next r fail f).Always fun p => Q p.1 := by
  refine Exec.Always.bind hr fun p hp => ?_
  cases he : p.2 with
  | none => exact hf p.1 hp
  | some m => exact Exec.always_ok (hfail _ hp)

/-! The arcs of the training run are arcs of the graph. -/

theorem run_arcs (succ : Nat → List Nat) : ∀ (fuel : Nat) (curr : List Nat) (ret : List (Nat × Nat)) (done : List Nat)
    (r : List (Nat × Nat)), (∀ a ∈ ret, a.2 ∈ succ a.1) → runLoop succ fuel curr ret done = some r →
    ∀ a ∈ r, a.2 ∈ succ a.1
  | _, [], ret, _, r, h, e => by
    unfold runLoop at e; cases e; exact h
  | 0, _ :: _, _, _, _, _, e => by unfold runLoop at e; cases e
  | fuel + 1, l :: ls, ret, done, r, h, e => by
    unfold runLoop at e
    refine run_arcs succ fuel _ _ _ r ?_ e
    unfold wave
    have inner : ∀ (curr : List Nat) (f : Nat) (ts : List Nat) (w : Wave), (∀ t ∈ ts, t ∈ succ f) →
        (∀ a ∈ w.ret, a.2 ∈ succ a.1) → ∀ a ∈ (ts.foldl (visitArc curr f) w).ret, a.2 ∈ succ a.1 := by
      intro curr f ts
      induction ts with
      | nil => intro w _ hw; exact hw
      | cons t ts ih =>
        intro w ht hw
        refine ih _ (fun t h => ht t (by simp [h])) ?_
        intro a ha
        rcases List.mem_append.mp ha with ha | ha
        · exact hw a ha
        · cases List.mem_singleton.mp ha
          exact ht t (by simp)
    have outer : ∀ (curr fs : List Nat) (w : Wave), (∀ a ∈ w.ret, a.2 ∈ succ a.1) →
        ∀ a ∈ (fs.foldl (visitLayer succ curr) w).ret, a.2 ∈ succ a.1 := by
      intro curr fs
      induction fs with
      | nil => intro w hw; exact hw
      | cons f fs ih =>
        intro w hw
        exact ih _ (inner curr f (succ f) w (fun t h => h) hw)
    exact outer _ _ _ h

theorem trainingArcs_arc (g : DLGraph) : ∀ a ∈ trainingArcs g, a.2 ∈ successors g.training a.1 := by
  unfold trainingArcs
  cases e : g.trainingRun (g.training.length + 2) with
  | none => simp
  | some r => exact run_arcs _ _ _ _ _ r (by simp) e

theorem blind_step (hj : j < n) {m : Net} (h : BlindAt n j W i m.layers)
    (hi : ∀ k, i ∉ successors m.graph.training k) {x t : List ℝ} (hx : ∀ v, x[j]? = some v → v = 0) :
    (m.step x t).Always fun r => r.1.graph = m.graph ∧ BlindAt n j W i r.1.layers := by
  unfold Net.step
  refine Exec.Always.bind (Q := fun p => BlindAt n j W i p.1.layers) ?_ fun p hp => Exec.always_ok ⟨rfl, hp⟩
  refine next_always (P := BlindAt n j W i) (Q := fun st : Steps => BlindAt n j W i st.layers) ?_ (fun s hs => hs) ?_
  · refine always_each (BlindAt n j W i) _ _ h fun s k _ hs r hr => ?_
    obtain ⟨a, h1, hr⟩ := Exec.bind_eq_ok hr
    split at hr
    · cases hr
      refine blindAt_set hs fun hk => ?_
      subst hk
      obtain ⟨l', e, _⟩ := blind_read hs h1
      cases e
    · cases hr; exact hs
  · intro ls hls
    have h0 : BlindStep n j W i ⟨ls, List.replicate ls.length none⟩ := ⟨hls, fun s hs => by
      have := List.mem_of_getElem? hs
      exact absurd (List.eq_of_mem_replicate this) (by simp)⟩
    have hlast : ∀ {e : Exec (Steps × Option String)}, (e.Always fun p => BlindStep n j W i p.1) →
        e.Always fun p => BlindAt n j W i p.1.layers := fun h a ha => (h a ha).1
    refine hlast ?_
    refine next_always (P := BlindStep n j W i) ?_ (fun s hs => hs) fun st hst => ?_
    · refine always_each (BlindStep n j W i) _ _ h0 fun s a ha hs => blind_trainAt hs hx fun hk => ?_
      rcases List.mem_append.mp ha with ha | ha
      · obtain ⟨k, _, rfl⟩ := List.mem_map.mp ha
        rfl
      · obtain ⟨k, hk', rfl⟩ := List.mem_map.mp ha
        have := trainingArcs_arc _ k hk'
        dsimp only at hk
        rw [hk] at this
        exact absurd this (hi _)
    refine next_always (P := BlindStep n j W i) ?_ (fun s hs => hs) fun st hst => ?_
    · exact always_each (BlindStep n j W i) _ _ hst fun s a _ hs => blind_backwardAt hj hs hx a []
    · refine always_each (BlindStep n j W i) _ _ hst fun s a _ hs r hr => ?_
      obtain ⟨l, _, hr⟩ := Exec.bind_eq_ok hr
      exact blind_backwardAt hj hs hx _ _ r hr

theorem blind_train {σ : Type} {opt : σ → ℝ → ℝ → σ × ℝ} (ho : ∀ s p, (opt s p 0).2 = p) {l : Dense.Layer ℝ}
    (h : Blind n j W l) (s : σ) : ∃ l', (AnyLayer.train opt s (.dense l)).1.2 = .dense l' ∧ Blind n j W l' := by
  unfold AnyLayer.train Opt.trainSelf
  dsimp only
  have := Opt.held_loop ho (k := AnyLayer.kind (.dense l)) ⟨_, _, rfl⟩ (AnyLayer.kind (.dense l)).paramCount 0
    ⟨s, AnyLayer.params (.dense l), AnyLayer.paramGrads (.dense l)⟩
    (n := n) (j := j) (W := W) ⟨_, _, _, _, rfl, rfl, h.length, h.weights, h.grads⟩
  obtain ⟨w, b, g, c, h1, h2, h3, h4, h5⟩ := this.blocks
  rw [h1, h2]
  exact ⟨_, rfl, h.1, h3, h4, h5, h.5⟩

theorem blind_trainLayers {σ : Type} {opt : σ → ℝ → ℝ → σ × ℝ} (ho : ∀ s p, (opt s p 0).2 = p) :
    ∀ (ls : List AnyLayer) (i : Nat) (s : σ), BlindAt n j W i ls → BlindAt n j W i (trainLayers opt s ls).1.2
  | [], i, s, h => h
  | a :: ls, i, s, ⟨l, h1, h2⟩ => by
    unfold trainLayers
    match hi : i with
    | 0 =>
      cases h1
      obtain ⟨l', e, h'⟩ := blind_train ho h2 s
      split
      · next s' a' he => rw [he] at e; cases e; exact ⟨l', rfl, h'⟩
      · next s' a' er he he2 => rw [he2] at e; cases e; exact ⟨l', rfl, h'⟩
    | i + 1 =>
      split
      · exact blind_trainLayers ho ls i _ ⟨l, h1, h2⟩
      · exact ⟨l, h1, h2⟩

theorem blind_reset {m : Net} (h : BlindAt n j W i m.layers) : BlindAt n j W i m.resetScore.layers := by
  obtain ⟨l, h1, h2⟩ := h
  refine ⟨l, ?_, h2⟩
  show (m.layers.mapIdx _)[i]? = _
  rw [List.getElem?_mapIdx, h1]
  rfl

/-- What is preserved. -/
def Keeps (n j : Nat) (W : List ℝ) (i : Nat) (g : DLGraph) (m : Net) : Prop := m.graph = g ∧ BlindAt n j W i m.layers

theorem keeps_predict {g : DLGraph} {m : Net} (h : Keeps n j W i g m) (x : List ℝ) :
    (m.predict x).Always fun r => Keeps n j W i g r.1 := by
  unfold Net.predict
  split
  · exact Exec.always_ok h
  · refine Exec.Always.bind (always_each (BlindAt n j W i) _ _ h.2 fun s b _ hs => blind_predict hs x b) fun r hr => ?_
    dsimp only
    split
    · exact Exec.always_ok ⟨h.1, hr⟩
    · refine Exec.Always.bind (Exec.always_true _) fun a _ => ?_
      split
      · exact Exec.always_ok ⟨h.1, hr⟩
      · exact Exec.always_ok ⟨h.1, hr⟩
      · intro _ e; cases e

theorem keeps_step (hj : j < n) {g : DLGraph} (hi : ∀ k, i ∉ successors g.training k) {m : Net}
    (h : Keeps n j W i g m) {x t : List ℝ} (hx : vec x j = 0) : (m.step x t).Always fun r => Keeps n j W i g r.1 := by
  intro r e
  obtain ⟨h1, h2⟩ := blind_step hj h.2 (by rw [h.1]; exact hi) (x := x) (t := t) (fun v hv => by
    rw [← hx, vec, List.getD_eq_getElem?_getD, hv]; rfl) r e
  exact ⟨h1.trans h.1, h2⟩

theorem keeps_train {σ : Type} {opt : σ → ℝ → ℝ → σ × ℝ} (ho : ∀ s p, (opt s p 0).2 = p) {g : DLGraph} {m : Net}
    (h : Keeps n j W i g m) (s : σ) : Keeps n j W i g (m.train opt s).1.2 :=
  ⟨h.1, blind_trainLayers ho _ _ _ h.2⟩

theorem keeps_serve {σ : Type} {opt : σ → ℝ → ℝ → σ × ℝ} (ho : ∀ s p, (opt s p 0).2 = p) (hj : j < n) {g : DLGraph}
    (hi : ∀ k, i ∉ successors g.training k) : ∀ (cs : List UserCall) (s : σ × Net), (∀ c ∈ cs, c.Without j) →
    Keeps n j W i g s.2 → (serve opt cs s).Always fun r => Keeps n j W i g r.2
  | [], s, _, h => Exec.always_ok h
  | .predict x :: cs, s, hc, h => by
    unfold serve
    refine Exec.Always.bind (keeps_predict h x) fun r hr => ?_
    split
    · exact keeps_serve ho hj hi cs _ (fun c h => hc c (by simp [h])) hr
    · intro _ e; cases e
  | .resetScore :: cs, s, hc, h => by
    unfold serve
    exact keeps_serve ho hj hi cs _ (fun c h => hc c (by simp [h])) ⟨h.1, blind_reset h.2⟩
  | .step x t :: cs, s, hc, h => by
    unfold serve
    refine Exec.Always.bind (keeps_step hj hi h (hc (.step x t) (by simp))) fun r hr => ?_
    split
    · exact keeps_serve ho hj hi cs _ (fun c h => hc c (by simp [h])) hr
    · intro _ e; cases e
  | .train :: cs, s, hc, h => by
    unfold serve
    refine Exec.Always.bind (Exec.always_true _) fun _ _ => ?_
    exact keeps_serve ho hj hi cs _ (fun c h => hc c (by simp [h])) (keeps_train ho h s.1)

theorem keeps_fit {σ : Type} {opt : σ → ℝ → ℝ → σ × ℝ} (ho : ∀ s p, (opt s p 0).2 = p) (hj : j < n) {g : DLGraph}
    (hi : ∀ k, i ∉ successors g.training k) {d : Data.Dataset ℝ} (hd : ∀ k x, d.input k = .ok x → vec x j = 0)
    {fuel epochs b : Nat} {s s' : σ × Net} (h : Keeps n j W i g s.2)
    (e : Training.fit opt d fuel epochs b s = some (.ok s')) : Keeps n j W i g s'.2 := by
  refine trainingRun_inv (fun x => Keeps n j W i g x.2) ?_ ?_ ?_ _ _ _ _ _ _ h e
  · intro x x' hx e
    cases e
    exact ⟨hx.1, blind_reset hx.2⟩
  · intro k x x' hx e
    obtain ⟨u, h1, e⟩ := Exec.bind_eq_ok e
    obtain ⟨t, h2, e⟩ := Exec.bind_eq_ok e
    obtain ⟨m, h3, e⟩ := Exec.bind_eq_ok e
    cases e
    unfold Training.raise at h3
    obtain ⟨p, h4, h3⟩ := Exec.bind_eq_ok h3
    have := keeps_step hj hi hx (hd k u h1) p h4
    split at h3
    · cases h3; exact this
    · cases h3
  · intro x x' hx e
    obtain ⟨_, _, e⟩ := Exec.bind_eq_ok e
    cases e
    exact keeps_train ho hx _

end

end Net

end Verif
