import Verif.Spec.Aside
import Verif.Proofs.Spare
import Verif.Proofs.Frame
import Verif.Proofs.BackFit

/-! Proofs for C114. -/

namespace Verif

namespace Training

/-! Two runs that both return. -/

theorem batchLoop_both {σ : Type} {o : Ops σ} (Q : σ → σ → Prop)
    (hs : ∀ i s t s' t', Q s t → o.step i s = .ok s' → o.step i t = .ok t' → Q s' t') (n : Nat) :
    ∀ (left i : Nat) (s t : σ) (r q : Nat × σ), Q s t → batchLoop o n left i s = .ok r →
      batchLoop o n left i t = .ok q → r.1 = q.1 ∧ Q r.2 q.2 := by
  intro left
  induction left with
  | zero => intro i s t r q h e e'; cases e; cases e'; exact ⟨rfl, h⟩
  | succ left ih =>
    intro i s t r q h e e'
    unfold batchLoop at e e'
    split at e
    · next hc =>
      rw [if_pos hc] at e'
      obtain ⟨s', e1, e2⟩ := Exec.bind_eq_ok e
      obtain ⟨t', e1', e2'⟩ := Exec.bind_eq_ok e'
      exact ih _ _ _ _ _ (hs _ _ _ _ _ h e1 e1') e2 e2'
    · next hc =>
      rw [if_neg hc] at e'
      cases e; cases e'; exact ⟨rfl, h⟩

theorem epoch_both {σ : Type} {o : Ops σ} (Q : σ → σ → Prop)
    (hr : ∀ s t s' t', Q s t → o.reset s = .ok s' → o.reset t = .ok t' → Q s' t')
    (hs : ∀ i s t s' t', Q s t → o.step i s = .ok s' → o.step i t = .ok t' → Q s' t')
    (ht : ∀ s t s' t', Q s t → o.train s = .ok s' → o.train t = .ok t' → Q s' t')
    (n b : Nat) : ∀ (fuel i : Nat) (s t s' t' : σ), Q s t → epoch o n b fuel i s = some (.ok s') →
      epoch o n b fuel i t = some (.ok t') → Q s' t' := by
  intro fuel
  induction fuel with
  | zero =>
    intro i s t s' t' h e e'
    unfold epoch at e e'
    split at e
    · cases e
    · next hc =>
      rw [if_neg hc] at e'
      cases e; cases e'; exact h
  | succ fuel ih =>
    intro i s t s' t' h e e'
    unfold epoch at e e'
    split at e
    · next hc =>
      rw [if_pos hc] at e'
      dsimp only at e e'
      split at e
      · rename_i i1 s1 e1
        split at e'
        · rename_i i2 t1 e1'
          unfold batch at e1 e1'
          obtain ⟨s2, f1, e1⟩ := Exec.bind_eq_ok e1
          obtain ⟨r, f2, e1⟩ := Exec.bind_eq_ok e1
          obtain ⟨s3, f3, e1⟩ := Exec.bind_eq_ok e1
          obtain ⟨t2, f1', e1'⟩ := Exec.bind_eq_ok e1'
          obtain ⟨q, f2', e1'⟩ := Exec.bind_eq_ok e1'
          obtain ⟨t3, f3', e1'⟩ := Exec.bind_eq_ok e1'
          cases e1
          cases e1'
          obtain ⟨k1, k2⟩ := batchLoop_both Q hs n _ _ _ _ _ _ (hr _ _ _ _ h f1 f1') f2 f2'
          rw [← k1] at e'
          exact ih _ _ _ _ _ (ht _ _ _ _ k2 f3 f3') e e'
        · cases e'
        · cases e'
      · cases e
      · cases e
    · next hc =>
      rw [if_neg hc] at e'
      cases e; cases e'; exact h

theorem run_both {σ : Type} {o : Ops σ} (Q : σ → σ → Prop)
    (hr : ∀ s t s' t', Q s t → o.reset s = .ok s' → o.reset t = .ok t' → Q s' t')
    (hs : ∀ i s t s' t', Q s t → o.step i s = .ok s' → o.step i t = .ok t' → Q s' t')
    (ht : ∀ s t s' t', Q s t → o.train s = .ok s' → o.train t = .ok t' → Q s' t')
    (n b fuel : Nat) : ∀ (epochs : Nat) (s t s' t' : σ), Q s t → run o n b fuel epochs s = some (.ok s') →
      run o n b fuel epochs t = some (.ok t') → Q s' t' := by
  intro epochs
  induction epochs with
  | zero => intro s t s' t' h e e'; cases e; cases e'; exact h
  | succ epochs ih =>
    intro s t s' t' h e e'
    unfold run at e e'
    split at e
    · cases e
    · rename_i s1 e1
      split at e'
      · cases e'
      · rename_i t1 e1'
        exact ih _ _ _ _ (epoch_both Q hr hs ht n b _ _ _ _ _ _ h e1 e1') e e'
      · cases e'
      · cases e'
    · cases e
    · cases e

end Training

namespace Opt

open Verif.Spec

theorem trainLoop_both {σ : Type} {opt : σ → ℝ → ℝ → σ × ℝ} (ho : RemembersGradients opt) {k : Kind} :
    ∀ (m i : Nat) (s : σ) (P P' G : List (List ℝ)), (trainLoop opt k k m i ⟨s, P, G⟩).status = .ok () →
      (trainLoop opt k k m i ⟨s, P', G⟩).status = .ok () →
      (trainLoop opt k k m i ⟨s, P, G⟩).state.opt = (trainLoop opt k k m i ⟨s, P', G⟩).state.opt ∧
      (trainLoop opt k k m i ⟨s, P, G⟩).state.grads = (trainLoop opt k k m i ⟨s, P', G⟩).state.grads
  | 0, _, _, _, _, _, _, _ => ⟨rfl, rfl⟩
  | m + 1, i, s, P, P', G, h, h' => by
    unfold trainLoop at h h' ⊢
    cases e : trainOne opt k k i ⟨s, P, G⟩ with
    | throw _ => rw [e] at h; cases h
    | ub => rw [e] at h; cases h
    | ok s1 =>
      cases e' : trainOne opt k k i ⟨s, P', G⟩ with
      | throw _ => rw [e'] at h'; cases h'
      | ub => rw [e'] at h'; cases h'
      | ok s2 =>
        rw [e] at h
        rw [e'] at h'
        dsimp only at h h' ⊢
        unfold trainOne at e e'
        obtain ⟨p, _, e⟩ := Exec.bind_eq_ok e
        obtain ⟨g, e2, e⟩ := Exec.bind_eq_ok e
        obtain ⟨Q, _, e⟩ := Exec.bind_eq_ok e
        obtain ⟨G1, e4, e⟩ := Exec.bind_eq_ok e
        obtain ⟨p', _, e'⟩ := Exec.bind_eq_ok e'
        obtain ⟨g', e2', e'⟩ := Exec.bind_eq_ok e'
        obtain ⟨Q', _, e'⟩ := Exec.bind_eq_ok e'
        obtain ⟨G1', e4', e'⟩ := Exec.bind_eq_ok e'
        cases e2.symm.trans e2'
        cases e4.symm.trans e4'
        cases e
        cases e'
        have hs : (opt s p' g).1 = (opt s p g).1 := ho s p' p g
        dsimp only at h h' ⊢
        rw [hs] at h' ⊢
        exact trainLoop_both ho m (i + 1) _ _ _ _ h h'

end Opt

namespace Net

open Verif.Graph Verif.Spec Verif.Props

noncomputable section

/-- Two layers with the same gradients, and the same altogether if they are needed. -/
structure Paired (p : Prop) (a a' : AnyLayer) : Prop where
  same : p → a' = a
  kind : a'.kind = a.kind
  grads : a'.paramGrads = a.paramGrads

theorem paired_refl (p : Prop) (a : AnyLayer) : Paired p a a := ⟨fun _ => rfl, rfl, rfl⟩

/-- Layer by layer. -/
structure PairedAll (N : Nat → Prop) (ls ls' : List AnyLayer) : Prop where
  length : ls'.length = ls.length
  twin : ∀ (i : Nat) (a a' : AnyLayer), ls[i]? = some a → ls'[i]? = some a' → Paired (N i) a a'

variable {N : Nat → Prop}

theorem PairedAll.read {ls ls' : List AnyLayer} (h : PairedAll N ls ls') {i : Nat} {a a' : AnyLayer} (e : rd ls i = .ok a)
    (e' : rd ls' i = .ok a') : Paired (N i) a a' := h.twin i a a' (some_of_rd e) (some_of_rd e')

theorem PairedAll.set {ls ls' : List AnyLayer} (h : PairedAll N ls ls') {i : Nat} {a a' : AnyLayer} (ht : Paired (N i) a a') :
    PairedAll N (ls.set i a) (ls'.set i a') := by
  refine ⟨by simp [h.length], fun j b b' e e' => ?_⟩
  by_cases hj : i = j
  · subst hj
    obtain ⟨h1, h2⟩ := List.getElem?_eq_some_iff.mp e
    obtain ⟨h1', h2'⟩ := List.getElem?_eq_some_iff.mp e'
    rw [List.getElem_set_self] at h2 h2'
    subst h2 h2'
    exact ht
  · rw [List.getElem?_set_ne hj] at e e'
    exact h.twin j b b' e e'

/-- Loops that both run to their ends. -/
theorem each_both {σ β : Type} {f : σ → β → Exec (σ × Option String)} (Q : σ → σ → Prop) : ∀ (xs : List β) (s t : σ)
    (r q : σ × Option String),
    (∀ x ∈ xs, ∀ s t r q, Q s t → f s x = .ok r → f t x = .ok q → r.2 = none → q.2 = none → Q r.1 q.1) → Q s t →
    each f xs s = .ok r → each f xs t = .ok q → r.2 = none → q.2 = none → Q r.1 q.1
  | [], s, t, r, q, _, h, e, e', _, _ => by cases e; cases e'; exact h
  | x :: xs, s, t, r, q, hf, h, e, e', n, n' => by
    unfold each at e e'
    obtain ⟨r1, f1, e⟩ := Exec.bind_eq_ok e
    obtain ⟨q1, f1', e'⟩ := Exec.bind_eq_ok e'
    split at e
    · next h1 =>
      split at e'
      · next h2 =>
        exact each_both Q xs _ _ _ _ (fun x hx => hf x (by simp [hx])) (hf x (by simp) _ _ _ _ h f1 f1' h1 h2) e e' n n'
      · cases e'; cases n'
    · cases e; cases n

theorem next_both {σ τ : Type} {r r' : Exec (σ × Option String)} {fail : σ → τ} {f : σ → Exec (τ × Option String)}
    {p p' : τ × Option String} (e : next r fail f = .ok p) (e' : next r' fail f = .ok p') (n : p.2 = none)
    (n' : p'.2 = none) : ∃ s s', r = .ok (s, none) ∧ r' = .ok (s', none) ∧ f s = .ok p ∧ f s' = .ok p' := by
  unfold next at e e'
  obtain ⟨⟨s, m⟩, h, e⟩ := Exec.bind_eq_ok e
  obtain ⟨⟨s', m'⟩, h', e'⟩ := Exec.bind_eq_ok e'
  cases m with
  | some m => cases e; cases n
  | none =>
    cases m' with
    | some m => cases e'; cases n'
    | none => exact ⟨s, s', h, h', e, e'⟩

theorem paired_forward {p : Prop} {a a' b b' : AnyLayer} {x x' : List ℝ} {m m' : Option String} (h : Paired p a a')
    (hx : p → x' = x) (e : a.forward x = .ok (b, m)) (e' : a'.forward x' = .ok (b', m')) : Paired p b b' := by
  refine ⟨fun hp => ?_, ?_, ?_⟩
  · rw [h.same hp, hx hp, e] at e'
    cases e'
    rfl
  · rw [kind_of_core (core_forward e), kind_of_core (core_forward e'), h.kind]
  · rw [(forward_blocks e).2, (forward_blocks e').2, h.grads]

theorem trainingForward_grads {a a' : AnyLayer} {x : List ℝ} {e : Option String}
    (h : a.trainingForward x = .ok (a', e)) : a'.paramGrads = a.paramGrads := by
  rcases trainingForward_cases a x with ⟨mx, raw, l, rfl⟩ | h1
  · rcases keep_ok h with rfl | ⟨l', h1, rfl, _⟩ <;> rfl
  · rw [h1] at h
    rw [(forward_blocks h).2]
    cases a <;> rfl

theorem paired_trainingForward {p : Prop} {a a' b b' : AnyLayer} {x x' : List ℝ} {m m' : Option String} (h : Paired p a a')
    (hx : p → x' = x) (e : a.trainingForward x = .ok (b, m)) (e' : a'.trainingForward x' = .ok (b', m')) :
    Paired p b b' := by
  refine ⟨fun hp => ?_, ?_, ?_⟩
  · rw [h.same hp, hx hp, e] at e'
    cases e'
    rfl
  · rw [kind_of_core (core_trainingForward e), kind_of_core (core_trainingForward e'), h.kind]
  · rw [trainingForward_grads e, trainingForward_grads e', h.grads]

theorem value_both {ls ls' : List AnyLayer} (h : PairedAll N ls ls') {x v v' : List ℝ} {s : Source}
    (hs : ∀ k, s = .output k → N k) (e : value ls x s = .ok v) (e' : value ls' x s = .ok v') : v' = v := by
  cases s with
  | external => cases e; cases e'; rfl
  | output k =>
    obtain ⟨a, h1, e⟩ := Exec.bind_eq_ok e
    obtain ⟨a', h1', e'⟩ := Exec.bind_eq_ok e'
    rw [(h.read h1 h1').same (hs k rfl), e] at e'
    cases e'
    rfl

theorem forwardAt_both {x : List ℝ} {s : Source × Nat} (hs : N s.2 → ∀ k, s.1 = .output k → N k)
    {ls ls' : List AnyLayer} {r r' : List AnyLayer × Option String} (h : PairedAll N ls ls') (e : forwardAt x ls s = .ok r)
    (e' : forwardAt x ls' s = .ok r') (n : r.2 = none) (n' : r'.2 = none) : PairedAll N r.1 r'.1 := by
  unfold forwardAt at e e'
  cases v : value ls x s.1 with
  | ub => rw [v] at e; cases e
  | throw m => rw [v] at e; cases e; cases n
  | ok y =>
    cases v' : value ls' x s.1 with
    | ub => rw [v'] at e'; cases e'
    | throw m => rw [v'] at e'; cases e'; cases n'
    | ok y' =>
      rw [v] at e
      rw [v'] at e'
      obtain ⟨a, h1, e⟩ := Exec.bind_eq_ok e
      obtain ⟨⟨b, m⟩, h2, e⟩ := Exec.bind_eq_ok e
      obtain ⟨a', h1', e'⟩ := Exec.bind_eq_ok e'
      obtain ⟨⟨b', m'⟩, h2', e'⟩ := Exec.bind_eq_ok e'
      cases e
      cases e'
      exact h.set (paired_forward (h.read h1 h1') (fun hp => value_both h (hs hp) v v') h2 h2')

/-- The states of two calls of `step`. -/
structure PairedSteps (N : Nat → Prop) (st st' : Steps) : Prop where
  layers : PairedAll N st.layers st'.layers
  from_ : st'.from_ = st.from_
  source : ∀ i k, N i → st.from_[i]? = some (some (.output k)) → N k

theorem trainAt_both {x : List ℝ} {s : Source × Nat} (hs : N s.2 → ∀ k, s.1 = .output k → N k) {st st' : Steps}
    {r r' : Steps × Option String} (h : PairedSteps N st st') (e : trainAt x st s = .ok r)
    (e' : trainAt x st' s = .ok r') (n : r.2 = none) (n' : r'.2 = none) : PairedSteps N r.1 r'.1 := by
  unfold trainAt at e e'
  cases v : value st.layers x s.1 with
  | ub => rw [v] at e; cases e
  | throw m => rw [v] at e; cases e; cases n
  | ok y =>
    cases v' : value st'.layers x s.1 with
    | ub => rw [v'] at e'; cases e'
    | throw m => rw [v'] at e'; cases e'; cases n'
    | ok y' =>
      rw [v] at e
      rw [v'] at e'
      obtain ⟨a, h1, e⟩ := Exec.bind_eq_ok e
      obtain ⟨⟨b, m⟩, h2, e⟩ := Exec.bind_eq_ok e
      obtain ⟨a', h1', e'⟩ := Exec.bind_eq_ok e'
      obtain ⟨⟨b', m'⟩, h2', e'⟩ := Exec.bind_eq_ok e'
      cases e
      cases e'
      refine ⟨h.layers.set (paired_trainingForward (h.layers.read h1 h1') (fun hp => value_both h.layers (hs hp) v v') h2 h2'),
        by dsimp only; rw [h.from_], fun i k hi hk => ?_⟩
      dsimp only at hk
      by_cases hj : s.2 = i
      · subst hj
        obtain ⟨g1, g2⟩ := List.getElem?_eq_some_iff.mp hk
        rw [List.getElem_set_self] at g2
        exact hs hi k (Option.some.inj g2)
      · rw [List.getElem?_set_ne hj] at hk
        exact h.source i k hi hk

theorem backwardAt_both {x : List ℝ} {i : Nat} (hi : N i) {g : List ℝ} {st st' : Steps}
    {r r' : Steps × Option String} (h : PairedSteps N st st') (e : backwardAt x st i g = .ok r)
    (e' : backwardAt x st' i g = .ok r') : PairedSteps N r.1 r'.1 := by
  obtain ⟨a, h1, e⟩ := Exec.bind_eq_ok e
  obtain ⟨b, h2, e⟩ := Exec.bind_eq_ok e
  obtain ⟨c, h3, e⟩ := Exec.bind_eq_ok e
  obtain ⟨a', h1', e'⟩ := Exec.bind_eq_ok e'
  obtain ⟨b', h2', e'⟩ := Exec.bind_eq_ok e'
  obtain ⟨c', h3', e'⟩ := Exec.bind_eq_ok e'
  cases e
  cases e'
  have ha : a' = a := (h.layers.read h1 h1').same hi
  subst ha
  have hb : b' = b := by
    unfold follow at h2 h2'
    rw [h.from_] at h2'
    split at h2
    · next s hs =>
      obtain ⟨v, k1, h2⟩ := Exec.bind_eq_ok h2
      rw [hs] at h2'
      obtain ⟨v', k1', h2'⟩ := Exec.bind_eq_ok h2'
      cases value_both h.layers (fun k hk => h.source i k hi (by rw [hs, hk])) k1 k1'
      cases h2
      cases h2'
      rfl
    · next hs =>
      split at h2'
      · next s hs' => exact absurd hs' (hs s)
      · cases h2; cases h2'; rfl
  subst hb
  rw [h3] at h3'
  cases h3'
  exact ⟨h.layers.set (paired_refl _ _), h.from_, h.source⟩

/-- What is needed for a layer that a loss depends on is needed. -/
structure LossClosed (g : DLGraph) (N : Nat → Prop) : Prop where
  train : ∀ a ∈ trainingArcs g, N a.2 → N a.1
  forward : ∀ a ∈ forwardArcs g, N a.2 → N a.1
  back : ∀ a ∈ backwardArcs g, N a.1 ∧ N a.2
  loss : ∀ i ∈ g.loss, N i

theorem lossClosed_built {g : DLGraph} (hj : Joined g) : LossClosed g fun i => ¬ NoLossNeeds g i := by
  have up : ∀ {x y : Nat}, trainArc g x y → ¬ NoLossNeeds g y → ¬ NoLossNeeds g x := by
    intro x y hxy hy hx
    exact hy fun q hq h => hx q hq (.head hxy h)
  refine ⟨fun a ha => up (trainingArcs_arc g a ha), fun a ha => up (hj.forward _ _ ?_), fun a ha => ?_, fun i hi h => h i hi .refl⟩
  · revert a
    unfold forwardArcs
    cases e : g.forwardRun (g.forward.length + 2) with
    | none => simp
    | some r => exact run_arcs _ _ _ _ _ r (by simp) e
  · exact ⟨fun h => (spare_arcs hj h).2 a ha |>.1 rfl, fun h => (spare_arcs hj h).2 a ha |>.2 rfl⟩

theorem step_both {n n' : Net} (hg : n'.graph = n.graph) (hc : LossClosed n.graph N) (h : PairedAll N n.layers n'.layers)
    {x t : List ℝ} {r r' : Net} (e : n.step x t = .ok (r, none)) (e' : n'.step x t = .ok (r', none)) :
    r.graph = n.graph ∧ r'.graph = n.graph ∧ PairedAll N r.layers r'.layers := by
  unfold Net.step at e e'
  rw [hg] at e'
  obtain ⟨p, f1, e⟩ := Exec.bind_eq_ok e
  obtain ⟨p', f1', e'⟩ := Exec.bind_eq_ok e'
  obtain ⟨e, n1⟩ := Prod.mk.inj (Exec.ok.inj e)
  obtain ⟨e', n1'⟩ := Prod.mk.inj (Exec.ok.inj e')
  subst e e'
  refine ⟨rfl, rfl, ?_⟩
  obtain ⟨ls, ls', k1, k1', f1, f1'⟩ := next_both f1 f1' n1 n1'
  have hl : PairedAll N ls ls' := by
    refine each_both (PairedAll N) _ _ _ _ _ ?_ h k1 k1' rfl rfl
    intro i hi s t r q hst e e' _ _
    obtain ⟨a, h1, e⟩ := Exec.bind_eq_ok e
    obtain ⟨a', h1', e'⟩ := Exec.bind_eq_ok e'
    cases (hst.read h1 h1').same (hc.loss i hi)
    cases a with
    | loss f l =>
      cases e; cases e'
      exact hst.set (paired_refl _ _)
    | _ => cases e; cases e'; exact hst
  obtain ⟨st, st', k2, k2', f1, f1'⟩ := next_both f1 f1' n1 n1'
  have hst : PairedSteps N st st' := by
    refine each_both (PairedSteps N) _ _ _ _ _ ?_ ?_ k2 k2' rfl rfl
    · intro s hs a b r q hab e e' m m'
      refine trainAt_both (fun hn k hk => ?_) hab e e' m m'
      rcases List.mem_append.mp hs with hs | hs
      · obtain ⟨_, _, rfl⟩ := List.mem_map.mp hs
        cases hk
      · obtain ⟨c, hc1, rfl⟩ := List.mem_map.mp hs
        cases hk
        exact hc.train c hc1 hn
    · refine ⟨hl, by dsimp only; rw [hl.length], fun i k _ hk => ?_⟩
      dsimp only at hk
      rw [List.getElem?_replicate] at hk
      split at hk <;> cases hk
  obtain ⟨st2, st2', k3, k3', f1, f1'⟩ := next_both f1 f1' n1 n1'
  have hst2 : PairedSteps N st2 st2' :=
    each_both (PairedSteps N) _ _ _ _ _ (fun i hi _ _ _ _ hab e e' _ _ => backwardAt_both (hc.loss i hi) hab e e') hst
      k3 k3' rfl rfl
  refine (each_both (PairedSteps N) _ _ _ _ _ ?_ hst2 f1 f1' n1 n1').layers
  intro a ha s t r q hab e e' _ _
  obtain ⟨l, h1, e⟩ := Exec.bind_eq_ok e
  obtain ⟨l', h1', e'⟩ := Exec.bind_eq_ok e'
  cases (hab.layers.read h1 h1').same (hc.back a ha).1
  exact backwardAt_both (hc.back a ha).2 hab e e'

theorem predict_both {n n' : Net} (hg : n'.graph = n.graph) (hc : LossClosed n.graph N) (h : PairedAll N n.layers n'.layers)
    {x y y' : List ℝ} {r r' : Net} (e : n.predict x = .ok (r, .ok y)) (e' : n'.predict x = .ok (r', .ok y')) :
    r.graph = n.graph ∧ r'.graph = n.graph ∧ PairedAll N r.layers r'.layers ∧
      ∀ o, n.graph.outputs.head? = some o → N o → y' = y := by
  unfold Net.predict at e e'
  rw [hg] at e'
  cases ho : n.graph.outputs with
  | nil => rw [ho] at e; cases e
  | cons o os =>
    rw [ho] at e e'
    obtain ⟨p, f1, e⟩ := Exec.bind_eq_ok e
    obtain ⟨p', f1', e'⟩ := Exec.bind_eq_ok e'
    dsimp only at e e'
    split at e
    · cases e
    · next n1 =>
      split at e'
      · cases e'
      · next n1' =>
        have ht : PairedAll N p.1 p'.1 := by
          refine each_both (PairedAll N) _ _ _ _ _ ?_ h f1 f1' n1 n1'
          intro s hs a b r q hab e e' m m'
          refine forwardAt_both (fun hn k hk => ?_) hab e e' m m'
          rcases List.mem_append.mp hs with hs | hs
          · obtain ⟨_, _, rfl⟩ := List.mem_map.mp hs
            cases hk
          · obtain ⟨c, hc1, rfl⟩ := List.mem_map.mp hs
            cases hk
            exact hc.forward c hc1 hn
        obtain ⟨l, g1, e⟩ := Exec.bind_eq_ok e
        obtain ⟨l', g1', e'⟩ := Exec.bind_eq_ok e'
        split at e
        · next v hv =>
          split at e'
          · next v' hv' =>
            cases e
            cases e'
            refine ⟨rfl, rfl, ht, fun o' ho' hn => ?_⟩
            cases ho'
            rw [(ht.read g1 g1').same hn, hv] at hv'
            cases hv'
            rfl
          · cases e'
          · cases e'
        · cases e
        · cases e

theorem grads_set {a a' : AnyLayer} (hk : a'.kind = a.kind) (hg : a'.paramGrads = a.paramGrads)
    (P P' G : List (List ℝ)) :
    ((a'.setParams P').setParamGrads G).paramGrads = ((a.setParams P).setParamGrads G).paramGrads := by
  have key : ∀ a b : AnyLayer, b.kind = a.kind → b.paramGrads = a.paramGrads →
      (b.setParamGrads G).paramGrads = (a.setParamGrads G).paramGrads := by
    intro a b hk hg
    have d : ∀ l, ((AnyLayer.dense l).setParamGrads G).paramGrads
        = if G.length = 2 then G else (AnyLayer.dense l).paramGrads := by
      intro l
      match G with
      | [] => rfl
      | [_] => rfl
      | [_, _] => rfl
      | _ :: _ :: _ :: G => rw [if_neg (by simp)]; rfl
    have c : ∀ l, ((AnyLayer.conv l).setParamGrads G).paramGrads
        = if G.length = 2 then G else (AnyLayer.conv l).paramGrads := by
      intro l
      match G with
      | [] => rfl
      | [_] => rfl
      | [_, _] => rfl
      | _ :: _ :: _ :: G => rw [if_neg (by simp)]; rfl
    have r : ∀ f f1 l, ((AnyLayer.rnn f f1 l).setParamGrads G).paramGrads
        = if G.length = 5 then G else (AnyLayer.rnn f f1 l).paramGrads := by
      intro f f1 l
      match G with
      | [] => rfl
      | [_] => rfl
      | [_, _] => rfl
      | [_, _, _] => rfl
      | [_, _, _, _] => rfl
      | [_, _, _, _, _] => rfl
      | _ :: _ :: _ :: _ :: _ :: _ :: G => rw [if_neg (by simp)]; rfl
    cases a <;> cases b <;> first | (cases hk; done) | rfl | rw [d, d, hg] | rw [c, c, hg] | rw [r, r, hg]
  exact key _ _ (by rw [kind_setParams, kind_setParams, hk]) (by rw [paramGrads_setParams, paramGrads_setParams, hg])

theorem kind_setGrads (a : AnyLayer) (gs : List (List ℝ)) : (a.setParamGrads gs).kind = a.kind := by
  unfold AnyLayer.setParamGrads
  split <;> rfl

theorem train_both {σ : Type} {opt : σ → ℝ → ℝ → σ × ℝ} (ho : RemembersGradients opt) {p : Prop} {a a' : AnyLayer}
    (h : Paired p a a') (s : σ) (e : (a.train opt s).2 = .ok ()) (e' : (a'.train opt s).2 = .ok ()) :
    (a'.train opt s).1.1 = (a.train opt s).1.1 ∧ Paired p (a.train opt s).1.2 (a'.train opt s).1.2 := by
  unfold AnyLayer.train Opt.trainSelf at e e' ⊢
  dsimp only at e e' ⊢
  rw [h.kind, h.grads] at e' ⊢
  obtain ⟨k1, k2⟩ := Opt.trainLoop_both ho (k := a.kind) a.kind.paramCount 0 s a'.params a.params a.paramGrads e' e
  refine ⟨k1, fun hp => ?_, ?_, ?_⟩
  · rw [h.same hp]
  · rw [kind_setGrads, kind_setParams, kind_setGrads, kind_setParams, h.kind]
  · rw [k2]
    exact grads_set h.kind h.grads _ _ _

theorem trainLayers_both {σ : Type} {opt : σ → ℝ → ℝ → σ × ℝ} (ho : RemembersGradients opt) :
    ∀ (ls ls' : List AnyLayer) (N : Nat → Prop) (s : σ), PairedAll N ls ls' → (trainLayers opt s ls).2 = .ok () →
      (trainLayers opt s ls').2 = .ok () →
      (trainLayers opt s ls').1.1 = (trainLayers opt s ls).1.1 ∧
        PairedAll N (trainLayers opt s ls).1.2 (trainLayers opt s ls').1.2
  | [], [], N, s, h, _, _ => ⟨rfl, h⟩
  | [], _ :: _, N, s, h, _, _ => by cases h.length
  | _ :: _, [], N, s, h, _, _ => by cases h.length
  | a :: ls, a' :: ls', N, s, h, e, e' => by
    unfold trainLayers at e e' ⊢
    have h0 := h.twin 0 a a' rfl rfl
    have ht : PairedAll (fun i => N (i + 1)) ls ls' :=
      ⟨by simpa using h.length, fun i b b' hb hb' => h.twin (i + 1) b b' hb hb'⟩
    cases hr : a.train opt s with
    | mk u m =>
      cases hr' : a'.train opt s with
      | mk u' m' =>
        rw [hr] at e
        rw [hr'] at e'
        cases m with
        | throw _ => cases e
        | ub => cases e
        | ok _ =>
          cases m' with
          | throw _ => cases e'
          | ub => cases e'
          | ok _ =>
            obtain ⟨k1, k2⟩ := train_both ho h0 s (by rw [hr]) (by rw [hr'])
            rw [hr, hr'] at k1 k2
            obtain ⟨s1, b⟩ := u
            obtain ⟨s1', b'⟩ := u'
            dsimp only at k1 k2 e e' ⊢
            subst k1
            obtain ⟨k3, k4⟩ := trainLayers_both ho ls ls' _ _ ht e e'
            refine ⟨k3, by simp [k4.length], fun i c c' hc hc' => ?_⟩
            match i with
            | 0 => cases hc; cases hc'; exact k2
            | i + 1 => exact k4.twin i c c' hc hc'

theorem reset_both {n n' : Net} (hg : n'.graph = n.graph) (hc : LossClosed n.graph N) (h : PairedAll N n.layers n'.layers) :
    PairedAll N n.resetScore.layers n'.resetScore.layers := by
  have one : ∀ (i : Nat) (a : AnyLayer), (match a with
      | .loss f l => if n.graph.loss.contains i then .loss f l.resetScore else a
      | a => a : AnyLayer).kind = a.kind ∧ (match a with
      | .loss f l => if n.graph.loss.contains i then .loss f l.resetScore else a
      | a => a : AnyLayer).paramGrads = a.paramGrads := by
    intro i a
    cases a with
    | loss f l => dsimp only; split <;> exact ⟨rfl, rfl⟩
    | _ => exact ⟨rfl, rfl⟩
  unfold Net.resetScore
  rw [hg]
  refine ⟨by simp [h.length], fun i a a' e e' => ?_⟩
  dsimp only at e e'
  rw [List.getElem?_mapIdx, Option.map_eq_some_iff] at e e'
  obtain ⟨b, e, rfl⟩ := e
  obtain ⟨b', e', rfl⟩ := e'
  have ht := h.twin i b b' e e'
  exact ⟨fun hp => by rw [ht.same hp], (one i b').1.trans (ht.kind.trans (one i b).1.symm),
    (one i b').2.trans (ht.grads.trans (one i b).2.symm)⟩

/-- Two models. -/
structure PairedNets (N : Nat → Prop) (g : DLGraph) (n n' : Net) : Prop where
  graph : n.graph = g
  graph' : n'.graph = g
  layers : PairedAll N n.layers n'.layers

theorem serve_both {σ : Type} {opt : σ → ℝ → ℝ → σ × ℝ} (ho : RemembersGradients opt) {g : DLGraph} (hc : LossClosed g N) :
    ∀ (cs : List UserCall) (s : σ) (n n' : Net) (r r' : σ × Net), PairedNets N g n n' → serve opt cs (s, n) = .ok r →
      serve opt cs (s, n') = .ok r' → r'.1 = r.1 ∧ PairedNets N g r.2 r'.2
  | [], s, n, n', r, r', h, e, e' => by cases e; cases e'; exact ⟨rfl, h⟩
  | .predict x :: cs, s, n, n', r, r', h, e, e' => by
    unfold serve at e e'
    obtain ⟨⟨p, y⟩, f1, e⟩ := Exec.bind_eq_ok e
    obtain ⟨⟨p', y'⟩, f1', e'⟩ := Exec.bind_eq_ok e'
    cases y with
    | error m => cases e
    | ok y =>
      cases y' with
      | error m => cases e'
      | ok y' =>
        obtain ⟨k1, k2, k3, _⟩ := predict_both (h.graph'.trans h.graph.symm) (h.graph ▸ hc) h.layers f1 f1'
        exact serve_both ho hc cs s p p' r r' ⟨k1.trans h.graph, k2.trans h.graph, k3⟩ e e'
  | .resetScore :: cs, s, n, n', r, r', h, e, e' => by
    unfold serve at e e'
    exact serve_both ho hc cs s n.resetScore n'.resetScore r r'
      ⟨h.graph, h.graph', reset_both (h.graph'.trans h.graph.symm) (h.graph ▸ hc) h.layers⟩ e e'
  | .step x t :: cs, s, n, n', r, r', h, e, e' => by
    unfold serve at e e'
    obtain ⟨⟨p, m⟩, f1, e⟩ := Exec.bind_eq_ok e
    obtain ⟨⟨p', m'⟩, f1', e'⟩ := Exec.bind_eq_ok e'
    cases m with
    | some m => cases e
    | none =>
      cases m' with
      | some m => cases e'
      | none =>
        obtain ⟨k1, k2, k3⟩ := step_both (h.graph'.trans h.graph.symm) (h.graph ▸ hc) h.layers f1 f1'
        exact serve_both ho hc cs s p p' r r' ⟨k1.trans h.graph, k2.trans h.graph, k3⟩ e e'
  | .train :: cs, s, n, n', r, r', h, e, e' => by
    unfold serve at e e'
    obtain ⟨u, f1, e⟩ := Exec.bind_eq_ok e
    obtain ⟨u', f1', e'⟩ := Exec.bind_eq_ok e'
    obtain ⟨k1, k2⟩ := trainLayers_both ho n.layers n'.layers N s h.layers f1 f1'
    have e2 : serve opt cs ((trainLayers opt s n.layers).1.1, { n' with layers := (trainLayers opt s n'.layers).1.2 })
        = .ok r' := by rw [← k1]; exact e'
    exact serve_both ho hc cs _ { n with layers := (trainLayers opt s n.layers).1.2 }
      { n' with layers := (trainLayers opt s n'.layers).1.2 } r r' ⟨h.graph, h.graph', k2⟩ e e2

theorem fit_both {σ : Type} {opt : σ → ℝ → ℝ → σ × ℝ} (ho : RemembersGradients opt) {g : DLGraph} (hc : LossClosed g N)
    {d : Data.Dataset ℝ} {fuel epochs b : Nat} {s : σ} {n n' : Net} {r r' : σ × Net} (h : PairedNets N g n n')
    (e : Training.fit opt d fuel epochs b (s, n) = some (.ok r))
    (e' : Training.fit opt d fuel epochs b (s, n') = some (.ok r')) : r'.1 = r.1 ∧ PairedNets N g r.2 r'.2 := by
  refine Training.run_both (fun u v => v.1 = u.1 ∧ PairedNets N g u.2 v.2) ?_ ?_ ?_ _ _ _ _ _ _ _ _ ⟨rfl, h⟩ e e'
  · rintro ⟨s, n⟩ ⟨s', n'⟩ u v ⟨h1, h⟩ e e'
    cases e
    cases e'
    exact ⟨h1, h.graph, h.graph', reset_both (h.graph'.trans h.graph.symm) (h.graph ▸ hc) h.layers⟩
  · rintro k ⟨s, n⟩ ⟨s', n'⟩ u v ⟨h1, h⟩ e e'
    obtain ⟨x, f1, e⟩ := Exec.bind_eq_ok e
    obtain ⟨t, f2, e⟩ := Exec.bind_eq_ok e
    obtain ⟨m, f3, e⟩ := Exec.bind_eq_ok e
    obtain ⟨x', f1', e'⟩ := Exec.bind_eq_ok e'
    obtain ⟨t', f2', e'⟩ := Exec.bind_eq_ok e'
    obtain ⟨m', f3', e'⟩ := Exec.bind_eq_ok e'
    cases e
    cases e'
    cases f1.symm.trans f1'
    cases f2.symm.trans f2'
    unfold Training.raise at f3 f3'
    obtain ⟨⟨p, q⟩, g1, f3⟩ := Exec.bind_eq_ok f3
    obtain ⟨⟨p', q'⟩, g1', f3'⟩ := Exec.bind_eq_ok f3'
    cases q with
    | some _ => cases f3
    | none =>
      cases q' with
      | some _ => cases f3'
      | none =>
        cases f3
        cases f3'
        obtain ⟨k1, k2, k3⟩ := step_both (h.graph'.trans h.graph.symm) (h.graph ▸ hc) h.layers g1 g1'
        exact ⟨h1, k1.trans h.graph, k2.trans h.graph, k3⟩
  · rintro ⟨s, n⟩ ⟨s', n'⟩ u v ⟨h1, h⟩ e e'
    dsimp only at h1
    subst h1
    obtain ⟨_, f1, e⟩ := Exec.bind_eq_ok e
    obtain ⟨_, f1', e'⟩ := Exec.bind_eq_ok e'
    cases e
    cases e'
    obtain ⟨k1, k2⟩ := trainLayers_both ho n.layers n'.layers N s' h.layers f1 f1'
    exact ⟨k1, h.graph, h.graph', k2⟩

end

end Net

end Verif
