import Mathlib.Algebra.BigOperators.Fin
import Verif.Spec.Reorder
import Verif.Proofs.Aside
import Verif.Props.Dense

/-! Proofs for C115. -/

namespace Verif

namespace Training

/-! Two runs, of which the second returns if the first does. -/

theorem batchLoop_follows {σ : Type} {o o' : Ops σ} (Q : σ → σ → Prop)
    (hs : ∀ i s t s', Q s t → o.step i s = .ok s' → ∃ t', o'.step i t = .ok t' ∧ Q s' t') (n : Nat) :
    ∀ (left i : Nat) (s t : σ) (r : Nat × σ), Q s t → batchLoop o n left i s = .ok r →
      ∃ q, batchLoop o' n left i t = .ok (r.1, q) ∧ Q r.2 q := by
  intro left
  induction left with
  | zero => intro i s t r h e; cases e; exact ⟨t, rfl, h⟩
  | succ left ih =>
    intro i s t r h e
    unfold batchLoop at e ⊢
    split at e
    · next hc =>
      rw [if_pos hc]
      obtain ⟨s', e1, e2⟩ := Exec.bind_eq_ok e
      obtain ⟨t', h1, h2⟩ := hs _ _ _ _ h e1
      rw [h1]
      exact ih _ _ _ _ h2 e2
    · next hc =>
      rw [if_neg hc]
      cases e
      exact ⟨t, rfl, h⟩

theorem epoch_follows {σ : Type} {o o' : Ops σ} (Q : σ → σ → Prop)
    (hr : ∀ s t s', Q s t → o.reset s = .ok s' → ∃ t', o'.reset t = .ok t' ∧ Q s' t')
    (hs : ∀ i s t s', Q s t → o.step i s = .ok s' → ∃ t', o'.step i t = .ok t' ∧ Q s' t')
    (ht : ∀ s t s', Q s t → o.train s = .ok s' → ∃ t', o'.train t = .ok t' ∧ Q s' t')
    (n b : Nat) : ∀ (fuel i : Nat) (s t s' : σ), Q s t → epoch o n b fuel i s = some (.ok s') →
      ∃ t', epoch o' n b fuel i t = some (.ok t') ∧ Q s' t' := by
  intro fuel
  induction fuel with
  | zero =>
    intro i s t s' h e
    unfold epoch at e ⊢
    split at e
    · cases e
    · next hc =>
      rw [if_neg hc]
      cases e
      exact ⟨t, rfl, h⟩
  | succ fuel ih =>
    intro i s t s' h e
    unfold epoch at e ⊢
    split at e
    · next hc =>
      rw [if_pos hc]
      dsimp only at e ⊢
      split at e
      · rename_i i1 s1 e1
        unfold batch at e1 ⊢
        obtain ⟨s2, f1, e1⟩ := Exec.bind_eq_ok e1
        obtain ⟨r, f2, e1⟩ := Exec.bind_eq_ok e1
        obtain ⟨s3, f3, e1⟩ := Exec.bind_eq_ok e1
        cases e1
        obtain ⟨t2, g1, g2⟩ := hr _ _ _ h f1
        obtain ⟨q, g3, g4⟩ := batchLoop_follows Q hs n _ _ _ _ _ g2 f2
        obtain ⟨t3, g5, g6⟩ := ht _ _ _ g4 f3
        rw [g1, Exec.bind_ok, g3, Exec.bind_ok]
        dsimp only
        rw [g5, Exec.bind_ok]
        exact ih _ _ _ _ g6 e
      · cases e
      · cases e
    · next hc =>
      rw [if_neg hc]
      cases e
      exact ⟨t, rfl, h⟩

theorem run_follows {σ : Type} {o o' : Ops σ} (Q : σ → σ → Prop)
    (hr : ∀ s t s', Q s t → o.reset s = .ok s' → ∃ t', o'.reset t = .ok t' ∧ Q s' t')
    (hs : ∀ i s t s', Q s t → o.step i s = .ok s' → ∃ t', o'.step i t = .ok t' ∧ Q s' t')
    (ht : ∀ s t s', Q s t → o.train s = .ok s' → ∃ t', o'.train t = .ok t' ∧ Q s' t')
    (n b fuel : Nat) : ∀ (epochs : Nat) (s t s' : σ), Q s t → run o n b fuel epochs s = some (.ok s') →
      ∃ t', run o' n b fuel epochs t = some (.ok t') ∧ Q s' t' := by
  intro epochs
  induction epochs with
  | zero => intro s t s' h e; cases e; exact ⟨t, rfl, h⟩
  | succ epochs ih =>
    intro s t s' h e
    unfold run at e ⊢
    split at e
    · cases e
    · rename_i s1 e1
      obtain ⟨t1, g1, g2⟩ := epoch_follows Q hr hs ht n b _ _ _ _ _ h e1
      rw [g1]
      exact ih _ _ _ g2 e
    · cases e
    · cases e

end Training

namespace Dense

open Verif.Spec Verif.Props

theorem rd_val {l : List ℝ} {i : Nat} {v : ℝ} (h : rd l i = .ok v) : i < l.length ∧ v = vec l i := by
  by_cases hi : i < l.length
  · rw [rd_vec hi] at h
    exact ⟨hi, (Exec.ok.inj h).symm⟩
  · have := Net.some_of_rd h
    rw [List.getElem?_eq_none (by omega)] at this
    cases this

theorem wr_val {l l' : List ℝ} {i : Nat} {v : ℝ} (h : wr l i v = .ok l') : i < l.length ∧ l' = l.set i v := by
  unfold wr at h
  split at h
  · next hi => exact ⟨hi, (Exec.ok.inj h).symm⟩
  · cases h

theorem eq_of_vec {l l' : List ℝ} (hl : l'.length = l.length) (h : ∀ i, i < l.length → vec l' i = vec l i) : l' = l := by
  rw [eq_tab l, eq_tab l', hl]
  exact tab_congr h

theorem cell_inj {k r c i j : Nat} (hc : c < k) (hj : j < k) : r * k + c = i * k + j ↔ r = i ∧ c = j := by
  constructor
  · intro h
    have h1 := congrArg (· / k) h
    have h2 := congrArg (· % k) h
    have hk : 0 < k := by omega
    simp only [Nat.mul_comm r k, Nat.mul_comm i k, Nat.mul_add_div hk, Nat.mul_add_mod, Nat.div_eq_of_lt hc,
      Nat.div_eq_of_lt hj, Nat.mod_eq_of_lt hc, Nat.mod_eq_of_lt hj] at h1 h2
    exact ⟨by omega, h2⟩
  · rintro ⟨rfl, rfl⟩; rfl

/-- What the inner loop of the backward pass has done after `j` columns of row `i`. -/
structure Inner (k i : Nat) (g x : List ℝ) (s0 : Grads ℝ) (j : Nat) (s : Grads ℝ) : Prop where
  bias : s.bias = s0.bias
  length : s.weight.length = s0.weight.length
  value : ∀ r c, c < k → vec s.weight (r * k + c) = vec s0.weight (r * k + c) + if r = i ∧ c < j then vec g i * vec x c else 0

/-- What the outer loop has done after `i` rows. -/
structure Outer (k : Nat) (g x : List ℝ) (s0 : Grads ℝ) (i : Nat) (s : Grads ℝ) : Prop where
  blen : s.bias.length = s0.bias.length
  bval : ∀ r, vec s.bias r = vec s0.bias r + if r < i then vec g r else 0
  length : s.weight.length = s0.weight.length
  value : ∀ r c, c < k → vec s.weight (r * k + c) = vec s0.weight (r * k + c) + if r < i then vec g r * vec x c else 0

theorem always_dense1 (s0 : Grads ℝ) (g x w : List ℝ) (k m : Nat) : (dense1 s0 g x w k m).Always (Outer k g x s0 m) := by
  unfold dense1
  refine Exec.Always.bind (Exec.always_true _) fun ig _ => ?_
  refine always_forUp (Outer k g x s0) ⟨rfl, fun r => by simp, rfl, fun r c _ => by simp⟩ fun i s _ hs => ?_
  intro s2 h
  obtain ⟨b, h1, h⟩ := Exec.bind_eq_ok h
  obtain ⟨gi, h2, h⟩ := Exec.bind_eq_ok h
  obtain ⟨bg, h3, h⟩ := Exec.bind_eq_ok h
  obtain ⟨p1, k1⟩ := rd_val h1
  obtain ⟨p2, k2⟩ := rd_val h2
  obtain ⟨p3, k3⟩ := wr_val h3
  rw [k3, k1, k2] at h
  have key := always_forUp (n := k) (Inner k i g x { s with bias := s.bias.set i (vec s.bias i + vec g i) })
    (s := { s with bias := s.bias.set i (vec s.bias i + vec g i) }) ⟨rfl, rfl, fun r c _ => by simp⟩ (fun j s1 hj hs1 => by
      intro s3 e
      obtain ⟨wg0, e1, e⟩ := Exec.bind_eq_ok e
      obtain ⟨gi, e2, e⟩ := Exec.bind_eq_ok e
      obtain ⟨xj, e3, e⟩ := Exec.bind_eq_ok e
      obtain ⟨wg, e4, e⟩ := Exec.bind_eq_ok e
      obtain ⟨ig0, e5, e⟩ := Exec.bind_eq_ok e
      obtain ⟨wj, e6, e⟩ := Exec.bind_eq_ok e
      obtain ⟨ig, e7, e⟩ := Exec.bind_eq_ok e
      cases e
      obtain ⟨q1, rfl⟩ := rd_val e1
      obtain ⟨q2, rfl⟩ := rd_val e2
      obtain ⟨q3, rfl⟩ := rd_val e3
      obtain ⟨q4, rfl⟩ := wr_val e4
      refine ⟨hs1.bias, ?_, fun r c hc => ?_⟩
      · dsimp only
        rw [List.length_set]
        exact hs1.length
      · dsimp only
        rw [Net.vec_set q4]
        by_cases hrc : r = i ∧ c = j
        · obtain ⟨rfl, rfl⟩ := hrc
          rw [if_pos rfl, hs1.value r c hc]
          simp
        · rw [if_neg (fun h => hrc ((cell_inj hc hj).mp h)), hs1.value r c hc]
          congr 1
          refine if_congr ?_ rfl rfl
          constructor
          · intro q; exact ⟨q.1, by omega⟩
          · intro q
            refine ⟨q.1, ?_⟩
            have : c ≠ j := fun h => hrc ⟨q.1, h⟩
            omega) _ h
  refine ⟨?_, fun r => ?_, key.length.trans hs.length, fun r c hc => ?_⟩
  · rw [key.bias]
    dsimp only
    rw [List.length_set]
    exact hs.blen
  · rw [key.bias]
    dsimp only
    rw [Net.vec_set p1]
    by_cases hr : r = i
    · subst hr
      rw [if_pos rfl, hs.bval r]
      simp
    · rw [if_neg hr, hs.bval r]
      congr 1
      exact if_congr (by omega) rfl rfl
  · rw [key.value r c hc]
    dsimp only
    rw [hs.value r c hc]
    by_cases hr : r = i
    · subst hr
      simp [hc]
    · rw [if_neg (fun h : r = i ∧ c < k => hr h.1), add_zero]
      congr 1
      exact if_congr (by omega) rfl rfl

/-- Loops of which the second returns if the first does. -/
theorem forFrom_follows {σ : Type} {f f' : Nat → σ → Exec σ} (R : σ → σ → Prop)
    (hf : ∀ i s t s', R s t → f i s = .ok s' → ∃ t', f' i t = .ok t' ∧ R s' t') :
    ∀ (n i : Nat) (s t s' : σ), R s t → forFrom i n s f = .ok s' → ∃ t', forFrom i n t f' = .ok t' ∧ R s' t'
  | 0, _, s, t, _, h, e => by cases e; exact ⟨t, rfl, h⟩
  | n + 1, i, s, t, s', h, e => by
    obtain ⟨s1, e1, e⟩ := Exec.bind_eq_ok e
    obtain ⟨t1, h1, h2⟩ := hf i s t s1 h e1
    obtain ⟨t', h3, h4⟩ := forFrom_follows R hf n (i + 1) s1 t1 s' h2 e
    refine ⟨t', ?_, h4⟩
    unfold forFrom
    rw [h1]
    exact h3

theorem rd_follows {l l' : List ℝ} (h : l'.length = l.length) {i : Nat} {v : ℝ} (e : rd l i = .ok v) :
    ∃ v', rd l' i = .ok v' := ⟨_, rd_vec (by rw [h]; exact (rd_val e).1)⟩

theorem wr_follows {l l' r : List ℝ} (h : l'.length = l.length) {i : Nat} {v : ℝ} (v' : ℝ) (e : wr l i v = .ok r) :
    ∃ r', wr l' i v' = .ok r' ∧ r'.length = r.length := by
  obtain ⟨h1, rfl⟩ := wr_val e
  refine ⟨l'.set i v', ?_, by simp [h]⟩
  unfold wr
  rw [if_pos (by omega)]

/-- Buffers of the same lengths. -/
structure SameLengths (s s' : Grads ℝ) : Prop where
  input : s'.input.length = s.input.length
  weight : s'.weight.length = s.weight.length
  bias : s'.bias.length = s.bias.length

/-- Whether the backward pass returns depends on lengths only. -/
theorem dense1_follows {s s' r : Grads ℝ} {g x x' w w' : List ℝ} {k m : Nat} (hs : SameLengths s s')
    (hx : x'.length = x.length) (hw : w'.length = w.length) (e : dense1 s g x w k m = .ok r) :
    ∃ r', dense1 s' g x' w' k m = .ok r' ∧ SameLengths r r' := by
  unfold dense1 at e ⊢
  obtain ⟨ig, e1, e⟩ := Exec.bind_eq_ok e
  have hfill : ∃ ig', fill s'.input k 0 = .ok ig' ∧ ig'.length = ig.length := by
    refine forFrom_follows (fun a b : List ℝ => b.length = a.length) (fun i a b c h e => ?_) k 0 _ _ _ hs.input e1
    exact wr_follows h 0 e
  obtain ⟨ig', f1, f2⟩ := hfill
  rw [f1]
  refine forFrom_follows SameLengths (fun i s t s' h e => ?_) m 0 { s with input := ig } { s' with input := ig' } _
    ⟨f2, hs.weight, hs.bias⟩ e
  obtain ⟨b, h1, e⟩ := Exec.bind_eq_ok e
  obtain ⟨gi, h2, e⟩ := Exec.bind_eq_ok e
  obtain ⟨bg, h3, e⟩ := Exec.bind_eq_ok e
  obtain ⟨b', h1'⟩ := rd_follows h.bias h1
  obtain ⟨bg', h3', h4⟩ := wr_follows h.bias (b' + gi) h3
  rw [h1', h2, Exec.bind_ok, Exec.bind_ok, h3', Exec.bind_ok]
  refine forFrom_follows SameLengths (fun j s t s' h e => ?_) k 0 { s with bias := bg } { t with bias := bg' } _
    ⟨h.input, h.weight, h4⟩ e
  obtain ⟨wg0, e1, e⟩ := Exec.bind_eq_ok e
  obtain ⟨gj, e2, e⟩ := Exec.bind_eq_ok e
  obtain ⟨xj, e3, e⟩ := Exec.bind_eq_ok e
  obtain ⟨wg, e4, e⟩ := Exec.bind_eq_ok e
  obtain ⟨ig0, e5, e⟩ := Exec.bind_eq_ok e
  obtain ⟨wj, e6, e⟩ := Exec.bind_eq_ok e
  obtain ⟨ig, e7, e⟩ := Exec.bind_eq_ok e
  cases e
  have hgj : gj = gi := Exec.ok.inj (e2.symm.trans h2)
  rw [hgj] at e4 e7
  obtain ⟨wg0', e1'⟩ := rd_follows h.weight e1
  obtain ⟨xj', e3'⟩ := rd_follows hx e3
  obtain ⟨wg', e4', q4⟩ := wr_follows h.weight (wg0' + gi * xj') e4
  obtain ⟨ig0', e5'⟩ := rd_follows h.input e5
  obtain ⟨wj', e6'⟩ := rd_follows hw e6
  obtain ⟨ig', e7', q7⟩ := wr_follows h.input (ig0' + gi * wj') e7
  rw [e1', Exec.bind_ok, Exec.bind_ok, e3', Exec.bind_ok, e4', Exec.bind_ok, e5', Exec.bind_ok, e6', Exec.bind_ok,
    e7', Exec.bind_ok]
  exact ⟨_, rfl, q7, q4, h.bias⟩

variable {k : Nat} {π : Equiv.Perm (Fin k)} {l l' b : Layer ℝ}

theorem reordered_backward (h : Reordered π l l') {g : List ℝ} (e : l.backward g = .ok b) :
    ∃ b', l'.backward g = .ok b' ∧ Reordered π b b' := by
  obtain ⟨s, e1, e⟩ := Exec.bind_eq_ok e
  cases e
  rw [h.inputSize.1] at e1
  obtain ⟨s', e1', hs⟩ := dense1_follows (s' := l'.grads) (x' := l'.lastInput) (w' := l'.weights)
    ⟨h.inputGradients, by rw [h.gradients.1, h.gradients.2.1], by rw [h.biasGradients.2]⟩ h.lastInput.1
    (by rw [h.weights.1, h.weights.2.1]) e1
  have o := always_dense1 _ _ _ _ _ _ s e1
  have o' := always_dense1 _ _ _ _ _ _ s' e1'
  refine ⟨{ l' with grads := s' }, ?_, h.inputSize, h.outputSize, h.weights,
    ⟨o.length.trans h.gradients.1, o'.length.trans h.gradients.2.1, fun i hi j => ?_⟩,
    h.biases, ⟨o.blen.trans h.biasGradients.1, eq_of_vec hs.bias fun i _ => ?_⟩, h.output, h.lastInput, hs.input⟩
  · unfold Layer.backward
    rw [h.inputSize.2, e1']
    rfl
  · rw [mat_eq_vec, mat_eq_vec]
    dsimp only
    rw [o.value i _ (π j).2, o'.value i _ j.2, h.lastInput.2 j, ← mat_eq_vec, ← mat_eq_vec, h.gradients.2.2 i hi j]
  · dsimp only
    rw [o.bval, o'.bval, h.biasGradients.2]

theorem reordered_forward (h : Reordered π l l') {x x' : List ℝ} (hx : PermutedSample π x x') (e : l.forward x = .ok b) :
    ∃ b', l'.forward x' = .ok b' ∧ Reordered π b b' := by
  rw [C04_layer_forward l x (by rw [hx.1, h.inputSize.1]) h.output.1 (by rw [h.weights.1, h.inputSize.1]) h.biases.1] at e
  rw [C04_layer_forward l' x' (by rw [hx.2.1, h.inputSize.2]) (by rw [h.output.2, h.output.1, h.outputSize])
    (by rw [h.weights.2.1, h.inputSize.2, h.outputSize]) (by rw [h.biases.2, h.biases.1, h.outputSize])]
  cases e
  refine ⟨_, rfl, h.inputSize, h.outputSize, h.weights, h.gradients, h.biases, h.biasGradients, ⟨by simp [tab], ?_⟩,
    h.lastInput, h.inputGradients⟩
  dsimp only
  rw [h.outputSize, h.inputSize.1, h.inputSize.2, h.biases.2]
  refine tab_congr fun i hi => ?_
  unfold affine
  congr 1
  rw [Finset.sum_range, Finset.sum_range, ← Equiv.sum_comp π fun j : Fin k => mat l.weights k i j * vec x j]
  exact Finset.sum_congr rfl fun j _ => by rw [h.weights.2.2 i hi j, hx.2.2 j]

theorem reordered_input (h : Reordered π l l') {x x' : List ℝ} (hx : PermutedSample π x x') :
    Reordered π { l with lastInput := x } { l' with lastInput := x' } :=
  ⟨h.inputSize, h.outputSize, h.weights, h.gradients, h.biases, h.biasGradients, h.output,
    ⟨hx.2.1.trans hx.1.symm, hx.2.2⟩, h.inputGradients⟩

end Dense

namespace Net

open Verif.Graph Verif.Spec Verif.Props

noncomputable section

variable {k : Nat} {π : Equiv.Perm (Fin k)} {N : Nat → Prop}

/-- Two layers: in another order if they get the samples, and the same otherwise. -/
structure Turned (π : Equiv.Perm (Fin k)) (p : Prop) (a a' : AnyLayer) : Prop where
  input : p → ∃ l l', a = .dense l ∧ a' = .dense l' ∧ Reordered π l l'
  other : ¬ p → a' = a

/-- Layer by layer. -/
structure TurnedAll (π : Equiv.Perm (Fin k)) (N : Nat → Prop) (ls ls' : List AnyLayer) : Prop where
  length : ls'.length = ls.length
  twin : ∀ (i : Nat) (a a' : AnyLayer), ls[i]? = some a → ls'[i]? = some a' → Turned π (N i) a a'

theorem TurnedAll.read {ls ls' : List AnyLayer} (h : TurnedAll π N ls ls') {i : Nat} {a : AnyLayer}
    (e : rd ls i = .ok a) : ∃ a', rd ls' i = .ok a' ∧ Turned π (N i) a a' := by
  have hi : i < ls.length := by
    obtain ⟨h1, _⟩ := List.getElem?_eq_some_iff.mp (some_of_rd e)
    exact h1
  have hi' : i < ls'.length := by rw [h.length]; exact hi
  exact ⟨ls'[i], rd_ok hi', h.twin i _ _ (some_of_rd e) (List.getElem?_eq_getElem hi')⟩

theorem TurnedAll.set {ls ls' : List AnyLayer} (h : TurnedAll π N ls ls') {i : Nat} {a a' : AnyLayer}
    (ht : Turned π (N i) a a') : TurnedAll π N (ls.set i a) (ls'.set i a') := by
  refine ⟨by simp [h.length], fun j b b' e e' => ?_⟩
  by_cases hj : i = j
  · subst hj
    obtain ⟨h1, h2⟩ := List.getElem?_eq_some_iff.mp e
    obtain ⟨h1', h2'⟩ := List.getElem?_eq_some_iff.mp e'
    rw [List.getElem_set_self] at h2 h2'
    subst h2 h2'
    exact ht
  · rw [List.getElem?_set_ne hj] at e e'
    exact h.twin j b b' e e'

/-- Loops with different samples. -/
theorem each_follows {σ β : Type} {f f' : σ → β → Exec (σ × Option String)} (Q : σ → σ → Prop) : ∀ (xs : List β) (s t r : σ),
    (∀ x ∈ xs, ∀ s t r, Q s t → f s x = .ok (r, none) → ∃ q, f' t x = .ok (q, none) ∧ Q r q) → Q s t →
    each f xs s = .ok (r, none) → ∃ q, each f' xs t = .ok (q, none) ∧ Q r q
  | [], s, t, r, _, h, e => by cases e; exact ⟨t, rfl, h⟩
  | x :: xs, s, t, r, hf, h, e => by
    unfold each at e ⊢
    obtain ⟨⟨r1, m⟩, f1, e⟩ := Exec.bind_eq_ok e
    cases m with
    | some m => cases e
    | none =>
      obtain ⟨q1, g1, g2⟩ := hf x (by simp) _ _ _ h f1
      rw [g1]
      exact each_follows Q xs _ _ _ (fun x hx => hf x (by simp [hx])) g2 e

theorem next_done {σ τ : Type} {r : Exec (σ × Option String)} {fail : σ → τ} {f : σ → Exec (τ × Option String)}
    {p : τ} (e : next r fail f = .ok (p, none)) : ∃ s, r = .ok (s, none) ∧ f s = .ok (p, none) := by
  unfold next at e
  obtain ⟨⟨s, m⟩, h, e⟩ := Exec.bind_eq_ok e
  cases m with
  | some m => cases e
  | none => exact ⟨s, h, e⟩

theorem next_eq {σ τ : Type} {fail : σ → τ} {f : σ → Exec (τ × Option String)} {s : σ} :
    next (.ok (s, none)) fail f = f s := rfl

theorem keep_done {β : Type} {old a : AnyLayer} {r : Exec β} {wrap : β → AnyLayer} (h : keep old r wrap = .ok (a, none)) :
    ∃ l, r = .ok l ∧ a = wrap l := by
  cases r with
  | ok l => cases h; exact ⟨l, rfl, rfl⟩
  | throw m => cases h
  | ub => cases h

variable {p : Prop} {a a' b : AnyLayer} {x x' y y' : List ℝ}

theorem turned_forward (h : Turned π p a a') (hp : p → PermutedSample π y y') (hn : ¬ p → y' = y)
    (e : a.forward y = .ok (b, none)) : ∃ b', a'.forward y' = .ok (b', none) ∧ Turned π p b b' := by
  by_cases hi : p
  · obtain ⟨l, l', rfl, rfl, hr⟩ := h.input hi
    obtain ⟨r, e1, rfl⟩ := keep_done e
    obtain ⟨r', e1', hr'⟩ := Dense.reordered_forward hr (hp hi) e1
    refine ⟨.dense r', ?_, fun _ => ⟨r, r', rfl, rfl, hr'⟩, fun q => absurd hi q⟩
    show keep _ (l'.forward y') .dense = _
    rw [e1']
    rfl
  · rw [h.other hi, hn hi]
    exact ⟨b, e, fun q => absurd q hi, fun _ => rfl⟩

theorem turned_lastInput (h : Turned π p a a') (hp : p → PermutedSample π y y') (hn : ¬ p → y' = y) :
    Turned π p (a.setLastInput y) (a'.setLastInput y') := by
  refine ⟨fun hi => ?_, fun hi => by rw [h.other hi, hn hi]⟩
  obtain ⟨l, l', rfl, rfl, hr⟩ := h.input hi
  exact ⟨_, _, rfl, rfl, Dense.reordered_input hr (hp hi)⟩

theorem turned_trainingForward (h : Turned π p a a') (hp : p → PermutedSample π y y') (hn : ¬ p → y' = y)
    (e : a.trainingForward y = .ok (b, none)) : ∃ b', a'.trainingForward y' = .ok (b', none) ∧ Turned π p b b' := by
  by_cases hi : p
  · obtain ⟨l, l', rfl, rfl, hr⟩ := h.input hi
    exact turned_forward (turned_lastInput h hp hn) hp hn e
  · rw [h.other hi, hn hi]
    exact ⟨b, e, fun q => absurd q hi, fun _ => rfl⟩

theorem turned_backward (h : Turned π p a a') {g : List ℝ} (e : a.backward g = .ok (b, none)) :
    ∃ b', a'.backward g = .ok (b', none) ∧ Turned π p b b' := by
  by_cases hi : p
  · obtain ⟨l, l', rfl, rfl, hr⟩ := h.input hi
    obtain ⟨r, e1, rfl⟩ := keep_done e
    obtain ⟨r', e1', hr'⟩ := Dense.reordered_backward hr e1
    refine ⟨.dense r', ?_, fun _ => ⟨r, r', rfl, rfl, hr'⟩, fun q => absurd hi q⟩
    show keep _ (l'.backward g) .dense = _
    rw [e1']
    rfl
  · rw [h.other hi]
    exact ⟨b, e, fun q => absurd q hi, fun _ => rfl⟩

theorem turned_output (h : Turned π p a a') : a'.lastOutput = a.lastOutput := by
  by_cases hi : p
  · obtain ⟨l, l', rfl, rfl, hr⟩ := h.input hi
    exact congrArg Exec.ok hr.output.2
  · rw [h.other hi]

/-- What the layers receive. -/
theorem turned_value {ls ls' : List AnyLayer} (h : TurnedAll π N ls ls') (hx : PermutedSample π x x') {s : Source}
    {v : List ℝ} (hs : p ↔ s = .external) (e : value ls x s = .ok v) :
    ∃ v', value ls' x' s = .ok v' ∧ (p → PermutedSample π v v') ∧ (¬ p → v' = v) := by
  cases s with
  | external => cases e; exact ⟨x', rfl, fun _ => hx, fun hp => absurd (hs.mpr rfl) hp⟩
  | output i =>
    obtain ⟨a, h1, e⟩ := Exec.bind_eq_ok e
    obtain ⟨a', h1', ht⟩ := h.read h1
    refine ⟨v, ?_, fun hp => (by cases hs.mp hp), fun _ => rfl⟩
    unfold value
    dsimp only
    rw [h1', Exec.bind_ok, turned_output ht, e]

theorem turned_forwardAt (hx : PermutedSample π x x') {s : Source × Nat} (hs : N s.2 ↔ s.1 = .external)
    {ls ls' r : List AnyLayer} (h : TurnedAll π N ls ls') (e : forwardAt x ls s = .ok (r, none)) :
    ∃ r', forwardAt x' ls' s = .ok (r', none) ∧ TurnedAll π N r r' := by
  unfold forwardAt at e ⊢
  cases v : value ls x s.1 with
  | ub => rw [v] at e; cases e
  | throw m => rw [v] at e; cases e
  | ok y =>
    rw [v] at e
    obtain ⟨y', v', q1, q2⟩ := turned_value h hx hs v
    obtain ⟨a, h1, e⟩ := Exec.bind_eq_ok e
    obtain ⟨⟨b, m⟩, h2, e⟩ := Exec.bind_eq_ok e
    cases e
    obtain ⟨a', h1', ht⟩ := h.read h1
    obtain ⟨b', h2', ht'⟩ := turned_forward ht q1 q2 h2
    refine ⟨_, ?_, h.set ht'⟩
    rw [v']
    dsimp only
    rw [h1', Exec.bind_ok, h2', Exec.bind_ok]

/-- The states of two calls of `step`. -/
structure TurnedSteps (π : Equiv.Perm (Fin k)) (N : Nat → Prop) (st st' : Steps) : Prop where
  layers : TurnedAll π N st.layers st'.layers
  from_ : st'.from_ = st.from_
  source : ∀ i s, st.from_[i]? = some (some s) → (N i ↔ s = .external)

theorem turned_trainAt (hx : PermutedSample π x x') {s : Source × Nat} (hs : N s.2 ↔ s.1 = .external) {st st' r : Steps}
    (h : TurnedSteps π N st st') (e : trainAt x st s = .ok (r, none)) :
    ∃ r', trainAt x' st' s = .ok (r', none) ∧ TurnedSteps π N r r' := by
  unfold trainAt at e ⊢
  cases v : value st.layers x s.1 with
  | ub => rw [v] at e; cases e
  | throw m => rw [v] at e; cases e
  | ok y =>
    rw [v] at e
    obtain ⟨y', v', q1, q2⟩ := turned_value h.layers hx hs v
    obtain ⟨a, h1, e⟩ := Exec.bind_eq_ok e
    obtain ⟨⟨b, m⟩, h2, e⟩ := Exec.bind_eq_ok e
    cases e
    obtain ⟨a', h1', ht⟩ := h.layers.read h1
    obtain ⟨b', h2', ht'⟩ := turned_trainingForward ht q1 q2 h2
    rw [v']
    dsimp only
    rw [h1', Exec.bind_ok, h2', Exec.bind_ok]
    refine ⟨_, rfl, h.layers.set ht', by dsimp only; rw [h.from_], fun i u hu => ?_⟩
    dsimp only at hu
    by_cases hj : s.2 = i
    · subst hj
      obtain ⟨g1, g2⟩ := List.getElem?_eq_some_iff.mp hu
      rw [List.getElem_set_self] at g2
      cases g2
      exact hs
    · rw [List.getElem?_set_ne hj] at hu
      exact h.source i u hu

theorem turned_backwardAt (hx : PermutedSample π x x') {i : Nat} {g : List ℝ} {st st' r : Steps}
    (h : TurnedSteps π N st st') (e : backwardAt x st i g = .ok (r, none)) :
    ∃ r', backwardAt x' st' i g = .ok (r', none) ∧ TurnedSteps π N r r' := by
  unfold backwardAt at e ⊢
  obtain ⟨a, h1, e⟩ := Exec.bind_eq_ok e
  obtain ⟨b, h2, e⟩ := Exec.bind_eq_ok e
  obtain ⟨⟨c, m⟩, h3, e⟩ := Exec.bind_eq_ok e
  cases e
  obtain ⟨a', h1', ha⟩ := h.layers.read h1
  have hb : ∃ b', follow x' st' i a' = .ok b' ∧ Turned π (N i) b b' := by
    unfold follow at h2 ⊢
    rw [h.from_]
    split at h2
    · next s hs =>
      obtain ⟨v, k1, h2⟩ := Exec.bind_eq_ok h2
      cases h2
      obtain ⟨v', k1', q1, q2⟩ := turned_value h.layers hx (h.source i s hs) k1
      rw [k1', Exec.bind_ok]
      exact ⟨_, rfl, turned_lastInput ha q1 q2⟩
    · next hs =>
      cases h2
      exact ⟨a', rfl, ha⟩
  obtain ⟨b', h2', hb⟩ := hb
  obtain ⟨c', h3', hc⟩ := turned_backward hb h3
  rw [h1', Exec.bind_ok, h2', Exec.bind_ok, h3', Exec.bind_ok]
  exact ⟨_, rfl, h.layers.set hc, h.from_, h.source⟩

/-- The connections of a model in which nothing is connected to the layers that get the samples. -/
structure InputsFirst (g : DLGraph) : Prop where
  train : ∀ a ∈ trainingArcs g, a.2 ∉ g.inputs
  forward : ∀ a ∈ forwardArcs g, a.2 ∉ g.inputs
  back : ∀ a ∈ backwardArcs g, a.1 ∉ g.inputs

theorem inputsFirst_built {g : DLGraph} (hj : Joined g) (hin : ∀ i ∈ g.inputs, ∀ x, ¬ trainArc g x i) : InputsFirst g := by
  refine ⟨fun a ha h => hin _ h _ (trainingArcs_arc g a ha), fun a ha h => hin _ h a.1 (hj.forward _ _ ?_),
    fun a ha h => hin _ h a.2 ((hj.back a.2 a.1).mp ?_)⟩
  · revert a
    unfold forwardArcs
    cases e : g.forwardRun (g.forward.length + 2) with
    | none => simp
    | some r => intro a ha _; exact run_arcs _ _ _ _ _ r (by simp) e a ha
  · revert a
    unfold backwardArcs
    cases e : g.backwardRun (g.backward.length + 2) with
    | none => simp
    | some r => intro a ha _; exact run_arcs _ _ _ _ _ r (by simp) e a ha

theorem turned_step {n n' : Net} (hg : n'.graph = n.graph) (hc : InputsFirst n.graph)
    (h : TurnedAll π (· ∈ n.graph.inputs) n.layers n'.layers) (hx : PermutedSample π x x') {t : List ℝ} {r : Net}
    (e : n.step x t = .ok (r, none)) : ∃ r', n'.step x' t = .ok (r', none) ∧
      r.graph = n.graph ∧ r'.graph = n.graph ∧ TurnedAll π (· ∈ n.graph.inputs) r.layers r'.layers := by
  unfold Net.step at e ⊢
  rw [hg]
  obtain ⟨⟨p, m⟩, f1, e⟩ := Exec.bind_eq_ok e
  cases e
  obtain ⟨ls, k1, f1⟩ := next_done f1
  obtain ⟨st, k2, f1⟩ := next_done f1
  obtain ⟨st2, k3, f1⟩ := next_done f1
  have hl : ∃ ls', each (targetAt t) n.graph.loss n'.layers = .ok (ls', none) ∧
      TurnedAll π (· ∈ n.graph.inputs) ls ls' := by
    refine each_follows (TurnedAll π (· ∈ n.graph.inputs)) _ _ _ _ ?_ h k1
    intro i hi s t r hst e
    obtain ⟨a, h1, e⟩ := Exec.bind_eq_ok e
    obtain ⟨a', h1', ht⟩ := hst.read h1
    unfold targetAt
    rw [h1', Exec.bind_ok]
    by_cases hin : i ∈ n.graph.inputs
    · obtain ⟨l, l', rfl, rfl, _⟩ := ht.input hin
      cases e
      exact ⟨_, rfl, hst⟩
    · cases ht.other hin
      cases a with
      | loss f l =>
        cases e
        exact ⟨_, rfl, hst.set ⟨fun q => absurd q hin, fun _ => rfl⟩⟩
      | _ => cases e; exact ⟨_, rfl, hst⟩
  obtain ⟨ls', k1', hl⟩ := hl
  rw [k1', next_eq]
  have hst : ∃ st', each (trainAt x') (n.graph.inputs.map (fun i => (Source.external, i)) ++
        (trainingArcs n.graph).map (fun a => (Source.output a.1, a.2))) ⟨ls', List.replicate ls'.length none⟩
        = .ok (st', none) ∧ TurnedSteps π (· ∈ n.graph.inputs) st st' := by
    refine each_follows (TurnedSteps π (· ∈ n.graph.inputs)) _ _ _ _ ?_ ?_ k2
    · intro s hs a b r hab e
      refine turned_trainAt hx ?_ hab e
      rcases List.mem_append.mp hs with hs | hs
      · obtain ⟨i, hi, rfl⟩ := List.mem_map.mp hs
        exact ⟨fun _ => rfl, fun _ => hi⟩
      · obtain ⟨c, hc1, rfl⟩ := List.mem_map.mp hs
        exact ⟨fun hi => absurd hi (hc.train c hc1), fun hi => by cases hi⟩
    · refine ⟨hl, by dsimp only; rw [hl.length], fun i k hk => ?_⟩
      dsimp only at hk
      rw [List.getElem?_replicate] at hk
      split at hk <;> cases hk
  obtain ⟨st', k2', hst⟩ := hst
  rw [k2', next_eq]
  have hst2 : ∃ st2', each (fun st i => backwardAt x' st i []) n.graph.loss st' = .ok (st2', none) ∧
      TurnedSteps π (· ∈ n.graph.inputs) st2 st2' := by
    refine each_follows (TurnedSteps π (· ∈ n.graph.inputs)) _ _ _ _ ?_ hst k3
    exact fun i hi _ _ _ hab e => turned_backwardAt hx hab e
  obtain ⟨st2', k3', hst2⟩ := hst2
  rw [k3', next_eq]
  have hst3 : ∃ st3', each (backArcAt x') (backwardArcs n.graph) st2' = .ok (st3', none) ∧
      TurnedSteps π (· ∈ n.graph.inputs) p st3' := by
    refine each_follows (TurnedSteps π (· ∈ n.graph.inputs)) _ _ _ _ ?_ hst2 f1
    intro a ha s t r hab e
    obtain ⟨l, h1, e⟩ := Exec.bind_eq_ok e
    obtain ⟨l', h1', ht⟩ := hab.layers.read h1
    cases ht.other (hc.back a ha)
    unfold backArcAt
    rw [h1', Exec.bind_ok]
    exact turned_backwardAt hx hab e
  obtain ⟨st3', k4', hst3⟩ := hst3
  rw [k4', Exec.bind_ok]
  exact ⟨_, rfl, rfl, rfl, hst3.layers⟩

theorem turned_predict {n n' : Net} (hg : n'.graph = n.graph) (hc : InputsFirst n.graph)
    (h : TurnedAll π (· ∈ n.graph.inputs) n.layers n'.layers) (hx : PermutedSample π x x') {r : Net}
    (e : n.predict x = .ok (r, .ok y)) : ∃ r', n'.predict x' = .ok (r', .ok y) ∧
    r.graph = n.graph ∧ r'.graph = n.graph ∧ TurnedAll π (· ∈ n.graph.inputs) r.layers r'.layers := by
  unfold Net.predict at e ⊢
  rw [hg]
  cases ho : n.graph.outputs with
  | nil => rw [ho] at e; cases e
  | cons o os =>
    rw [ho] at e
    obtain ⟨⟨p, m⟩, f1, e⟩ := Exec.bind_eq_ok e
    cases m with
    | some m => cases e
    | none =>
      have ht : ∃ p', each (forwardAt x') (n.graph.inputs.map (fun i => (Source.external, i)) ++
          (forwardArcs n.graph).map (fun a => (Source.output a.1, a.2))) n'.layers = .ok (p', none) ∧
          TurnedAll π (· ∈ n.graph.inputs) p p' := by
        refine each_follows (TurnedAll π (· ∈ n.graph.inputs)) _ _ _ _ ?_ h f1
        intro s hs a b r hab e
        refine turned_forwardAt hx ?_ hab e
        rcases List.mem_append.mp hs with hs | hs
        · obtain ⟨i, hi, rfl⟩ := List.mem_map.mp hs
          exact ⟨fun _ => rfl, fun _ => hi⟩
        · obtain ⟨c, hc1, rfl⟩ := List.mem_map.mp hs
          exact ⟨fun hi => absurd hi (hc.forward c hc1), fun hi => by cases hi⟩
      obtain ⟨p', f1', ht⟩ := ht
      dsimp only at e ⊢
      rw [f1', Exec.bind_ok]
      dsimp only
      obtain ⟨l, g1, e⟩ := Exec.bind_eq_ok e
      obtain ⟨l', g1', hl⟩ := ht.read g1
      rw [g1', Exec.bind_ok, turned_output hl]
      split at e
      · next v hv =>
        cases e
        exact ⟨_, rfl, rfl, rfl, ht⟩
      · cases e
      · cases e

/-- Gradient descent on a layer that gets the samples. -/
theorem train_dense (eta : ℝ) (l : Dense.Layer ℝ) (h1 : l.weights.length = l.outputSize * l.inputSize)
    (h2 : l.biases.length = l.outputSize) (h3 : l.grads.weight.length = l.outputSize * l.inputSize)
    (h4 : l.grads.bias.length = l.outputSize) :
    ∃ w c gw gc, (AnyLayer.dense l).train (Opt.gdStep eta) () =
        (((), .dense { l with weights := w, biases := c, grads := { l.grads with weight := gw, bias := gc } }), .ok ()) ∧
      w.length = l.outputSize * l.inputSize ∧ c.length = l.outputSize ∧ gw.length = l.outputSize * l.inputSize ∧
      gc.length = l.outputSize ∧
      (∀ i, i < l.outputSize * l.inputSize → vec w i = vec l.weights i - eta * vec l.grads.weight i ∧ vec gw i = 0) ∧
      ∀ i, i < l.outputSize → vec c i = vec l.biases i - eta * vec l.grads.bias i ∧ vec gc i = 0 := by
  obtain ⟨P, G, e, hP, hG, hv⟩ := train_layer eta (.dense l)
    (by show [l.weights.length, l.biases.length] = [l.outputSize * l.inputSize, l.outputSize]; rw [h1, h2])
    (by show [l.grads.weight.length, l.grads.bias.length] = [l.outputSize * l.inputSize, l.outputSize]; rw [h3, h4])
  have hP' : P.map List.length = [l.outputSize * l.inputSize, l.outputSize] := hP
  have hG' : G.map List.length = [l.outputSize * l.inputSize, l.outputSize] := hG
  have two : ∀ (Q : List (List ℝ)) (a b : Nat), Q.map List.length = [a, b] → ∃ u v, Q = [u, v] ∧ u.length = a ∧
      v.length = b := by
    intro Q a b h
    rcases Q with _ | ⟨u, _ | ⟨v, _ | ⟨z, Q⟩⟩⟩
    · simp at h
    · simp at h
    · simp only [List.map_cons, List.map_nil, List.cons.injEq, and_true] at h
      exact ⟨u, v, rfl, h.1, h.2⟩
    · simp at h
  obtain ⟨w, c, rfl, hw, hcl⟩ := two P _ _ hP'
  obtain ⟨gw, gc, rfl, hgw, hgc⟩ := two G _ _ hG'
  refine ⟨w, c, gw, gc, e, hw, hcl, hgw, hgc, fun i hi => ?_, fun i hi => ?_⟩
  · exact hv 0 i (by show 0 < 2; omega) (by show i < l.weights.length; omega)
  · exact hv 1 i (by show 1 < 2; omega) (by show i < l.biases.length; omega)

theorem turned_train (eta : ℝ) (h : Turned π p a a') :
    (a'.train (Opt.gdStep eta) ()).2 = (a.train (Opt.gdStep eta) ()).2 ∧
      Turned π p (a.train (Opt.gdStep eta) ()).1.2 (a'.train (Opt.gdStep eta) ()).1.2 := by
  by_cases hi : p
  swap
  · rw [h.other hi]
    exact ⟨rfl, fun q => absurd q hi, fun _ => rfl⟩
  obtain ⟨l, l', rfl, rfl, hr⟩ := h.input hi
  obtain ⟨w, c, gw, gc, e, q1, q2, q3, q4, q5, q6⟩ := train_dense eta l (by rw [hr.weights.1, hr.inputSize.1]) hr.biases.1
    (by rw [hr.gradients.1, hr.inputSize.1]) hr.biasGradients.1
  obtain ⟨w', c', gw', gc', e', q1', q2', q3', q4', q5', q6'⟩ := train_dense eta l'
    (by rw [hr.weights.2.1, hr.inputSize.2, hr.outputSize]) (by rw [hr.biases.2, hr.biases.1, hr.outputSize])
    (by rw [hr.gradients.2.1, hr.inputSize.2, hr.outputSize]) (by rw [hr.biasGradients.2, hr.biasGradients.1, hr.outputSize])
  rw [hr.inputSize.1] at q1 q3 q5
  rw [hr.inputSize.2, hr.outputSize] at q1' q3' q5'
  rw [hr.outputSize] at q2' q4' q6'
  rw [e, e']
  refine ⟨rfl, fun _ => ?_, fun q => absurd hi q⟩
  have cell : ∀ {i : Nat}, i < l.outputSize → ∀ j : Fin k, i * k + j < l.outputSize * k := fun {i} hi j =>
    calc i * k + j < i * k + k := by omega
      _ = (i + 1) * k := by ring
      _ ≤ l.outputSize * k := Nat.mul_le_mul_right k hi
  refine ⟨_, _, rfl, rfl, hr.inputSize, hr.outputSize, ⟨q1, q1', fun i hi j => ?_⟩, ⟨q3, q3', fun i hi j => ?_⟩,
    ⟨q2, Dense.eq_of_vec (by dsimp only; rw [q2, q2']) fun i hi => ?_⟩,
    ⟨q4, Dense.eq_of_vec (by dsimp only; rw [q4, q4']) fun i hi => ?_⟩, hr.output, hr.lastInput,
    hr.inputGradients⟩
  · rw [mat_eq_vec, mat_eq_vec]
    dsimp only
    rw [(q5 _ (cell hi (π j))).1, (q5' _ (cell hi j)).1, ← mat_eq_vec, ← mat_eq_vec, ← mat_eq_vec, ← mat_eq_vec,
      hr.weights.2.2 i hi j, hr.gradients.2.2 i hi j]
  · rw [mat_eq_vec, mat_eq_vec]
    dsimp only
    rw [(q5 _ (cell hi (π j))).2, (q5' _ (cell hi j)).2]
  · dsimp only at hi ⊢
    rw [q2] at hi
    rw [(q6 i hi).1, (q6' i hi).1, hr.biases.2, hr.biasGradients.2]
  · dsimp only at hi ⊢
    rw [q4] at hi
    rw [(q6 i hi).2, (q6' i hi).2]

theorem turned_trainLayers (eta : ℝ) : ∀ (ls ls' : List AnyLayer) (N : Nat → Prop), TurnedAll π N ls ls' →
    (trainLayers (Opt.gdStep eta) () ls).2 = .ok () → (trainLayers (Opt.gdStep eta) () ls').2 = .ok () ∧
    TurnedAll π N (trainLayers (Opt.gdStep eta) () ls).1.2 (trainLayers (Opt.gdStep eta) () ls').1.2
  | [], [], N, h, _ => ⟨rfl, h⟩
  | [], _ :: _, N, h, _ => by cases h.length
  | _ :: _, [], N, h, _ => by cases h.length
  | a :: ls, a' :: ls', N, h, e => by
    unfold trainLayers at e ⊢
    obtain ⟨hs, h0⟩ := turned_train eta (h.twin 0 a a' rfl rfl)
    have ht : TurnedAll π (fun i => N (i + 1)) ls ls' :=
      ⟨by simpa using h.length, fun i b b' hb hb' => h.twin (i + 1) b b' hb hb'⟩
    cases hr : a.train (Opt.gdStep eta) () with
    | mk u m =>
      cases hr' : a'.train (Opt.gdStep eta) () with
      | mk u' m' =>
        rw [hr] at e h0 hs
        rw [hr'] at h0 hs
        dsimp only at hs
        subst hs
        cases m' with
        | throw _ => cases e
        | ub => cases e
        | ok _ =>
          obtain ⟨s1, b⟩ := u
          obtain ⟨s1', b'⟩ := u'
          dsimp only at h0 e ⊢
          obtain ⟨k3, k4⟩ := turned_trainLayers eta ls ls' _ ht e
          refine ⟨k3, by simp [k4.length], fun i c c' hc hc' => ?_⟩
          match i with
          | 0 => cases hc; cases hc'; exact h0
          | i + 1 => exact k4.twin i c c' hc hc'

theorem turned_reset {n n' : Net} (hg : n'.graph = n.graph) (h : TurnedAll π N n.layers n'.layers) :
    TurnedAll π N n.resetScore.layers n'.resetScore.layers := by
  unfold Net.resetScore
  rw [hg]
  refine ⟨by simp [h.length], fun i a a' e e' => ?_⟩
  dsimp only at e e'
  rw [List.getElem?_mapIdx, Option.map_eq_some_iff] at e e'
  obtain ⟨b, e, rfl⟩ := e
  obtain ⟨b', e', rfl⟩ := e'
  have ht := h.twin i b b' e e'
  refine ⟨fun hi => ?_, fun hi => by rw [ht.other hi]⟩
  obtain ⟨l, l', rfl, rfl, hr⟩ := ht.input hi
  exact ⟨l, l', rfl, rfl, hr⟩

/-- Two models. -/
structure TurnedNets (π : Equiv.Perm (Fin k)) (g : DLGraph) (n n' : Net) : Prop where
  graph : n.graph = g
  graph' : n'.graph = g
  layers : TurnedAll π (· ∈ g.inputs) n.layers n'.layers

theorem turned_serve (eta : ℝ) {g : DLGraph} (hc : InputsFirst g) {cs cs' : List UserCall}
    (hcs : List.Forall₂ (ReorderedCall π) cs cs') : ∀ (n n' : Net) (r : Unit × Net), TurnedNets π g n n' →
      serve (Opt.gdStep eta) cs ((), n) = .ok r →
      ∃ r', serve (Opt.gdStep eta) cs' ((), n') = .ok r' ∧ TurnedNets π g r.2 r'.2 := by
  induction hcs with
  | nil => intro n n' r h e; cases e; exact ⟨_, rfl, h⟩
  | @cons c c' cs cs' hcall _ ih =>
    intro n n' r h e
    have hgg : n'.graph = n.graph := h.graph'.trans h.graph.symm
    have hc' : InputsFirst n.graph := h.graph ▸ hc
    have hl : TurnedAll π (· ∈ n.graph.inputs) n.layers n'.layers := by rw [h.graph]; exact h.layers
    cases hcall with
    | predict hx =>
      unfold serve at e ⊢
      obtain ⟨⟨p, y⟩, f1, e⟩ := Exec.bind_eq_ok e
      cases y with
      | error m => cases e
      | ok y =>
        obtain ⟨p', f1', k1, k2, k3⟩ := turned_predict hgg hc' hl hx f1
        rw [h.graph] at k1 k2 k3
        rw [f1', Exec.bind_ok]
        exact ih p p' r ⟨k1, k2, k3⟩ e
    | step t hx =>
      unfold serve at e ⊢
      obtain ⟨⟨p, m⟩, f1, e⟩ := Exec.bind_eq_ok e
      cases m with
      | some m => cases e
      | none =>
        obtain ⟨p', f1', k1, k2, k3⟩ := turned_step hgg hc' hl hx f1
        rw [h.graph] at k1 k2 k3
        rw [f1', Exec.bind_ok]
        exact ih p p' r ⟨k1, k2, k3⟩ e
    | train =>
      unfold serve at e ⊢
      obtain ⟨u, f1, e⟩ := Exec.bind_eq_ok e
      obtain ⟨f1', k1⟩ := turned_trainLayers eta _ _ _ h.layers f1
      have f2 : (n'.train (Opt.gdStep eta) ()).2 = .ok () := f1'
      dsimp only at e ⊢
      rw [f2, Exec.bind_ok]
      exact ih { n with layers := (trainLayers (Opt.gdStep eta) () n.layers).1.2 }
        { n' with layers := (trainLayers (Opt.gdStep eta) () n'.layers).1.2 } r
        ⟨h.graph, h.graph', k1⟩ e
    | resetScore =>
      unfold serve at e ⊢
      exact ih n.resetScore n'.resetScore r ⟨h.graph, h.graph', turned_reset hgg h.layers⟩ e

theorem turned_fit (eta : ℝ) {g : DLGraph} (hc : InputsFirst g) {d d' : Data.Dataset ℝ} (hd : ReorderedData π d d')
    {fuel epochs b : Nat} {n n' : Net} {r : Unit × Net} (h : TurnedNets π g n n')
    (e : Training.fit (Opt.gdStep eta) d fuel epochs b ((), n) = some (.ok r)) :
    ∃ r', Training.fit (Opt.gdStep eta) d' fuel epochs b ((), n') = some (.ok r') ∧ TurnedNets π g r.2 r'.2 := by
  unfold Training.fit at e ⊢
  rw [hd.size]
  refine Training.run_follows (fun u v => TurnedNets π g u.2 v.2) ?_ ?_ ?_ _ _ _ _ ((), n) ((), n') r h e
  · rintro ⟨s, n⟩ ⟨s', n'⟩ u h e
    cases e
    exact ⟨_, rfl, h.graph, h.graph', turned_reset (h.graph'.trans h.graph.symm) h.layers⟩
  · rintro i ⟨s, n⟩ ⟨s', n'⟩ u h e
    obtain ⟨x, f1, e⟩ := Exec.bind_eq_ok e
    obtain ⟨t, f2, e⟩ := Exec.bind_eq_ok e
    obtain ⟨m, f3, e⟩ := Exec.bind_eq_ok e
    cases e
    obtain ⟨x', f1', hx⟩ := hd.input i x f1
    unfold Training.raise at f3
    obtain ⟨⟨p, q⟩, g1, f3⟩ := Exec.bind_eq_ok f3
    cases q with
    | some _ => cases f3
    | none =>
      cases f3
      have hgr := h.graph
      dsimp only at hgr
      obtain ⟨p', g1', k1, k2, k3⟩ :=
        turned_step (h.graph'.trans h.graph.symm) (hgr ▸ hc) (by rw [hgr]; exact h.layers) hx g1
      rw [hgr] at k1 k2 k3
      refine ⟨(s', p'), ?_, k1, k2, k3⟩
      unfold Training.modelOps Training.raise
      dsimp only at g1' ⊢
      rw [f1', Exec.bind_ok, hd.label, f2, Exec.bind_ok, g1']
      rfl
  · rintro ⟨s, n⟩ ⟨s', n'⟩ u h e
    obtain ⟨_, f1, e⟩ := Exec.bind_eq_ok e
    cases e
    obtain ⟨f1', k1⟩ := turned_trainLayers eta n.layers n'.layers _ h.layers f1
    refine ⟨(n'.train (Opt.gdStep eta) ()).1, ?_, h.graph, h.graph', k1⟩
    have f2 : (n'.train (Opt.gdStep eta) ()).2 = .ok () := f1'
    unfold Training.modelOps
    dsimp only
    rw [f2]
    rfl

end

end Net

end Verif
