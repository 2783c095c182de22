import Verif.Proofs.Training
import Verif.Spec.Scores
import Verif.Spec.Backprop
import Verif.Model.Training
import Verif.Proofs.Shape

/-! Scores after the training loops, for C104. -/

namespace Verif.Training

open Verif.Net Verif.Graph Verif.Spec

noncomputable section

variable {τ : Type} {net : Net} {n : Nat} {P : Nat → List Nat}

/-- The targets that the loss layer at `q` has counted if the samples `is` have been stepped through. -/
def targetsOf (P : Nat → List Nat) (s : Nat → List ℝ × List ℝ) (is : List Nat) (q : Nat) : List (List ℝ) :=
  is.flatMap fun i => (P q).map fun _ => (s i).2

theorem batchLoop_observed {opt : τ → ℝ → ℝ → τ × ℝ} {d : Data.Dataset ℝ} {s : Nat → List ℝ × List ℝ}
    (hd : ∀ i, i < d.size → d.input i = .ok (s i).1 ∧ d.label i = .ok (s i).2 ∧
      Suitable net n (.step (s i).1 (s i).2)) :
    ∀ (left i : Nat) (a : τ) (m : Net) (L : Nat → List (List ℝ × List ℝ)) (r : Nat × (τ × Net)), i ≤ d.size →
    Observed net n P m L → batchLoop (modelOps opt d) d.size left i (a, m) = .ok r →
    r.1 = min (i + left) d.size ∧ r.2.1 = a ∧ ∃ L', Observed net n P r.2.2 L' ∧
      ∀ q, (L' q).map Prod.fst = (L q).map Prod.fst ++ targetsOf P s (List.range' i (r.1 - i)) q
  | 0, i, a, m, L, r, hi, h, hr => by
    simp only [batchLoop] at hr
    cases hr
    exact ⟨by simp [hi], rfl, L, h, fun q => by simp [targetsOf]⟩
  | left + 1, i, a, m, L, r, hi, h, hr => by
    simp only [batchLoop] at hr
    split at hr
    · rename_i hlt
      obtain ⟨h1, h2, h3⟩ := hd i hlt
      obtain ⟨b, hb, hr⟩ := Exec.bind_eq_ok hr
      have hb' : (modelOps opt d).step i (a, m)
          = (do let n ← raise (m.step (s i).1 (s i).2); .ok (a, n)) := by
        show (d.input i >>= _) = _
        rw [h1, Exec.bind_ok]
        show (d.label i >>= _) = _
        rw [h2, Exec.bind_ok]
      rw [hb'] at hb
      obtain ⟨m1, e1, e2⟩ := Exec.bind_eq_ok hb
      cases e2
      unfold raise at e1
      obtain ⟨p, e3, e4⟩ := Exec.bind_eq_ok e1
      have e5 : p.1 = m1 := by
        split at e4
        · cases e4; rfl
        · cases e4
      subst e5
      have h' := Observed.step (s i).1 (s i).2 h h3 (e := p.2) (m' := p.1) e3
      obtain ⟨k1, k2, L', k3, k4⟩ := batchLoop_observed hd left (i + 1) a p.1 _ r hlt h' hr
      refine ⟨by rw [k1]; congr 1; omega, k2, L', k3, fun q => ?_⟩
      rw [k4 q]
      have : r.1 - i = (r.1 - (i + 1)) + 1 := by rw [k1]; omega
      rw [this, List.range'_succ]
      simp [targetsOf, Function.comp_def]
    · cases hr
      rename_i hn
      have : i = d.size := by omega
      refine ⟨by dsimp only; omega, rfl, L, h, fun q => ?_⟩
      simp [targetsOf]

/-- Either nothing has been done with the model, or its scores are those of its history. -/
def Begun (net : Net) (n : Nat) (P : Nat → List Nat) (m : Net) : Prop := m = net ∨ ∃ L, Observed net n P m L

theorem Begun.reset {m : Net} (h : Begun net n P m) : Observed net n P m.resetScore fun _ => [] := by
  rcases h with rfl | ⟨L, h⟩
  · exact .new
  · exact .reset h

theorem batch_observed {opt : τ → ℝ → ℝ → τ × ℝ} {d : Data.Dataset ℝ} {s : Nat → List ℝ × List ℝ}
    (hd : ∀ i, i < d.size → d.input i = .ok (s i).1 ∧ d.label i = .ok (s i).2 ∧
      Suitable net n (.step (s i).1 (s i).2)) {b i : Nat} {a : τ} {m : Net} {r : Nat × (τ × Net)} (hi : i ≤ d.size)
    (h : Begun net n P m) (hr : batch (modelOps opt d) d.size b i (a, m) = .ok r) :
    r.1 = min (i + b) d.size ∧ ∃ L', Observed net n P r.2.2 L' ∧
      ∀ q, (L' q).map Prod.fst = targetsOf P s (List.range' i (min b (d.size - i))) q := by
  unfold batch at hr
  have hr' : (do
      let r ← batchLoop (modelOps opt d) d.size b i (a, m.resetScore)
      let s ← (modelOps opt d).train r.2
      Exec.ok (r.1, s)) = .ok r := hr
  obtain ⟨p, e1, e2⟩ := Exec.bind_eq_ok hr'
  obtain ⟨p2, e3, e4⟩ := Exec.bind_eq_ok e2
  cases e4
  obtain ⟨k1, k2, L', k3, k4⟩ := batchLoop_observed hd b i a _ _ _ hi h.reset e1
  have e5 : p2 = (p.2.2.train opt p.2.1).1 := by
    have e3' : (do (p.2.2.train opt p.2.1).2; Exec.ok (p.2.2.train opt p.2.1).1) = .ok p2 := e3
    obtain ⟨_, _, e6⟩ := Exec.bind_eq_ok e3'
    cases e6
    rfl
  refine ⟨k1, L', ?_, fun q => ?_⟩
  · rw [e5]
    exact .train opt p.2.1 k3
  · rw [k4 q, k1]
    simp only [List.map_nil, List.nil_append]
    congr 2
    omega

theorem epoch_observed {opt : τ → ℝ → ℝ → τ × ℝ} {d : Data.Dataset ℝ} {s : Nat → List ℝ × List ℝ}
    (hd : ∀ i, i < d.size → d.input i = .ok (s i).1 ∧ d.label i = .ok (s i).2 ∧
      Suitable net n (.step (s i).1 (s i).2)) {b : Nat} (hb : 1 ≤ b) :
    ∀ (fuel k i : Nat) (a : τ) (m : Net) (r : τ × Net), i = k * b → i < d.size →
    Begun net n P m → epoch (modelOps opt d) d.size b fuel i (a, m) = some (.ok r) →
    ∃ L', Observed net n P r.2 L' ∧
      ∀ q, (L' q).map Prod.fst = targetsOf P s (batchSamples d.size b (batchCount d.size b - 1)) q
  | 0, k, i, a, m, r, hk, hi, h, hr => by
    unfold epoch at hr
    rw [if_pos hi] at hr
    cases hr
  | fuel + 1, k, i, a, m, r, hk, hi, h, hr => by
    unfold epoch at hr
    rw [if_pos hi] at hr
    dsimp only at hr
    split at hr
    · rename_i i1 s1 e1
      obtain ⟨k1, L1, k2, k3⟩ := batch_observed hd (le_of_lt hi) h e1
      dsimp only at k1 k2
      have hmul : (k + 1) * b = k * b + b := by rw [Nat.add_mul, Nat.one_mul]
      by_cases hlt : i + b < d.size
      · exact epoch_observed hd hb fuel (k + 1) i1 s1.1 s1.2 r (by rw [k1]; omega) (by rw [k1]; omega) (.inr ⟨L1, k2⟩) hr
      · unfold epoch at hr
        rw [if_neg (by rw [k1]; omega)] at hr
        cases hr
        refine ⟨L1, k2, fun q => ?_⟩
        rw [k3 q]
        have a1 : k < batchCount d.size b := (lt_batchCount hb).mpr (by omega)
        have a2 : ¬ k + 1 < batchCount d.size b := by rw [lt_batchCount hb]; omega
        have a3 : batchCount d.size b - 1 = k := by omega
        rw [a3]
        congr 1
        unfold batchSamples
        apply List.ext_getElem
        · simp [hk]
        · intro j h1 h2
          simp [hk]
    · cases hr
    · cases hr

theorem run_observed {opt : τ → ℝ → ℝ → τ × ℝ} {d : Data.Dataset ℝ} {s : Nat → List ℝ × List ℝ}
    (hd : ∀ i, i < d.size → d.input i = .ok (s i).1 ∧ d.label i = .ok (s i).2 ∧
      Suitable net n (.step (s i).1 (s i).2)) {b fuel : Nat} (hb : 1 ≤ b) (hn : 1 ≤ d.size) :
    ∀ (epochs : Nat) (a : τ) (m : Net) (r : τ × Net), Begun net n P m →
    run (modelOps opt d) d.size b fuel (epochs + 1) (a, m) = some (.ok r) →
    ∃ L', Observed net n P r.2 L' ∧
      ∀ q, (L' q).map Prod.fst = targetsOf P s (batchSamples d.size b (batchCount d.size b - 1)) q
  | 0, a, m, r, h, hr => by
    unfold run at hr
    split at hr
    · cases hr
    · rename_i s1 e1
      unfold run at hr
      cases hr
      exact epoch_observed hd hb fuel 0 0 a m _ (by simp) (by omega) h e1
    · cases hr
    · cases hr
  | epochs + 1, a, m, r, h, hr => by
    unfold run at hr
    split at hr
    · cases hr
    · rename_i s1 e1
      obtain ⟨L1, k1, _⟩ := epoch_observed hd hb fuel 0 0 a m _ (by simp) (by omega) h e1
      exact run_observed hd hb hn epochs s1.1 s1.2 r (.inr ⟨L1, k1⟩) hr
    · cases hr
    · cases hr

theorem performAll_kept {opt : τ → ℝ → ℝ → τ × ℝ} {d : Data.Dataset ℝ} {s : Nat → List ℝ × List ℝ}
    (hs : Shaped net n)
    (hd : ∀ i, i < d.size → d.input i = .ok (s i).1 ∧ d.label i = .ok (s i).2 ∧
      Suitable net n (.step (s i).1 (s i).2)) : ∀ (cs : List TrainCall) (a : τ) (m : Net), KeptAs net n m →
    (∀ i, .step i ∈ cs → i < d.size) →
    ∃ r, performAll (modelOps opt d) cs (a, m) = .ok r ∧ KeptAs net n r.2
  | [], a, m, h, _ => ⟨_, rfl, h⟩
  | c :: cs, a, m, h, hc => by
    have key : ∃ r, perform (modelOps opt d) c (a, m) = .ok r ∧ KeptAs net n r.2 := by
      cases c with
      | reset => exact ⟨_, rfl, h.resetScore⟩
      | step i =>
        obtain ⟨h1, h2, h3⟩ := hd i (hc i (by simp))
        obtain ⟨m', e, k⟩ := h.step hs h3
        refine ⟨(a, m'), ?_, k⟩
        show (d.input i >>= _) = _
        rw [h1, Exec.bind_ok]
        show (d.label i >>= _) = _
        rw [h2, Exec.bind_ok]
        show (raise (m.step (s i).1 (s i).2) >>= _) = _
        rw [e]
        rfl
      | train =>
        obtain ⟨a', m', e, k⟩ := h.train opt a
        refine ⟨(a', m'), ?_, k⟩
        show ((m.train opt a).2 >>= fun _ => Exec.ok (m.train opt a).1) = _
        rw [e]
        rfl
    obtain ⟨r, e1, k1⟩ := key
    obtain ⟨r', e2, k2⟩ := performAll_kept hs hd cs r.1 r.2 k1 fun i hi => hc i (by simp [hi])
    refine ⟨r', ?_, k2⟩
    show (perform (modelOps opt d) c (a, m) >>= _) = _
    rw [e1, Exec.bind_ok]
    exact e2

theorem trainCalls_range {n b epochs i : Nat} (h : TrainCall.step i ∈ trainCalls n b epochs) : i < n := by
  unfold trainCalls at h
  obtain ⟨l, hl, hi⟩ := List.mem_flatten.mp h
  obtain ⟨_, rfl⟩ := List.mem_replicate.mp hl
  unfold epochCalls at hi
  obtain ⟨k, _, hk⟩ := List.mem_flatMap.mp hi
  simp only [List.mem_cons, List.mem_append, List.mem_map, reduceCtorEq, List.not_mem_nil, or_false, false_or] at hk
  obtain ⟨j, hj, e⟩ := hk
  cases e
  have := List.mem_of_mem_drop (List.mem_of_mem_take hj)
  simpa using this

/-! ### The thread-parallel modes -/

/-- The loss layer has counted nothing. -/
def Uncounted (l : Loss.Layer) : Prop := l.correct = 0 ∧ l.incorrect = 0 ∧ l.cumulative = 0

/-- The object at `q` is a loss layer. -/
def LossAt (m : Mod) (q : Nat) : Prop := ∃ f l ad, m.objs[q]? = some ⟨.loss f l, ad⟩

theorem round_uncounted {opt : τ → ℝ → ℝ → τ × ℝ} {d : Data.Dataset ℝ} {s t : Trainer τ}
    {tasks : List (List Nat)} {es : List Event} {q : Nat} (hq : q ∈ s.model.graph.loss) (hl : LossAt s.model q)
    (h : s.round opt d tasks es = .ok t) :
    t.model.graph = s.model.graph ∧ LossAt t.model q ∧
      ∃ f l, (t.model.view t.heap).layers[q]? = some (.loss f l) ∧ Uncounted l := by
  unfold Trainer.round at h
  obtain ⟨r, _, e⟩ := Exec.bind_eq_ok h
  cases e
  obtain ⟨f, l, ad, ho⟩ := hl
  have hc : s.model.graph.loss.contains q = true := by simpa using hq
  have hy : (s.model.view s.heap).resetScore.layers[q]? = some (.loss f l.resetScore) := by
    unfold Net.resetScore Mod.view
    dsimp only
    rw [List.getElem?_mapIdx, List.getElem?_map, ho]
    simp only [Option.map_some, Obj.view, AnyLayer.setParams]
    rw [if_pos hc]
  have hu : (s.model.update (s.model.view s.heap).resetScore).objs[q]? = some ⟨.loss f l.resetScore, ad⟩ := by
    unfold Mod.update
    dsimp only
    rw [List.getElem?_zipWith, ho, hy]
  refine ⟨rfl, ⟨f, _, ad, hu⟩, f, l.resetScore, ?_, rfl, rfl, rfl⟩
  show (List.map _ _)[q]? = _
  rw [List.getElem?_map, hu]
  rfl

theorem rounds_uncounted {opt : τ → ℝ → ℝ → τ × ℝ} {d : Data.Dataset ℝ} {q : Nat} :
    ∀ (rs : List (List (List Nat) × List Event)) (s t : Trainer τ), rs ≠ [] → q ∈ s.model.graph.loss →
    LossAt s.model q → s.rounds opt d rs = .ok t →
    ∃ f l, (t.model.view t.heap).layers[q]? = some (.loss f l) ∧ Uncounted l
  | [], _, _, h, _, _, _ => absurd rfl h
  | [r], s, t, _, hq, hl, h => by
    unfold Trainer.rounds at h
    obtain ⟨s1, e1, e2⟩ := Exec.bind_eq_ok h
    unfold Trainer.rounds at e2
    cases e2
    exact (round_uncounted hq hl e1).2.2
  | r :: r' :: rs, s, t, _, hq, hl, h => by
    unfold Trainer.rounds at h
    obtain ⟨s1, e1, e2⟩ := Exec.bind_eq_ok h
    obtain ⟨k1, k2, _⟩ := round_uncounted hq hl e1
    exact rounds_uncounted (r' :: rs) s1 t (by simp) (by rw [k1]; exact hq) k2 e2

end

end Verif.Training
