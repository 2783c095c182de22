import Verif.Proofs.BackPool
import Verif.Proofs.Net
import Verif.Proofs.Loss

/-! A training step along a path. -/

namespace Verif.Net
open Verif.Spec Verif.Graph Finset

noncomputable section

/-- One layer of the path at work: position, state before the step, sizes, input and output. -/
structure Stage where
  idx : Nat
  layer : AnyLayer
  nin : Nat
  nout : Nat
  input : List ℝ
  output : List ℝ

/-- Consecutive stages fit together. -/
inductive Chain : Nat → List ℝ → List Stage → Nat → List ℝ → Prop
  | nil (n : Nat) (x : List ℝ) : x.length = n → Chain n x [] n x
  | cons {e : Stage} {es : List Stage} {m : Nat} {y : List ℝ} :
      e.input.length = e.nin → HasGrads e.nin e.nout e.layer →
      Adjoint e.nin e.nout e.layer e.input e.output → Chain e.nout e.output es m y →
      Chain e.nin e.input (e :: es) m y

theorem Chain.length {n m : Nat} {x y : List ℝ} {es : List Stage} (h : Chain n x es m y) :
    x.length = n ∧ y.length = m := by
  induction h with
  | nil n x h => exact ⟨h, h⟩
  | cons h _ _ _ ih => exact ⟨h, ih.2⟩

/-- The forward connections of a path that starts at `s`. -/
def arcs (s : Source) : List Stage → List (Source × Nat)
  | [] => []
  | e :: es => (s, e.idx) :: arcs (.output e.idx) es

/-- Where the output of the path is. -/
def lastSource (s : Source) : List Stage → Source
  | [] => s
  | e :: es => lastSource (.output e.idx) es

/-- The first layer of the path, `q` for the empty path. -/
def headIdx (q : Nat) : List Stage → Nat
  | [] => q
  | e :: _ => e.idx

/-- The backward connections of a path that ends with a connection to `q`. -/
def backArcs (q : Nat) : List Stage → List (Nat × Nat)
  | [] => []
  | e :: es => backArcs q es ++ [(headIdx q es, e.idx)]

/-- The layers have run forwards. -/
def Trained (st : Steps) : Source → List Stage → Prop
  | _, [] => True
  | s, e :: es =>
    (∃ l', st.layers[e.idx]? = some l' ∧ core l' = core e.layer ∧ HasGrads e.nin e.nout l' ∧
      l'.lastOutput = .ok e.output ∧ l'.paramGrads = e.layer.paramGrads) ∧
    st.from_[e.idx]? = some (some s) ∧ Trained st (.output e.idx) es

theorem value_congr {ls ls' : List AnyLayer} {x : List ℝ} {s : Source}
    (h : ∀ i, s = .output i → ls'[i]? = ls[i]?) : value ls' x s = value ls x s := by
  cases s with
  | external => rfl
  | output i =>
    show (rd ls' i >>= _) = (rd ls i >>= _)
    unfold rd
    rw [h i rfl]

theorem trained_congr {st st' : Steps} : ∀ (es : List Stage) (s : Source),
    (∀ e ∈ es, st'.layers[e.idx]? = st.layers[e.idx]? ∧ st'.from_[e.idx]? = st.from_[e.idx]?) →
    Trained st s es → Trained st' s es := by
  intro es
  induction es with
  | nil => intro s _ _; trivial
  | cons e es ih =>
    rintro s h ⟨⟨l', h1, h2⟩, h3, h4⟩
    obtain ⟨a, b⟩ := h e (by simp)
    exact ⟨⟨l', by rw [a]; exact h1, h2⟩, by rw [b]; exact h3, ih _ (fun e' he' => h e' (by simp [he'])) h4⟩

theorem forward_grads {a a' : AnyLayer} {n m : Nat} {x : List ℝ} (hg : HasGrads n m a)
    (h : a.forward x = .ok (a', none)) : HasGrads n m a' ∧ a'.paramGrads = a.paramGrads := by
  cases a with
  | dense l =>
    rcases keep_ok h with rfl | ⟨l', h1, rfl, _⟩
    · exact ⟨hg, rfl⟩
    · unfold Dense.Layer.forward at h1
      obtain ⟨o, _, h1⟩ := Exec.bind_eq_ok h1
      cases h1
      exact ⟨hg, rfl⟩
  | conv l =>
    rcases keep_ok h with rfl | ⟨l', h1, rfl, _⟩
    · exact ⟨hg, rfl⟩
    · unfold Slide.ConvLayer.forward at h1
      obtain ⟨o, _, h1⟩ := Exec.bind_eq_ok h1
      cases h1
      exact ⟨hg, rfl⟩
  | act f l =>
    rcases keep_ok h with rfl | ⟨l', h1, rfl, _⟩
    · exact ⟨hg, rfl⟩
    · refine ⟨?_, rfl⟩
      have key : l'.inputGradients = l.inputGradients := by
        cases f <;>
          first
          | (cases h1; rfl)
          | (obtain ⟨o, _, h1⟩ := Exec.bind_eq_ok h1; cases h1; rfl)
      show l'.inputGradients.length = n
      rw [key]
      exact hg
  | maxPool l =>
    rcases keep_ok h with rfl | ⟨l', h1, rfl, _⟩
    · exact ⟨hg, rfl⟩
    · unfold Slide.maxForward at h1
      obtain ⟨o, _, h1⟩ := Exec.bind_eq_ok h1
      cases h1
      exact ⟨hg, rfl⟩
  | avgPool l =>
    rcases keep_ok h with rfl | ⟨l', h1, rfl, _⟩
    · exact ⟨hg, rfl⟩
    · unfold Slide.avgForward at h1
      obtain ⟨o, _, h1⟩ := Exec.bind_eq_ok h1
      cases h1
      exact ⟨hg, rfl⟩
  | dropout mx raw l => exact hg.elim
  | rnn f f1 l => exact hg.elim
  | loss f l => exact hg.elim

theorem setLastInput_grads {a : AnyLayer} {n m : Nat} (x : List ℝ) (h : HasGrads n m a) :
    HasGrads n m (a.setLastInput x) ∧ (a.setLastInput x).paramGrads = a.paramGrads := by
  cases a <;> first | exact ⟨h, rfl⟩ | exact h.elim

theorem trainAt_stage {x : List ℝ} {st : Steps} {s : Source} {e : Stage}
    (hv : value st.layers x s = .ok e.input) (hl : st.layers[e.idx]? = some e.layer)
    (hf : st.from_.length = st.layers.length) (hg : HasGrads e.nin e.nout e.layer)
    (hy : Yields e.layer e.input e.output) :
    ∃ l', trainAt x st (s, e.idx)
        = .ok (⟨st.layers.set e.idx l', st.from_.set e.idx (some s)⟩, none) ∧
      core l' = core e.layer ∧ HasGrads e.nin e.nout l' ∧ l'.lastOutput = .ok e.output ∧
      l'.paramGrads = e.layer.paramGrads := by
  have htf : e.layer.trainingForward e.input = (e.layer.setLastInput e.input).forward e.input := by
    rcases trainingForward_cases e.layer e.input with ⟨mx, raw, l, hd⟩ | h
    · rw [hd] at hg; exact hg.elim
    · exact h
  obtain ⟨l', h1, h2⟩ := hy (e.layer.setLastInput e.input) (core_setLastInput _ _)
  obtain ⟨g1, g2⟩ := setLastInput_grads e.input hg
  obtain ⟨g3, g4⟩ := forward_grads g1 h1
  refine ⟨l', ?_, (core_forward h1).trans (core_setLastInput _ _), g3, h2, g4.trans g2⟩
  unfold trainAt
  dsimp only
  rw [hv]
  dsimp only
  rw [rd_of_some hl, Exec.bind_ok, htf, h1, Exec.bind_ok]

theorem train_chain {x : List ℝ} : ∀ (es : List Stage) (s : Source) (n m : Nat) (v y : List ℝ)
    (st : Steps), Chain n v es m y → value st.layers x s = .ok v →
    (∀ e ∈ es, st.layers[e.idx]? = some e.layer) → (es.map Stage.idx).Nodup →
    (∀ i, s = .output i → i ∉ es.map Stage.idx) → st.from_.length = st.layers.length →
    ∃ st', each (trainAt x) (arcs s es) st = .ok (st', none) ∧
      value st'.layers x (lastSource s es) = .ok y ∧ Trained st' s es ∧
      (∀ i, i ∉ es.map Stage.idx → st'.layers[i]? = st.layers[i]? ∧ st'.from_[i]? = st.from_[i]?) ∧
      st'.from_.length = st'.layers.length := by
  intro es
  induction es with
  | nil =>
    intro s n m v y st hc hv _ _ _ hf
    cases hc
    exact ⟨st, rfl, hv, trivial, fun i _ => ⟨rfl, rfl⟩, hf⟩
  | cons e es ih =>
    intro s n m v y st hc hv hl hn hs hf
    cases hc with
    | cons h1 h2 h3 h4 =>
      obtain ⟨hne, hn'⟩ := List.nodup_cons.mp hn
      have hle := hl e (by simp)
      obtain ⟨l', t1, t2⟩ := trainAt_stage hv hle hf h2 h3.1
      have hi : e.idx < st.layers.length := (List.getElem?_eq_some_iff.mp hle).1
      have hne' : ∀ e' ∈ es, e.idx ≠ e'.idx := by
        intro e' he' heq
        exact hne (by rw [heq]; exact List.mem_map_of_mem he')
      obtain ⟨st', r1, r2, r3, r4, r5⟩ := ih (.output e.idx) _ _ _ y
        ⟨st.layers.set e.idx l', st.from_.set e.idx (some s)⟩ h4
        (by
          show (rd (st.layers.set e.idx l') e.idx >>= AnyLayer.lastOutput) = .ok e.output
          rw [rd_of_some (a := l') (by simp [hi]), Exec.bind_ok, t2.2.2.1])
        (fun e' he' => by
          show (st.layers.set e.idx l')[e'.idx]? = _
          rw [List.getElem?_set_ne (hne' e' he')]
          exact hl e' (by simp [he']))
        hn' (by intro i hi; cases hi; exact hne) (by simpa using hf)
      obtain ⟨q1, q2⟩ := r4 e.idx hne
      refine ⟨st', ?_, r2, ⟨⟨l', ?_, t2⟩, ?_, r3⟩, ?_, r5⟩
      · show (trainAt x st (s, e.idx) >>= fun r => _) = _
        rw [t1, Exec.bind_ok]
        exact r1
      · rw [q1]; simp [hi]
      · rw [q2]; simp [hf, hi]
      · intro i hi'
        have hi1 : i ∉ es.map Stage.idx := fun h => hi' (List.mem_cons_of_mem _ h)
        have hi2 : e.idx ≠ i := fun h => hi' (by rw [← h]; exact List.mem_cons_self)
        obtain ⟨p1, p2⟩ := r4 i hi1
        constructor
        · rw [p1]; exact List.getElem?_set_ne hi2
        · rw [p2]; exact List.getElem?_set_ne hi2

theorem each_append {σ β : Type} {f : σ → β → Exec (σ × Option String)} : ∀ (as bs : List β) {s s' : σ},
    each f as s = .ok (s', none) → each f (as ++ bs) s = each f bs s' := by
  intro as
  induction as with
  | nil => intro bs s s' h; cases h; rfl
  | cons a as ih =>
    intro bs s s' h
    obtain ⟨⟨t, et⟩, h1, h2⟩ := Exec.bind_eq_ok h
    cases et with
    | some m => cases h2
    | none =>
      show (f s a >>= fun r => _) = _
      rw [h1, Exec.bind_ok]
      exact ih bs h2

/-- The path as a function of its input. -/
def ChainCurve (ls : List AnyLayer) (n m : Nat) (x y g gi : List ℝ) : Prop :=
  ∀ (X : ℝ → List ℝ) (X' : Nat → ℝ) (t0 : ℝ), X t0 = x → (∀ t, (X t).length = n) →
    (∀ j, j < n → HasDerivAt (fun t => vec (X t) j) (X' j) t0) →
    ∃ (Y : ℝ → List ℝ) (Y' : Nat → ℝ), (∀ t, YieldsAll ls (X t) (Y t) ∧ (Y t).length = m) ∧ Y t0 = y ∧
      (∀ i, i < m → HasDerivAt (fun t => vec (Y t) i) (Y' i) t0) ∧
      ∑ i ∈ range m, vec g i * Y' i = ∑ j ∈ range n, vec gi j * X' j

/-- The path as a function of one parameter. -/
def StepGrad (ls : List AnyLayer) (j b k : Nat) (l : AnyLayer) (m : Nat) (x y g : List ℝ) (d : ℝ) : Prop :=
  ∃ (Y : ℝ → List ℝ) (Y' : Nat → ℝ),
    (∀ s, YieldsAll (ls.set j (withParam l b k s)) x (Y s) ∧ (Y s).length = m) ∧
    Y (entry l.params b k) = y ∧
    (∀ i, i < m → HasDerivAt (fun s => vec (Y s) i) (Y' i) (entry l.params b k)) ∧
    ∑ i ∈ range m, vec g i * Y' i = d

theorem back_chain {x : List ℝ} {q : Nat} : ∀ (es : List Stage) (s : Source) (n m : Nat)
    (v y g : List ℝ) (st : Steps) (lq : AnyLayer), Chain n v es m y → g.length = m →
    Trained st s es → value st.layers x s = .ok v → (es.map Stage.idx).Nodup →
    (∀ i, s = .output i → i ∉ es.map Stage.idx) → q ∉ es.map Stage.idx →
    st.layers[q]? = some lq → lq.lastInputGradient = g →
    ∃ st' gi, each (backArcAt x) (backArcs q es) st = .ok (st', none) ∧ gi.length = n ∧
      (∃ l, st'.layers[headIdx q es]? = some l ∧ l.lastInputGradient = gi) ∧
      ((∀ e ∈ es, SmoothAt e.input e.layer) → ChainCurve (es.map Stage.layer) n m v y g gi) ∧
      (∀ j e, es[j]? = some e → ∃ l'', st'.layers[e.idx]? = some l'' ∧ core l'' = core e.layer ∧
        HasGrads e.nin e.nout l'' ∧
        ∀ b k, Learned e.layer b → b < e.layer.params.length → k < (e.layer.params.getD b []).length →
          (∀ e' ∈ es.drop (j + 1), SmoothAt e'.input e'.layer) →
          StepGrad (es.map Stage.layer) j b k e.layer m v y g
            (entry l''.paramGrads b k - entry e.layer.paramGrads b k)) ∧
      (∀ i, i ∉ es.map Stage.idx → st'.layers[i]? = st.layers[i]?) ∧ st'.from_ = st.from_ := by
  intro es
  induction es with
  | nil =>
    intro s n m v y g st lq hc hg _ hv _ _ hq hlq hgq
    cases hc
    refine ⟨st, g, rfl, hg, ⟨lq, hlq, hgq⟩, ?_, by simp, fun _ _ => rfl, rfl⟩
    intro _ X X' t0 h1 h2 h3
    exact ⟨X, X', fun t => ⟨.nil _, h2 t⟩, h1, h3, rfl⟩
  | cons e es ih =>
    intro s n m v y g st lq hc hg ht hv hn hs hq hlq hgq
    obtain ⟨⟨l', t1, t2, t3, t4, t5⟩, t6, t7⟩ := ht
    cases hc with
    | cons h1 h2 h3 h4 =>
      obtain ⟨hne, hn'⟩ := List.nodup_cons.mp hn
      have hq' : q ∉ es.map Stage.idx := fun h => hq (List.mem_cons_of_mem _ h)
      obtain ⟨st1, g1, r1, r2, ⟨lh, r3, r3'⟩, r4, r5, r6, r7⟩ := ih (.output e.idx) _ _ _ y g st lq h4
        hg t7 (by
          show (rd st.layers e.idx >>= AnyLayer.lastOutput) = .ok e.output
          rw [rd_of_some t1, Exec.bind_ok, t4]) hn' (by intro i hi; cases hi; exact hne) hq' hlq hgq
      obtain ⟨hy, hyl, hadj⟩ := h3
      obtain ⟨gi, gp, a1, a2, a3, a4⟩ := hadj g1 r2
      obtain ⟨l'', b1, b2, b3, b4, b5⟩ := a2 l' t2 t3 t4
      have e1 : st1.layers[e.idx]? = some l' := by rw [r6 _ hne]; exact t1
      have hi : e.idx < st1.layers.length := (List.getElem?_eq_some_iff.mp e1).1
      have e2 : value st1.layers x s = .ok e.input := by
        rw [value_congr (ls := st.layers)]
        · exact hv
        · intro i hi'
          exact r6 i fun h => hs i hi' (List.mem_cons_of_mem _ h)
      have e3 : backArcAt x st1 (headIdx q es, e.idx)
          = .ok ({ st1 with layers := st1.layers.set e.idx l'' }, none) := by
        unfold backArcAt backwardAt follow
        dsimp only
        rw [rd_of_some r3, Exec.bind_ok, r3', rd_of_some e1, Exec.bind_ok, r7, t6]
        dsimp only
        rw [e2, Exec.bind_ok, Exec.bind_ok, b1, Exec.bind_ok]
      have hcore : core l'' = core e.layer :=
        ((core_backward b1).trans (core_setLastInput _ _)).trans t2
      refine ⟨{ st1 with layers := st1.layers.set e.idx l'' }, gi, ?_, a1, ⟨l'', ?_, b2⟩, ?_, ?_, ?_, r7⟩
      · show each (backArcAt x) (backArcs q es ++ [(headIdx q es, e.idx)]) st = _
        rw [each_append _ _ r1]
        show (backArcAt x st1 (headIdx q es, e.idx) >>= fun r => _) = _
        rw [e3, Exec.bind_ok]
        rfl
      · show (st1.layers.set e.idx l'')[e.idx]? = _
        simp [hi]
      · intro hsm X X' t0 hX0 hXl hX
        obtain ⟨Z, Z', z1, z2, z3, z4⟩ := a3 (hsm e (by simp)) X X' t0 hX0 hXl hX
        obtain ⟨Y, Y', y1, y2, y3, y4⟩ := r4 (fun e' he' => hsm e' (by simp [he'])) Z Z' t0 z2 (fun t => (z1 t).2) z3
        exact ⟨Y, Y', fun t => ⟨.cons (z1 t).1 (y1 t).1, (y1 t).2⟩, y2, y3, y4.trans z4⟩
      · intro j e' he'
        cases j with
        | zero =>
          simp only [List.getElem?_cons_zero, Option.some.injEq] at he'
          subst he'
          refine ⟨l'', by show (st1.layers.set e.idx l'')[e.idx]? = _; simp [hi], hcore, b3, ?_⟩
          intro b k hb hb' hk hsm
          obtain ⟨Z, Z', z1, z2, z3, z4⟩ := a4 b k hb hb' hk
          obtain ⟨Y, Y', y1, y2, y3, y4⟩ := r4 hsm Z Z' _ z2 (fun t => (z1 t).2) z3
          refine ⟨Y, Y', fun s => ⟨.cons (z1 s).1 (y1 s).1, (y1 s).2⟩, y2, y3, ?_⟩
          rw [y4, z4, b5 b k hb hb' hk, t5]
          ring
        | succ j =>
          simp only [List.getElem?_cons_succ] at he'
          obtain ⟨k', c1, c2, c3, c4⟩ := r5 j e' he'
          have hne' : e.idx ≠ e'.idx := by
            intro heq
            exact hne (by rw [heq]; exact List.mem_map_of_mem (List.mem_of_getElem? he'))
          refine ⟨k', ?_, c2, c3, ?_⟩
          · show (st1.layers.set e.idx l'')[e'.idx]? = _
            rw [List.getElem?_set_ne hne']
            exact c1
          · intro b k hb hb' hk hsm
            obtain ⟨Y, Y', y1, y2, y3, y4⟩ := c4 b k hb hb' hk hsm
            exact ⟨Y, Y', fun s => ⟨.cons hy (y1 s).1, (y1 s).2⟩, y2, y3, y4⟩
      · intro i hi'
        have hi1 : i ∉ es.map Stage.idx := fun h => hi' (List.mem_cons_of_mem _ h)
        have hi2 : e.idx ≠ i := fun h => hi' (by rw [← h]; exact List.mem_cons_self)
        show (st1.layers.set e.idx l'')[i]? = _
        rw [List.getElem?_set_ne hi2]
        exact r6 i hi1

/-! ### The loss layer -/

/-- What the loss layers leave as gradient. -/
def lossGrad (f : LossFn) (inv : ℝ) (t y : Nat → ℝ) (i : Nat) : ℝ :=
  match f with
  | .mse => -2 * inv * (t i - y i)
  | .cce => inv * (-t i / max (y i) Loss.numMin)

theorem cceForward_frame {l : Loss.Layer} {x : List ℝ} {n : Nat} (hn : 0 < n) (hs : l.inputSize = n)
    (ht : l.target.length = n) (hx : x.length = n) (ha : ∃ k, k < n ∧ vec l.target k ≠ 0) :
    ∃ l', Loss.cceForward l x = .ok (l', none) ∧ l'.gradients = l.gradients ∧ l'.target = l.target ∧
      l'.invBatch = l.invBatch ∧ l'.inputSize = l.inputSize := by
  unfold Loss.cceForward
  have he : l.target ≠ [] := by intro h; rw [h] at ht; simp at ht; omega
  rw [if_neg (by simp [he]), hx, Loss.crossEntropy_eq (by omega) (by omega), Exec.bind_ok]
  dsimp only
  obtain ⟨k, hk1, hk2⟩ := Act.maxElement_spec hn (by omega : n ≤ x.length)
  have hm : Act.maxAndArgmax x n = .ok (vec x k, k) := by
    have := hk2.1
    unfold Act.maxAndArgmax
    rw [hk1, Exec.bind_ok, if_pos hk2.1, rd_vec (by omega)]
    rfl
  rw [hm, Exec.bind_ok]
  unfold Loss.argactive
  dsimp only
  rw [hs]
  rcases Loss.argactiveFrom_spec (t := l.target) n 0 (by omega) (by intro j hj; omega) with
    ⟨a, ha1, _⟩ | ⟨_, h0⟩
  · rw [ha1]
    dsimp only
    split
    · exact ⟨_, rfl, rfl, rfl, rfl, rfl⟩
    · exact ⟨_, rfl, rfl, rfl, rfl, rfl⟩
  · obtain ⟨k, hk, hk'⟩ := ha
    exact absurd (h0 k (by omega)) hk'

theorem loss_train {f : LossFn} {L : Loss.Layer} {m : Nat} {t y : List ℝ} (ht : CanScore f m t)
    (hs : L.inputSize = m) (hy : y.length = m) (htL : L.target = t) :
    ∃ L', (AnyLayer.loss f L).trainingForward y = .ok (.loss f L', none) ∧ L'.gradients = L.gradients ∧
      L'.target = t ∧ L'.invBatch = L.invBatch ∧ L'.inputSize = m := by
  obtain ⟨h1, h2, h3⟩ := ht
  cases f with
  | mse =>
    have he : t ≠ [] := by intro h; rw [h] at h1; simp at h1; omega
    obtain ⟨L', a1, a2, a3, a4, a5, a6⟩ := Loss.mseForward_frame (l := { L with lastInput := y })
      (x := y) (n := m) (by rw [← htL] at he; exact he) (by rw [← htL] at h1; exact h1) hy
    refine ⟨L', ?_, a3, a4.trans htL, a6, ?_⟩
    · show (Loss.mseForward _ y >>= fun r => _) = _
      rw [a1]
      rfl
    · unfold Loss.mseForward at a1
      rw [if_neg (by simp [htL, he])] at a1
      obtain ⟨v, _, a1⟩ := Exec.bind_eq_ok a1
      dsimp only at a1
      split at a1 <;> (cases a1; exact hs)
  | cce =>
    obtain ⟨L', a1, a3, a4, a6, a7⟩ := cceForward_frame (l := { L with lastInput := y })
      (x := y) h2 hs (by rw [← htL] at h1; exact h1) hy (by
        obtain ⟨k, hk⟩ := h3 rfl
        exact ⟨k, hk.1, by rw [← htL] at hk; exact hk.2⟩)
    refine ⟨L', ?_, a3, a4.trans htL, a6, a7.trans hs⟩
    show (Loss.cceForward _ y >>= fun r => _) = _
    rw [a1]
    rfl

theorem loss_back {f : LossFn} {L : Loss.Layer} {m : Nat} {t y : List ℝ} (ht : t.length = m)
    (hg : L.gradients.length = m) (hy : y.length = m) (htL : L.target = t) :
    (((AnyLayer.loss f L).setLastInput y).backward []) = .ok (.loss f { L with
      lastInput := y, gradients := tab m (lossGrad f L.invBatch (vec t) (vec y)) }, none) := by
  cases f with
  | mse =>
    show keep _ (Loss.mseBackward _) _ = _
    unfold Loss.mseBackward
    dsimp only
    rw [hg, Loss.mse1_eq hg (by rw [htL]; omega) (by omega), Exec.bind_ok, htL]
    rfl
  | cce =>
    show keep _ (Loss.cceBackward _) _ = _
    unfold Loss.cceBackward
    dsimp only
    rw [hg, Loss.crossEntropy1_eq hg (by rw [htL]; omega) (by omega), Exec.bind_ok, htL]
    rfl

theorem objective_curve {f : LossFn} {m : Nat} {inv : ℝ} {t y : List ℝ} {Y : ℝ → List ℝ} {Y' : Nat → ℝ}
    {s0 : ℝ} (h0 : Y s0 = y) (hY : ∀ i, i < m → HasDerivAt (fun s => vec (Y s) i) (Y' i) s0)
    (hs : LossSmooth f m t y) :
    HasDerivAt (fun s => objective f m inv t (Y s))
      (∑ i ∈ range m, vec (tab m (lossGrad f inv (vec t) (vec y))) i * Y' i) s0 := by
  have e : ∑ i ∈ range m, vec (tab m (lossGrad f inv (vec t) (vec y))) i * Y' i
      = ∑ i ∈ range m, lossGrad f inv (vec t) (vec y) i * Y' i :=
    Finset.sum_congr rfl fun i hi => by rw [vec_tab _ (by simpa using hi)]
  rw [e]
  cases f with
  | mse =>
    show HasDerivAt (fun s => inv * ∑ i ∈ range m, (vec t i - vec (Y s) i) ^ 2) _ s0
    have := (HasDerivAt.fun_sum (u := range m) fun i hi =>
      (((hY i (by simpa using hi)).const_sub (vec t i)).fun_pow 2)).const_mul inv
    refine this.congr_deriv ?_
    rw [Finset.mul_sum]
    apply Finset.sum_congr rfl
    intro i _
    rw [h0]
    simp only [lossGrad]
    ring
  | cce =>
    show HasDerivAt (fun s => inv * -∑ i ∈ range m, vec t i * Real.log (max (vec (Y s) i) Loss.epsilon))
      _ s0
    have key : ∀ i ∈ range m, HasDerivAt
        (fun s => vec t i * Real.log (max (vec (Y s) i) Loss.epsilon))
        (vec t i / max (vec y i) Loss.numMin * Y' i) s0 := by
      intro i hi
      have hi' : i < m := by simpa using hi
      by_cases hz : vec t i = 0
      · simp only [hz, zero_mul, zero_div]
        exact hasDerivAt_const _ _
      · have hlt := hs rfl i hi' hz
        have hpos : 0 < vec y i := lt_trans Loss.epsilon_pos hlt
        rw [max_eq_left (le_of_lt (lt_trans Loss.numMin_lt_epsilon hlt))]
        have h1 : HasDerivAt (fun s => vec t i * Real.log (vec (Y s) i))
            (vec t i * (Y' i / vec (Y s0) i)) s0 :=
          ((hY i hi').log (by rw [h0]; exact hpos.ne')).const_mul _
        rw [h0] at h1
        refine (h1.congr_deriv (by ring)).congr_of_eventuallyEq ?_
        have hc : ∀ᶠ s in nhds s0, Loss.epsilon < vec (Y s) i := by
          have hc := (hY i hi').continuousAt
          refine Filter.Tendsto.eventually_const_lt ?_ hc
          beta_reduce
          rw [h0]; exact hlt
        filter_upwards [hc] with s hs'
        rw [max_eq_left (le_of_lt hs')]
    have := ((HasDerivAt.fun_sum key).fun_neg).const_mul inv
    refine this.congr_deriv ?_
    rw [← Finset.sum_neg_distrib, Finset.mul_sum]
    apply Finset.sum_congr rfl
    intro i _
    simp only [lossGrad]
    ring

/-! ### The runs -/

theorem arc_run {E : Edges} (hE : EdgesOk E) {a : Nat} {rest : List Nat} (hn : (a :: rest).Nodup)
    (h : ∀ x y, y ∈ successors E x ↔ (x, y) ∈ (a :: rest).zip rest) :
    (runLoop (successors E) (E.length + 2) [a] [] []).getD [] = (a :: rest).zip rest := by
  obtain ⟨r, h1, _⟩ := run_spec (succ := successors E) (start := [a]) (by simp)
    (successors_nodup hE) (keys_of E)
  have e := runLoop_path (successors E) rest a [] []
    (rest.length + 1 + ((E.map Prod.fst).length + 2))
    (by omega) hn (by simp) (fun x _ y => h x y) (successors_nodup hE)
  rw [h1 _ (by omega)] at e
  rw [h1 _ (by simp)]
  simpa using e

theorem mem_zip_tail_iff {x y : Nat} : ∀ (l : List Nat), (x, y) ∈ l.zip l.tail ↔
    ∃ a b, l = a ++ x :: y :: b := by
  intro l
  induction l with
  | nil => simp
  | cons c l ih =>
    cases l with
    | nil =>
      simp only [List.tail_cons, List.zip_nil_right, List.not_mem_nil, false_iff]
      rintro ⟨a, b, h⟩
      have := congrArg List.length h
      simp at this
      omega
    | cons d l =>
      simp only [List.tail_cons, List.zip_cons_cons, List.mem_cons, Prod.mk.injEq]
      simp only [List.tail_cons] at ih
      rw [ih]
      constructor
      · rintro (⟨rfl, rfl⟩ | ⟨a, b, h⟩)
        · exact ⟨[], l, rfl⟩
        · exact ⟨c :: a, b, by rw [h]; rfl⟩
      · rintro ⟨a, b, h⟩
        cases a with
        | nil =>
          simp only [List.nil_append, List.cons.injEq] at h
          exact Or.inl ⟨h.1.symm, h.2.1.symm⟩
        | cons a0 a =>
          simp only [List.cons_append, List.cons.injEq] at h
          exact Or.inr ⟨a, b, h.2⟩

theorem mem_zip_reverse {x y : Nat} (l : List Nat) :
    (x, y) ∈ l.reverse.zip l.reverse.tail ↔ (y, x) ∈ l.zip l.tail := by
  rw [mem_zip_tail_iff, mem_zip_tail_iff]
  constructor
  · rintro ⟨a, b, h⟩
    refine ⟨b.reverse, a.reverse, ?_⟩
    have := congrArg List.reverse h
    simpa using this
  · rintro ⟨a, b, h⟩
    exact ⟨b.reverse, a.reverse, by rw [h]; simp⟩

theorem arcs_zip {q : Nat} : ∀ (es : List Stage) (i : Nat),
    ((i :: (es.map Stage.idx ++ [q])).zip (es.map Stage.idx ++ [q])).map
      (fun p => (Source.output p.1, p.2))
      = arcs (.output i) es ++ [(lastSource (.output i) es, q)] := by
  intro es
  induction es with
  | nil => intro i; rfl
  | cons e es ih =>
    intro i
    have := ih e.idx
    simp only [List.map_cons, List.cons_append, List.zip_cons_cons] at this ⊢
    rw [this]
    rfl

theorem zip_snoc : ∀ (R : List Nat) (q e : Nat), (q :: (R ++ [e])).zip (R ++ [e])
    = (q :: R).zip R ++ [((q :: R).getLast (by simp), e)] := by
  intro R
  induction R with
  | nil => intro q e; rfl
  | cons r R ih =>
    intro q e
    have := ih r e
    simp only [List.cons_append, List.zip_cons_cons] at this ⊢
    rw [this]
    simp

theorem backArcs_zip {q : Nat} : ∀ (es : List Stage),
    (q :: (es.map Stage.idx).reverse).zip (es.map Stage.idx).reverse = backArcs q es := by
  intro es
  induction es with
  | nil => rfl
  | cons e es ih =>
    simp only [List.map_cons, List.reverse_cons]
    rw [zip_snoc, ih]
    show _ = backArcs q es ++ _
    congr 3
    cases es with
    | nil => rfl
    | cons e' es => simp [headIdx]

theorem stages_of : ∀ {ks : List AnyLayer} {n m : Nat}, Trainable n m ks → ∀ (p : List Nat) {x : List ℝ},
    p.length = ks.length → x.length = n →
    ∃ es y, es.map Stage.idx = p ∧ es.map Stage.layer = ks ∧ Chain n x es m y ∧
      ∀ e ∈ es, Maps e.nin e.nout e.layer := by
  intro ks n m h
  induction h with
  | nil n =>
    intro p x hp hx
    exact ⟨[], x, (List.length_eq_zero_iff.mp hp).symm, rfl, .nil n x hx, by simp⟩
  | @cons n k m l ls h1 h2 _ ih =>
    intro p x hp hx
    cases p with
    | nil => simp at hp
    | cons i p =>
      obtain ⟨y, hy⟩ := adjoint_of h1 hx
      obtain ⟨es, w, a1, a2, a3, a4⟩ := ih p (by simpa using hp) hy.2.1
      exact ⟨⟨i, l, n, k, x, _⟩ :: es, w, by simp [a1], by simp [a2],
        Chain.cons (e := ⟨i, l, n, k, x, _⟩) hx h2 hy a3, by
          intro e he
          rcases List.mem_cons.mp he with rfl | he
          · exact h1
          · exact a4 e he⟩

end

end Verif.Net
