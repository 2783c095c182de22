import Verif.Spec.Star
import Verif.Proofs.StarRun
import Verif.Proofs.BackAll

/-! A training step of a model whose input layer feeds several branches. -/

namespace Verif.Net
open Verif.Spec Verif.Graph Finset

noncomputable section

/-- A branch at work. -/
structure Wing where
  es : List Stage
  q : Nat
  f : LossFn
  inv : ℝ
  y : List ℝ
  gin : Nat → List ℝ
  gp : Nat → Nat → Nat → ℝ
  gp0 : Nat → Nat → ℝ

/-- The layer at a position, the loss layer at the end. -/
def Wing.node (w : Wing) (j : Nat) : Nat := (w.es[j]?.map Stage.idx).getD w.q

/-- The layer before a position. -/
def Wing.prev (w : Wing) (a : Nat) : Nat → Nat
  | 0 => a
  | j + 1 => w.node j

/-- The branches are disjoint. -/
structure Separate (a : Nat) (ws : List Wing) : Prop where
  inj : ∀ w ∈ ws, ∀ w' ∈ ws, ∀ j j', j ≤ w.es.length → j' ≤ w'.es.length → w.node j = w'.node j' →
    w = w' ∧ j = j'
  root : ∀ w ∈ ws, ∀ j, j ≤ w.es.length → w.node j ≠ a
  nodup : ws.Nodup

theorem Wing.node_of {w : Wing} {j : Nat} {e : Stage} (h : w.es[j]? = some e) : w.node j = e.idx := by
  unfold Wing.node; rw [h]; rfl

theorem Wing.node_end (w : Wing) : w.node w.es.length = w.q := by
  unfold Wing.node; simp

theorem Wing.lt_of {w : Wing} {j : Nat} {e : Stage} (h : w.es[j]? = some e) : j < w.es.length :=
  (List.getElem?_eq_some_iff.mp h).1

/-- The loss layer of a branch. -/
def LossAt (m : Nat) (t : List ℝ) (w : Wing) (ls : List AnyLayer) : Prop :=
  ∃ L, ls[w.q]? = some (.loss w.f L) ∧ L.inputSize = m ∧ L.gradients.length = m ∧ L.invBatch = w.inv ∧
    L.target = t

/-- What a branch at work satisfies. -/
structure WingOk (m : Nat) (t : List ℝ) (e0 : Stage) (w : Wing) : Prop where
  chain : Chain e0.nout e0.output w.es m w.y
  grad : w.gin w.es.length = tab m (lossGrad w.f w.inv (vec t) (vec w.y))
  back : ∀ (j : Nat) (e : Stage), w.es[j]? = some e →
    Back e.nin e.nout e.layer e.input e.output (w.gin (j + 1)) (w.gin j) (w.gp j)
  rootBack : ∃ gi, Back e0.nin e0.nout e0.layer e0.input e0.output (w.gin 0) gi w.gp0
  target : CanScore w.f m t

/-! ### Forwards -/

structure Fwd (m : Nat) (t : List ℝ) (ls0 : List AnyLayer) (e0 : Stage) (ws : List Wing)
    (done : List (Nat × Nat)) (st : Steps) : Prop where
  len : st.from_.length = st.layers.length
  root : ∃ l, st.layers[e0.idx]? = some l ∧ core l = core e0.layer ∧ HasGrads e0.nin e0.nout l ∧
    l.lastOutput = .ok e0.output ∧ l.paramGrads = e0.layer.paramGrads
  rootFrom : st.from_[e0.idx]? = some (some .external)
  stage : ∀ w ∈ ws, ∀ (j : Nat) (e : Stage), w.es[j]? = some e → ∃ l, st.layers[e.idx]? = some l ∧
    core l = core e.layer ∧ HasGrads e.nin e.nout l ∧ l.paramGrads = e.layer.paramGrads ∧
    ((w.prev e0.idx j, w.node j) ∈ done → l.lastOutput = .ok e.output ∧
      st.from_[e.idx]? = some (some (.output (w.prev e0.idx j))))
  loss : ∀ w ∈ ws, LossAt m t w st.layers ∧ ((w.prev e0.idx w.es.length, w.node w.es.length) ∈ done →
    st.from_[w.q]? = some (some (.output (w.prev e0.idx w.es.length))))
  other : ∀ i, i ≠ e0.idx → (∀ w ∈ ws, ∀ j, j ≤ w.es.length → i ≠ w.node j) → st.layers[i]? = ls0[i]?

theorem value_output {ls : List AnyLayer} {x v : List ℝ} {i : Nat} {l : AnyLayer} (h : ls[i]? = some l)
    (hl : l.lastOutput = .ok v) : value ls x (.output i) = .ok v := by
  show (rd ls i >>= AnyLayer.lastOutput) = .ok v
  rw [rd_of_some h, Exec.bind_ok, hl]

/-- The value that arrives at position `j`. -/
theorem fwd_value {m : Nat} {t x : List ℝ} {ls0 : List AnyLayer} {e0 : Stage} {ws : List Wing}
    {done : List (Nat × Nat)} {st : Steps} (h : Fwd m t ls0 e0 ws done st) {w : Wing} (hw : w ∈ ws)
    {j : Nat} (hj : j ≤ w.es.length)
    (hd : ∀ i, j = i + 1 → (w.prev e0.idx i, w.node i) ∈ done) :
    value st.layers x (.output (w.prev e0.idx j)) = .ok (inpAt e0.output w.es j) := by
  cases j with
  | zero =>
    obtain ⟨l, h1, _, _, h4, _⟩ := h.root
    exact value_output h1 h4
  | succ i =>
    have hi : i < w.es.length := by omega
    obtain ⟨l, h1, _, _, _, h5⟩ := h.stage w hw i w.es[i] (List.getElem?_eq_getElem hi)
    obtain ⟨h6, _⟩ := h5 (hd i rfl)
    have : w.prev e0.idx (i + 1) = w.es[i].idx := w.node_of (List.getElem?_eq_getElem hi)
    rw [this]
    have e : inpAt e0.output w.es (i + 1) = w.es[i].output := by
      show (w.es[i]?.map Stage.output).getD [] = _
      rw [List.getElem?_eq_getElem hi]; rfl
    rw [e]
    exact value_output h1 h6

theorem fwd_step {m : Nat} {t x : List ℝ} {ls0 : List AnyLayer} {e0 : Stage} {ws : List Wing}
    {done : List (Nat × Nat)} {st : Steps} (hs : Separate e0.idx ws) (hok : ∀ w ∈ ws, WingOk m t e0 w)
    (h : Fwd m t ls0 e0 ws done st) {w : Wing} (hw : w ∈ ws) {j : Nat} (hj : j ≤ w.es.length)
    (hd : ∀ i, j = i + 1 → (w.prev e0.idx i, w.node i) ∈ done) :
    ∃ st', trainAt x st (.output (w.prev e0.idx j), w.node j) = .ok (st', none) ∧
      Fwd m t ls0 e0 ws (done ++ [(w.prev e0.idx j, w.node j)]) st' := by
  have hv := fwd_value (x := x) h hw hj hd
  obtain ⟨c1, c2⟩ := chain_index (hok w hw).chain
  have hmem : ∀ w' ∈ ws, ∀ j' ≤ w'.es.length,
      (w'.prev e0.idx j', w'.node j') ∈ done ++ [(w.prev e0.idx j, w.node j)] → w'.node j' ≠ w.node j →
      (w'.prev e0.idx j', w'.node j') ∈ done := by
    intro w' _ j' _ h1 h2
    rcases List.mem_append.mp h1 with h1 | h1
    · exact h1
    · simp only [List.mem_singleton, Prod.mk.injEq] at h1
      exact absurd h1.2 h2
  by_cases hlt : j < w.es.length
  · have he := List.getElem?_eq_getElem hlt
    obtain ⟨d1, d2, d3⟩ := c2 j w.es[j] he
    obtain ⟨l, h1, h2, h3, h4, _⟩ := h.stage w hw j w.es[j] he
    have hnode : w.node j = w.es[j].idx := w.node_of he
    obtain ⟨l', t1, t2, t3, t4, t5⟩ := trainAt_stage (x := x) (st := st) (s := .output (w.prev e0.idx j))
      (e := { w.es[j] with layer := l }) (by show value _ _ _ = .ok w.es[j].input; rw [hv, d1]) h1 h.len h3
      (yields_core h2 d3.1)
    have hi : w.node j < st.layers.length := by
      rw [hnode]; exact (List.getElem?_eq_some_iff.mp h1).1
    refine ⟨⟨st.layers.set (w.node j) l', st.from_.set (w.node j) (some (.output (w.prev e0.idx j)))⟩, ?_, ?_⟩
    · rw [hnode]; exact t1
    · refine ⟨by simpa using h.len, ?_, ?_, ?_, ?_, ?_⟩
      · obtain ⟨l0, r⟩ := h.root
        refine ⟨l0, ?_, r.2⟩
        rw [List.getElem?_set_ne (hs.root w hw j hj)]
        exact r.1
      · show (st.from_.set _ _)[_]? = _
        rw [List.getElem?_set_ne (hs.root w hw j hj)]
        exact h.rootFrom
      · intro w' hw' j' e' he'
        have hj' := (Wing.lt_of he').le
        have hn' : w'.node j' = e'.idx := w'.node_of he'
        by_cases hsame : w'.node j' = w.node j
        · obtain ⟨rfl, rfl⟩ := hs.inj w' hw' w hw j' j hj' hj hsame
          rw [he] at he'
          simp only [Option.some.injEq] at he'
          subst he'
          refine ⟨l', ?_, t2.trans h2, t3, t5.trans h4, fun _ => ⟨t4, ?_⟩⟩
          · show (st.layers.set _ _)[_]? = _
            rw [← hn']; simp [hi]
          · show (st.from_.set _ _)[_]? = _
            rw [← hn']; simp [h.len, hi]
        · obtain ⟨l1, r1, r2, r3, r4, r5⟩ := h.stage w' hw' j' e' he'
          have hne : w.node j ≠ e'.idx := by rw [← hn']; exact Ne.symm hsame
          refine ⟨l1, ?_, r2, r3, r4, fun hm => ?_⟩
          · show (st.layers.set _ _)[_]? = _
            rw [List.getElem?_set_ne hne]; exact r1
          · obtain ⟨r6, r7⟩ := r5 (hmem w' hw' j' hj' hm hsame)
            refine ⟨r6, ?_⟩
            show (st.from_.set _ _)[_]? = _
            rw [List.getElem?_set_ne hne]; exact r7
      · intro w' hw'
        obtain ⟨⟨L, r1, r2⟩, r3⟩ := h.loss w' hw'
        have hsame : w'.node w'.es.length ≠ w.node j := by
          intro hh
          obtain ⟨rfl, hh⟩ := hs.inj w' hw' w hw _ j (le_refl _) hj hh
          omega
        have hne : w.node j ≠ w'.q := by rw [← w'.node_end]; exact Ne.symm hsame
        refine ⟨⟨L, ?_, r2⟩, fun hm => ?_⟩
        · show (st.layers.set _ _)[_]? = _
          rw [List.getElem?_set_ne hne]; exact r1
        · show (st.from_.set _ _)[_]? = _
          rw [List.getElem?_set_ne hne]
          exact r3 (hmem w' hw' _ (le_refl _) hm hsame)
      · intro i hi1 hi2
        show (st.layers.set _ _)[_]? = _
        rw [List.getElem?_set_ne (Ne.symm (hi2 w hw j hj))]
        exact h.other i hi1 hi2
  · have hje : j = w.es.length := by omega
    subst hje
    have hnode := w.node_end
    obtain ⟨⟨L, l1, l2, l3, l4, l5⟩, _⟩ := h.loss w hw
    obtain ⟨L1, u1, u2, u3, u4, u5⟩ := loss_train (f := w.f) (L := L) (hok w hw).target l2
      ((hok w hw).chain.length.2) l5
    have hi : w.node w.es.length < st.layers.length := by
      rw [hnode]; exact (List.getElem?_eq_some_iff.mp l1).1
    refine ⟨⟨st.layers.set (w.node w.es.length) (.loss w.f L1),
      st.from_.set (w.node w.es.length) (some (.output (w.prev e0.idx w.es.length)))⟩, ?_, ?_⟩
    · unfold trainAt
      dsimp only
      rw [hv, c1, hnode]
      dsimp only
      rw [rd_of_some l1, Exec.bind_ok, u1, Exec.bind_ok]
    · refine ⟨by simpa using h.len, ?_, ?_, ?_, ?_, ?_⟩
      · obtain ⟨l0, r⟩ := h.root
        refine ⟨l0, ?_, r.2⟩
        rw [List.getElem?_set_ne (hs.root w hw _ hj)]
        exact r.1
      · show (st.from_.set _ _)[_]? = _
        rw [List.getElem?_set_ne (hs.root w hw _ hj)]
        exact h.rootFrom
      · intro w' hw' j' e' he'
        have hj' := Wing.lt_of he'
        have hn' : w'.node j' = e'.idx := w'.node_of he'
        have hsame : w'.node j' ≠ w.node w.es.length := by
          intro hh
          obtain ⟨rfl, hh⟩ := hs.inj w' hw' w hw j' _ hj'.le hj hh
          omega
        obtain ⟨l1, r1, r2, r3, r4, r5⟩ := h.stage w' hw' j' e' he'
        have hne : w.node w.es.length ≠ e'.idx := by rw [← hn']; exact Ne.symm hsame
        refine ⟨l1, ?_, r2, r3, r4, fun hm => ?_⟩
        · show (st.layers.set _ _)[_]? = _
          rw [List.getElem?_set_ne hne]; exact r1
        · obtain ⟨r6, r7⟩ := r5 (hmem w' hw' j' hj'.le hm hsame)
          refine ⟨r6, ?_⟩
          show (st.from_.set _ _)[_]? = _
          rw [List.getElem?_set_ne hne]; exact r7
      · intro w' hw'
        by_cases hsame : w'.node w'.es.length = w.node w.es.length
        · obtain ⟨rfl, _⟩ := hs.inj w' hw' w hw _ _ (le_refl _) hj hsame
          refine ⟨⟨L1, ?_, u5, u2 ▸ l3, u4.trans l4, u3⟩, fun _ => ?_⟩
          · show (st.layers.set _ _)[_]? = _
            rw [← hnode]; simp [hi]
          · show (st.from_.set _ _)[_]? = _
            rw [← hnode]; simp [h.len, hi]
        · obtain ⟨⟨L', r1, r2⟩, r3⟩ := h.loss w' hw'
          have hne : w.node w.es.length ≠ w'.q := by rw [← w'.node_end]; exact Ne.symm hsame
          refine ⟨⟨L', ?_, r2⟩, fun hm => ?_⟩
          · show (st.layers.set _ _)[_]? = _
            rw [List.getElem?_set_ne hne]; exact r1
          · show (st.from_.set _ _)[_]? = _
            rw [List.getElem?_set_ne hne]
            exact r3 (hmem w' hw' _ (le_refl _) hm hsame)
      · intro i hi1 hi2
        show (st.layers.set _ _)[_]? = _
        rw [List.getElem?_set_ne (Ne.symm (hi2 w hw _ hj))]
        exact h.other i hi1 hi2

/-! ### Backwards -/

theorem sum_insert {ws : List Wing} {key : Wing → Nat × Nat} {v : Wing → ℝ} {done : List (Nat × Nat)}
    {w : Wing} (hn : ws.Nodup) (hk : ∀ w1 ∈ ws, key w1 = key w → w1 = w) (hw : w ∈ ws)
    (hd : key w ∉ done) :
    (ws.map fun c => if key c ∈ done ++ [key w] then v c else 0).sum
      = (ws.map fun c => if key c ∈ done then v c else 0).sum + v w := by
  have rest : ∀ (l : List Wing), w ∉ l → (∀ w1 ∈ l, key w1 = key w → w1 = w) →
      (l.map fun c => if key c ∈ done ++ [key w] then v c else 0)
        = l.map fun c => if key c ∈ done then v c else 0 := by
    intro l hl h1
    apply List.map_congr_left
    intro c hc
    have : key c ≠ key w := fun h => hl (h1 c hc h ▸ hc)
    simp [this]
  induction ws with
  | nil => simp at hw
  | cons c ws ih =>
    obtain ⟨n1, n2⟩ := List.nodup_cons.mp hn
    simp only [List.map_cons, List.sum_cons]
    rcases List.mem_cons.mp hw with rfl | hw
    · rw [rest ws n1 fun w1 h1 => hk w1 (by simp [h1])]
      simp [hd]
      ring
    · have hc : key c ≠ key w := fun h => n1 (hk c (by simp) h ▸ hw)
      rw [ih n2 (fun w1 h1 => hk w1 (by simp [h1])) hw]
      simp [hc]
      ring

structure Bwd (m : Nat) (ls0 : List AnyLayer) (e0 : Stage) (ws : List Wing) (F : List (Option Source))
    (done : List (Nat × Nat)) (st : Steps) : Prop where
  from_ : st.from_ = F
  root : ∃ l, st.layers[e0.idx]? = some l ∧ core l = core e0.layer ∧ HasGrads e0.nin e0.nout l ∧
    l.lastOutput = .ok e0.output ∧
    ∀ b k, Learned e0.layer b → b < e0.layer.params.length → k < (e0.layer.params.getD b []).length →
      entry l.paramGrads b k = entry e0.layer.paramGrads b k +
        (ws.map fun w => if (w.node 0, w.prev e0.idx 0) ∈ done then w.gp0 b k else 0).sum
  stage : ∀ w ∈ ws, ∀ (j : Nat) (e : Stage), w.es[j]? = some e → ∃ l, st.layers[e.idx]? = some l ∧
    core l = core e.layer ∧ HasGrads e.nin e.nout l ∧ l.lastOutput = .ok e.output ∧
    ((w.node (j + 1), w.prev e0.idx (j + 1)) ∈ done → l.lastInputGradient = w.gin j) ∧
    ∀ b k, Learned e.layer b → b < e.layer.params.length → k < (e.layer.params.getD b []).length →
      entry l.paramGrads b k = entry e.layer.paramGrads b k +
        if (w.node (j + 1), w.prev e0.idx (j + 1)) ∈ done then w.gp j b k else 0
  loss : ∀ w ∈ ws, ∃ L, st.layers[w.q]? = some (.loss w.f L) ∧ L.inputSize = m ∧
    L.gradients = w.gin w.es.length ∧ L.invBatch = w.inv
  other : ∀ i, i ≠ e0.idx → (∀ w ∈ ws, ∀ j, j ≤ w.es.length → i ≠ w.node j) → st.layers[i]? = ls0[i]?

theorem bwd_gradient {m : Nat} {ls0 : List AnyLayer} {e0 : Stage} {ws : List Wing}
    {F : List (Option Source)} {done : List (Nat × Nat)} {st : Steps} (h : Bwd m ls0 e0 ws F done st)
    {w : Wing} (hw : w ∈ ws) {j : Nat} (hj : j ≤ w.es.length)
    (hd : j < w.es.length → (w.node (j + 1), w.prev e0.idx (j + 1)) ∈ done) :
    ∃ l, st.layers[w.node j]? = some l ∧ l.lastInputGradient = w.gin j := by
  by_cases hlt : j < w.es.length
  · have he := List.getElem?_eq_getElem hlt
    obtain ⟨l, h1, _, _, _, h5, _⟩ := h.stage w hw j w.es[j] he
    exact ⟨l, by rw [w.node_of he]; exact h1, h5 (hd hlt)⟩
  · have hje : j = w.es.length := by omega
    subst hje
    obtain ⟨L, h1, _, h3, _⟩ := h.loss w hw
    exact ⟨.loss w.f L, by rw [w.node_end]; exact h1, h3⟩

theorem bwd_value {m : Nat} {x : List ℝ} {ls0 : List AnyLayer} {e0 : Stage} {ws : List Wing}
    {F : List (Option Source)} {done : List (Nat × Nat)} {st : Steps} (h : Bwd m ls0 e0 ws F done st)
    {w : Wing} (hw : w ∈ ws) {j : Nat} (hj : j ≤ w.es.length) :
    value st.layers x (.output (w.prev e0.idx j)) = .ok (inpAt e0.output w.es j) := by
  cases j with
  | zero =>
    obtain ⟨l, h1, _, _, h4, _⟩ := h.root
    exact value_output h1 h4
  | succ i =>
    have hi : i < w.es.length := by omega
    obtain ⟨l, h1, _, _, h4, _⟩ := h.stage w hw i w.es[i] (List.getElem?_eq_getElem hi)
    have : w.prev e0.idx (i + 1) = w.es[i].idx := w.node_of (List.getElem?_eq_getElem hi)
    rw [this]
    have e : inpAt e0.output w.es (i + 1) = w.es[i].output := by
      show (w.es[i]?.map Stage.output).getD [] = _
      rw [List.getElem?_eq_getElem hi]; rfl
    rw [e]
    exact value_output h1 h4

theorem backArcAt_eq {x : List ℝ} {st : Steps} {i k : Nat} {li lk l'' : AnyLayer} {s : Source} {v g : List ℝ}
    (h1 : st.layers[i]? = some li) (h2 : li.lastInputGradient = g) (h3 : st.layers[k]? = some lk)
    (h4 : st.from_[k]? = some (some s)) (h5 : value st.layers x s = .ok v)
    (h6 : (lk.setLastInput v).backward g = .ok (l'', none)) :
    backArcAt x st (i, k) = .ok ({ st with layers := st.layers.set k l'' }, none) := by
  unfold backArcAt backwardAt follow
  dsimp only
  rw [rd_of_some h1, Exec.bind_ok, h2, rd_of_some h3, Exec.bind_ok, h4]
  dsimp only
  rw [h5, Exec.bind_ok, Exec.bind_ok, h6, Exec.bind_ok]

theorem bwd_step {m : Nat} {t x : List ℝ} {ls0 : List AnyLayer} {e0 : Stage} {ws : List Wing}
    {F : List (Option Source)} {done : List (Nat × Nat)} {st : Steps} (hs : Separate e0.idx ws)
    (hok : ∀ w ∈ ws, WingOk m t e0 w) (hx : e0.input = x)
    (hF0 : F[e0.idx]? = some (some .external))
    (hF : ∀ w ∈ ws, ∀ (j : Nat) (e : Stage), w.es[j]? = some e →
      F[e.idx]? = some (some (.output (w.prev e0.idx j))))
    (h : Bwd m ls0 e0 ws F done st) {w : Wing} (hw : w ∈ ws) {j : Nat} (hj : j ≤ w.es.length)
    (hd : j < w.es.length → (w.node (j + 1), w.prev e0.idx (j + 1)) ∈ done)
    (hnew : (w.node j, w.prev e0.idx j) ∉ done) :
    ∃ st', backArcAt x st (w.node j, w.prev e0.idx j) = .ok (st', none) ∧
      Bwd m ls0 e0 ws F (done ++ [(w.node j, w.prev e0.idx j)]) st' := by
  obtain ⟨lg, g1, g2⟩ := bwd_gradient h hw hj hd
  cases j with
  | zero =>
    obtain ⟨l, r1, r2, r3, r4, r5⟩ := h.root
    obtain ⟨gi, hb⟩ := (hok w hw).rootBack
    obtain ⟨l'', b1, b2, b3, b4, b5⟩ := hb l r2 r3 r4
    rw [hx] at b1
    have e := backArcAt_eq (x := x) g1 g2 r1 (by rw [h.from_]; exact hF0) rfl b1
    have hi : e0.idx < st.layers.length := (List.getElem?_eq_some_iff.mp r1).1
    have hcore : core l'' = core e0.layer := ((core_backward b1).trans (core_setLastInput _ _)).trans r2
    have hmem : ∀ w' ∈ ws, ∀ j', j' < w'.es.length →
        ((w'.node (j' + 1), w'.prev e0.idx (j' + 1)) ∈ done ++ [(w.node 0, w.prev e0.idx 0)] ↔
          (w'.node (j' + 1), w'.prev e0.idx (j' + 1)) ∈ done) := by
      intro w' hw' j' hj'
      have : w'.prev e0.idx (j' + 1) ≠ w.prev e0.idx 0 := hs.root w' hw' j' hj'.le
      simp [this]
    refine ⟨_, e, h.from_, ⟨l'', ?_, hcore, b3, b4, ?_⟩, ?_, ?_, ?_⟩
    · show (st.layers.set e0.idx l'')[_]? = _
      simp [hi]
    · intro b k k1 k2 k3
      rw [b5 b k k1 k2 k3, r5 b k k1 k2 k3]
      have := sum_insert (ws := ws) (key := fun c => (c.node 0, c.prev e0.idx 0)) (v := fun c => c.gp0 b k)
        (done := done) (w := w) hs.nodup (fun w1 hw1 hk => by
          simp only [Prod.mk.injEq] at hk
          exact (hs.inj w1 hw1 w hw 0 0 (by omega) (by omega) hk.1).1) hw hnew
      rw [this]
      ring
    · intro w' hw' j' e' he'
      have hj' := Wing.lt_of he'
      have hne : e0.idx ≠ e'.idx := by
        rw [← w'.node_of he']; exact Ne.symm (hs.root w' hw' j' hj'.le)
      obtain ⟨l1, q1, q2, q3, q4, q5, q6⟩ := h.stage w' hw' j' e' he'
      refine ⟨l1, ?_, q2, q3, q4, ?_, ?_⟩
      · show (st.layers.set e0.idx l'')[_]? = _
        rw [List.getElem?_set_ne hne]; exact q1
      · rw [hmem w' hw' j' hj']; exact q5
      · intro b k k1 k2 k3
        rw [q6 b k k1 k2 k3]
        simp only [hmem w' hw' j' hj']
    · intro w' hw'
      obtain ⟨L, q1, q2⟩ := h.loss w' hw'
      refine ⟨L, ?_, q2⟩
      show (st.layers.set e0.idx l'')[_]? = _
      rw [List.getElem?_set_ne (by rw [← w'.node_end]; exact Ne.symm (hs.root w' hw' _ (le_refl _)))]
      exact q1
    · intro i h1 h2
      show (st.layers.set e0.idx l'')[_]? = _
      rw [List.getElem?_set_ne (Ne.symm h1)]
      exact h.other i h1 h2
  | succ j =>
    have hlt : j < w.es.length := by omega
    have he := List.getElem?_eq_getElem hlt
    have hnode : w.prev e0.idx (j + 1) = w.es[j].idx := w.node_of he
    have hnode' : w.node j = w.es[j].idx := w.node_of he
    obtain ⟨l, r1, r2, r3, r4, r5, r6⟩ := h.stage w hw j w.es[j] he
    obtain ⟨l'', b1, b2, b3, b4, b5⟩ := (hok w hw).back j w.es[j] he l r2 r3 r4
    obtain ⟨_, c2⟩ := chain_index (hok w hw).chain
    obtain ⟨d1, _, _⟩ := c2 j w.es[j] he
    have hv := bwd_value (x := x) h hw (j := j) (by omega)
    rw [← d1] at hv
    have e := backArcAt_eq (x := x) g1 g2 r1 (by rw [h.from_]; exact hF w hw j _ he) hv b1
    have hi : w.es[j].idx < st.layers.length := (List.getElem?_eq_some_iff.mp r1).1
    have hcore : core l'' = core w.es[j].layer :=
      ((core_backward b1).trans (core_setLastInput _ _)).trans r2
    rw [hnode] at hnew ⊢
    have hmem0 : ∀ w' ∈ ws,
        ((w'.node 0, w'.prev e0.idx 0) ∈ done ++ [(w.node (j + 1), w.es[j].idx)] ↔
          (w'.node 0, w'.prev e0.idx 0) ∈ done) := by
      intro w' hw'
      have : w'.prev e0.idx 0 ≠ w.es[j].idx := by
        rw [← hnode']; exact Ne.symm (hs.root w hw j hlt.le)
      simp [this]
    refine ⟨_, e, h.from_, ?_, ?_, ?_, ?_⟩
    · obtain ⟨l0, q1, q2, q3, q4, q5⟩ := h.root
      refine ⟨l0, ?_, q2, q3, q4, ?_⟩
      · show (st.layers.set w.es[j].idx l'')[_]? = _
        rw [List.getElem?_set_ne (by rw [← hnode']; exact hs.root w hw j hlt.le)]
        exact q1
      · intro b k k1 k2 k3
        rw [q5 b k k1 k2 k3]
        congr 2
        apply List.map_congr_left
        intro w' hw'
        simp only [hmem0 w' hw']
    · intro w' hw' j' e' he'
      have hj' := Wing.lt_of he'
      have hn' : w'.node j' = e'.idx := w'.node_of he'
      by_cases hsame : w'.node j' = w.node j
      · obtain ⟨rfl, rfl⟩ := hs.inj w' hw' w hw j' j hj'.le hlt.le hsame
        rw [he] at he'
        simp only [Option.some.injEq] at he'
        subst he'
        have hin : (w'.node (j' + 1), w'.prev e0.idx (j' + 1)) ∈
            done ++ [(w'.node (j' + 1), w'.es[j'].idx)] := by rw [hnode]; simp
        refine ⟨l'', ?_, hcore, b3, b4, fun _ => b2, ?_⟩
        · show (st.layers.set _ l'')[_]? = _
          simp [hi]
        · intro b k k1 k2 k3
          rw [b5 b k k1 k2 k3, r6 b k k1 k2 k3, if_pos hin, if_neg (by rw [hnode]; exact hnew)]
          ring
      · have hne : w.es[j].idx ≠ e'.idx := by rw [← hnode', ← hn']; exact Ne.symm hsame
        have hm : (w'.node (j' + 1), w'.prev e0.idx (j' + 1)) ∈ done ++ [(w.node (j + 1), w.es[j].idx)] ↔
            (w'.node (j' + 1), w'.prev e0.idx (j' + 1)) ∈ done := by
          have : w'.prev e0.idx (j' + 1) ≠ w.es[j].idx := by
            show w'.node j' ≠ _
            rw [hn']; exact Ne.symm hne
          simp [this]
        obtain ⟨l1, q1, q2, q3, q4, q5, q6⟩ := h.stage w' hw' j' e' he'
        refine ⟨l1, ?_, q2, q3, q4, ?_, ?_⟩
        · show (st.layers.set _ l'')[_]? = _
          rw [List.getElem?_set_ne hne]; exact q1
        · rw [hm]; exact q5
        · intro b k k1 k2 k3
          rw [q6 b k k1 k2 k3]
          simp only [hm]
    · intro w' hw'
      obtain ⟨L, q1, q2⟩ := h.loss w' hw'
      refine ⟨L, ?_, q2⟩
      show (st.layers.set _ l'')[_]? = _
      rw [List.getElem?_set_ne ?_]
      · exact q1
      · rw [← hnode', ← w'.node_end]
        intro hh
        obtain ⟨rfl, hh⟩ := hs.inj w hw w' hw' j _ hlt.le (le_refl _) hh
        omega
    · intro i h1 h2
      show (st.layers.set _ l'')[_]? = _
      rw [List.getElem?_set_ne (by rw [← hnode']; exact Ne.symm (h2 w hw j hlt.le))]
      exact h.other i h1 h2

end

end Verif.Net
