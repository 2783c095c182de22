import Verif.Proofs.ThinLayer

/-! A training step of a model with dropout layers. -/

namespace Verif.Net
open Verif.Spec Verif.Graph Finset

noncomputable section

def IsDropout : AnyLayer → Prop
  | .dropout _ _ _ => True
  | _ => False

theorem dropout_or (l : AnyLayer) : (∃ mx raw L, l = .dropout mx raw L) ∨ (∀ t, thinLayer t l = l) ∧ ¬ IsDropout l := by
  cases l with
  | dropout mx raw L => exact .inl ⟨mx, raw, L, rfl⟩
  | _ => exact .inr ⟨fun _ => rfl, fun h => h⟩

/-- The layer `l0` has become `l'` in the training pass. -/
def After (e : Stage) (l0 l' : AnyLayer) : Prop :=
  match l0 with
  | .dropout mx raw L => ∃ L', l' = .dropout mx raw L' ∧ Drawn mx raw L L'
  | _ => core l' = core l0 ∧ HasGrads e.nin e.nout l'

theorem after_plain {e : Stage} {l0 l' : AnyLayer} (h : ¬ IsDropout l0) :
    After e l0 l' ↔ core l' = core l0 ∧ HasGrads e.nin e.nout l' := by
  cases l0 with
  | dropout mx raw L => exact absurd trivial h
  | _ => exact Iff.rfl

theorem trainAt_thin {x : List ℝ} {st : Steps} {s : Source} {e : Stage} {l0 : AnyLayer}
    (hv : value st.layers x s = .ok e.input) (hl : st.layers[e.idx]? = some l0)
    (he : e.layer = thinLayer 0 l0)
    (hf : st.from_.length = st.layers.length) (hx : e.input.length = e.nin)
    (hm : Maps e.nin e.nout e.layer) (hg : HasGrads e.nin e.nout e.layer)
    (hy : Yields e.layer e.input e.output) :
    ∃ l', trainAt x st (s, e.idx)
        = .ok (⟨st.layers.set e.idx l', st.from_.set e.idx (some s)⟩, none) ∧
      After e l0 l' ∧ l'.lastOutput = .ok e.output ∧ l'.paramGrads = l0.paramGrads := by
  rcases dropout_or l0 with ⟨mx, raw, L, rfl⟩ | ⟨h, hd⟩
  · have he' : e.layer = .dense (thinDense 0 mx raw L) := he
    rw [he'] at hm hg hy
    obtain ⟨m1, m2, m3, m4, m5⟩ := hm
    obtain ⟨g1, g2, g3⟩ := hg
    have m1' : L.size = e.nin := m1
    have m2' : L.size = e.nout := m2
    have ho : L.output.length = L.size := by rw [m2']; exact m3
    have hi : L.inputGrad.length = L.size := by rw [m1']; exact g1
    have hx' : e.input.length = L.size := by rw [m1']; exact hx
    obtain ⟨L', a1, a2, a3⟩ := drop_train (mx := mx) (raw := raw) ho hi hx'
    refine ⟨_, ?_, ⟨L', rfl, a2⟩, ?_, rfl⟩
    · unfold trainAt
      dsimp only
      rw [hv]
      dsimp only
      rw [rd_of_some hl, Exec.bind_ok, a1, Exec.bind_ok]
    · show Exec.ok L'.output = _
      rw [a3, yields_fun hy (thin_yields ho hx')]
  · rw [h 0] at he
    subst he
    obtain ⟨l', t1, t2, t3, t4, t5⟩ := trainAt_stage hv hl hf hg hy
    exact ⟨l', t1, (after_plain hd).mpr ⟨t2, t3⟩, t4, t5⟩

theorem back_thin {e : Stage} {l0 l' : AnyLayer} (he : e.layer = thinLayer 0 l0)
    (hx : e.input.length = e.nin) (hm : Maps e.nin e.nout e.layer) (hg0 : HasGrads e.nin e.nout e.layer)
    (hy : e.output.length = e.nout) (h : After e l0 l') (ho : l'.lastOutput = .ok e.output)
    {g gi : List ℝ} {gp : Nat → Nat → ℝ} (hg : g.length = e.nout)
    (hb : Back e.nin e.nout e.layer e.input e.output g gi gp) :
    ∃ l'', (l'.setLastInput e.input).backward g = .ok (l'', none) ∧ l''.lastInputGradient = gi ∧
      After e l0 l'' ∧
      ∀ b k, Learned l0 b → b < l0.params.length → k < (l0.params.getD b []).length →
        entry l''.paramGrads b k = entry l'.paramGrads b k + gp b k := by
  rcases dropout_or l0 with ⟨mx, raw, L, rfl⟩ | ⟨h', hd⟩
  · have he' : e.layer = .dense (thinDense 0 mx raw L) := he
    rw [he'] at hm hb hg0
    obtain ⟨m1, m2, m3, m4, m5⟩ := hm
    obtain ⟨g1, g2, g3⟩ := hg0
    have m1' : L.size = e.nin := m1
    have m2' : L.size = e.nout := m2
    have ho' : L.output.length = L.size := by rw [m2']; exact m3
    have hi : L.inputGrad.length = L.size := by rw [m1']; exact g1
    obtain ⟨L', rfl, a2⟩ := h
    obtain ⟨L'', b1, b2, b3, b4⟩ := drop_back a2 (g := g) (by rw [m2']; exact hg)
    refine ⟨_, b1, ?_, ⟨L'', rfl, b2⟩, by intro b k _ hb; cases hb⟩
    show L''.inputGrad = gi
    rw [← m1', ← m2'] at hb
    rw [b4, thin_back ho' hi (by rw [m1']; exact hx) (by rw [m2']; exact hy) (by rw [m2']; exact hg) hb]
  · rw [h' 0] at he
    subst he
    obtain ⟨c1, c2⟩ := (after_plain hd).mp h
    obtain ⟨l'', b1, b2, b3, b4, b5⟩ := hb l' c1 c2 ho
    exact ⟨l'', b1, b2, (after_plain hd).mpr
      ⟨((core_backward b1).trans (core_setLastInput _ _)).trans c1, b3⟩, b5⟩

/-- The layers have run forwards; `R i` was the layer `i` before. -/
def ThinTrained (R : Nat → AnyLayer) (st : Steps) : Source → List Stage → Prop
  | _, [] => True
  | s, e :: es =>
    (∃ l', st.layers[e.idx]? = some l' ∧ After e (R e.idx) l' ∧
      l'.lastOutput = .ok e.output ∧ l'.paramGrads = (R e.idx).paramGrads) ∧
    st.from_[e.idx]? = some (some s) ∧ ThinTrained R st (.output e.idx) es

theorem thinTrained_congr {R : Nat → AnyLayer} {st st' : Steps} : ∀ (es : List Stage) (s : Source),
    (∀ e ∈ es, st'.layers[e.idx]? = st.layers[e.idx]? ∧ st'.from_[e.idx]? = st.from_[e.idx]?) →
    ThinTrained R st s es → ThinTrained R st' s es := by
  intro es
  induction es with
  | nil => intro s _ _; trivial
  | cons e es ih =>
    rintro s h ⟨⟨l', h1, h2⟩, h3, h4⟩
    obtain ⟨a, b⟩ := h e (by simp)
    exact ⟨⟨l', by rw [a]; exact h1, h2⟩, by rw [b]; exact h3, ih _ (fun e' he' => h e' (by simp [he'])) h4⟩

theorem train_thin {x : List ℝ} {R : Nat → AnyLayer} : ∀ (es : List Stage) (s : Source) (n m : Nat)
    (v y : List ℝ) (st : Steps), Chain n v es m y → (∀ e ∈ es, Maps e.nin e.nout e.layer) →
    (∀ e ∈ es, e.layer = thinLayer 0 (R e.idx)) → value st.layers x s = .ok v →
    (∀ e ∈ es, st.layers[e.idx]? = some (R e.idx)) → (es.map Stage.idx).Nodup →
    (∀ i, s = .output i → i ∉ es.map Stage.idx) → st.from_.length = st.layers.length →
    ∃ st', each (trainAt x) (arcs s es) st = .ok (st', none) ∧
      value st'.layers x (lastSource s es) = .ok y ∧ ThinTrained R st' s es ∧
      (∀ i, i ∉ es.map Stage.idx → st'.layers[i]? = st.layers[i]? ∧ st'.from_[i]? = st.from_[i]?) ∧
      st'.from_.length = st'.layers.length := by
  intro es
  induction es with
  | nil =>
    intro s n m v y st hc _ _ hv _ _ _ hf
    cases hc
    exact ⟨st, rfl, hv, trivial, fun i _ => ⟨rfl, rfl⟩, hf⟩
  | cons e es ih =>
    intro s n m v y st hc hm hR hv hl hn hs hf
    cases hc with
    | cons h1 h2 h3 h4 =>
      obtain ⟨hne, hn'⟩ := List.nodup_cons.mp hn
      have hle := hl e (by simp)
      obtain ⟨l', t1, t2⟩ := trainAt_thin hv hle (hR e (by simp)) hf h1 (hm e (by simp)) h2 h3.1
      have hi : e.idx < st.layers.length := (List.getElem?_eq_some_iff.mp hle).1
      have hne' : ∀ e' ∈ es, e.idx ≠ e'.idx := by
        intro e' he' heq
        exact hne (by rw [heq]; exact List.mem_map_of_mem he')
      obtain ⟨st', r1, r2, r3, r4, r5⟩ := ih (.output e.idx) _ _ _ y
        ⟨st.layers.set e.idx l', st.from_.set e.idx (some s)⟩ h4 (fun e' he' => hm e' (by simp [he']))
        (fun e' he' => hR e' (by simp [he']))
        (by
          show (rd (st.layers.set e.idx l') e.idx >>= AnyLayer.lastOutput) = .ok e.output
          rw [rd_of_some (a := l') (by simp [hi]), Exec.bind_ok, t2.2.1])
        (fun e' he' => by
          show (st.layers.set e.idx l')[e'.idx]? = _
          rw [List.getElem?_set_ne (hne' e' he')]
          exact hl e' (by simp [he']))
        hn' (by intro i hi; cases hi; exact hne) (by simpa using hf)
      obtain ⟨q1, q2⟩ := r4 e.idx hne
      refine ⟨st', ?_, r2, ⟨⟨l', ?_, t2⟩, ?_, r3⟩, ?_, r5⟩
      · show (trainAt x st (s, e.idx) >>= fun r => _) = _
        rw [t1, Exec.bind_ok]
        exact r1
      · rw [q1]; simp [hi]
      · rw [q2]; simp [hf, hi]
      · intro i hi'
        have hi1 : i ∉ es.map Stage.idx := fun h => hi' (List.mem_cons_of_mem _ h)
        have hi2 : e.idx ≠ i := fun h => hi' (by rw [← h]; exact List.mem_cons_self)
        obtain ⟨p1, p2⟩ := r4 i hi1
        constructor
        · rw [p1]; exact List.getElem?_set_ne hi2
        · rw [p2]; exact List.getElem?_set_ne hi2

theorem back_chain_thin {x : List ℝ} {q : Nat} {R : Nat → AnyLayer} : ∀ (es : List Stage) (s : Source)
    (n m : Nat) (v y g : List ℝ) (st : Steps) (lq : AnyLayer), Chain n v es m y →
    (∀ e ∈ es, Maps e.nin e.nout e.layer) → (∀ e ∈ es, e.layer = thinLayer 0 (R e.idx)) → g.length = m →
    ThinTrained R st s es → value st.layers x s = .ok v → (es.map Stage.idx).Nodup →
    (∀ i, s = .output i → i ∉ es.map Stage.idx) → q ∉ es.map Stage.idx →
    st.layers[q]? = some lq → lq.lastInputGradient = g →
    ∃ st' gi, each (backArcAt x) (backArcs q es) st = .ok (st', none) ∧ gi.length = n ∧
      (∃ l, st'.layers[headIdx q es]? = some l ∧ l.lastInputGradient = gi) ∧
      ((∀ e ∈ es, SmoothAt e.input e.layer) → ChainCurve (es.map Stage.layer) n m v y g gi) ∧
      (∀ j e, es[j]? = some e → ∃ l'', st'.layers[e.idx]? = some l'' ∧ After e (R e.idx) l'' ∧
        ∀ b k, Learned (R e.idx) b → b < (R e.idx).params.length → k < ((R e.idx).params.getD b []).length →
          (∀ e' ∈ es.drop (j + 1), SmoothAt e'.input e'.layer) →
          StepGrad (es.map Stage.layer) j b k (R e.idx) m v y g
            (entry l''.paramGrads b k - entry (R e.idx).paramGrads b k)) ∧
      (∀ i, i ∉ es.map Stage.idx → st'.layers[i]? = st.layers[i]?) ∧ st'.from_ = st.from_ := by
  intro es
  induction es with
  | nil =>
    intro s n m v y g st lq hc _ _ hg _ hv _ _ hq hlq hgq
    cases hc
    refine ⟨st, g, rfl, hg, ⟨lq, hlq, hgq⟩, ?_, by simp, fun _ _ => rfl, rfl⟩
    intro _ X X' t0 h1 h2 h3
    exact ⟨X, X', fun t => ⟨.nil _, h2 t⟩, h1, h3, rfl⟩
  | cons e es ih =>
    intro s n m v y g st lq hc hm hR hg ht hv hn hs hq hlq hgq
    obtain ⟨⟨l', t1, t2, t4, t5⟩, t6, t7⟩ := ht
    cases hc with
    | cons h1 h2 h3 h4 =>
      obtain ⟨hne, hn'⟩ := List.nodup_cons.mp hn
      have hq' : q ∉ es.map Stage.idx := fun h => hq (List.mem_cons_of_mem _ h)
      obtain ⟨st1, g1, r1, r2, ⟨lh, r3, r3'⟩, r4, r5, r6, r7⟩ := ih (.output e.idx) _ _ _ y g st lq h4
        (fun e' he' => hm e' (by simp [he'])) (fun e' he' => hR e' (by simp [he']))
        hg t7 (by
          show (rd st.layers e.idx >>= AnyLayer.lastOutput) = .ok e.output
          rw [rd_of_some t1, Exec.bind_ok, t4]) hn' (by intro i hi; cases hi; exact hne) hq' hlq hgq
      obtain ⟨hy, hyl, hadj⟩ := h3
      obtain ⟨gi, gp, a1, a2, a3, a4⟩ := hadj g1 r2
      obtain ⟨l'', b1, b2, b3, b5⟩ := back_thin (hR e (by simp)) h1 (hm e (by simp)) h2 hyl t2 t4 r2 a2
      have e1 : st1.layers[e.idx]? = some l' := by rw [r6 _ hne]; exact t1
      have hi : e.idx < st1.layers.length := (List.getElem?_eq_some_iff.mp e1).1
      have e2 : value st1.layers x s = .ok e.input := by
        rw [value_congr (ls := st.layers)]
        · exact hv
        · intro i hi'
          exact r6 i fun h => hs i hi' (List.mem_cons_of_mem _ h)
      have e3 : backArcAt x st1 (headIdx q es, e.idx)
          = .ok ({ st1 with layers := st1.layers.set e.idx l'' }, none) := by
        unfold backArcAt backwardAt follow
        dsimp only
        rw [rd_of_some r3, Exec.bind_ok, r3', rd_of_some e1, Exec.bind_ok, r7, t6]
        dsimp only
        rw [e2, Exec.bind_ok, Exec.bind_ok, b1, Exec.bind_ok]
      refine ⟨{ st1 with layers := st1.layers.set e.idx l'' }, gi, ?_, a1, ⟨l'', ?_, b2⟩, ?_, ?_, ?_, r7⟩
      · show each (backArcAt x) (backArcs q es ++ [(headIdx q es, e.idx)]) st = _
        rw [each_append _ _ r1]
        show (backArcAt x st1 (headIdx q es, e.idx) >>= fun r => _) = _
        rw [e3, Exec.bind_ok]
        rfl
      · show (st1.layers.set e.idx l'')[e.idx]? = _
        simp [hi]
      · intro hsm X X' t0 hX0 hXl hX
        obtain ⟨Z, Z', z1, z2, z3, z4⟩ := a3 (hsm e (by simp)) X X' t0 hX0 hXl hX
        obtain ⟨Y, Y', y1, y2, y3, y4⟩ := r4 (fun e' he' => hsm e' (by simp [he'])) Z Z' t0 z2 (fun t => (z1 t).2) z3
        exact ⟨Y, Y', fun t => ⟨.cons (z1 t).1 (y1 t).1, (y1 t).2⟩, y2, y3, y4.trans z4⟩
      · intro j e' he'
        cases j with
        | zero =>
          simp only [List.getElem?_cons_zero, Option.some.injEq] at he'
          subst he'
          refine ⟨l'', by show (st1.layers.set e.idx l'')[e.idx]? = _; simp [hi], b3, ?_⟩
          intro b k hb hb' hk hsm
          have hl0 : R e.idx = e.layer := by
            rcases dropout_or (R e.idx) with ⟨mx, raw, L, hL⟩ | ⟨h', _⟩
            · rw [hL] at hb'; cases hb'
            · rw [hR e (by simp), h' 0]
          have hbk := b5 b k hb hb' hk
          rw [hl0] at hb hb' hk t5 ⊢
          obtain ⟨Z, Z', z1, z2, z3, z4⟩ := a4 b k hb hb' hk
          obtain ⟨Y, Y', y1, y2, y3, y4⟩ := r4 hsm Z Z' _ z2 (fun t => (z1 t).2) z3
          refine ⟨Y, Y', fun s => ⟨.cons (z1 s).1 (y1 s).1, (y1 s).2⟩, y2, y3, ?_⟩
          rw [y4, z4, hbk, t5]
          ring
        | succ j =>
          simp only [List.getElem?_cons_succ] at he'
          obtain ⟨k', c1, c2, c4⟩ := r5 j e' he'
          have hne' : e.idx ≠ e'.idx := by
            intro heq
            exact hne (by rw [heq]; exact List.mem_map_of_mem (List.mem_of_getElem? he'))
          refine ⟨k', ?_, c2, ?_⟩
          · show (st1.layers.set e.idx l'')[e'.idx]? = _
            rw [List.getElem?_set_ne hne']
            exact c1
          · intro b k hb hb' hk hsm
            obtain ⟨Y, Y', y1, y2, y3, y4⟩ := c4 b k hb hb' hk hsm
            exact ⟨Y, Y', fun s => ⟨.cons hy (y1 s).1, (y1 s).2⟩, y2, y3, y4⟩
      · intro i hi'
        have hi1 : i ∉ es.map Stage.idx := fun h => hi' (List.mem_cons_of_mem _ h)
        have hi2 : e.idx ≠ i := fun h => hi' (by rw [← h]; exact List.mem_cons_self)
        show (st1.layers.set e.idx l'')[i]? = _
        rw [List.getElem?_set_ne hi2]
        exact r6 i hi1

/-! ### The whole step -/

theorem hasGrads_thin (t t' : Nat) {l : AnyLayer} {n m : Nat} (h : HasGrads n m (thinLayer t l)) :
    HasGrads n m (thinLayer t' l) := by
  cases l <;> exact h

theorem maps_thinLayer (t t' : Nat) {l : AnyLayer} {n m : Nat} (h : Maps n m (thinLayer t l)) :
    Maps n m (thinLayer t' l) := by
  rcases dropout_or l with ⟨mx, raw, L, rfl⟩ | ⟨h', _⟩
  · obtain ⟨h1, h2, h3, h4, h5⟩ := h
    refine ⟨h1, h2, h3, ?_, h5⟩
    rw [← h4]
    simp [thinDense]
  · rw [h' t] at h
    rw [h' t']
    exact h

theorem trainable_thin (t t' : Nat) : ∀ {ls : List AnyLayer} {n m : Nat}, Trainable n m (thinned t ls) →
    Trainable n m (thinned t' ls) := by
  intro ls
  induction ls with
  | nil => intro n m h; exact h
  | cons l ls ih =>
    intro n m h
    cases h with
    | cons h1 h2 h3 => exact .cons (maps_thinLayer t t' h1) (hasGrads_thin t t' h2) (ih h3)

theorem trainable_stages {n m : Nat} {x y : List ℝ} {es : List Stage} (hc : Chain n x es m y) :
    ∀ (ks' : List AnyLayer), ks'.length = es.length →
    (∀ (j : Nat) (e : Stage), es[j]? = some e → ∃ l', ks'[j]? = some l' ∧ Maps e.nin e.nout l' ∧
      HasGrads e.nin e.nout l') → Trainable n m ks' := by
  induction hc with
  | nil n x hx =>
    intro ks' h3 h4
    have : ks' = [] := List.length_eq_zero_iff.mp (by simpa using h3)
    subst this
    exact .nil n
  | @cons e es m y g1 g2 g3 _ ih =>
    intro ks' h3 h4
    cases ks' with
    | nil => simp at h3
    | cons l' ks' =>
      obtain ⟨k, k1, k2, k3⟩ := h4 0 e rfl
      cases k1
      exact .cons k2 k3 (ih ks' (by simpa using h3) fun j e' he' => h4 (j + 1) e' he')

/-- A layer after the pass is, in each later pass, the layer before in the next one. -/
theorem after_core {e : Stage} {l0 l' : AnyLayer} (h : After e l0 l')
    (hm : Maps e.nin e.nout (thinLayer 0 l0)) (hg : HasGrads e.nin e.nout (thinLayer 0 l0)) (t : Nat) :
    core (thinLayer t l') = core (thinLayer (t + 1) l0) ∧ core l' = core l0 ∧
      HasGrads e.nin e.nout (thinLayer t l') ∧ l'.params = l0.params := by
  rcases dropout_or l0 with ⟨mx, raw, L, rfl⟩ | ⟨h', hd⟩
  · obtain ⟨L', rfl, d⟩ := h
    obtain ⟨m1, m2, m3, m4, m5⟩ := hm
    obtain ⟨g1, g2, g3⟩ := hg
    have m1' : L.size = e.nin := m1
    have m2' : L.size = e.nout := m2
    have m3' : L.output.length = e.nout := m3
    refine ⟨?_, ?_, ?_, rfl⟩
    · have hf : ∀ i, dropFactor mx raw L' t i = dropFactor mx raw L (t + 1) i := by
        intro i
        unfold dropFactor
        rw [d.p, d.scale, d.drawn, d.size]
        have : L.drawn + L.size + t * L.size + i = L.drawn + (t + 1) * L.size + i := by ring
        rw [this]
      simp only [core, thinLayer, thinDense, d.size, hf, d.output, m3', m2']
    · simp only [core, d.size, d.p, d.scale]
    · refine ⟨?_, ?_, ?_⟩
      · show L'.inputGrad.length = _; rw [d.inputGrad, m1']
      · show (List.replicate _ _).length = _; rw [List.length_replicate, d.size, m2', ← m1', m2']
      · show (List.replicate _ _).length = _; rw [List.length_replicate, d.size, m2']
  · obtain ⟨c1, c2⟩ := (after_plain hd).mp h
    have hd' : ∀ t, thinLayer t l' = l' := by
      intro t
      rcases dropout_or l' with ⟨mx, raw, L, rfl⟩ | ⟨h'', _⟩
      · rw [h' 0] at hm
        have := (maps_core c1 hm)
        exact this.elim
      · exact h'' t
    rw [hd' t, h' (t + 1)]
    exact ⟨c1, c1, c2, by cases l' <;> cases l0 <;> simp [core] at c1 <;> simp [AnyLayer.params, c1]⟩

theorem step_thin {n : Net} {p : List Nat} {q : Nat} {ks : List AnyLayer} {f : LossFn} {nin m : Nat}
    {inv : ℝ} {x t : List ℝ} (hok : Ok n.graph) (hl : Lists n.graph) (hp : IsTrainingPath n.graph p q)
    (hne : p ≠ []) (hr : ReadyThin n p q ks f nin m inv) (hx : FitSample (thinned 0 ks) f nin m x t) :
    ∃ n' ks', n.step x t = .ok (n', none) ∧ n'.graph = n.graph ∧ ReadyThin n' p q ks' f nin m inv ∧
      (∀ i, (thinned i ks').map core = (thinned (i + 1) ks).map core) ∧ ks'.map core = ks.map core ∧
      ks'.map AnyLayer.params = ks.map AnyLayer.params ∧
      (∀ i, i ∉ p → i ≠ q → n'.layers[i]? = n.layers[i]?) ∧
      ∀ (j : Nat) (l : AnyLayer), ks[j]? = some l → ∃ l', ks'[j]? = some l' ∧
        ∀ b k, Learned l b → b < l.params.length → k < (l.params.getD b []).length →
          SmoothFrom (j + 1) (thinned 0 ks) x →
          (∀ v, ∃ y, YieldsAll ((thinned 0 ks).set j (withParam l b k v)) x y) ∧
          HasDerivAt (fun v => objective f m inv t (prediction ((thinned 0 ks).set j (withParam l b k v)) x))
            (entry l'.paramGrads b k - entry l.paramGrads b k) (entry l.params b k) := by
  obtain ⟨L, l1, l2, l3, l4⟩ := hr.loss
  have hlen : p.length = ks.length := by simpa using congrArg List.length hr.layers
  obtain ⟨es, y, s1, s2, s3, s4⟩ := stages_of hr.sizes p (by simpa [thinned] using hlen) hx.size
  have hy : prediction (thinned 0 ks) x = y := by rw [← s2]; exact prediction_of (chain_yields s3)
  have hes : es.length = ks.length := by
    have := congrArg List.length s1
    simp at this
    omega
  -- the layers before the step
  obtain ⟨R, hR⟩ : ∃ R : Nat → AnyLayer, ∀ (j i : Nat), p[j]? = some i → ks[j]? = some (R i) := by
    refine ⟨fun i => (n.layers[i]?).getD (.loss f L), fun j i hj => ?_⟩
    have := congrArg (fun z => z[j]?) hr.layers
    simp only [List.getElem?_map, hj, Option.map_some] at this
    cases hk : ks[j]? with
    | none => rw [hk] at this; cases this
    | some a => 
      rw [hk] at this
      simp only [Option.map_some, Option.some.injEq] at this
      simp only [this, Option.getD_some]
  have hidx : ∀ (j : Nat) (e : Stage), es[j]? = some e → p[j]? = some e.idx := by
    intro j e hj
    rw [← s1, List.getElem?_map, hj]
    rfl
  have hkR : ∀ (j : Nat) (e : Stage), es[j]? = some e → ks[j]? = some (R e.idx) :=
    fun j e hj => hR j _ (hidx j e hj)
  have heR : ∀ e ∈ es, e.layer = thinLayer 0 (R e.idx) := by
    intro e he
    obtain ⟨j, hj⟩ := List.mem_iff_getElem?.mp he
    have h1 := congrArg (fun z => z[j]?) s2
    simp only [List.getElem?_map, hj, thinned, hkR j e hj, Option.map_some, Option.some.injEq] at h1
    exact h1
  have hat : ∀ e ∈ es, n.layers[e.idx]? = some (R e.idx) := by
    intro e he
    obtain ⟨j, hj⟩ := List.mem_iff_getElem?.mp he
    have := congrArg (fun z => z[j]?) hr.layers
    simp only [List.getElem?_map, hidx j e hj, hkR j e hj, Option.map_some, Option.some.injEq] at this
    exact this
  have hsm := hx.loss
  rw [hy] at hsm
  obtain ⟨_, yl⟩ := s3.length
  obtain ⟨a, rest, rfl⟩ := List.exists_cons_of_ne_nil hne
  obtain ⟨f1, f2, f3, f4⟩ := training_facts hok hl hp
  have hq : q ∉ es.map Stage.idx := by rw [s1]; exact f2
  have hqlt : q < n.layers.length := (List.getElem?_eq_some_iff.mp l1).1
  have hqe : ∀ e ∈ es, q ≠ e.idx := fun e he h => hq (by rw [h]; exact List.mem_map_of_mem he)
  -- targets
  set L0 := L.setTarget t with hL0
  set ls0 := n.layers.set q (.loss f L0) with hls0
  have e1 : each (targetAt t) n.graph.loss n.layers = .ok (ls0, none) := by
    rw [hp.loss]
    show (targetAt t n.layers q >>= fun r => _) = _
    unfold targetAt
    rw [rd_of_some l1, Exec.bind_ok]
    rfl
  -- forwards
  obtain ⟨st1, t1, t2, t3, t4, t5⟩ := train_thin (x := x) (R := R) es .external nin m x y
    ⟨ls0, List.replicate ls0.length none⟩ s3 s4 heR rfl
    (fun e he => by
      show (n.layers.set q _)[e.idx]? = _
      rw [List.getElem?_set_ne (hqe e he)]
      exact hat e he)
    (by rw [s1]; exact hp.path.nodup) (by intro i hi; cases hi) (by simp)
  obtain ⟨t4a, t4b⟩ := t4 q hq
  have t6 : st1.layers[q]? = some (.loss f L0) := by
    rw [t4a]
    show (n.layers.set q _)[q]? = _
    simp [hqlt]
  obtain ⟨L1, u1, u2, u3, u4, u5⟩ := loss_train (f := f) (L := L0) hx.target l2 yl rfl
  set src := lastSource .external es with hsrc
  set st2 : Steps := ⟨st1.layers.set q (.loss f L1), st1.from_.set q (some src)⟩ with hst2
  have e2 : trainAt x st1 (src, q) = .ok (st2, none) := by
    unfold trainAt
    dsimp only
    rw [t2]
    dsimp only
    rw [rd_of_some t6, Exec.bind_ok, u1, Exec.bind_ok]
  have e3 : each (trainAt x) (n.graph.inputs.map (fun i => (Source.external, i)) ++
        (trainingArcs n.graph).map (fun a => (Source.output a.1, a.2)))
      ⟨ls0, List.replicate ls0.length none⟩ = .ok (st2, none) := by
    have harcs : n.graph.inputs.map (fun i => (Source.external, i)) ++
        (trainingArcs n.graph).map (fun a => (Source.output a.1, a.2))
        = arcs .external es ++ [(src, q)] := by
      rw [f1, f3]
      cases es with
      | nil => simp at s1
      | cons e es =>
        simp only [List.map_cons, List.cons.injEq] at s1
        obtain ⟨rfl, rfl⟩ := s1
        rw [arcs_zip]
        rfl
    rw [harcs, each_append _ _ t1]
    show (trainAt x st1 (src, q) >>= fun r => _) = _
    rw [e2, Exec.bind_ok]
    rfl
  -- the loss layer backwards
  have hsrcq : ∀ i, src = .output i → i ≠ q := by
    intro i hi hiq
    rcases lastSource_mem es .external i hi with h | h
    · cases h
    · exact hq (hiq ▸ h)
  have hlt1 : q < st1.layers.length := (List.getElem?_eq_some_iff.mp t6).1
  have v2 : value st2.layers x src = .ok y := by
    rw [value_congr (ls := st1.layers)]
    · exact t2
    · intro i hi
      show (st1.layers.set q _)[i]? = _
      rw [List.getElem?_set_ne (Ne.symm (hsrcq i hi))]
  set g := tab m (lossGrad f inv (vec t) (vec y)) with hg
  set L2 : Loss.Layer := { L1 with lastInput := y, gradients := g } with hL2
  set st3 : Steps := { st2 with layers := st2.layers.set q (.loss f L2) } with hst3
  have e4 : each (fun st i => backwardAt x st i []) n.graph.loss st2 = .ok (st3, none) := by
    rw [hp.loss]
    show (backwardAt x st2 q [] >>= fun r => _) = _
    unfold backwardAt follow
    have h1 : st2.layers[q]? = some (.loss f L1) := by
      show (st1.layers.set q _)[q]? = _
      simp [hlt1]
    have h2 : st2.from_[q]? = some (some src) := by
      show (st1.from_.set q _)[q]? = _
      simp [t5, hlt1]
    have h3 := loss_back (f := f) (L := L1) hx.target.1 (by rw [u2]; exact l3) yl u3
    have hu : L1.invBatch = inv := u4.trans l4
    have h4 : ({ L1 with lastInput := y, gradients := tab m (lossGrad f L1.invBatch (vec t) (vec y)) } :
        Loss.Layer) = L2 := by rw [hL2, hg, hu]
    rw [h4] at h3
    rw [rd_of_some h1, Exec.bind_ok, h2]
    dsimp only
    rw [v2, Exec.bind_ok, Exec.bind_ok, h3, Exec.bind_ok, Exec.bind_ok]
    rfl
  -- backwards
  have hq3 : ∀ i, i ≠ q → st3.layers[i]? = st1.layers[i]? := by
    intro i hi
    show ((st1.layers.set q _).set q _)[i]? = _
    rw [List.getElem?_set_ne (Ne.symm hi), List.getElem?_set_ne (Ne.symm hi)]
  have h3q : st3.layers[q]? = some (.loss f L2) := by
    show ((st1.layers.set q _).set q _)[q]? = _
    simp [hlt1]
  obtain ⟨st4, gi, b1, b2, b3, b4, b5, b6, b7⟩ := back_chain_thin (x := x) (q := q) (R := R) es .external
    nin m x y g st3 (.loss f L2) s3 s4 heR (by simp [hg]) (thinTrained_congr es .external (fun e he => by
        refine ⟨hq3 e.idx (Ne.symm (hqe e he)), ?_⟩
        show (st1.from_.set q _)[e.idx]? = _
        rw [List.getElem?_set_ne (hqe e he)]) t3)
    rfl (by rw [s1]; exact hp.path.nodup) (by intro i hi; cases hi) hq h3q rfl
  have e5 : each (backArcAt x) (backwardArcs n.graph) st3 = .ok (st4, none) := by
    rw [f4, ← s1, backArcs_zip]
    exact b1
  obtain ⟨ks', k1⟩ := layers_at (ls := st4.layers) (a :: rest) (by
    intro i hi
    rw [← s1] at hi
    obtain ⟨e, he, rfl⟩ := List.mem_map.mp hi
    obtain ⟨j, hj⟩ := List.mem_iff_getElem?.mp he
    obtain ⟨l'', c1, _⟩ := b5 j e hj
    exact ⟨l'', c1⟩)
  have klen : ks'.length = ks.length := by rw [← hlen]; simpa using (congrArg List.length k1).symm
  have hk : ∀ (j : Nat) (e : Stage), es[j]? = some e → ∃ l'', ks'[j]? = some l'' ∧
      After e (R e.idx) l'' ∧
      ∀ b k, Learned (R e.idx) b → b < (R e.idx).params.length → k < ((R e.idx).params.getD b []).length →
          (∀ e' ∈ es.drop (j + 1), SmoothAt e'.input e'.layer) →
          StepGrad (es.map Stage.layer) j b k (R e.idx) m x y g
            (entry l''.paramGrads b k - entry (R e.idx).paramGrads b k) := by
    intro j e hj
    obtain ⟨l'', c1, c2, c4⟩ := b5 j e hj
    refine ⟨l'', ?_, c2, c4⟩
    have h := congrArg (fun l => l[j]?) k1
    rw [List.getElem?_map, List.getElem?_map, hidx j e hj] at h
    simp only [Option.map_some, c1] at h
    cases hk' : ks'[j]? with
    | none => rw [hk'] at h; cases h
    | some l3 => rw [hk'] at h; simp at h; rw [h]
  have hchg : ∀ (j : Nat) (e : Stage), es[j]? = some e → HasGrads e.nin e.nout e.layer := by
    have : ∀ {n m : Nat} {x y : List ℝ} {es : List Stage}, Chain n x es m y → ∀ e ∈ es,
        HasGrads e.nin e.nout e.layer := by
      intro n m x y es hc
      induction hc with
      | nil => simp
      | cons _ h2 _ _ ih => 
        intro e he
        rcases List.mem_cons.mp he with rfl | he
        · exact h2
        · exact ih e he
    exact fun j e hj => this s3 e (List.mem_of_getElem? hj)
  have hcc : ∀ (j i : Nat) (e : Stage), es[j]? = some e → ∃ l'', ks'[j]? = some l'' ∧ ks[j]? = some (R e.idx) ∧
      core (thinLayer i l'') = core (thinLayer (i + 1) (R e.idx)) ∧ core l'' = core (R e.idx) ∧
      HasGrads e.nin e.nout (thinLayer i l'') ∧ l''.params = (R e.idx).params := by
    intro j i e hj
    obtain ⟨l'', c1, c2, _⟩ := hk j e hj
    have hmem := List.mem_of_getElem? hj
    refine ⟨l'', c1, hkR j e hj, after_core c2 (heR e hmem ▸ s4 e hmem) (heR e hmem ▸ hchg j e hj) i⟩
  have hext : ∀ {β : Type} (F G : AnyLayer → β), (∀ (j : Nat) (e : Stage) (l'' : AnyLayer), es[j]? = some e →
      ks'[j]? = some l'' → F l'' = G (R e.idx)) → ks'.map F = ks.map G := by
    intro β F G h
    apply List.ext_getElem?
    intro j
    rw [List.getElem?_map, List.getElem?_map]
    by_cases hj : j < es.length
    · obtain ⟨l'', c1, c2, _⟩ := hcc j 0 es[j] (List.getElem?_eq_getElem hj)
      rw [c1, c2, Option.map_some, Option.map_some, h j _ l'' (List.getElem?_eq_getElem hj) c1]
    · rw [List.getElem?_eq_none (by omega), List.getElem?_eq_none (by omega)]
      rfl
  refine ⟨{ n with layers := st4.layers }, ks', ?_, rfl, ⟨k1, ?_, ?_⟩, ?_, ?_, ?_, ?_, ?_⟩
  · unfold Net.step
    rw [e1, next_ok, e3, next_ok, e4, next_ok, e5, Exec.bind_ok]
  · refine trainable_stages s3 _ (by simp [thinned]; omega) fun j e hj => ?_
    obtain ⟨l'', c1, c2, c3, _, c4, _⟩ := hcc j 0 e hj
    have hmem := List.mem_of_getElem? hj
    refine ⟨thinLayer 0 l'', by rw [thinned, List.getElem?_map, c1]; rfl, maps_core c3 ?_, c4⟩
    exact maps_thinLayer 0 1 (heR e hmem ▸ s4 e hmem)
  · refine ⟨L2, ?_, u5, by simp [hL2, hg], u4.trans l4⟩
    show st4.layers[q]? = _
    rw [b6 q hq]
    exact h3q
  · intro i
    unfold thinned
    rw [List.map_map, List.map_map]
    apply hext
    intro j e l'' hj hl''
    obtain ⟨l3, c1, _, c2, _⟩ := hcc j i e hj
    rw [hl''] at c1
    cases c1
    exact c2
  · apply hext
    intro j e l'' hj hl''
    obtain ⟨l3, c1, _, _, c2, _⟩ := hcc j 0 e hj
    rw [hl''] at c1
    cases c1
    exact c2
  · apply hext
    intro j e l'' hj hl''
    obtain ⟨l3, c1, _, _, _, _, c2⟩ := hcc j 0 e hj
    rw [hl''] at c1
    cases c1
    exact c2
  · intro i hi hiq
    show st4.layers[i]? = _
    rw [b6 i (by rw [s1]; exact hi), hq3 i hiq, (t4 i (by rw [s1]; exact hi)).1]
    show (n.layers.set q _)[i]? = _
    rw [List.getElem?_set_ne (Ne.symm hiq)]
  · intro j l hj
    have hjlt : j < es.length := by
      have := (List.getElem?_eq_some_iff.mp hj).1
      omega
    have he : es[j]? = some es[j] := List.getElem?_eq_getElem hjlt
    have hjR := hkR j _ he
    rw [hj] at hjR
    injection hjR with hjR
    obtain ⟨l'', c1, c2, c4⟩ := hk j _ he
    rw [← hjR] at c4
    refine ⟨l'', c1, ?_⟩
    intro b k h1 h2 h3 h4
    obtain ⟨Y, Y', y1, y2, y3, y4⟩ := c4 b k h1 h2 h3 (chain_smoothFrom s3 _ (by rw [s2]; exact h4))
    rw [s2] at y1
    refine ⟨fun v => ⟨Y v, (y1 v).1⟩, ?_⟩
    have hd := objective_curve (f := f) (inv := inv) (t := t) y2 y3 hsm
    rw [← hg, y4] at hd
    have hfun : (fun v => objective f m inv t (prediction ((thinned 0 ks).set j (withParam l b k v)) x))
        = fun v => objective f m inv t (Y v) := by
      funext v
      rw [prediction_of (y1 v).1]
    rw [hfun]
    exact hd

end

end Verif.Net
