import Verif.Proofs.Backprop
import Verif.Proofs.GraphPath

/-! Training steps of a whole model. -/

namespace Verif.Net
open Verif.Spec Verif.Graph Finset

noncomputable section

theorem prediction_of {ls : List AnyLayer} {x y : List ℝ} (h : YieldsAll ls x y) :
    prediction ls x = y := by
  induction h with
  | nil x => rfl
  | cons h1 _ ih =>
    obtain ⟨l', e1, e2⟩ := h1 _ rfl
    simp only [prediction, e1, e2]
    exact ih

theorem chain_yields {n m : Nat} {x y : List ℝ} {es : List Stage} (h : Chain n x es m y) :
    YieldsAll (es.map Stage.layer) x y := by
  induction h with
  | nil n x _ => exact .nil x
  | cons _ _ h _ ih => exact .cons h.1 ih

/-- All stages of a chain are smooth if all its layers are. -/
theorem chain_smooth {n m : Nat} {x y : List ℝ} {es : List Stage} (h : Chain n x es m y) :
    SmoothAll (es.map Stage.layer) x → ∀ e ∈ es, SmoothAt e.input e.layer := by
  induction h with
  | nil n x _ => intro _ e he; cases he
  | @cons e es m y _ _ h3 _ ih =>
    intro hs e' he'
    cases hs with
    | cons s1 s2 s3 s4 =>
    obtain ⟨l', e1, e2⟩ := h3.1 e.layer rfl
    rw [s2] at e1
    cases e1
    rw [s3] at e2
    cases e2
    rcases List.mem_cons.mp he' with rfl | he'
    · exact s1
    · exact ih s4 e' he'

/-- The same for the layers from `k` on. -/
theorem chain_smoothFrom {n m : Nat} {x y : List ℝ} {es : List Stage} (h : Chain n x es m y) :
    ∀ (k : Nat), SmoothFrom k (es.map Stage.layer) x → ∀ e ∈ es.drop k, SmoothAt e.input e.layer := by
  induction h with
  | nil n x _ => intro k _ e he; simp at he
  | @cons e es m y h1 h2 h3 h4 ih =>
    intro k hs e' he'
    cases k with
    | zero => exact chain_smooth (.cons h1 h2 h3 h4) hs e' he'
    | succ k =>
      refine ih k ?_ e' he'
      unfold SmoothFrom at hs ⊢
      obtain ⟨l', e1, e2⟩ := h3.1 e.layer rfl
      simpa only [List.map_cons, List.drop_succ_cons, List.take_succ_cons, prediction, e1, e2] using hs

/-- The runs of a training path. -/
theorem training_facts {g : DLGraph} (hok : Ok g) (hl : Lists g) {a : Nat} {rest : List Nat} {q : Nat}
    (hp : IsTrainingPath g (a :: rest) q) :
    g.inputs = [a] ∧ q ∉ a :: rest ∧
    trainingArcs g = (a :: (rest ++ [q])).zip (rest ++ [q]) ∧
    backwardArcs g = (q :: (a :: rest).reverse).zip (a :: rest).reverse := by
  obtain ⟨_, hin, _⟩ := path_facts hok hl hp.path
  have hq : q ∉ a :: rest := by
    rw [hp.path.layers q, hp.loss]
    simp
  have hn : (a :: (rest ++ [q])).Nodup := by
    rw [← List.cons_append, List.nodup_append]
    refine ⟨hp.path.nodup, by simp, ?_⟩
    intro x hx y hy hxy
    rw [List.mem_singleton] at hy
    rw [hy] at hxy
    exact hq (hxy ▸ hx)
  refine ⟨hin, hq, ?_, ?_⟩
  · unfold trainingArcs DLGraph.trainingRun
    rw [hin]
    exact arc_run hok.training hn fun x y => hp.training x y
  · unfold backwardArcs DLGraph.backwardRun
    rw [hp.loss]
    refine arc_run hok.backward ?_ fun x y => ?_
    · have := (List.nodup_reverse (l := a :: (rest ++ [q]))).mpr hn
      simpa using this
    · rw [hp.backward x y]
      have := mem_zip_reverse (x := x) (y := y) (a :: rest ++ [q])
      rw [← this]
      simp

theorem maps_core {l l' : AnyLayer} {n m : Nat} (h : core l' = core l) (hm : Maps n m l) :
    Maps n m l' := by
  cases l' <;> cases l <;> simp only [core, reduceCtorEq, AnyLayer.dense.injEq, AnyLayer.conv.injEq,
    AnyLayer.maxPool.injEq, AnyLayer.avgPool.injEq, AnyLayer.act.injEq] at h
  case dense.dense a b =>
    obtain ⟨a1, a2, a3, a4, a5, a6, a7⟩ := a
    simp at h
    obtain ⟨rfl, rfl, rfl, rfl, e⟩ := h
    obtain ⟨h1, h2, h3, h4, h5⟩ := hm
    exact ⟨h1, h2, e.trans h3, h4, h5⟩
  case conv.conv a b =>
    obtain ⟨a1, a2, a3, a4, a5, a6, a7, a8, a9, a10, a11, a12, a13⟩ := a
    simp at h
    obtain ⟨rfl, rfl, rfl, rfl, rfl, rfl, rfl, rfl, e⟩ := h
    obtain ⟨g, h1, h2, h3, h4, h5, h6, h7, h8, h9⟩ := hm
    exact ⟨g, h1, h2, h3, h4, h5, h6, e.trans h7, h8, h9⟩
  case maxPool.maxPool a b =>
    obtain ⟨a1, a2, a3, a4, a5, a6, a7⟩ := a
    simp at h
    obtain ⟨rfl, rfl, rfl, rfl, e⟩ := h
    obtain ⟨g, h1, h2, h3, h4, h5, h6, h7⟩ := hm
    exact ⟨g, h1, h2, h3, h4, h5, e.trans h6, h7⟩
  case avgPool.avgPool a b =>
    obtain ⟨a1, a2, a3, a4, a5, a6, a7⟩ := a
    simp at h
    obtain ⟨rfl, rfl, rfl, rfl, e⟩ := h
    obtain ⟨g, h1, h2, h3, h4, h5, h6, h7⟩ := hm
    exact ⟨g, h1, h2, h3, h4, h5, e.trans h6, h7⟩
  case act.act f a g b =>
    obtain ⟨rfl, h⟩ := h
    have e : f.isLinear = false → a.output.length = b.output.length := by
      intro hf
      simp [hf] at h
      exact h.1
    cases f with
    | linear => exact hm
    | softmax => exact ⟨hm.1, (e rfl).trans hm.2.1, hm.2.2⟩
    | relu => exact ⟨hm.1, (e rfl).trans hm.2⟩
    | elu r => exact ⟨hm.1, (e rfl).trans hm.2⟩
    | tanh => exact ⟨hm.1, (e rfl).trans hm.2⟩
    | sigmoid => exact ⟨hm.1, (e rfl).trans hm.2⟩
  all_goals exact hm.elim

theorem lastSource_mem : ∀ (es : List Stage) (s : Source) (i : Nat), lastSource s es = .output i →
    s = .output i ∨ i ∈ es.map Stage.idx := by
  intro es
  induction es with
  | nil => intro s i h; exact Or.inl h
  | cons e es ih =>
    intro s i h
    rcases ih _ _ h with h | h
    · cases h; exact Or.inr (by simp)
    · exact Or.inr (List.mem_cons_of_mem _ h)

theorem trainable_of {n m : Nat} {x y : List ℝ} {es : List Stage} (hc : Chain n x es m y) :
    ∀ (ks' : List AnyLayer), ks'.length = es.length →
    (∀ (j : Nat) (e : Stage), es[j]? = some e → ∃ l', ks'[j]? = some l' ∧ core l' = core e.layer ∧
      HasGrads e.nin e.nout l') → (∀ e ∈ es, Maps e.nin e.nout e.layer) → Trainable n m ks' := by
  induction hc with
  | nil n x hx =>
    intro ks' h3 h4 _
    have : ks' = [] := List.length_eq_zero_iff.mp (by simpa using h3)
    subst this
    exact .nil n
  | @cons e es m y g1 g2 g3 _ ih =>
    intro ks' h3 h4 h5
    cases ks' with
    | nil => simp at h3
    | cons l' ks' =>
      obtain ⟨k, k1, k2, k3⟩ := h4 0 e rfl
      cases k1
      exact .cons (maps_core k2 (h5 e (by simp))) k3 (ih ks'
        (by simpa using h3) (fun j e' he' => h4 (j + 1) e' he') fun e' he' => h5 e' (by simp [he']))

theorem getElem?_of_map {ls : List AnyLayer} {p : List Nat} {ks : List AnyLayer}
    (h : p.map (fun i => ls[i]?) = ks.map some) {es : List Stage} (h1 : es.map Stage.idx = p)
    (h2 : es.map Stage.layer = ks) : ∀ e ∈ es, ls[e.idx]? = some e.layer := by
  subst h1 h2
  rw [List.map_map, List.map_map] at h
  intro e he
  exact List.map_inj_left.mp h e he

/-- The layers at the positions `p`, if they exist. -/
theorem layers_at {ls : List AnyLayer} : ∀ (p : List Nat), (∀ i ∈ p, ∃ l, ls[i]? = some l) →
    ∃ ks : List AnyLayer, p.map (fun i => ls[i]?) = ks.map some := by
  intro p
  induction p with
  | nil => intro _; exact ⟨[], rfl⟩
  | cons i p ih =>
    intro h
    obtain ⟨ks, h1⟩ := ih fun i hi => h i (by simp [hi])
    obtain ⟨l, h2⟩ := h i (by simp)
    exact ⟨l :: ks, by simp [h1, h2]⟩

theorem next_ok {σ τ : Type} (s : σ) (fail : σ → τ) (f : σ → Exec (τ × Option String)) :
    next (.ok (s, none)) fail f = f s := rfl

/-- A step along a path.  The loss layer scores the prediction for the sample; the derivatives need
that the loss is differentiable there. -/
theorem step_path_scored {n : Net} {p : List Nat} {q : Nat} {ks : List AnyLayer} {f : LossFn} {nin m : Nat}
    {inv : ℝ} {x t : List ℝ} (hok : Ok n.graph) (hl : Lists n.graph) (hp : IsTrainingPath n.graph p q)
    (hne : p ≠ []) (hr : Ready n p q ks f nin m inv) (hxl : x.length = nin) (hct : CanScore f m t) :
    ∃ n' ks', n.step x t = .ok (n', none) ∧ n'.graph = n.graph ∧ Ready n' p q ks' f nin m inv ∧
      ks'.map core = ks.map core ∧
      (∀ i, i ∉ p → i ≠ q → n'.layers[i]? = n.layers[i]?) ∧
      (∃ L L1 g, g = tab m (lossGrad f inv (vec t) (vec (prediction ks x))) ∧
        n.layers[q]? = some (.loss f L) ∧ (prediction ks x).length = m ∧
        (AnyLayer.loss f (L.setTarget t)).trainingForward (prediction ks x) = .ok (.loss f L1, none) ∧
        n'.layers[q]? = some (.loss f { L1 with lastInput := prediction ks x, gradients := g })) ∧
      (LossSmooth f m t (prediction ks x) →
      ∀ (j : Nat) (l : AnyLayer), ks[j]? = some l → ∃ l', ks'[j]? = some l' ∧
        ∀ b k, Learned l b → b < l.params.length → k < (l.params.getD b []).length →
          SmoothFrom (j + 1) ks x →
          (∀ v, ∃ y, YieldsAll (ks.set j (withParam l b k v)) x y) ∧
          HasDerivAt (fun v => objective f m inv t (prediction (ks.set j (withParam l b k v)) x))
            (entry l'.paramGrads b k - entry l.paramGrads b k) (entry l.params b k)) := by
  obtain ⟨L, l1, l2, l3, l4⟩ := hr.loss
  have hlen : p.length = ks.length := by simpa using congrArg List.length hr.layers
  obtain ⟨es, y, s1, s2, s3, s4⟩ := stages_of hr.sizes p hlen hxl
  have hy : prediction ks x = y := by rw [← s2]; exact prediction_of (chain_yields s3)
  have hat := getElem?_of_map hr.layers s1 s2
  obtain ⟨_, yl⟩ := s3.length
  obtain ⟨a, rest, rfl⟩ := List.exists_cons_of_ne_nil hne
  obtain ⟨f1, f2, f3, f4⟩ := training_facts hok hl hp
  have hq : q ∉ es.map Stage.idx := by rw [s1]; exact f2
  have hqlt : q < n.layers.length := (List.getElem?_eq_some_iff.mp l1).1
  have hqe : ∀ e ∈ es, q ≠ e.idx := fun e he h => hq (by rw [h]; exact List.mem_map_of_mem he)
  -- targets
  set L0 := L.setTarget t with hL0
  set ls0 := n.layers.set q (.loss f L0) with hls0
  have e1 : each (targetAt t) n.graph.loss n.layers = .ok (ls0, none) := by
    rw [hp.loss]
    show (targetAt t n.layers q >>= fun r => _) = _
    unfold targetAt
    rw [rd_of_some l1, Exec.bind_ok]
    rfl
  -- forwards
  obtain ⟨st1, t1, t2, t3, t4, t5⟩ := train_chain (x := x) es .external nin m x y
    ⟨ls0, List.replicate ls0.length none⟩ s3 rfl
    (fun e he => by
      show (n.layers.set q _)[e.idx]? = _
      rw [List.getElem?_set_ne (hqe e he)]
      exact hat e he)
    (by rw [s1]; exact hp.path.nodup) (by intro i hi; cases hi) (by simp)
  obtain ⟨t4a, t4b⟩ := t4 q hq
  have t6 : st1.layers[q]? = some (.loss f L0) := by
    rw [t4a]
    show (n.layers.set q _)[q]? = _
    simp [hqlt]
  obtain ⟨L1, u1, u2, u3, u4, u5⟩ := loss_train (f := f) (L := L0) hct l2 yl rfl
  set src := lastSource .external es with hsrc
  set st2 : Steps := ⟨st1.layers.set q (.loss f L1), st1.from_.set q (some src)⟩ with hst2
  have e2 : trainAt x st1 (src, q) = .ok (st2, none) := by
    unfold trainAt
    dsimp only
    rw [t2]
    dsimp only
    rw [rd_of_some t6, Exec.bind_ok, u1, Exec.bind_ok]
  have e3 : each (trainAt x) (n.graph.inputs.map (fun i => (Source.external, i)) ++
        (trainingArcs n.graph).map (fun a => (Source.output a.1, a.2)))
      ⟨ls0, List.replicate ls0.length none⟩ = .ok (st2, none) := by
    have harcs : n.graph.inputs.map (fun i => (Source.external, i)) ++
        (trainingArcs n.graph).map (fun a => (Source.output a.1, a.2))
        = arcs .external es ++ [(src, q)] := by
      rw [f1, f3]
      cases es with
      | nil => simp at s1
      | cons e es =>
        simp only [List.map_cons, List.cons.injEq] at s1
        obtain ⟨rfl, rfl⟩ := s1
        rw [arcs_zip]
        rfl
    rw [harcs, each_append _ _ t1]
    show (trainAt x st1 (src, q) >>= fun r => _) = _
    rw [e2, Exec.bind_ok]
    rfl
  -- the loss layer backwards
  have hsrcq : ∀ i, src = .output i → i ≠ q := by
    intro i hi hiq
    rcases lastSource_mem es .external i hi with h | h
    · cases h
    · exact hq (hiq ▸ h)
  have hlt1 : q < st1.layers.length := (List.getElem?_eq_some_iff.mp t6).1
  have v2 : value st2.layers x src = .ok y := by
    rw [value_congr (ls := st1.layers)]
    · exact t2
    · intro i hi
      show (st1.layers.set q _)[i]? = _
      rw [List.getElem?_set_ne (Ne.symm (hsrcq i hi))]
  set g := tab m (lossGrad f inv (vec t) (vec y)) with hg
  set L2 : Loss.Layer := { L1 with lastInput := y, gradients := g } with hL2
  set st3 : Steps := { st2 with layers := st2.layers.set q (.loss f L2) } with hst3
  have e4 : each (fun st i => backwardAt x st i []) n.graph.loss st2 = .ok (st3, none) := by
    rw [hp.loss]
    show (backwardAt x st2 q [] >>= fun r => _) = _
    unfold backwardAt follow
    have h1 : st2.layers[q]? = some (.loss f L1) := by
      show (st1.layers.set q _)[q]? = _
      simp [hlt1]
    have h2 : st2.from_[q]? = some (some src) := by
      show (st1.from_.set q _)[q]? = _
      simp [t5, hlt1]
    have h3 := loss_back (f := f) (L := L1) hct.1 (by rw [u2]; exact l3) yl u3
    have hu : L1.invBatch = inv := u4.trans l4
    have h4 : ({ L1 with lastInput := y, gradients := tab m (lossGrad f L1.invBatch (vec t) (vec y)) } :
        Loss.Layer) = L2 := by rw [hL2, hg, hu]
    rw [h4] at h3
    rw [rd_of_some h1, Exec.bind_ok, h2]
    dsimp only
    rw [v2, Exec.bind_ok, Exec.bind_ok, h3, Exec.bind_ok, Exec.bind_ok]
    rfl
  -- backwards
  have hq3 : ∀ i, i ≠ q → st3.layers[i]? = st1.layers[i]? := by
    intro i hi
    show ((st1.layers.set q _).set q _)[i]? = _
    rw [List.getElem?_set_ne (Ne.symm hi), List.getElem?_set_ne (Ne.symm hi)]
  have h3q : st3.layers[q]? = some (.loss f L2) := by
    show ((st1.layers.set q _).set q _)[q]? = _
    simp [hlt1]
  obtain ⟨st4, gi, b1, b2, b3, b4, b5, b6, b7⟩ := back_chain (x := x) (q := q) es .external nin m x y g
    st3 (.loss f L2) s3 (by simp [hg]) (trained_congr es .external (fun e he => by
        refine ⟨hq3 e.idx (Ne.symm (hqe e he)), ?_⟩
        show (st1.from_.set q _)[e.idx]? = _
        rw [List.getElem?_set_ne (hqe e he)]) t3)
    rfl (by rw [s1]; exact hp.path.nodup) (by intro i hi; cases hi) hq h3q rfl
  have e5 : each (backArcAt x) (backwardArcs n.graph) st3 = .ok (st4, none) := by
    rw [f4, ← s1, backArcs_zip]
    exact b1
  obtain ⟨ks', k1⟩ := layers_at (ls := st4.layers) (a :: rest) (by
    intro i hi
    rw [← s1] at hi
    obtain ⟨e, he, rfl⟩ := List.mem_map.mp hi
    obtain ⟨j, hj⟩ := List.mem_iff_getElem?.mp he
    obtain ⟨l'', c1, _⟩ := b5 j e hj
    exact ⟨l'', c1⟩)
  have klen : ks'.length = ks.length := by rw [← hlen]; simpa using (congrArg List.length k1).symm
  have hk : ∀ (j : Nat) (e : Stage), es[j]? = some e → ∃ l'', ks'[j]? = some l'' ∧
      core l'' = core e.layer ∧ HasGrads e.nin e.nout l'' ∧
      ∀ b k, Learned e.layer b → b < e.layer.params.length → k < (e.layer.params.getD b []).length →
          (∀ e' ∈ es.drop (j + 1), SmoothAt e'.input e'.layer) →
          StepGrad (es.map Stage.layer) j b k e.layer m x y g
            (entry l''.paramGrads b k - entry e.layer.paramGrads b k) := by
    intro j e hj
    obtain ⟨l'', c1, c2, c3, c4⟩ := b5 j e hj
    refine ⟨l'', ?_, c2, c3, c4⟩
    have h := congrArg (fun l => l[j]?) k1
    rw [List.getElem?_map, List.getElem?_map, ← s1, List.getElem?_map, hj] at h
    simp only [Option.map_some, c1] at h
    cases hk' : ks'[j]? with
    | none => rw [hk'] at h; cases h
    | some l3 => rw [hk'] at h; simp at h; rw [h]
  have hes : es.length = ks.length := by rw [← s2]; simp
  refine ⟨{ n with layers := st4.layers }, ks', ?_, rfl, ⟨k1, ?_, ?_⟩, ?_, ?_, ?_, ?_⟩
  · unfold Net.step
    rw [e1, next_ok, e3, next_ok, e4, next_ok, e5, Exec.bind_ok]
  · refine trainable_of s3 ks' (by omega) (fun j e hj => ?_) s4
    obtain ⟨l'', c1, c2, c3, _⟩ := hk j e hj
    exact ⟨l'', c1, c2, c3⟩
  · refine ⟨L2, ?_, u5, by simp [hL2, hg], u4.trans l4⟩
    show st4.layers[q]? = _
    rw [b6 q hq]
    exact h3q
  · apply List.ext_getElem?
    intro j
    rw [List.getElem?_map, List.getElem?_map]
    by_cases hj : j < es.length
    · obtain ⟨l'', c1, c2, _⟩ := hk j es[j] (List.getElem?_eq_getElem hj)
      have : ks[j]? = some es[j].layer := by rw [← s2, List.getElem?_map, List.getElem?_eq_getElem hj]; rfl
      rw [c1, this]
      simp [c2]
    · rw [List.getElem?_eq_none (by omega), List.getElem?_eq_none (by omega)]
  · intro i hi hiq
    show st4.layers[i]? = _
    rw [b6 i (by rw [s1]; exact hi), hq3 i hiq, (t4 i (by rw [s1]; exact hi)).1]
    show (n.layers.set q _)[i]? = _
    rw [List.getElem?_set_ne (Ne.symm hiq)]
  · refine ⟨L, L1, g, by rw [hy], l1, by rw [hy]; exact yl, by rw [hy]; exact u1, ?_⟩
    rw [hy]
    show st4.layers[q]? = _
    rw [b6 q hq]
    exact h3q
  · intro hsm j l hj
    rw [hy] at hsm
    rw [← s2, List.getElem?_map] at hj
    obtain ⟨e, he, rfl⟩ := Option.map_eq_some_iff.mp hj
    obtain ⟨l'', c1, c2, c3, c4⟩ := hk j e he
    refine ⟨l'', c1, ?_⟩
    intro b k h1 h2 h3 h4
    obtain ⟨Y, Y', y1, y2, y3, y4⟩ := c4 b k h1 h2 h3 (chain_smoothFrom s3 _ (by rw [s2]; exact h4))
    rw [s2] at y1
    refine ⟨fun v => ⟨Y v, (y1 v).1⟩, ?_⟩
    have hd := objective_curve (f := f) (inv := inv) (t := t) y2 y3 hsm
    rw [← hg, y4] at hd
    have hfun : (fun v => objective f m inv t (prediction (ks.set j (withParam e.layer b k v)) x))
        = fun v => objective f m inv t (Y v) := by
      funext v
      rw [prediction_of (y1 v).1]
    rw [hfun]
    exact hd

theorem step_path {n : Net} {p : List Nat} {q : Nat} {ks : List AnyLayer} {f : LossFn} {nin m : Nat}
    {inv : ℝ} {x t : List ℝ} (hok : Ok n.graph) (hl : Lists n.graph) (hp : IsTrainingPath n.graph p q)
    (hne : p ≠ []) (hr : Ready n p q ks f nin m inv) (hx : FitSample ks f nin m x t) :
    ∃ n' ks', n.step x t = .ok (n', none) ∧ n'.graph = n.graph ∧ Ready n' p q ks' f nin m inv ∧
      ks'.map core = ks.map core ∧
      (∀ i, i ∉ p → i ≠ q → n'.layers[i]? = n.layers[i]?) ∧
      ∀ (j : Nat) (l : AnyLayer), ks[j]? = some l → ∃ l', ks'[j]? = some l' ∧
        ∀ b k, Learned l b → b < l.params.length → k < (l.params.getD b []).length →
          SmoothFrom (j + 1) ks x →
          (∀ v, ∃ y, YieldsAll (ks.set j (withParam l b k v)) x y) ∧
          HasDerivAt (fun v => objective f m inv t (prediction (ks.set j (withParam l b k v)) x))
            (entry l'.paramGrads b k - entry l.paramGrads b k) (entry l.params b k) := by
  obtain ⟨n', ks', h1, h2, h3, h4, h5, _, h6⟩ := step_path_scored hok hl hp hne hr hx.size hx.target
  exact ⟨n', ks', h1, h2, h3, h4, h5, h6 hx.loss⟩

end

end Verif.Net
