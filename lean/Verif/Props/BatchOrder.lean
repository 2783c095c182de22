import Verif.Proofs.ShiftSum
import Verif.Props.ShapeHistory
import Verif.Props.Descent

/-!
C101: the order of the samples in a batch does not matter.
-/

namespace Verif.Props

open Verif Verif.Net Verif.Graph Verif.Spec

noncomputable section

/-- **C101**, the sum: a model of any shape as in C89 - branches, joins, skip connections, several inputs, outputs and
loss layers, no cycle - of dense, convolution, pooling, activation and loss layers, after any history of calls.  The
steps of a list of samples add to the accumulated gradients the sum of what each sample adds on its own, and they
leave the parameters as they are.  Missing: the biases of convolutions (`C101_conv_refuted`), dropout layers, whose
random numbers depend on the position of a sample, and recurrent and concatenation layers. -/
theorem C101_sum_partial (ops : List Op) (hops : ∀ op ∈ ops, Joins op) (net : Net)
    (hg : net.graph = (built ops).graph) (n : Nat) (ha : Agrees net n) (hp : Plain net) (hl : ListsRight net.graph)
    (hacyc : Acyclic (trainArc net.graph)) (hloss : ∀ i ∈ net.graph.loss, ∃ x, trainArc net.graph x i)
    (hne : ∃ i, i < net.graph.layers.length ∧ i ∉ net.graph.loss) (σ : Type) (opt : σ → ℝ → ℝ → σ × ℝ) (s : σ)
    (before : List UserCall) (hb : ∀ c ∈ before, Suitable net n c) (ss : List (List ℝ × List ℝ))
    (hc : ∀ c ∈ stepCalls ss, Suitable net n c) :
    ∃ s0 m0 es m, session opt before (s, net) = .ok ((s0, m0), es) ∧
      session opt (stepCalls ss) (s0, m0) = .ok ((s0, m), List.replicate ss.length none) ∧
      m.layers.map AnyLayer.params = m0.layers.map AnyLayer.params ∧
      ∀ i b k, LearnedAt net i b →
        gradAt m i b k = gradAt m0 i b k + (ss.map fun x => contribution m0 x i b k).sum := by
  obtain ⟨h1, h2⟩ := reached_of_acyclic hops hg hl hacyc hloss hne
  have hs := shaped_reached hops hg ha hl h1 h2
  obtain ⟨s0, m0, es, e, k, hsh⟩ := session_kept hs opt before s net (kept_self ha) hb
  have hS := simple_of_shapes hsh (simple_of_plain hp)
  obtain ⟨m, e1, k1, k2, k3⟩ := steps_sum hs hp.1 k hS opt s0 ss m0 k (.refl m0) hc
  refine ⟨s0, m0, es, m, e, e1, params_of_cores k2.core, fun i b k hL => k3 i b k (learnedAt_shape hsh hL)⟩

/-- **C101** for models of any shape as above without convolutions, after any history of calls: take two lists of
batches such that each batch of the second list has the samples of the corresponding batch of the first in another
order.  Training with them - a step for each sample, an update by any optimizer after each batch - leaves the same
parameters, gradients and state of the optimizer.  Missing: as in `C101_sum_partial`. -/
theorem C101_order_partial (ops : List Op) (hops : ∀ op ∈ ops, Joins op) (net : Net)
    (hg : net.graph = (built ops).graph) (n : Nat) (ha : Agrees net n) (hp : Plain net)
    (hconv : ∀ l, AnyLayer.conv l ∉ net.layers) (hl : ListsRight net.graph)
    (hacyc : Acyclic (trainArc net.graph)) (hloss : ∀ i ∈ net.graph.loss, ∃ x, trainArc net.graph x i)
    (hne : ∃ i, i < net.graph.layers.length ∧ i ∉ net.graph.loss) (σ : Type) (opt : σ → ℝ → ℝ → σ × ℝ) (s : σ)
    (before : List UserCall) (hb : ∀ c ∈ before, Suitable net n c) (bs bs' : List (List (List ℝ × List ℝ)))
    (hperm : List.Forall₂ List.Perm bs bs') (hc : ∀ c ∈ trainingCalls bs, Suitable net n c) :
    learned (session opt (before ++ trainingCalls bs) (s, net))
      = learned (session opt (before ++ trainingCalls bs') (s, net)) := by
  obtain ⟨h1, h2⟩ := reached_of_acyclic hops hg hl hacyc hloss hne
  have hs := shaped_reached hops hg ha hl h1 h2
  obtain ⟨s0, m0, es, e, k, hsh⟩ := session_kept hs opt before s net (kept_self ha) hb
  have hS := simple_of_shapes hsh (simple_of_plain hp)
  have hL : ∀ i b, LearnedAt net i b := by
    intro i b a hi
    cases a with
    | conv l => exact (hconv l (List.mem_of_getElem? hi)).elim
    | _ => trivial
  obtain ⟨s', m1, m2, es', e1, e2, e3⟩ := batches_same hs hp.1 opt hperm s0 m0 m0 k k hS
    (fun i b => learnedAt_shape hsh (hL i b)) (ess_refl _) hc
  unfold learned
  rw [session_append, session_append, e, Exec.bind_ok, Exec.bind_ok]
  dsimp only
  rw [e1, e2]
  show Exec.ok _ = Exec.ok _
  dsimp only
  rw [forall₂_map e3 fun a b e => e.params, forall₂_map e3 fun a b e => e.paramGrads]

/-- **C101** for `fit`: on a model as in `C101_order_partial`, `fit` with a data set, and `fit` with the data set
whose rows are rearranged within the batches, succeed and leave the same parameters and the same state of the
optimizer.  With a batch size of at least the number of rows, any order of the rows is such a rearrangement. -/
theorem C101_fit_partial (ops : List Op) (hops : ∀ op ∈ ops, Joins op) (net : Net)
    (hg : net.graph = (built ops).graph) (n : Nat) (ha : Agrees net n) (hp : Plain net)
    (hconv : ∀ l, AnyLayer.conv l ∉ net.layers) (hl : ListsRight net.graph)
    (hacyc : Acyclic (trainArc net.graph)) (hloss : ∀ i ∈ net.graph.loss, ∃ x, trainArc net.graph x i)
    (hne : ∃ i, i < net.graph.layers.length ∧ i ∉ net.graph.loss) (σ : Type) (opt : σ → ℝ → ℝ → σ × ℝ) (s : σ)
    (d d' : Data.Dataset ℝ) (b epochs fuel : Nat) (hb : 1 ≤ b) (hf : batchCount d.size b ≤ fuel)
    (π : Nat → Nat) (hπ : Rearranged b d d' π)
    (hd : ∀ i, i < d.size → ∃ x t, d.input i = .ok x ∧ d.label i = .ok t ∧ Suitable net n (.step x t)) :
    ∃ r r', Training.fit opt d fuel epochs b (s, net) = some (.ok r) ∧
      Training.fit opt d' fuel epochs b (s, net) = some (.ok r') ∧ r.1 = r'.1 ∧
      r.2.layers.map AnyLayer.params = r'.2.layers.map AnyLayer.params := by
  obtain ⟨h1, h2⟩ := reached_of_acyclic hops hg hl hacyc hloss hne
  have hs := shaped_reached hops hg ha hl h1 h2
  have key : ∃ rows : Nat → List ℝ × List ℝ, ∀ i, i < d.size →
      d.input i = .ok (rows i).1 ∧ d.label i = .ok (rows i).2 ∧ Suitable net n (.step (rows i).1 (rows i).2) := by
    have : ∀ i, ∃ r : List ℝ × List ℝ, i < d.size →
        d.input i = .ok r.1 ∧ d.label i = .ok r.2 ∧ Suitable net n (.step r.1 r.2) := by
      intro i
      by_cases h : i < d.size
      · obtain ⟨x, t, e1, e2, e3⟩ := hd i h
        exact ⟨(x, t), fun _ => ⟨e1, e2, e3⟩⟩
      · exact ⟨([], []), fun h' => absurd h' h⟩
    choose rows hrows using this
    exact ⟨rows, hrows⟩
  obtain ⟨rows, hrows⟩ := key
  have suits : ∀ rows' : Nat → List ℝ × List ℝ, (∀ i, i < d.size → Suitable net n (.step (rows' i).1 (rows' i).2)) →
      ∀ c ∈ (trainCalls d.size b epochs).map (userCall rows'), Suitable net n c := by
    intro rows' h c hc
    obtain ⟨c', h3, rfl⟩ := List.mem_map.mp hc
    cases c' with
    | step i => exact h i (sample_of_mem h3)
    | reset => trivial
    | train => trivial
  have s1 := suits rows fun i hi => (hrows i hi).2.2
  have s2 := suits (fun i => rows (π i)) fun i hi => (hrows _ (hπ.inside i hi)).2.2
  obtain ⟨r, es, e1, f1⟩ := perform_session opt (d := d) hs (trainCalls d.size b epochs) s net (kept_self ha)
    (by
      rintro c hc i rfl
      exact ⟨(hrows i (sample_of_mem hc)).1, (hrows i (sample_of_mem hc)).2.1⟩) s1
  obtain ⟨r', es', e2, f2⟩ := perform_session opt (d := d') hs (trainCalls d.size b epochs) s net (kept_self ha)
    (by
      rintro c hc i rfl
      have hi := sample_of_mem hc
      rw [hπ.input i hi, hπ.label i hi]
      exact ⟨(hrows _ (hπ.inside i hi)).1, (hrows _ (hπ.inside i hi)).2.1⟩) s2
  have c1 := C75_any_shape_partial ops hops net hg n ha hl hacyc hloss hne hp.1 σ opt s _ s1
  have c2 := C75_any_shape_partial ops hops net hg n ha hl hacyc hloss hne hp.1 σ opt s _ s2
  rw [trainCalls_learns] at c1 c2
  have c3 := C101_order_partial ops hops net hg n ha hp hconv hl hacyc hloss hne σ opt s [] (by simp) _ _
    (runBatches_perm (epochs := epochs) hb hπ.inside hπ.once hπ.batch (rows := rows) (rows' := fun i => rows (π i))
      fun i _ => rfl) (by
      intro c hc
      rw [← trainCalls_learns] at hc
      exact s1 c (List.mem_filter.mp hc).1)
  have c4 := c1.trans (c3.trans c2.symm)
  rw [f1, f2] at c4
  unfold learned at c4
  rw [Exec.bind_ok, Exec.bind_ok] at c4
  simp only [Exec.ok.injEq, Prod.mk.injEq] at c4
  refine ⟨r, r', ?_, ?_, c4.1, c4.2.2.1⟩
  · rw [C37_fit opt d b epochs fuel hb hf, e1]
  · rw [C37_fit opt d' b epochs fuel hb (hπ.size ▸ hf), hπ.size, e2]

/-- With one batch any order of the rows is a rearrangement. -/
theorem C101_one_batch (d d' : Data.Dataset ℝ) (b : Nat) (hb : d.size ≤ b) (π : Nat → Nat) (h1 : d'.size = d.size)
    (h2 : ∀ i, i < d.size → π i < d.size) (h3 : ∀ i j, i < d.size → j < d.size → π i = π j → i = j)
    (h4 : ∀ i, i < d.size → d'.input i = d.input (π i)) (h5 : ∀ i, i < d.size → d'.label i = d.label (π i)) :
    Rearranged b d d' π :=
  ⟨h1, h2, h3, fun i hi => by
    rw [Nat.div_eq_of_lt (Nat.lt_of_lt_of_le hi hb), Nat.div_eq_of_lt (Nat.lt_of_lt_of_le (h2 i hi) hb)], h4, h5⟩

/-! ### Examples -/

/-- The hypotheses of `C101_order_partial`: the example of C89, a dense layer, a rectifier, a softmax and a
hyperbolic tangent with branches, joins, a skip connection and two loss layers, after a prediction and a step; the
samples of two batches are exchanged. -/
example (w b : List ℝ) (hw : w.length = 6) (hb : b.length = 3) (x1 x2 x3 x4 x5 x6 : ℝ) :
    let opt := Opt.adamStep (1 / 100) (9 / 10) (999 / 1000) (1 / 10 ^ 8)
    learned (session opt ([.predict [1, 2], .step [x5, x6] [0, 1, 0]]
        ++ trainingCalls [[([x1, x2], [0, 1, 0]), ([x3, x4], [1, 0, 0])], [([x3, x4], [1, 0, 0]), ([x5, x6], [0, 1, 0])]])
          (Opt.Adam.init, meshNet w b))
      = learned (session opt ([.predict [1, 2], .step [x5, x6] [0, 1, 0]]
        ++ trainingCalls [[([x3, x4], [1, 0, 0]), ([x1, x2], [0, 1, 0])], [([x5, x6], [0, 1, 0]), ([x3, x4], [1, 0, 0])]])
          (Opt.Adam.init, meshNet w b)) := by
  intro opt
  refine C101_order_partial mesh (by simp [mesh, Joins]) (meshNet w b) rfl 2 (mesh_agrees w b hw hb) (mesh_plain w b) ?_
    mesh_right (acyclic_of_lt (by decide)) mesh_loss
    ⟨0, by show 0 < (built mesh).graph.layers.length; decide, by show 0 ∉ (built mesh).graph.loss; decide⟩
    _ opt _ _ ?_ _ _ (.cons (.swap _ _ _) (.cons (.swap _ _ _) .nil)) ?_
  · intro l h
    obtain ⟨i, hi⟩ := List.getElem?_of_mem h
    rcases mesh_layers hi with ⟨_, e⟩ | ⟨_, e⟩ | ⟨_, e⟩ | ⟨_, e⟩ | ⟨_, e⟩ | ⟨_, e⟩ <;> cases e
  · intro c hc
    simp only [List.mem_cons, List.not_mem_nil, or_false] at hc
    rcases hc with rfl | rfl
    · rfl
    · exact mesh_suitable w b _ _ _ _ _ (.inr (by norm_num))
  · intro c hc
    simp only [trainingCalls, stepCalls, List.flatMap_cons, List.flatMap_nil, List.map_cons, List.map_nil,
      List.mem_append, List.mem_cons, List.not_mem_nil, or_false] at hc
    rcases hc with ((rfl | rfl) | rfl) | ((rfl | rfl) | rfl)
    · exact mesh_suitable w b _ _ _ _ _ (.inr (by norm_num))
    · exact mesh_suitable w b _ _ _ _ _ (.inl (by norm_num))
    · trivial
    · exact mesh_suitable w b _ _ _ _ _ (.inl (by norm_num))
    · exact mesh_suitable w b _ _ _ _ _ (.inr (by norm_num))
    · trivial

/-- Two rows of two inputs and three labels. -/
def twoRows (a b c d : ℝ) (u v : List ℝ) : Data.Dataset ℝ := ⟨[a, b] ++ u ++ [c, d] ++ v, 5, 1, 10, 2, 2, {2, 3, 4}, {0, 1}⟩

theorem twoRows_rows (a b c d u0 u1 u2 v0 v1 v2 : ℝ) :
    (twoRows a b c d [u0, u1, u2] [v0, v1, v2]).input 0 = .ok [a, b] ∧
    (twoRows a b c d [u0, u1, u2] [v0, v1, v2]).label 0 = .ok [u0, u1, u2] ∧
    (twoRows a b c d [u0, u1, u2] [v0, v1, v2]).input 1 = .ok [c, d] ∧
    (twoRows a b c d [u0, u1, u2] [v0, v1, v2]).label 1 = .ok [v0, v1, v2] := by
  have h : Data.iter {2, 3, 4} = [2, 3, 4] := by
    unfold Data.iter
    have : ({2, 3, 4} : Finset Nat) = insert 2 (insert 3 {4}) := rfl
    rw [this, Finset.sort_insert, Finset.sort_insert] <;> simp
  have h' : Data.iter {0, 1} = [0, 1] := by
    unfold Data.iter
    have : ({0, 1} : Finset Nat) = insert 0 {1} := rfl
    rw [this, Finset.sort_insert] <;> simp
  simp [twoRows, Data.Dataset.input, Data.Dataset.label, Data.Dataset.fieldFromRow, h, h', Data.collect, rd]

/-- The hypotheses of `C101_fit_partial`: 3 epochs with the two rows in either order. -/
example (w b : List ℝ) (hw : w.length = 6) (hb : b.length = 3) (x1 x2 x3 x4 : ℝ) :
    ∃ r r', Training.fit (Opt.gdStep (1 / 10)) (twoRows x1 x2 x3 x4 [0, 1, 0] [1, 0, 0]) 1 3 2 ((), meshNet w b) = some (.ok r) ∧
      Training.fit (Opt.gdStep (1 / 10)) (twoRows x3 x4 x1 x2 [1, 0, 0] [0, 1, 0]) 1 3 2 ((), meshNet w b) = some (.ok r') ∧
      r.1 = r'.1 ∧ r.2.layers.map AnyLayer.params = r'.2.layers.map AnyLayer.params := by
  obtain ⟨a1, a2, a3, a4⟩ := twoRows_rows x1 x2 x3 x4 0 1 0 1 0 0
  obtain ⟨b1, b2, b3, b4⟩ := twoRows_rows x3 x4 x1 x2 1 0 0 0 1 0
  have two : ∀ {P : Nat → Prop}, P 0 → P 1 → ∀ i, i < (twoRows x1 x2 x3 x4 [0, 1, 0] [1, 0, 0]).size → P i := by
    intro P h0 h1 i hi
    have hi : i < 2 := hi
    match i, hi with
    | 0, _ => exact h0
    | 1, _ => exact h1
  refine C101_fit_partial mesh (by simp [mesh, Joins]) (meshNet w b) rfl 2 (mesh_agrees w b hw hb) (mesh_plain w b) ?_
    mesh_right (acyclic_of_lt (by decide)) mesh_loss
    ⟨0, by show 0 < (built mesh).graph.layers.length; decide, by show 0 ∉ (built mesh).graph.loss; decide⟩
    _ _ _ _ _ 2 3 1 (by omega) (by show batchCount 2 2 ≤ 1; decide) (fun i => 1 - i)
    (C101_one_batch _ _ 2 (by show 2 ≤ 2; omega) _ rfl (two (by show 1 < 2; omega) (by show 0 < 2; omega)) ?_ (two ?_ ?_) (two ?_ ?_)) (two ?_ ?_)
  · intro l h
    obtain ⟨i, hi⟩ := List.getElem?_of_mem h
    rcases mesh_layers hi with ⟨_, e⟩ | ⟨_, e⟩ | ⟨_, e⟩ | ⟨_, e⟩ | ⟨_, e⟩ | ⟨_, e⟩ <;> cases e
  · intro i j hi hj h
    have hi : i < 2 := hi
    have hj : j < 2 := hj
    omega
  · exact b1.trans a3.symm
  · exact b3.trans a1.symm
  · exact b2.trans a4.symm
  · exact b4.trans a2.symm
  · exact ⟨_, _, a1, a2, mesh_suitable w b _ _ _ _ _ (.inr (by norm_num))⟩
  · exact ⟨_, _, a3, a4, mesh_suitable w b _ _ _ _ _ (.inl (by norm_num))⟩

/-- The hypotheses of `C101_sum_partial`, for the weights of the dense layer of the same model. -/
example (w b : List ℝ) (hw : w.length = 6) (hb : b.length = 3) (x1 x2 x3 x4 : ℝ) :
    ∃ m, session (Opt.gdStep 1) (stepCalls [([x1, x2], [0, 1, 0]), ([x3, x4], [1, 0, 0])]) ((), meshNet w b)
        = .ok (((), m), [none, none]) ∧
      ∀ k, gradAt m 0 0 k = gradAt (meshNet w b) 0 0 k
        + (contribution (meshNet w b) ([x1, x2], [0, 1, 0]) 0 0 k + contribution (meshNet w b) ([x3, x4], [1, 0, 0]) 0 0 k) := by
  obtain ⟨s0, m0, es, m, e0, e1, _, e3⟩ := C101_sum_partial mesh (by simp [mesh, Joins]) (meshNet w b) rfl 2
    (mesh_agrees w b hw hb) (mesh_plain w b) mesh_right (acyclic_of_lt (by decide)) mesh_loss
    ⟨0, by show 0 < (built mesh).graph.layers.length; decide, by show 0 ∉ (built mesh).graph.loss; decide⟩
    Unit (Opt.gdStep 1) () [] (by simp) [([x1, x2], [0, 1, 0]), ([x3, x4], [1, 0, 0])] (by
      intro c hc
      simp only [stepCalls, List.map_cons, List.map_nil, List.mem_cons, List.not_mem_nil, or_false] at hc
      rcases hc with rfl | rfl
      · exact mesh_suitable w b _ _ _ _ _ (.inr (by norm_num))
      · exact mesh_suitable w b _ _ _ _ _ (.inl (by norm_num)))
  cases e0
  refine ⟨m, e1, fun k => ?_⟩
  have := e3 0 0 k (by intro a ha; cases ha; trivial)
  simpa using this

/-- A convolution with one filter of one cell, from 2 values to 2 values, followed by max pooling with windows of one
cell. -/
def filtered (bias wg bg ig out li pg po pl : List ℝ) (l : Loss.Layer) : Net :=
  ⟨(built threeLayers).graph, [.conv ⟨⟨2, 1, 1⟩, ⟨2, 1, 1⟩, ⟨1, 1⟩, 1, ⟨1, 1⟩, ⟨0, 0⟩, [0], bias, wg, bg, ig, out, li⟩,
    .maxPool ⟨⟨2, 1, 1⟩, ⟨2, 1, 1⟩, ⟨1, 1⟩, ⟨1, 1⟩, pg, po, pl⟩, .loss .mse l]⟩

theorem filtered_step (bias li pl : List ℝ) (wg bg i0 i1 o0 o1 p0 p1 q0 q1 : ℝ) (l : Loss.Layer) (x z u v : ℝ)
    (hx : l.gradients = [x, z]) (hb : l.invBatch = 1) :
    ∃ l2 : Loss.Layer, l2.gradients = [2 * (0 - u), 2 * (0 - v)] ∧ l2.invBatch = 1 ∧
      (filtered bias [wg] [bg] [i0, i1] [o0, o1] li [p0, p1] [q0, q1] pl l).step [0, 0] [u, v]
      = .ok (filtered bias [wg] [-2 * (u + v)] [0, 0] [0, 0] [0, 0] [-2 * (u + v), 0] [0, 0] [0, 0] l2, none) := by
  obtain ⟨l1, q1', l2, q2', q3⟩ := loss_pair l 0 0 u v x z hx hb
  have key : (filtered bias [wg] [bg] [i0, i1] [o0, o1] li [p0, p1] [q0, q1] pl l).step [0, 0] [u, v]
      = .ok (filtered bias [wg] [-2 * (u + v)] [0, 0] [0, 0] [0, 0] [-2 * (u + v), 0] [0, 0] [0, 0] l2, none) := ?_
  · refine ⟨l2, q3, ?_, key⟩
    have := congrArg (fun f => f[2]?) (step_frame key)
    simp [filtered, frame, extra] at this
    rw [← hb]
    exact this.2.2.2
  refine step_three _ _ (.conv ⟨⟨2, 1, 1⟩, ⟨2, 1, 1⟩, ⟨1, 1⟩, 1, ⟨1, 1⟩, ⟨0, 0⟩, [0], bias, [wg], [bg], [i0, i1], [0, 0], [0, 0]⟩)
      (.maxPool ⟨⟨2, 1, 1⟩, ⟨2, 1, 1⟩, ⟨1, 1⟩, ⟨1, 1⟩, [p0, p1], [0, 0], [0, 0]⟩) _ _ _ _ l1 l2 [0, 0] [u, v]
      [0, 0] [0, 0] ?_ rfl ?_ rfl q1' q2' ?_ ?_
  · have h1 : Slide.slideSide 2 1 1 0 = 2 := by decide
    have h2 : Slide.slideSide 1 1 1 0 = 1 := by decide
    simp [AnyLayer.trainingForward, AnyLayer.setLastInput, AnyLayer.forward,
      Slide.ConvLayer.forward, Slide.crossCorrelation, Slide.kernelSlide, Slide.conv4dOp, forUp, forFrom, rd, rdI, wr, keep, h1, h2]
  · simp [AnyLayer.trainingForward, AnyLayer.setLastInput, AnyLayer.forward, pool_forward, keep]
  · rw [q3]
    simp [AnyLayer.setLastInput, AnyLayer.backward, pool_backward, keep]
    ring
  · have h1 : Slide.slideSide 2 1 1 0 = 2 := by decide
    have h2 : Slide.slideSide 1 1 1 0 = 1 := by decide
    simp [AnyLayer.setLastInput, AnyLayer.lastInputGradient, AnyLayer.backward, Slide.ConvLayer.backward,
      Slide.convBiasGrads, Slide.convGradOp, Slide.kernelSlide, forUp, forFrom, rd, rdI, wr, keep, h1, h2]

/-- **C101 is false** for models with convolutions (C12): a `step` does not add to the gradients of the biases of a
convolution, it overwrites them.  So the samples with targets (-1, 3) and (1, 0) leave the gradient -2 in one
order and -4 in the other, and gradient descent with the rate 1 leaves the biases 2 and 4. -/
theorem C101_conv_refuted :
    ∃ conv pool, Slide.ConvLayer.mk' ⟨2, 1, 1⟩ ⟨1, 1⟩ 1 ⟨1, 1⟩ ⟨0, 0⟩ = .ok conv ∧
      Slide.PoolLayer.mk' ⟨2, 1, 1⟩ ⟨1, 1⟩ ⟨1, 1⟩ = .ok pool ∧
      let net : Net := ⟨(built threeLayers).graph, [.conv conv, .maxPool pool, .loss .mse (Loss.Layer.new 2 1 (1 / 10))]⟩
      ∃ m1 m2, session (Opt.gdStep 1) (trainingCalls [[([0, 0], [-1, 3]), ([0, 0], [1, 0])]]) ((), net)
            = .ok (((), m1), [none, none, none]) ∧
        session (Opt.gdStep 1) (trainingCalls [[([0, 0], [1, 0]), ([0, 0], [-1, 3])]]) ((), net)
            = .ok (((), m2), [none, none, none]) ∧
        (m1.layers.map AnyLayer.params)[0]? = some [[0], [2]] ∧ (m2.layers.map AnyLayer.params)[0]? = some [[0], [4]] := by
  refine ⟨_, _, rfl, rfl, ?_⟩
  intro net
  have h0 : net = filtered [0] [0] [0] [0, 0] [0, 0] [] [0, 0] [0, 0] [] (Loss.Layer.new 2 1 (1 / 10)) := rfl
  have n1 : (Loss.Layer.new 2 1 (1 / 10)).gradients = [0, 0] := by simp [Loss.Layer.new]
  have n2 : (Loss.Layer.new 2 1 (1 / 10)).invBatch = 1 := by simp [Loss.Layer.new]
  have two : ∀ u v u' v' : ℝ, ∃ m, session (Opt.gdStep 1) (trainingCalls [[([0, 0], [u, v]), ([0, 0], [u', v'])]]) ((), net)
      = .ok (((), m), [none, none, none]) ∧ (m.layers.map AnyLayer.params)[0]? = some [[0], [2 * (u' + v')]] := by
    intro u v u' v'
    obtain ⟨l1, a1, a2, e1⟩ := filtered_step [0] [] [] 0 0 0 0 0 0 0 0 0 0 _ 0 0 u v n1 n2
    obtain ⟨l2, _, _, e2⟩ := filtered_step [0] [0, 0] [0, 0] 0 (-2 * (u + v)) 0 0 0 0 (-2 * (u + v)) 0 0 0 l1 _ _ u' v' a1 a2
    have e3 : ∃ m, (filtered [0] [0] [-2 * (u' + v')] [0, 0] [0, 0] [0, 0] [-2 * (u' + v'), 0] [0, 0] [0, 0] l2).train
        (Opt.gdStep 1) () = (((), m), .ok ()) ∧ (m.layers.map AnyLayer.params)[0]? = some [[0], [2 * (u' + v')]] := by
      simp [filtered, Net.train, trainLayers, AnyLayer.train, Opt.trainSelf, AnyLayer.kind, Opt.Kind.paramCount,
        Opt.trainLoop, Opt.trainOne, Opt.readAt, Opt.writeAt, Opt.locate, AnyLayer.params, AnyLayer.paramGrads, rd, wr,
        Opt.gdStep, AnyLayer.setParams, AnyLayer.setParamGrads]
    obtain ⟨m, e3, e4⟩ := e3
    refine ⟨m, ?_, e4⟩
    rw [h0]
    show (Net.step _ _ _ >>= _) = _
    rw [e1, Exec.bind_ok]
    show ((Net.step _ _ _ >>= _) >>= _) = _
    rw [e2, Exec.bind_ok]
    show ((session (Opt.gdStep 1) [.train] _ >>= _) >>= _) = _
    unfold session
    dsimp only
    rw [e3]
    rfl
  obtain ⟨m1, e1, f1⟩ := two (-1) 3 1 0
  obtain ⟨m2, e2, f2⟩ := two 1 0 (-1) 3
  refine ⟨m1, m2, e1, e2, ?_, ?_⟩
  · rw [f1]; norm_num
  · rw [f2]; norm_num

end

end Verif.Props
