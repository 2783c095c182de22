import Verif.Proofs.Star

/-! A whole training step of a model whose input layer feeds several branches. -/

namespace Verif.Net
open Verif.Spec Verif.Graph Finset

noncomputable section

/-! ### Positions -/

/-- The layers of a branch with the loss layer. -/
def Wing.ids (w : Wing) : List Nat := w.es.map Stage.idx ++ [w.q]

theorem Wing.ids_get (w : Wing) {j : Nat} (h : j ≤ w.es.length) : w.ids[j]? = some (w.node j) := by
  unfold Wing.ids
  by_cases hlt : j < w.es.length
  · rw [List.getElem?_append_left (by simpa using hlt), List.getElem?_map, List.getElem?_eq_getElem hlt,
      w.node_of (List.getElem?_eq_getElem hlt)]
    rfl
  · have : j = w.es.length := by omega
    subst this
    rw [w.node_end]
    simp

theorem Wing.ids_length (w : Wing) : w.ids.length = w.es.length + 1 := by simp [Wing.ids]

theorem Wing.prev_get (w : Wing) (a : Nat) {j : Nat} (h : j ≤ w.es.length + 1) :
    (a :: w.ids)[j]? = some (w.prev a j) := by
  cases j with
  | zero => rfl
  | succ j => exact w.ids_get (by omega)

theorem Wing.mem_way (w : Wing) (a : Nat) {x y : Nat} : (x, y) ∈ (a :: w.ids).zip w.ids ↔
    ∃ j, j ≤ w.es.length ∧ x = w.prev a j ∧ y = w.node j := by
  rw [List.mem_iff_getElem?]
  constructor
  · rintro ⟨j, hj⟩
    obtain ⟨h1, h2⟩ := List.getElem?_zip_eq_some.mp hj
    have hlt := (List.getElem?_eq_some_iff.mp h2).1
    rw [w.ids_length] at hlt
    have hle : j ≤ w.es.length := by omega
    rw [w.prev_get a (by omega)] at h1
    rw [w.ids_get hle] at h2
    simp only [Option.some.injEq] at h1 h2
    exact ⟨j, hle, h1.symm, h2.symm⟩
  · rintro ⟨j, hj, rfl, rfl⟩
    exact ⟨j, List.getElem?_zip_eq_some.mpr ⟨w.prev_get a (by omega), w.ids_get hj⟩⟩

theorem separate_of {a : Nat} {ws : List Wing} (h1 : ∀ w ∈ ws, (a :: w.ids).Nodup)
    (h2 : (ws.map Wing.ids).flatten.Nodup) : Separate a ws := by
  obtain ⟨n1, n2⟩ := List.nodup_flatten.mp h2
  rw [List.pairwise_map] at n2
  have hmem : ∀ (w : Wing) j, j ≤ w.es.length → w.node j ∈ w.ids := fun w j hj =>
    List.mem_of_getElem? (w.ids_get hj)
  refine ⟨?_, ?_, ?_⟩
  · intro w hw w' hw' j j' hj hj' h
    have hww : w = w' := by
      by_contra hne
      have : Std.Symm fun a b : Wing => a.ids.Disjoint b.ids := ⟨fun _ _ h => h.symm⟩
      have hd := n2.forall hw hw' hne
      exact hd (hmem w j hj) (by rw [h]; exact hmem w' j' hj')
    subst hww
    refine ⟨rfl, ?_⟩
    have hn := (List.nodup_cons.mp (h1 w hw)).2
    have e1 := w.ids_get hj
    have e2 := w.ids_get hj'
    rw [← h] at e2
    exact (List.getElem?_inj (i := j) (by rw [w.ids_length]; omega) hn).mp (e1.trans e2.symm)
  · intro w hw j hj h
    exact (List.nodup_cons.mp (h1 w hw)).1 (by rw [← h]; exact hmem w j hj)
  · refine n2.imp ?_
    intro w w' hd h
    subst h
    exact hd (hmem w _ (le_refl _)) (hmem w _ (le_refl _))

/-! ### The runs -/

/-- The connections are those of the branches. -/
def Arcs (a : Nat) (ws : List Wing) (E : Nat → List Nat) : Prop :=
  ∀ x y, y ∈ E x ↔ ∃ w ∈ ws, ∃ j, j ≤ w.es.length ∧ x = w.prev a j ∧ y = w.node j

/-- The connections are those of the branches, backwards. -/
def BackArcs (a : Nat) (ws : List Wing) (E : Nat → List Nat) : Prop :=
  ∀ x y, y ∈ E x ↔ ∃ w ∈ ws, ∃ j, j ≤ w.es.length ∧ y = w.prev a j ∧ x = w.node j

theorem train_all {a : Nat} {ws : List Wing} {E : Nat → List Nat} (h : Arcs a ws E) {r : List (Nat × Nat)}
    (hr : ∀ x y, (x, y) ∈ r ↔ Reach E [a] x ∧ y ∈ E x) {w : Wing} (hw : w ∈ ws) :
    ∀ j, j ≤ w.es.length → (w.prev a j, w.node j) ∈ r := by
  have reach : ∀ j, j ≤ w.es.length → Reach E [a] (w.prev a j) := by
    intro j
    induction j with
    | zero => intro _; exact ⟨a, by simp, .refl⟩
    | succ j ih =>
      intro hj
      obtain ⟨s, h1, h2⟩ := ih (by omega)
      exact ⟨s, h1, h2.tail ((h _ _).mpr ⟨w, hw, j, by omega, rfl, rfl⟩)⟩
  intro j hj
  exact (hr _ _).mpr ⟨reach j hj, (h _ _).mpr ⟨w, hw, j, hj, rfl, rfl⟩⟩

theorem back_all {a : Nat} {ws : List Wing} {E : Nat → List Nat} (h : BackArcs a ws E)
    {start : List Nat} {r : List (Nat × Nat)} (hr : ∀ x y, (x, y) ∈ r ↔ Reach E start x ∧ y ∈ E x)
    {w : Wing} (hw : w ∈ ws) (hq : w.q ∈ start) :
    ∀ j, j ≤ w.es.length → (w.node j, w.prev a j) ∈ r := by
  have reach : ∀ d, d ≤ w.es.length → Reach E start (w.node (w.es.length - d)) := by
    intro d
    induction d with
    | zero => intro _; exact ⟨w.q, hq, by rw [Nat.sub_zero, w.node_end]⟩
    | succ d ih =>
      intro hd
      obtain ⟨s, h1, h2⟩ := ih (by omega)
      refine ⟨s, h1, h2.tail ((h _ _).mpr ⟨w, hw, w.es.length - d, by omega, ?_, rfl⟩)⟩
      rw [show w.es.length - d = w.es.length - (d + 1) + 1 by omega]
      rfl
  intro j hj
  have := reach (w.es.length - j) (by omega)
  rw [show w.es.length - (w.es.length - j) = j by omega] at this
  exact (hr _ _).mpr ⟨this, (h _ _).mpr ⟨w, hw, j, hj, rfl, rfl⟩⟩

theorem train_before {a : Nat} {ws : List Wing} {E : Nat → List Nat} (hs : Separate a ws) (h : Arcs a ws E)
    {r : List (Nat × Nat)} (hr : ∀ x y, (x, y) ∈ r ↔ Reach E [a] x ∧ y ∈ E x) (ho : Ordered [a] r)
    {w : Wing} (hw : w ∈ ws) {j : Nat} (hj : j ≤ w.es.length) {pre post : List (Nat × Nat)}
    (e : r = pre ++ (w.prev a j, w.node j) :: post) :
    ∀ i, j = i + 1 → (w.prev a i, w.node i) ∈ pre := by
  rintro i rfl
  rcases ho pre _ _ post e with h1 | ⟨p, hp⟩
  · simp only [List.mem_singleton] at h1
    exact absurd h1 (hs.root w hw i (by omega))
  · have h2 : (p, w.node i) ∈ r := by rw [e]; exact List.mem_append_left _ hp
    obtain ⟨w', hw', j', hj', e1, e2⟩ := (h _ _).mp ((hr _ _).mp h2).2
    obtain ⟨rfl, rfl⟩ := hs.inj w hw w' hw' i j' (by omega) hj' e2
    rw [← e1]
    exact hp

theorem back_before {a : Nat} {ws : List Wing} {E : Nat → List Nat} (hs : Separate a ws)
    (h : BackArcs a ws E) {start : List Nat} (hst : ∀ i ∈ start, ∃ w ∈ ws, i = w.q)
    {r : List (Nat × Nat)} (hr : ∀ x y, (x, y) ∈ r ↔ Reach E start x ∧ y ∈ E x) (ho : Ordered start r)
    {w : Wing} (hw : w ∈ ws) {j : Nat} (hj : j ≤ w.es.length) {pre post : List (Nat × Nat)}
    (e : r = pre ++ (w.node j, w.prev a j) :: post) :
    j < w.es.length → (w.node (j + 1), w.prev a (j + 1)) ∈ pre := by
  intro hlt
  rcases ho pre _ _ post e with h1 | ⟨p, hp⟩
  · obtain ⟨w', hw', h2⟩ := hst _ h1
    rw [← w'.node_end] at h2
    obtain ⟨rfl, h3⟩ := hs.inj w hw w' hw' j _ hj (le_refl _) h2
    omega
  · have h2 : (p, w.node j) ∈ r := by rw [e]; exact List.mem_append_left _ hp
    obtain ⟨w', hw', j', hj', e1, e2⟩ := (h _ _).mp ((hr _ _).mp h2).2
    cases j' with
    | zero => exact absurd e1 (hs.root w hw j hj)
    | succ j' =>
      obtain ⟨rfl, rfl⟩ := hs.inj w hw w' hw' j j' hj (by omega) e1
      rw [← e2]
      exact hp

/-! ### The step -/

/-- The loss layers between the two runs. -/
structure Mid (m : Nat) (t : List ℝ) (ws : List Wing) (st0 : Steps) (done : List Nat) (st : Steps) :
    Prop where
  from_ : st.from_ = st0.from_
  loss : ∀ w ∈ ws, ∃ L, st.layers[w.q]? = some (.loss w.f L) ∧ L.inputSize = m ∧
    L.gradients.length = m ∧ L.invBatch = w.inv ∧ L.target = t ∧
    (w.q ∈ done → L.gradients = w.gin w.es.length)
  other : ∀ i, (∀ w ∈ ws, i ≠ w.q) → st.layers[i]? = st0.layers[i]?

theorem targets {m : Nat} {t : List ℝ} {ws : List Wing} {ls : List AnyLayer} {loss : List Nat}
    (hl : ∀ w ∈ ws, ∃ L, ls[w.q]? = some (.loss w.f L) ∧ L.inputSize = m ∧ L.gradients.length = m ∧
      L.invBatch = w.inv) (hloss : ∀ i, i ∈ loss ↔ ∃ w ∈ ws, i = w.q)
    (hinj : ∀ w ∈ ws, ∀ w' ∈ ws, w.q = w'.q → w = w') :
    ∃ ls', each (targetAt t) loss ls = .ok (ls', none) ∧ (∀ w ∈ ws, LossAt m t w ls') ∧
      (∀ i, (∀ w ∈ ws, i ≠ w.q) → ls'[i]? = ls[i]?) ∧ ls'.length = ls.length := by
  have key := each_visited (f := targetAt t) (r := loss)
    (Inv := fun done ls' => (∀ w ∈ ws, ∃ L, ls'[w.q]? = some (.loss w.f L) ∧ L.inputSize = m ∧
      L.gradients.length = m ∧ L.invBatch = w.inv ∧ (w.q ∈ done → L.target = t)) ∧
      (∀ i, (∀ w ∈ ws, i ≠ w.q) → ls'[i]? = ls[i]?) ∧ ls'.length = ls.length) (by
    rintro pre i post ls' e ⟨i1, i2, i3⟩
    obtain ⟨w, hw, rfl⟩ := (hloss i).mp (by rw [e]; simp)
    obtain ⟨L, l1, l2, l3, l4, l5⟩ := i1 w hw
    have hlt := (List.getElem?_eq_some_iff.mp l1).1
    refine ⟨ls'.set w.q (.loss w.f (L.setTarget t)), ?_, ?_, ?_, by simpa using i3⟩
    · unfold targetAt
      rw [rd_of_some l1, Exec.bind_ok]
    · intro w' hw'
      by_cases hsame : w.q = w'.q
      · obtain rfl := hinj w hw w' hw' hsame
        exact ⟨L.setTarget t, by simp [hlt], l2, l3, l4, fun _ => rfl⟩
      · obtain ⟨L', m1, m2, m3, m4, m5⟩ := i1 w' hw'
        refine ⟨L', by rw [List.getElem?_set_ne hsame]; exact m1, m2, m3, m4, fun hm => m5 ?_⟩
        rcases List.mem_append.mp hm with hm | hm
        · exact hm
        · simp only [List.mem_singleton] at hm
          exact absurd hm.symm hsame
    · intro i hi
      rw [List.getElem?_set_ne (Ne.symm (hi w hw))]
      exact i2 i hi) loss [] ls (by simp) ⟨fun w hw => by
        obtain ⟨L, h1, h2, h3, h4⟩ := hl w hw
        exact ⟨L, h1, h2, h3, h4, by simp⟩, fun _ _ => rfl, rfl⟩
  obtain ⟨ls', k1, k2, k3, k4⟩ := key
  refine ⟨ls', k1, fun w hw => ?_, k3, k4⟩
  obtain ⟨L, h1, h2, h3, h4, h5⟩ := k2 w hw
  exact ⟨L, h1, h2, h3, h4, h5 ((hloss _).mpr ⟨w, hw, rfl⟩)⟩

theorem losses {m : Nat} {t x : List ℝ} {ws : List Wing} {st0 : Steps} {e0 : Stage} {loss : List Nat}
    (hs : Separate e0.idx ws) (hok : ∀ w ∈ ws, WingOk m t e0 w)
    (hl : ∀ w ∈ ws, LossAt m t w st0.layers) (hloss : ∀ i, i ∈ loss ↔ ∃ w ∈ ws, i = w.q)
    (hv : ∀ w ∈ ws, st0.from_[w.q]? = some (some (.output (w.prev e0.idx w.es.length))) ∧
      value st0.layers x (.output (w.prev e0.idx w.es.length)) = .ok w.y) :
    ∃ st, each (fun st i => backwardAt x st i []) loss st0 = .ok (st, none) ∧ Mid m t ws st0 loss st := by
  have hinj : ∀ w ∈ ws, ∀ w' ∈ ws, w.q = w'.q → w = w' := by
    intro w hw w' hw' h
    rw [← w.node_end, ← w'.node_end] at h
    exact (hs.inj w hw w' hw' _ _ (le_refl _) (le_refl _) h).1
  refine each_visited (f := fun st i => backwardAt x st i []) (r := loss) (Inv := Mid m t ws st0) ?_
    loss [] st0 (by simp) ⟨rfl, fun w hw => ?_, fun _ _ => rfl⟩
  · intro pre i post st e hm
    obtain ⟨w, hw, rfl⟩ := (hloss i).mp (by rw [e]; simp)
    obtain ⟨L, l1, l2, l3, l4, l5, l6⟩ := hm.loss w hw
    have hlt := (List.getElem?_eq_some_iff.mp l1).1
    obtain ⟨v1, v2⟩ := hv w hw
    have hy := (hok w hw).chain.length.2
    have hb := loss_back (f := w.f) (L := L) (hok w hw).target.1 l3 hy l5
    rw [l4] at hb
    have v3 : value st.layers x (.output (w.prev e0.idx w.es.length)) = .ok w.y := by
      rw [value_congr (ls := st0.layers)]
      · exact v2
      · intro i hi
        cases hi
        refine hm.other _ fun w' hw' heq => ?_
        rw [← w'.node_end] at heq
        cases hlen : w.es.length with
        | zero =>
          rw [hlen] at heq
          exact hs.root w' hw' _ (le_refl _) heq.symm
        | succ k =>
          rw [hlen] at heq
          obtain ⟨rfl, hk⟩ := hs.inj w hw w' hw' k _ (by omega) (le_refl _) heq
          omega
    refine ⟨{ st with layers := st.layers.set w.q (.loss w.f { L with
      lastInput := w.y, gradients := tab m (lossGrad w.f w.inv (vec t) (vec w.y)) }) }, ?_, hm.from_, ?_, ?_⟩
    · unfold backwardAt follow
      rw [rd_of_some l1, Exec.bind_ok, hm.from_, v1]
      dsimp only
      rw [v3, Exec.bind_ok, Exec.bind_ok, hb, Exec.bind_ok]
      simp only [l4, hm.from_]
    · intro w' hw'
      by_cases hsame : w.q = w'.q
      · obtain rfl := hinj w hw w' hw' hsame
        exact ⟨{ L with lastInput := w.y, gradients := tab m (lossGrad w.f w.inv (vec t) (vec w.y)) },
          by simp [hlt], l2, by simp, l4, l5, fun _ => (hok w hw).grad.symm⟩
      · obtain ⟨L', m1, m2, m3, m4, m5, m6⟩ := hm.loss w' hw'
        refine ⟨L', by rw [List.getElem?_set_ne hsame]; exact m1, m2, m3, m4, m5, fun hmem => m6 ?_⟩
        rcases List.mem_append.mp hmem with hmem | hmem
        · exact hmem
        · simp only [List.mem_singleton] at hmem
          exact absurd hmem.symm hsame
    · intro i hi
      rw [List.getElem?_set_ne (Ne.symm (hi w hw))]
      exact hm.other i hi
  · obtain ⟨L, h1, h2, h3, h4, h5⟩ := hl w hw
    exact ⟨L, h1, h2, h3, h4, h5, by simp⟩

/-- The state of the model after a step. -/
theorem star_step {n : Net} {e0 : Stage} {ws : List Wing} {m : Nat} {x t : List ℝ}
    (hok : Ok n.graph) (hs : Separate e0.idx ws) (hwok : ∀ w ∈ ws, WingOk m t e0 w)
    (hin : n.graph.inputs = [e0.idx]) (hlossN : n.graph.loss.Nodup)
    (hloss : ∀ i, i ∈ n.graph.loss ↔ ∃ w ∈ ws, i = w.q)
    (hta : Arcs e0.idx ws (successors n.graph.training))
    (hba : BackArcs e0.idx ws (successors n.graph.backward))
    (hx : e0.input = x) (hl0 : n.layers[e0.idx]? = some e0.layer)
    (hg0 : HasGrads e0.nin e0.nout e0.layer) (hy0 : Yields e0.layer e0.input e0.output)
    (hl : ∀ w ∈ ws, ∀ e ∈ w.es, n.layers[e.idx]? = some e.layer)
    (hq : ∀ w ∈ ws, ∃ L, n.layers[w.q]? = some (.loss w.f L) ∧ L.inputSize = m ∧
      L.gradients.length = m ∧ L.invBatch = w.inv) :
    ∃ st r, n.step x t = .ok ({ n with layers := st.layers }, none) ∧
      (∀ w ∈ ws, ∀ j, j ≤ w.es.length → (w.node j, w.prev e0.idx j) ∈ r) ∧
      Bwd m n.layers e0 ws st.from_ r st := by
  have hinj : ∀ w ∈ ws, ∀ w' ∈ ws, w.q = w'.q → w = w' := by
    intro w hw w' hw' h
    rw [← w.node_end, ← w'.node_end] at h
    exact (hs.inj w hw w' hw' _ _ (le_refl _) (le_refl _) h).1
  have hqe : ∀ w ∈ ws, ∀ (j : Nat) (e : Stage), w.es[j]? = some e → ∀ w' ∈ ws, e.idx ≠ w'.q := by
    intro w hw j e he w' hw' heq
    rw [← w.node_of he, ← w'.node_end] at heq
    have := Wing.lt_of he
    obtain ⟨rfl, h2⟩ := hs.inj w hw w' hw' j _ (by omega) (le_refl _) heq
    omega
  have hqa : ∀ w' ∈ ws, e0.idx ≠ w'.q := by
    intro w' hw' heq
    rw [← w'.node_end] at heq
    exact hs.root w' hw' _ (le_refl _) heq.symm
  -- targets
  obtain ⟨ls1, a1, a2, a3, a4⟩ := targets (t := t) hq hloss hinj
  -- the input layer
  obtain ⟨l', t1, t2, t3, t4, t5⟩ := trainAt_stage (x := x)
    (st := ⟨ls1, List.replicate ls1.length none⟩) (s := .external) (e := e0)
    (by show Exec.ok x = _; rw [hx]) (by rw [a3 _ hqa]; exact hl0) (by simp) hg0 hy0
  have hlt0 : e0.idx < ls1.length := by rw [a4]; exact (List.getElem?_eq_some_iff.mp hl0).1
  -- the training run
  obtain ⟨r, b1, b2, b3, b4⟩ := run_list hok.training (start := [e0.idx]) (by simp)
  have htr : trainingArcs n.graph = r := by
    unfold trainingArcs DLGraph.trainingRun; rw [hin]; exact b1
  have f0 : Fwd m t n.layers e0 ws []
      ⟨ls1.set e0.idx l', (List.replicate ls1.length none).set e0.idx (some .external)⟩ := by
    refine ⟨by simp, ⟨l', by simp [hlt0], t2, t3, t4, t5⟩, by simp [hlt0], ?_, ?_, ?_⟩
    · intro w hw j e he
      have hne : e0.idx ≠ e.idx := by
        rw [← w.node_of he]; exact Ne.symm (hs.root w hw j (Wing.lt_of he).le)
      refine ⟨e.layer, ?_, rfl, ((chain_index (hwok w hw).chain).2 j e he).2.1, rfl, by simp⟩
      show (ls1.set e0.idx l')[e.idx]? = _
      rw [List.getElem?_set_ne hne, a3 _ (hqe w hw j e he)]
      exact hl w hw e (List.mem_of_getElem? he)
    · intro w hw
      refine ⟨?_, by simp⟩
      obtain ⟨L, h1, h2⟩ := a2 w hw
      exact ⟨L, by rw [List.getElem?_set_ne (hqa w hw)]; exact h1, h2⟩
    · intro i h1 h2
      show (ls1.set e0.idx l')[i]? = _
      rw [List.getElem?_set_ne (Ne.symm h1), a3 i]
      intro w hw
      rw [← w.node_end]
      exact h2 w hw _ (le_refl _)
  obtain ⟨st2, c1, c2⟩ := each_visited
    (f := fun st (a : Nat × Nat) => trainAt x st (Source.output a.1, a.2)) (r := r)
    (Inv := Fwd m t n.layers e0 ws) (by
      rintro pre ⟨u, v⟩ post st e hi
      have hm : (u, v) ∈ r := by rw [e]; simp
      obtain ⟨w, hw1, j, hj, rfl, rfl⟩ := (hta _ _).mp ((b3 _ _).mp hm).2
      exact fwd_step hs hwok hi hw1 hj (train_before hs hta b3 b4 hw1 hj e)) r [] _ (by simp) f0
  have e3 : each (trainAt x) (n.graph.inputs.map (fun i => (Source.external, i)) ++
        (trainingArcs n.graph).map (fun a => (Source.output a.1, a.2)))
      ⟨ls1, List.replicate ls1.length none⟩ = .ok (st2, none) := by
    rw [hin, htr]
    show (trainAt x _ (.external, e0.idx) >>= fun r => _) = _
    rw [t1, Exec.bind_ok]
    show each (trainAt x) (r.map fun a => (Source.output a.1, a.2)) _ = _
    rw [each_map]
    exact c1
  have hall := fun w (hw1 : w ∈ ws) => train_all hta b3 hw1
  -- the loss layers backwards
  obtain ⟨st3, d1, d2⟩ := losses (x := x) (st0 := st2) hs hwok (fun w hw1 => (c2.loss w hw1).1) hloss
    (fun w hw1 => ⟨(c2.loss w hw1).2 (hall w hw1 _ (le_refl _)), by
      rw [fwd_value c2 hw1 (le_refl _) (fun i hi => hall w hw1 i (by omega)),
        (chain_index (hwok w hw1).chain).1]⟩)
  -- the backward run
  obtain ⟨rb, g1, g2, g3, g4⟩ := run_list hok.backward (start := n.graph.loss) hlossN
  have hbr : backwardArcs n.graph = rb := by
    unfold backwardArcs DLGraph.backwardRun; exact g1
  have hF : ∀ w ∈ ws, ∀ (j : Nat) (e : Stage), w.es[j]? = some e →
      st2.from_[e.idx]? = some (some (.output (w.prev e0.idx j))) := by
    intro w hw1 j e he
    obtain ⟨l, _, _, _, _, h5⟩ := c2.stage w hw1 j e he
    exact (h5 (hall w hw1 j (Wing.lt_of he).le)).2
  have k0 : Bwd m n.layers e0 ws st2.from_ [] st3 := by
    refine ⟨d2.from_, ?_, ?_, ?_, ?_⟩
    · obtain ⟨l, h1, h2, h3, h4, h5⟩ := c2.root
      refine ⟨l, by rw [d2.other _ hqa]; exact h1, h2, h3, h4, ?_⟩
      intro b k _ _ _
      rw [h5]
      simp
    · intro w hw1 j e he
      obtain ⟨l, h1, h2, h3, h4, h5⟩ := c2.stage w hw1 j e he
      refine ⟨l, by rw [d2.other _ (hqe w hw1 j e he)]; exact h1, h2, h3,
        (h5 (hall w hw1 j (Wing.lt_of he).le)).1, by simp, ?_⟩
      intro b k _ _ _
      rw [h4]
      simp
    · intro w hw1
      obtain ⟨L, h1, h2, h3, h4, h5, h6⟩ := d2.loss w hw1
      exact ⟨L, h1, h2, h6 ((hloss _).mpr ⟨w, hw1, rfl⟩), h4⟩
    · intro i h1 h2
      rw [d2.other i, c2.other i h1 h2]
      intro w hw1
      rw [← w.node_end]
      exact h2 w hw1 _ (le_refl _)
  obtain ⟨st4, p1, p2⟩ := each_visited (f := backArcAt x) (r := rb)
    (Inv := Bwd m n.layers e0 ws st2.from_) (by
      rintro pre ⟨u, v⟩ post st e hi
      have hm : (u, v) ∈ rb := by rw [e]; simp
      obtain ⟨w, hw1, j, hj, rfl, rfl⟩ := (hba _ _).mp ((g3 _ _).mp hm).2
      refine bwd_step hs hwok hx c2.rootFrom hF hi hw1 hj
        (back_before hs hba (fun i hi => (hloss i).mp hi) g3 g4 hw1 hj e) ?_
      intro hmem
      rw [e] at g2
      exact (List.nodup_append.mp g2).2.2 _ hmem _ (by simp) rfl) rb [] st3 (by simp) k0
  refine ⟨st4, rb, ?_, fun w hw1 => back_all hba g3 hw1 ((hloss _).mpr ⟨w, hw1, rfl⟩), ?_⟩
  · unfold Net.step
    rw [a1, next_ok, e3, next_ok, d1, next_ok, hbr, p1, Exec.bind_ok]
  · rw [p2.from_]; exact p2

end

end Verif.Net
