import Verif.Props.Graph

/-! C34 for the operations of `DLGraph` that take several sources or several targets. -/

namespace Verif.Props

open Verif Verif.Graph Verif.Spec

/-- The connections between positions that a list of pairs of layers stands for. -/
def listed (layers : List Ptr) (arcs : List (Ptr × Ptr)) (x y : Nat) : Prop :=
  ∃ p ∈ arcs, layers[x]? = some p.1 ∧ layers[y]? = some p.2

theorem listed_cons {layers : List Ptr} (hn : layers.Nodup) {f t : Ptr} {i j : Nat}
    (hi : layers.idxOf? f = some i) (hj : layers.idxOf? t = some j) (arcs : List (Ptr × Ptr)) (x y : Nat) :
    listed layers ((f, t) :: arcs) x y ↔ (x = i ∧ y = j) ∨ listed layers arcs x y := by
  unfold listed
  constructor
  · rintro ⟨p, hp, h1, h2⟩
    rcases List.mem_cons.mp hp with rfl | hp
    · left
      have e1 := idxOf?_of_getElem? hn h1
      have e2 := idxOf?_of_getElem? hn h2
      rw [hi] at e1
      rw [hj] at e2
      cases e1; cases e2
      exact ⟨rfl, rfl⟩
    · exact .inr ⟨p, hp, h1, h2⟩
  · rintro (⟨rfl, rfl⟩ | ⟨p, hp, h1, h2⟩)
    · exact ⟨(f, t), by simp, (idxOf?_some hi).2.1, (idxOf?_some hj).2.1⟩
    · exact ⟨p, List.mem_cons_of_mem _ hp, h1, h2⟩

/-- The loop adds the listed connections to the connections `sel` if `b` holds, and none otherwise. -/
theorem arcLoop_adds {step : DLGraph → Ptr → Ptr → DLGraph × Exec Unit} (put : DLGraph → Nat → Nat → DLGraph)
    (hl : ∀ g i j, (put g i j).layers = g.layers) (hok : ∀ g f t, Ok g → Ok (step g f t).1)
    (hs : ∀ g f t i j, g.layers.idxOf? f = some i → g.layers.idxOf? t = some j → step g f t = (put g i j, .ok ()))
    (sel : DLGraph → Edges) (b : Prop) (hsel : ∀ g i j, Ok g → ∀ x y, y ∈ successors (sel (put g i j)) x ↔
      (b ∧ x = i ∧ y = j) ∨ y ∈ successors (sel g) x) :
    ∀ (arcs : List (Ptr × Ptr)) (g : DLGraph), Ok g → (∀ p ∈ arcs, p.1 ∈ g.layers ∧ p.2 ∈ g.layers) →
      (arcLoop step arcs g).2 = .ok () ∧ ∀ x y, y ∈ successors (sel (arcLoop step arcs g).1) x ↔
        y ∈ successors (sel g) x ∨ (b ∧ listed g.layers arcs x y) := by
  intro arcs
  induction arcs with
  | nil => intro g _ _; exact ⟨rfl, fun x y => by simp [arcLoop, listed]⟩
  | cons p arcs ih =>
    intro g h hp
    obtain ⟨f, t⟩ := p
    obtain ⟨m1, m2⟩ := hp (f, t) (by simp)
    have some_of : ∀ {a : Ptr}, a ∈ g.layers → ∃ i, g.layers.idxOf? a = some i := by
      intro a ha
      cases e : g.layers.idxOf? a with
      | none => exact absurd ha (idxOf?_none.mp e)
      | some i => exact ⟨i, rfl⟩
    obtain ⟨i, hi⟩ := some_of m1
    obtain ⟨j, hj⟩ := some_of m2
    have e := hs g f t i j hi hj
    have e' : arcLoop step ((f, t) :: arcs) g = arcLoop step arcs (put g i j) := by
      conv_lhs => unfold arcLoop
      rw [e]
    have hg : Ok (put g i j) := by have := hok g f t h; rw [e] at this; exact this
    obtain ⟨a, c⟩ := ih (put g i j) hg (by rw [hl]; exact fun p hp' => hp p (by simp [hp']))
    rw [e']
    refine ⟨a, fun x y => ?_⟩
    rw [c, hsel g i j h, hl, listed_cons h.layers hi hj]
    tauto

theorem forwardArc_at {g : DLGraph} {f t : Ptr} {i j : Nat} (hi : g.layers.idxOf? f = some i)
    (hj : g.layers.idxOf? t = some j) : g.forwardArc f t =
      ({ g with forward := insertEdge i j g.forward, training := insertEdge i j g.training }, .ok ()) := by
  simp only [DLGraph.forwardArc, addArc, hi, hj]

theorem trainingArc_at {g : DLGraph} {f t : Ptr} {i j : Nat} (hi : g.layers.idxOf? f = some i)
    (hj : g.layers.idxOf? t = some j) : g.trainingArc f t =
      ({ g with training := insertEdge i j g.training }, .ok ()) := by
  simp only [DLGraph.trainingArc, addArc, hi, hj]

theorem backwardArc_at {g : DLGraph} {f t : Ptr} {i j : Nat} (hi : g.layers.idxOf? f = some i)
    (hj : g.layers.idxOf? t = some j) : g.backwardArc f t =
      ({ g with backward := insertEdge i j g.backward }, .ok ()) := by
  simp only [DLGraph.backwardArc, addArc, hi, hj]

theorem listed_swap (layers : List Ptr) (arcs : List (Ptr × Ptr)) (x y : Nat) :
    listed layers (arcs.map fun p => (p.2, p.1)) x y ↔ listed layers arcs y x := by
  unfold listed
  constructor
  · rintro ⟨p, hp, h1, h2⟩
    obtain ⟨q, hq, rfl⟩ := List.mem_map.mp hp
    exact ⟨q, hq, h2, h1⟩
  · rintro ⟨p, hp, h1, h2⟩
    exact ⟨(p.2, p.1), List.mem_map.mpr ⟨p, hp, rfl⟩, h2, h1⟩

/-- `add_arc_backward` with known layers. -/
theorem backward_adds {g : DLGraph} (h : Ok g) {arcs : List (Ptr × Ptr)}
    (hp : ∀ p ∈ arcs, p.1 ∈ g.layers ∧ p.2 ∈ g.layers) :
    let r := g.addArcBackward arcs
    r.2 = .ok () ∧ r.1.layers = g.layers ∧ r.1.loss = g.loss ∧
      (∀ x y, fwdArc r.1 x y ↔ fwdArc g x y) ∧ (∀ x y, trainArc r.1 x y ↔ trainArc g x y) ∧
      (∀ x y, backArc r.1 x y ↔ backArc g x y ∨ listed g.layers arcs x y) := by
  have key := fun sel b hsel => arcLoop_adds (step := DLGraph.backwardArc)
    (fun g i j => { g with backward := insertEdge i j g.backward }) (fun _ _ _ => rfl)
    (fun g f t hg => (ok_backwardArc hg f t).1) (fun g f t i j hi hj => backwardArc_at hi hj) sel b hsel arcs g h hp
  obtain ⟨h1, h2, h3⟩ := okLike_arcBackward (g0 := g) ⟨h, rfl, rfl⟩ arcs
  refine ⟨(key DLGraph.forward False (by simp)).1, h2, h3, ?_, ?_, ?_⟩
  · exact fun x y => ((key DLGraph.forward False (by simp)).2 x y).trans (by simp)
  · exact fun x y => ((key DLGraph.training False (by simp)).2 x y).trans (by simp)
  · exact fun x y => ((key DLGraph.backward True
      (fun g i j hg x y => by simpa using mem_successors_insert i j _ hg.backward x y)).2 x y).trans (by simp)

theorem back_lists (g : DLGraph) (arcs : List (Ptr × Ptr)) :
    (g.addArcBackward arcs).1.inputs = g.inputs ∧ (g.addArcBackward arcs).1.outputs = g.outputs := by
  refine arcLoop_inv (step := DLGraph.backwardArc) (P := fun g' => g'.inputs = g.inputs ∧ g'.outputs = g.outputs) ?_
    arcs g ⟨rfl, rfl⟩
  intro g' f t hg
  rcases backwardArc_cases g' f t with ⟨_, _, i, j, _, _, h5⟩ | ⟨_, h5⟩
  · rw [h5]; exact hg
  · rw [h5]; exact hg

/-- `add_arc_forward` to layers, with known layers. -/
theorem forward_adds {g : DLGraph} (h : Ok g) {arcs : List (Ptr × Ptr)}
    (hp : ∀ p ∈ arcs, p.1 ∈ g.layers ∧ p.2 ∈ g.layers) :
    let r := g.addArcForward arcs
    r.2 = .ok () ∧ r.1.layers = g.layers ∧ r.1.loss = g.loss ∧ Ok r.1 ∧ ListsRight r.1 ∧
      (∀ x y, fwdArc r.1 x y ↔ fwdArc g x y ∨ listed g.layers arcs x y) ∧
      (∀ x y, trainArc r.1 x y ↔ trainArc g x y ∨ listed g.layers arcs x y) ∧
      (∀ x y, backArc r.1 x y ↔ backArc g x y) := by
  have key := fun sel b hsel => arcLoop_adds (step := DLGraph.forwardArc)
    (fun g i j => { g with forward := insertEdge i j g.forward, training := insertEdge i j g.training })
    (fun _ _ _ => rfl) (fun g f t hg => (ok_forwardArc hg f t).1) (fun g f t i j hi hj => forwardArc_at hi hj) sel b
    hsel arcs g h hp
  obtain ⟨h1, h2, h3⟩ := okLike_arcForward (g0 := g) ⟨h, rfl, rfl⟩ arcs
  have e : g.addArcForward arcs = ((arcLoop DLGraph.forwardArc arcs g).1.computeInputs.computeOutputs, .ok ()) := by
    have := (key DLGraph.forward True
      (fun g i j hg x y => by simpa using mem_successors_insert i j _ hg.forward x y)).1
    unfold DLGraph.addArcForward
    cases hr : arcLoop DLGraph.forwardArc arcs g with
    | mk g' r =>
      rw [hr] at this
      simp only at this
      subst this
      rfl
  refine ⟨by rw [e], h2, h3, h1, ?_, ?_, ?_, ?_⟩
  · refine listsRight_of h1 ?_
    rw [e]
    exact lists_compute (arcLoop_inv (P := Ok) (fun g f t hg => (ok_forwardArc hg f t).1) arcs g h).forward
  · intro x y
    rw [e]
    exact ((key DLGraph.forward True
      (fun g i j hg x y => by simpa using mem_successors_insert i j _ hg.forward x y)).2 x y).trans (by simp)
  · intro x y
    rw [e]
    exact ((key DLGraph.training True
      (fun g i j hg x y => by simpa using mem_successors_insert i j _ hg.training x y)).2 x y).trans (by simp)
  · intro x y
    rw [e]
    exact ((key DLGraph.backward False (by simp)).2 x y).trans (by simp)

/-- `add_arc_forward` to a loss layer, with known layers. -/
theorem training_adds {g : DLGraph} (h : Ok g) {arcs : List (Ptr × Ptr)}
    (hp : ∀ p ∈ arcs, p.1 ∈ g.layers ∧ p.2 ∈ g.layers) :
    let r := g.addArcForwardLoss arcs
    r.2 = .ok () ∧ r.1.layers = g.layers ∧ r.1.loss = g.loss ∧ Ok r.1 ∧
      (∀ x y, fwdArc r.1 x y ↔ fwdArc g x y) ∧
      (∀ x y, trainArc r.1 x y ↔ trainArc g x y ∨ listed g.layers arcs x y) ∧
      (∀ x y, backArc r.1 x y ↔ backArc g x y) := by
  have key := fun sel b hsel => arcLoop_adds (step := DLGraph.trainingArc)
    (fun g i j => { g with training := insertEdge i j g.training }) (fun _ _ _ => rfl)
    (fun g f t hg => (ok_trainingArc hg f t).1) (fun g f t i j hi hj => trainingArc_at hi hj) sel b hsel arcs g h hp
  obtain ⟨h1, h2, h3⟩ := okLike_arcForwardLoss (g0 := g) ⟨h, rfl, rfl⟩ arcs
  refine ⟨(key DLGraph.forward False (by simp)).1, h2, h3, h1, ?_, ?_, ?_⟩
  · exact fun x y => ((key DLGraph.forward False (by simp)).2 x y).trans (by simp)
  · exact fun x y => ((key DLGraph.training True
      (fun g i j hg x y => by simpa using mem_successors_insert i j _ hg.training x y)).2 x y).trans (by simp)
  · exact fun x y => ((key DLGraph.backward False (by simp)).2 x y).trans (by simp)

/-- **C34** for `add_edge` with several sources or targets, on a graph made by any operations: if all layers are in
the graph, the call succeeds and records exactly the listed connections, reversed for the backward pass, and the input
and output layers are right afterwards.  The version for a loss layer leaves the forward connections alone. -/
theorem C34_vector_records (gops : List GOp) (arcs : List (Ptr × Ptr))
    (hp : ∀ p ∈ arcs, p.1 ∈ (DLGraph.empty.runOps gops).layers ∧ p.2 ∈ (DLGraph.empty.runOps gops).layers) :
    let g := DLGraph.empty.runOps gops
    (∃ g', g.addEdge arcs = (g', .ok ()) ∧ g'.layers = g.layers ∧ g'.loss = g.loss ∧ ListsRight g' ∧
      (∀ x y, fwdArc g' x y ↔ fwdArc g x y ∨ listed g.layers arcs x y) ∧
      (∀ x y, trainArc g' x y ↔ trainArc g x y ∨ listed g.layers arcs x y) ∧
      (∀ x y, backArc g' x y ↔ backArc g x y ∨ listed g.layers arcs y x)) ∧
    ∃ g', g.addEdgeLoss arcs = (g', .ok ()) ∧ g'.layers = g.layers ∧ g'.loss = g.loss ∧
      (∀ x y, fwdArc g' x y ↔ fwdArc g x y) ∧
      (∀ x y, trainArc g' x y ↔ trainArc g x y ∨ listed g.layers arcs x y) ∧
      (∀ x y, backArc g' x y ↔ backArc g x y ∨ listed g.layers arcs y x) := by
  intro g
  have h : Ok g := ok_runOps gops ok_empty
  have swap : ∀ g1 : DLGraph, g1.layers = g.layers →
      ∀ p ∈ arcs.map fun p => (p.2, p.1), p.1 ∈ g1.layers ∧ p.2 ∈ g1.layers := by
    intro g1 e p hm
    obtain ⟨q, hq, rfl⟩ := List.mem_map.mp hm
    rw [e]
    exact ⟨(hp q hq).2, (hp q hq).1⟩
  constructor
  · obtain ⟨a1, a2, a3, a4, a5, a6, a7, a8⟩ := forward_adds h hp
    obtain ⟨b1, b2, b3, b4, b5, b6⟩ := backward_adds a4 (swap _ a2)
    refine ⟨_, ?_, b2.trans a2, b3.trans a3, ?_, fun x y => (b4 x y).trans (a6 x y),
      fun x y => (b5 x y).trans (a7 x y), fun x y => ?_⟩
    · show andThen (g.addArcForward arcs) _ = _
      unfold andThen
      cases hr : g.addArcForward arcs with
      | mk g' r =>
        rw [hr] at a1 b1
        simp only at a1
        subst a1
        exact Prod.ext rfl b1
    · obtain ⟨l1, l2, l3, l4⟩ := a5
      refine ⟨fun i => ?_, fun i => ?_, ?_, ?_⟩
      · rw [(back_lists _ _).1, l1 i, b2, b3]
        simp only [b4]
      · rw [(back_lists _ _).2, l2 i, b2, b3]
        simp only [b4]
      · rw [(back_lists _ _).1]; exact l3
      · rw [(back_lists _ _).2]; exact l4
    · rw [b6, a8, a2, listed_swap]
  · obtain ⟨a1, a2, a3, a4, a6, a7, a8⟩ := training_adds h hp
    obtain ⟨b1, b2, b3, b4, b5, b6⟩ := backward_adds a4 (swap _ a2)
    refine ⟨_, ?_, b2.trans a2, b3.trans a3, fun x y => (b4 x y).trans (a6 x y),
      fun x y => (b5 x y).trans (a7 x y), fun x y => ?_⟩
    · show andThen (g.addArcForwardLoss arcs) _ = _
      unfold andThen
      cases hr : g.addArcForwardLoss arcs with
      | mk g' r =>
        rw [hr] at a1 b1
        simp only at a1
        subst a1
        exact Prod.ext rfl b1
    · rw [b6, a8, a2, listed_swap]

/-- The hypothesis of `C34_vector_records`: one layer connected with two others. -/
example : (∀ p ∈ [((⟨0, false⟩ : Ptr), (⟨1, false⟩ : Ptr)), (⟨0, false⟩, ⟨2, false⟩)],
      p.1 ∈ (DLGraph.empty.runOps [.addNode ⟨0, false⟩, .addNode ⟨1, false⟩, .addNode ⟨2, false⟩]).layers ∧
      p.2 ∈ (DLGraph.empty.runOps [.addNode ⟨0, false⟩, .addNode ⟨1, false⟩, .addNode ⟨2, false⟩]).layers) ∧
    ((DLGraph.empty.runOps [.addNode ⟨0, false⟩, .addNode ⟨1, false⟩, .addNode ⟨2, false⟩]).addEdge
      [(⟨0, false⟩, ⟨1, false⟩), (⟨0, false⟩, ⟨2, false⟩)]).1.backward = [(1, [0]), (2, [0])] := by decide

end Verif.Props
