import Verif.Proofs.GraphSingle
import Verif.Proofs.Net

namespace Verif.Graph

/-- The lists are right for the first `K` layers, and no later layer has connections. -/
structure ListsTo (K : Nat) (g : DLGraph) : Prop where
  inputs : ∀ i, i ∈ g.inputs ↔ i < K ∧ i ∉ g.loss ∧ ∀ x, i ∉ successors g.forward x
  outputs : ∀ i, i ∈ g.outputs ↔ i < K ∧ i ∉ g.loss ∧ ∀ y, y ∉ successors g.forward i
  arcs : ∀ x y, y ∈ successors g.forward x → x < K ∧ y < K
  le : K ≤ g.layers.length

/-- Some prefix of the layers is listed right. -/
def SomeLists (g : DLGraph) : Prop := ∃ K, ListsTo K g

theorem someLists_same {g g' : DLGraph} (h : SomeLists g) (h1 : g'.layers = g.layers)
    (h2 : g'.loss = g.loss) (h3 : g'.forward = g.forward) (h4 : g'.inputs = g.inputs)
    (h5 : g'.outputs = g.outputs) : SomeLists g' := by
  obtain ⟨K, a, b, c, d⟩ := h
  exact ⟨K, by rw [h2, h3, h4]; exact a, by rw [h2, h3, h5]; exact b, by rw [h3]; exact c,
    by rw [h1]; exact d⟩

theorem someLists_front {g : DLGraph} (hok : Ok g) (h : SomeLists g) (f t : Ptr) :
    SomeLists (g.addArcForward [(f, t)]).1 := by
  have hk : OkLike g g := ⟨hok, rfl, rfl⟩
  have ho := (okLike_arcForward hk [(f, t)]).1
  rcases single_front g f t with ⟨_, _, i, j, _, _, h5⟩ | ⟨hm, h5⟩
  · rw [h5] at ho ⊢
    obtain ⟨a, b⟩ := lists_compute (g := { g with
      forward := insertEdge i j g.forward, training := insertEdge i j g.training })
      (insertEdge_ok i j _ hok.forward)
    exact ⟨_, a, b, ho.forwardRange, Nat.le_refl _⟩
  · rw [h5]
    exact h

theorem someLists_back {g : DLGraph} (h : SomeLists g) (f t : Ptr) :
    SomeLists (g.addArcBackward [(f, t)]).1 := by
  rcases single_back g f t with ⟨_, _, i, j, _, _, h5⟩ | ⟨_, h5⟩
  · rw [h5]; exact someLists_same h rfl rfl rfl rfl rfl
  · rw [h5]; exact h

theorem someLists_frontLoss {g : DLGraph} (h : SomeLists g) (f t : Ptr) :
    SomeLists (g.addArcForwardLoss [(f, t)]).1 := by
  rcases single_frontLoss g f t with ⟨_, _, i, j, _, _, h5⟩ | ⟨_, h5⟩
  · rw [h5]; exact someLists_same h rfl rfl rfl rfl rfl
  · rw [h5]; exact h

theorem someLists_apply {m : Model} (hm : MOk m) (h : SomeLists m.graph) (op : Op) :
    SomeLists (m.apply op).1.graph := by
  cases op with
  | addLayer =>
    show SomeLists (m.graph.addNode ⟨m.fresh, false⟩)
    rw [addNode_fresh hm]
    obtain ⟨K, a, b, c, d⟩ := h
    exact ⟨K, a, b, c, by simp; omega⟩
  | addLoss =>
    show SomeLists (m.graph.addLoss ⟨m.fresh, true⟩)
    rw [addLoss_fresh hm]
    obtain ⟨K, a, b, c, d⟩ := h
    have aux : ∀ i, (i < K ∧ i ∉ m.graph.loss ++ [m.graph.layers.length])
        ↔ (i < K ∧ i ∉ m.graph.loss) := by
      intro i
      simp only [List.mem_append, List.mem_singleton, not_or]
      constructor
      · rintro ⟨h1, h2, h3⟩; exact ⟨h1, h2⟩
      · rintro ⟨h1, h2⟩; exact ⟨h1, h2, by omega⟩
    refine ⟨K, fun i => ?_, fun i => ?_, c, by simp; omega⟩
    · show i ∈ m.graph.inputs ↔ i < K ∧ i ∉ m.graph.loss ++ [m.graph.layers.length] ∧ _
      rw [← and_assoc, aux i, and_assoc]
      exact a i
    · show i ∈ m.graph.outputs ↔ i < K ∧ i ∉ m.graph.loss ++ [m.graph.layers.length] ∧ _
      rw [← and_assoc, aux i, and_assoc]
      exact b i
  | backArc s d => exact someLists_back h d s
  | frontArc s d => exact someLists_front hm.ok h s d
  | lossArc s d => exact someLists_frontLoss h s d
  | edge s d =>
    have hl : OkLike m.graph m.graph := ⟨hm.ok, rfl, rfl⟩
    exact (andThen_inv (P := fun g => Ok g ∧ SomeLists g)
      ⟨(okLike_arcBackward hl [(d, s)]).1, someLists_back h d s⟩
      (fun g hg => ⟨(okLike_arcForward ⟨hg.1, rfl, rfl⟩ [(s, d)]).1,
        someLists_front hg.1 hg.2 s d⟩)).2
  | lossEdge s d =>
    exact (andThen_inv (P := fun g => SomeLists g) (someLists_back h d s)
      (fun g hg => someLists_frontLoss hg s d))

theorem someLists_run (ops : List Op) : ∀ {m : Model}, MOk m → SomeLists m.graph →
    SomeLists (m.run ops).graph := by
  induction ops with
  | nil => intro m _ h; exact h
  | cons op ops ih =>
    intro m hm h
    exact ih (mok_apply hm op) (someLists_apply hm h op)

theorem someLists_empty : SomeLists Model.empty.graph :=
  ⟨0, by simp [Model.empty, DLGraph.empty], by simp [Model.empty, DLGraph.empty],
    by simp [Model.empty, DLGraph.empty, successors], by simp⟩

/-- In a path with at least two layers the lists are right. -/
theorem lists_of_path {g : DLGraph} (h : SomeLists g) {p : List Nat} (hp : Spec.IsPath g p)
    (h2 : 2 ≤ p.length) : Lists g := by
  obtain ⟨K, a, b, c, d⟩ := h
  have hK : ∀ i, i < g.layers.length ∧ i ∉ g.loss → i < K := by
    intro i hi
    have hi := (hp.layers i).mpr hi
    cases p with
    | nil => simp at h2
    | cons x rest =>
      cases rest with
      | nil => simp at h2
      | cons y rest =>
        rcases List.mem_cons.mp hi with rfl | hi
        · exact (c i y ((hp.arcs i y).mpr (by simp))).1
        · obtain ⟨z, hz⟩ := Net.pred_of_tail (y :: rest) x i hi
          exact (c z i ((hp.arcs z i).mpr hz)).2
  constructor
  · intro i
    rw [a i]
    exact ⟨fun h => ⟨by omega, h.2⟩, fun h => ⟨hK i ⟨h.1, h.2.1⟩, h.2⟩⟩
  · intro i
    rw [b i]
    exact ⟨fun h => ⟨by omega, h.2⟩, fun h => ⟨hK i ⟨h.1, h.2.1⟩, h.2⟩⟩

end Verif.Graph
