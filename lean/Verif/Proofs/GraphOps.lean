import Verif.Proofs.Graph

namespace Verif.Graph

/-- Invariant of every graph. -/
structure Ok (g : DLGraph) : Prop where
  layers : g.layers.Nodup
  forward : EdgesOk g.forward
  training : EdgesOk g.training
  backward : EdgesOk g.backward
  forwardRange : ∀ x y, y ∈ successors g.forward x → x < g.layers.length ∧ y < g.layers.length
  trainingRange : ∀ x y, y ∈ successors g.training x → x < g.layers.length ∧ y < g.layers.length
  backwardRange : ∀ x y, y ∈ successors g.backward x → x < g.layers.length ∧ y < g.layers.length
  loss : ∀ i ∈ g.loss, i < g.layers.length
  inputs : ∀ i ∈ g.inputs, i < g.layers.length
  outputs : ∀ i ∈ g.outputs, i < g.layers.length
  inputsSorted : g.inputs.Pairwise (· < ·)
  outputsSorted : g.outputs.Pairwise (· < ·)

theorem nodup_of_sorted {l : List Nat} (h : l.Pairwise (· < ·)) : l.Nodup :=
  h.imp fun hab => Nat.ne_of_lt hab

theorem ok_empty : Ok DLGraph.empty := by
  refine ⟨by simp [DLGraph.empty], edgesOk_nil, edgesOk_nil, edgesOk_nil, ?_, ?_, ?_, ?_, ?_, ?_, ?_, ?_⟩ <;>
    simp [DLGraph.empty, successors_nil]

theorem forwardArc_cases (g : DLGraph) (f t : Ptr) :
    (f ∈ g.layers ∧ t ∈ g.layers ∧ ∃ i j, g.layers.idxOf? f = some i ∧ g.layers.idxOf? t = some j ∧
      g.forwardArc f t = ({ g with forward := insertEdge i j g.forward,
                                   training := insertEdge i j g.training }, .ok ())) ∨
    ((f ∉ g.layers ∨ t ∉ g.layers) ∧
      g.forwardArc f t = (g, .throw "add_arc error: params are not included in nodes")) := by
  rcases addArc_cases g.layers g.forward f t with ⟨h1, h2, i, j, h3, h4, h5⟩ | ⟨h1, h2⟩
  · left
    refine ⟨h1, h2, i, j, h3, h4, ?_⟩
    unfold DLGraph.forwardArc
    rw [h5]
    dsimp only
    have : addArc g.layers g.training f t = .ok (insertEdge i j g.training) := by
      unfold addArc; rw [h3, h4]
    rw [this]
  · right
    refine ⟨h1, ?_⟩
    unfold DLGraph.forwardArc
    rw [h2]

theorem trainingArc_cases (g : DLGraph) (f t : Ptr) :
    (f ∈ g.layers ∧ t ∈ g.layers ∧ ∃ i j, g.layers.idxOf? f = some i ∧ g.layers.idxOf? t = some j ∧
      g.trainingArc f t = ({ g with training := insertEdge i j g.training }, .ok ())) ∨
    ((f ∉ g.layers ∨ t ∉ g.layers) ∧
      g.trainingArc f t = (g, .throw "add_arc error: params are not included in nodes")) := by
  rcases addArc_cases g.layers g.training f t with ⟨h1, h2, i, j, h3, h4, h5⟩ | ⟨h1, h2⟩
  · left
    exact ⟨h1, h2, i, j, h3, h4, by unfold DLGraph.trainingArc; rw [h5]⟩
  · right
    exact ⟨h1, by unfold DLGraph.trainingArc; rw [h2]⟩

theorem backwardArc_cases (g : DLGraph) (f t : Ptr) :
    (f ∈ g.layers ∧ t ∈ g.layers ∧ ∃ i j, g.layers.idxOf? f = some i ∧ g.layers.idxOf? t = some j ∧
      g.backwardArc f t = ({ g with backward := insertEdge i j g.backward }, .ok ())) ∨
    ((f ∉ g.layers ∨ t ∉ g.layers) ∧
      g.backwardArc f t = (g, .throw "add_arc error: params are not included in nodes")) := by
  rcases addArc_cases g.layers g.backward f t with ⟨h1, h2, i, j, h3, h4, h5⟩ | ⟨h1, h2⟩
  · left
    exact ⟨h1, h2, i, j, h3, h4, by unfold DLGraph.backwardArc; rw [h5]⟩
  · right
    exact ⟨h1, by unfold DLGraph.backwardArc; rw [h2]⟩

theorem range_insert {n : Nat} {e : Edges} (he : EdgesOk e)
    (h : ∀ x y, y ∈ successors e x → x < n ∧ y < n) {i j : Nat} (hi : i < n) (hj : j < n) :
    ∀ x y, y ∈ successors (insertEdge i j e) x → x < n ∧ y < n := by
  intro x y hy
  rcases (mem_successors_insert i j e he x y).mp hy with ⟨rfl, rfl⟩ | hy
  · exact ⟨hi, hj⟩
  · exact h x y hy

theorem ok_forwardArc {g : DLGraph} (h : Ok g) (f t : Ptr) :
    Ok (g.forwardArc f t).1 ∧ (g.forwardArc f t).1.layers = g.layers ∧
      (g.forwardArc f t).1.loss = g.loss := by
  rcases forwardArc_cases g f t with ⟨_, _, i, j, h3, h4, h5⟩ | ⟨_, h5⟩
  · rw [h5]
    exact ⟨⟨h.layers, insertEdge_ok i j _ h.forward, insertEdge_ok i j _ h.training, h.backward,
      range_insert h.forward h.forwardRange (idxOf?_some h3).1 (idxOf?_some h4).1,
      range_insert h.training h.trainingRange (idxOf?_some h3).1 (idxOf?_some h4).1,
      h.backwardRange, h.loss, h.inputs, h.outputs, h.inputsSorted, h.outputsSorted⟩, rfl, rfl⟩
  · rw [h5]; exact ⟨h, rfl, rfl⟩

theorem ok_trainingArc {g : DLGraph} (h : Ok g) (f t : Ptr) :
    Ok (g.trainingArc f t).1 ∧ (g.trainingArc f t).1.layers = g.layers ∧
      (g.trainingArc f t).1.loss = g.loss := by
  rcases trainingArc_cases g f t with ⟨_, _, i, j, h3, h4, h5⟩ | ⟨_, h5⟩
  · rw [h5]
    exact ⟨⟨h.layers, h.forward, insertEdge_ok i j _ h.training, h.backward, h.forwardRange,
      range_insert h.training h.trainingRange (idxOf?_some h3).1 (idxOf?_some h4).1,
      h.backwardRange, h.loss, h.inputs, h.outputs, h.inputsSorted, h.outputsSorted⟩, rfl, rfl⟩
  · rw [h5]; exact ⟨h, rfl, rfl⟩

theorem ok_backwardArc {g : DLGraph} (h : Ok g) (f t : Ptr) :
    Ok (g.backwardArc f t).1 ∧ (g.backwardArc f t).1.layers = g.layers ∧
      (g.backwardArc f t).1.loss = g.loss := by
  rcases backwardArc_cases g f t with ⟨_, _, i, j, h3, h4, h5⟩ | ⟨_, h5⟩
  · rw [h5]
    exact ⟨⟨h.layers, h.forward, h.training, insertEdge_ok i j _ h.backward, h.forwardRange,
      h.trainingRange, range_insert h.backward h.backwardRange (idxOf?_some h3).1 (idxOf?_some h4).1,
      h.loss, h.inputs, h.outputs, h.inputsSorted, h.outputsSorted⟩, rfl, rfl⟩
  · rw [h5]; exact ⟨h, rfl, rfl⟩

theorem arcLoop_inv {step : DLGraph → Ptr → Ptr → DLGraph × Exec Unit} {P : DLGraph → Prop}
    (hstep : ∀ g f t, P g → P (step g f t).1) : ∀ (arcs : List (Ptr × Ptr)) (g : DLGraph), P g →
    P (arcLoop step arcs g).1 := by
  intro arcs
  induction arcs with
  | nil => intro g h; exact h
  | cons p arcs ih =>
    intro g h
    obtain ⟨f, t⟩ := p
    have := hstep g f t h
    unfold arcLoop
    split
    · rename_i g' heq
      rw [heq] at this
      exact ih g' this
    · exact this

theorem ok_compute {g : DLGraph} (h : Ok g) : Ok g.computeInputs.computeOutputs := by
  refine ⟨h.layers, h.forward, h.training, h.backward, h.forwardRange, h.trainingRange,
    h.backwardRange, h.loss, ?_, ?_, ?_, ?_⟩
  · intro i hi
    exact List.mem_range.mp (List.mem_filter.mp hi).1
  · intro i hi
    exact List.mem_range.mp (List.mem_filter.mp hi).1
  · exact List.pairwise_lt_range.filter _
  · exact List.pairwise_lt_range.filter _

/-- Same layers and loss list, and the invariant. -/
def OkLike (g0 g : DLGraph) : Prop := Ok g ∧ g.layers = g0.layers ∧ g.loss = g0.loss

theorem okLike_arcForward {g0 g : DLGraph} (h : OkLike g0 g) (arcs : List (Ptr × Ptr)) :
    OkLike g0 (g.addArcForward arcs).1 := by
  have key := arcLoop_inv (step := DLGraph.forwardArc) (P := OkLike g0) (by
    intro g f t hg
    obtain ⟨a, b, c⟩ := ok_forwardArc hg.1 f t
    exact ⟨a, b.trans hg.2.1, c.trans hg.2.2⟩) arcs g h
  unfold DLGraph.addArcForward
  split
  · rename_i g' heq
    rw [heq] at key
    exact ⟨ok_compute key.1, key.2.1, key.2.2⟩
  · exact key

theorem okLike_arcForwardLoss {g0 g : DLGraph} (h : OkLike g0 g) (arcs : List (Ptr × Ptr)) :
    OkLike g0 (g.addArcForwardLoss arcs).1 :=
  arcLoop_inv (step := DLGraph.trainingArc) (P := OkLike g0) (by
    intro g f t hg
    obtain ⟨a, b, c⟩ := ok_trainingArc hg.1 f t
    exact ⟨a, b.trans hg.2.1, c.trans hg.2.2⟩) arcs g h

theorem okLike_arcBackward {g0 g : DLGraph} (h : OkLike g0 g) (arcs : List (Ptr × Ptr)) :
    OkLike g0 (g.addArcBackward arcs).1 :=
  arcLoop_inv (step := DLGraph.backwardArc) (P := OkLike g0) (by
    intro g f t hg
    obtain ⟨a, b, c⟩ := ok_backwardArc hg.1 f t
    exact ⟨a, b.trans hg.2.1, c.trans hg.2.2⟩) arcs g h

theorem andThen_inv {P : DLGraph → Prop} {r : DLGraph × Exec Unit} {f : DLGraph → DLGraph × Exec Unit}
    (h : P r.1) (hf : ∀ g, P g → P (f g).1) : P (andThen r f).1 := by
  unfold andThen
  split
  · exact hf _ h
  · exact h

theorem ok_grow {g : DLGraph} (h : Ok g) (l : Ptr) (hl : l ∉ g.layers) :
    Ok { g with layers := g.layers ++ [l] } := by
  have hlen : (g.layers ++ [l]).length = g.layers.length + 1 := by simp
  have up : ∀ e : Edges, (∀ x y, y ∈ successors e x → x < g.layers.length ∧ y < g.layers.length) →
      ∀ x y, y ∈ successors e x → x < (g.layers ++ [l]).length ∧ y < (g.layers ++ [l]).length := by
    intro e he x y hy
    have := he x y hy
    omega
  refine ⟨?_, h.forward, h.training, h.backward, up _ h.forwardRange, up _ h.trainingRange,
    up _ h.backwardRange, ?_, ?_, ?_, h.inputsSorted, h.outputsSorted⟩
  · show (g.layers ++ [l]).Nodup
    rw [List.nodup_append]
    refine ⟨h.layers, List.nodup_singleton _, ?_⟩
    intro a ha b hb hab
    rw [List.mem_singleton] at hb
    exact hl (hb ▸ hab ▸ ha)
  · intro i hi; have := h.loss i hi; show i < (g.layers ++ [l]).length; omega
  · intro i hi; have := h.inputs i hi; show i < (g.layers ++ [l]).length; omega
  · intro i hi; have := h.outputs i hi; show i < (g.layers ++ [l]).length; omega

theorem ok_addNode {g : DLGraph} (h : Ok g) (l : Ptr) : Ok (g.addNode l) := by
  unfold DLGraph.addNode
  split
  · exact h
  · exact ok_grow h l (by assumption)

theorem ok_addLoss {g : DLGraph} (h : Ok g) (l : Ptr) : Ok (g.addLoss l) := by
  have h' := ok_addNode h l
  have hpos : 0 < (g.addNode l).layers.length := by
    unfold DLGraph.addNode
    split
    · rename_i hm; exact List.length_pos_of_mem hm
    · simp
  refine ⟨h'.layers, h'.forward, h'.training, h'.backward, h'.forwardRange, h'.trainingRange,
    h'.backwardRange, ?_, h'.inputs, h'.outputs, h'.inputsSorted, h'.outputsSorted⟩
  intro i hi
  have hi' : i ∈ (g.addNode l).loss ++ [(g.addNode l).layers.length - 1] := hi
  show i < (g.addNode l).layers.length
  rcases List.mem_append.mp hi' with hi | hi
  · exact h'.loss i hi
  · rw [List.mem_singleton] at hi; omega

theorem ok_apply {g : DLGraph} (h : Ok g) (op : GOp) : Ok (g.apply op).1 := by
  have hl : OkLike g g := ⟨h, rfl, rfl⟩
  cases op with
  | addNode l => exact ok_addNode h l
  | addLoss l => exact ok_addLoss h l
  | arcForward arcs => exact (okLike_arcForward hl arcs).1
  | arcForwardLoss arcs => exact (okLike_arcForwardLoss hl arcs).1
  | arcBackward arcs => exact (okLike_arcBackward hl arcs).1
  | edge arcs =>
    exact (andThen_inv (P := OkLike g) (okLike_arcForward hl arcs)
      (fun g' hg' => okLike_arcBackward hg' _)).1
  | edgeLoss arcs =>
    exact (andThen_inv (P := OkLike g) (okLike_arcForwardLoss hl arcs)
      (fun g' hg' => okLike_arcBackward hg' _)).1

theorem ok_runOps (ops : List GOp) : ∀ {g : DLGraph}, Ok g → Ok (g.runOps ops) := by
  induction ops with
  | nil => intro g h; exact h
  | cons op ops ih =>
    intro g h
    exact ih (ok_apply h op)

/-! ### Models -/

/-- Invariant of every model: the pointers are those given out, the loss list points to the loss
layers. -/
structure MOk (m : Model) : Prop where
  ok : Ok m.graph
  fresh : ∀ p ∈ m.graph.layers, p.id < m.fresh
  lossNodup : m.graph.loss.Nodup
  lossIff : ∀ i, i ∈ m.graph.loss ↔ ∃ p, m.graph.layers[i]? = some p ∧ p.loss = true

theorem mok_empty : MOk Model.empty :=
  ⟨ok_empty, by simp [Model.empty, DLGraph.empty], by simp [Model.empty, DLGraph.empty],
    by simp [Model.empty, DLGraph.empty]⟩

theorem mok_like {m : Model} (h : MOk m) {g : DLGraph} (hg : OkLike m.graph g) :
    MOk { m with graph := g } := by
  refine ⟨hg.1, ?_, ?_, ?_⟩
  · intro p hp; exact h.fresh p (hg.2.1 ▸ hp)
  · show g.loss.Nodup; rw [hg.2.2]; exact h.lossNodup
  · intro i
    show i ∈ g.loss ↔ ∃ p, g.layers[i]? = some p ∧ p.loss = true
    rw [hg.2.1, hg.2.2]
    exact h.lossIff i

theorem fresh_not_mem {m : Model} (h : MOk m) (b : Bool) : (⟨m.fresh, b⟩ : Ptr) ∉ m.graph.layers := by
  intro hm
  have := h.fresh _ hm
  exact Nat.lt_irrefl _ this

theorem addNode_fresh {m : Model} (h : MOk m) (b : Bool) :
    m.graph.addNode ⟨m.fresh, b⟩ = { m.graph with layers := m.graph.layers ++ [⟨m.fresh, b⟩] } := by
  unfold DLGraph.addNode
  rw [if_neg (fresh_not_mem h b)]

theorem addLoss_fresh {m : Model} (h : MOk m) :
    m.graph.addLoss ⟨m.fresh, true⟩
      = { m.graph with layers := m.graph.layers ++ [⟨m.fresh, true⟩],
                       loss := m.graph.loss ++ [m.graph.layers.length] } := by
  unfold DLGraph.addLoss
  rw [addNode_fresh h true]
  simp

theorem apply_like {m : Model} (h : MOk m) (op : Op) (h1 : op ≠ .addLayer) (h2 : op ≠ .addLoss) :
    OkLike m.graph (m.apply op).1.graph ∧ (m.apply op).1.fresh = m.fresh := by
  have hl : OkLike m.graph m.graph := ⟨h.ok, rfl, rfl⟩
  cases op with
  | addLayer => exact absurd rfl h1
  | addLoss => exact absurd rfl h2
  | backArc s d => exact ⟨okLike_arcBackward hl _, rfl⟩
  | frontArc s d => exact ⟨okLike_arcForward hl _, rfl⟩
  | lossArc s d => exact ⟨okLike_arcForwardLoss hl _, rfl⟩
  | edge s d =>
    exact ⟨andThen_inv (P := OkLike m.graph) (okLike_arcBackward hl _)
      (fun g hg => okLike_arcForward hg _), rfl⟩
  | lossEdge s d =>
    exact ⟨andThen_inv (P := OkLike m.graph) (okLike_arcBackward hl _)
      (fun g hg => okLike_arcForwardLoss hg _), rfl⟩

theorem mok_apply {m : Model} (h : MOk m) (op : Op) : MOk (m.apply op).1 := by
  by_cases h1 : op = .addLayer
  · subst h1
    show MOk ⟨m.graph.addNode ⟨m.fresh, false⟩, m.fresh + 1⟩
    rw [addNode_fresh h false]
    refine ⟨ok_grow h.ok _ (fresh_not_mem h false), ?_, h.lossNodup, ?_⟩
    · intro p hp
      rcases List.mem_append.mp hp with hp | hp
      · have := h.fresh p hp; show p.id < m.fresh + 1; omega
      · rw [List.mem_singleton] at hp; subst hp; show m.fresh < m.fresh + 1; omega
    · intro i
      show i ∈ m.graph.loss ↔ ∃ p, (m.graph.layers ++ [(⟨m.fresh, false⟩ : Ptr)])[i]? = some p ∧ _
      rw [h.lossIff i]
      constructor
      · rintro ⟨p, hp, hl⟩
        exact ⟨p, by rw [List.getElem?_append_left (List.getElem?_eq_some_iff.mp hp).1]; exact hp, hl⟩
      · rintro ⟨p, hp, hl⟩
        by_cases hi : i < m.graph.layers.length
        · exact ⟨p, by rwa [List.getElem?_append_left hi] at hp, hl⟩
        · have hi' := (List.getElem?_eq_some_iff.mp hp).1
          simp at hi'
          have : i = m.graph.layers.length := by omega
          subst this
          simp at hp
          subst hp
          simp at hl
  · by_cases h2 : op = .addLoss
    · subst h2
      show MOk ⟨m.graph.addLoss ⟨m.fresh, true⟩, m.fresh + 1⟩
      have hok := ok_addLoss h.ok ⟨m.fresh, true⟩
      rw [addLoss_fresh h] at hok ⊢
      refine ⟨hok, ?_, ?_, ?_⟩
      · intro p hp
        rcases List.mem_append.mp hp with hp | hp
        · have := h.fresh p hp; show p.id < m.fresh + 1; omega
        · rw [List.mem_singleton] at hp; subst hp; show m.fresh < m.fresh + 1; omega
      · show (m.graph.loss ++ [m.graph.layers.length]).Nodup
        rw [List.nodup_append]
        refine ⟨h.lossNodup, List.nodup_singleton _, ?_⟩
        intro a ha b hb hab
        rw [List.mem_singleton] at hb
        have := h.ok.loss a ha
        omega
      · intro i
        show i ∈ m.graph.loss ++ [m.graph.layers.length] ↔
          ∃ p, (m.graph.layers ++ [(⟨m.fresh, true⟩ : Ptr)])[i]? = some p ∧ _
        rw [List.mem_append, h.lossIff i, List.mem_singleton]
        constructor
        · rintro (⟨p, hp, hl⟩ | rfl)
          · exact ⟨p, by rw [List.getElem?_append_left (List.getElem?_eq_some_iff.mp hp).1]; exact hp, hl⟩
          · exact ⟨⟨m.fresh, true⟩, by simp, rfl⟩
        · rintro ⟨p, hp, hl⟩
          by_cases hi : i < m.graph.layers.length
          · exact Or.inl ⟨p, by rwa [List.getElem?_append_left hi] at hp, hl⟩
          · have hi' := (List.getElem?_eq_some_iff.mp hp).1
            simp at hi'
            exact Or.inr (by omega)
    · obtain ⟨a, b⟩ := apply_like h op h1 h2
      have := mok_like h a
      have e : (m.apply op).1 = { m with graph := (m.apply op).1.graph } := by
        cases hm : (m.apply op).1 with
        | mk g f => rw [hm] at b; simp at b; subst b; rfl
      rw [e]
      exact this

theorem mok_run (ops : List Op) : ∀ {m : Model}, MOk m → MOk (m.run ops) := by
  induction ops with
  | nil => intro m h; exact h
  | cons op ops ih => intro m h; exact ih (mok_apply h op)

end Verif.Graph
