import Verif.Proofs.GraphLists

namespace Verif.Graph

/-- Message of `Graph::add_arc`. -/
def arcError : String := "add_arc error: params are not included in nodes"

theorem idxOf?_of_getElem? {l : List Ptr} (hn : l.Nodup) {i : Nat} {a : Ptr} (h : l[i]? = some a) :
    l.idxOf? a = some i := by
  have hm : a ∈ l := List.mem_of_getElem? h
  cases hk : l.idxOf? a with
  | none => exact absurd hm (idxOf?_none.mp hk)
  | some k =>
    obtain ⟨h1, h2⟩ := idxOf?_some hk
    obtain ⟨h3, h4⟩ := List.getElem?_eq_some_iff.mp h
    obtain ⟨h5, h6⟩ := List.getElem?_eq_some_iff.mp h2.1
    have := (hn.getElem_inj_iff (hi := h3) (hj := h5)).mp (h4.trans h6.symm)
    rw [this]

theorem single_front (g : DLGraph) (f t : Ptr) :
    (f ∈ g.layers ∧ t ∈ g.layers ∧ ∃ i j, g.layers.idxOf? f = some i ∧ g.layers.idxOf? t = some j ∧
      g.addArcForward [(f, t)] = (({ g with forward := insertEdge i j g.forward,
                                            training := insertEdge i j g.training } :
        DLGraph).computeInputs.computeOutputs, .ok ())) ∨
    ((f ∉ g.layers ∨ t ∉ g.layers) ∧ g.addArcForward [(f, t)] = (g, .throw arcError)) := by
  rcases forwardArc_cases g f t with ⟨h1, h2, i, j, h3, h4, h5⟩ | ⟨h1, h2⟩
  · left
    refine ⟨h1, h2, i, j, h3, h4, ?_⟩
    unfold DLGraph.addArcForward arcLoop
    rw [h5]
    rfl
  · right
    refine ⟨h1, ?_⟩
    unfold DLGraph.addArcForward arcLoop
    rw [h2]
    rfl

theorem single_frontLoss (g : DLGraph) (f t : Ptr) :
    (f ∈ g.layers ∧ t ∈ g.layers ∧ ∃ i j, g.layers.idxOf? f = some i ∧ g.layers.idxOf? t = some j ∧
      g.addArcForwardLoss [(f, t)] = ({ g with training := insertEdge i j g.training }, .ok ())) ∨
    ((f ∉ g.layers ∨ t ∉ g.layers) ∧ g.addArcForwardLoss [(f, t)] = (g, .throw arcError)) := by
  rcases trainingArc_cases g f t with ⟨h1, h2, i, j, h3, h4, h5⟩ | ⟨h1, h2⟩
  · left
    refine ⟨h1, h2, i, j, h3, h4, ?_⟩
    unfold DLGraph.addArcForwardLoss arcLoop
    rw [h5]
    rfl
  · right
    refine ⟨h1, ?_⟩
    unfold DLGraph.addArcForwardLoss arcLoop
    rw [h2]
    rfl

theorem single_back (g : DLGraph) (f t : Ptr) :
    (f ∈ g.layers ∧ t ∈ g.layers ∧ ∃ i j, g.layers.idxOf? f = some i ∧ g.layers.idxOf? t = some j ∧
      g.addArcBackward [(f, t)] = ({ g with backward := insertEdge i j g.backward }, .ok ())) ∨
    ((f ∉ g.layers ∨ t ∉ g.layers) ∧ g.addArcBackward [(f, t)] = (g, .throw arcError)) := by
  rcases backwardArc_cases g f t with ⟨h1, h2, i, j, h3, h4, h5⟩ | ⟨h1, h2⟩
  · left
    refine ⟨h1, h2, i, j, h3, h4, ?_⟩
    unfold DLGraph.addArcBackward arcLoop
    rw [h5]
    rfl
  · right
    refine ⟨h1, ?_⟩
    unfold DLGraph.addArcBackward arcLoop
    rw [h2]
    rfl

/-- Effect of a recorded arc on the arcs of a graph. -/
def Adds (e e' : Edges) (i j : Nat) : Prop :=
  ∀ x y, y ∈ successors e' x ↔ y ∈ successors e x ∨ (x = i ∧ y = j)

theorem adds_insert {e : Edges} (he : EdgesOk e) (i j : Nat) : Adds e (insertEdge i j e) i j := by
  intro x y
  rw [mem_successors_insert i j e he x y]
  exact or_comm

theorem lists_same {g g' : DLGraph} (h : Lists g) (h1 : g'.layers = g.layers) (h2 : g'.loss = g.loss)
    (h3 : g'.forward = g.forward) (h4 : g'.inputs = g.inputs) (h5 : g'.outputs = g.outputs) :
    Lists g' := by
  unfold Lists
  rw [h1, h2, h3, h4, h5]
  exact h

theorem lists_front {g : DLGraph} (hok : Ok g) {f t : Ptr} (h : Lists g ∨ (f ∈ g.layers ∧ t ∈ g.layers)) :
    Lists (g.addArcForward [(f, t)]).1 := by
  rcases single_front g f t with ⟨_, _, i, j, _, _, h5⟩ | ⟨hm, h5⟩
  · rw [h5]
    exact lists_compute (insertEdge_ok i j _ hok.forward)
  · rw [h5]
    rcases h with h | ⟨h1, h2⟩
    · exact h
    · rcases hm with hm | hm
      · exact absurd h1 hm
      · exact absurd h2 hm

theorem lists_back {g : DLGraph} (h : Lists g) (f t : Ptr) : Lists (g.addArcBackward [(f, t)]).1 := by
  rcases single_back g f t with ⟨_, _, i, j, _, _, h5⟩ | ⟨_, h5⟩
  · rw [h5]; exact lists_same h rfl rfl rfl rfl rfl
  · rw [h5]; exact h

theorem lists_frontLoss {g : DLGraph} (h : Lists g) (f t : Ptr) :
    Lists (g.addArcForwardLoss [(f, t)]).1 := by
  rcases single_frontLoss g f t with ⟨_, _, i, j, _, _, h5⟩ | ⟨_, h5⟩
  · rw [h5]; exact lists_same h rfl rfl rfl rfl rfl
  · rw [h5]; exact h

theorem lists_apply {m : Model} (hm : MOk m) (h : Lists m.graph) (op : Op) (hop : op ≠ .addLayer) :
    Lists (m.apply op).1.graph := by
  cases op with
  | addLayer => exact absurd rfl hop
  | addLoss =>
    show Lists (m.graph.addLoss ⟨m.fresh, true⟩)
    rw [addLoss_fresh hm]
    have aux : ∀ i, (i < (m.graph.layers ++ [(⟨m.fresh, true⟩ : Ptr)]).length ∧
        i ∉ m.graph.loss ++ [m.graph.layers.length]) ↔ (i < m.graph.layers.length ∧ i ∉ m.graph.loss) := by
      intro i
      simp only [List.length_append, List.length_singleton, List.mem_append, List.mem_singleton, not_or]
      constructor
      · rintro ⟨h1, h2, h3⟩; exact ⟨by omega, h2⟩
      · rintro ⟨h1, h2⟩; exact ⟨by omega, h2, by omega⟩
    constructor
    · intro i
      show i ∈ m.graph.inputs ↔ i < _ ∧ i ∉ _ ∧ _
      rw [← and_assoc, aux i, and_assoc]
      exact h.1 i
    · intro i
      show i ∈ m.graph.outputs ↔ i < _ ∧ i ∉ _ ∧ _
      rw [← and_assoc, aux i, and_assoc]
      exact h.2 i
  | backArc s d => exact lists_back h d s
  | frontArc s d => exact lists_front hm.ok (Or.inl h)
  | lossArc s d => exact lists_frontLoss h s d
  | edge s d =>
    have hl : OkLike m.graph m.graph := ⟨hm.ok, rfl, rfl⟩
    exact (andThen_inv (P := fun g => Ok g ∧ Lists g)
      ⟨(okLike_arcBackward hl [(d, s)]).1, lists_back h d s⟩
      (fun g hg => ⟨(okLike_arcForward ⟨hg.1, rfl, rfl⟩ [(s, d)]).1, lists_front hg.1 (Or.inl hg.2)⟩)).2
  | lossEdge s d =>
    exact (andThen_inv (P := fun g => Lists g) (lists_back h d s)
      (fun g hg => lists_frontLoss hg s d))

theorem lists_run (ops : List Op) : ∀ {m : Model}, MOk m → Lists m.graph → Op.addLayer ∉ ops →
    Lists (m.run ops).graph := by
  induction ops with
  | nil => intro m _ h _; exact h
  | cons op ops ih =>
    intro m hm h hn
    rw [List.mem_cons, not_or] at hn
    exact ih (mok_apply hm op) (lists_apply hm h op (fun e => hn.1 e.symm)) hn.2

theorem lists_connect {m : Model} (hm : MOk m) {s d : Ptr} (hs : s ∈ m.graph.layers)
    (hd : d ∈ m.graph.layers) :
    Lists (m.apply (.frontArc s d)).1.graph ∧ Lists (m.apply (.edge s d)).1.graph := by
  refine ⟨lists_front hm.ok (Or.inr ⟨hs, hd⟩), ?_⟩
  show Lists (andThen (m.graph.addArcBackward [(d, s)]) fun g => g.addArcForward [(s, d)]).1
  have hl : OkLike m.graph m.graph := ⟨hm.ok, rfl, rfl⟩
  rcases single_back m.graph d s with ⟨_, _, i, j, _, _, h5⟩ | ⟨hm', h5⟩
  · have ho := (okLike_arcBackward hl [(d, s)]).1
    rw [h5] at ho ⊢
    exact lists_front ho (Or.inr ⟨hs, hd⟩)
  · rcases hm' with hm' | hm'
    · exact absurd hd hm'
    · exact absurd hs hm'

theorem run_append (m : Model) (a b : List Op) : m.run (a ++ b) = (m.run a).run b := by
  unfold Model.run
  rw [List.foldl_append]

theorem run_cons (m : Model) (op : Op) (b : List Op) : m.run (op :: b) = ((m.apply op).1).run b := rfl

/-! ### Adjacency matrix -/

theorem writeOnes (n : Nat) : ∀ (ps : List (Nat × Nat)) (ret : List Int), ret.length = n * n →
    (∀ p ∈ ps, p.1 < n ∧ p.2 < n) →
    ∃ out, ps.foldl (fun m p => m >>= fun ret => wr ret (p.1 * n + p.2) 1) (Exec.ok ret) = .ok out ∧
      out.length = n * n ∧
      ∀ k, out[k]? = if ∃ p ∈ ps, k = p.1 * n + p.2 then some 1 else ret[k]? := by
  intro ps
  induction ps with
  | nil => intro ret h _; exact ⟨ret, rfl, h, by simp⟩
  | cons p ps ih =>
    intro ret h hp
    have hpp := hp p (by simp)
    have hlt : p.1 * n + p.2 < ret.length := by
      rw [h]
      calc p.1 * n + p.2 < p.1 * n + n := by omega
        _ = (p.1 + 1) * n := (Nat.succ_mul _ _).symm
        _ ≤ n * n := Nat.mul_le_mul_right n hpp.1
    rw [List.foldl_cons]
    have e : (Exec.ok ret >>= fun ret => wr ret (p.1 * n + p.2) (1 : Int))
        = .ok (ret.set (p.1 * n + p.2) 1) := by
      show wr ret (p.1 * n + p.2) 1 = _
      exact wr_ok hlt _
    rw [e]
    obtain ⟨out, h1, h2, h3⟩ := ih (ret.set (p.1 * n + p.2) 1) (by simp [h])
      (fun q hq => hp q (by simp [hq]))
    refine ⟨out, h1, h2, ?_⟩
    intro k
    rw [h3 k]
    by_cases hk : ∃ q ∈ ps, k = q.1 * n + q.2
    · obtain ⟨q, hq, hk'⟩ := hk
      rw [if_pos ⟨q, hq, hk'⟩, if_pos ⟨q, by simp [hq], hk'⟩]
    · rw [if_neg hk]
      by_cases hkp : k = p.1 * n + p.2
      · rw [if_pos ⟨p, by simp, hkp⟩, hkp, List.getElem?_set_self hlt]
      · rw [if_neg, List.getElem?_set_ne (Ne.symm hkp)]
        rintro ⟨q, hq, hk'⟩
        rcases List.mem_cons.mp hq with rfl | hq
        · exact hkp hk'
        · exact hk ⟨q, hq, hk'⟩

theorem adjacent_flat (n : Nat) : ∀ (e : Edges) (start : Exec (List Int)),
    e.foldl (fun m p => m >>= fun ret =>
      p.2.foldl (fun m t => m >>= fun ret => wr ret (p.1 * n + t) 1) (.ok ret)) start
    = (e.flatMap fun p => p.2.map fun t => (p.1, t)).foldl
        (fun m p => m >>= fun ret => wr ret (p.1 * n + p.2) 1) start := by
  intro e
  induction e with
  | nil => intro start; rfl
  | cons p e ih =>
    intro start
    rw [List.foldl_cons, ih, List.flatMap_cons, List.foldl_append, List.foldl_map]
    congr 1
    cases start with
    | ok r => rfl
    | throw m =>
      show Exec.throw m = _
      induction p.2 with
      | nil => rfl
      | cons a l ih => exact ih
    | ub =>
      show Exec.ub = _
      induction p.2 with
      | nil => rfl
      | cons a l ih => exact ih

theorem adjacent_spec {e : Edges} (he : EdgesOk e) {n : Nat}
    (hr : ∀ x y, y ∈ successors e x → x < n ∧ y < n) :
    ∃ m, adjacentMatrix n e = .ok m ∧ m.length = n * n ∧
      ∀ i j, i < n → j < n → m[i * n + j]? = some (if j ∈ successors e i then 1 else 0) := by
  unfold adjacentMatrix
  rw [adjacent_flat]
  have hmem : ∀ x y, (x, y) ∈ (e.flatMap fun p => p.2.map fun t => (p.1, t)) ↔ y ∈ successors e x := by
    intro x y
    rw [mem_successors he x y]
    simp only [List.mem_flatMap, List.mem_map, Prod.mk.injEq, Prod.exists]
    constructor
    · rintro ⟨a, s, h1, t, h2, rfl, rfl⟩; exact ⟨s, h1, h2⟩
    · rintro ⟨s, h1, h2⟩; exact ⟨x, s, h1, y, h2, rfl, rfl⟩
  obtain ⟨m, h1, h2, h3⟩ := writeOnes n _ (List.replicate (n * n) 0) (by simp)
    (fun p hp => hr p.1 p.2 ((hmem p.1 p.2).mp hp))
  refine ⟨m, h1, h2, ?_⟩
  intro i j hi hj
  rw [h3]
  have hlt : i * n + j < n * n := by
    calc i * n + j < i * n + n := by omega
      _ = (i + 1) * n := (Nat.succ_mul _ _).symm
      _ ≤ n * n := Nat.mul_le_mul_right n hi
  by_cases h : j ∈ successors e i
  · rw [if_pos ⟨(i, j), (hmem i j).mpr h, rfl⟩, if_pos h]
  · rw [if_neg, if_neg h]
    · rw [List.getElem?_replicate, if_pos hlt]
    · rintro ⟨⟨x, y⟩, hp, hk⟩
      have hy := (hmem x y).mp hp
      have hxy := hr x y hy
      have hn : 0 < n := by omega
      have e1 : i = x := by
        have := congrArg (· / n) hk
        simp only at this
        rw [Nat.mul_comm i, Nat.mul_comm x, Nat.mul_add_div hn, Nat.mul_add_div hn,
          Nat.div_eq_of_lt hj, Nat.div_eq_of_lt hxy.2] at this
        omega
      subst e1
      have : j = y := by simp only at hk; omega
      subst this
      exact h hy

end Verif.Graph
