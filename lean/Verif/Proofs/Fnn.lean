import Verif.Spec.Fnn
import Verif.Proofs.GraphPath

namespace Verif.Net

open Verif.Graph Verif.Spec

/-- A model of `k` layers whose connections are the path through the first `c`. -/
structure PathGraph (c k : Nat) (m : Graph.Model) : Prop where
  ok : MOk m
  some : SomeLists m.graph
  length : m.graph.layers.length = k
  loss : m.graph.loss = []
  forward : ∀ x y, y ∈ successors m.graph.forward x ↔ y = x + 1 ∧ y < c
  training : ∀ x y, y ∈ successors m.graph.training x ↔ y = x + 1 ∧ y < c
  backward : ∀ x y, y ∈ successors m.graph.backward x ↔ x = y + 1 ∧ x < c

theorem pathGraph_empty : PathGraph 0 0 Graph.Model.empty :=
  ⟨mok_empty, someLists_empty, rfl, rfl, by simp [Graph.Model.empty, DLGraph.empty, successors],
    by simp [Graph.Model.empty, DLGraph.empty, successors],
    by simp [Graph.Model.empty, DLGraph.empty, successors]⟩

theorem pathGraph_one {k : Nat} {m : Graph.Model} (h : PathGraph 0 k m) : PathGraph 1 k m := by
  refine ⟨h.ok, h.some, h.length, h.loss, fun x y => ?_, fun x y => ?_, fun x y => ?_⟩
  · rw [h.forward]; omega
  · rw [h.training]; omega
  · rw [h.backward]; omega

theorem pathGraph_push {c k : Nat} {m : Graph.Model} (h : PathGraph c k m) :
    PathGraph c (k + 1) (m.apply .addLayer).1 := by
  have e : (m.apply .addLayer).1.graph
      = { m.graph with layers := m.graph.layers ++ [⟨m.fresh, false⟩] } := addNode_fresh h.ok false
  refine ⟨mok_apply h.ok _, someLists_apply h.ok h.some _, ?_, ?_, ?_, ?_, ?_⟩
  · rw [e]; simp [h.length]
  · rw [e]; exact h.loss
  · rw [e]; exact h.forward
  · rw [e]; exact h.training
  · rw [e]; exact h.backward

theorem pathGraph_edge {c k : Nat} {m : Graph.Model} (h : PathGraph (c + 1) k m) (hc : c + 1 < k)
    {a b : Ptr} (ha : m.graph.layers[c]? = Option.some a)
    (hb : m.graph.layers[c + 1]? = Option.some b) :
    ∃ m', m.apply (.edge a b) = (m', .ok ()) ∧ PathGraph (c + 2) k m' := by
  have ia := idxOf?_of_getElem? h.ok.ok.layers ha
  have ib := idxOf?_of_getElem? h.ok.ok.layers hb
  have ma := List.mem_of_getElem? ha
  have mb := List.mem_of_getElem? hb
  have hok := mok_apply h.ok (.edge a b)
  have hsome := someLists_apply h.ok h.some (.edge a b)
  rcases single_back m.graph b a with ⟨_, _, i, j, e1, e2, e3⟩ | ⟨hm, _⟩
  · rw [ib] at e1
    rw [ia] at e2
    cases e1
    cases e2
    rcases single_front { m.graph with backward := insertEdge (c + 1) c m.graph.backward } a b
      with ⟨_, _, i, j, e4, e5, e6⟩ | ⟨hm, _⟩
    · replace e4 : m.graph.layers.idxOf? a = _ := e4
      replace e5 : m.graph.layers.idxOf? b = _ := e5
      rw [ia] at e4
      rw [ib] at e5
      cases e4
      cases e5
      have e : m.apply (.edge a b) = (⟨({ m.graph with
          backward := insertEdge (c + 1) c m.graph.backward
          forward := insertEdge c (c + 1) m.graph.forward
          training := insertEdge c (c + 1) m.graph.training } :
            DLGraph).computeInputs.computeOutputs, m.fresh⟩, .ok ()) := by
        show m.onGraph (andThen (m.graph.addArcBackward [(b, a)]) fun g =>
          g.addArcForward [(a, b)]) = _
        rw [e3]
        show m.onGraph (DLGraph.addArcForward _ _) = _
        rw [e6]
        rfl
      rw [e] at hok hsome
      refine ⟨_, e, hok, hsome, h.length, h.loss, fun x y => ?_, fun x y => ?_, fun x y => ?_⟩
      · show y ∈ successors (insertEdge c (c + 1) m.graph.forward) x ↔ _
        refine (adds_insert h.ok.ok.forward c (c + 1) x y).trans ?_
        rw [h.forward]; omega
      · show y ∈ successors (insertEdge c (c + 1) m.graph.training) x ↔ _
        refine (adds_insert h.ok.ok.training c (c + 1) x y).trans ?_
        rw [h.training]; omega
      · show y ∈ successors (insertEdge (c + 1) c m.graph.backward) x ↔ _
        refine (adds_insert h.ok.ok.backward (c + 1) c x y).trans ?_
        rw [h.backward]; omega
    · rcases hm with hm | hm
      · exact absurd ma hm
      · exact absurd mb hm
  · rcases hm with hm | hm
    · exact absurd mb hm
    · exact absurd ma hm

/-- Layers as `add` leaves them. -/
structure Built (f : Fnn) (ds : List Descriptor) (n0 : Nat) : Prop where
  graph : PathGraph (2 * ds.length) (2 * ds.length) f.model
  layers : f.layers.length = 2 * ds.length
  described : ∀ j d, ds[j]? = some d → ∃ a b, f.layers[2 * j]? = some a ∧ Implements d.kind a ∧
    f.layers[2 * j + 1]? = some b ∧ b = .act d.activation.fn (Act.Layer.new a.outputSize)
  sizes : ∀ i a b, f.layers[i]? = some a → f.layers[i + 1]? = some b → a.outputSize = b.inputSize
  start : ∀ a, f.layers[0]? = some a → a.inputSize = n0
  shape : ∀ s, f.outputShape.shape = .ok s →
    (ds = [] ∧ s.size = n0) ∨ ∃ a, f.layers[2 * ds.length - 1]? = some a ∧ a.outputSize = s.size

theorem shape_ofSize (n : Nat) : (LayerShape.ofSize n).shape = .ok ⟨n, 1, 1⟩ := rfl

theorem size_one (n : Nat) : (⟨n, 1, 1⟩ : Shape3).size = n := by simp [Shape3.size]

/-- What a constructed layer is. -/
theorem construct_ok {k : Kind} {shape : LayerShape} {r : AnyLayer × LayerShape}
    (h : construct k shape = .ok r) :
    Implements k r.1 ∧ (∃ s, shape.shape = .ok s ∧ r.1.inputSize = s.size) ∧
      ∃ s, r.2 = [s] ∧ s.size = r.1.outputSize := by
  cases k with
  | input u => cases h
  | conv nf kernel stride padding =>
    obtain ⟨s, h1, h⟩ := Exec.bind_eq_ok h
    obtain ⟨l, h2, h⟩ := Exec.bind_eq_ok h
    cases h
    have hi : l.input = s := by
      obtain ⟨o, _, h2⟩ := Exec.bind_eq_ok h2
      cases h2
      rfl
    exact ⟨⟨s, l, h2, rfl⟩, ⟨s, h1, by rw [← hi]; rfl⟩, l.output, rfl, rfl⟩
  | maxPool kernel stride =>
    obtain ⟨s, h1, h⟩ := Exec.bind_eq_ok h
    obtain ⟨l, h2, h⟩ := Exec.bind_eq_ok h
    cases h
    have hi : l.input = s := by
      obtain ⟨o, _, h2⟩ := Exec.bind_eq_ok h2
      cases h2
      rfl
    exact ⟨⟨s, l, h2, rfl⟩, ⟨s, h1, by rw [← hi]; rfl⟩, l.output, rfl, rfl⟩
  | avgPool kernel stride =>
    obtain ⟨s, h1, h⟩ := Exec.bind_eq_ok h
    obtain ⟨l, h2, h⟩ := Exec.bind_eq_ok h
    cases h
    have hi : l.input = s := by
      obtain ⟨o, _, h2⟩ := Exec.bind_eq_ok h2
      cases h2
      rfl
    exact ⟨⟨s, l, h2, rfl⟩, ⟨s, h1, by rw [← hi]; rfl⟩, l.output, rfl, rfl⟩
  | dropout p mx raw =>
    obtain ⟨n, h1, h⟩ := Exec.bind_eq_ok h
    obtain ⟨s, h2, h1⟩ := Exec.bind_eq_ok h1
    cases h
    cases h1
    exact ⟨⟨_, rfl⟩, ⟨s, h2, rfl⟩, _, rfl, size_one _⟩
  | dense units =>
    obtain ⟨n, h1, h⟩ := Exec.bind_eq_ok h
    obtain ⟨s, h2, h1⟩ := Exec.bind_eq_ok h1
    obtain ⟨m, h3, h⟩ := Exec.bind_eq_ok h
    cases h
    cases h1
    exact ⟨⟨_, m, h3, rfl⟩, ⟨s, h2, rfl⟩, _, rfl, size_one _⟩

theorem connect_ok {f : Fnn} {c k : Nat} (h : PathGraph (c + 1) k f.model) (hc : c + 1 < k) :
    ∃ m', f.connect c (c + 1) = .ok ({ f with model := m' }, none) ∧ PathGraph (c + 2) k m' := by
  have h1 : c < f.model.graph.layers.length := by rw [h.length]; omega
  have h2 : c + 1 < f.model.graph.layers.length := by rw [h.length]; omega
  obtain ⟨m', e1, e2⟩ := pathGraph_edge h hc (List.getElem?_eq_getElem h1) (List.getElem?_eq_getElem h2)
  refine ⟨m', ?_, e2⟩
  unfold Fnn.connect
  rw [rd_ok h1, Exec.bind_ok, rd_ok h2, Exec.bind_ok, e1]

/-- `attach` appends the layer and its activation to the path. -/
theorem attach_ok {f : Fnn} {k : Nat} (h : PathGraph k k f.model) (t : ActivationType) (l : AnyLayer)
    {s : Shape3} :
    ∃ m', f.attach t l [s] = .ok (⟨m', f.layers ++ [l] ++ [.act t.fn (Act.Layer.new s.size)], [s],
      f.firstAdd⟩, none) ∧ PathGraph (k + 2) (k + 2) m' := by
  have hp := pathGraph_push h
  have tail : ∀ f2 : Fnn, PathGraph (k + 1) (k + 1) f2.model → f2.outputShape = [s] →
      f2.layers = f.layers ++ [l] → f2.firstAdd = f.firstAdd →
      ∃ m', (do
        let size ← f2.outputShape.size
        let f2 := f2.push (.act t.fn (Act.Layer.new size))
        f2.connect k (k + 1)) = Exec.ok ((⟨m', f.layers ++ [l] ++ [.act t.fn (Act.Layer.new s.size)],
          [s], f.firstAdd⟩ : Fnn), none) ∧ PathGraph (k + 2) (k + 2) m' := by
    intro f2 h1 h2 h3 h4
    rw [h2]
    obtain ⟨m', e1, e2⟩ := connect_ok (f := f2.push (.act t.fn (Act.Layer.new s.size)))
      (pathGraph_push h1) (by omega)
    refine ⟨m', ?_, e2⟩
    show Fnn.connect (f2.push (.act t.fn (Act.Layer.new s.size))) k (k + 1) = _
    rw [e1]
    unfold Fnn.push
    dsimp only
    rw [h3, h2, h4]
  unfold Fnn.attach
  dsimp only
  have hlen : (f.push l).model.graph.layers.length = k + 1 := hp.length
  rw [hlen]
  by_cases hk : k = 0
  · subst hk
    rw [if_neg (by omega)]
    have := tail { f.push l with outputShape := [s] } (pathGraph_one hp) rfl rfl rfl
    exact this
  · rw [if_pos (by omega)]
    obtain ⟨k', rfl⟩ : ∃ k', k = k' + 1 := ⟨k - 1, by omega⟩
    obtain ⟨m', e1, e2⟩ := connect_ok (f := { f.push l with outputShape := [s] }) hp (by omega)
    have e1' : Fnn.connect { f.push l with outputShape := [s] } (k' + 1 + 1 - 2) (k' + 1 + 1 - 1)
        = _ := e1
    rw [e1']
    have := tail { f.push l with outputShape := [s], model := m' } e2 rfl rfl rfl
    exact this

theorem add_eq {f : Fnn} (hf : f.firstAdd = false) (d : Descriptor) :
    f.add d = match construct d.kind f.outputShape with
      | .ok r => f.attach d.activation r.1 r.2
      | .throw m => .ok (f, some m)
      | .ub => .ub := by
  obtain ⟨m, l, o, b⟩ := f
  cases hf
  rfl

theorem add_first {f : Fnn} (hf : f.firstAdd = true) {d : Descriptor} (hd : isInput d = false) :
    f.add d = ({ f with firstAdd := false }).add d := by
  obtain ⟨m, l, o, b⟩ := f
  obtain ⟨k, a⟩ := d
  cases hf
  cases k <;> first | rfl | simp [isInput] at hd

theorem getElem?_append_two {α : Type} {l : List α} {a b x : α} {i : Nat}
    (h : (l ++ [a] ++ [b])[i]? = some x) :
    (i < l.length ∧ l[i]? = some x) ∨ (i = l.length ∧ x = a) ∨ (i = l.length + 1 ∧ x = b) := by
  rw [List.append_assoc] at h
  rcases Nat.lt_trichotomy i l.length with hi | hi | hi
  · rw [List.getElem?_append_left hi] at h
    exact Or.inl ⟨hi, h⟩
  · subst hi
    simp at h
    exact Or.inr (Or.inl ⟨rfl, h.symm⟩)
  · rw [List.getElem?_append_right (by omega)] at h
    have : i - l.length < ([a] ++ [b]).length := (List.getElem?_eq_some_iff.mp h).1
    simp at this
    have : i = l.length + 1 := by omega
    subst this
    simp at h
    exact Or.inr (Or.inr ⟨rfl, h.symm⟩)

theorem built_add {f : Fnn} {ds : List Descriptor} {n0 : Nat} (hb : Built f ds n0)
    (hf : f.firstAdd = false) {d : Descriptor} {f' : Fnn} {e : Option String}
    (h : f.add d = .ok (f', e)) :
    f'.firstAdd = false ∧
      ((e = none ∧ isInput d = false ∧ Built f' (ds ++ [d]) n0) ∨ (e.isSome ∧ f' = f)) := by
  rw [add_eq hf] at h
  cases hc : construct d.kind f.outputShape with
  | ub => rw [hc] at h; cases h
  | throw m => rw [hc] at h; cases h; exact ⟨hf, Or.inr ⟨rfl, rfl⟩⟩
  | ok r =>
    rw [hc] at h
    obtain ⟨h1, ⟨s, h2, h3⟩, s', h4, h5⟩ := construct_ok hc
    obtain ⟨a, sh⟩ := r
    dsimp only at h h1 h2 h3 h4 h5
    subst h4
    obtain ⟨m', e1, e2⟩ := attach_ok hb.graph d.activation a (s := s')
    rw [e1] at h
    cases h
    refine ⟨hf, Or.inl ⟨rfl, ?_, ?_⟩⟩
    · obtain ⟨k, act⟩ := d
      cases k <;> first | rfl | exact False.elim h1
    · have hl := hb.layers
      have ha : ∀ x, (f.layers ++ [a] ++ [.act d.activation.fn (Act.Layer.new s'.size)])[x]?
          = if x < 2 * ds.length then f.layers[x]? else if x = 2 * ds.length then some a
            else if x = 2 * ds.length + 1 then
              some (.act d.activation.fn (Act.Layer.new s'.size)) else none := by
        intro x
        rw [List.append_assoc]
        by_cases hx : x < 2 * ds.length
        · rw [if_pos hx, List.getElem?_append_left (by omega)]
        · rw [if_neg hx, List.getElem?_append_right (by omega), hl]
          by_cases hx2 : x = 2 * ds.length
          · rw [if_pos hx2, hx2]; simp
          · rw [if_neg hx2]
            by_cases hx3 : x = 2 * ds.length + 1
            · rw [if_pos hx3, hx3]; simp
            · rw [if_neg hx3]
              exact List.getElem?_eq_none (by simp; omega)
      refine ⟨?_, ?_, ?_, ?_, ?_, ?_⟩
      · have : 2 * (ds ++ [d]).length = 2 * ds.length + 2 := by simp; omega
        rw [this]
        exact e2
      · simp [hl]; omega
      · intro j d' hd'
        by_cases hj : j < ds.length
        · rw [List.getElem?_append_left hj] at hd'
          obtain ⟨a', b', g1, g2, g3, g4⟩ := hb.described j d' hd'
          refine ⟨a', b', ?_, g2, ?_, g4⟩
          · rw [ha, if_pos (by omega), g1]
          · rw [ha, if_pos (by omega), g3]
        · have hj' : j = ds.length := by
            have := (List.getElem?_eq_some_iff.mp hd').1
            simp at this
            omega
          subst hj'
          simp at hd'
          subst hd'
          refine ⟨a, _, ?_, h1, ?_, rfl⟩
          · rw [ha, if_neg (by omega), if_pos rfl]
          · rw [ha, if_neg (by omega), if_neg (by omega), if_pos rfl, h5]
      · intro i x y hx hy
        rw [ha] at hx hy
        by_cases hi : i + 1 < 2 * ds.length
        · rw [if_pos (by omega)] at hx
          rw [if_pos hi] at hy
          exact hb.sizes i x y hx hy
        · rw [if_neg hi] at hy
          by_cases hi2 : i + 1 = 2 * ds.length
          · rw [if_pos hi2] at hy
            rw [if_pos (by omega)] at hx
            cases hy
            rcases hb.shape s h2 with ⟨g1, _⟩ | ⟨z, g1, g2⟩
            · rw [g1] at hi2; simp at hi2
            · rw [← hi2, Nat.add_sub_cancel, hx] at g1
              cases g1
              rw [g2, h3]
          · rw [if_neg hi2] at hy
            by_cases hi3 : i = 2 * ds.length
            · subst hi3
              rw [if_pos rfl] at hy
              rw [if_neg (by omega), if_pos rfl] at hx
              cases hy
              cases hx
              simp [AnyLayer.inputSize, Act.Layer.new, h5]
            · rw [if_neg (by omega)] at hy
              cases hy
      · intro x hx
        rw [ha] at hx
        by_cases hd : 0 < 2 * ds.length
        · rw [if_pos hd] at hx
          exact hb.start x hx
        · rw [if_neg hd, if_pos (by omega)] at hx
          cases hx
          have hn : ds = [] := List.length_eq_zero_iff.mp (by omega)
          rcases hb.shape s h2 with ⟨_, g⟩ | ⟨z, g1, _⟩
          · rw [h3, g]
          · rw [hn] at g1
            have : f.layers = [] := List.length_eq_zero_iff.mp (by rw [hl, hn]; rfl)
            rw [this] at g1
            simp at g1
      · intro x hx
        refine Or.inr ⟨.act d.activation.fn (Act.Layer.new s'.size), ?_, ?_⟩
        · rw [ha]
          have : 2 * (ds ++ [d]).length - 1 = 2 * ds.length + 1 := by simp; omega
          rw [this, if_neg (by omega), if_neg (by omega), if_pos rfl]
        · cases hx
          simp [AnyLayer.outputSize, Act.Layer.new]

theorem built_addAll (ds : List Descriptor) : ∀ {f f' : Fnn} {acc : List Descriptor} {n0 : Nat}
    {outs : List (Option String)}, Built f acc n0 → f.firstAdd = false →
    f.addAll ds = .ok (f', outs) → f'.firstAdd = false ∧ Built f' (acc ++ accepted ds outs) n0 := by
  induction ds with
  | nil =>
    intro f f' acc n0 outs hb hf h
    cases h
    simpa [accepted] using ⟨hf, hb⟩
  | cons d ds ih =>
    intro f f' acc n0 outs hb hf h
    obtain ⟨⟨f1, e⟩, h1, h⟩ := Exec.bind_eq_ok h
    obtain ⟨⟨f2, es⟩, h2, h⟩ := Exec.bind_eq_ok h
    cases h
    obtain ⟨g1, g2 | g2⟩ := built_add hb hf h1
    · obtain ⟨rfl, g3, g4⟩ := g2
      have := ih g4 g1 h2
      simpa [accepted, g3] using this
    · obtain ⟨g3, rfl⟩ := g2
      have := ih hb g1 h2
      obtain ⟨m, rfl⟩ := Option.isSome_iff_exists.mp g3
      simpa [accepted] using this

theorem built_empty (shape : LayerShape) (n0 : Nat) (h : ∀ s, shape.shape = .ok s → s.size = n0) (b : Bool) :
    Built ⟨Graph.Model.empty, [], shape, b⟩ [] n0 :=
  ⟨pathGraph_empty, rfl, by simp, by simp, by simp, fun s hs => Or.inl ⟨rfl, h s hs⟩⟩

theorem built_all {ds : List Descriptor} {f : Fnn} {outs : List (Option String)}
    (h : Fnn.empty.addAll ds = .ok (f, outs)) : Built f (accepted ds outs) (declaredInput ds) := by
  cases ds with
  | nil =>
    cases h
    exact built_empty _ _ (by intro s hs; cases hs; rfl) _
  | cons d ds =>
    by_cases hd : isInput d = true
    · obtain ⟨k, a⟩ := d
      cases k with
      | input units =>
        obtain ⟨⟨f1, e⟩, h1, h⟩ := Exec.bind_eq_ok h
        obtain ⟨⟨f2, es⟩, h2, h⟩ := Exec.bind_eq_ok h
        cases h
        cases h1
        have := (built_addAll ds (built_empty units (declaredInput (⟨.input units, a⟩ :: ds)) (by
          intro s hs
          cases units with
          | nil => cases hs
          | cons u us => cases hs; rfl) false) rfl h2).2
        simpa [accepted, isInput] using this
      | _ => simp [isInput] at hd
    · have hd' : isInput d = false := by simpa using hd
      have h' : ({ Fnn.empty with firstAdd := false } : Fnn).addAll (d :: ds) = .ok (f, outs) := by
        unfold Fnn.addAll at h ⊢
        rw [add_first rfl hd'] at h
        exact h
      have e : declaredInput (d :: ds) = 0 := by
        obtain ⟨k, a⟩ := d
        cases k <;> first | rfl | simp [isInput] at hd'
      rw [e]
      have := (built_addAll (d :: ds) (built_empty (LayerShape.ofSize 0) 0
        (by intro s hs; cases hs; rfl) false) rfl h').2
      simpa using this

/-! ### Built networks as functions -/

theorem maps_of_implements {k : Kind} {a : AnyLayer} (h : Implements k a) (hr : Regular a) :
    Maps a.inputSize a.outputSize a := by
  cases k with
  | input u => exact False.elim h
  | dense units =>
    obtain ⟨n, m, _, rfl⟩ := h
    exact ⟨rfl, rfl, by simp [denseNew, AnyLayer.outputSize],
      by simp [denseNew, AnyLayer.outputSize, AnyLayer.inputSize],
      by simp [denseNew, AnyLayer.outputSize]⟩
  | dropout p mx raw =>
    obtain ⟨n, rfl⟩ := h
    exact False.elim hr
  | conv nf kernel stride padding =>
    obtain ⟨s, l, h1, rfl⟩ := h
    have hl := h1
    obtain ⟨o, h2, h3⟩ := Exec.bind_eq_ok h1
    cases h3
    have hg : (⟨s, kernel.h, kernel.w, stride.h, stride.w, padding.h, padding.w⟩ : Geom).Fits := hr
    unfold Slide.convOutputShape at h2
    rw [Slide.outputSide_eq hg.h_pos hg.sh_pos hg.kh_pos hg.kh_le hg.h_lt, Exec.bind_ok,
      Slide.outputSide_eq hg.w_pos hg.sw_pos hg.kw_pos hg.kw_le hg.w_lt, Exec.bind_ok] at h2
    cases h2
    refine ⟨_, hg, rfl, rfl, rfl, rfl, ?_, ?_, ?_, ?_⟩
      <;> simp [AnyLayer.outputSize, AnyLayer.inputSize, Shape3.size, Geom.rows, Geom.cols]
  | maxPool kernel stride =>
    obtain ⟨s, l, h1, rfl⟩ := h
    obtain ⟨o, h2, h3⟩ := Exec.bind_eq_ok h1
    cases h3
    have hg : (⟨s, kernel.h, kernel.w, stride.h, stride.w, 0, 0⟩ : Geom).Fits := hr
    unfold Slide.poolOutputShape at h2
    rw [Slide.outputSide_eq hg.h_pos hg.sh_pos hg.kh_pos hg.kh_le hg.h_lt, Exec.bind_ok,
      Slide.outputSide_eq hg.w_pos hg.sw_pos hg.kw_pos hg.kw_le hg.w_lt, Exec.bind_ok] at h2
    cases h2
    refine ⟨_, hg, ⟨rfl, rfl⟩, rfl, rfl, rfl, ?_, ?_, ?_⟩
      <;> simp [AnyLayer.outputSize, AnyLayer.inputSize, Shape3.size, Geom.rows, Geom.cols]
  | avgPool kernel stride =>
    obtain ⟨s, l, h1, rfl⟩ := h
    obtain ⟨o, h2, h3⟩ := Exec.bind_eq_ok h1
    cases h3
    have hg : (⟨s, kernel.h, kernel.w, stride.h, stride.w, 0, 0⟩ : Geom).Fits := hr
    unfold Slide.poolOutputShape at h2
    rw [Slide.outputSide_eq hg.h_pos hg.sh_pos hg.kh_pos hg.kh_le hg.h_lt, Exec.bind_ok,
      Slide.outputSide_eq hg.w_pos hg.sw_pos hg.kw_pos hg.kw_le hg.w_lt, Exec.bind_ok] at h2
    cases h2
    refine ⟨_, hg, ⟨rfl, rfl⟩, rfl, rfl, rfl, ?_, ?_, ?_⟩
      <;> simp [AnyLayer.outputSize, AnyLayer.inputSize, Shape3.size, Geom.rows, Geom.cols]

theorem maps_act (f : ActFn) (n : Nat) (hr : Regular (.act f (Act.Layer.new n))) :
    Maps n n (.act f (Act.Layer.new n)) := by
  cases f with
  | linear => rfl
  | softmax => exact ⟨rfl, by simp [Act.Layer.new], by simpa [Regular, Act.Layer.new] using hr⟩
  | _ => exact ⟨rfl, by simp [Act.Layer.new]⟩

theorem mapsAll_of_sizes : ∀ (ls : List AnyLayer) (n0 : Nat), ls ≠ [] →
    (∀ i a b, ls[i]? = some a → ls[i + 1]? = some b → a.outputSize = b.inputSize) →
    (∀ a, ls[0]? = some a → a.inputSize = n0) → (∀ a ∈ ls, Maps a.inputSize a.outputSize a) →
    ∃ m, (∀ a, ls.getLast? = some a → m = a.outputSize) ∧ MapsAll n0 m ls := by
  intro ls
  induction ls with
  | nil => intro n0 h; exact absurd rfl h
  | cons a ls ih =>
    intro n0 _ h1 h2 h3
    have ha := h2 a rfl
    cases ls with
    | nil =>
      refine ⟨a.outputSize, by simp, ?_⟩
      rw [← ha]
      exact .cons (h3 a (by simp)) (.nil _)
    | cons b ls =>
      obtain ⟨m, g1, g2⟩ := ih b.inputSize (by simp) (fun i x y hx hy => h1 (i + 1) x y hx hy)
        (by intro x hx; simp at hx; rw [hx]) (fun x hx => h3 x (by simp [hx]))
      refine ⟨m, ?_, ?_⟩
      · intro x hx
        exact g1 x (by simpa using hx)
      · have := h1 0 a b rfl rfl
        rw [← ha]
        refine .cons (h3 a (by simp)) ?_
        rw [this]
        exact g2

theorem built_maps {f : Fnn} {ds : List Descriptor} {n0 : Nat} (hb : Built f ds n0) (hd : ds ≠ [])
    (hr : ∀ a ∈ f.layers, Regular a) :
    ∃ m, (∀ a, f.layers.getLast? = some a → m = a.outputSize) ∧ MapsAll n0 m f.layers := by
  refine mapsAll_of_sizes f.layers n0 ?_ hb.sizes hb.start ?_
  · intro e
    have := hb.layers
    rw [e] at this
    replace this : 0 = 2 * ds.length := this
    exact hd (List.length_eq_zero_iff.mp (by omega))
  · intro a ha
    obtain ⟨i, hi⟩ := List.getElem?_of_mem ha
    have hlt := (List.getElem?_eq_some_iff.mp hi).1
    rw [hb.layers] at hlt
    have hj : i / 2 < ds.length := by omega
    obtain ⟨x, y, g1, g2, g3, g4⟩ := hb.described (i / 2) ds[i / 2] (List.getElem?_eq_getElem hj)
    rcases Nat.mod_two_eq_zero_or_one i with h0 | h0
    · have : 2 * (i / 2) = i := by omega
      rw [this, hi] at g1
      cases g1
      exact maps_of_implements g2 (hr a ha)
    · have : 2 * (i / 2) + 1 = i := by omega
      rw [this, hi] at g3
      cases g3
      subst g4
      have := maps_act _ _ (hr _ ha)
      have e1 : (AnyLayer.act ds[i / 2].activation.fn (Act.Layer.new x.outputSize)).inputSize
          = x.outputSize := by simp [AnyLayer.inputSize, Act.Layer.new]
      have e2 : (AnyLayer.act ds[i / 2].activation.fn (Act.Layer.new x.outputSize)).outputSize
          = x.outputSize := by simp [AnyLayer.outputSize, Act.Layer.new]
      rw [e1, e2]
      exact this

theorem mem_zip_range {n x y : Nat} :
    (x, y) ∈ (List.range n).zip (List.range n).tail ↔ y = x + 1 ∧ y < n := by
  constructor
  · intro h
    obtain ⟨i, hi⟩ := List.getElem?_of_mem h
    rw [List.getElem?_zip_eq_some] at hi
    obtain ⟨h1, h2⟩ := hi
    rw [List.getElem?_tail] at h2
    obtain ⟨a1, a2⟩ := List.getElem?_eq_some_iff.mp h1
    obtain ⟨b1, b2⟩ := List.getElem?_eq_some_iff.mp h2
    simp at a1 a2 b1 b2
    omega
  · rintro ⟨rfl, h⟩
    refine List.mem_of_getElem? (i := x) ?_
    rw [List.getElem?_zip_eq_some, List.getElem?_tail]
    exact ⟨by rw [List.getElem?_range (by omega)], by rw [List.getElem?_range (by omega)]⟩

theorem isPath_of_pathGraph {k : Nat} {m : Graph.Model} (h : PathGraph k k m) :
    IsPath m.graph (List.range k) := by
  refine ⟨List.nodup_range, fun i => ?_, fun x y => ?_⟩
  · rw [List.mem_range, h.length, h.loss]; simp
  · rw [h.forward, mem_zip_range]

/-! ### Loss layers -/

/-- A path of `k` layers followed by one loss layer. -/
structure PathLoss (k : Nat) (m : Graph.Model) : Prop where
  ok : MOk m
  some : SomeLists m.graph
  length : m.graph.layers.length = k + 1
  loss : m.graph.loss = [k]
  forward : ∀ x y, y ∈ successors m.graph.forward x ↔ y = x + 1 ∧ y < k
  training : ∀ x y, y ∈ successors m.graph.training x ↔ y = x + 1 ∧ y < k + 1
  backward : ∀ x y, y ∈ successors m.graph.backward x ↔ x = y + 1 ∧ x < k + 1

theorem isPath_of_pathLoss {k : Nat} {m : Graph.Model} (h : PathLoss k m) :
    IsPath m.graph (List.range k) := by
  refine ⟨List.nodup_range, fun i => ?_, fun x y => ?_⟩
  · rw [List.mem_range, h.length, h.loss]; simp; omega
  · rw [h.forward, mem_zip_range]

theorem pathLoss_of {k : Nat} {m : Graph.Model} (h : PathGraph (k + 1) (k + 1) m) {a b : Ptr}
    (ha : (m.apply .addLoss).1.graph.layers[k]? = Option.some a)
    (hb : (m.apply .addLoss).1.graph.layers[k + 1]? = Option.some b) :
    ∃ m', (m.apply .addLoss).1.apply (.lossEdge a b) = (m', .ok ()) ∧ PathLoss (k + 1) m' := by
  have e0 : (m.apply .addLoss).1.graph
      = { m.graph with layers := m.graph.layers ++ [⟨m.fresh, true⟩],
                       loss := m.graph.loss ++ [m.graph.layers.length] } := addLoss_fresh h.ok
  have hok1 := mok_apply h.ok .addLoss
  have hsome1 := someLists_apply h.ok h.some .addLoss
  generalize (m.apply .addLoss).1 = m1 at *
  have ia := idxOf?_of_getElem? hok1.ok.layers ha
  have ib := idxOf?_of_getElem? hok1.ok.layers hb
  have ma := List.mem_of_getElem? ha
  have mb := List.mem_of_getElem? hb
  have hok := mok_apply hok1 (.lossEdge a b)
  have hsome := someLists_apply hok1 hsome1 (.lossEdge a b)
  rcases single_back m1.graph b a with ⟨_, _, i, j, e1, e2, e3⟩ | ⟨hm, _⟩
  · rw [ib] at e1
    rw [ia] at e2
    cases e1
    cases e2
    rcases single_frontLoss { m1.graph with backward := insertEdge (k + 1) k m1.graph.backward } a b
      with ⟨_, _, i, j, e4, e5, e6⟩ | ⟨hm, _⟩
    · replace e4 : m1.graph.layers.idxOf? a = _ := e4
      replace e5 : m1.graph.layers.idxOf? b = _ := e5
      rw [ia] at e4
      rw [ib] at e5
      cases e4
      cases e5
      have e : m1.apply (.lossEdge a b) = (⟨({ m1.graph with
          backward := insertEdge (k + 1) k m1.graph.backward
          training := insertEdge k (k + 1) m1.graph.training } : DLGraph), m1.fresh⟩, .ok ()) := by
        show m1.onGraph (andThen (m1.graph.addArcBackward [(b, a)]) fun g =>
          g.addArcForwardLoss [(a, b)]) = _
        rw [e3]
        show m1.onGraph (DLGraph.addArcForwardLoss _ _) = _
        rw [e6]
        rfl
      rw [e] at hok hsome
      refine ⟨_, e, hok, hsome, ?_, ?_, fun x y => ?_, fun x y => ?_, fun x y => ?_⟩
      · show m1.graph.layers.length = _
        rw [e0]; simp [h.length]
      · show m1.graph.loss = _
        rw [e0]; simp [h.loss, h.length]
      · show y ∈ successors m1.graph.forward x ↔ _
        rw [e0]
        exact h.forward x y
      · show y ∈ successors (insertEdge k (k + 1) m1.graph.training) x ↔ _
        refine (adds_insert hok1.ok.training k (k + 1) x y).trans ?_
        rw [e0]
        show y ∈ successors m.graph.training x ∨ _ ↔ _
        rw [h.training]; omega
      · show y ∈ successors (insertEdge (k + 1) k m1.graph.backward) x ↔ _
        refine (adds_insert hok1.ok.backward (k + 1) k x y).trans ?_
        rw [e0]
        show y ∈ successors m.graph.backward x ∨ _ ↔ _
        rw [h.backward]; omega
    · rcases hm with hm | hm
      · exact absurd ma hm
      · exact absurd mb hm
  · rcases hm with hm | hm
    · exact absurd mb hm
    · exact absurd ma hm

theorem range_getLast (k : Nat) (h : List.range (k + 1) ≠ []) :
    (List.range (k + 1)).getLast h = k := by
  simp [List.getLast_eq_getElem]

theorem path_outputs {k : Nat} {m : Graph.Model} (h : PathGraph (k + 2) (k + 2) m) :
    m.graph.outputs = [k + 1] ∧ m.graph.inputs = [0] := by
  have hp := isPath_of_pathGraph h
  have hl := lists_of_path h.some hp (by simp)
  have e : List.range (k + 2) = 0 :: (List.range (k + 1)).map Nat.succ := List.range_succ_eq_map
  have hp' := hp
  rw [e] at hp'
  have := path_facts h.ok.ok hl hp'
  refine ⟨?_, this.2.1⟩
  rw [this.2.2]
  congr 1
  refine Eq.trans ?_ (range_getLast (k + 1) (by simp))
  congr 1
  exact e.symm

theorem addLosses_ok {f : Fnn} {k : Nat} (h : PathGraph (k + 2) (k + 2) f.model) {a : AnyLayer}
    (ha : f.layers[k + 1]? = Option.some a) (lf : LossFn) (batch : Nat) :
    ∃ m', f.addLosses lf batch = .ok (⟨m', f.layers ++ [.loss lf (Loss.Layer.new a.outputSize batch
      (1 / 10))], f.outputShape, f.firstAdd⟩, none) ∧ PathLoss (k + 2) m' := by
  unfold Fnn.addLosses
  rw [if_neg (by intro e; have := h.length; rw [e] at this; simp at this), if_pos h.loss,
    (path_outputs h).1]
  have hlen : (f.model.apply .addLoss).1.graph.layers.length = k + 3 := by
    show (f.model.graph.addLoss ⟨f.model.fresh, true⟩).layers.length = _
    rw [addLoss_fresh h.ok]
    simp [h.length]
  have h1 : k + 1 < (f.model.apply .addLoss).1.graph.layers.length := by rw [hlen]; omega
  have h2 : k + 1 + 1 < (f.model.apply .addLoss).1.graph.layers.length := by rw [hlen]; omega
  obtain ⟨m', e1, e2⟩ := pathLoss_of h (List.getElem?_eq_getElem h1) (List.getElem?_eq_getElem h2)
  refine ⟨m', ?_, e2⟩
  have e3 : Fnn.attachLoss lf batch f (k + 1) = .ok (⟨m', f.layers ++ [.loss lf (Loss.Layer.new
      a.outputSize batch (1 / 10))], f.outputShape, f.firstAdd⟩, none) := by
    unfold Fnn.attachLoss
    rw [rd_of_some ha, Exec.bind_ok]
    dsimp only
    rw [rd_ok h1, Exec.bind_ok]
    have e4 : (f.model.apply .addLoss).1.graph.layers.length - 1 = k + 1 + 1 := by rw [hlen]; omega
    rw [e4, rd_ok h2, Exec.bind_ok, e1]
  show each _ [k + 1] f = _
  unfold each
  rw [e3, Exec.bind_ok]
  rfl

/-! ### Parameters -/

theorem two_of_length {ps : List (List ℝ)} (h : ps.length = 2) : ∃ w b, ps = [w, b] := by
  obtain ⟨w, ps, rfl⟩ := List.exists_cons_of_length_eq_add_one h
  obtain ⟨b, ps, rfl⟩ := List.exists_cons_of_length_eq_add_one (n := 0) (by simpa using h)
  simp at h
  exact ⟨w, b, by rw [h]⟩

theorem maps_setParams {n m : Nat} {a : AnyLayer} (h : Maps n m a) {ps : List (List ℝ)}
    (hl : ps.map List.length = a.params.map List.length) : Maps n m (a.setParams ps) := by
  cases a with
  | dense l =>
    obtain ⟨w, b, rfl⟩ := two_of_length (ps := ps) (by simpa [AnyLayer.params] using congrArg List.length hl)
    · simp [AnyLayer.params] at hl
      obtain ⟨h1, h2, h3, h4, h5⟩ := h
      exact ⟨h1, h2, h3, hl.1.trans h4, hl.2.trans h5⟩
  | conv l =>
    obtain ⟨w, b, rfl⟩ := two_of_length (ps := ps) (by simpa [AnyLayer.params] using congrArg List.length hl)
    · simp [AnyLayer.params] at hl
      obtain ⟨g, hg, h1, h2, h3, h4, h5, h6⟩ := h
      exact ⟨g, hg, h1, h2, h3, h4, hl.1.trans h5, h6⟩
  | rnn f f1 l => exact False.elim h
  | loss f l => exact False.elim h
  | dropout mx raw l => exact False.elim h
  | maxPool l => exact h
  | avgPool l => exact h
  | act f l => exact h

theorem mapsAll_setParams {n m : Nat} {ls : List AnyLayer} (h : MapsAll n m ls) :
    ∀ {θ : Nat → List (List ℝ)},
      (∀ i a, ls[i]? = some a → (θ i).map List.length = a.params.map List.length) →
      MapsAll n m (ls.mapIdx fun i a => a.setParams (θ i)) := by
  induction h with
  | nil n => intro θ _; exact .nil n
  | cons h1 _ ih =>
    intro θ hθ
    rw [List.mapIdx_cons]
    refine .cons (maps_setParams h1 (hθ 0 _ rfl)) ?_
    exact ih (θ := fun i => θ (i + 1)) (fun i a hi => hθ (i + 1) a hi)

end Verif.Net
