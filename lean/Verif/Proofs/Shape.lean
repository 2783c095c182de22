import Verif.Proofs.ShapeGraph

/-! Models of any shape can be used. -/

namespace Verif.Net

open Verif.Spec Verif.Graph Verif.Props

noncomputable section

/-- The sizes of the layers of a model. -/
def layoutOf (net : Net) (n : Nat) : Layout where
  sizes i := match net.layers[i]? with
    | some a => (AnyLayer.takes a, AnyLayer.gives a)
    | none => (0, 0)
  loss i := match net.layers[i]? with
    | some (.loss f _) => some f
    | _ => none
  nin := n
  recurrent := net.layers.any fun a => match a with
    | .rnn _ _ _ => true
    | _ => false

theorem inputSize_setParams (a : AnyLayer) (ps : List (List ℝ)) : (a.setParams ps).inputSize = a.inputSize := by
  unfold AnyLayer.setParams
  split <;> rfl

theorem outputSize_setParams (a : AnyLayer) (ps : List (List ℝ)) : (a.setParams ps).outputSize = a.outputSize := by
  unfold AnyLayer.setParams
  split <;> rfl

theorem act_sized (f : ActFn) (n : Nat) (h : f = .softmax → 0 < n) : Sized n n (.act f (Act.Layer.new n)) := by
  refine .mk ?_ (by simp [AnyLayer.lastInputGradient, Act.Layer.new]) ⟨rfl, rfl⟩ (.inr (by simp [Act.Layer.new]))
  cases f <;> simp_all [Maps, Act.Layer.new]

theorem takes_setParams (a : AnyLayer) (ps : List (List ℝ)) : AnyLayer.takes (a.setParams ps) = AnyLayer.takes a := by
  unfold AnyLayer.setParams
  split <;> rfl

theorem gives_setParams (a : AnyLayer) (ps : List (List ℝ)) : AnyLayer.gives (a.setParams ps) = AnyLayer.gives a := by
  unfold AnyLayer.setParams
  split <;> rfl

theorem takes_of {a : AnyLayer} (h : ∀ f f1 l, a ≠ .rnn f f1 l) :
    AnyLayer.takes a = a.inputSize ∧ AnyLayer.gives a = a.outputSize := by
  cases a <;> first | exact ⟨rfl, rfl⟩ | exact absurd rfl (h _ _ _)

/-- A new layer has buffers of the right sizes. -/
theorem fresh_holds {r : Bool} {a : AnyLayer} (h : NewLayer a) (hr : ∀ f f1 l, a = .rnn f f1 l → r = true) :
    (∃ f l, a = .loss f l ∧ l.gradients.length = l.inputSize) ∨
    ((∀ f l, a ≠ .loss f l) ∧ Servable r (AnyLayer.takes a) (AnyLayer.gives a) a) := by
  obtain ⟨a', ps, h1, h2, rfl⟩ := h
  have ordinary : Servable r (AnyLayer.takes a') (AnyLayer.gives a') a' → (∀ f l, a' ≠ .loss f l) →
      (∀ f l, a'.setParams ps ≠ .loss f l) ∧
        Servable r (AnyLayer.takes (a'.setParams ps)) (AnyLayer.gives (a'.setParams ps)) (a'.setParams ps) := by
    intro hs hn
    refine ⟨?_, ?_⟩
    · intro f l e
      unfold AnyLayer.setParams at e
      split at e <;> first | exact hn _ _ e | cases e
    · rw [takes_setParams, gives_setParams]
      exact hs.setParams h2
  rcases h1 with ⟨k, h3, h4⟩ | ⟨f, n, rfl, h4⟩ | ⟨f, f1, n, o, h, T, rfl⟩ | ⟨f, n, b, tol, rfl⟩
  · refine .inr (ordinary ?_ ?_)
    · have hr : ∀ f f1 l, a' ≠ .rnn f f1 l := by
        rintro f f1 l rfl
        cases k <;> simp [Implements] at h3
      rw [(takes_of hr).1, (takes_of hr).2]
      exact .inl (new_sized h3 h4)
    · rintro f l rfl
      cases k <;> simp [Implements] at h3
  · refine .inr (ordinary ?_ (by simp))
    have e : AnyLayer.takes (.act f (Act.Layer.new n)) = n := by simp [AnyLayer.takes, AnyLayer.inputSize, Act.Layer.new]
    have e' : AnyLayer.gives (.act f (Act.Layer.new n)) = n := by simp [AnyLayer.gives, AnyLayer.outputSize, Act.Layer.new]
    rw [e, e']
    exact .inl (act_sized f n h4)
  · have : ∃ l', (AnyLayer.rnn f f1 (Rnn.Layer.new n o h T)).setParams ps = .rnn f f1 l' := by
      unfold AnyLayer.setParams
      split
      all_goals first
        | exact ⟨_, rfl⟩
        | (rename_i e; cases e; exact ⟨_, rfl⟩)
        | (rename_i e _; cases e; exact ⟨_, rfl⟩)
        | (rename_i e; cases e)
    obtain ⟨l', e⟩ := this
    exact .inr (ordinary (.inr ⟨hr _ _ _ e, f, f1, _, rfl, Rnn.new_fit n o h T, rfl, rfl⟩) (by simp))
  · left
    cases ps with
    | nil => exact ⟨f, _, rfl, by simp [Loss.Layer.new]⟩
    | cons p ps => simp [AnyLayer.params] at h2

theorem nonrec_layout {net : Net} {n : Nat} (h : NonRecurrent net) : (layoutOf net n).recurrent = false := by
  apply Bool.eq_false_iff.mpr
  intro e
  obtain ⟨a, h1, h2⟩ := List.any_eq_true.mp e
  cases a with
  | rnn f f1 l => exact h f f1 l h1
  | _ => cases h2

theorem layoutOf_loss {net : Net} {n i : Nat} {lf : LossFn} (h : (layoutOf net n).loss i = some lf) :
    ∃ l, net.layers[i]? = some (.loss lf l) := by
  unfold layoutOf at h
  dsimp only at h
  split at h
  · rename_i f l e
    cases h
    exact ⟨l, e⟩
  · cases h

theorem layoutOf_of_loss {net : Net} {n i : Nat} {lf : LossFn} {l : Loss.Layer}
    (h : net.layers[i]? = some (.loss lf l)) : (layoutOf net n).loss i = some lf := by
  unfold layoutOf
  dsimp only
  rw [h]

theorem layoutOf_sizes {net : Net} {n i : Nat} {a : AnyLayer} (h : net.layers[i]? = some a) :
    (layoutOf net n).sizes i = (AnyLayer.takes a, AnyLayer.gives a) := by
  unfold layoutOf
  dsimp only
  rw [h]

theorem agrees_holds {net : Net} {n : Nat} (h : Agrees net n) : AllAt (layoutOf net n).Holds net.layers := by
  intro i a ha
  rcases fresh_holds (r := (layoutOf net n).recurrent) (h.fresh a (List.mem_of_getElem? ha)) (by
      rintro f f1 l rfl
      exact List.any_eq_true.mpr ⟨_, List.mem_of_getElem? ha, rfl⟩) with ⟨f, l, rfl, h1⟩ | ⟨h1, h2⟩
  · rw [Layout.holds_loss (layoutOf_of_loss ha), layoutOf_sizes ha]
    exact ⟨l, rfl, rfl, h1⟩
  · rw [Layout.holds_layer, layoutOf_sizes ha]
    · exact h2
    · cases e : (layoutOf net n).loss i with
      | none => rfl
      | some lf =>
        obtain ⟨l, e⟩ := layoutOf_loss e
        rw [ha] at e
        cases e
        exact absurd rfl (h1 _ _)

theorem agrees_loss {net : Net} {n : Nat} (h : Agrees net n) (hv : IndicesValid net.graph) (i : Nat) :
    (layoutOf net n).loss i ≠ none ↔ i ∈ net.graph.loss := by
  constructor
  · intro hi
    obtain ⟨lf, hi⟩ := Option.ne_none_iff_exists'.mp hi
    obtain ⟨l, e⟩ := layoutOf_loss hi
    exact (h.loss i _ e).mp rfl
  · intro hi
    have hlt : i < net.layers.length := by rw [h.length]; exact hv.2 i (.inr (.inr hi))
    have e := List.getElem?_eq_getElem hlt
    have := (h.loss i _ e).mpr hi
    revert this e
    generalize net.layers[i] = a
    intro e this
    cases a <;> simp [Spec.AnyLayer.isLoss] at this
    rw [layoutOf_of_loss e]
    simp

/-! ### Order -/

theorem Layout.Ordered.mono {p : Layout} {k : Nat} : ∀ {ss : List (Source × Nat)} {vis vis' : Nat → Prop},
    (∀ j, vis j → vis' j) → p.Ordered k vis ss → p.Ordered k vis' ss
  | [], _, _, _, _ => trivial
  | s :: ss, vis, vis', h, ho => ⟨ho.1, ho.2.1.mono h, ho.2.2.mono fun j hj => hj.elim (fun h' => .inl (h j h')) .inr⟩

theorem ordered_inputs {p : Layout} {k : Nat} {ss : List (Source × Nat)} : ∀ (is : List Nat) (vis : Nat → Prop),
    (∀ i ∈ is, i < k ∧ (p.sizes i).1 = p.nin) → p.Ordered k (fun j => vis j ∨ j ∈ is) ss →
    p.Ordered k vis (is.map (fun i => (Source.external, i)) ++ ss)
  | [], vis, _, h => h.mono fun j hj => hj.elim id fun h => by cases h
  | i :: is, vis, hi, h => by
    refine ⟨(hi i (by simp)).1, (hi i (by simp)).2, ordered_inputs is _ (fun j hj => hi j (by simp [hj])) (h.mono ?_)⟩
    intro j hj
    rcases hj with hj | hj
    · exact .inl (.inl hj)
    · rcases List.mem_cons.mp hj with rfl | hj
      · exact .inl (.inr rfl)
      · exact .inr hj

theorem ordered_arcs {p : Layout} {k : Nat} : ∀ (r : List (Nat × Nat)) (vis : Nat → Prop), Chained vis r →
    (∀ a ∈ r, a.2 < k ∧ p.loss a.1 = none ∧ (p.sizes a.1).2 = (p.sizes a.2).1) →
    p.Ordered k vis (r.map fun a => (Source.output a.1, a.2))
  | [], _, _, _ => trivial
  | a :: r, vis, hc, h => ⟨(h a (by simp)).1, ⟨hc.1, (h a (by simp)).2⟩,
      ordered_arcs r _ hc.2 fun b hb => h b (by simp [hb])⟩

theorem visited_of_reachable {arc : Nat → Nat → Prop} {start : List Nat} {r : List (Nat × Nat)}
    (hr : ∀ x y, (x, y) ∈ r ↔ Reachable arc start x ∧ arc x y) {i : Nat} (h : Reachable arc start i) :
    ∃ s ∈ start.map (fun i => (Source.external, i)) ++ r.map (fun a => (Source.output a.1, a.2)), i = s.2 := by
  obtain ⟨s, hs, h⟩ := h
  rcases Relation.ReflTransGen.cases_tail h with rfl | ⟨x, h1, h2⟩
  · exact ⟨(.external, _), List.mem_append_left _ (List.mem_map.mpr ⟨_, hs, rfl⟩), rfl⟩
  · refine ⟨(.output x, i), List.mem_append_right _ (List.mem_map.mpr ⟨(x, i), ?_, rfl⟩), rfl⟩
    exact (hr x i).mpr ⟨⟨s, hs, h1⟩, h2⟩

/-- What the proof needs to know of the model. -/
structure Shaped (net : Net) (n : Nat) : Prop where
  agrees : Agrees net n
  ok : Ok net.graph
  joined : Joined net.graph
  losses : ∀ i p, net.graph.layers[i]? = some p → (i ∈ net.graph.loss ↔ p.loss = true)
  valid : IndicesValid net.graph
  lnodup : net.graph.loss.Nodup
  reached : ∀ i, i < net.graph.layers.length → Reachable (trainArc net.graph) net.graph.inputs i
  outputs : net.graph.outputs ≠ []
  outside : ∀ i, i ∈ net.graph.outputs → i ∉ net.graph.loss
  inside : ∀ i, i ∈ net.graph.inputs → i ∉ net.graph.loss

variable {net : Net} {n : Nat}

theorem Shaped.noloss (h : Shaped net n) {i : Nat} (hi : i ∉ net.graph.loss) : (layoutOf net n).loss i = none := by
  by_contra hc
  exact hi ((agrees_loss h.agrees h.valid i).mp hc)

theorem Shaped.source (h : Shaped net n) {x y : Nat} (hxy : trainArc net.graph x y) : x ∉ net.graph.loss := by
  obtain ⟨p, h1, h2⟩ := h.joined.source x y hxy
  intro hx
  rw [(h.losses x p h1).mp hx] at h2
  cases h2

theorem Shaped.fwd (h : Shaped net n) {x y : Nat} : fwdArc net.graph x y ↔ trainArc net.graph x y ∧ y ∉ net.graph.loss := by
  constructor
  · intro hxy
    have ht := h.joined.forward x y hxy
    obtain ⟨q, h1, h2⟩ := h.joined.ends x y ht
    refine ⟨ht, fun hy => ?_⟩
    rw [(h.losses y q h1).mp hy] at h2
    exact absurd (h2.mp hxy) (by simp)
  · rintro ⟨ht, hy⟩
    obtain ⟨q, h1, h2⟩ := h.joined.ends x y ht
    rw [h.losses y q h1] at hy
    exact h2.mpr (by simpa using hy)

theorem Shaped.sizes (h : Shaped net n) {x y : Nat} (hxy : trainArc net.graph x y) :
    ((layoutOf net n).sizes x).2 = ((layoutOf net n).sizes y).1 := by
  obtain ⟨hx, hy⟩ := h.valid.1 x y (.inr (.inl hxy))
  rw [← h.agrees.length] at hx hy
  have ex := List.getElem?_eq_getElem hx
  have ey := List.getElem?_eq_getElem hy
  rw [layoutOf_sizes ex, layoutOf_sizes ey]
  exact h.agrees.sizes x y _ _ hxy ex ey

theorem Shaped.starts (h : Shaped net n) : ∀ i ∈ net.graph.inputs, i < net.layers.length ∧
    ((layoutOf net n).sizes i).1 = (layoutOf net n).nin := by
  intro i hi
  have hlt : i < net.layers.length := by rw [h.agrees.length]; exact h.valid.2 i (.inl hi)
  have e := List.getElem?_eq_getElem hlt
  refine ⟨hlt, ?_⟩
  rw [layoutOf_sizes e]
  exact h.agrees.inputs i _ hi e

theorem Shaped.steppable (h : Shaped net n) : (layoutOf net n).Steppable net.layers.length net.graph := by
  obtain ⟨hc, hr⟩ := run_chained h.ok.training (nodup_of_sorted h.ok.inputsSorted)
  obtain ⟨_, hb⟩ := run_chained h.ok.backward h.lnodup
  have hv : ∀ i, i < net.graph.layers.length → ∃ s ∈ trainingSources net.graph, i = s.2 := fun i hi =>
    visited_of_reachable hr (h.reached i hi)
  refine ⟨agrees_loss h.agrees h.valid, ?_, fun i hi => hv i (h.valid.2 i (.inr (.inr hi))), ?_⟩
  · refine ordered_inputs _ _ h.starts ((ordered_arcs _ _ hc ?_).mono fun j hj => .inr hj)
    rintro ⟨x, y⟩ ha
    have hxy := ((hr x y).mp ha).2
    refine ⟨?_, h.noloss (h.source hxy), h.sizes hxy⟩
    rw [h.agrees.length]
    exact (h.valid.1 x y (.inr (.inl hxy))).2
  · rintro ⟨y, x⟩ ha
    have hxy := ((hb y x).mp ha).2
    obtain ⟨h1, h2⟩ := h.valid.1 y x (.inr (.inr hxy))
    exact ⟨hv y h1, hv x h2, (h.sizes ((h.joined.back x y).mp hxy)).symm⟩

theorem Shaped.forwardReached (h : Shaped net n) {s i : Nat} (hp : Relation.ReflTransGen (trainArc net.graph) s i)
    (hi : i ∉ net.graph.loss) : Relation.ReflTransGen (fwdArc net.graph) s i := by
  induction hp with
  | refl => exact .refl
  | tail _ hxy ih => exact (ih (h.source hxy)).tail (h.fwd.mpr ⟨hxy, hi⟩)

theorem Shaped.predictable (h : Shaped net n) :
    (layoutOf net n).Ordered net.layers.length (fun _ => False) (forwardSources net.graph) ∧
    (∀ s ∈ forwardSources net.graph, (layoutOf net n).loss s.2 = none) ∧
    ∃ o os, net.graph.outputs = o :: os ∧ ∃ s ∈ forwardSources net.graph, o = s.2 := by
  obtain ⟨hc, hr⟩ := run_chained h.ok.forward (nodup_of_sorted h.ok.inputsSorted)
  refine ⟨?_, ?_, ?_⟩
  · refine ordered_inputs _ _ h.starts ((ordered_arcs _ _ hc ?_).mono fun j hj => .inr hj)
    rintro ⟨x, y⟩ ha
    have hxy := (h.fwd.mp ((hr x y).mp ha).2).1
    refine ⟨?_, h.noloss (h.source hxy), h.sizes hxy⟩
    rw [h.agrees.length]
    exact (h.valid.1 x y (.inr (.inl hxy))).2
  · intro s hs
    apply h.noloss
    rcases List.mem_append.mp hs with hs | hs
    · obtain ⟨i, hi, rfl⟩ := List.mem_map.mp hs
      exact h.inside i hi
    · obtain ⟨⟨x, y⟩, ha, rfl⟩ := List.mem_map.mp hs
      exact (h.fwd.mp ((hr x y).mp ha).2).2
  · obtain ⟨o, os, e⟩ := List.exists_cons_of_ne_nil h.outputs
    refine ⟨o, os, e, visited_of_reachable hr ?_⟩
    have ho : o ∈ net.graph.outputs := by rw [e]; simp
    obtain ⟨s, hs, hp⟩ := h.reached o (h.valid.2 o (.inr (.inl ho)))
    exact ⟨s, hs, h.forwardReached hp (h.outside o ho)⟩

theorem suits_scores {x t : List ℝ} (h : Suitable net n (.step x t)) :
    x.length = (layoutOf net n).nin ∧ (layoutOf net n).Scores t := by
  refine ⟨h.1, ?_⟩
  intro i lf hi
  obtain ⟨l, e⟩ := layoutOf_loss hi
  rw [layoutOf_sizes e]
  exact h.2 lf l (List.mem_of_getElem? e)

/-- What every call keeps. -/
structure KeptAs (net : Net) (n : Nat) (m : Net) : Prop where
  holds : AllAt (layoutOf net n).Holds m.layers
  graph : m.graph = net.graph
  length : m.layers.length = net.layers.length

theorem KeptAs.resetScore {m : Net} (h : KeptAs net n m) : KeptAs net n m.resetScore :=
  ⟨resetScore_kept (layoutOf net n).kept h.holds, h.graph, by
    show (List.mapIdx _ _).length = _
    simp [h.length]⟩

theorem KeptAs.step {m : Net} (hs : Shaped net n) (h : KeptAs net n m) {x t : List ℝ} (hx : Suitable net n (.step x t)) :
    ∃ m', m.step x t = .ok (m', none) ∧ KeptAs net n m' := by
  obtain ⟨h1, h2⟩ := suits_scores hx
  obtain ⟨m', e, k1, k2, k3⟩ := Layout.step_total (n := m) (by rw [h.length, h.graph]; exact hs.steppable) h.holds h1 h2
  exact ⟨m', e, k1, k2.trans h.graph, k3.trans h.length⟩

theorem KeptAs.predict {m : Net} (hs : Shaped net n) (h : KeptAs net n m) {x : List ℝ} (hx : x.length = n) :
    ∃ m' y, m.predict x = .ok (m', .ok y) ∧ KeptAs net n m' := by
  obtain ⟨h1, h2, o, os, h3, h4⟩ := hs.predictable
  obtain ⟨m', y, e, _, k1, k2, k3⟩ := Layout.predict_total (p := layoutOf net n) (n := m) h.holds hx
    (by rw [h.length, h.graph]; exact h1) (by rw [h.graph]; exact h2) (by rw [h.graph]; exact h3)
    (by rw [h.graph]; exact h4)
  exact ⟨m', y, e, k1, k2.trans h.graph, k3.trans h.length⟩

theorem KeptAs.train {m : Net} (h : KeptAs net n m) {σ : Type} (opt : σ → ℝ → ℝ → σ × ℝ) (s : σ) :
    ∃ s' m', m.train opt s = ((s', m'), .ok ()) ∧ KeptAs net n m' := by
  obtain ⟨s', m', e, k1, k2, k3⟩ := Layout.train_total opt s h.holds
  exact ⟨s', m', e, k1, k2.trans h.graph, k3.trans h.length⟩

theorem serve_total (hs : Shaped net n) {σ : Type} (opt : σ → ℝ → ℝ → σ × ℝ) : ∀ (cs : List UserCall) (s : σ) (m : Net),
    KeptAs net n m → (∀ c ∈ cs, Suitable net n c) → ∃ r, serve opt cs (s, m) = .ok r ∧ KeptAs net n r.2
  | [], s, m, h, _ => ⟨_, rfl, h⟩
  | c :: cs, s, m, h, hc => by
    have ih := fun s' m' (h' : KeptAs net n m') => serve_total hs opt cs s' m' h' fun d hd => hc d (by simp [hd])
    have hc0 := hc c (by simp)
    cases c with
    | predict x =>
      obtain ⟨m', y, e, k⟩ := h.predict hs hc0
      obtain ⟨r, e', k'⟩ := ih s m' k
      refine ⟨r, ?_, k'⟩
      unfold serve
      dsimp only
      rw [e, Exec.bind_ok]
      exact e'
    | resetScore =>
      obtain ⟨r, e', k'⟩ := ih s _ h.resetScore
      exact ⟨r, e', k'⟩
    | step x t =>
      obtain ⟨m', e, k⟩ := h.step hs hc0
      obtain ⟨r, e', k'⟩ := ih s m' k
      refine ⟨r, ?_, k'⟩
      unfold serve
      dsimp only
      rw [e, Exec.bind_ok]
      exact e'
    | train =>
      obtain ⟨s', m', e, k⟩ := h.train opt s
      obtain ⟨r, e', k'⟩ := ih s' m' k
      refine ⟨r, ?_, k'⟩
      unfold serve
      dsimp only
      rw [e, Exec.bind_ok]
      exact e'

theorem shaped_fit (hs : Shaped net n) {σ : Type} (opt : σ → ℝ → ℝ → σ × ℝ) (s : σ) {m : Net} (hm : KeptAs net n m)
    {d : Data.Dataset ℝ}
    (hd : ∀ i, i < d.size → ∃ x t, d.input i = .ok x ∧ d.label i = .ok t ∧ Suitable net n (.step x t))
    {fuel epochs b : Nat} (hb : 1 ≤ b) (hf : batchCount d.size b ≤ fuel) :
    ∃ r : σ × Net, Training.fit opt d fuel epochs b (s, m) = some (.ok r) ∧ KeptAs net n r.2 := by
  rw [Props.C37_fit opt d b epochs fuel hb hf]
  obtain ⟨r, h1, h2⟩ := performAll_total (o := Training.modelOps opt d)
    (fun r : σ × Net => KeptAs net n r.2)
    (trainCalls d.size b epochs) (s, m) (by
      rintro c hc ⟨s, m⟩ h
      dsimp only at h
      cases c with
      | reset => exact ⟨_, rfl, h.resetScore⟩
      | step i =>
        obtain ⟨x, t, e1, e2, e3⟩ := hd i (sample_of_mem hc)
        obtain ⟨m', e5, k⟩ := h.step hs e3
        refine ⟨(s, m'), ?_, k⟩
        show (d.input i >>= fun x => _) = _
        rw [e1, Exec.bind_ok, e2, Exec.bind_ok, e5]
        rfl
      | train =>
        obtain ⟨s', m', e1, k⟩ := h.train opt s
        refine ⟨(s', m'), ?_, k⟩
        show ((m.train opt s).2 >>= fun _ => _) = _
        rw [e1]
        rfl) hm
  exact ⟨r, by rw [h1], h2⟩

/-! ### Which models have the shape -/

theorem shaped_reached {ops : List Op} (hops : ∀ op ∈ ops, Joins op) (hg : net.graph = (built ops).graph)
    (ha : Agrees net n) (hl : ListsRight net.graph)
    (hr : ∀ i, i < net.graph.layers.length → Reachable (trainArc net.graph) net.graph.inputs i)
    (ho : net.graph.outputs ≠ []) : Shaped net n where
  agrees := ha
  ok := by rw [hg]; exact (mok_run ops mok_empty).ok
  joined := by rw [hg]; exact joined_built ops hops
  losses := by
    intro i p hp
    rw [hg] at hp ⊢
    rw [(C34_loss_indices ops).2 i, hp]
    simp
  valid := by rw [hg]; exact (C34_indices [] ops).2
  lnodup := by rw [hg]; exact (C34_loss_indices ops).1
  reached := hr
  outputs := ho
  outside := fun i hi => ((hl.2.1 i).mp hi).2.1
  inside := fun i hi => ((hl.1 i).mp hi).2.1

theorem reached_of_acyclic {ops : List Op} (hops : ∀ op ∈ ops, Joins op) {g : DLGraph} (hg : g = (built ops).graph)
    (hl : ListsRight g) (hacyc : Acyclic (trainArc g)) (hloss : ∀ i ∈ g.loss, ∃ x, trainArc g x i)
    (hne : ∃ i, i < g.layers.length ∧ i ∉ g.loss) :
    (∀ i, i < g.layers.length → Reachable (trainArc g) g.inputs i) ∧ g.outputs ≠ [] := by
  have hj : Joined g := by rw [hg]; exact joined_built ops hops
  have hv : IndicesValid g := by rw [hg]; exact (C34_indices [] ops).2
  have hlo : ∀ i p, g.layers[i]? = some p → (i ∈ g.loss ↔ p.loss = true) := by
    intro i p hp
    rw [hg] at hp ⊢
    rw [(C34_loss_indices ops).2 i, hp]
    simp
  constructor
  · refine acyclic_induction hacyc (fun x y h => (hv.1 x y (.inr (.inl h))).1) ?_
    intro i hi ih
    by_cases hx : ∃ x, trainArc g x i
    · obtain ⟨x, hx⟩ := hx
      obtain ⟨s, hs, hp⟩ := ih x hx
      exact ⟨s, hs, hp.tail hx⟩
    · refine ⟨i, (hl.1 i).mpr ⟨hi, fun h => hx (hloss i h), ?_⟩, .refl⟩
      rintro ⟨x, h⟩
      exact hx ⟨x, hj.forward x i h⟩
  · intro ho
    have hac' : Acyclic fun x y => fwdArc g y x := by
      intro x h
      apply hacyc x
      have : ∀ {a b}, Relation.TransGen (fun x y => fwdArc g y x) a b → Relation.TransGen (trainArc g) b a := by
        intro a b h
        induction h with
        | single h => exact .single (hj.forward _ _ h)
        | tail _ h ih => exact .head (hj.forward _ _ h) ih
      exact this h
    obtain ⟨i, hi, hn⟩ := hne
    refine hn (acyclic_induction (P := fun i => i ∈ g.loss) hac' (fun x y h => (hv.1 y x (.inl h)).2) ?_ i hi)
    intro i hi ih
    by_contra hni
    by_cases hy : ∃ y, fwdArc g i y
    · obtain ⟨y, hy⟩ := hy
      obtain ⟨q, h1, h2⟩ := hj.ends i y (hj.forward i y hy)
      have h3 := (hlo y q h1).mp (ih y hy)
      rw [h2.mp hy] at h3
      cases h3
    · have : i ∈ g.outputs := (hl.2.1 i).mpr ⟨hi, hni, hy⟩
      rw [ho] at this
      cases this

theorem kept_self (h : Agrees net n) : KeptAs net n net := ⟨agrees_holds h, rfl, rfl⟩

end

end Verif.Net
