import Verif.Proofs.ShapeSession

/-! What models of any shape predict. -/

namespace Verif.Net

open Verif.Spec Verif.Graph

noncomputable section

/-- The layers that a source has passed. -/
def trailOf (f : Nat → List Nat) : Source → List Nat
  | .external => []
  | .output i => f i

/-- By which layers the outputs have been computed, after a traversal. -/
def trails : List (Source × Nat) → (Nat → List Nat) → Nat → List Nat
  | [], f => f
  | s :: ss, f => trails ss (Function.update f s.2 (trailOf f s.1 ++ [s.2]))

theorem zip_tail_append {α : Type} (p : List α) (a b : α) (x y : α) (h : (x, y) ∈ (p ++ [a, b]).zip (p ++ [a, b]).tail) :
    (x, y) ∈ (p ++ [a]).zip (p ++ [a]).tail ∨ (x = a ∧ y = b) := by
  induction p with
  | nil => simpa using h
  | cons c p ih =>
    cases p with
    | nil =>
      simp at h ⊢
      rcases h with h | h
      · exact .inl h
      · exact .inr h
    | cons d p =>
      simp only [List.cons_append, List.tail_cons, List.zip_cons_cons, List.mem_cons] at h ih ⊢
      rcases h with h | h
      · exact .inl (.inl h)
      · rcases ih h with h | h
        · exact .inl (.inr h)
        · exact .inr h

theorem walk_snoc {g : DLGraph} {p : List Nat} {i j : Nat} (h : Walk g p i) (hj : j ∈ successors g.forward i) :
    Walk g (p ++ [j]) j := by
  obtain ⟨⟨s, h1, h2⟩, h3, h4⟩ := h
  obtain ⟨q, rfl⟩ : ∃ q, p = q ++ [i] := by
    rw [List.getLast?_eq_some_iff] at h4
    exact h4
  refine ⟨⟨s, h1, ?_⟩, ?_, by simp⟩
  · cases q with
    | nil => simpa using h2
    | cons c q => simpa using h2
  · intro x y hxy
    rw [List.append_assoc] at hxy
    rcases zip_tail_append q i j x y hxy with h | ⟨rfl, rfl⟩
    · exact h3 x y h
    · exact hj

theorem trails_walk {p : Layout} {g : DLGraph} {k : Nat} : ∀ (ss : List (Source × Nat)) (vis : Nat → Prop)
    (f : Nat → List Nat), (∀ j, vis j → Walk g (f j) j) → p.Ordered k vis ss →
    (∀ s ∈ ss, ∀ i, s.1 = .output i → s.2 ∈ successors g.forward i) →
    (∀ s ∈ ss, s.1 = .external → s.2 ∈ g.inputs) →
    ∀ j, (vis j ∨ ∃ s ∈ ss, j = s.2) → Walk g (trails ss f j) j
  | [], vis, f, hf, _, _, _, j, hj => hf j (hj.resolve_right (by simp))
  | s :: ss, vis, f, hf, ho, ha, hi, j, hj => by
    refine trails_walk ss (fun j => vis j ∨ j = s.2) _ ?_ ho.2.2 (fun t ht => ha t (by simp [ht]))
      (fun t ht => hi t (by simp [ht])) j ?_
    · intro u hu
      by_cases e : u = s.2
      · subst e
        rw [Function.update_self]
        obtain ⟨src, d⟩ := s
        cases src with
        | external =>
          refine ⟨⟨d, hi (.external, d) (by simp) rfl, rfl⟩, ?_, rfl⟩
          intro x y hxy
          cases hxy
        | output i => exact walk_snoc (hf i ho.2.1.1) (ha (.output i, d) (by simp) i rfl)
      · rw [Function.update_of_ne e]
        exact hf u (hu.resolve_right e)
    · rcases hj with hj | ⟨t, ht, rfl⟩
      · exact .inl (.inl hj)
      · rcases List.mem_cons.mp ht with rfl | ht
        · exact .inl (.inr rfl)
        · exact .inr ⟨t, ht, rfl⟩

theorem YieldsAll.snoc {ks : List AnyLayer} {x v y : List ℝ} {l : AnyLayer} (h : YieldsAll ks x v) (hl : Yields l v y) :
    YieldsAll (ks ++ [l]) x y := by
  induction h with
  | nil x => exact .cons hl (.nil y)
  | cons h1 _ ih => exact .cons h1 (ih hl)

/-- The outputs of the layers in `vis` are what the layers `f` say compute. -/
def Computed (p : Layout) (ls0 : List AnyLayer) (x : List ℝ) (vis : Nat → Prop) (f : Nat → List Nat)
    (ls : List AnyLayer) : Prop :=
  ∀ j, vis j → ∃ y ks, value ls x (.output j) = .ok y ∧ y.length = (p.sizes j).2 ∧
    (f j).map (fun i => ls0[i]?) = ks.map some ∧ YieldsAll ks x y

theorem value_set {ls : List AnyLayer} {x : List ℝ} {i j : Nat} {a : AnyLayer} (h : j ≠ i) :
    value (ls.set i a) x (.output j) = value ls x (.output j) := by
  show (rd _ _ >>= _) = (rd _ _ >>= _)
  unfold rd
  rw [List.getElem?_set_ne (Ne.symm h)]

theorem forwards_computed {p : Layout} {ls0 : List AnyLayer} {x : List ℝ} (hx : x.length = p.nin)
    (hm : ∀ i a, p.loss i = none → ls0[i]? = some a → Maps (p.sizes i).1 (p.sizes i).2 a) :
    ∀ (ss : List (Source × Nat)) (vis : Nat → Prop) (f : Nat → List Nat) (ls : List AnyLayer),
    ls.map core = ls0.map core → Computed p ls0 x vis f ls → p.Ordered ls0.length vis ss →
    (∀ s ∈ ss, p.loss s.2 = none) →
    ∃ ls', each (forwardAt x) ss ls = .ok (ls', none) ∧
      Computed p ls0 x (fun j => vis j ∨ ∃ s ∈ ss, j = s.2) (trails ss f) ls'
  | [], vis, f, ls, _, hv, _, _ => ⟨ls, rfl, fun j hj => hv j (hj.resolve_right (by simp))⟩
  | s :: ss, vis, f, ls, hc, hv, ho, hq => by
    have hi := List.getElem?_eq_getElem ho.1
    have hmap := hm _ _ (hq s (by simp)) hi
    have key : ∃ v ks, value ls x s.1 = .ok v ∧ v.length = (p.sizes s.2).1 ∧
        (trailOf f s.1).map (fun i => ls0[i]?) = ks.map some ∧ YieldsAll ks x v := by
      obtain ⟨src, d⟩ := s
      cases src with
      | external => exact ⟨x, [], rfl, hx.trans ho.2.1.symm, rfl, .nil x⟩
      | output j =>
        obtain ⟨y, ks, h1, h2, h3, h4⟩ := hv j ho.2.1.1
        exact ⟨y, ks, h1, h2.trans ho.2.1.2.2, h3, h4⟩
    obtain ⟨v, ks, h1, h2, h3, h4⟩ := key
    obtain ⟨z, hz, hy⟩ := yields_of_maps hmap h2
    obtain ⟨l', g1, g2⟩ := getElem?_core hc hi
    obtain ⟨l'', g3, g4⟩ := hy l' g2
    have e : forwardAt x ls s = .ok (ls.set s.2 l'', none) := by
      unfold forwardAt
      rw [h1]
      dsimp only
      rw [rd_of_some g1, Exec.bind_ok, g3, Exec.bind_ok]
    have hlt : s.2 < ls.length := (List.getElem?_eq_some_iff.mp g1).1
    obtain ⟨ls', e1, e2⟩ := forwards_computed hx hm ss (fun j => vis j ∨ j = s.2)
      (Function.update f s.2 (trailOf f s.1 ++ [s.2])) (ls.set s.2 l'') ((forwardAt_core e).trans hc) (by
        intro j hj
        by_cases ej : j = s.2
        · subst ej
          rw [Function.update_self]
          refine ⟨z, ks ++ [ls0[s.2]'ho.1], ?_, hz, ?_, h4.snoc hy⟩
          · show (rd (ls.set s.2 l'') s.2 >>= AnyLayer.lastOutput) = .ok z
            rw [rd_of_some (a := l'') (by simp [hlt]), Exec.bind_ok, g4]
          · rw [List.map_append, List.map_append, h3]
            simp [ho.1]
        · rw [Function.update_of_ne ej, value_set ej]
          exact hv j (hj.resolve_right ej)) ho.2.2 (fun t ht => hq t (by simp [ht]))
    refine ⟨ls', ?_, ?_⟩
    · unfold each
      rw [e, Exec.bind_ok]
      exact e1
    · intro j hj
      apply e2
      rcases hj with hj | ⟨t, ht, rfl⟩
      · exact .inl (.inl hj)
      · rcases List.mem_cons.mp ht with rfl | ht
        · exact .inl (.inr rfl)
        · exact .inr ⟨t, ht, rfl⟩

/-! ### Predictions -/

variable {net : Net} {n : Nat}

/-- The walk whose layers compute the prediction. -/
def route (g : DLGraph) : List Nat :=
  match g.outputs with
  | [] => []
  | o :: _ => trails (forwardSources g) (fun _ => []) o

theorem Shaped.route_walk (h : Shaped net n) : ∃ o os, net.graph.outputs = o :: os ∧ Walk net.graph (route net.graph) o := by
  obtain ⟨h1, h2, o, os, h3, h4⟩ := h.predictable
  obtain ⟨_, hr⟩ := run_chained h.ok.forward (nodup_of_sorted h.ok.inputsSorted)
  refine ⟨o, os, h3, ?_⟩
  unfold route
  rw [h3]
  refine trails_walk _ _ _ (fun j hj => hj.elim) h1 ?_ ?_ o (.inr h4)
  · intro s hs i e
    rcases List.mem_append.mp hs with hs | hs
    · obtain ⟨j, _, rfl⟩ := List.mem_map.mp hs
      cases e
    · obtain ⟨⟨x, y⟩, ha, rfl⟩ := List.mem_map.mp hs
      cases e
      exact ((hr x y).mp ha).2
  · intro s hs e
    rcases List.mem_append.mp hs with hs | hs
    · obtain ⟨j, hj, rfl⟩ := List.mem_map.mp hs
      exact hj
    · obtain ⟨⟨x, y⟩, ha, rfl⟩ := List.mem_map.mp hs
      cases e

theorem simple_nonrec {a : AnyLayer} (h : Simple a) : NonRec a := by
  cases a <;> first | trivial | exact h.elim

theorem KeptAs.predicts {m : Net} (hs : Shaped net n) (h : KeptAs net n m) (hd : ∀ a ∈ m.layers, Simple a) {x : List ℝ}
    (hx : x.length = n) : ∃ m' y ks, m.predict x = .ok (m', .ok y) ∧
      (route net.graph).map (fun i => m.layers[i]?) = ks.map some ∧ Composition ks x y := by
  obtain ⟨h1, h2, o, os, h3, h4⟩ := hs.predictable
  obtain ⟨ls, e1, e2⟩ := forwards_computed (p := layoutOf net n) (ls0 := m.layers) hx (by
      intro i a hq ha
      rcases (((Layout.holds_layer hq).mp (h.holds i a ha)).sized fun _ =>
        (simple_nonrec (hd _ (List.mem_of_getElem? ha)))).cases with ⟨mx, raw, l, rfl, _⟩ | ⟨hm, _⟩
      · exact (hd _ (List.mem_of_getElem? ha)).elim
      · exact hm)
    (forwardSources net.graph) (fun _ => False) (fun _ => []) m.layers rfl (fun j hj => hj.elim)
    (by rw [h.length]; exact h1) h2
  obtain ⟨y, ks, f1, _, f2, f3⟩ := e2 o (.inr h4)
  refine ⟨⟨m.graph, ls⟩, y, ks, ?_, ?_, f3.composition⟩
  · obtain ⟨l, g1, g2⟩ := Exec.bind_eq_ok (show (rd ls o >>= AnyLayer.lastOutput) = .ok y from f1)
    unfold Net.predict
    rw [h.graph, h3]
    dsimp only
    unfold forwardSources at e1
    rw [e1, Exec.bind_ok]
    dsimp only
    rw [g1, Exec.bind_ok, g2]
  · unfold route
    rw [h3]
    exact f2

/-! ### Shapes stay -/

theorem serve_shape {σ : Type} (opt : σ → ℝ → ℝ → σ × ℝ) : ∀ (cs : List UserCall) (s : σ) (m : Net) (r : σ × Net),
    serve opt cs (s, m) = .ok r → r.2.layers.map shape = m.layers.map shape
  | [], s, m, r, h => by cases h; rfl
  | c :: cs, s, m, r, h => by
    cases c with
    | predict x =>
      unfold serve at h
      dsimp only at h
      obtain ⟨⟨m', e⟩, h1, h⟩ := Exec.bind_eq_ok h
      dsimp only at h
      cases e with
      | error => cases h
      | ok y => exact (serve_shape opt cs s m' r h).trans (shapes_of_cores (predict_same h1).2)
    | resetScore =>
      exact (serve_shape opt cs s _ r h).trans (shapes_of_cores (resetScore_same m).2)
    | step x t =>
      unfold serve at h
      dsimp only at h
      obtain ⟨⟨m', e⟩, h1, h⟩ := Exec.bind_eq_ok h
      dsimp only at h
      cases e with
      | some => cases h
      | none => exact (serve_shape opt cs s m' r h).trans (shapes_of_cores (step_same h1).2)
    | train =>
      unfold serve at h
      dsimp only at h
      obtain ⟨u, h1, h⟩ := Exec.bind_eq_ok h
      exact (serve_shape opt cs _ _ r h).trans (shape_trainLayers opt m.layers s)

theorem simple_of_shapes {as bs : List AnyLayer} (h : bs.map shape = as.map shape) (ha : ∀ a ∈ as, Simple a) :
    ∀ b ∈ bs, Simple b := by
  intro b hb
  obtain ⟨i, hi⟩ := List.getElem?_of_mem hb
  obtain ⟨a, h1, h2⟩ := getElem?_map_eq h hi
  exact simple_of_shape h2.symm (ha a (List.mem_of_getElem? h1))

/-! ### Trees -/

theorem walk_unique {g : DLGraph} (h1 : ∀ x y z, z ∈ successors g.forward x → z ∈ successors g.forward y → x = y)
    (h2 : ∀ i ∈ g.inputs, ∀ x, i ∉ successors g.forward x) : ∀ (p q : List Nat) (o : Nat), Walk g p o → Walk g q o →
    p = q := by
  intro p
  induction p using List.reverseRecOn with
  | nil => intro q o h _; have := h.stop; simp at this
  | append_singleton p a ih =>
    intro q o hp hq
    have ea : a = o := by simpa using hp.stop
    subst ea
    obtain ⟨q, rfl⟩ : ∃ r, q = r ++ [a] := by
      have := hq.stop
      rw [List.getLast?_eq_some_iff] at this
      exact this
    have pre : ∀ {p : List Nat} {b : Nat}, Walk g (p ++ [b] ++ [a]) a → Walk g (p ++ [b]) b ∧ a ∈ successors g.forward b := by
      intro p b h
      obtain ⟨⟨s, k1, k2⟩, k3, _⟩ := h
      refine ⟨⟨⟨s, k1, ?_⟩, ?_, by simp⟩, ?_⟩
      · cases p <;> simpa using k2
      · intro x y hxy
        apply k3
        rw [List.tail_append_of_ne_nil (by simp)]
        have := List.mem_append_left ([a].zip [] ) hxy
        obtain ⟨i, hi⟩ := List.getElem?_of_mem hxy
        rw [List.getElem?_zip_eq_some] at hi
        apply List.mem_of_getElem? (i := i)
        rw [List.getElem?_zip_eq_some]
        exact ⟨by rw [List.getElem?_append_left (List.getElem?_eq_some_iff.mp hi.1).1]; exact hi.1,
          by rw [List.getElem?_append_left (List.getElem?_eq_some_iff.mp hi.2).1]; exact hi.2⟩
      · apply k3
        apply List.mem_of_getElem? (i := p.length)
        rw [List.getElem?_zip_eq_some]
        constructor
        · simp
        · rw [List.getElem?_tail]
          simp
    have none_of : ∀ {p : List Nat}, Walk g ([] ++ [a]) a → Walk g (p ++ [a]) a → p = [] := by
      intro p h h'
      obtain ⟨s, k1, k2⟩ := h.start
      have : s = a := by simpa using k2.symm
      subst this
      rcases List.eq_nil_or_concat p with rfl | ⟨p', b, rfl⟩
      · rfl
      · rw [List.concat_eq_append] at h'
        exact (h2 s k1 b (pre h').2).elim
    rcases List.eq_nil_or_concat p with rfl | ⟨p', b, rfl⟩
    · rw [none_of hp hq]
    · rcases List.eq_nil_or_concat q with rfl | ⟨q', c, rfl⟩
      · have := none_of hq hp
        rw [this]
      · rw [List.concat_eq_append] at hp ih ⊢
        rw [List.concat_eq_append] at hq ⊢
        obtain ⟨w1, w2⟩ := pre hp
        obtain ⟨w3, w4⟩ := pre hq
        have := h1 _ _ _ w2 w4
        subst this
        rw [ih _ _ w1 w3]

end

end Verif.Net
