import Verif.Proofs.ShapePredict
import Verif.Proofs.Scores

/-! Scores of models of any shape. -/

namespace Verif.Net

open Verif.Spec Verif.Graph Verif.Props

noncomputable section

/-! ### The forward part of a step -/

/-- Walks of the traversal that also reaches loss layers. -/
theorem trails_walk_loss {p : Layout} {g : DLGraph} {k : Nat} : ∀ (ss : List (Source × Nat)) (vis : Nat → Prop)
    (f : Nat → List Nat), (∀ j, vis j → p.loss j = none → Walk g (f j) j) → p.Ordered k vis ss →
    (∀ s ∈ ss, ∀ i, s.1 = .output i → p.loss s.2 = none → s.2 ∈ successors g.forward i) →
    (∀ s ∈ ss, s.1 = .external → s.2 ∈ g.inputs) →
    ∀ j, (vis j ∨ ∃ s ∈ ss, j = s.2) → p.loss j = none → Walk g (trails ss f j) j
  | [], vis, f, hf, _, _, _, j, hj, hl => hf j (hj.resolve_right (by simp)) hl
  | s :: ss, vis, f, hf, ho, ha, hi, j, hj, hl => by
    refine trails_walk_loss ss (fun j => vis j ∨ j = s.2) _ ?_ ho.2.2 (fun t ht => ha t (by simp [ht]))
      (fun t ht => hi t (by simp [ht])) j ?_ hl
    · intro u hu hul
      by_cases e : u = s.2
      · subst e
        rw [Function.update_self]
        obtain ⟨src, d⟩ := s
        cases src with
        | external =>
          refine ⟨⟨d, hi (.external, d) (by simp) rfl, rfl⟩, ?_, rfl⟩
          intro x y hxy
          cases hxy
        | output i => exact walk_snoc (hf i ho.2.1.1 ho.2.1.2.1) (ha (.output i, d) (by simp) i rfl hul)
      · rw [Function.update_of_ne e]
        exact hf u (hu.resolve_right e) hul
    · rcases hj with hj | ⟨t, ht, rfl⟩
      · exact .inl (.inl hj)
      · rcases List.mem_cons.mp ht with rfl | ht
        · exact .inl (.inr rfl)
        · exact .inr ⟨t, ht, rfl⟩

/-- What `step` computes on its way forward. -/
theorem trains_computed {p : Layout} {ls0 : List AnyLayer} {x t : List ℝ} (hx : x.length = p.nin) (ht : p.Scores t)
    (hm : ∀ i a, p.loss i = none → ls0[i]? = some a → Maps (p.sizes i).1 (p.sizes i).2 a) :
    ∀ (ss : List (Source × Nat)) (vis : Nat → Prop) (f : Nat → List Nat) (st : Steps),
    p.Running vis t ls0.length st → st.layers.map core = ls0.map core →
    Computed p ls0 x (fun j => vis j ∧ p.loss j = none) f st.layers → p.Ordered ls0.length vis ss →
    ∃ st', each (trainAt x) ss st = .ok (st', none) ∧ p.Running (fun j => vis j ∨ ∃ s ∈ ss, j = s.2) t ls0.length st' ∧
      st'.layers.map core = ls0.map core ∧
      Computed p ls0 x (fun j => (vis j ∨ ∃ s ∈ ss, j = s.2) ∧ p.loss j = none) (trails ss f) st'.layers
  | [], vis, f, st, hr, hc, hv, _ => by
    have : (fun j => vis j ∨ ∃ s ∈ ([] : List (Source × Nat)), j = s.2) = vis := by funext j; simp
    exact ⟨st, rfl, by rw [this]; exact hr, hc, fun j hj => hv j ⟨hj.1.resolve_right (by simp), hj.2⟩⟩
  | s :: ss, vis, f, st, hr, hc, hv, ho => by
    obtain ⟨st1, h1, h2⟩ := p.trainAt_total hr hx ho.1 ho.2.1 ht
    have hc1 := (trainAt_core h1).trans hc
    have hv1 : Computed p ls0 x (fun j => (vis j ∨ j = s.2) ∧ p.loss j = none)
        (Function.update f s.2 (trailOf f s.1 ++ [s.2])) st1.layers := by
      unfold trainAt at h1
      split at h1
      · rename_i v hval
        obtain ⟨l, g1, h1⟩ := Exec.bind_eq_ok h1
        obtain ⟨r, g2, h1⟩ := Exec.bind_eq_ok h1
        cases r
        rename_i a' e'
        cases h1
        intro j hj
        by_cases ej : j = s.2
        · subst ej
          rw [Function.update_self]
          have hi := List.getElem?_eq_getElem ho.1
          have hmap := hm _ _ hj.2 hi
          have key : ∃ ks, v.length = (p.sizes s.2).1 ∧ (trailOf f s.1).map (fun i => ls0[i]?) = ks.map some ∧
              YieldsAll ks x v := by
            obtain ⟨src, d⟩ := s
            cases src with
            | external =>
              have : v = x := by cases hval; rfl
              subst this
              exact ⟨[], hx.trans ho.2.1.symm, rfl, .nil v⟩
            | output j =>
              obtain ⟨y, ks, k1, k2, k3, k4⟩ := hv j ⟨ho.2.1.1, ho.2.1.2.1⟩
              have : y = v := by
                have := k1.symm.trans hval
                cases this
                rfl
              subst this
              exact ⟨ks, k2.trans ho.2.1.2.2, k3, k4⟩
          obtain ⟨ks, k1, k2, k3⟩ := key
          obtain ⟨z, hz, hy⟩ := yields_of_maps hmap k1
          obtain ⟨l', g3, g4⟩ := getElem?_core hc hi
          have hl : l' = l := by
            have := rd_eq_ok g1
            rw [g3] at this
            cases this
            rfl
          subst hl
          obtain ⟨l'', g5, g6⟩ := hy (l'.setLastInput v) ((core_setLastInput _ _).trans g4)
          have htf : l'.trainingForward v = .ok (l'', none) := by
            rcases trainingForward_cases l' v with ⟨mx, raw, d, rfl⟩ | e
            · exfalso
              have hm' := maps_core g4 hmap
              exact hm'
            · rw [e]; exact g5
          have ha : a' = l'' := by
            rw [htf] at g2
            cases g2
            rfl
          subst ha
          have hlt : s.2 < st.layers.length := (List.getElem?_eq_some_iff.mp g3).1
          refine ⟨z, ks ++ [ls0[s.2]'ho.1], ?_, hz, ?_, k3.snoc hy⟩
          · show (rd (st.layers.set s.2 a') s.2 >>= AnyLayer.lastOutput) = .ok z
            rw [rd_of_some (a := a') (by simp [hlt]), Exec.bind_ok, g6]
          · rw [List.map_append, List.map_append, k2]
            simp [ho.1]
        · rw [Function.update_of_ne ej]
          obtain ⟨y, ks, k1, k2, k3, k4⟩ := hv j ⟨hj.1.resolve_right ej, hj.2⟩
          exact ⟨y, ks, by dsimp only; rw [value_set ej]; exact k1, k2, k3, k4⟩
      · cases h1
      · cases h1
    obtain ⟨st2, h3, h4, h5, h6⟩ := trains_computed hx ht hm ss (fun j => vis j ∨ j = s.2)
      (Function.update f s.2 (trailOf f s.1 ++ [s.2])) st1 h2 hc1 hv1 ho.2.2
    have hvis : (fun j => vis j ∨ ∃ r ∈ s :: ss, j = r.2) = (fun j => (vis j ∨ j = s.2) ∨ ∃ r ∈ ss, j = r.2) := by
      funext j
      simp [or_assoc]
    refine ⟨st2, ?_, ?_, h5, ?_⟩
    · unfold each
      rw [h1, Exec.bind_ok]
      exact h3
    · rw [hvis]; exact h4
    · intro j hj
      apply h6
      refine ⟨?_, hj.2⟩
      have := congrFun hvis j
      rw [← this]
      exact hj.1

/-! ### The loss layer -/

/-- What a loss layer has counted. -/
def tally (l : Loss.Layer) : Nat × Nat × ℝ × ℝ × Nat := (l.correct, l.incorrect, l.cumulative, l.tolerance, l.inputSize)

/-- The loss layer at `q` has counted `c`. -/
def TallyAt (q : Nat) (f : LossFn) (c : Nat × Nat × ℝ × ℝ × Nat) (ls : List AnyLayer) : Prop :=
  ∃ l, ls[q]? = some (.loss f l) ∧ tally l = c

theorem targetAt_tally {q : Nat} {f : LossFn} {c : Nat × Nat × ℝ × ℝ × Nat} {t : List ℝ} {ls ls' : List AnyLayer}
    {i : Nat} {e : Option String} (h : targetAt t ls i = .ok (ls', e)) (hq : TallyAt q f c ls) : TallyAt q f c ls' := by
  obtain ⟨l, h1, h2⟩ := hq
  unfold targetAt at h
  obtain ⟨a, h3, h⟩ := Exec.bind_eq_ok h
  by_cases e : i = q
  · subst e
    have := rd_eq_ok h3
    rw [h1] at this
    cases this
    cases h
    exact ⟨l.setTarget t, by simp [(List.getElem?_eq_some_iff.mp h1).1], h2⟩
  · cases a with
    | loss f' l' =>
      cases h
      exact ⟨l, by rw [List.getElem?_set_ne e]; exact h1, h2⟩
    | _ => cases h; exact ⟨l, h1, h2⟩

theorem loss_backward_tally {f : LossFn} {l : Loss.Layer} {g : List ℝ} {a' : AnyLayer} {e : Option String}
    (h : (AnyLayer.loss f l).backward g = .ok (a', e)) : ∃ l', a' = .loss f l' ∧ tally l' = tally l := by
  rcases keep_ok h with rfl | ⟨l', h1, rfl, _⟩
  · exact ⟨l, rfl, rfl⟩
  · refine ⟨l', rfl, ?_⟩
    cases f with
    | mse =>
      obtain ⟨g, _, h1⟩ := Exec.bind_eq_ok (show Loss.mseBackward l = .ok l' from h1)
      cases h1
      rfl
    | cce =>
      obtain ⟨g, _, h1⟩ := Exec.bind_eq_ok (show Loss.cceBackward l = .ok l' from h1)
      cases h1
      rfl

theorem backwardAt_tally {q : Nat} {f : LossFn} {c : Nat × Nat × ℝ × ℝ × Nat} {x g : List ℝ} {st st' : Steps}
    {i : Nat} {e : Option String} (h : backwardAt x st i g = .ok (st', e)) (hq : TallyAt q f c st.layers) :
    TallyAt q f c st'.layers := by
  obtain ⟨l, h1, h2⟩ := hq
  by_cases ei : q = i
  · subst ei
    unfold backwardAt at h
    obtain ⟨a, h3, h⟩ := Exec.bind_eq_ok h
    have := rd_eq_ok h3
    rw [h1] at this
    cases this
    obtain ⟨b, h4, h⟩ := Exec.bind_eq_ok h
    obtain ⟨r, h5, h⟩ := Exec.bind_eq_ok h
    cases r
    cases h
    have hb : ∃ l1, b = .loss f l1 ∧ tally l1 = tally l := by
      unfold follow at h4
      split at h4
      · obtain ⟨v, _, h4⟩ := Exec.bind_eq_ok h4
        cases h4
        exact ⟨_, rfl, rfl⟩
      · cases h4; exact ⟨_, rfl, rfl⟩
    obtain ⟨l1, rfl, h6⟩ := hb
    obtain ⟨l2, rfl, h7⟩ := loss_backward_tally h5
    exact ⟨l2, by simp [(List.getElem?_eq_some_iff.mp h1).1], h7.trans (h6.trans h2)⟩
  · exact ⟨l, by rw [Layout.backwardAt_other h ei]; exact h1, h2⟩

theorem trainAt_other {x : List ℝ} {st st' : Steps} {s : Source × Nat} {e : Option String}
    (h : trainAt x st s = .ok (st', e)) {i : Nat} (hi : s.2 ≠ i) : st'.layers[i]? = st.layers[i]? := by
  unfold trainAt at h
  split at h
  · obtain ⟨l, h1, h⟩ := Exec.bind_eq_ok h
    obtain ⟨r, h2, h⟩ := Exec.bind_eq_ok h
    cases h
    exact List.getElem?_set_ne hi
  · cases h; rfl
  · cases h

/-! ### Steps -/

variable {net : Net} {n : Nat}

/-- The walk whose layers compute what the loss layer at `q` scores. -/
def lossRoute (g : DLGraph) (q : Nat) : List Nat :=
  match (trainingSources g).span (fun s => s.2 != q) with
  | (pre, (.output p, _) :: _) => trails pre (fun _ => []) p
  | _ => []

/-- A loss layer with one predecessor is called once. -/
theorem Shaped.called_once (hs : Shaped net n) {q : Nat} (hq : q ∈ net.graph.loss)
    (h1 : ∀ x y, trainArc net.graph x q → trainArc net.graph y q → x = y) :
    ∃ pre p post, trainingSources net.graph = pre ++ (Source.output p, q) :: post ∧ trainArc net.graph p q ∧
      (∀ s ∈ pre, s.2 ≠ q) ∧ (∀ s ∈ post, s.2 ≠ q) ∧ lossRoute net.graph q = trails pre (fun _ => []) p := by
  obtain ⟨r, hr, hnd, hmem⟩ := run_spec (nodup_of_sorted hs.ok.inputsSorted) (successors_nodup hs.ok.training)
    (keys_of net.graph.training)
  have e1 : trainingArcs net.graph = r := by
    show (runLoop _ _ _ _ _).getD [] = r
    rw [hr (net.graph.training.length + 2) (by simp)]
    rfl
  obtain ⟨s, hs1, hs2⟩ := hs.steppable.reached q hq
  have hsrc : trainingSources net.graph = net.graph.inputs.map (fun i => (Source.external, i)) ++
      r.map (fun a => (Source.output a.1, a.2)) := by
    unfold trainingSources
    rw [e1]
  have hin : ∀ s ∈ net.graph.inputs.map (fun i => (Source.external, i)), s.2 ≠ q := by
    intro s hs' e
    obtain ⟨i, hi, rfl⟩ := List.mem_map.mp hs'
    exact hs.inside i hi ((show i = q from e) ▸ hq)
  rw [hsrc] at hs1
  have hs1 := (List.mem_append.mp hs1).resolve_left fun h => hin s h hs2.symm
  obtain ⟨⟨p, y⟩, hp, rfl⟩ := List.mem_map.mp hs1
  have : y = q := hs2.symm
  subst this
  obtain ⟨as, bs, hab⟩ := List.append_of_mem hp
  have harc := ((hmem p y).mp hp).2
  have hother : ∀ a ∈ as ++ bs, a.2 ≠ y := by
    rintro ⟨u, v⟩ ha e
    have e : v = y := e
    subst e
    have hu : (u, v) ∈ r := by
      rw [hab]
      rcases List.mem_append.mp ha with h | h
      · exact List.mem_append_left _ h
      · exact List.mem_append_right _ (List.mem_cons_of_mem _ h)
    have := h1 u p ((hmem u v).mp hu).2 harc
    subst this
    rw [hab] at hnd
    have hnd' := List.nodup_middle.mp hnd
    exact (List.nodup_cons.mp hnd').1 ha
  have hpre : ∀ s ∈ net.graph.inputs.map (fun i => (Source.external, i)) ++ as.map (fun a => (Source.output a.1, a.2)),
      s.2 ≠ y := by
    intro s hs'
    rcases List.mem_append.mp hs' with h | h
    · exact hin s h
    · obtain ⟨a, ha, rfl⟩ := List.mem_map.mp h
      exact hother a (List.mem_append_left _ ha)
  have hsplit : trainingSources net.graph = (net.graph.inputs.map (fun i => (Source.external, i)) ++
      as.map (fun a => (Source.output a.1, a.2))) ++ (Source.output p, y) :: bs.map (fun a => (Source.output a.1, a.2)) := by
    rw [hsrc, hab]
    simp
  refine ⟨_, p, _, hsplit, harc, hpre, ?_, ?_⟩
  · intro s hs'
    obtain ⟨a, ha, rfl⟩ := List.mem_map.mp hs'
    exact hother a (List.mem_append_right _ ha)
  · unfold lossRoute
    rw [hsplit, List.span_eq_takeWhile_dropWhile, List.takeWhile_append_of_pos, List.dropWhile_append_of_pos]
    · simp
    · intro s hs'; simpa using hpre s hs'
    · intro s hs'; simpa using hpre s hs'

theorem Layout.Ordered.pre {p : Layout} {k : Nat} : ∀ {as bs : List (Source × Nat)} {vis : Nat → Prop},
    p.Ordered k vis (as ++ bs) → p.Ordered k vis as ∧ p.Ordered k (fun j => vis j ∨ ∃ s ∈ as, j = s.2) bs
  | [], bs, vis, h => ⟨trivial, by
      have : (fun j => vis j ∨ ∃ s ∈ ([] : List (Source × Nat)), j = s.2) = vis := by funext j; simp
      rw [this]; exact h⟩
  | a :: as, bs, vis, h => by
    obtain ⟨h1, h2⟩ := Layout.Ordered.pre h.2.2
    refine ⟨⟨h.1, h.2.1, h1⟩, ?_⟩
    have : (fun j => vis j ∨ ∃ r ∈ a :: as, j = r.2) = (fun j => (vis j ∨ j = a.2) ∨ ∃ r ∈ as, j = r.2) := by
      funext j
      simp [or_assoc]
    rw [this]
    exact h2

theorem Shaped.lossRoute_walk (hs : Shaped net n) {q : Nat} (hq : q ∈ net.graph.loss)
    (h1 : ∀ x y, trainArc net.graph x q → trainArc net.graph y q → x = y) :
    ∃ p, Walk net.graph (lossRoute net.graph q) p ∧ trainArc net.graph p q := by
  obtain ⟨pre, p, post, e1, e2, e3, e4, e5⟩ := hs.called_once hq h1
  have ho := hs.steppable.ordered
  rw [e1] at ho
  obtain ⟨o1, o2⟩ := Layout.Ordered.pre ho
  obtain ⟨_, hr⟩ := run_chained hs.ok.training (nodup_of_sorted hs.ok.inputsSorted)
  have hmem : ∀ s ∈ pre, s ∈ trainingSources net.graph := fun s h => by rw [e1]; exact List.mem_append_left _ h
  refine ⟨p, ?_, e2⟩
  rw [e5]
  refine trails_walk_loss pre _ _ (fun j hj => hj.elim) o1 ?_ ?_ p o2.2.1.1 o2.2.1.2.1
  · intro s hs' i hi hl
    rcases List.mem_append.mp (hmem s hs') with h | h
    · obtain ⟨j, _, rfl⟩ := List.mem_map.mp h
      cases hi
    · obtain ⟨⟨x, y⟩, ha, rfl⟩ := List.mem_map.mp h
      cases hi
      refine hs.fwd.mpr ⟨((hr x y).mp ha).2, fun hy => ?_⟩
      exact (hs.steppable.loss y).mpr hy hl
  · intro s hs' hi
    rcases List.mem_append.mp (hmem s hs') with h | h
    · obtain ⟨j, hj, rfl⟩ := List.mem_map.mp h
      exact hj
    · obtain ⟨⟨x, y⟩, ha, rfl⟩ := List.mem_map.mp h
      cases hi

theorem filterMap_of_map {ls : List AnyLayer} {w : List Nat} {ks : List AnyLayer}
    (h : w.map (fun i => ls[i]?) = ks.map some) : w.filterMap (fun i => ls[i]?) = ks := by
  have : w.filterMap (fun i => ls[i]?) = (w.map (fun i => ls[i]?)).filterMap id := by
    rw [List.filterMap_map]
    rfl
  rw [this, h, List.filterMap_map]
  simp

/-- A step, and what the loss layer at `q` counts. -/
theorem KeptAs.step_scored {m : Net} (hs : Shaped net n) (h : KeptAs net n m) (hd : ∀ a ∈ m.layers, Simple a)
    {x t : List ℝ} (hx : Suitable net n (.step x t)) {q : Nat} (hq : q ∈ net.graph.loss)
    (h1 : ∀ x y, trainArc net.graph x q → trainArc net.graph y q → x = y) {f : LossFn} {L : Loss.Layer}
    (hL : m.layers[q]? = some (.loss f L)) :
    ∃ m' L0 L1 L', m.step x t = .ok (m', none) ∧ tally L0 = tally L ∧ L0.target = t ∧
      (prediction (layersAt m (lossRoute net.graph q)) x).length = ((layoutOf net n).sizes q).1 ∧
      (AnyLayer.loss f L0).trainingForward (prediction (layersAt m (lossRoute net.graph q)) x) = .ok (.loss f L1, none) ∧
      m'.layers[q]? = some (.loss f L') ∧ tally L' = tally L1 := by
  obtain ⟨hx1, hx2⟩ := suits_scores hx
  obtain ⟨pre, p, post, c1, c2, c3, c4, c5⟩ := hs.called_once hq h1
  have hp : (layoutOf net n).Steppable m.layers.length m.graph := by rw [h.length, h.graph]; exact hs.steppable
  have hsrc : trainingSources m.graph = pre ++ (Source.output p, q) :: post := by rw [h.graph]; exact c1
  have hqm : q ∈ m.graph.loss := by rw [h.graph]; exact hq
  obtain ⟨ls, e1, k1, k2, k3⟩ := Layout.targets_total (p := layoutOf net n) (t := t) m.graph.loss m.layers h.holds rfl
    (fun i hi => by
      refine ⟨?_, (hp.loss i).mpr hi⟩
      obtain ⟨s, hs, rfl⟩ := hp.reached i hi
      exact hp.ordered.bound s hs) (fun i f l h h' => (h' ((hp.loss i).mp h)).elim)
  have r1 : (layoutOf net n).Running (fun _ => False) t m.layers.length ⟨ls, List.replicate ls.length none⟩ :=
    ⟨k1, fun j a hj => hj.elim, k2, by simp [k2], k3, fun j hj => hj.elim⟩
  have hc0 : ls.map core = m.layers.map core :=
    each_inv_mem (fun s => s.map core = m.layers.map core) _ _ _ _
      (fun b _ s s' e hs h => (targetAt_core h).trans hs) rfl e1
  obtain ⟨L0, t1, t2⟩ : TallyAt q f (tally L) ls :=
    each_inv_mem (TallyAt q f (tally L)) _ _ _ _ (fun b _ s s' e hs h => targetAt_tally h hs) ⟨L, hL, rfl⟩ e1
  have hlq : (layoutOf net n).loss q ≠ none := (hp.loss q).mpr hqm
  have t3 := k3 q f L0 hlq t1
  have ho := hp.ordered
  rw [hsrc] at ho
  obtain ⟨o1, o2⟩ := Layout.Ordered.pre ho
  obtain ⟨st1, e2, r2, hc1, hv⟩ := trains_computed (p := layoutOf net n) (ls0 := m.layers) hx1 hx2 (by
      intro i a hq ha
      rcases (((Layout.holds_layer hq).mp (h.holds i a ha)).sized fun _ =>
        (simple_nonrec (hd _ (List.mem_of_getElem? ha)))).cases with ⟨mx, raw, l, rfl, _⟩ | ⟨hm, _⟩
      · exact (hd _ (List.mem_of_getElem? ha)).elim
      · exact hm)
    pre _ (fun _ => []) ⟨ls, List.replicate ls.length none⟩ r1 hc0 (fun j hj => hj.1.elim) o1
  obtain ⟨y, ks, v1, v2, v3, v4⟩ := hv p ⟨o2.2.1.1, o2.2.1.2.1⟩
  have hy : prediction (layersAt m (lossRoute net.graph q)) x = y := by
    rw [c5]
    unfold layersAt
    rw [filterMap_of_map v3]
    exact prediction_of v4
  have t4 : st1.layers[q]? = some (.loss f L0) := by
    have : st1.layers[q]? = ls[q]? :=
      each_inv_mem (fun s : Steps => s.layers[q]? = ls[q]?) _ _ _ _
        (fun b hb s s' e hs h => (trainAt_other h (c3 b hb)).trans hs) rfl e2
    rw [this]
    exact t1
  obtain ⟨st2, e3, r3⟩ := (layoutOf net n).trainAt_total r2 hx1 o2.1 o2.2.1 hx2
  obtain ⟨L1, u1, u2⟩ : ∃ L1, (AnyLayer.loss f L0).trainingForward y = .ok (.loss f L1, none) ∧
      st2.layers[q]? = some (.loss f L1) := by
    have e3' := e3
    unfold trainAt at e3'
    dsimp only at e3'
    rw [v1] at e3'
    dsimp only at e3'
    rw [rd_of_some t4, Exec.bind_ok] at e3'
    obtain ⟨r, g1, g2⟩ := Exec.bind_eq_ok e3'
    obtain ⟨a', e'⟩ := r
    cases g2
    have hcr := core_trainingForward g1
    cases a' <;> simp only [core, reduceCtorEq] at hcr
    rename_i f' L1
    have hf : f' = f := by injection hcr
    subst hf
    exact ⟨L1, g1, by simp [(List.getElem?_eq_some_iff.mp t4).1]⟩
  obtain ⟨st3, e4, r4⟩ := (layoutOf net n).trains_total hx1 hx2 post _ st2 r3 o2.2.2
  have e5 : each (trainAt x) (trainingSources m.graph) ⟨ls, List.replicate ls.length none⟩ = .ok (st3, none) := by
    rw [hsrc, each_append _ _ e2]
    unfold each
    rw [e3, Exec.bind_ok]
    exact e4
  have u3 : TallyAt q f (tally L1) st3.layers := by
    refine ⟨L1, ?_, rfl⟩
    have : st3.layers[q]? = st2.layers[q]? :=
      each_inv_mem (fun s : Steps => s.layers[q]? = st2.layers[q]?) _ _ _ _
        (fun b hb s s' e hs h => (trainAt_other h (c4 b hb)).trans hs) rfl e4
    rw [this]
    exact u2
  have hvis : ∀ j, (∃ s ∈ trainingSources m.graph, j = s.2) →
      (((False ∨ ∃ s ∈ pre, j = s.2) ∨ j = (Source.output p, q).2) ∨ ∃ s ∈ post, j = s.2) := by
    rintro j ⟨s, hs', rfl⟩
    rw [hsrc] at hs'
    rcases List.mem_append.mp hs' with h | h
    · exact .inl (.inl (.inr ⟨s, h, rfl⟩))
    · rcases List.mem_cons.mp h with rfl | h
      · exact .inl (.inr rfl)
      · exact .inr ⟨s, h, rfl⟩
  obtain ⟨st4, e6, r5⟩ := (layoutOf net n).losses_total hx1 hx2 m.graph.loss st3 r4
    (fun i hi => ⟨hvis i (hp.reached i hi), (hp.loss i).mpr hi⟩)
  obtain ⟨st5, e7, r6⟩ := (layoutOf net n).backArcs_total hx1 hx2 (backwardArcs m.graph) st4 r5
    (fun a ha => ⟨hvis _ (hp.backward a ha).1, hvis _ (hp.backward a ha).2.1, (hp.backward a ha).2.2⟩)
  have u4 : TallyAt q f (tally L1) st4.layers :=
    each_inv_mem (fun s : Steps => TallyAt q f (tally L1) s.layers) _ _ _ _
      (fun b _ s s' e hs h => backwardAt_tally h hs) u3 e6
  obtain ⟨L', u5, u6⟩ : TallyAt q f (tally L1) st5.layers :=
    each_inv_mem (fun s : Steps => TallyAt q f (tally L1) s.layers) _ _ _ _
      (fun b _ s s' e hs h => by
        obtain ⟨l, _, h⟩ := Exec.bind_eq_ok h
        exact backwardAt_tally h hs) u4 e7
  refine ⟨⟨m.graph, st5.layers⟩, L0, L1, L', ?_, t2, t3, ?_, ?_, u5, u6⟩
  · unfold Net.step
    unfold trainingSources at e5
    rw [e1, next_ok, e5, next_ok, e6, next_ok, e7]
    rfl
  · rw [hy, v2]
    exact o2.2.1.2.2
  · rw [hy]
    exact u1

theorem tracks_of_tally {S : Scoring} {l l' : Loss.Layer} {t : List ℝ} {log : List (List ℝ × List ℝ)}
    (h : tally l' = tally l) (ht : Loss.Tracks S l (t, log)) : Loss.Tracks S l' (l'.target, log) := by
  simp only [tally, Prod.mk.injEq] at h
  obtain ⟨h1, h2, h3, _⟩ := h
  obtain ⟨_, k1, k2, k3⟩ := ht
  exact ⟨rfl, h1.trans k1, by rw [h1, h2]; exact k2, h3.trans k3⟩

/-- The loss layer at `q` has counted the steps since the last reset. -/
theorem tallied (hs : Shaped net n) (hk : KeptAs net n net) (hd : ∀ a ∈ net.layers, Simple a) {q : Nat}
    (hq : q ∈ net.graph.loss) (h1 : ∀ x y, trainArc net.graph x q → trainArc net.graph y q → x = y)
    {f : LossFn} {l0 : Loss.Layer} (hq0 : net.layers[q]? = some (.loss f l0)) {W : Nat → List Nat}
    (hW : W q = lossRoute net.graph q) {m : Net} {L : Nat → List (List ℝ × List ℝ)} (h : Tallied net n W m L) :
    KeptAs net n m ∧ (∀ a ∈ m.layers, Simple a) ∧ ∃ l t, m.layers[q]? = some (.loss f l) ∧
      l.tolerance = l0.tolerance ∧ l.inputSize = l0.inputSize ∧
      Loss.Tracks (scoringOf f l0.inputSize l0.tolerance) l (t, L q) := by
  have reset : ∀ {m : Net}, KeptAs net n m → (∀ a ∈ m.layers, Simple a) →
      (∃ l, m.layers[q]? = some (.loss f l) ∧ l.tolerance = l0.tolerance ∧ l.inputSize = l0.inputSize) →
      KeptAs net n m.resetScore ∧ (∀ a ∈ m.resetScore.layers, Simple a) ∧ ∃ l t,
        m.resetScore.layers[q]? = some (.loss f l) ∧ l.tolerance = l0.tolerance ∧ l.inputSize = l0.inputSize ∧
        Loss.Tracks (scoringOf f l0.inputSize l0.tolerance) l (t, []) := by
    rintro m h1 h2 ⟨l, h3, h4, h5⟩
    refine ⟨h1.resetScore, simple_of_shapes (shapes_of_cores (resetScore_same m).2) h2, l.resetScore, l.target, ?_, h4,
      h5, rfl, rfl, rfl, rfl⟩
    show (m.layers.mapIdx _)[q]? = _
    rw [List.getElem?_mapIdx, h3, Option.map_some, h1.graph]
    simp [hq]
  induction h with
  | new => exact reset hk hd ⟨l0, hq0, rfl, rfl⟩
  | @step m m' L e x t _ hx hst ih =>
    obtain ⟨k1, k2, l, t0, b1, b2, b3, b4⟩ := ih
    obtain ⟨m1, L0, L1, L', c1, c2, c3, c4, c5, c6, c7⟩ := k1.step_scored hs k2 hx hq h1 b1
    obtain ⟨m2, d1, d2⟩ := k1.step hs hx
    have hm : m2 = m1 := by rw [c1] at d1; cases d1; rfl
    subst hm
    rw [c1] at hst
    cases hst
    refine ⟨d2, simple_of_shapes (shapes_of_cores (step_same c1).2) k2, L', ?_⟩
    rw [← hW] at c4 c5
    have hsz : ((layoutOf net n).sizes q).1 = l0.inputSize := by rw [layoutOf_sizes hq0]; rfl
    rw [hsz] at c4
    have hct : CanScore f l0.inputSize t := hx.2 f l0 (List.mem_of_getElem? hq0)
    have hu := usable_of_canScore (tol := l0.tolerance) hct
    have c2' := c2
    simp only [tally, Prod.mk.injEq] at c2'
    obtain ⟨_, _, _, p4, p5⟩ := c2'
    have htr := tracks_of_tally c2 b4
    rw [c3] at htr
    obtain ⟨l', e', e1, e2, e3, e4, e5⟩ := Loss.tracks_forward (lossForward_behaves_of f hct.2.1 l0.tolerance)
      (l := { L0 with lastInput := prediction (layersAt m (W q)) x }) (s := (t, L q)) (p5.trans b3) (p4.trans b2)
      (.inl hct.1) htr c4
    rw [Nn.logStep_usable hu] at e5
    have hL : l' = L1 := by
      have d3' : (f.forward { L0 with lastInput := prediction (layersAt m (W q)) x }
          (prediction (layersAt m (W q)) x) >>= fun r =>
          (.ok (AnyLayer.loss f r.1, r.2) : Exec _)) = .ok (.loss f L1, none) := c5
      rw [e1] at d3'
      cases d3'
      rfl
    subst hL
    have c7' := c7
    simp only [tally, Prod.mk.injEq] at c7'
    obtain ⟨_, _, _, q4, q5⟩ := c7'
    exact ⟨L'.target, c6, q4.trans e3, q5.trans e2, tracks_of_tally c7 e5⟩
  | @train m L σ opt s _ ih =>
    obtain ⟨k1, k2, l, t0, b1, b2, b3, b4⟩ := ih
    obtain ⟨s', m', d1, d2⟩ := k1.train opt s
    rw [d1]
    have hm : (m.train opt s).1.2 = m' := by rw [d1]
    have hsh : m'.layers.map shape = m.layers.map shape := by rw [← hm]; exact shape_trainLayers opt m.layers s
    refine ⟨d2, simple_of_shapes hsh k2, l, t0, ?_, b2, b3, b4⟩
    obtain ⟨b, hb, hE⟩ := trainLayers_at opt m.layers s q _ b1
    show m'.layers[q]? = _
    rw [← hm]
    rcases hE with rfl | ⟨s', rfl⟩
    · exact hb
    · exact hb
  | @predict m m' L r x _ hx hp ih =>
    obtain ⟨k1, k2, l, t0, b1, b2, b3, b4⟩ := ih
    obtain ⟨m2, y, d1, d2⟩ := k1.predict hs hx
    have hm : m2 = m' := by rw [d1] at hp; cases hp; rfl
    subst hm
    refine ⟨d2, simple_of_shapes (shapes_of_cores (predict_same hp).2) k2, l, t0, ?_, b2, b3, b4⟩
    obtain ⟨_, hr⟩ := run_chained hs.ok.forward (nodup_of_sorted hs.ok.inputsSorted)
    rw [predict_other hp (i := q)]
    · exact b1
    · rw [k1.graph]
      exact fun h => hs.inside q h hq
    · rw [k1.graph]
      rintro ⟨u, v⟩ ha e
      have e : v = q := e
      subst e
      exact (hs.fwd.mp ((hr u v).mp ha).2).2 hq
  | @reset m L _ ih =>
    obtain ⟨k1, k2, l, t0, b1, b2, b3, b4⟩ := ih
    exact reset k1 k2 ⟨l, b1, b2, b3⟩

end

end Verif.Net
