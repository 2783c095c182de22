import Verif.Proofs.ShapeScores

/-! Scores of models with layers of every class. -/

namespace Verif.Net

open Verif.Spec Verif.Graph Verif.Props

noncomputable section

theorem backward_output {a a' : AnyLayer} {g : List ℝ} {e : Option String} (h : a.backward g = .ok (a', e)) :
    a'.lastOutput = a.lastOutput := by
  cases a with
  | dense l =>
    rcases keep_ok h with rfl | ⟨l', h1, rfl, _⟩
    · rfl
    · unfold Dense.Layer.backward at h1
      repeat (obtain ⟨_, _, h1⟩ := Exec.bind_eq_ok h1)
      cases h1
      rfl
  | conv l =>
    rcases keep_ok h with rfl | ⟨l', h1, rfl, _⟩
    · rfl
    · unfold Slide.ConvLayer.backward at h1
      repeat (obtain ⟨_, _, h1⟩ := Exec.bind_eq_ok h1)
      cases h1
      rfl
  | maxPool l =>
    rcases keep_ok h with rfl | ⟨l', h1, rfl, _⟩
    · rfl
    · unfold Slide.maxBackward at h1
      repeat (obtain ⟨_, _, h1⟩ := Exec.bind_eq_ok h1)
      cases h1
      rfl
  | avgPool l =>
    rcases keep_ok h with rfl | ⟨l', h1, rfl, _⟩
    · rfl
    · unfold Slide.avgBackward at h1
      repeat (obtain ⟨_, _, h1⟩ := Exec.bind_eq_ok h1)
      cases h1
      rfl
  | act f l =>
    rcases keep_ok h with rfl | ⟨l', h1, rfl, _⟩
    · rfl
    · cases f with
      | softmax =>
        obtain ⟨_, _, h1⟩ := Exec.bind_eq_ok (show Act.softmaxBackward l g = .ok l' from h1)
        cases h1
        rfl
      | linear =>
        obtain ⟨_, _, h1⟩ := Exec.bind_eq_ok (show Act.linearBackward l g = .ok l' from h1)
        cases h1
        rfl
      | _ =>
        obtain ⟨_, _, h1⟩ := Exec.bind_eq_ok (show Act.Layer.backwardWith _ l g = .ok l' from h1)
        obtain ⟨_, _, h1⟩ := Exec.bind_eq_ok h1
        cases h1
        rfl
  | dropout mx raw l =>
    rcases keep_ok h with rfl | ⟨l', h1, rfl, _⟩
    · rfl
    · obtain ⟨_, _, h1⟩ := Exec.bind_eq_ok (show Drop.Layer.backward l g = .ok l' from h1)
      obtain ⟨_, _, h1⟩ := Exec.bind_eq_ok h1
      cases h1
      rfl
  | rnn f f1 l =>
    rcases keep_ok h with rfl | ⟨l', h1, rfl, _⟩
    · rfl
    · unfold Rnn.Layer.backward at h1
      repeat (obtain ⟨_, _, h1⟩ := Exec.bind_eq_ok h1)
      cases h1
      rfl
  | loss f l =>
    obtain ⟨l', rfl, _⟩ := loss_backward_tally h
    rfl

theorem setLastInput_output (a : AnyLayer) (v : List ℝ) : (a.setLastInput v).lastOutput = a.lastOutput := by
  cases a <;> rfl

theorem lastShown_set_ne {ls : List AnyLayer} {i j : Nat} {a : AnyLayer} (h : i ≠ j) : lastShown (ls.set i a) j = lastShown ls j := by
  unfold lastShown
  rw [List.getElem?_set_ne h]

/-- `backward` leaves all outputs. -/
theorem backwardAt_lastShown {x g : List ℝ} {st st' : Steps} {i : Nat} {e : Option String}
    (h : backwardAt x st i g = .ok (st', e)) (j : Nat) : lastShown st'.layers j = lastShown st.layers j := by
  by_cases ej : j = i
  · subst ej
    unfold backwardAt at h
    obtain ⟨a, h1, h⟩ := Exec.bind_eq_ok h
    obtain ⟨b, h2, h⟩ := Exec.bind_eq_ok h
    obtain ⟨⟨c, e'⟩, h3, h⟩ := Exec.bind_eq_ok h
    cases h
    have h1 := rd_eq_ok h1
    have hb : b.lastOutput = a.lastOutput := by
      unfold follow at h2
      split at h2
      · obtain ⟨v, _, h2⟩ := Exec.bind_eq_ok h2
        cases h2
        exact setLastInput_output _ _
      · cases h2; rfl
    have hc := (backward_output h3).trans hb
    have hlt : j < st.layers.length := (List.getElem?_eq_some_iff.mp h1).1
    unfold lastShown
    rw [h1]
    simp only [List.getElem?_set_self hlt, hc]
  · unfold lastShown
    rw [Layout.backwardAt_other h ej]

/-- What a source is, as `last_output()`. -/
theorem shown_of_value {ls : List AnyLayer} {x v : List ℝ} {p : Nat} (h : value ls x (.output p) = .ok v) :
    lastShown ls p = v := by
  unfold value at h
  obtain ⟨l, h1, h2⟩ := Exec.bind_eq_ok h
  unfold lastShown
  rw [rd_eq_ok h1]
  dsimp only
  rw [h2]

/-- The layers in front of the layer `q` that a traversal calls it with, in order. -/
def feeders (q : Nat) : List (Source × Nat) → List Nat
  | [] => []
  | (.output p, j) :: ss => if j = q then p :: feeders q ss else feeders q ss
  | (.external, _) :: ss => feeders q ss

/-- Layers in front of `q` are not called any more after `q` was called with their outputs. -/
def Settled (q : Nat) : List (Source × Nat) → Prop
  | [] => True
  | s :: ss => (s.2 = q → ∃ p, s.1 = .output p ∧ p ≠ q ∧ ∀ r ∈ ss, r.2 ≠ p) ∧ Settled q ss

/-- The forward part of a step, as the loss layer at `q` sees it. -/
theorem trains_seen {p : Layout} {x t : List ℝ} {k q : Nat} {f : LossFn} {N : Nat} {tol : ℝ}
    (hx : x.length = p.nin) (ht : p.Scores t) (hN : (p.sizes q).1 = N) (hct : CanScore f N t)
    {log : List (List ℝ × List ℝ)} :
    ∀ (ss : List (Source × Nat)) (vis : Nat → Prop) (ps : List Nat) (st : Steps),
    p.Running vis t k st → p.Ordered k vis ss → Settled q ss → (∀ a ∈ ps, a ≠ q ∧ ∀ s ∈ ss, s.2 ≠ a) →
    (∃ l, st.layers[q]? = some (.loss f l) ∧ l.inputSize = N ∧ l.tolerance = tol ∧
      Loss.Tracks (scoringOf f N tol) l (t, log ++ ps.map fun a => (t, lastShown st.layers a))) →
    ∃ st', each (trainAt x) ss st = .ok (st', none) ∧ p.Running (fun j => vis j ∨ ∃ s ∈ ss, j = s.2) t k st' ∧
      ∃ l, st'.layers[q]? = some (.loss f l) ∧ l.inputSize = N ∧ l.tolerance = tol ∧
        Loss.Tracks (scoringOf f N tol) l (t, log ++ (ps ++ feeders q ss).map fun a => (t, lastShown st'.layers a))
  | [], vis, ps, st, hr, _, _, _, hl => by
    have : (fun j => vis j ∨ ∃ s ∈ ([] : List (Source × Nat)), j = s.2) = vis := by funext j; simp
    exact ⟨st, rfl, by rw [this]; exact hr, by simpa [feeders] using hl⟩
  | s :: ss, vis, ps, st, hr, ho, hse, hps, hl => by
    obtain ⟨st1, h1, h2⟩ := p.trainAt_total hr hx ho.1 ho.2.1 ht
    obtain ⟨v, v1, v2⟩ := Layout.value_total hr.full (fun j hj => by rw [hr.length]; exact (hr.sources j hj).1) hx ho.2.1
    obtain ⟨l, l1, l2, l3, l4⟩ := hl
    have h1' := h1
    unfold trainAt at h1'
    rw [v1] at h1'
    dsimp only at h1'
    obtain ⟨a, a1, h1'⟩ := Exec.bind_eq_ok h1'
    obtain ⟨⟨a', e'⟩, a2, h1'⟩ := Exec.bind_eq_ok h1'
    cases h1'
    have hshown : ∀ b ∈ ps, lastShown (st.layers.set s.2 a') b = lastShown st.layers b := fun b hb =>
      lastShown_set_ne ((hps b hb).2 s (by simp))
    obtain ⟨ps', q1, q2, q3⟩ : ∃ ps', ps' ++ feeders q ss = ps ++ feeders q (s :: ss) ∧
        (∀ a ∈ ps', a ≠ q ∧ ∀ r ∈ ss, r.2 ≠ a) ∧
        ∃ l, (st.layers.set s.2 a')[q]? = some (.loss f l) ∧ l.inputSize = N ∧ l.tolerance = tol ∧
          Loss.Tracks (scoringOf f N tol) l
            (t, log ++ ps'.map fun b => (t, lastShown (st.layers.set s.2 a') b)) := by
      by_cases eq : s.2 = q
      · obtain ⟨c, c1, c2, c3⟩ := hse.1 eq
        refine ⟨ps ++ [c], ?_, ?_, ?_⟩
        · obtain ⟨src, j⟩ := s
          dsimp only at c1 eq
          subst c1 eq
          simp [feeders]
        · intro b hb
          rcases List.mem_append.mp hb with hb | hb
          · exact ⟨(hps b hb).1, fun r hr => (hps b hb).2 r (by simp [hr])⟩
          · have : b = c := by simpa using hb
            subst this
            exact ⟨c2, c3⟩
        · rw [c1] at v1
          have hv : lastShown st.layers c = v := shown_of_value v1
          have hc : lastShown (st.layers.set s.2 a') c = v := by
            rw [lastShown_set_ne (by rw [eq]; exact Ne.symm c2)]
            exact hv
          have ha : a = .loss f l := by
            have := rd_eq_ok a1
            rw [eq, l1] at this
            cases this
            rfl
          subst ha
          have hvl : v.length = N := by rw [v2, eq]; exact hN
          have hu := usable_of_canScore (tol := tol) hct
          obtain ⟨l', e'', e1, e2, e3, e4, e5⟩ := Loss.tracks_forward (lossForward_behaves_of f hct.2.1 tol)
            (l := { l with lastInput := v }) (s := (t, log ++ ps.map fun a => (t, lastShown st.layers a))) l2 l3
            (.inl hct.1) ⟨l4.1, l4.2⟩ hvl
          rw [Nn.logStep_usable hu] at e5
          have hL : a' = .loss f l' := by
            have d3 : (f.forward { l with lastInput := v } v >>= fun r =>
              (.ok (AnyLayer.loss f r.1, r.2) : Exec _)) = .ok (a', none) := a2
            rw [e1] at d3
            cases d3
            rfl
          subst hL
          have hlt : q < st.layers.length := (List.getElem?_eq_some_iff.mp l1).1
          refine ⟨l', by rw [eq]; exact List.getElem?_set_self hlt, e2, e3, ?_⟩
          rw [List.map_append, List.map_congr_left (g := fun a => (t, lastShown st.layers a))
            (fun b hb => by rw [hshown b hb])]
          simp only [List.map_cons, List.map_nil, hc]
          rw [← List.append_assoc]
          exact e5
      · refine ⟨ps, ?_, fun b hb => ⟨(hps b hb).1, fun r hr => (hps b hb).2 r (by simp [hr])⟩, l, ?_, l2, l3, ?_⟩
        · obtain ⟨src, j⟩ := s
          cases src with
          | external => rfl
          | output i =>
            dsimp only at eq
            simp [feeders, eq]
        · rw [List.getElem?_set_ne eq]
          exact l1
        · rw [List.map_congr_left (g := fun a => (t, lastShown st.layers a)) (fun b hb => by rw [hshown b hb])]
          exact l4
    obtain ⟨st2, h3, h4, h5⟩ := trains_seen hx ht hN hct ss _ ps' _ h2 ho.2.2 hse.2 q2 q3
    rw [q1] at h5
    refine ⟨st2, ?_, ?_, h5⟩
    · unfold each
      rw [h1, Exec.bind_ok]
      exact h3
    · have hvis : (fun j => vis j ∨ ∃ r ∈ s :: ss, j = r.2) = (fun j => (vis j ∨ j = s.2) ∨ ∃ r ∈ ss, j = r.2) := by
        funext j
        simp [or_assoc]
      rw [hvis]
      exact h4

/-! ### Layers that are called once -/

variable {net : Net} {n : Nat}

theorem count_le_one_of {β : Type} [DecidableEq β] {r : List (β × β)} (hn : r.Nodup) {p : β}
    (h : ∀ x y, (x, p) ∈ r → (y, p) ∈ r → x = y) : (r.map Prod.snd).count p ≤ 1 := by
  induction r with
  | nil => simp
  | cons a r ih =>
    obtain ⟨h1, h2⟩ := List.nodup_cons.mp hn
    have ih := ih h2 fun x y hx hy => h x y (by simp [hx]) (by simp [hy])
    rw [List.map_cons, List.count_cons]
    by_cases e : a.2 = p
    · have h0 : (r.map Prod.snd).count p = 0 := by
        rw [List.count_eq_zero]
        intro hm
        obtain ⟨⟨u, w⟩, hb, hw⟩ := List.mem_map.mp hm
        obtain ⟨x, y⟩ := a
        dsimp only at e hw
        subst e
        subst hw
        have := h x u (by simp) (by simp [hb])
        subst this
        exact h1 hb
      rw [h0]
      simp [e]
    · simp [e]
      exact ih

theorem Shaped.count_target (hs : Shaped net n) (hin : ∀ i ∈ net.graph.inputs, ∀ x, ¬ trainArc net.graph x i) {p : Nat}
    (h : ∀ x y, trainArc net.graph x p → trainArc net.graph y p → x = y) :
    ((trainingSources net.graph).map Prod.snd).count p ≤ 1 := by
  obtain ⟨r, hr, hnd, hmem⟩ := run_spec (nodup_of_sorted hs.ok.inputsSorted) (successors_nodup hs.ok.training)
    (keys_of net.graph.training)
  have e1 : trainingArcs net.graph = r := by
    show (runLoop _ _ _ _ _).getD [] = r
    rw [hr (net.graph.training.length + 2) (by simp)]
    rfl
  have hsrc : (trainingSources net.graph).map Prod.snd = net.graph.inputs ++ r.map Prod.snd := by
    unfold trainingSources
    rw [e1]
    simp [Function.comp_def]
  rw [hsrc, List.count_append]
  have h1 : net.graph.inputs.count p ≤ 1 := List.nodup_iff_count_le_one.mp (nodup_of_sorted hs.ok.inputsSorted) p
  have h2 := count_le_one_of hnd (p := p) fun x y hx hy => h x y ((hmem x p).mp hx).2 ((hmem y p).mp hy).2
  by_cases hp : p ∈ net.graph.inputs
  · have : (r.map Prod.snd).count p = 0 := by
      rw [List.count_eq_zero]
      intro hm
      obtain ⟨⟨u, w⟩, hb, hw⟩ := List.mem_map.mp hm
      dsimp only at hw
      subst hw
      exact hin _ hp u ((hmem u w).mp hb).2
    omega
  · rw [List.count_eq_zero.mpr hp]
    omega

theorem settled_of {P : Layout} {k q : Nat} (hq : P.loss q ≠ none) : ∀ (ss pre : List (Source × Nat)) (vis : Nat → Prop),
    (∀ j, vis j → ∃ s ∈ pre, s.2 = j) → P.Ordered k vis ss →
    (∀ s ∈ ss, s.2 = q → ∃ p, s.1 = .output p ∧ ((pre ++ ss).map Prod.snd).count p ≤ 1) → Settled q ss
  | [], _, _, _, _, _ => trivial
  | s :: ss, pre, vis, hv, ho, hc => by
    refine ⟨fun e => ?_, ?_⟩
    · obtain ⟨p, h1, h2⟩ := hc s (by simp) e
      have hf := ho.2.1
      rw [h1] at hf
      obtain ⟨f1, f2, _⟩ := hf
      refine ⟨p, h1, fun e' => hq (e' ▸ f2), ?_⟩
      intro r hr er
      obtain ⟨s', k1, k2⟩ := hv p f1
      rw [List.map_append, List.count_append, List.map_cons] at h2
      have c1 : 0 < (pre.map Prod.snd).count p := List.count_pos_iff.mpr (List.mem_map.mpr ⟨s', k1, k2⟩)
      have c2 : 0 < (s.2 :: ss.map Prod.snd).count p :=
        List.count_pos_iff.mpr (List.mem_cons_of_mem _ (List.mem_map.mpr ⟨r, hr, er⟩))
      omega
    · refine settled_of hq ss (pre ++ [s]) _ ?_ ho.2.2 ?_
      · intro j hj
        rcases hj with hj | rfl
        · obtain ⟨s', k1, k2⟩ := hv j hj
          exact ⟨s', by simp [k1], k2⟩
        · exact ⟨s, by simp, rfl⟩
      · intro r hr er
        obtain ⟨p, h1, h2⟩ := hc r (by simp [hr]) er
        exact ⟨p, h1, by simpa using h2⟩

/-- Which layers feed a loss layer. -/
theorem Shaped.feeders_spec (hs : Shaped net n) {q : Nat} (hq : q ∈ net.graph.loss) :
    (feeders q (trainingSources net.graph)).Nodup ∧
    ∀ p, p ∈ feeders q (trainingSources net.graph) ↔ trainArc net.graph p q := by
  obtain ⟨r, hr, hnd, hmem⟩ := run_spec (nodup_of_sorted hs.ok.inputsSorted) (successors_nodup hs.ok.training)
    (keys_of net.graph.training)
  have e1 : trainingArcs net.graph = r := by
    show (runLoop _ _ _ _ _).getD [] = r
    rw [hr (net.graph.training.length + 2) (by simp)]
    rfl
  have hf : feeders q (trainingSources net.graph) = feeders q (r.map fun a => (Source.output a.1, a.2)) := by
    unfold trainingSources
    rw [e1]
    induction net.graph.inputs with
    | nil => rfl
    | cons i is ih => exact ih
  have hm : ∀ (r : List (Nat × Nat)) p, p ∈ feeders q (r.map fun a => (Source.output a.1, a.2)) ↔ (p, q) ∈ r := by
    intro r p
    induction r with
    | nil => simp [feeders]
    | cons a r ih =>
      obtain ⟨u, w⟩ := a
      rw [List.map_cons]
      unfold feeders
      dsimp only
      by_cases e : w = q
      · subst e
        rw [if_pos rfl, List.mem_cons, ih, List.mem_cons]
        simp
      · rw [if_neg e, ih, List.mem_cons]
        simp [Ne.symm e]
  have hn : ∀ (r : List (Nat × Nat)), r.Nodup → (feeders q (r.map fun a => (Source.output a.1, a.2))).Nodup := by
    intro r
    induction r with
    | nil => intro _; simp [feeders]
    | cons a r ih =>
      intro h
      obtain ⟨h1, h2⟩ := List.nodup_cons.mp h
      obtain ⟨u, w⟩ := a
      rw [List.map_cons]
      unfold feeders
      dsimp only
      by_cases e : w = q
      · subst e
        rw [if_pos rfl, List.nodup_cons]
        exact ⟨fun hu => h1 ((hm r u).mp hu), ih h2⟩
      · rw [if_neg e]
        exact ih h2
  rw [hf]
  refine ⟨hn r hnd, fun p => ?_⟩
  rw [hm, hmem]
  refine ⟨fun h => h.2, fun h => ⟨?_, h⟩⟩
  obtain ⟨a, h1, _⟩ := hs.joined.source p q h
  exact hs.reached p (List.getElem?_eq_some_iff.mp h1).1

/-- A step, and what the loss layer at `q` counts. -/
theorem KeptAs.step_seen {m : Net} (hs : Shaped net n) (h : KeptAs net n m)
    (hin : ∀ i ∈ net.graph.inputs, ∀ x, ¬ trainArc net.graph x i)
    {x t : List ℝ} (hx : Suitable net n (.step x t)) {q : Nat} (hq : q ∈ net.graph.loss)
    (h1 : ∀ p, trainArc net.graph p q → ∀ x y, trainArc net.graph x p → trainArc net.graph y p → x = y)
    {f : LossFn} {l0 L : Loss.Layer} (hq0 : net.layers[q]? = some (.loss f l0))
    (hL : m.layers[q]? = some (.loss f L)) (hLs : L.inputSize = l0.inputSize) (hLt : L.tolerance = l0.tolerance)
    {log : List (List ℝ × List ℝ)} {t0 : List ℝ}
    (htr : Loss.Tracks (scoringOf f l0.inputSize l0.tolerance) L (t0, log)) :
    ∃ m' L' t', m.step x t = .ok (m', none) ∧ m'.layers[q]? = some (.loss f L') ∧ L'.inputSize = l0.inputSize ∧
      L'.tolerance = l0.tolerance ∧ Loss.Tracks (scoringOf f l0.inputSize l0.tolerance) L'
        (t', log ++ (feeders q (trainingSources net.graph)).map fun p => (t, lastShown m'.layers p)) := by
  obtain ⟨hx1, hx2⟩ := suits_scores hx
  have hct : CanScore f l0.inputSize t := hx.2 f l0 (List.mem_of_getElem? hq0)
  have hp : (layoutOf net n).Steppable m.layers.length m.graph := by rw [h.length, h.graph]; exact hs.steppable
  have hqm : q ∈ m.graph.loss := by rw [h.graph]; exact hq
  have hlq : (layoutOf net n).loss q ≠ none := (hp.loss q).mpr hqm
  have hN : ((layoutOf net n).sizes q).1 = l0.inputSize := by rw [layoutOf_sizes hq0]; rfl
  obtain ⟨ls, e1, k1, k2, k3⟩ := Layout.targets_total (p := layoutOf net n) (t := t) m.graph.loss m.layers h.holds rfl
    (fun i hi => by
      refine ⟨?_, (hp.loss i).mpr hi⟩
      obtain ⟨s, hs, rfl⟩ := hp.reached i hi
      exact hp.ordered.bound s hs) (fun i f l h h' => (h' ((hp.loss i).mp h)).elim)
  have r1 : (layoutOf net n).Running (fun _ => False) t m.layers.length ⟨ls, List.replicate ls.length none⟩ :=
    ⟨k1, fun j a hj => hj.elim, k2, by simp [k2], k3, fun j hj => hj.elim⟩
  obtain ⟨L0, t1, t2⟩ : TallyAt q f (tally L) ls :=
    each_inv_mem (TallyAt q f (tally L)) _ _ _ _ (fun b _ s s' e hs h => targetAt_tally h hs) ⟨L, hL, rfl⟩ e1
  have t3 := k3 q f L0 hlq t1
  have htr0 := tracks_of_tally t2 htr
  rw [t3] at htr0
  have t2' := t2
  simp only [tally, Prod.mk.injEq] at t2'
  obtain ⟨_, _, _, p4, p5⟩ := t2'
  have hcount : ∀ s ∈ trainingSources m.graph, s.2 = q → ∃ p, s.1 = .output p ∧
      ((([] : List (Source × Nat)) ++ trainingSources m.graph).map Prod.snd).count p ≤ 1 := by
    intro s hs' e
    rw [h.graph] at hs' ⊢
    obtain ⟨src, j⟩ := s
    dsimp only at e
    subst e
    unfold trainingSources at hs'
    rcases List.mem_append.mp hs' with h' | h'
    · obtain ⟨i, hi, e⟩ := List.mem_map.mp h'
      cases e
      exact (hs.inside _ hi hq).elim
    · obtain ⟨⟨u, w⟩, ha, e⟩ := List.mem_map.mp h'
      cases e
      obtain ⟨_, hr⟩ := run_chained hs.ok.training (nodup_of_sorted hs.ok.inputsSorted)
      exact ⟨u, rfl, hs.count_target hin (h1 u ((hr u w).mp ha).2)⟩
  have hset := settled_of (P := layoutOf net n) (k := m.layers.length) hlq (trainingSources m.graph) []
    (fun _ => False) (fun j hj => hj.elim) hp.ordered hcount
  obtain ⟨st3, e2, r4, L1, u1, u2, u3, u4⟩ := trains_seen (p := layoutOf net n) (k := m.layers.length) (q := q)
    (f := f) (N := l0.inputSize) (tol := l0.tolerance) hx1 hx2 hN hct (log := log) (trainingSources m.graph)
    (fun _ => False) [] ⟨ls, List.replicate ls.length none⟩ r1 hp.ordered hset (by simp)
    ⟨L0, t1, p5.trans hLs, p4.trans hLt, by simpa using htr0⟩
  have hvis : ∀ j, (∃ s ∈ trainingSources m.graph, j = s.2) → (False ∨ ∃ s ∈ trainingSources m.graph, j = s.2) :=
    fun j h => .inr h
  obtain ⟨st4, e6, r5⟩ := (layoutOf net n).losses_total hx1 hx2 m.graph.loss st3 r4
    (fun i hi => ⟨hvis i (hp.reached i hi), (hp.loss i).mpr hi⟩)
  obtain ⟨st5, e7, r6⟩ := (layoutOf net n).backArcs_total hx1 hx2 (backwardArcs m.graph) st4 r5
    (fun a ha => ⟨hvis _ (hp.backward a ha).1, hvis _ (hp.backward a ha).2.1, (hp.backward a ha).2.2⟩)
  have u5 : TallyAt q f (tally L1) st4.layers :=
    each_inv_mem (fun s : Steps => TallyAt q f (tally L1) s.layers) _ _ _ _
      (fun b _ s s' e hs h => backwardAt_tally h hs) ⟨L1, u1, rfl⟩ e6
  obtain ⟨L', u6, u7⟩ : TallyAt q f (tally L1) st5.layers :=
    each_inv_mem (fun s : Steps => TallyAt q f (tally L1) s.layers) _ _ _ _
      (fun b _ s s' e hs h => by
        obtain ⟨l, _, h⟩ := Exec.bind_eq_ok h
        exact backwardAt_tally h hs) u5 e7
  have w1 : ∀ j, lastShown st4.layers j = lastShown st3.layers j :=
    each_inv_mem (fun s : Steps => ∀ j, lastShown s.layers j = lastShown st3.layers j) _ _ _ _
      (fun b _ s s' e hs h j => (backwardAt_lastShown h j).trans (hs j)) (fun _ => rfl) e6
  have w2 : ∀ j, lastShown st5.layers j = lastShown st3.layers j :=
    each_inv_mem (fun s : Steps => ∀ j, lastShown s.layers j = lastShown st3.layers j) _ _ _ _
      (fun b _ s s' e hs h j => by
        obtain ⟨l, _, h⟩ := Exec.bind_eq_ok h
        exact (backwardAt_lastShown h j).trans (hs j)) w1 e7
  have u7' := u7
  simp only [tally, Prod.mk.injEq] at u7'
  obtain ⟨_, _, _, q4, q5⟩ := u7'
  refine ⟨⟨m.graph, st5.layers⟩, L', L'.target, ?_, u6, q5.trans u2, q4.trans u3, ?_⟩
  · unfold Net.step
    unfold trainingSources at e2
    rw [e1, next_ok, e2, next_ok, e6, next_ok, e7]
    rfl
  · have := tracks_of_tally u7 u4
    rw [h.graph] at this
    simpa [w2] using this

/-- The loss layer at `q` has counted the steps since the last reset. -/
theorem observed (hs : Shaped net n) (hk : KeptAs net n net)
    (hin : ∀ i ∈ net.graph.inputs, ∀ x, ¬ trainArc net.graph x i) {q : Nat}
    (hq : q ∈ net.graph.loss)
    (h1 : ∀ p, trainArc net.graph p q → ∀ x y, trainArc net.graph x p → trainArc net.graph y p → x = y)
    {f : LossFn} {l0 : Loss.Layer} (hq0 : net.layers[q]? = some (.loss f l0)) {P : Nat → List Nat}
    (hP : P q = feeders q (trainingSources net.graph)) {m : Net} {L : Nat → List (List ℝ × List ℝ)}
    (h : Observed net n P m L) :
    KeptAs net n m ∧ ∃ l t, m.layers[q]? = some (.loss f l) ∧
      l.tolerance = l0.tolerance ∧ l.inputSize = l0.inputSize ∧
      Loss.Tracks (scoringOf f l0.inputSize l0.tolerance) l (t, L q) := by
  have reset : ∀ {m : Net}, KeptAs net n m →
      (∃ l, m.layers[q]? = some (.loss f l) ∧ l.tolerance = l0.tolerance ∧ l.inputSize = l0.inputSize) →
      KeptAs net n m.resetScore ∧ ∃ l t,
        m.resetScore.layers[q]? = some (.loss f l) ∧ l.tolerance = l0.tolerance ∧ l.inputSize = l0.inputSize ∧
        Loss.Tracks (scoringOf f l0.inputSize l0.tolerance) l (t, []) := by
    rintro m h1 ⟨l, h3, h4, h5⟩
    refine ⟨h1.resetScore, l.resetScore, l.target, ?_, h4, h5, rfl, rfl, rfl, rfl⟩
    show (m.layers.mapIdx _)[q]? = _
    rw [List.getElem?_mapIdx, h3, Option.map_some, h1.graph]
    simp [hq]
  induction h with
  | new => exact reset hk ⟨l0, hq0, rfl, rfl⟩
  | @step m m' L e x t _ hx hst ih =>
    obtain ⟨k1, l, t0, b1, b2, b3, b4⟩ := ih
    obtain ⟨m1, L', t', c1, c2, c3, c4, c5⟩ := k1.step_seen hs hin hx hq h1 hq0 b1 b3 b2 b4
    obtain ⟨m2, d1, d2⟩ := k1.step hs hx
    have hm : m2 = m1 := by rw [c1] at d1; cases d1; rfl
    subst hm
    rw [c1] at hst
    cases hst
    exact ⟨d2, L', t', c2, c4, c3, by dsimp only; rw [hP]; exact c5⟩
  | @train m L σ opt s _ ih =>
    obtain ⟨k1, l, t0, b1, b2, b3, b4⟩ := ih
    obtain ⟨s', m', d1, d2⟩ := k1.train opt s
    rw [d1]
    have hm : (m.train opt s).1.2 = m' := by rw [d1]
    refine ⟨d2, l, t0, ?_, b2, b3, b4⟩
    obtain ⟨b, hb, hE⟩ := trainLayers_at opt m.layers s q _ b1
    show m'.layers[q]? = _
    rw [← hm]
    rcases hE with rfl | ⟨s', rfl⟩
    · exact hb
    · exact hb
  | @predict m m' L r x _ hx hp ih =>
    obtain ⟨k1, l, t0, b1, b2, b3, b4⟩ := ih
    obtain ⟨m2, y, d1, d2⟩ := k1.predict hs hx
    have hm : m2 = m' := by rw [d1] at hp; cases hp; rfl
    subst hm
    refine ⟨d2, l, t0, ?_, b2, b3, b4⟩
    obtain ⟨_, hr⟩ := run_chained hs.ok.forward (nodup_of_sorted hs.ok.inputsSorted)
    rw [predict_other hp (i := q)]
    · exact b1
    · rw [k1.graph]
      exact fun h => hs.inside q h hq
    · rw [k1.graph]
      rintro ⟨u, v⟩ ha e
      have e : v = q := e
      subst e
      exact (hs.fwd.mp ((hr u v).mp ha).2).2 hq
  | @reset m L _ ih =>
    obtain ⟨k1, l, t0, b1, b2, b3, b4⟩ := ih
    exact reset k1 ⟨l, b1, b2, b3⟩

end

end Verif.Net
