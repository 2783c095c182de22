import Verif.Proofs.StarStep

/-! Training steps of a model whose input layer feeds several branches: the gradients. -/

namespace Verif.Net
open Verif.Spec Verif.Graph Finset

noncomputable section

/-! ### Layers along a path -/

theorem along_of {ls : List AnyLayer} {p : List Nat} {ks : List AnyLayer}
    (h : p.map (fun i => ls[i]?) = ks.map some) : along ls p = ks := by
  unfold along
  have : p.filterMap (fun i => ls[i]?) = (p.map fun i => ls[i]?).filterMap id := by
    rw [List.filterMap_map]; rfl
  rw [this, h]
  simp

theorem along_map {ls : List AnyLayer} {p : List Nat} (h : ∀ i ∈ p, ∃ l, ls[i]? = some l) :
    p.map (fun i => ls[i]?) = (along ls p).map some := by
  obtain ⟨ks, hk⟩ := layers_at p h
  rw [along_of hk]
  exact hk

theorem along_congr {ls ls' : List AnyLayer} {p : List Nat} (h : ∀ i ∈ p, ls'[i]? = ls[i]?) :
    along ls' p = along ls p := by
  unfold along
  exact List.filterMap_congr h

theorem along_set_ne {ls : List AnyLayer} {p : List Nat} {i : Nat} {l : AnyLayer} (h : i ∉ p) :
    along (ls.set i l) p = along ls p :=
  along_congr fun j hj => List.getElem?_set_ne (by rintro rfl; exact h hj)

theorem along_set {ls : List AnyLayer} : ∀ {p : List Nat} {j i : Nat} {l : AnyLayer}, p.Nodup →
    (∀ i ∈ p, ∃ l, ls[i]? = some l) → p[j]? = some i →
    along (ls.set i l) p = (along ls p).set j l := by
  intro p
  induction p with
  | nil => intro j i l _ _ h; simp at h
  | cons c p ih =>
    intro j i l hn he h
    obtain ⟨n1, n2⟩ := List.nodup_cons.mp hn
    obtain ⟨lc, hlc⟩ := he c (by simp)
    cases j with
    | zero =>
      simp only [List.getElem?_cons_zero, Option.some.injEq] at h
      subst h
      have e := along_set_ne (ls := ls) (l := l) n1
      have hlt := (List.getElem?_eq_some_iff.mp hlc).1
      unfold along at e ⊢
      rw [List.filterMap_cons_some (b := l) (by simp [hlt]), List.filterMap_cons_some hlc, e]
      rfl
    | succ j =>
      simp only [List.getElem?_cons_succ] at h
      have e := ih (l := l) n2 (fun i hi => he i (by simp [hi])) h
      have hne : i ≠ c := by
        rintro rfl; exact n1 (List.mem_of_getElem? h)
      unfold along at e ⊢
      rw [List.filterMap_cons_some (b := lc) (by rw [List.getElem?_set_ne hne]; exact hlc),
        List.filterMap_cons_some hlc, e]
      rfl

theorem along_cons {ls : List AnyLayer} {i : Nat} {p : List Nat} {l : AnyLayer} (h : ls[i]? = some l) :
    along ls (i :: p) = l :: along ls p := by
  unfold along; rw [List.filterMap_cons_some h]

theorem along_core {ls ls' : List AnyLayer} : ∀ {p : List Nat},
    (∀ i ∈ p, (ls'[i]?).map core = (ls[i]?).map core) →
    (along ls' p).map core = (along ls p).map core := by
  intro p
  induction p with
  | nil => intro _; rfl
  | cons c p ih =>
    intro h
    have hc := h c (by simp)
    have e := ih fun i hi => h i (by simp [hi])
    unfold along at e ⊢
    cases h1 : ls[c]? with
    | none =>
      cases h2 : ls'[c]? with
      | none => rw [List.filterMap_cons_none h1, List.filterMap_cons_none h2]; exact e
      | some l => rw [h1, h2] at hc; simp at hc
    | some l =>
      cases h2 : ls'[c]? with
      | none => rw [h1, h2] at hc; simp at hc
      | some l' =>
        rw [h1, h2] at hc
        simp only [Option.map_some, Option.some.injEq] at hc
        rw [List.filterMap_cons_some h1, List.filterMap_cons_some h2, List.map_cons, List.map_cons, e, hc]

/-! ### The branches at work -/

/-- A branch and its work on a sample. -/
structure WingOf (ls : List AnyLayer) (m : Nat) (t : List ℝ) (e0 : Stage) (b : Branch) (w : Wing) :
    Prop where
  idx : w.es.map Stage.idx = b.path
  layer : w.es.map Stage.layer = along ls b.path
  q : w.q = b.loss
  f : w.f = b.f
  inv : w.inv = b.inv
  ok : WingOk m t e0 w
  maps : ∀ e ∈ w.es, Maps e.nin e.nout e.layer
  smooth : LossSmooth b.f m t w.y
  stepGrad : ∀ (j : Nat) (e : Stage), w.es[j]? = some e → ∀ c k, Learned e.layer c →
    c < e.layer.params.length → k < (e.layer.params.getD c []).length →
    StepGrad (w.es.map Stage.layer) j c k e.layer m e0.output w.y
      (tab m (lossGrad w.f w.inv (vec t) (vec w.y))) (w.gp j c k)
  rootGrad : ∀ c k, Learned e0.layer c → c < e0.layer.params.length →
    k < (e0.layer.params.getD c []).length →
    StepGrad (e0.layer :: w.es.map Stage.layer) 0 c k e0.layer m e0.input w.y
      (tab m (lossGrad w.f w.inv (vec t) (vec w.y))) (w.gp0 c k)

theorem wingOf_exists {ls : List AnyLayer} {a : Nat} {b : Branch} {e0 : Stage} {m : Nat} {t : List ℝ}
    (ha : Adjoint e0.nin e0.nout e0.layer e0.input e0.output)
    (hl0 : ls[a]? = some e0.layer) (hex : ∀ i ∈ b.path, ∃ l, ls[i]? = some l)
    (ht : Trainable e0.nout m (along ls b.path))
    (hg : GoodSample (along ls (a :: b.path)) b.f e0.nin m e0.input t) :
    ∃ w, WingOf ls m t e0 b w := by
  obtain ⟨⟨h1, h3, h4⟩, h2⟩ := hg
  rw [along_cons hl0] at h2 h4
  obtain ⟨l', e1, e2⟩ := ha.1 e0.layer rfl
  have hlen : b.path.length = (along ls b.path).length := by
    simpa using congrArg List.length (along_map hex)
  obtain ⟨es, y, p1, p2, p3, p4⟩ := stages_of ht b.path hlen ha.2.1
  obtain ⟨gin, gp, g1, g2, g3, g4⟩ := chain_grads p3 (tab m (lossGrad b.f b.inv (vec t) (vec y))) (by simp)
  obtain ⟨gi, gp0, a1, a2, _, a4⟩ := ha.2.2 (gin 0) g2
  have hy : prediction (e0.layer :: along ls b.path) e0.input = y := by
    rw [← p2]
    exact prediction_of (.cons ha.1 (chain_yields p3))
  rw [hy] at h4
  have habove : ∀ k, SmoothFrom (k + 1) (e0.layer :: along ls b.path) e0.input →
      ∀ e ∈ es.drop k, SmoothAt e.input e.layer := by
    intro k hk
    refine chain_smoothFrom p3 k ?_
    rw [p2]
    unfold SmoothFrom at hk ⊢
    simpa only [List.drop_succ_cons, List.take_succ_cons, prediction, e1, e2] using hk
  refine ⟨⟨es, b.loss, b.f, b.inv, y, gin, gp, gp0⟩, p1, p2, rfl, rfl, rfl,
    ⟨p3, g1, fun j e he => (g4 j e he).1, ⟨gi, a2⟩, h3⟩, p4, h4, fun j e he c k i1 i2 i3 => ?_,
    fun c k i1 i2 i3 => ?_⟩
  · refine (g4 j e he).2 c k i1 i2 i3 (habove (j + 1) (h2 (j + 1) e.layer ?_ ?_))
    · rw [List.getElem?_cons_succ, ← p2, List.getElem?_map, he]
      rfl
    · intro h0
      rw [h0] at i2
      simp at i2
  · refine root_grads a4 (g3 ?_) c k i1 i2 i3
    exact habove 0 (h2 0 e0.layer rfl (by
      intro h0
      rw [h0] at i2
      simp at i2))

theorem wings_exist {ls : List AnyLayer} {a : Nat} {e0 : Stage} {m : Nat} {t : List ℝ}
    (ha : Adjoint e0.nin e0.nout e0.layer e0.input e0.output) (hl0 : ls[a]? = some e0.layer) :
    ∀ (bs : List Branch), (∀ b ∈ bs, ∀ i ∈ b.path, ∃ l, ls[i]? = some l) →
    (∀ b ∈ bs, Trainable e0.nout m (along ls b.path)) →
    (∀ b ∈ bs, GoodSample (along ls (a :: b.path)) b.f e0.nin m e0.input t) →
    ∃ ws, List.Forall₂ (WingOf ls m t e0) bs ws := by
  intro bs
  induction bs with
  | nil => intro _ _ _; exact ⟨[], .nil⟩
  | cons b bs ih =>
    intro h1 h2 h3
    obtain ⟨w, hw⟩ := wingOf_exists ha hl0 (h1 b (by simp)) (h2 b (by simp)) (h3 b (by simp))
    obtain ⟨ws, hws⟩ := ih (fun b hb => h1 b (by simp [hb])) (fun b hb => h2 b (by simp [hb]))
      fun b hb => h3 b (by simp [hb])
    exact ⟨w :: ws, .cons hw hws⟩

theorem forall₂_left {α β : Type} {R : α → β → Prop} {as : List α} {bs : List β} (h : List.Forall₂ R as bs) :
    ∀ a ∈ as, ∃ b ∈ bs, R a b := by
  induction h with
  | nil => simp
  | cons h _ ih =>
    intro a ha
    rcases List.mem_cons.mp ha with rfl | ha
    · exact ⟨_, by simp, h⟩
    · obtain ⟨b, hb, h'⟩ := ih a ha
      exact ⟨b, by simp [hb], h'⟩

theorem forall₂_wings {α β γ : Type} {R : α → β → Prop} {as : List α} {bs : List β} {f : α → γ} {g : β → γ}
    (h : List.Forall₂ R as bs) (hfg : ∀ a b, R a b → f a = g b) : as.map f = bs.map g := by
  induction h with
  | nil => rfl
  | cons h _ ih => rw [List.map_cons, List.map_cons, hfg _ _ h, ih]

theorem sum_curve {α β : Type} {R : α → β → Prop} {as : List α} {bs : List β} {F : α → ℝ → ℝ} {D : β → ℝ}
    {v0 : ℝ} (h : List.Forall₂ R as bs)
    (hd : ∀ a ∈ as, ∀ b ∈ bs, R a b → HasDerivAt (F a) (D b) v0) :
    HasDerivAt (fun v => (as.map fun a => F a v).sum) (bs.map D).sum v0 := by
  induction h with
  | nil => simpa using hasDerivAt_const v0 (0 : ℝ)
  | @cons a b as bs h _ ih =>
    simp only [List.map_cons, List.sum_cons]
    exact (hd a (by simp) b (by simp) h).add
      (ih fun a ha b hb hr => hd a (by simp [ha]) b (by simp [hb]) hr)

open Classical in
theorem sum_single {ws : List Wing} {w : Wing} {v : ℝ} (hn : ws.Nodup) (hw : w ∈ ws) :
    (ws.map fun c => if c = w then v else 0).sum = v := by
  induction ws with
  | nil => simp at hw
  | cons c ws ih =>
    obtain ⟨n1, n2⟩ := List.nodup_cons.mp hn
    simp only [List.map_cons, List.sum_cons]
    rcases List.mem_cons.mp hw with rfl | hw
    · have : (ws.map fun c => if c = w then v else 0) = ws.map fun _ => 0 := by
        apply List.map_congr_left
        intro c hc
        rw [if_neg]
        rintro rfl
        exact n1 hc
      rw [this]
      simp
    · rw [ih n2 hw, if_neg (by rintro rfl; exact n1 hw)]
      ring

theorem stepGrad_objective {ls : List AnyLayer} {j c k : Nat} {l : AnyLayer} {m : Nat} {x y : List ℝ}
    {f : LossFn} {inv : ℝ} {t : List ℝ} {d : ℝ}
    (h : StepGrad ls j c k l m x y (tab m (lossGrad f inv (vec t) (vec y))) d)
    (hs : LossSmooth f m t y) :
    (∀ v, ∃ y, YieldsAll (ls.set j (withParam l c k v)) x y) ∧
    HasDerivAt (fun v => objective f m inv t (prediction (ls.set j (withParam l c k v)) x)) d
      (entry l.params c k) := by
  obtain ⟨Y, Y', y1, y2, y3, y4⟩ := h
  refine ⟨fun v => ⟨Y v, (y1 v).1⟩, ?_⟩
  have hd := objective_curve (f := f) (inv := inv) (t := t) y2 y3 hs
  rw [y4] at hd
  have hfun : (fun v => objective f m inv t (prediction (ls.set j (withParam l c k v)) x))
      = fun v => objective f m inv t (Y v) := by
    funext v
    rw [prediction_of (y1 v).1]
  rw [hfun]
  exact hd

theorem stepGrad_cons {ls : List AnyLayer} {j c k : Nat} {l l0 : AnyLayer} {m : Nat} {x z y g : List ℝ}
    {d : ℝ} (h0 : Yields l0 x z) (h : StepGrad ls j c k l m z y g d) :
    StepGrad (l0 :: ls) (j + 1) c k l m x y g d := by
  obtain ⟨Y, Y', y1, y2, y3, y4⟩ := h
  exact ⟨Y, Y', fun s => ⟨.cons h0 (y1 s).1, (y1 s).2⟩, y2, y3, y4⟩

/-! ### One step -/

/-- The layers with parameters that the branches use. -/
def Used (a : Nat) (bs : List Branch) (i : Nat) : Prop := i = a ∨ ∃ b ∈ bs, i ∈ b.path

theorem step_star {n : Net} {a : Nat} {bs : List Branch} {nin k m : Nat} {x t : List ℝ}
    (hok : Ok n.graph) (hr : IsRouted n.graph a bs) (hap : OnlyInputShared bs) (hne : bs ≠ [])
    (hready : RoutedReady n.layers a bs nin k m)
    (hx : ∀ b ∈ bs, GoodSample (along n.layers (a :: b.path)) b.f nin m x t) :
    ∃ n', n.step x t = .ok (n', none) ∧ n'.graph = n.graph ∧ RoutedReady n'.layers a bs nin k m ∧
      (∀ i, Used a bs i → (n'.layers[i]?).map core = (n.layers[i]?).map core) ∧
      (∀ i, ¬ Used a bs i → (∀ b ∈ bs, i ≠ b.loss) → n'.layers[i]? = n.layers[i]?) ∧
      ∀ i l, Used a bs i → n.layers[i]? = some l → ∃ l', n'.layers[i]? = some l' ∧
        ∀ c j, Learned l c → c < l.params.length → j < (l.params.getD c []).length →
          (∀ v, ∀ b ∈ bs, ∃ y, YieldsAll (along (n.layers.set i (withParam l c j v)) (a :: b.path)) x y) ∧
          HasDerivAt (fun v => (bs.map fun b => objective b.f m b.inv t
              (prediction (along (n.layers.set i (withParam l c j v)) (a :: b.path)) x)).sum)
            (entry l'.paramGrads c j - entry l.paramGrads c j) (entry l.params c j) := by
  obtain ⟨l0, q1, q2, q3⟩ := hready.root
  obtain ⟨b0, bs', rfl⟩ := List.exists_cons_of_ne_nil hne
  have hx0 := hx b0 (by simp)
  obtain ⟨z, hz⟩ := adjoint_of q2 hx0.size
  generalize hbs : b0 :: bs' = bs at *
  clear hx0 hne
  obtain ⟨ws, hws⟩ := wings_exist (ls := n.layers) (a := a) (e0 := ⟨a, l0, nin, k, x, z⟩) (m := m) (t := t)
    hz q1 bs hready.exist hready.sizes hx
  generalize he0 : (⟨a, l0, nin, k, x, z⟩ : Stage) = e0 at hws
  have hb_w := forall₂_left hws
  have hw_b := forall₂_left (R := fun w b => WingOf n.layers m t e0 b w) (List.Forall₂.flip hws)
  have hids : bs.map (fun b => b.path ++ [b.loss]) = ws.map Wing.ids :=
    forall₂_wings hws fun b w h => by unfold Wing.ids; rw [h.idx, h.q]
  have hway : ∀ b w, WingOf n.layers m t e0 b w → b.way a = a :: w.ids := by
    intro b w h; unfold Branch.way Wing.ids; rw [h.idx, h.q]
  have hsep : Separate a ws := by
    refine separate_of (fun w hw => ?_) (by rw [← hids]; exact hap)
    obtain ⟨b, hb, h⟩ := hw_b w hw
    rw [← hway b w h]
    exact hr.ways b hb
  have hloss : ∀ i, i ∈ n.graph.loss ↔ ∃ w ∈ ws, i = w.q := by
    intro i
    rw [hr.loss.mem_iff, forall₂_wings (g := Wing.q) hws fun b w h => h.q.symm]
    simp [eq_comm]
  have hlossN : n.graph.loss.Nodup := by
    rw [hr.loss.nodup_iff, forall₂_wings (g := Wing.q) hws fun b w h => h.q.symm]
    refine hsep.nodup.map_on ?_
    intro w hw w' hw' h
    rw [← w.node_end, ← w'.node_end] at h
    exact (hsep.inj w hw w' hw' _ _ (le_refl _) (le_refl _) h).1
  have hta : Arcs a ws (successors n.graph.training) := by
    intro u v
    rw [hr.training]
    constructor
    · rintro ⟨b, hb, h⟩
      obtain ⟨w, hw, hbw⟩ := hb_w b hb
      rw [hway b w hbw] at h
      exact ⟨w, hw, (w.mem_way a).mp h⟩
    · rintro ⟨w, hw, h⟩
      obtain ⟨b, hb, hbw⟩ := hw_b w hw
      exact ⟨b, hb, by rw [hway b w hbw]; exact (w.mem_way a).mpr h⟩
  have hba : BackArcs a ws (successors n.graph.backward) := by
    intro u v
    rw [hr.backward]
    constructor
    · rintro ⟨b, hb, h⟩
      obtain ⟨w, hw, hbw⟩ := hb_w b hb
      rw [hway b w hbw] at h
      exact ⟨w, hw, (w.mem_way a).mp h⟩
    · rintro ⟨w, hw, h⟩
      obtain ⟨b, hb, hbw⟩ := hw_b w hw
      exact ⟨b, hb, by rw [hway b w hbw]; exact (w.mem_way a).mpr h⟩
  have hat : ∀ b ∈ bs, ∀ w, WingOf n.layers m t e0 b w → ∀ e ∈ w.es, n.layers[e.idx]? = some e.layer :=
    fun b hb w h => getElem?_of_map (along_map (hready.exist b hb)) h.idx h.layer
  obtain ⟨st, r, s1, s2, s3⟩ := star_step (e0 := e0) (ws := ws) (m := m) (x := x) (t := t) hok
    (by subst he0; exact hsep)
    (fun w hw => by obtain ⟨b, _, h⟩ := hw_b w hw; exact h.ok) (by subst he0; exact hr.inputs) hlossN hloss
    (by subst he0; exact hta) (by subst he0; exact hba) (by subst he0; rfl) (by subst he0; exact q1)
    (by subst he0; exact q3) (by subst he0; exact hz.1)
    (fun w hw => by obtain ⟨b, hb, h⟩ := hw_b w hw; exact hat b hb w h)
    (fun w hw => by
      obtain ⟨b, hb, h⟩ := hw_b w hw
      rw [h.q, h.f, h.inv]
      exact hready.loss b hb)
  have hia : e0.idx = a := by subst he0; rfl
  have hil : e0.layer = l0 := by subst he0; rfl
  -- the layers of a branch after the step
  have hafter : ∀ b ∈ bs, ∀ w ∈ ws, WingOf n.layers m t e0 b w → ∀ (j : Nat) (e : Stage),
      w.es[j]? = some e → ∃ l, st.layers[e.idx]? = some l ∧ core l = core e.layer ∧
        HasGrads e.nin e.nout l := by
    intro b hb w hw _ j e he
    obtain ⟨l, h1, h2, h3, _⟩ := s3.stage w hw j e he
    exact ⟨l, h1, h2, h3⟩
  have hexist : ∀ b ∈ bs, ∀ i ∈ b.path, ∃ l, st.layers[i]? = some l := by
    intro b hb i hi
    obtain ⟨w, hw, h⟩ := hb_w b hb
    rw [← h.idx] at hi
    obtain ⟨e, he, rfl⟩ := List.mem_map.mp hi
    obtain ⟨j, hj⟩ := List.mem_iff_getElem?.mp he
    obtain ⟨l, h1, _⟩ := hafter b hb w hw h j e hj
    exact ⟨l, h1⟩
  refine ⟨{ n with layers := st.layers }, s1, rfl, ⟨?_, hexist, ?_, ?_⟩, ?_, ?_, ?_⟩
  · obtain ⟨l, h1, h2, h3, _⟩ := s3.root
    subst he0
    exact ⟨l, h1, maps_core h2 q2, h3⟩
  · intro b hb
    obtain ⟨w, hw, h⟩ := hb_w b hb
    have hm := along_map (hexist b hb)
    have hc := h.ok.chain
    have hk : e0.nout = k := by subst he0; rfl
    rw [hk] at hc
    refine trainable_of hc _ ?_ (fun j e he => ?_) h.maps
    · have := congrArg List.length hm
      simp only [List.length_map] at this
      rw [← this, ← h.idx]
      simp
    · obtain ⟨l, h1, h2, h3⟩ := hafter b hb w hw h j e he
      have e1 := congrArg (fun z => z[j]?) hm
      simp only [List.getElem?_map, ← h.idx, he, Option.map_some, h1] at e1
      cases hk' : (along st.layers (w.es.map Stage.idx))[j]? with
      | none => rw [hk'] at e1; cases e1
      | some l3 =>
        rw [hk'] at e1
        simp only [Option.map_some, Option.some.injEq] at e1
        rw [← h.idx]
        exact ⟨l3, hk', by rw [← e1]; exact h2, by rw [← e1]; exact h3⟩
  · intro b hb
    obtain ⟨w, hw, h⟩ := hb_w b hb
    obtain ⟨L, h1, h2, h3, h4⟩ := s3.loss w hw
    rw [← h.q, ← h.f, ← h.inv]
    exact ⟨L, h1, h2, by rw [h3, h.ok.grad]; simp, h4⟩
  · rintro i (rfl | ⟨b, hb, hi⟩)
    · obtain ⟨l, h1, h2, _⟩ := s3.root
      rw [hia] at h1
      rw [h1, q1, Option.map_some, Option.map_some, h2, hil]
    · obtain ⟨w, hw, h⟩ := hb_w b hb
      rw [← h.idx] at hi
      obtain ⟨e, he, rfl⟩ := List.mem_map.mp hi
      obtain ⟨j, hj⟩ := List.mem_iff_getElem?.mp he
      obtain ⟨l, h1, h2, _⟩ := hafter b hb w hw h j e hj
      rw [h1, hat b hb w h e he, Option.map_some, Option.map_some, h2]
  · intro i hu hl
    refine s3.other i (by rw [hia]; exact fun h => hu (Or.inl h)) ?_
    intro w hw j hj heq
    obtain ⟨b, hb, h⟩ := hw_b w hw
    by_cases hlt : j < w.es.length
    · rw [w.node_of (List.getElem?_eq_getElem hlt)] at heq
      exact hu (Or.inr ⟨b, hb, by rw [← h.idx, heq]; exact List.mem_map_of_mem (List.getElem_mem hlt)⟩)
    · rw [show j = w.es.length by omega, w.node_end, h.q] at heq
      exact hl b hb heq
  · rintro i l (rfl | ⟨b, hb, hi⟩) hl
    · rw [q1] at hl
      cases hl
      obtain ⟨l', h1, h2, h3, h4, h5⟩ := s3.root
      rw [hia] at h1
      refine ⟨l', h1, fun c j g1 g2 g3 => ?_⟩
      have h6 := h5 c j (by rw [hil]; exact g1) (by rw [hil]; exact g2) (by rw [hil]; exact g3)
      have hsum : (ws.map fun w => if (w.node 0, w.prev e0.idx 0) ∈ r then w.gp0 c j else 0)
          = ws.map fun w => w.gp0 c j :=
        List.map_congr_left fun w hw => if_pos (s2 w hw 0 (by omega))
      rw [hsum, hil] at h6
      have key : ∀ b ∈ bs, ∀ w, WingOf n.layers m t e0 b w →
          (∀ v, ∃ y, YieldsAll (along (n.layers.set i (withParam l0 c j v)) (i :: b.path)) x y) ∧
          HasDerivAt (fun v => objective b.f m b.inv t
            (prediction (along (n.layers.set i (withParam l0 c j v)) (i :: b.path)) x)) (w.gp0 c j)
            (entry l0.params c j) := by
        intro b hb w h
        have hg := h.rootGrad c j (by rw [hil]; exact g1) (by rw [hil]; exact g2) (by rw [hil]; exact g3)
        rw [h.layer, h.f, h.inv, hil, show e0.input = x by subst he0; rfl] at hg
        have hobj := stepGrad_objective hg h.smooth
        have hnd := hr.ways b hb
        have hal : ∀ v, along (n.layers.set i (withParam l0 c j v)) (i :: b.path)
            = (l0 :: along n.layers b.path).set 0 (withParam l0 c j v) := by
          intro v
          rw [← along_cons q1]
          refine along_set ?_ ?_ rfl
          · unfold Branch.way at hnd
            rw [← List.cons_append] at hnd
            exact (List.nodup_append.mp hnd).1
          · intro i' hi'
            rcases List.mem_cons.mp hi' with rfl | hi'
            · exact ⟨l0, q1⟩
            · exact hready.exist b hb i' hi'
        simp only [hal]
        exact hobj
      refine ⟨fun v b hb => ?_, ?_⟩
      · obtain ⟨w, _, h⟩ := hb_w b hb
        exact (key b hb w h).1 v
      · rw [h6, add_sub_cancel_left]
        exact sum_curve hws fun b hb w _ h => (key b hb w h).2
    · obtain ⟨w, hw, h⟩ := hb_w b hb
      have hi0 := hi
      rw [← h.idx] at hi
      obtain ⟨e, he, rfl⟩ := List.mem_map.mp hi
      obtain ⟨p, hj⟩ := List.mem_iff_getElem?.mp he
      rw [hat b hb w h e he] at hl
      cases hl
      obtain ⟨l', h1, h2, h3, h4, h5, h6⟩ := s3.stage w hw p e hj
      refine ⟨l', h1, fun c j g1 g2 g3 => ?_⟩
      have h7 := h6 c j g1 g2 g3
      rw [if_pos (s2 w hw (p + 1) (by have := Wing.lt_of hj; omega))] at h7
      have hea : e.idx ≠ a := by
        rw [← w.node_of hj]; exact hsep.root w hw p (Wing.lt_of hj).le
      have key : ∀ b1 ∈ bs, ∀ w1 ∈ ws, WingOf n.layers m t e0 b1 w1 →
          (∀ v, ∃ y, YieldsAll (along (n.layers.set e.idx (withParam e.layer c j v)) (a :: b1.path)) x y) ∧
          HasDerivAt (fun v => objective b1.f m b1.inv t
            (prediction (along (n.layers.set e.idx (withParam e.layer c j v)) (a :: b1.path)) x))
            (open Classical in if w1 = w then w.gp p c j else 0)
            (entry e.layer.params c j) := by
        intro b1 hb1 w1 hw1 hbw
        by_cases hsame : w1 = w
        · subst hsame
          rw [if_pos rfl]
          have hg := stepGrad_cons (l0 := l0) (x := x) (z := e0.output)
            (by subst he0; exact hz.1) (hbw.stepGrad p e hj c j g1 g2 g3)
          rw [hbw.layer, hbw.f, hbw.inv] at hg
          have hobj := stepGrad_objective hg hbw.smooth
          have hnd := hr.ways b1 hb1
          have hal : ∀ v, along (n.layers.set e.idx (withParam e.layer c j v)) (a :: b1.path)
              = (l0 :: along n.layers b1.path).set (p + 1) (withParam e.layer c j v) := by
            intro v
            rw [← along_cons q1]
            refine along_set ?_ ?_ ?_
            · unfold Branch.way at hnd
              rw [← List.cons_append] at hnd
              exact (List.nodup_append.mp hnd).1
            · intro i' hi'
              rcases List.mem_cons.mp hi' with rfl | hi'
              · exact ⟨l0, q1⟩
              · exact hready.exist b1 hb1 i' hi'
            · rw [List.getElem?_cons_succ, ← hbw.idx, List.getElem?_map, hj]
              rfl
          simp only [hal]
          exact hobj
        · rw [if_neg hsame]
          have hnot : e.idx ∉ a :: b1.path := by
            intro hm
            rcases List.mem_cons.mp hm with hm | hm
            · exact hea hm
            · rw [← hbw.idx] at hm
              obtain ⟨e1, he1, heq⟩ := List.mem_map.mp hm
              obtain ⟨p1, hp1⟩ := List.mem_iff_getElem?.mp he1
              rw [← w.node_of hj, ← w1.node_of hp1] at heq
              exact hsame (hsep.inj w1 hw1 w hw p1 p (Wing.lt_of hp1).le (Wing.lt_of hj).le heq).1
          have hal : ∀ v, along (n.layers.set e.idx (withParam e.layer c j v)) (a :: b1.path)
              = along n.layers (a :: b1.path) := fun v => along_set_ne hnot
          simp only [hal]
          refine ⟨fun _ => ⟨w1.y, ?_⟩, hasDerivAt_const _ _⟩
          rw [along_cons q1, ← hbw.layer]
          refine .cons (z := e0.output) (by subst he0; exact hz.1) (chain_yields hbw.ok.chain)
      refine ⟨fun v b1 hb1 => ?_, ?_⟩
      · obtain ⟨w1, hw1, hbw⟩ := hb_w b1 hb1
        exact (key b1 hb1 w1 hw1 hbw).1 v
      · rw [h7, add_sub_cancel_left]
        have := sum_curve (D := fun w1 => open Classical in if w1 = w then w.gp p c j else 0) hws
          fun b1 hb1 w1 hw1 hbw => (key b1 hb1 w1 hw1 hbw).2
        rw [sum_single hsep.nodup hw] at this
        exact this

/-! ### Several samples -/

theorem used_core {a : Nat} {bs : List Branch} {ls ls' : List AnyLayer}
    (h : ∀ i, Used a bs i → (ls'[i]?).map core = (ls[i]?).map core) {b : Branch} (hb : b ∈ bs) :
    ∀ i ∈ a :: b.path, (ls'[i]?).map core = (ls[i]?).map core := by
  intro i hi
  rcases List.mem_cons.mp hi with rfl | hi
  · exact h _ (Or.inl rfl)
  · exact h _ (Or.inr ⟨b, hb, hi⟩)

theorem steps_star {g : DLGraph} {a : Nat} {bs : List Branch} {nin k m : Nat} {ls0 : List AnyLayer}
    (hok : Ok g) (hr : IsRouted g a bs) (hap : OnlyInputShared bs) (hne : bs ≠ [])
    (h0 : RoutedReady ls0 a bs nin k m) :
    ∀ (samples : List (List ℝ × List ℝ)) (n : Net), n.graph = g → RoutedReady n.layers a bs nin k m →
    (∀ i, Used a bs i → (n.layers[i]?).map core = (ls0[i]?).map core) →
    (∀ s ∈ samples, ∀ b ∈ bs, GoodSample (along ls0 (a :: b.path)) b.f nin m s.1 s.2) →
    ∃ n', each (fun n s => n.step s.1 s.2) samples n = .ok (n', none) ∧ n'.graph = g ∧
      RoutedReady n'.layers a bs nin k m ∧
      (∀ i, Used a bs i → (n'.layers[i]?).map core = (ls0[i]?).map core) ∧
      (∀ i, ¬ Used a bs i → (∀ b ∈ bs, i ≠ b.loss) → n'.layers[i]? = n.layers[i]?) ∧
      ∀ i l l0, Used a bs i → n.layers[i]? = some l → ls0[i]? = some l0 → ∃ l', n'.layers[i]? = some l' ∧
        ∀ c j, Learned l0 c → c < l0.params.length → j < (l0.params.getD c []).length →
          HasDerivAt (fun v => totalCost m samples a bs (ls0.set i (withParam l0 c j v)))
            (entry l'.paramGrads c j - entry l.paramGrads c j) (entry l0.params c j) := by
  have htr : ∀ b ∈ bs, Trainable nin m (along ls0 (a :: b.path)) := by
    intro b hb
    obtain ⟨l, q1, q2, q3⟩ := h0.root
    rw [along_cons q1]
    exact .cons q2 q3 (h0.sizes b hb)
  intro samples
  induction samples with
  | nil =>
    intro n hg hready hc _
    refine ⟨n, rfl, hg, hready, hc, fun _ _ _ => rfl, ?_⟩
    intro i l l0 _ hl _
    refine ⟨l, hl, fun c j _ _ _ => ?_⟩
    rw [sub_self]
    have : (fun v => totalCost m [] a bs (ls0.set i (withParam l0 c j v))) = fun _ => (0 : ℝ) := by
      funext v
      unfold totalCost cost
      simp
    rw [this]
    exact hasDerivAt_const _ _
  | cons s samples ih =>
    intro n hg hready hc hs
    have hgood : ∀ b ∈ bs, GoodSample (along n.layers (a :: b.path)) b.f nin m s.1 s.2 := fun b hb =>
      goodSample_core (htr b hb) (along_core (used_core hc hb)) (hs s (by simp) b hb)
    obtain ⟨n1, a1, a2, a3, a4, a5, a6⟩ := step_star (by rw [hg]; exact hok) (by rw [hg]; exact hr) hap hne
      hready hgood
    obtain ⟨n2, b1, b2, b3, b4, b5, b6⟩ := ih n1 (a2.trans hg) a3
      (fun i hi => (a4 i hi).trans (hc i hi)) fun s' hs' => hs s' (by simp [hs'])
    refine ⟨n2, ?_, b2, b3, b4, fun i h1 h2 => (b5 i h1 h2).trans (a5 i h1 h2), ?_⟩
    · show (n.step s.1 s.2 >>= fun r => _) = _
      rw [a1, Exec.bind_ok]
      exact b1
    · intro i l l0 hu hl hl0
      obtain ⟨l1, c1, c2⟩ := a6 i l hu hl
      obtain ⟨l2, d1, d2⟩ := b6 i l1 l0 hu c1 hl0
      refine ⟨l2, d1, fun c j h1 h2 h3 => ?_⟩
      have hcore : core l = core l0 := by
        have := hc i hu
        rw [hl, hl0] at this
        simpa using this
      have hps := params_of_core hcore
      obtain ⟨e1, e2⟩ := c2 c j ((learned_of_core hcore c).mpr h1) (by rw [hps]; exact h2)
        (by rw [hps]; exact h3)
      have e3 := d2 c j h1 h2 h3
      have hfun : ∀ v, (bs.map fun b => objective b.f m b.inv s.2
            (prediction (along (n.layers.set i (withParam l c j v)) (a :: b.path)) s.1))
          = bs.map fun b => objective b.f m b.inv s.2
            (prediction (along (ls0.set i (withParam l0 c j v)) (a :: b.path)) s.1) := by
        intro v
        apply List.map_congr_left
        intro b hb
        obtain ⟨y, hy⟩ := e1 v b hb
        rw [prediction_core (ks' := along (ls0.set i (withParam l0 c j v)) (a :: b.path)) ?_ hy]
        refine along_core ?_
        intro i' hi'
        have h1 := used_core hc hb i' hi'
        by_cases hii : i = i'
        · subst hii
          have hlt := (List.getElem?_eq_some_iff.mp hl).1
          have hlt0 := (List.getElem?_eq_some_iff.mp hl0).1
          simp [hlt, hlt0, core_withParam hcore]
        · rw [List.getElem?_set_ne hii, List.getElem?_set_ne hii]
          exact h1.symm
      simp only [hfun] at e2
      rw [hps] at e2
      have hfin : (fun v => totalCost m (s :: samples) a bs (ls0.set i (withParam l0 c j v)))
          = fun v => (bs.map fun b => objective b.f m b.inv s.2
              (prediction (along (ls0.set i (withParam l0 c j v)) (a :: b.path)) s.1)).sum
            + totalCost m samples a bs (ls0.set i (withParam l0 c j v)) := by
        funext v
        unfold totalCost cost
        simp only [List.map_cons, List.sum_cons]
        rw [← List.sum_map_add]
      rw [hfin]
      exact (e2.add e3).congr_deriv (by ring)

end

end Verif.Net
