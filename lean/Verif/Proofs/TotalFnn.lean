import Verif.Proofs.TotalNet

/-! Fits of feedforward networks return. -/

namespace Verif.Net

open Verif.Spec Verif.Graph

noncomputable section

/-! ### What histories keep -/

theorem nnPredict_kept {P : Nat → AnyLayer → Prop} (hP : ∀ i, Stable (P i)) {n n' : Net} {d : Data.Dataset ℝ}
    {r : Except String (Data.Dataset ℝ)} (hl : AllAt P n.layers) (h : Nn.predict n d = .ok (n', r)) :
    AllAt P n'.layers := by
  unfold Nn.predict at h
  obtain ⟨os, _, h⟩ := Exec.bind_eq_ok h
  obtain ⟨⟨s, e⟩, h1, h⟩ := Exec.bind_eq_ok h
  have key : AllAt P s.1.layers := by
    refine each_inv (fun x : Net × List ℝ => AllAt P x.1.layers) ?_ _ _ _ _ hl h1
    intro x i x' e hx hi
    unfold Nn.predictRow at hi
    obtain ⟨v, _, hi⟩ := Exec.bind_eq_ok hi
    obtain ⟨⟨n1, y⟩, h2, hi⟩ := Exec.bind_eq_ok hi
    have h4 := predict_kept hP hx h2
    cases y with
    | error m => cases hi; exact h4
    | ok y =>
      obtain ⟨_, _, hi⟩ := Exec.bind_eq_ok hi
      cases hi
      exact h4
  cases e with
  | none => cases h; exact key
  | some m => cases h; exact key

theorem nnEvaluate_kept {P : Nat → AnyLayer → Prop} (hP : ∀ i, Stable (P i)) {lf : LossFn} {n n' : Net}
    {d : Data.Dataset ℝ} {r : Except String Nn.EvaluationResult} (hl : AllAt P n.layers)
    (h : Nn.evaluate lf n d = .ok (n', r)) : AllAt P n'.layers := by
  unfold Nn.evaluate at h
  obtain ⟨os, _, h⟩ := Exec.bind_eq_ok h
  obtain ⟨di, _, h⟩ := Exec.bind_eq_ok h
  obtain ⟨⟨n1, q⟩, h1, h⟩ := Exec.bind_eq_ok h
  have key := nnPredict_kept hP hl h1
  cases q with
  | error m => cases h; exact key
  | ok q =>
    obtain ⟨⟨l, e⟩, _, h⟩ := Exec.bind_eq_ok h
    cases e with
    | none => cases h; exact key
    | some m => cases h; exact key

theorem fit_kept {p : Plan} {τ : Type} {opt : τ → ℝ → ℝ → τ × ℝ} {d : Data.Dataset ℝ} {fuel epochs b : Nat}
    {s s' : τ × Net} (hl : AllAt p.Holds s.2.layers) (h : Training.fit opt d fuel epochs b s = some (.ok s')) :
    AllAt p.Holds s'.2.layers := by
  refine run_batch_inv (fun x : τ × Net => AllAt p.Holds x.2.layers) _ _ _ ?_ _ _ _ hl h
  rintro i x ⟨i', x'⟩ h1 e
  unfold Training.batch at e
  obtain ⟨x1, f1, e⟩ := Exec.bind_eq_ok e
  obtain ⟨⟨j, x2⟩, f2, e⟩ := Exec.bind_eq_ok e
  obtain ⟨x3, f3, e⟩ := Exec.bind_eq_ok e
  cases e
  cases f1
  have k1 : AllAt p.Holds x2.2.layers := by
    refine batchLoop_inv (fun x : τ × Net => AllAt p.Holds x.2.layers)
      ?_ _ _ _ _ _ (resetScore_kept p.kept h1) f2
    intro i x x' hx e
    obtain ⟨v, _, e⟩ := Exec.bind_eq_ok e
    obtain ⟨t, _, e⟩ := Exec.bind_eq_ok e
    obtain ⟨n', e1, e⟩ := Exec.bind_eq_ok e
    cases e
    obtain ⟨⟨n1, o⟩, e2, e1⟩ := Exec.bind_eq_ok e1
    cases o with
    | none => cases e1; exact step_kept p.kept hx e2
    | some m => cases e1
  obtain ⟨_, g1, g2⟩ := Exec.bind_eq_ok f3
  cases g2
  obtain ⟨s', n', e1, e2, _⟩ := train_total opt x2.1 k1
  show AllAt p.Holds (x2.2.train opt x2.1).1.2.layers
  rw [e1]
  exact e2

theorem nnTrain_kept {p : Plan} {o : Nn.OptimizerType} {rate : ℝ} {d : Data.Dataset ℝ} {fuel epochs b : Nat}
    {n n' : Net} (hl : AllAt p.Holds n.layers) (h : Nn.train o rate d fuel epochs b n = some (.ok n')) :
    AllAt p.Holds n'.layers := by
  cases o with
  | gradientDescent =>
    unfold Nn.train at h
    dsimp only at h
    rw [Option.map_eq_some_iff] at h
    obtain ⟨r, h1, h2⟩ := h
    obtain ⟨s, e1, e2⟩ := Exec.bind_eq_ok h2
    cases e2
    subst e1
    exact fit_kept (s := ((), n)) hl h1
  | adam =>
    unfold Nn.train at h
    dsimp only at h
    rw [Option.map_eq_some_iff] at h
    obtain ⟨r, h1, h2⟩ := h
    obtain ⟨s, e1, e2⟩ := Exec.bind_eq_ok h2
    cases e2
    subst e1
    exact fit_kept (s := (Opt.Adam.init, n)) hl h1

theorem init_kept {p : Plan} {rg : Init.Random} {how : Init.ModelInit} {pdf : Init.Pdf} {device seed : Nat} {n : Net}
    (hn : Init.Sound n) (hl : AllAt p.Holds n.layers) : ∃ ls', Init.init rg how pdf device seed n
      = .ok (⟨n.graph, ls'⟩, if seed = 0 then device else seed) ∧ ls'.length = n.layers.length ∧ AllAt p.Holds ls' := by
  obtain ⟨ls', h1, h2, h3⟩ := Init.init_spec rg hn how pdf device seed
  refine ⟨ls', h1, h2, ?_⟩
  intro i a ha
  rw [h3] at ha
  split at ha
  · exact hl i a ha
  · rw [Option.map_eq_some_iff] at ha
    obtain ⟨b, hb, rfl⟩ := ha
    have := hl i b hb
    unfold Plan.Holds at this ⊢
    split at this
    · rename_i hq
      rw [if_pos hq]
      obtain ⟨l, rfl, k⟩ := this
      exact ⟨l, rfl, k⟩
    · rename_i hq
      rw [if_neg hq]
      have hs := lengths_of_shape (shape_initLayer rg (Init.rule n.graph n.layers how i) pdf
        (rg.seeded (if seed = 0 then device else seed)) b)
      cases b with
      | dense l => exact Sized.setParams this (ps := [_, _]) hs
      | conv l => exact Sized.setParams this (ps := [_, _]) hs
      | rnn f f1 l => exact this.1.elim
      | _ => exact this

/-! ### Networks -/

/-- A layer as constructed. -/
theorem new_sized {k : Kind} {a : AnyLayer} (h : Implements k a)
    (hr : (∀ mx raw l, a ≠ .dropout mx raw l) → Regular a) : Sized a.inputSize a.outputSize a := by
  cases k with
  | input u => exact False.elim h
  | dropout p mx raw =>
    obtain ⟨n, rfl⟩ := h
    exact ⟨rfl, rfl, Drop.new_good _ _⟩
  | dense units =>
    have hm : Maps a.inputSize a.outputSize a := maps_of_implements h (hr (by
      obtain ⟨n, m, _, rfl⟩ := h
      simp))
    obtain ⟨n, m, _, rfl⟩ := h
    refine .mk hm (by simp [denseNew, AnyLayer.lastInputGradient, AnyLayer.inputSize])
      (new_implements (k := .dense units) ⟨n, m, ‹_›, rfl⟩ trivial).1.1 trivial
  | conv nf kernel stride padding =>
    have hr' : Regular a := hr (by
      obtain ⟨s, l, _, rfl⟩ := h
      simp)
    have hm := maps_of_implements h hr'
    have hB := (new_implements h hr').1.1
    obtain ⟨s, l, h1, rfl⟩ := h
    obtain ⟨o, h2, h3⟩ := Exec.bind_eq_ok h1
    cases h3
    refine .mk hm (by simp [AnyLayer.lastInputGradient, AnyLayer.inputSize]) hB ?_
    obtain ⟨a1, g1, h2⟩ := Exec.bind_eq_ok h2
    obtain ⟨a2, g2, h2⟩ := Exec.bind_eq_ok h2
    cases h2
    simp [OutShape, AnyLayer.outputSize, Shape3.size]
  | maxPool kernel stride =>
    have hr' : Regular a := hr (by
      obtain ⟨s, l, _, rfl⟩ := h
      simp)
    have hm := maps_of_implements h hr'
    have hB := (new_implements h hr').1.1
    obtain ⟨s, l, h1, rfl⟩ := h
    obtain ⟨o, h2, h3⟩ := Exec.bind_eq_ok h1
    cases h3
    exact .mk hm (by simp [AnyLayer.lastInputGradient, AnyLayer.inputSize]) hB rfl
  | avgPool kernel stride =>
    have hr' : Regular a := hr (by
      obtain ⟨s, l, _, rfl⟩ := h
      simp)
    have hm := maps_of_implements h hr'
    have hB := (new_implements h hr').1.1
    obtain ⟨s, l, h1, rfl⟩ := h
    obtain ⟨o, h2, h3⟩ := Exec.bind_eq_ok h1
    cases h3
    exact .mk hm (by simp [AnyLayer.lastInputGradient, AnyLayer.inputSize]) hB rfl

theorem built_sized {f : Fnn} {ds : List Descriptor} {n0 : Nat} (hb : Built f ds n0)
    (hr : ∀ a ∈ f.layers, (∀ mx raw l, a ≠ .dropout mx raw l) → Regular a) :
    ∀ a ∈ f.layers, Sized a.inputSize a.outputSize a := by
  intro a ha
  obtain ⟨i, hi⟩ := List.getElem?_of_mem ha
  have hlt := (List.getElem?_eq_some_iff.mp hi).1
  rw [hb.layers] at hlt
  have hj : i / 2 < ds.length := by omega
  obtain ⟨x, y, g1, g2, g3, g4⟩ := hb.described (i / 2) ds[i / 2] (List.getElem?_eq_getElem hj)
  rcases Nat.mod_two_eq_zero_or_one i with h0 | h0
  · have : 2 * (i / 2) = i := by omega
    rw [this, hi] at g1
    cases g1
    exact new_sized g2 (hr a ha)
  · have : 2 * (i / 2) + 1 = i := by omega
    rw [this, hi] at g3
    cases g3
    subst g4
    have := maps_act _ _ (hr _ ha (by simp))
    have e1 : (AnyLayer.act ds[i / 2].activation.fn (Act.Layer.new x.outputSize)).inputSize
        = x.outputSize := by simp [AnyLayer.inputSize, Act.Layer.new]
    have e2 : (AnyLayer.act ds[i / 2].activation.fn (Act.Layer.new x.outputSize)).outputSize
        = x.outputSize := by simp [AnyLayer.outputSize, Act.Layer.new]
    rw [e1, e2]
    exact .mk this (by simp [AnyLayer.lastInputGradient, Act.Layer.new]) ⟨rfl, rfl⟩
      (.inr (by simp [Act.Layer.new]))

/-- The sizes of the layers of `f`, with a loss layer behind them. -/
def planOf (f : Fnn) (lf : LossFn) (n0 : Nat) : Plan where
  sizes i := match f.layers[i]? with
    | some a => (a.inputSize, a.outputSize)
    | none => ((f.layers.getLast?.map AnyLayer.outputSize).getD 0, 0)
  q := some f.layers.length
  lf := lf
  nin := n0

theorem ordered_zip {p : Plan} {k : Nat} : ∀ (t : List Nat) (a : Nat) (vis : Nat → Prop), vis a →
    (∀ x y, (x, y) ∈ (a :: t).zip t → some x ≠ p.q ∧ (p.sizes x).2 = (p.sizes y).1 ∧ y < k) →
    p.Ordered k vis (((a :: t).zip t).map fun e => (Source.output e.1, e.2))
  | [], a, vis, _, _ => trivial
  | b :: t, a, vis, hv, h => by
    obtain ⟨h1, h2, h3⟩ := h a b (by simp)
    refine ⟨h3, ⟨hv, h1, h2⟩, ?_⟩
    exact ordered_zip t b _ (.inr rfl) fun x y hxy => h x y (by
      rw [List.zip_cons_cons]
      exact List.mem_cons_of_mem _ hxy)

theorem planOf_sizes {f : Fnn} {lf : LossFn} {ds : List Descriptor} {n0 : Nat} (hb : Built f ds n0) {x : Nat}
    (hx : x < f.layers.length) : ((planOf f lf n0).sizes x).2 = ((planOf f lf n0).sizes (x + 1)).1 := by
  have e := List.getElem?_eq_getElem hx
  unfold planOf
  dsimp only
  rw [e]
  cases h : f.layers[x + 1]? with
  | some b => exact hb.sizes x _ b e h
  | none =>
    have hl : f.layers.length ≤ x + 1 := List.getElem?_eq_none_iff.mp h
    rw [List.getLast?_eq_getElem?, show f.layers.length - 1 = x by omega, e]
    rfl

theorem steppable_of {f : Fnn} {lf : LossFn} {ds : List Descriptor} {n0 : Nat} (hb : Built f ds n0) {j : Nat}
    (hj : f.layers.length = j + 1) (hj1 : 1 ≤ j) {m : Graph.Model} (hP : PathLoss (j + 1) m) :
    (planOf f lf n0).Steppable (j + 2) m.graph (j + 1) := by
  have hp := isTrainingPath_of_pathLoss hP
  have hl := lists_of_path hP.some hp.path (by simp; omega)
  have e : List.range (j + 1) = 0 :: (List.range j).map Nat.succ := List.range_succ_eq_map
  have hp' := hp
  rw [e] at hp'
  obtain ⟨h1, h2, h3, h4⟩ := training_facts hP.ok.ok hl hp'
  have e' : 0 :: ((List.range j).map Nat.succ ++ [j + 1]) = List.range (j + 2) := by
    rw [← List.cons_append, ← e, List.range_succ (n := j + 1)]
  have hsrc : trainingSources m.graph = (Source.external, 0) ::
      ((0 :: ((List.range j).map Nat.succ ++ [j + 1])).zip ((List.range j).map Nat.succ ++ [j + 1])).map
        fun e => (Source.output e.1, e.2) := by
    unfold trainingSources
    rw [h1, h3]
    rfl
  have hmem : ∀ x y, (x, y) ∈ (0 :: ((List.range j).map Nat.succ ++ [j + 1])).zip
      ((List.range j).map Nat.succ ++ [j + 1]) ↔ y = x + 1 ∧ y < j + 2 := by
    intro x y
    have e2 : (List.range j).map Nat.succ ++ [j + 1] = (List.range (j + 2)).tail := by rw [← e']; rfl
    rw [e', e2, mem_zip_range]
  have hall : ∀ i, i < j + 2 → ∃ s ∈ trainingSources m.graph, i = s.2 := by
    intro i hi
    rw [hsrc]
    rcases Nat.eq_zero_or_pos i with rfl | hpos
    · exact ⟨_, List.mem_cons_self, rfl⟩
    · exact ⟨(.output (i - 1), i), List.mem_cons_of_mem _ (List.mem_map.mpr ⟨(i - 1, i), (hmem _ _).mpr
        ⟨by omega, hi⟩, rfl⟩), rfl⟩
  refine ⟨congrArg some hj, hP.loss, ?_, hall _ (by omega), ?_⟩
  · rw [hsrc]
    refine ⟨by omega, ?_, ordered_zip _ 0 _ (.inr rfl) ?_⟩
    · show ((planOf f lf n0).sizes 0).1 = n0
      unfold planOf
      dsimp only
      have e0 := List.getElem?_eq_getElem (l := f.layers) (i := 0) (by omega)
      rw [e0]
      exact hb.start _ e0
    · intro x y hxy
      obtain ⟨rfl, hy⟩ := (hmem x y).mp hxy
      refine ⟨?_, planOf_sizes hb (by omega), hy⟩
      show some x ≠ some f.layers.length
      rw [hj]
      simp
      omega
  · rintro ⟨b, a⟩ hba
    rw [h4] at hba
    rw [← e] at hba
    obtain ⟨i, hi⟩ := List.getElem?_of_mem hba
    rw [List.getElem?_zip_eq_some] at hi
    obtain ⟨i1, i2⟩ := hi
    have e3 : (j + 1) :: (List.range (j + 1)).reverse = (List.range (j + 2)).reverse := by
      rw [List.range_succ (n := j + 1)]
      simp
    rw [e3] at i1
    obtain ⟨b1, b2⟩ := List.getElem?_eq_some_iff.mp i1
    obtain ⟨c1, c2⟩ := List.getElem?_eq_some_iff.mp i2
    simp at b1 b2 c1 c2
    dsimp only
    refine ⟨hall _ (by omega), hall _ (by omega), ?_⟩
    rw [show b = a + 1 by omega]
    exact (planOf_sizes hb (by omega)).symm

/-- What holds of the network `f` after a history: without the loss layer the model of the graph is still that of
`f`, with it it is `m'`. -/
def Usable (f : Fnn) (lf : LossFn) (n0 : Nat) (m' : Graph.Model) (g : Fnn) : Prop :=
  AllAt (planOf f lf n0).Holds g.layers ∧
    ((g.model = f.model ∧ g.layers.length = f.layers.length) ∨ (g.model = m' ∧ g.layers.length = f.layers.length + 1))

theorem planOf_last {f : Fnn} {lf : LossFn} {n0 j : Nat} (hj : f.layers.length = j + 1) :
    ((planOf f lf n0).sizes (j + 1)).1 = (f.layers.getLast?.map AnyLayer.outputSize).getD 0 := by
  unfold planOf
  dsimp only
  rw [List.getElem?_eq_none (by omega)]

theorem sized_outputSize {n m : Nat} {a : AnyLayer} (h : Sized n m a) : a.outputSize = m := by
  cases a with
  | dropout mx raw l => exact h.2.1.trans h.1.symm
  | dense l => exact h.1.2.1
  | conv l => exact h.2.2.2.2
  | maxPool l => exact h.2.2.2
  | avgPool l => exact h.2.2.2
  | act f l =>
    obtain ⟨h1, h2, _⟩ := h
    have hmn : m = n := by cases f <;> first | exact h1.1 | exact h1
    rw [hmn]
    exact h2
  | rnn f f1 l => exact h.1.elim
  | loss f l => exact h.1.elim

theorem usable_addLosses {f : Fnn} {lf : LossFn} {ds : List Descriptor} {n0 : Nat} (hb : Built f ds n0) {j : Nat}
    (hj : f.layers.length = j + 2) {m' : Graph.Model} (hP : PathLoss (j + 2) m') (batch : Nat)
    (hadd : ∀ (g : Fnn) (a : AnyLayer), g.model = f.model → g.layers[j + 1]? = Option.some a →
      g.addLosses lf batch = .ok (⟨m', g.layers ++ [.loss lf (Loss.Layer.new a.outputSize batch (1 / 10))],
        g.outputShape, g.firstAdd⟩, none)) {g : Fnn} (hg : Usable f lf n0 m' g) :
    ∃ g1, g.addLosses lf batch = .ok (g1, none) ∧ g1.model = m' ∧ g1.layers.length = j + 3 ∧
      AllAt (planOf f lf n0).Holds g1.layers := by
  obtain ⟨h1, ⟨h2, h3⟩ | ⟨h2, h3⟩⟩ := hg
  · have hlt : j + 1 < g.layers.length := by omega
    have hget := List.getElem?_eq_getElem hlt
    refine ⟨_, hadd g _ h2 hget, rfl, by simp; omega, ?_⟩
    intro i a ha
    dsimp only at ha
    by_cases hi : i < g.layers.length
    · rw [List.getElem?_append_left hi] at ha
      exact h1 i a ha
    · have hi' : i = j + 2 := by
        have := (List.getElem?_eq_some_iff.mp ha).1
        simp at this
        omega
      subst hi'
      rw [List.getElem?_append_right (by omega), h3, hj] at ha
      simp at ha
      subst ha
      unfold Plan.Holds
      have hq : (planOf f lf n0).q = some (j + 2) := congrArg some hj
      rw [if_pos hq.symm]
      have hs := h1 _ _ hget
      unfold Plan.Holds at hs
      rw [if_neg (by rw [hq]; simp)] at hs
      have e : ((planOf f lf n0).sizes (j + 1 + 1)).1 = (g.layers[j + 1]).outputSize := by
        rw [← planOf_sizes hb (by omega), sized_outputSize hs]
      show LossFit lf ((planOf f lf n0).sizes (j + 1 + 1)).1 _
      rw [e]
      exact ⟨_, rfl, rfl, by simp [Loss.Layer.new]⟩
  · refine ⟨g, ?_, h2, by omega, h1⟩
    unfold Fnn.addLosses
    rw [h2, if_neg, if_neg]
    · rw [hP.loss]; simp
    · intro e
      have := hP.length
      rw [e] at this
      simp at this

/-- **C77** -/
theorem fit_total {ds : List Descriptor} {f : Fnn} {outcomes : List (Option String)}
    (h : Fnn.empty.addAll ds = .ok (f, outcomes)) (hne : accepted ds outcomes ≠ [])
    (hr : ∀ a ∈ f.layers, (∀ mx raw l, a ≠ .dropout mx raw l) → Regular a) {lf : LossFn} {g : Fnn}
    (hg : UsedBy lf f g) (rg : Init.Random) (init : Init.ModelInit) (o : Nn.OptimizerType) (rate : ℝ)
    (device seed : Nat) {d : Data.Dataset ℝ} {z : AnyLayer} (hz : f.layers.getLast? = some z)
    (hd : Suits lf (declaredInput ds) z.outputSize d) {fuel epochs batch : Nat} (hb : 1 ≤ batch)
    (hf : batchCount d.size batch ≤ fuel) :
    ∃ g', Nn.fit rg lf init o rate device seed d fuel epochs batch g = some (.ok g') := by
  have hB := built_all h
  have hpos : 0 < (accepted ds outcomes).length := List.length_pos_iff.mpr hne
  have hlay := hB.layers
  obtain ⟨j, hj⟩ : ∃ j, f.layers.length = j + 2 := ⟨f.layers.length - 2, by omega⟩
  have hgr := hB.graph
  rw [← hlay, hj] at hgr
  obtain ⟨m', hP, hadd⟩ := addLosses_uniform hgr
  have hpl : ∀ lf, (planOf f lf (declaredInput ds)).Steppable (j + 3) m'.graph (j + 2) :=
    fun lf => steppable_of hB hj (by omega) hP
  have hsound : ∀ g1 : Fnn, g1.model = m' → g1.layers.length = j + 3 → Init.Sound g1.net := by
    intro g1 e1 e2
    refine ⟨?_, ?_⟩
    · show g1.layers.length = g1.model.graph.layers.length
      rw [e1, hP.length, e2]
    · intro i k hk
      have hk : k ∈ successors g1.model.graph.forward i := hk
      show k < g1.model.graph.layers.length
      rw [e1] at hk ⊢
      exact (hP.ok.ok.forwardRange i k hk).2
  have husable : Usable f lf (declaredInput ds) m' g := by
    induction hg with
    | new =>
      refine ⟨?_, .inl ⟨rfl, rfl⟩⟩
      intro i a ha
      have hlt := (List.getElem?_eq_some_iff.mp ha).1
      unfold Plan.Holds
      have hq : (planOf f lf (declaredInput ds)).q = some f.layers.length := rfl
      rw [hq, if_neg (by simp; omega)]
      have := built_sized hB hr a (List.mem_of_getElem? ha)
      unfold planOf
      dsimp only
      rw [ha]
      exact this
    | @predict g n r d _ hp ih =>
      refine ⟨nnPredict_kept (Plan.kept _) ih.1 hp, ?_⟩
      have := (nnPredict_ess hp).length_eq
      rcases ih.2 with ⟨e1, e2⟩ | ⟨e1, e2⟩
      · exact .inl ⟨e1, this.symm.trans e2⟩
      · exact .inr ⟨e1, this.symm.trans e2⟩
    | @evaluate g n r lf' d _ hp ih =>
      refine ⟨nnEvaluate_kept (Plan.kept _) ih.1 hp, ?_⟩
      have := (nnEvaluate_ess hp).length_eq
      rcases ih.2 with ⟨e1, e2⟩ | ⟨e1, e2⟩
      · exact .inl ⟨e1, this.symm.trans e2⟩
      · exact .inr ⟨e1, this.symm.trans e2⟩
    | @fit g g' rg init o rate device seed d fuel epochs batch _ hp ih =>
      obtain ⟨g1, h1, h2, h3, h4⟩ := usable_addLosses hB hj hP batch (fun g a => hadd lf batch g a) ih
      unfold Nn.fit at hp
      rw [h1] at hp
      dsimp only at hp
      obtain ⟨ls, e1, e2, e3⟩ := init_kept (rg := rg) (how := init) (pdf := .normal) (device := device) (seed := seed)
        (hsound g1 h2 h3) h4
      rw [e1] at hp
      dsimp only at hp
      rw [Option.map_eq_some_iff] at hp
      obtain ⟨r, k1, k2⟩ := hp
      obtain ⟨n2, e3', e4⟩ := Exec.bind_eq_ok k2
      cases e4
      subst e3'
      refine ⟨nnTrain_kept e3 k1, .inr ⟨h2, ?_⟩⟩
      have := congrArg List.length (sameShape_nnTrain k1).2
      simp at this
      show n2.layers.length = _
      rw [this, e2]
      show g1.layers.length = _
      rw [h3, hj]
  obtain ⟨g1, h1, h2, h3, h4⟩ := usable_addLosses hB hj hP batch (fun g a => hadd lf batch g a) husable
  obtain ⟨ls, e1, e2, e3⟩ := init_kept (rg := rg) (how := init) (pdf := .normal) (device := device) (seed := seed)
    (hsound g1 h2 h3) h4
  have hd' : Suits lf (declaredInput ds) ((planOf f lf (declaredInput ds)).sizes (j + 2)).1 d := by
    rw [planOf_last (j := j + 1) hj, hz]
    exact hd
  obtain ⟨n', e4, _⟩ := nnTrain_total (hpl lf) (by omega) o rate (n := ⟨g1.net.graph, ls⟩) e3
    (show g1.model.graph = m'.graph by rw [h2]) (e2.trans h3) hd' (epochs := epochs) hb hf
  refine ⟨{ g1 with layers := n'.layers }, ?_⟩
  unfold Nn.fit
  rw [h1]
  dsimp only
  rw [e1]
  dsimp only
  rw [e4]
  rfl

end

end Verif.Net
