import Verif.Proofs.Frame

/-! Fitting a network that was used before is like fitting a new one. -/

namespace Verif.Net

open Verif.Spec Verif.Graph

noncomputable section

/-! ### Training loops on related states -/

/-- The same outcome, up to `Q`; both may not terminate. -/
def ORel {α β : Type} (Q : α → β → Prop) : Option (Exec α) → Option (Exec β) → Prop
  | none, none => True
  | some r1, some r2 => ERel Q r1 r2
  | _, _ => False

theorem batchLoop_rel {σ τ : Type} {o1 : Training.Ops σ} {o2 : Training.Ops τ} (Q : σ → τ → Prop)
    (n : Nat) (hs : ∀ i, i < n → ∀ s t, Q s t → ERel Q (o1.step i s) (o2.step i t)) : ∀ (left i : Nat) (s : σ) (t : τ),
    Q s t → ERel (fun r1 r2 => r1.1 = r2.1 ∧ Q r1.2 r2.2) (Training.batchLoop o1 n left i s)
      (Training.batchLoop o2 n left i t) := by
  intro left
  induction left with
  | zero => intro i s t h; exact ⟨rfl, h⟩
  | succ left ih =>
    intro i s t h
    unfold Training.batchLoop
    split
    · rename_i hi
      exact (hs i hi s t h).bind fun s' t' h' => ih (i + 1) s' t' h'
    · exact ⟨rfl, h⟩

theorem batch_rel {σ τ : Type} {o1 : Training.Ops σ} {o2 : Training.Ops τ} (Q : σ → τ → Prop)
    (n : Nat) (hr : ∀ s t, Q s t → ERel Q (o1.reset s) (o2.reset t))
    (hs : ∀ i, i < n → ∀ s t, Q s t → ERel Q (o1.step i s) (o2.step i t))
    (ht : ∀ s t, Q s t → ERel Q (o1.train s) (o2.train t)) (b i : Nat) (s : σ) (t : τ) (h : Q s t) :
    ERel (fun r1 r2 => r1.1 = r2.1 ∧ Q r1.2 r2.2) (Training.batch o1 n b i s) (Training.batch o2 n b i t) := by
  unfold Training.batch
  refine (hr s t h).bind fun s1 t1 h1 => ?_
  refine (batchLoop_rel Q n hs b i s1 t1 h1).bind fun r1 r2 h2 => ?_
  refine (ht _ _ h2.2).bind fun s2 t2 h3 => ?_
  exact ⟨h2.1, h3⟩

theorem epoch_rel {σ τ : Type} {o1 : Training.Ops σ} {o2 : Training.Ops τ} (Q : σ → τ → Prop)
    (n : Nat) (hr : ∀ s t, Q s t → ERel Q (o1.reset s) (o2.reset t))
    (hs : ∀ i, i < n → ∀ s t, Q s t → ERel Q (o1.step i s) (o2.step i t))
    (ht : ∀ s t, Q s t → ERel Q (o1.train s) (o2.train t)) (b : Nat) : ∀ (fuel i : Nat) (s : σ) (t : τ), Q s t →
    ORel Q (Training.epoch o1 n b fuel i s) (Training.epoch o2 n b fuel i t) := by
  intro fuel
  induction fuel with
  | zero =>
    intro i s t h
    unfold Training.epoch
    split
    · trivial
    · exact h
  | succ fuel ih =>
    intro i s t h
    unfold Training.epoch
    split
    · dsimp only
      have hb := batch_rel Q n hr hs ht b i s t h
      revert hb
      generalize Training.batch o1 n b i s = r1
      generalize Training.batch o2 n b i t = r2
      intro hb
      cases r1 <;> cases r2 <;> first | exact hb.elim | skip
      · rename_i p1 p2
        obtain ⟨i1, s1⟩ := p1
        obtain ⟨i2, t1⟩ := p2
        obtain ⟨h1, h2⟩ := hb
        dsimp only at h1 h2 ⊢
        subst h1
        exact ih _ _ _ h2
      · exact hb
      · trivial
    · exact h

theorem trainingRun_rel {σ τ : Type} {o1 : Training.Ops σ} {o2 : Training.Ops τ} (Q : σ → τ → Prop)
    (n : Nat) (hr : ∀ s t, Q s t → ERel Q (o1.reset s) (o2.reset t))
    (hs : ∀ i, i < n → ∀ s t, Q s t → ERel Q (o1.step i s) (o2.step i t))
    (ht : ∀ s t, Q s t → ERel Q (o1.train s) (o2.train t)) (b fuel : Nat) : ∀ (epochs : Nat) (s : σ) (t : τ), Q s t →
    ORel Q (Training.run o1 n b fuel epochs s) (Training.run o2 n b fuel epochs t) := by
  intro epochs
  induction epochs with
  | zero => intro s t h; exact h
  | succ epochs ih =>
    intro s t h
    unfold Training.run
    have he := epoch_rel Q n hr hs ht b fuel 0 s t h
    revert he
    generalize Training.epoch o1 n b fuel 0 s = r1
    generalize Training.epoch o2 n b fuel 0 t = r2
    intro he
    cases r1 <;> cases r2 <;> first | exact he.elim | skip
    · trivial
    · rename_i e1 e2
      have he : ERel Q e1 e2 := he
      cases e1 <;> cases e2 <;> first | exact he.elim | skip
      · exact ih _ _ he
      · exact he
      · trivial

/-- What holds after each batch holds at the end. -/
theorem epoch_batch_inv {σ : Type} {o : Training.Ops σ} (P : σ → Prop) (n b : Nat)
    (hb : ∀ i s r, P s → Training.batch o n b i s = .ok r → P r.2) : ∀ (fuel i : Nat) (s s' : σ), P s →
      Training.epoch o n b fuel i s = some (.ok s') → P s' := by
  intro fuel
  induction fuel with
  | zero =>
    intro i s s' h e
    unfold Training.epoch at e
    split at e
    · cases e
    · cases e; exact h
  | succ fuel ih =>
    intro i s s' h e
    unfold Training.epoch at e
    split at e
    · dsimp only at e
      split at e
      · rename_i i1 s1 e1
        exact ih _ _ _ (hb _ _ _ h e1) e
      · cases e
      · cases e
    · cases e; exact h

theorem run_batch_inv {σ : Type} {o : Training.Ops σ} (P : σ → Prop) (n b fuel : Nat)
    (hb : ∀ i s r, P s → Training.batch o n b i s = .ok r → P r.2) : ∀ (epochs : Nat) (s s' : σ), P s →
      Training.run o n b fuel epochs s = some (.ok s') → P s' := by
  intro epochs
  induction epochs with
  | zero => intro s s' h e; cases e; exact h
  | succ epochs ih =>
    intro s s' h e
    unfold Training.run at e
    split at e
    · cases e
    · rename_i s1 e1
      exact ih _ _ (epoch_batch_inv P n b hb _ _ _ _ h e1) e
    · cases e
    · cases e

/-! ### A fit clears the gradients -/

theorem kind_of_shape {a b : AnyLayer} (h : shape a = shape b) : a.kind = b.kind := by
  have h1 := congrArg AnyLayer.kind h
  unfold shape at h1
  rwa [kind_core, kind_core, kind_setParams, kind_setParams] at h1

theorem blocks_of {a b : AnyLayer} (hB : Blocks a) (hS : Simple a) (hs : shape a = shape b) (hf : frame a = frame b) :
    Blocks b := by
  have hx : ∀ c, Simple c → frame c = some ((extra c).1.map List.length, (extra c).2) := by
    intro c hc
    cases c <;> first | exact hc.elim | rfl
  rw [hx a hS, hx b (simple_of_shape hs hS)] at hf
  simp only [Option.some.injEq, Prod.mk.injEq] at hf
  refine ⟨?_, ?_⟩
  · rw [← lengths_of_shape hs, ← kind_of_shape hs]; exact hB.1
  · rw [← kind_of_shape hs, ← hB.2]; exact hf.1.symm

theorem map_all {β : Type} {φ : AnyLayer → β} {as bs : List AnyLayer} (h : bs.map φ = as.map φ) :
    ∀ b ∈ bs, ∃ a ∈ as, φ b = φ a := by
  intro b hb
  obtain ⟨i, hi⟩ := List.getElem?_of_mem hb
  obtain ⟨a, h1, h2⟩ := getElem?_map_eq h hi
  exact ⟨a, List.mem_of_getElem? h1, h2⟩

theorem pair_map {β γ : Type} {φ : AnyLayer → β} {ψ : AnyLayer → γ} : ∀ {as bs : List AnyLayer}, bs.map φ = as.map φ →
    bs.map ψ = as.map ψ → bs.map (fun a => (φ a, ψ a)) = as.map fun a => (φ a, ψ a) := by
  intro as
  induction as with
  | nil => intro bs h _; rw [List.map_nil, List.map_eq_nil_iff] at h; rw [h]
  | cons a as ih =>
    intro bs h h'
    cases bs with
    | nil => cases h
    | cons b bs =>
      simp only [List.map_cons, List.cons.injEq] at h h' ⊢
      exact ⟨by rw [h.1, h'.1], ih h.2 h'.2⟩

theorem resetScore_frame (n : Net) : n.resetScore.layers.map frame = n.layers.map frame := by
  exact (forall₂_map (resetScore_ess n).2 fun a b e => frame_of e.1 e.2.1).symm

theorem modelStep_inv {τ : Type} {opt : τ → ℝ → ℝ → τ × ℝ} {d : Data.Dataset ℝ} {i : Nat} {x x' : τ × Net}
    (e : (Training.modelOps opt d).step i x = .ok x') : SameShape x.2 x'.2 ∧
      x'.2.layers.map frame = x.2.layers.map frame := by
  obtain ⟨v, _, e⟩ := Exec.bind_eq_ok e
  obtain ⟨t, _, e⟩ := Exec.bind_eq_ok e
  obtain ⟨n', e1, e⟩ := Exec.bind_eq_ok e
  cases e
  obtain ⟨⟨n1, o⟩, e2, e1⟩ := Exec.bind_eq_ok e1
  cases o with
  | none => cases e1; exact ⟨sameShape_of_same (step_same e2), step_frame e2⟩
  | some m => cases e1

theorem fit_extra {τ : Type} {opt : τ → ℝ → ℝ → τ × ℝ} {d : Data.Dataset ℝ} {fuel epochs b : Nat}
    {s s' : τ × Net} (hB : ∀ a ∈ s.2.layers, Blocks a ∧ Simple a ∧ Zeroed a)
    (h : Training.fit opt d fuel epochs b s = some (.ok s')) : s'.2.layers.map extra = s.2.layers.map extra := by
  have key : (SameShape s.2 s'.2 ∧ s'.2.layers.map frame = s.2.layers.map frame) ∧ ∀ a ∈ s'.2.layers, Zeroed a := by
    refine run_batch_inv (fun x : τ × Net => (SameShape s.2 x.2 ∧ x.2.layers.map frame = s.2.layers.map frame) ∧
      ∀ a ∈ x.2.layers, Zeroed a) _ _ _ ?_ _ _ _ ⟨⟨⟨rfl, rfl⟩, rfl⟩, fun a ha => (hB a ha).2.2⟩ h
    rintro i x ⟨i', x'⟩ ⟨⟨h1, h2⟩, _⟩ e
    unfold Training.batch at e
    obtain ⟨x1, f1, e⟩ := Exec.bind_eq_ok e
    obtain ⟨⟨j, x2⟩, f2, e⟩ := Exec.bind_eq_ok e
    obtain ⟨x3, f3, e⟩ := Exec.bind_eq_ok e
    cases e
    cases f1
    have k1 : SameShape s.2 x2.2 ∧ x2.2.layers.map frame = s.2.layers.map frame := by
      refine batchLoop_inv (fun x : τ × Net => SameShape s.2 x.2 ∧ x.2.layers.map frame = s.2.layers.map frame)
        ?_ _ _ _ _ _ ⟨h1.trans (sameShape_of_same (resetScore_same _)), (resetScore_frame _).trans h2⟩ f2
      intro i x x' hx e
      obtain ⟨e1, e2⟩ := modelStep_inv e
      exact ⟨hx.1.trans e1, e2.trans hx.2⟩
    obtain ⟨_, g1, g2⟩ := Exec.bind_eq_ok f3
    cases g2
    refine ⟨⟨k1.1.trans (sameShape_train _ _ _), (trainLayers_frame opt _ _).trans k1.2⟩, ?_⟩
    refine trainLayers_zeroed opt _ _ ?_ g1
    intro a ha
    obtain ⟨c, hc, e⟩ := map_all (pair_map k1.1.2 k1.2) a ha
    simp only [Prod.mk.injEq] at e
    obtain ⟨c1, c2, _⟩ := hB c hc
    exact blocks_of c1 c2 e.1.symm e.2.symm
  obtain ⟨⟨h1, h2⟩, h3⟩ := key
  apply List.ext_getElem?
  intro i
  rw [List.getElem?_map, List.getElem?_map]
  cases hi : s'.2.layers[i]? with
  | none =>
    have := congrArg List.length h2
    simp at this
    rw [List.getElem?_eq_none (by rw [← this]; exact List.getElem?_eq_none_iff.mp hi)]
  | some a =>
    obtain ⟨c, hc, e⟩ := getElem?_map_eq (pair_map h1.2 h2) hi
    simp only [Prod.mk.injEq] at e
    obtain ⟨c1, c2, c3⟩ := hB c (List.mem_of_getElem? hc)
    rw [hc, Option.map_some, Option.map_some,
      extra_of_frame e.1.symm c2 e.2.symm c3 (h3 a (List.mem_of_getElem? hi))]

theorem nnTrain_extra {o : Nn.OptimizerType} {rate : ℝ} {d : Data.Dataset ℝ} {fuel epochs b : Nat}
    {n n' : Net} (hB : ∀ a ∈ n.layers, Blocks a ∧ Simple a ∧ Zeroed a)
    (h : Nn.train o rate d fuel epochs b n = some (.ok n')) : n'.layers.map extra = n.layers.map extra := by
  cases o with
  | gradientDescent =>
    unfold Nn.train at h
    dsimp only at h
    rw [Option.map_eq_some_iff] at h
    obtain ⟨r, h1, h2⟩ := h
    obtain ⟨s, e1, e2⟩ := Exec.bind_eq_ok h2
    cases e2
    subst e1
    exact fit_extra (s := ((), n)) hB h1
  | adam =>
    unfold Nn.train at h
    dsimp only at h
    rw [Option.map_eq_some_iff] at h
    obtain ⟨r, h1, h2⟩ := h
    obtain ⟨s, e1, e2⟩ := Exec.bind_eq_ok h2
    cases e2
    subst e1
    exact fit_extra (s := (Opt.Adam.init, n)) hB h1

/-! ### Predictions, evaluations and initialisation -/

theorem nnPredict_ess {n n' : Net} {d : Data.Dataset ℝ} {r : Except String (Data.Dataset ℝ)}
    (h : Nn.predict n d = .ok (n', r)) : List.Forall₂ Ess n.layers n'.layers := by
  unfold Nn.predict at h
  obtain ⟨os, _, h⟩ := Exec.bind_eq_ok h
  obtain ⟨⟨s, e⟩, h1, h⟩ := Exec.bind_eq_ok h
  have key : List.Forall₂ Ess n.layers s.1.layers := by
    refine each_inv (fun x : Net × List ℝ => List.Forall₂ Ess n.layers x.1.layers) ?_ _ _ _ _ (ess_refl _) h1
    intro x i x' e hx hi
    unfold Nn.predictRow at hi
    obtain ⟨v, _, hi⟩ := Exec.bind_eq_ok hi
    obtain ⟨⟨n1, y⟩, h2, hi⟩ := Exec.bind_eq_ok hi
    have h4 : List.Forall₂ Ess n.layers n1.layers := ess_trans hx (predict_ess h2).2
    cases y with
    | error m => cases hi; exact h4
    | ok y =>
      obtain ⟨_, _, hi⟩ := Exec.bind_eq_ok hi
      cases hi
      exact h4
  cases e with
  | none => cases h; exact key
  | some m => cases h; exact key

theorem nnEvaluate_ess {lf : LossFn} {n n' : Net} {d : Data.Dataset ℝ} {r : Except String Nn.EvaluationResult}
    (h : Nn.evaluate lf n d = .ok (n', r)) : List.Forall₂ Ess n.layers n'.layers := by
  unfold Nn.evaluate at h
  obtain ⟨os, _, h⟩ := Exec.bind_eq_ok h
  obtain ⟨di, _, h⟩ := Exec.bind_eq_ok h
  obtain ⟨⟨n1, q⟩, h1, h⟩ := Exec.bind_eq_ok h
  have key := nnPredict_ess h1
  cases q with
  | error m => cases h; exact key
  | ok q =>
    obtain ⟨⟨l, e⟩, _, h⟩ := Exec.bind_eq_ok h
    cases e with
    | none => cases h; exact key
    | some m => cases h; exact key

theorem extra_initLayer (rg : Init.Random) (f : Init.InitFn) (pdf : Init.Pdf) (rne : rg.Engine) (a : AnyLayer) :
    extra (Init.initLayer rg f pdf rne a) = extra a := by
  cases a <;> rfl

theorem alike_of_shape {a b : AnyLayer} (h : shape a = shape b) : Alike a b := by
  have hl := lengths_of_shape h
  cases a <;> cases b <;> simp only [shape, core, AnyLayer.setParams, AnyLayer.params, List.map_cons, List.map_nil,
    reduceCtorEq, AnyLayer.dense.injEq, AnyLayer.conv.injEq, AnyLayer.act.injEq, AnyLayer.rnn.injEq] at h
  all_goals try trivial
  case dense.dense a b =>
    cases a; cases b
    simp at h
    simp [AnyLayer.params] at hl
    simp_all [Alike]
  case conv.conv a b =>
    cases a; cases b
    simp at h
    simp [AnyLayer.params] at hl
    simp_all [Alike]
  case act.act f a f' b =>
    obtain ⟨rfl, _⟩ := h
    cases f <;> simp [Alike]
  case rnn.rnn f f1 a f' f1' b =>
    cases a; cases b
    simp at h
    simp [AnyLayer.params] at hl
    simp_all [Alike]

/-- Same shapes, gradients and settings: the parameters may differ. -/
def Twin (as bs : List AnyLayer) : Prop := bs.map shape = as.map shape ∧ bs.map extra = as.map extra

theorem Twin.trans {as bs cs : List AnyLayer} (h : Twin as bs) (h' : Twin bs cs) : Twin as cs :=
  ⟨h'.1.trans h.1, h'.2.trans h.2⟩

theorem Twin.symm {as bs : List AnyLayer} (h : Twin as bs) : Twin bs as := ⟨h.1.symm, h.2.symm⟩

theorem twin_of_ess {as bs : List AnyLayer} (h : List.Forall₂ Ess as bs) : Twin as bs :=
  ⟨(forall₂_map h fun _ _ e => shape_of_core e.1).symm, (forall₂_map h fun _ _ e => e.2.1).symm⟩

theorem Twin.length {as bs : List AnyLayer} (h : Twin as bs) : bs.length = as.length := by
  simpa using congrArg List.length h.1

theorem init_twin {rg : Init.Random} {how : Init.ModelInit} {pdf : Init.Pdf} {device seed : Nat} {n : Net}
    (hn : Init.Sound n) : ∃ ls', Init.init rg how pdf device seed n = .ok (⟨n.graph, ls'⟩, if seed = 0 then device else seed) ∧
      Twin n.layers ls' := by
  obtain ⟨ls', h1, h2, h3⟩ := Init.init_spec rg hn how pdf device seed
  refine ⟨ls', h1, (sameShape_init h1).2, ?_⟩
  apply List.ext_getElem?
  intro i
  rw [List.getElem?_map, List.getElem?_map, h3]
  split
  · rfl
  · cases n.layers[i]? with
    | none => rfl
    | some a => simp only [Option.map_some, extra_initLayer]

/-- Initialising with the same seed makes twins alike. -/
theorem init_ess {rg : Init.Random} {how : Init.ModelInit} {pdf : Init.Pdf} {dev1 dev2 seed : Nat} (hs : seed ≠ 0)
    {n1 n2 : Net} (hg : n1.graph = n2.graph) (hn : Init.Sound n1) (ht : Twin n1.layers n2.layers)
    (hS : ∀ a ∈ n1.layers, Simple a) (hloss : ∀ i ∈ n1.graph.loss, ∀ a, n1.layers[i]? = some a → a.params = []) :
    ∃ ls1 ls2, Init.init rg how pdf dev1 seed n1 = .ok (⟨n1.graph, ls1⟩, seed) ∧
      Init.init rg how pdf dev2 seed n2 = .ok (⟨n2.graph, ls2⟩, seed) ∧ List.Forall₂ Ess ls1 ls2 ∧
      Twin n1.layers ls1 ∧ Twin n2.layers ls2 := by
  have hn2 : Init.Sound n2 := ⟨by rw [ht.length, hn.layers, hg], by rw [← hg]; exact hn.arcs⟩
  obtain ⟨ls1, h1, h2, h3⟩ := Init.init_spec rg hn how pdf dev1 seed
  obtain ⟨ls2, g1, g2, g3⟩ := Init.init_spec rg hn2 how pdf dev2 seed
  have t1 : Twin n1.layers ls1 := by
    obtain ⟨ls, e1, e2⟩ := init_twin (rg := rg) (how := how) (pdf := pdf) (device := dev1) (seed := seed) hn
    rw [h1] at e1
    cases e1
    exact e2
  have t2 : Twin n2.layers ls2 := by
    obtain ⟨ls, e1, e2⟩ := init_twin (rg := rg) (how := how) (pdf := pdf) (device := dev2) (seed := seed) hn2
    rw [g1] at e1
    cases e1
    exact e2
  rw [if_neg hs] at h1 h3 g1 g3
  refine ⟨ls1, ls2, h1, g1, ?_, t1, t2⟩
  have t12 : Twin ls1 ls2 := (t1.symm.trans ht).trans t2
  refine forall₂_of t12.length.symm ?_
  intro i a b ha hb
  have hp := pair_map t12.1 t12.2
  obtain ⟨a', e1, e2⟩ := getElem?_map_eq hp hb
  rw [ha] at e1
  cases e1
  simp only [Prod.mk.injEq] at e2
  have hsa : Simple a := by
    obtain ⟨a0, w1, w2⟩ := map_all t1.1 a (List.mem_of_getElem? ha)
    exact simple_of_shape w2.symm (hS a0 w1)
  have hd : ∀ c, Simple c → draws c = none := by
    intro c hc
    cases c <;> first | exact hc.elim | rfl
  refine ⟨?_, e2.2.symm, by rw [hd a hsa, hd b (simple_of_shape e2.1.symm hsa)]⟩
  have hpar : a.params = b.params := by
    have hi1 : i < n1.layers.length := by rw [← h2]; exact (List.getElem?_eq_some_iff.mp ha).1
    have hi2 : i < n2.layers.length := by rw [← g2]; exact (List.getElem?_eq_some_iff.mp hb).1
    have q1 := List.getElem?_eq_getElem hi1
    have q2 := List.getElem?_eq_getElem hi2
    obtain ⟨c, c1, c2⟩ := getElem?_map_eq ht.1 q2
    rw [q1] at c1
    cases c1
    have k1 := h3 i
    have k2 := g3 i
    rw [q1, ha] at k1
    rw [q2, hb, ← hg] at k2
    have hrule : Init.rule n1.graph n1.layers how i = Init.rule n1.graph n2.layers how i := by
      refine Init.rule_congr (fun j => ?_) how i
      cases hj : n2.layers[j]? with
      | none => rw [List.getElem?_eq_none (by rw [← ht.length]; exact List.getElem?_eq_none_iff.mp hj)]
      | some z =>
        obtain ⟨w, w1, w2⟩ := getElem?_map_eq ht.1 hj
        rw [w1, Option.map_some, Option.map_some, Init.alike_relu (alike_of_shape w2)]
    by_cases hl : i ∈ n1.graph.loss
    · rw [if_pos hl] at k1 k2
      cases k1
      cases k2
      have e := hloss i hl _ q1
      have e' := lengths_of_shape c2
      rw [e] at e'
      rw [e]
      simpa using e'.symm
    · rw [if_neg hl] at k1 k2
      simp only [Option.map_some, Option.some.injEq] at k1 k2
      rw [k1, k2, hrule, Init.alike_params rg _ pdf _ (alike_of_shape c2)]
  rw [core_of_shape e2.1, hpar, setParams_params]

end

end Verif.Net
