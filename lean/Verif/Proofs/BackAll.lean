import Verif.Proofs.BackStep
import Verif.Proofs.Optimizer
import Verif.Proofs.Fnn

/-! Several training steps, and the optimizer. -/

namespace Verif.Net
open Verif.Spec Verif.Graph Finset

noncomputable section

/-! ### Layers that differ in the contents of buffers only -/

theorem yields_core {l l' : AnyLayer} {x y : List ℝ} (h : core l' = core l) (hy : Yields l x y) :
    Yields l' x y := fun a ha => hy a (ha.trans h)

theorem yieldsAll_core {ks : List AnyLayer} {x y : List ℝ} (h : YieldsAll ks x y) :
    ∀ {ks' : List AnyLayer}, ks'.map core = ks.map core → YieldsAll ks' x y := by
  induction h with
  | nil x =>
    intro ks' h
    have : ks' = [] := by simpa using h
    subst this
    exact .nil x
  | cons h1 _ ih =>
    intro ks' h
    cases ks' with
    | nil => cases h
    | cons l' ks' =>
      simp only [List.map_cons, List.cons.injEq] at h
      exact .cons (yields_core h.1 h1) (ih h.2)

theorem params_of_core {l l' : AnyLayer} (h : core l' = core l) : l'.params = l.params := by
  cases l' <;> cases l <;> simp [core] at h <;> simp [AnyLayer.params, h]

theorem learned_of_core {l l' : AnyLayer} (h : core l' = core l) (b : Nat) :
    Learned l' b ↔ Learned l b := by
  cases l' <;> cases l <;> simp [core] at h <;> simp [Learned]

theorem core_setParams {l l' : AnyLayer} (h : core l' = core l) (ps : List (List ℝ)) :
    core (l'.setParams ps) = core (l.setParams ps) := by
  cases l' <;> cases l <;> try simp only [core, reduceCtorEq] at h
  case dense.dense a b =>
    match ps with
    | [w, c] =>
      obtain ⟨a1, a2, a3, a4, a5, a6, a7⟩ := a
      simp at h
      simp [AnyLayer.setParams, core, h]
    | [] => exact h
    | [_] => exact h
    | _ :: _ :: _ :: _ => exact h
  case conv.conv a b =>
    match ps with
    | [w, c] =>
      simp at h
      simp [AnyLayer.setParams, core, h]
    | [] => exact h
    | [_] => exact h
    | _ :: _ :: _ :: _ => exact h
  case rnn.rnn f f1 a g g1 b =>
    match ps with
    | [u1, u2, u3, u4, u5] =>
      simp at h
      simp [AnyLayer.setParams, core, h]
    | [] => exact h
    | [_] => exact h
    | [_, _] => exact h
    | [_, _, _] => exact h
    | [_, _, _, _] => exact h
    | _ :: _ :: _ :: _ :: _ :: _ :: _ => exact h
  all_goals exact h

theorem core_withParam {l l' : AnyLayer} (h : core l' = core l) (b k : Nat) (v : ℝ) :
    core (withParam l' b k v) = core (withParam l b k v) := by
  unfold withParam
  rw [params_of_core h]
  exact core_setParams h _

theorem smoothAt_core {l l' : AnyLayer} (h : core l' = core l) {x : List ℝ} (hs : SmoothAt x l) :
    SmoothAt x l' := by
  cases l' <;> cases l <;> try simp only [core, reduceCtorEq] at h
  case act.act f a g b =>
    simp only [AnyLayer.act.injEq] at h
    obtain ⟨rfl, _⟩ := h
    cases f <;> exact hs
  case maxPool.maxPool a b =>
    obtain ⟨a1, a2, a3, a4, a5, a6, a7⟩ := a
    simp at h
    obtain ⟨rfl, rfl, rfl, rfl, _⟩ := h
    exact hs
  all_goals exact hs

theorem yieldsAll_of_trainable {ks : List AnyLayer} {n m : Nat} {x : List ℝ} (ht : Trainable n m ks)
    (hx : x.length = n) : ∃ y, YieldsAll ks x y := by
  obtain ⟨es, y, _, s2, s3, _⟩ := stages_of ht (List.range ks.length) (by simp) hx
  exact ⟨y, by rw [← s2]; exact chain_yields s3⟩

theorem trainable_split {ks : List AnyLayer} {n m : Nat} (ht : Trainable n m ks) : ∀ (k : Nat),
    ∃ i, Trainable n i (ks.take k) ∧ Trainable i m (ks.drop k) := by
  induction ht with
  | nil n => intro k; exact ⟨n, by simpa using .nil n, by simpa using .nil n⟩
  | @cons n i m l ls h1 h2 h3 ih =>
    intro k
    cases k with
    | zero => exact ⟨n, .nil n, .cons h1 h2 h3⟩
    | succ k =>
      obtain ⟨j, a, b⟩ := ih k
      exact ⟨j, .cons h1 h2 a, b⟩

theorem prediction_core {ks ks' : List AnyLayer} {x y : List ℝ} (h : ks'.map core = ks.map core)
    (hy : YieldsAll ks x y) : prediction ks' x = prediction ks x := by
  rw [prediction_of hy, prediction_of (yieldsAll_core hy h)]

theorem smoothAll_core {ks : List AnyLayer} {n m : Nat} (ht : Trainable n m ks) : ∀ {ks' : List AnyLayer}
    {x : List ℝ}, ks'.map core = ks.map core → x.length = n → SmoothAll ks x → SmoothAll ks' x := by
  induction ht with
  | nil n =>
    intro ks' x h _ _
    have : ks' = [] := by simpa using h
    subst this
    exact .nil x
  | @cons n k m l ls h1 h2 _ ih =>
    intro ks' x h hx hs
    cases ks' with
    | nil => cases h
    | cons l' ks' =>
      simp only [List.map_cons, List.cons.injEq] at h
      cases hs with
      | cons s1 s2 s3 s4 =>
        obtain ⟨y, hy⟩ := adjoint_of h1 hx
        obtain ⟨l1, e1, e2⟩ := hy.1 l rfl
        rw [s2] at e1
        cases e1
        rw [s3] at e2
        cases e2
        obtain ⟨l2, e3, e4⟩ := hy.1 l' h.1
        exact .cons (smoothAt_core h.1 s1) e3 e4 (ih h.2 hy.2.1 s4)

theorem smoothFrom_core {ks ks' : List AnyLayer} {n m : Nat} (ht : Trainable n m ks) {x : List ℝ}
    (h : ks'.map core = ks.map core) (hx : x.length = n) (k : Nat) (hs : SmoothFrom k ks x) :
    SmoothFrom k ks' x := by
  obtain ⟨i, t1, t2⟩ := trainable_split ht k
  obtain ⟨es, y, _, s2, s3, _⟩ := stages_of t1 (List.range (ks.take k).length) (by simp) hx
  have hy : YieldsAll (ks.take k) x y := by rw [← s2]; exact chain_yields s3
  have e1 : (ks'.take k).map core = (ks.take k).map core := by rw [List.map_take, h, List.map_take]
  have e2 : (ks'.drop k).map core = (ks.drop k).map core := by rw [List.map_drop, h, List.map_drop]
  unfold SmoothFrom at hs ⊢
  rw [prediction_core e1 hy]
  refine smoothAll_core t2 e2 ?_ hs
  rw [prediction_of hy]
  exact s3.length.2

theorem smoothFrom_of_all {ks : List AnyLayer} {x : List ℝ} (h : SmoothAll ks x) : ∀ k, SmoothFrom k ks x := by
  induction h with
  | nil x => intro k; unfold SmoothFrom; simpa using SmoothAll.nil _
  | cons h1 h2 h3 h4 ih =>
    intro k
    cases k with
    | zero => exact .cons h1 h2 h3 h4
    | succ k =>
      have := ih k
      unfold SmoothFrom at this ⊢
      simpa only [List.drop_succ_cons, List.take_succ_cons, prediction, h2, h3] using this

theorem goodSample_of_all {ks : List AnyLayer} {f : LossFn} {n m : Nat} {x t : List ℝ}
    (h : FitSample ks f n m x t) (hs : SmoothAll ks x) : GoodSample ks f n m x t :=
  ⟨h, fun _ _ _ _ => smoothFrom_of_all hs _⟩

theorem fitSample_core {ks ks' : List AnyLayer} {f : LossFn} {n m : Nat} {x t : List ℝ}
    (ht : Trainable n m ks) (h : ks'.map core = ks.map core) (hg : FitSample ks f n m x t) :
    FitSample ks' f n m x t := by
  obtain ⟨y, hy⟩ := yieldsAll_of_trainable ht hg.size
  refine ⟨hg.size, hg.target, ?_⟩
  rw [prediction_core h hy]
  exact hg.loss

theorem goodSample_core {ks ks' : List AnyLayer} {f : LossFn} {n m : Nat} {x t : List ℝ}
    (ht : Trainable n m ks) (h : ks'.map core = ks.map core) (hg : GoodSample ks f n m x t) :
    GoodSample ks' f n m x t := by
  refine ⟨fitSample_core ht h hg.toFitSample, fun j l hj hp => ?_⟩
  have hlt := (List.getElem?_eq_some_iff.mp hj).1
  have hlen : ks'.length = ks.length := by simpa using congrArg List.length h
  have hk : ks[j]? = some (ks[j]'(by omega)) := List.getElem?_eq_getElem (by omega)
  refine smoothFrom_core ht h hg.size _ (hg.smooth j _ hk ?_)
  have hc := congrArg (fun z => z[j]?) h
  simp only [List.getElem?_map, hj, hk, Option.map_some, Option.some.injEq] at hc
  rw [← params_of_core hc]
  exact hp

/-! ### A list of samples -/

theorem steps_path {g : DLGraph} {p : List Nat} {q : Nat} {ks0 : List AnyLayer} {f : LossFn} {nin m : Nat}
    {inv : ℝ} (hok : Ok g) (hl : Lists g) (hp : IsTrainingPath g p q) (hne : p ≠ [])
    (h0 : Trainable nin m ks0) :
    ∀ (samples : List (List ℝ × List ℝ)) (n : Net) (ks : List AnyLayer), n.graph = g →
    Ready n p q ks f nin m inv → ks.map core = ks0.map core →
    (∀ s ∈ samples, FitSample ks0 f nin m s.1 s.2) →
    ∃ n' ks', each (fun n s => n.step s.1 s.2) samples n = .ok (n', none) ∧ n'.graph = g ∧
      Ready n' p q ks' f nin m inv ∧ ks'.map core = ks0.map core ∧
      (∀ i, i ∉ p → i ≠ q → n'.layers[i]? = n.layers[i]?) ∧
      ∀ (j : Nat) (l l0 : AnyLayer), ks[j]? = some l → ks0[j]? = some l0 → ∃ l', ks'[j]? = some l' ∧
        ∀ b k, Learned l0 b → b < l0.params.length → k < (l0.params.getD b []).length →
          (∀ s ∈ samples, SmoothFrom (j + 1) ks0 s.1) →
          HasDerivAt (fun v => cost f m inv samples (ks0.set j (withParam l0 b k v)))
            (entry l'.paramGrads b k - entry l.paramGrads b k) (entry l0.params b k) := by
  intro samples
  induction samples with
  | nil =>
    intro n ks hg hr hc _
    refine ⟨n, ks, rfl, hg, hr, hc, fun _ _ _ => rfl, ?_⟩
    intro j l l0 hj _
    refine ⟨l, hj, fun b k _ _ _ _ => ?_⟩
    rw [sub_self]
    exact hasDerivAt_const _ _
  | cons s samples ih =>
    intro n ks hg hr hc hs
    have hgood := fitSample_core h0 hc (hs s (by simp))
    obtain ⟨n1, ks1, a1, a2, a3, a4, a5, a6⟩ := step_path (by rw [hg]; exact hok) (by rw [hg]; exact hl)
      (by rw [hg]; exact hp) hne hr hgood
    obtain ⟨n2, ks2, b1, b2, b3, b4, b5, b6⟩ := ih n1 ks1 (a2.trans hg) a3 (a4.trans hc)
      fun s' hs' => hs s' (by simp [hs'])
    refine ⟨n2, ks2, ?_, b2, b3, b4, fun i h1 h2 => (b5 i h1 h2).trans (a5 i h1 h2), ?_⟩
    · show (n.step s.1 s.2 >>= fun r => _) = _
      rw [a1, Exec.bind_ok]
      exact b1
    · intro j l l0 hj hj0
      obtain ⟨l1, c1, c2⟩ := a6 j l hj
      obtain ⟨l2, d1, d2⟩ := b6 j l1 l0 c1 hj0
      refine ⟨l2, d1, fun b k h1 h2 h3 hsm => ?_⟩
      have hcore : core l = core l0 := by
        have := congrArg (fun z => z[j]?) hc
        simp only [List.getElem?_map, hj, hj0, Option.map_some, Option.some.injEq] at this
        exact this
      have hps := params_of_core hcore
      obtain ⟨e1, e2⟩ := c2 b k ((learned_of_core hcore b).mpr h1) (by rw [hps]; exact h2)
        (by rw [hps]; exact h3) (smoothFrom_core h0 hc hgood.size _ (hsm s (by simp)))
      have e3 := d2 b k h1 h2 h3 fun s' hs' => hsm s' (by simp [hs'])
      have hfun : (fun v => objective f m inv s.2 (prediction (ks.set j (withParam l b k v)) s.1))
          = fun v => objective f m inv s.2 (prediction (ks0.set j (withParam l0 b k v)) s.1) := by
        funext v
        obtain ⟨y, hy⟩ := e1 v
        rw [prediction_core (ks' := ks0.set j (withParam l0 b k v)) ?_ hy]
        rw [List.map_set, List.map_set, hc, core_withParam hcore]
      rw [hfun, hps] at e2
      have := e2.add e3
      refine this.congr_deriv ?_
      ring

/-! ### Gradient descent -/

theorem entry_flatten {ps : List (List ℝ)} {b k : Nat} (hb : b < ps.length)
    (hk : k < (ps.getD b []).length) :
    entry ps b k = vec ps.flatten (Opt.position (ps.map List.length) b k) := by
  have h : ps[b]? = some (ps.getD b []) := by simp [hb]
  have e := Opt.flatten_pos ps h hk
  unfold entry vec
  rw [List.getD_eq_getElem?_getD (l := ps.flatten), e, ← List.getD_eq_getElem?_getD]

theorem params_setParams {a : AnyLayer} {ps : List (List ℝ)} (h : ps.length = a.params.length) :
    (a.setParams ps).params = ps ∧ (a.setParams ps).paramGrads = a.paramGrads ∧
      (a.setParams ps).kind = a.kind := by
  cases a with
  | dense l => 
    match ps, h with
    | [w, c], _ => exact ⟨rfl, rfl, rfl⟩
  | conv l => 
    match ps, h with
    | [w, c], _ => exact ⟨rfl, rfl, rfl⟩
  | rnn f f1 l => 
    match ps, h with
    | [u1, u2, u3, u4, u5], _ => exact ⟨rfl, rfl, rfl⟩
  | _ =>
    have : ps = [] := List.length_eq_zero_iff.mp h
    subst this
    exact ⟨rfl, rfl, rfl⟩

theorem paramGrads_setParamGrads {a : AnyLayer} {gs : List (List ℝ)}
    (h : gs.length = a.paramGrads.length) :
    (a.setParamGrads gs).paramGrads = gs ∧ (a.setParamGrads gs).params = a.params ∧
      (a.setParamGrads gs).kind = a.kind ∧ core (a.setParamGrads gs) = core a := by
  cases a with
  | dense l => 
    match gs, h with
    | [w, c], _ => exact ⟨rfl, rfl, rfl, rfl⟩
  | conv l => 
    match gs, h with
    | [w, c], _ => exact ⟨rfl, rfl, rfl, rfl⟩
  | rnn f f1 l => 
    match gs, h with
    | [u1, u2, u3, u4, u5], _ => exact ⟨rfl, rfl, rfl, rfl⟩
  | _ =>
    have : gs = [] := List.length_eq_zero_iff.mp h
    subst this
    exact ⟨rfl, rfl, rfl, rfl⟩

theorem blocks_length (a : AnyLayer) : a.kind.blockSizes.length = a.params.length ∧
    a.kind.blockSizes.length = a.paramGrads.length := by
  cases a <;> exact ⟨rfl, rfl⟩

theorem train_layer (eta : ℝ) (a : AnyLayer) (hp : a.params.map List.length = a.kind.blockSizes)
    (hg : a.paramGrads.map List.length = a.kind.blockSizes) :
    ∃ P G, a.train (Opt.gdStep eta) () = (((), (a.setParams P).setParamGrads G), .ok ()) ∧
      P.map List.length = a.kind.blockSizes ∧ G.map List.length = a.kind.blockSizes ∧
      (∀ b k, b < a.params.length → k < (a.params.getD b []).length →
        entry P b k = entry a.params b k - eta * entry a.paramGrads b k ∧ entry G b k = 0) := by
  obtain ⟨l', h1, h2, h3, h4, h5, h6⟩ := Opt.trainSelf_spec (Opt.gdStep eta)
    ⟨a.kind, a.params, a.paramGrads⟩ hp hg ()
  have h3' : l'.params.map List.length = a.kind.blockSizes := h3
  have h4' : l'.grads.map List.length = a.kind.blockSizes := h4
  refine ⟨l'.params, l'.grads, ?_, h3', h4', ?_⟩
  · unfold AnyLayer.train
    rw [h1]
  · intro b k hb hk
    have hlen : ∀ {qs : List (List ℝ)}, qs.map List.length = a.kind.blockSizes →
        b < qs.length ∧ k < (qs.getD b []).length := by
      intro qs hq
      have e : qs.map List.length = a.params.map List.length := hq.trans hp.symm
      have e1 : qs.length = a.params.length := by simpa using congrArg List.length e
      have e2 := congrArg (fun l : List Nat => l[b]?) e
      simp only [List.getElem?_map] at e2
      rw [List.getElem?_eq_getElem (by omega), List.getElem?_eq_getElem hb] at e2
      simp only [Option.map_some, Option.some.injEq] at e2
      refine ⟨by omega, ?_⟩
      rw [List.getD_eq_getElem?_getD, List.getElem?_eq_getElem hb] at hk
      rw [List.getD_eq_getElem?_getD, List.getElem?_eq_getElem (by omega)]
      simp only [Option.getD_some] at hk ⊢
      omega
    obtain ⟨p1, p2⟩ := hlen hp
    obtain ⟨g1, g2⟩ := hlen hg
    obtain ⟨p3, p4⟩ := hlen h3'
    obtain ⟨g3, g4⟩ := hlen h4'
    have hpos : Opt.position a.kind.blockSizes b k < a.kind.paramCount := by
      rw [Opt.paramCount_eq]
      have : a.kind.blockSizes[b]? = some (a.params.getD b []).length := by
        rw [← hp, List.getElem?_map]
        simp [hb]
      exact Opt.position_lt _ this hk
    rw [entry_flatten p1 p2, entry_flatten g1 g2, entry_flatten p3 p4, entry_flatten g3 g4, hp, hg, h3', h4']
    exact ⟨h5 _ hpos, h6 _ hpos⟩

theorem trainLayers_gd (eta : ℝ) : ∀ (ls : List AnyLayer),
    (∀ a ∈ ls, a.params.map List.length = a.kind.blockSizes ∧
      a.paramGrads.map List.length = a.kind.blockSizes) →
    trainLayers (Opt.gdStep eta) () ls
      = (((), ls.map fun a => (a.train (Opt.gdStep eta) ()).1.2), .ok ()) := by
  intro ls
  induction ls with
  | nil => intro _; rfl
  | cons a ls ih =>
    intro h
    obtain ⟨P, G, h1, _⟩ := train_layer eta a (h a (by simp)).1 (h a (by simp)).2
    unfold trainLayers
    rw [h1]
    dsimp only
    rw [ih fun a' ha' => h a' (by simp [ha'])]
    simp [h1]

theorem grads_fit {a : AnyLayer} {n m : Nat} (hm : Maps n m a) (hg : HasGrads n m a)
    (hp : a.params.map List.length = a.kind.blockSizes) :
    a.paramGrads.map List.length = a.kind.blockSizes := by
  cases a with
  | dense l =>
    obtain ⟨h1, h2, _⟩ := hm
    obtain ⟨_, h4, h5⟩ := hg
    simp [AnyLayer.paramGrads, AnyLayer.kind, Opt.Kind.blockSizes, h1, h2, h4, h5]
  | conv l =>
    obtain ⟨_, h4, h5, _⟩ := hg
    simp [AnyLayer.params, AnyLayer.kind, Opt.Kind.blockSizes] at hp
    simp [AnyLayer.paramGrads, AnyLayer.kind, Opt.Kind.blockSizes, h4, h5, hp]
  | act f l => rfl
  | maxPool l => rfl
  | avgPool l => rfl
  | dropout mx raw l => exact hg.elim
  | rnn f f1 l => exact hg.elim
  | loss f l => exact hg.elim

theorem hasGrads_train {a : AnyLayer} {n m : Nat} (hm : Maps n m a) (hg : HasGrads n m a)
    {P G : List (List ℝ)} (hP : P.map List.length = a.kind.blockSizes)
    (hG : G.map List.length = a.kind.blockSizes) :
    HasGrads n m ((a.setParams P).setParamGrads G) := by
  cases a with
  | dense l =>
    obtain ⟨w, b, rfl⟩ := two_of_length (ps := P) (by simpa [AnyLayer.kind, Opt.Kind.blockSizes] using congrArg List.length hP)
    obtain ⟨w', b', rfl⟩ := two_of_length (ps := G) (by simpa [AnyLayer.kind, Opt.Kind.blockSizes] using congrArg List.length hG)
    obtain ⟨h1, h2, _⟩ := hm
    simp [AnyLayer.kind, Opt.Kind.blockSizes, h1, h2] at hG
    exact ⟨hg.1, hG.1, hG.2⟩
  | conv l =>
    obtain ⟨w, b, rfl⟩ := two_of_length (ps := P) (by simpa [AnyLayer.kind, Opt.Kind.blockSizes] using congrArg List.length hP)
    obtain ⟨w', b', rfl⟩ := two_of_length (ps := G) (by simpa [AnyLayer.kind, Opt.Kind.blockSizes] using congrArg List.length hG)
    simp [AnyLayer.kind, Opt.Kind.blockSizes] at hG hP
    exact ⟨hg.1, hG.1.trans hP.1.symm, hG.2, hg.2.2.2⟩
  | act f l =>
    have h1 : P = [] := by simpa [AnyLayer.kind, Opt.Kind.blockSizes] using hP
    have h2 : G = [] := by simpa [AnyLayer.kind, Opt.Kind.blockSizes] using hG
    subst h1 h2
    exact hg
  | maxPool l =>
    have h1 : P = [] := by simpa [AnyLayer.kind, Opt.Kind.blockSizes] using hP
    have h2 : G = [] := by simpa [AnyLayer.kind, Opt.Kind.blockSizes] using hG
    subst h1 h2
    exact hg
  | avgPool l =>
    have h1 : P = [] := by simpa [AnyLayer.kind, Opt.Kind.blockSizes] using hP
    have h2 : G = [] := by simpa [AnyLayer.kind, Opt.Kind.blockSizes] using hG
    subst h1 h2
    exact hg
  | dropout mx raw l => exact hg.elim
  | rnn f f1 l => exact hg.elim
  | loss f l => exact hg.elim

/-- What `train` makes of a layer. -/
def gdLayer (eta : ℝ) (a : AnyLayer) : AnyLayer := (a.train (Opt.gdStep eta) ()).1.2

theorem gdLayer_spec {a : AnyLayer} {n m : Nat} (eta : ℝ) (hm : Maps n m a) (hg : HasGrads n m a)
    (hp : a.params.map List.length = a.kind.blockSizes) :
    Maps n m (gdLayer eta a) ∧ HasGrads n m (gdLayer eta a) ∧
    (gdLayer eta a).params.map List.length = (gdLayer eta a).kind.blockSizes ∧
    (gdLayer eta a).kind = a.kind ∧
    (∃ P, P.map List.length = a.params.map List.length ∧ (gdLayer eta a).params = P ∧
      core (gdLayer eta a) = core (a.setParams P)) ∧
    ∀ b k, b < a.params.length → k < (a.params.getD b []).length →
      entry (gdLayer eta a).params b k = entry a.params b k - eta * entry a.paramGrads b k ∧
      entry (gdLayer eta a).paramGrads b k = 0 := by
  obtain ⟨P, G, h1, h2, h3, h4⟩ := train_layer eta a hp (grads_fit hm hg hp)
  have hl := blocks_length a
  obtain ⟨a1, a2, a3⟩ := params_setParams (a := a) (ps := P)
    (by have := congrArg List.length h2; simp at this; omega)
  obtain ⟨b1, b2, b3, b4⟩ := paramGrads_setParamGrads (a := a.setParams P) (gs := G)
    (by rw [a2]; have := congrArg List.length h3; simp at this; omega)
  have e : gdLayer eta a = (a.setParams P).setParamGrads G := by unfold gdLayer; rw [h1]
  rw [e]
  refine ⟨maps_core b4 (maps_setParams hm (h2.trans hp.symm)), hasGrads_train hm hg h2 h3, ?_, ?_, ?_, ?_⟩
  · rw [b2, a1, b3, a3]; exact h2
  · rw [b3, a3]
  · exact ⟨P, h2.trans hp.symm, by rw [b2, a1], b4⟩
  · rw [b1, b2, a1]; exact h4

end

end Verif.Net
