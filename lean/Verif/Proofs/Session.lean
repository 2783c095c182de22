import Verif.Proofs.BisimStep
import Verif.Spec.Session

/-! Sessions of training and predicting. -/

namespace Verif.Net
open Verif.Spec Verif.Graph

noncomputable section

theorem maps_of_shape {a b : AnyLayer} {n m : Nat} (h : shape a = shape b) (hm : Maps n m a) : Maps n m b :=
  maps_core (core_of_shape h) (maps_setParams hm (lengths_of_shape h).symm)

theorem pass_of_shape {a b : AnyLayer} {n m : Nat} (h : shape a = shape b) (hp : Pass n m a) : Pass n m b := by
  rcases hp.cases with ⟨mx, raw, l, rfl, h1, h2⟩ | hm
  · have := (core_of_shape h).symm
    exact pass_core this.symm (show Pass n m (.dropout mx raw l) from ⟨h1, h2⟩)
  · exact Pass.maps (maps_of_shape h hm)

theorem forall₂_map {β : Type} {φ : AnyLayer → β} {as bs : List AnyLayer} (h : List.Forall₂ Ess as bs)
    (hφ : ∀ a b, Ess a b → φ a = φ b) : as.map φ = bs.map φ := by
  induction h with
  | nil => rfl
  | cons h _ ih => rw [List.map_cons, List.map_cons, hφ _ _ h, ih]

theorem getElem?_map_eq {β : Type} {φ : AnyLayer → β} {as bs : List AnyLayer} (h : as.map φ = bs.map φ) {i : Nat}
    {a : AnyLayer} (ha : as[i]? = some a) : ∃ b, bs[i]? = some b ∧ φ a = φ b := by
  have e := congrArg (fun l => l[i]?) h
  simp only [List.getElem?_map, ha, Option.map_some] at e
  cases hb : bs[i]? with
  | none => rw [hb] at e; cases e
  | some b => rw [hb] at e; simp at e; exact ⟨b, rfl, e⟩

theorem path_of_shape {as bs : List AnyLayer} (h : as.map shape = bs.map shape) {m : Nat} : ∀ {p : List Nat}
    {ks : List AnyLayer} {n : Nat}, p.map (fun i => as[i]?) = ks.map some → PassAll n m ks →
    ∃ ks', p.map (fun i => bs[i]?) = ks'.map some ∧ PassAll n m ks' := by
  intro p
  induction p with
  | nil =>
    intro ks n h1 h2
    have : ks = [] := by simpa using h1.symm
    subst this
    exact ⟨[], rfl, h2⟩
  | cons i p ih =>
    intro ks n h1 h2
    cases h2 with
    | nil => cases h1
    | cons h3 h4 =>
      simp only [List.map_cons, List.cons.injEq] at h1
      obtain ⟨ks', e1, e2⟩ := ih h1.2 h4
      obtain ⟨b, e3, e4⟩ := getElem?_map_eq h h1.1
      exact ⟨b :: ks', by simp [e1, e3], .cons (pass_of_shape e4 h3) e2⟩

theorem shape_loss {f : LossFn} {l : Loss.Layer} {b : AnyLayer} (h : shape (.loss f l) = shape b) :
    ∃ l', b = .loss f l' := by
  have := core_of_shape h
  rw [show (AnyLayer.loss f l).setParams b.params = .loss f l from rfl] at this
  exact core_loss this.symm

theorem gradFit_train {σ : Type} (opt : σ → ℝ → ℝ → σ × ℝ) (s : σ) {a : AnyLayer} (h : GradFit a) :
    GradFit (a.train opt s).1.2 := by
  unfold AnyLayer.train
  dsimp only
  generalize (Opt.trainSelf opt s ⟨a.kind, a.params, a.paramGrads⟩).state.2.params = ps
  generalize (Opt.trainSelf opt s ⟨a.kind, a.params, a.paramGrads⟩).state.2.grads = gs
  cases a with
  | dense l =>
    match ps, gs with
    | [], [] | [], [_] | [], [_, _] | [], _ :: _ :: _ :: _ => exact h
    | [_], [] | [_], [_] | [_], [_, _] | [_], _ :: _ :: _ :: _ => exact h
    | [_, _], [] | [_, _], [_] | [_, _], [_, _] | [_, _], _ :: _ :: _ :: _ => exact h
    | _ :: _ :: _ :: _, [] | _ :: _ :: _ :: _, [_] | _ :: _ :: _ :: _, [_, _]
    | _ :: _ :: _ :: _, _ :: _ :: _ :: _ => exact h
  | conv l =>
    match ps, gs with
    | [], [] | [], [_] | [], [_, _] | [], _ :: _ :: _ :: _ => exact h
    | [_], [] | [_], [_] | [_], [_, _] | [_], _ :: _ :: _ :: _ => exact h
    | [_, _], [] | [_, _], [_] | [_, _], [_, _] | [_, _], _ :: _ :: _ :: _ => exact h
    | _ :: _ :: _ :: _, [] | _ :: _ :: _ :: _, [_] | _ :: _ :: _ :: _, [_, _]
    | _ :: _ :: _ :: _, _ :: _ :: _ :: _ => exact h
  | rnn f f1 l =>
    unfold AnyLayer.setParamGrads
    split
    · rename_i e
      unfold AnyLayer.setParams at e
      split at e <;> simp_all
    · rename_i e
      unfold AnyLayer.setParams at e
      split at e <;> simp_all
    · trivial
    · unfold AnyLayer.setParams
      split <;> simp_all [GradFit]
  | _ => exact h

theorem simple_of_shape {a b : AnyLayer} (h : shape a = shape b) (hs : Simple a) : Simple b := by
  refine simple_of_core (core_of_shape h).symm ?_
  cases a with
  | dense l => unfold AnyLayer.setParams; split <;> simp_all [Simple]
  | conv l => unfold AnyLayer.setParams; split <;> simp_all [Simple]
  | rnn => exact hs.elim
  | _ => exact hs

theorem nonRec_of_shape {a b : AnyLayer} (h : shape a = shape b) (hs : NonRec a) : NonRec b := by
  refine nonRec_of_core (core_of_shape h).symm ?_
  cases a with
  | dense l => unfold AnyLayer.setParams; split <;> simp_all [NonRec]
  | conv l => unfold AnyLayer.setParams; split <;> simp_all [NonRec]
  | rnn => exact hs.elim
  | _ => exact hs

theorem trainLayers_all {σ : Type} (opt : σ → ℝ → ℝ → σ × ℝ) (P : AnyLayer → Prop)
    (hP : ∀ (s : σ) (a : AnyLayer), P a → P (a.train opt s).1.2) : ∀ (ls : List AnyLayer) (s : σ), (∀ a ∈ ls, P a) →
    ∀ a ∈ (trainLayers opt s ls).1.2, P a := by
  intro ls
  induction ls with
  | nil => intro s _ a ha; cases ha
  | cons b bs ih =>
    intro s h a ha
    have hb := hP s b (h b (by simp))
    unfold trainLayers at ha
    split at ha
    · rename_i s' b' e
      rw [e] at hb
      rcases List.mem_cons.mp ha with rfl | ha
      · exact hb
      · exact ih s' (fun c hc => h c (by simp [hc])) a ha
    · rename_i s' b' e1 _ e2
      rw [e2] at hb
      rcases List.mem_cons.mp ha with rfl | ha
      · exact hb
      · exact h a (by simp [ha])

/-- What `NetRel` asks beyond `Ess` only depends on shapes, and on the gradient buffers of dense layers. -/
theorem NetRel.of {p : List Nat} {q nin m : Nat} {n1 n2 n1' n2' : Net} (h : NetRel p q nin m n1 n2)
    (hg : n1'.graph = n2'.graph) (hE : List.Forall₂ Ess n1'.layers n2'.layers)
    (hf : ∀ a ∈ n1'.layers, GradFit a ∧ NonRec a) (hs : n1.layers.map shape = n1'.layers.map shape) :
    NetRel p q nin m n1' n2' := by
  obtain ⟨ks, h1, h2⟩ := h.path
  obtain ⟨f, l, h3⟩ := h.loss
  obtain ⟨b, h4, h5⟩ := getElem?_map_eq hs h3
  obtain ⟨l', rfl⟩ := shape_loss h5
  exact ⟨hg, hE, hf, path_of_shape hs h1 h2, f, l', h4⟩

theorem shapes_of_cores {as bs : List AnyLayer} (h : as.map core = bs.map core) : as.map shape = bs.map shape := by
  apply List.ext_getElem?
  intro i
  rw [List.getElem?_map, List.getElem?_map]
  cases ha : as[i]? with
  | none =>
    have := congrArg List.length h
    simp at this
    rw [List.getElem?_eq_none (by rw [← this]; exact List.getElem?_eq_none_iff.mp ha)]
  | some a =>
    obtain ⟨b, h1, h2⟩ := getElem?_map_eq h ha
    rw [h1, Option.map_some, Option.map_some, shape_of_core h2]

theorem NetRel.step {p : List Nat} {q nin m : Nat} {n1 n2 : Net} (h : NetRel p q nin m n1 n2) (hok : Ok n1.graph)
    (hl : Lists n1.graph) (hp : IsTrainingPath n1.graph p q) (hne : p ≠ []) {x : List ℝ} (hx : x.length = nin)
    (t : List ℝ) : ERel (fun r1 r2 => r1.2 = r2.2 ∧ r1.1.graph = n1.graph ∧ NetRel p q nin m r1.1 r2.1)
      (n1.step x t) (n2.step x t) := by
  refine (ERel.ok_left (step_rel h hok hl hp hne hx t)).mono ?_
  rintro ⟨n1', e1⟩ ⟨n2', e2⟩ ⟨⟨h1, h2, h3, h4, h5⟩, h6, _⟩
  exact ⟨h1, h2, h.of (h2.trans h3.symm) h4 h5 (shapes_of_cores (step_same h6).2).symm⟩

theorem NetRel.train {p : List Nat} {q nin m : Nat} {n1 n2 : Net} (h : NetRel p q nin m n1 n2) {σ : Type}
    (opt : σ → ℝ → ℝ → σ × ℝ) (s : σ) : (n1.train opt s).1.1 = (n2.train opt s).1.1 ∧
      (n1.train opt s).2 = (n2.train opt s).2 ∧ (n1.train opt s).1.2.graph = n1.graph ∧
      NetRel p q nin m (n1.train opt s).1.2 (n2.train opt s).1.2 := by
  obtain ⟨h1, h2, h3⟩ := trainLayers_rel opt h.ess s
  refine ⟨h1, h2, rfl, h.of h.graph h3 ?_ (shape_trainLayers opt n1.layers s).symm⟩
  exact trainLayers_all opt (fun a => GradFit a ∧ NonRec a)
    (fun s a ha => ⟨gradFit_train opt s ha.1, nonRec_of_shape (shape_train opt s a).symm ha.2⟩) _ s h.fit

/-! ### Calls that do not train -/

theorem ess_set {ls : List AnyLayer} {i : Nat} {l l' : AnyLayer} (h : ls[i]? = some l) (hc : Ess l l') :
    List.Forall₂ Ess ls (ls.set i l') := by
  refine forall₂_of (by simp) ?_
  intro j a b ha hb
  rw [List.getElem?_set] at hb
  split at hb
  · rename_i e
    subst e
    rw [h] at ha
    cases ha
    split at hb
    · cases hb; exact hc
    · cases hb
  · rw [ha] at hb; cases hb; exact Ess.refl a

theorem ess_refl (ls : List AnyLayer) : List.Forall₂ Ess ls ls :=
  forall₂_of rfl fun i a b ha hb => by rw [ha] at hb; cases hb; exact Ess.refl a

theorem ess_trans {as bs cs : List AnyLayer} (h : List.Forall₂ Ess as bs) (h' : List.Forall₂ Ess bs cs) :
    List.Forall₂ Ess as cs := by
  induction h generalizing cs with
  | nil => cases h'; exact .nil
  | cons h1 _ ih => cases h' with
    | cons h2 h3 => exact .cons (h1.trans h2) (ih h3)

theorem draws_forward {a a' : AnyLayer} {v : List ℝ} {e : Option String} (h : a.forward v = .ok (a', e)) :
    draws a' = draws a := by
  have hc := core_forward h
  cases a with
  | dropout mx raw l => cases h; rfl
  | _ => cases a' <;> simp only [core, reduceCtorEq] at hc <;> rfl

theorem forwardAt_ess {x : List ℝ} {ls ls' : List AnyLayer} {s : Source × Nat} {e : Option String}
    (h : forwardAt x ls s = .ok (ls', e)) : List.Forall₂ Ess ls ls' := by
  unfold forwardAt at h
  split at h
  · obtain ⟨l, h1, h⟩ := Exec.bind_eq_ok h
    obtain ⟨r, h2, h⟩ := Exec.bind_eq_ok h
    cases h
    exact ess_set (rd_eq_ok h1) ⟨(core_forward h2).symm, (extra_forward h2).symm, (draws_forward h2).symm⟩
  · cases h; exact ess_refl _
  · cases h

theorem predict_ess {n n' : Net} {x : List ℝ} {r : Except String (List ℝ)}
    (h : n.predict x = .ok (n', r)) : n'.graph = n.graph ∧ List.Forall₂ Ess n.layers n'.layers := by
  unfold Net.predict at h
  split at h
  · cases h; exact ⟨rfl, ess_refl _⟩
  · obtain ⟨⟨ls, e⟩, h1, h⟩ := Exec.bind_eq_ok h
    have key : List.Forall₂ Ess n.layers ls :=
      each_inv (fun s => List.Forall₂ Ess n.layers s)
        (fun s b s' e hs h => ess_trans hs (forwardAt_ess h)) _ _ _ _ (ess_refl _) h1
    cases e with
    | some m => cases h; exact ⟨rfl, key⟩
    | none =>
      obtain ⟨l, _, h⟩ := Exec.bind_eq_ok h
      dsimp only at h
      split at h
      · cases h; exact ⟨rfl, key⟩
      · cases h; exact ⟨rfl, key⟩
      · cases h

theorem resetScore_ess (n : Net) : n.resetScore.graph = n.graph ∧ List.Forall₂ Ess n.layers n.resetScore.layers := by
  refine ⟨rfl, forall₂_of (by simp [Net.resetScore]) ?_⟩
  intro i a b ha hb
  have hb : (n.layers.mapIdx _)[i]? = some b := hb
  rw [List.getElem?_mapIdx, ha, Option.map_some] at hb
  cases hb
  cases a with
  | loss f l => dsimp only; split <;> exact ⟨rfl, rfl, rfl⟩
  | _ => exact Ess.refl _

theorem NetRel.left {p : List Nat} {q nin m : Nat} {n1 n2 n1' : Net} (h : NetRel p q nin m n1 n2)
    (hg : n1'.graph = n1.graph) (hE : List.Forall₂ Ess n1.layers n1'.layers) : NetRel p q nin m n1' n2 := by
  refine h.of (hg.trans h.graph) (ess_trans ?_ h.ess) ?_ ?_
  · exact hE.flip.imp fun a b e => Ess.symm e
  · intro a ha
    obtain ⟨i, hi⟩ := List.getElem?_of_mem ha
    have hlt := (List.getElem?_eq_some_iff.mp hi).1
    rw [← hE.length_eq] at hlt
    have hi' := List.getElem?_eq_getElem hlt
    have he := (List.forall₂_iff_get.mp hE).2 i hlt (hE.length_eq ▸ hlt)
    obtain ⟨_, e⟩ := List.getElem?_eq_some_iff.mp hi
    simp only [List.get_eq_getElem, e] at he
    obtain ⟨f1, f2⟩ := h.fit _ (List.mem_of_getElem? hi')
    exact ⟨gradFit_of_ess he f1, nonRec_of_core he.1 f2⟩
  · exact forall₂_map hE fun a b e => shape_of_core e.1

/-! ### Sessions -/

theorem forward_pass {n m : Nat} {a : AnyLayer} {v : List ℝ} (hm : Pass n m a) (hf : GradFit a) (hv : v.length = n) :
    ∃ a' y, a.forward v = .ok (a', none) ∧ a'.lastOutput = .ok y ∧ y.length = m := by
  rcases hm.cases with ⟨mx, raw, l, rfl, rfl, h2⟩ | hm
  · exact ⟨_, _, rfl, rfl, hf.2.trans h2⟩
  · obtain ⟨y, hy1, hy2⟩ := yields_of_maps hm hv
    obtain ⟨a', a1, a2⟩ := hy2 a rfl
    exact ⟨a', y, a1, a2, hy1⟩

theorem each_pass (x : List ℝ) : ∀ (is : List Nat) (s : Source) (n m : Nat) (ks ls : List AnyLayer) (v : List ℝ),
    PassAll n m ks → is.map (fun i => ls[i]?) = ks.map some → (∀ k ∈ ks, GradFit k) → is.Nodup → v.length = n →
    value ls x s = .ok v →
    ∃ ls' y, each (forwardAt x) (pathArcs s is) ls = .ok (ls', none) ∧ value ls' x (pathEnd s is) = .ok y := by
  intro is
  induction is with
  | nil => intro s n m ks ls v _ _ _ _ _ hval; exact ⟨ls, v, rfl, hval⟩
  | cons i is ih =>
    intro s n m ks ls v hm hk hf hn hv hval
    cases hm with
    | nil => cases hk
    | @cons _ k _ l ks hml hrest =>
    simp only [List.map_cons, List.cons.injEq] at hk
    obtain ⟨hl, hk⟩ := hk
    have hlt : i < ls.length := (List.getElem?_eq_some_iff.mp hl).1
    obtain ⟨l', y, f1, f2, f3⟩ := forward_pass hml (hf l (by simp)) hv
    have f4 : forwardAt x ls (s, i) = .ok (ls.set i l', none) := by
      unfold forwardAt
      dsimp only
      rw [hval]
      dsimp only
      rw [rd_of_some hl, Exec.bind_ok, f1]
      rfl
    obtain ⟨ls', y', g1, g2⟩ := ih (.output i) k m ks (ls.set i l') y hrest
      (by
        rw [← hk]
        refine List.map_congr_left fun j hj => List.getElem?_set_ne ?_
        rintro rfl
        exact (List.nodup_cons.mp hn).1 hj)
      (fun k hk => hf k (by simp [hk])) (List.nodup_cons.mp hn).2 f3 (by
        show (rd _ _ >>= _) = _
        rw [rd_of_some (show (ls.set i l')[i]? = some l' by simp [hlt]), Exec.bind_ok]
        exact f2)
    refine ⟨ls', y', ?_, g2⟩
    show (forwardAt x ls (s, i) >>= fun r => _) = _
    rw [f4, Exec.bind_ok]
    exact g1

theorem pathEnd_last : ∀ (l : List Nat) (s : Source) (h : l ≠ []), pathEnd s l = .output (l.getLast h) := by
  intro l
  induction l with
  | nil => intro s h; exact absurd rfl h
  | cons i l ih =>
    intro s h
    cases l with
    | nil => rfl
    | cons j l => exact ih (.output i) (by simp)

theorem predict_defined {p : List Nat} {q nin m : Nat} {n1 n2 : Net} (h : NetRel p q nin m n1 n2) (hok : Ok n1.graph)
    (hl : Lists n1.graph) (hp : IsTrainingPath n1.graph p q) (hne : p ≠ []) {x : List ℝ} (hx : x.length = nin) :
    ∃ n' y, n1.predict x = .ok (n', .ok y) := by
  obtain ⟨ks, h1, h2⟩ := h.path
  obtain ⟨a, rest, rfl⟩ := List.exists_cons_of_ne_nil hne
  obtain ⟨e1, e2, e3⟩ := path_facts hok hl hp.path
  have hf : ∀ k ∈ ks, GradFit k := by
    intro k hk
    have : some k ∈ (a :: rest).map (fun i => n1.layers[i]?) := by rw [h1]; exact List.mem_map_of_mem hk
    obtain ⟨i, _, hi⟩ := List.mem_map.mp this
    exact (h.fit k (List.mem_of_getElem? hi)).1
  obtain ⟨ls', y, g1, g2⟩ := each_pass x _ .external nin m ks n1.layers x h2 h1 hf hp.path.nodup hx rfl
  rw [pathEnd_last _ _ (by simp)] at g2
  unfold Net.predict
  rw [e1, e2, e3]
  dsimp only
  have f6 : each (forwardAt x) (List.map (fun i => (Source.external, i)) [a] ++
      ((a :: rest).zip rest).map fun p => (Source.output p.1, p.2)) n1.layers = .ok (ls', none) := by
    rw [pathArcs_zip]
    exact g1
  rw [f6, Exec.bind_ok]
  dsimp only
  obtain ⟨l, w1, w2⟩ := Exec.bind_eq_ok g2
  rw [w1, Exec.bind_ok, w2]
  exact ⟨_, _, rfl⟩

theorem session_rel {p : List Nat} {q nin m : Nat} {g : DLGraph} (hok : Ok g) (hl : Lists g)
    (hp : IsTrainingPath g p q) (hne : p ≠ []) {σ : Type} (opt : σ → ℝ → ℝ → σ × ℝ) : ∀ (cs : List UserCall),
    (∀ c ∈ cs, c.Sized nin) → ∀ (s : σ) (n1 n2 : Net), n1.graph = g → NetRel p q nin m n1 n2 →
    ERel (fun r1 r2 => r1.2 = r2.2 ∧ r1.1.1 = r2.1.1 ∧ NetRel p q nin m r1.1.2 r2.1.2) (session opt cs (s, n1))
      (session opt (cs.filter UserCall.learns) (s, n2)) := by
  intro cs
  induction cs with
  | nil => intro _ s n1 n2 _ h; exact ⟨rfl, rfl, h⟩
  | cons c cs ih =>
    intro hc s n1 n2 hg h
    have hcs : ∀ c ∈ cs, c.Sized nin := fun c hc' => hc c (by simp [hc'])
    have hc1 := hc c (by simp)
    subst hg
    cases c with
    | predict x =>
      obtain ⟨n', y, e⟩ := predict_defined h hok hl hp hne hc1
      show ERel _ (n1.predict x >>= _) (session opt (cs.filter _) (s, n2))
      rw [e, Exec.bind_ok]
      obtain ⟨e1, e2⟩ := predict_ess e
      exact ih hcs s n' n2 e1 (h.left e1 e2)
    | resetScore =>
      obtain ⟨e1, e2⟩ := resetScore_ess n1
      exact ih hcs s n1.resetScore n2 e1 (h.left e1 e2)
    | step x t =>
      show ERel _ (n1.step x t >>= _) (n2.step x t >>= _)
      refine (h.step hok hl hp hne hc1 t).bind ?_
      rintro ⟨n1', e1⟩ ⟨n2', e2⟩ ⟨rfl, h2, h3⟩
      refine (ih hcs s n1' n2' h2 h3).bind ?_
      rintro q1 q2 ⟨h4, h5, h6⟩
      exact ⟨by dsimp only; rw [h4], h5, h6⟩
    | train =>
      obtain ⟨h1, h2, h3, h4⟩ := h.train opt s
      show ERel _ (session opt (.train :: cs) (s, n1)) (session opt (.train :: cs.filter _) (s, n2))
      unfold session
      dsimp only
      rw [← h2]
      have hr := ih hcs (n1.train opt s).1.1 (n1.train opt s).1.2 (n2.train opt s).1.2 h3 h4
      have e2 : (n2.train opt s).1 = ((n1.train opt s).1.1, (n2.train opt s).1.2) := by rw [h1]
      rw [e2]
      have e1 : (n1.train opt s).1 = ((n1.train opt s).1.1, (n1.train opt s).1.2) := rfl
      rw [e1]
      cases (n1.train opt s).2 with
      | ok u =>
        refine hr.bind ?_
        rintro q1 q2 ⟨h4, h5, h6⟩
        exact ⟨by dsimp only; rw [h4], h5, h6⟩
      | throw msg =>
        refine hr.bind ?_
        rintro q1 q2 ⟨h4, h5, h6⟩
        exact ⟨by dsimp only; rw [h4], h5, h6⟩
      | ub => trivial

end

end Verif.Net
