import Verif.Proofs.Shape
import Verif.Proofs.Session

/-! Predictions do not disturb the training of models of any shape. -/

namespace Verif.Net

open Verif.Spec Verif.Graph

noncomputable section

theorem sized_pass {n m : Nat} {a : AnyLayer} (h : Sized n m a) : Pass n m a ∧ GradFit a ∧ NonRec a := by
  rcases h.cases with ⟨mx, raw, l, rfl, h1, h2, h3⟩ | ⟨h1, h2, _, _⟩
  · exact ⟨⟨h1, h2⟩, ⟨h3.inputGrad, h3.output⟩, trivial⟩
  · refine ⟨.maps h1, ?_, ?_⟩
    · cases a with
      | dense l => exact Eq.trans h2 h1.1.symm
      | dropout => exact h1.elim
      | _ => trivial
    · cases a <;> first | exact h1.elim | trivial

namespace Layout

theorem holds_fit {p : Layout} (hr : p.recurrent = false) {i : Nat} {a : AnyLayer} (h : p.Holds i a) : GradFit a ∧ NonRec a := by
  cases hq : p.loss i with
  | some lf =>
    obtain ⟨l, rfl, _⟩ := (holds_loss hq).mp h
    exact ⟨trivial, trivial⟩
  | none => exact (sized_pass (((holds_layer hq).mp h).sized fun e => by rw [hr] at e; cases e)).2

/-! ### One call -/

theorem loss_same {f : LossFn} {a b : Loss.Layer} (h : Ess (.loss f a) (.loss f b)) {t : List ℝ} (ha : a.target = t)
    (hb : b.target = t) (v : List ℝ) :
    blank ((AnyLayer.loss f a).setLastInput v) = blank ((AnyLayer.loss f b).setLastInput v) := by
  have := loss_target h t v
  have e1 : a.setTarget t = a := by cases a; simp at ha; simp [Loss.Layer.setTarget, ha]
  have e2 : b.setTarget t = b := by cases b; simp at hb; simp [Loss.Layer.setTarget, hb]
  rwa [e1, e2] at this

theorem trainAt_same {p : Layout} {vis : Nat → Prop} {t : List ℝ} {k : Nat} {st1 st2 : Steps} {x : List ℝ}
    {s : Source × Nat} (h1 : p.Running vis t k st1) (h2 : p.Running vis t k st2) (h : StRel vis st1 st2)
    (hx : x.length = p.nin) (hi : s.2 < k) (hs : p.Feeds vis s.1 s.2) (ht : p.Scores t) :
    ∃ st1' st2', trainAt x st1 s = .ok (st1', none) ∧ trainAt x st2 s = .ok (st2', none) ∧
      p.Running (fun j => vis j ∨ j = s.2) t k st1' ∧ p.Running (fun j => vis j ∨ j = s.2) t k st2' ∧
      StRel (fun j => vis j ∨ j = s.2) st1' st2' := by
  obtain ⟨st1', e1, r1⟩ := trainAt_total h1 hx hi hs ht
  obtain ⟨st2', e2, r2⟩ := trainAt_total h2 hx hi hs ht
  refine ⟨st1', st2', e1, e2, r1, r2, ?_⟩
  obtain ⟨v, v1, v2⟩ := value_total h1.full (fun j hj => by rw [h1.length]; exact (h1.sources j hj).1) hx hs
  have i1 : s.2 < st1.layers.length := by rw [h1.length]; exact hi
  have i2 : s.2 < st2.layers.length := by rw [h2.length]; exact hi
  have g1 := List.getElem?_eq_getElem i1
  have g2 := List.getElem?_eq_getElem i2
  have hE := h.ess _ _ _ g1 g2
  have hh := h1.holds _ _ g1
  have hh2 := h2.holds _ _ g2
  have hsrc : ∀ j, s.1 = .output j → vis j := by
    intro j e
    rw [e] at hs
    exact hs.1
  have key : ERel (fun u1 u2 => blank u1.1 = blank u2.1 ∧ GradFit u1.1 ∧ NonRec u1.1)
      ((st1.layers[s.2]).trainingForward v) ((st2.layers[s.2]).trainingForward v) := by
    cases hq : p.loss s.2 with
    | some lf =>
      obtain ⟨l, a1, _⟩ := (holds_loss hq).mp hh
      obtain ⟨l', a2, _⟩ := (holds_loss hq).mp hh2
      have t1 := h1.target s.2 lf l (by rw [hq]; simp) (by rw [g1, a1])
      have t2 := h2.target s.2 lf l' (by rw [hq]; simp) (by rw [g2, a2])
      rw [a1, a2] at hE ⊢
      show ERel _ ((AnyLayer.loss lf { l with lastInput := v }).forward v)
        ((AnyLayer.loss lf { l' with lastInput := v }).forward v)
      refine (ERel.ok_left (loss_forward_rel (loss_same hE t1 t2 v) v)).mono ?_
      rintro u1 u2 ⟨hu, hu1, _⟩
      obtain ⟨w, _, hw⟩ := Exec.bind_eq_ok hu1
      cases hw
      exact ⟨hu.1, trivial, trivial⟩
    | none =>
      obtain ⟨hp, hf, _⟩ := sized_pass (((holds_layer hq).mp hh).sized fun _ => (h.fit _ _ g1).2)
      obtain ⟨a', b', y, f1, f2, f3, _, _, _, f7, f8⟩ := train_forward_rel hE hp hf v2
      rw [f1, f2]
      exact ⟨f3, f7, f8⟩
  have := h.trainAt hsrc v1 g1 g2 key fun _ _ hr => hr
  rw [show trainAt x st1 (s.1, s.2) = _ from e1, show trainAt x st2 (s.1, s.2) = _ from e2] at this
  obtain ⟨_, _, _, _, _, _, _, h9⟩ := this
  exact h9

theorem trains_same {p : Layout} {x t : List ℝ} (hx : x.length = p.nin)
    (ht : p.Scores t) {k : Nat} : ∀ (ss : List (Source × Nat))
    (vis : Nat → Prop) (st1 st2 : Steps), p.Running vis t k st1 → p.Running vis t k st2 → StRel vis st1 st2 →
    p.Ordered k vis ss →
    ∃ st1' st2', each (trainAt x) ss st1 = .ok (st1', none) ∧ each (trainAt x) ss st2 = .ok (st2', none) ∧
      p.Running (fun j => vis j ∨ ∃ s ∈ ss, j = s.2) t k st1' ∧
      p.Running (fun j => vis j ∨ ∃ s ∈ ss, j = s.2) t k st2' ∧
      StRel (fun j => vis j ∨ ∃ s ∈ ss, j = s.2) st1' st2'
  | [], vis, st1, st2, h1, h2, h, _ => by
    have : (fun j => vis j ∨ ∃ s ∈ ([] : List (Source × Nat)), j = s.2) = vis := by funext j; simp
    rw [this]
    exact ⟨st1, st2, rfl, rfl, h1, h2, h⟩
  | s :: ss, vis, st1, st2, h1, h2, h, ho => by
    obtain ⟨u1, u2, e1, e2, r1, r2, r⟩ := trainAt_same h1 h2 h hx ho.1 ho.2.1 ht
    obtain ⟨w1, w2, f1, f2, q1, q2, q⟩ := trains_same hx ht ss _ u1 u2 r1 r2 r ho.2.2
    have : (fun j => vis j ∨ ∃ r ∈ s :: ss, j = r.2) = (fun j => (vis j ∨ j = s.2) ∨ ∃ r ∈ ss, j = r.2) := by
      funext j
      simp [or_assoc]
    rw [this]
    refine ⟨w1, w2, ?_, ?_, q1, q2, q⟩
    · unfold each; rw [e1, Exec.bind_ok]; exact f1
    · unfold each; rw [e2, Exec.bind_ok]; exact f2

/-! ### Backwards -/

theorem backwardAt_other {x g : List ℝ} {st st' : Steps} {i j : Nat} {e : Option String}
    (h : backwardAt x st i g = .ok (st', e)) (hj : j ≠ i) : st'.layers[j]? = st.layers[j]? := by
  unfold backwardAt at h
  obtain ⟨a, h1, h⟩ := Exec.bind_eq_ok h
  obtain ⟨b, h2, h⟩ := Exec.bind_eq_ok h
  obtain ⟨c, h3, h⟩ := Exec.bind_eq_ok h
  cases h
  exact List.getElem?_set_ne (Ne.symm hj)

/-- Both states agree on the input gradients of the layers in `B`. -/
def GradsEq (B : Nat → Prop) (st1 st2 : Steps) : Prop := ∀ u, B u → GradEq u st1 st2

theorem backwardAt_same {p : Layout} {vis B : Nat → Prop} {t : List ℝ} {k : Nat} {st1 st2 : Steps} {x g : List ℝ} {i : Nat}
    (h1 : p.Running vis t k st1) (h2 : p.Running vis t k st2) (h : StRel vis st1 st2) (hb : GradsEq B st1 st2)
    (hx : x.length = p.nin) (hi : vis i)
    (hg : g.length = (p.sizes i).2 ∨ p.loss i ≠ none ∧ g = []) (ht : p.Scores t) :
    ∃ st1' st2', backwardAt x st1 i g = .ok (st1', none) ∧ backwardAt x st2 i g = .ok (st2', none) ∧
      p.Running vis t k st1' ∧ p.Running vis t k st2' ∧ StRel vis st1' st2' ∧
      GradsEq (fun j => B j ∨ j = i) st1' st2' := by
  obtain ⟨st1', e1, r1⟩ := backwardAt_total h1 hx hi hg ht
  obtain ⟨st2', e2, r2⟩ := backwardAt_total h2 hx hi hg ht
  have := backwardAt_rel h x hi g
  rw [e1, e2] at this
  obtain ⟨_, q1, q2⟩ := this
  refine ⟨st1', st2', e1, e2, r1, r2, q1, ?_⟩
  intro u hu
  by_cases e : u = i
  · subst e
    exact q2 rfl
  · intro a b ha hb'
    rw [backwardAt_other e1 e] at ha
    rw [backwardAt_other e2 e] at hb'
    exact hb u (hu.resolve_right e) a b ha hb'

theorem losses_same {p : Layout} {vis : Nat → Prop} {x t : List ℝ} (hx : x.length = p.nin) (ht : p.Scores t)
    {k : Nat} : ∀ (is : List Nat) (B : Nat → Prop) (st1 st2 : Steps), p.Running vis t k st1 → p.Running vis t k st2 →
    StRel vis st1 st2 → GradsEq B st1 st2 → (∀ i ∈ is, vis i ∧ p.loss i ≠ none) →
    ∃ st1' st2', each (fun st i => backwardAt x st i []) is st1 = .ok (st1', none) ∧
      each (fun st i => backwardAt x st i []) is st2 = .ok (st2', none) ∧ p.Running vis t k st1' ∧
      p.Running vis t k st2' ∧ StRel vis st1' st2' ∧ GradsEq (fun j => B j ∨ j ∈ is) st1' st2'
  | [], B, st1, st2, h1, h2, h, hb, _ => ⟨st1, st2, rfl, rfl, h1, h2, h, fun u hu => hb u (hu.resolve_right (by simp))⟩
  | i :: is, B, st1, st2, h1, h2, h, hb, ha => by
    obtain ⟨u1, u2, e1, e2, r1, r2, r, rb⟩ := backwardAt_same h1 h2 h hb hx (ha i (by simp)).1
      (.inr ⟨(ha i (by simp)).2, rfl⟩) ht
    obtain ⟨w1, w2, f1, f2, q1, q2, q, qb⟩ := losses_same hx ht is _ u1 u2 r1 r2 r rb (fun b hb => ha b (by simp [hb]))
    refine ⟨w1, w2, ?_, ?_, q1, q2, q, ?_⟩
    · unfold each; rw [e1, Exec.bind_ok]; exact f1
    · unfold each; rw [e2, Exec.bind_ok]; exact f2
    · intro u hu
      apply qb
      rcases hu with hu | hu
      · exact .inl (.inl hu)
      · rcases List.mem_cons.mp hu with rfl | hu
        · exact .inl (.inr rfl)
        · exact .inr hu

theorem backArcs_same {p : Layout} {vis : Nat → Prop} {x t : List ℝ} (hx : x.length = p.nin)
    (ht : p.Scores t) {k : Nat} : ∀ (as : List (Nat × Nat)) (B : Nat → Prop) (st1 st2 : Steps),
    p.Running vis t k st1 → p.Running vis t k st2 → StRel vis st1 st2 → GradsEq B st1 st2 → Chained B as →
    (∀ a ∈ as, vis a.1 ∧ vis a.2 ∧ (p.sizes a.1).1 = (p.sizes a.2).2) →
    ∃ st1' st2', each (backArcAt x) as st1 = .ok (st1', none) ∧ each (backArcAt x) as st2 = .ok (st2', none) ∧
      p.Running vis t k st1' ∧ p.Running vis t k st2' ∧ StRel vis st1' st2'
  | [], B, st1, st2, h1, h2, h, _, _, _ => ⟨st1, st2, rfl, rfl, h1, h2, h⟩
  | a :: as, B, st1, st2, h1, h2, h, hb, hc, ha => by
    obtain ⟨a1, a2, a3⟩ := ha a (by simp)
    have i1 : a.1 < st1.layers.length := by rw [h1.length]; exact (h1.sources _ a1).1
    have i2 : a.1 < st2.layers.length := by rw [h2.length]; exact (h1.sources _ a1).1
    have hlen : (st1.layers[a.1]).lastInputGradient.length = (p.sizes a.2).2 := by
      have h := h1.holds _ _ (List.getElem?_eq_getElem i1)
      rw [← a3]
      cases hq : p.loss a.1 with
      | some lf =>
        obtain ⟨l, h1, _, h2⟩ := (holds_loss hq).mp h
        rw [h1]
        exact h2
      | none => exact ((holds_layer hq).mp h).grad
    have hg := hb a.1 hc.1 _ _ (List.getElem?_eq_getElem i1) (List.getElem?_eq_getElem i2)
    obtain ⟨u1, u2, e1, e2, r1, r2, r, rb⟩ := backwardAt_same h1 h2 h hb hx a2 (.inl hlen) ht
    obtain ⟨w1, w2, f1, f2, q1, q2, q⟩ := backArcs_same hx ht as _ u1 u2 r1 r2 r rb hc.2 (fun b hb => ha b (by simp [hb]))
    refine ⟨w1, w2, ?_, ?_, q1, q2, q⟩
    · have e : backArcAt x st1 a = .ok (u1, none) := by
        unfold backArcAt
        rw [rd_ok i1, Exec.bind_ok]
        exact e1
      unfold each
      rw [e, Exec.bind_ok]
      exact f1
    · have e : backArcAt x st2 a = .ok (u2, none) := by
        unfold backArcAt
        rw [rd_ok i2, Exec.bind_ok, ← hg]
        exact e2
      unfold each
      rw [e, Exec.bind_ok]
      exact f2

/-! ### The step -/

theorem targetAt_ess {t : List ℝ} {ls ls' : List AnyLayer} {i : Nat} {e : Option String}
    (h : targetAt t ls i = .ok (ls', e)) : List.Forall₂ Ess ls ls' := by
  unfold targetAt at h
  obtain ⟨l, h1, h⟩ := Exec.bind_eq_ok h
  split at h
  · cases h
    exact ess_set (rd_eq_ok h1) ⟨rfl, rfl, rfl⟩
  · cases h
    exact ess_refl _

theorem step_same' {p : Layout} (hr : p.recurrent = false) {n1 n2 : Net} {x t : List ℝ} (hg : n1.graph = n2.graph)
    (hl : n1.layers.length = n2.layers.length) (hp : p.Steppable n1.layers.length n1.graph)
    (hc : Chained (· ∈ n1.graph.loss) (backwardArcs n1.graph))
    (h1 : AllAt p.Holds n1.layers) (h2 : AllAt p.Holds n2.layers) (he : List.Forall₂ Ess n1.layers n2.layers)
    (hx : x.length = p.nin) (ht : p.Scores t) :
    ∃ n1' n2', n1.step x t = .ok (n1', none) ∧ n2.step x t = .ok (n2', none) ∧
      List.Forall₂ Ess n1'.layers n2'.layers := by
  have hb : ∀ i ∈ n1.graph.loss, i < n1.layers.length ∧ p.loss i ≠ none := fun i hi => by
      refine ⟨?_, (hp.loss i).mpr hi⟩
      obtain ⟨s, hs, rfl⟩ := hp.reached i hi
      exact hp.ordered.bound s hs
  obtain ⟨ls1, e1, k1, k2, k3⟩ := targets_total (p := p) (t := t) n1.graph.loss n1.layers h1 rfl hb
    (fun i f l h h' => (h' ((hp.loss i).mp h)).elim)
  obtain ⟨ls2, d1, m1, m2, m3⟩ := targets_total (p := p) (t := t) n1.graph.loss n2.layers h2 rfl (hl ▸ hb)
    (fun i f l h h' => (h' ((hp.loss i).mp h)).elim)
  have he1 : List.Forall₂ Ess n1.layers ls1 := each_inv (fun s => List.Forall₂ Ess n1.layers s)
        (fun s b s' e hs h => ess_trans hs (targetAt_ess h)) _ _ _ _ (ess_refl _) e1
  have he2 : List.Forall₂ Ess n2.layers ls2 := each_inv (fun s => List.Forall₂ Ess n2.layers s)
        (fun s b s' e hs h => ess_trans hs (targetAt_ess h)) _ _ _ _ (ess_refl _) d1
  have heq : List.Forall₂ Ess ls1 ls2 :=
    ess_trans (he1.flip.imp fun a b e => Ess.symm e) (ess_trans he he2)
  have r1 : p.Running (fun _ => False) t n1.layers.length ⟨ls1, List.replicate ls1.length none⟩ :=
    ⟨k1, fun j a hj => hj.elim, k2, by simp [k2], k3, fun j hj => hj.elim⟩
  have r2 : p.Running (fun _ => False) t n1.layers.length ⟨ls2, List.replicate ls2.length none⟩ :=
    ⟨m1, fun j a hj => hj.elim, m2.trans hl.symm, by simp [m2, hl], m3, fun j hj => hj.elim⟩
  have h0 : StRel (fun _ => False) ⟨ls1, List.replicate ls1.length none⟩ ⟨ls2, List.replicate ls2.length none⟩ := by
    refine ⟨heq.length_eq, by simp [heq.length_eq], fun i a ha => holds_fit hr (k1 i a ha), ?_, fun _ _ _ e => e.elim, ?_⟩
    · intro i a b ha hb
      obtain ⟨i1, e1⟩ := List.getElem?_eq_some_iff.mp ha
      obtain ⟨i2, e2⟩ := List.getElem?_eq_some_iff.mp hb
      have := (List.forall₂_iff_get.mp heq).2 i i1 i2
      simp only [List.get_eq_getElem, e1, e2] at this
      exact this
    · intro i j e
      dsimp only at e
      rw [List.getElem?_replicate] at e
      split at e <;> cases e
  obtain ⟨a1, a2, f1, f2, q1, q2, q⟩ := trains_same hx ht _ _ _ _ r1 r2 h0 hp.ordered
  obtain ⟨b1, b2, f3, f4, q3, q4, q5, qb⟩ := losses_same hx ht n1.graph.loss (fun _ => False) a1 a2 q1 q2 q
    (fun u hu => hu.elim) (fun i hi => ⟨.inr (hp.reached i hi), (hp.loss i).mpr hi⟩)
  obtain ⟨c1, c2, f5, f6, q6, q7, q8⟩ := backArcs_same hx ht (backwardArcs n1.graph) _ b1 b2 q3 q4 q5 qb
    (hc.mono fun j hj => .inr hj)
    (fun a ha => ⟨.inr (hp.backward a ha).1, .inr (hp.backward a ha).2.1, (hp.backward a ha).2.2⟩)
  refine ⟨⟨n1.graph, c1.layers⟩, ⟨n1.graph, c2.layers⟩, ?_, ?_, forall₂_of q8.length q8.ess⟩
  · unfold Net.step
    unfold trainingSources at f1
    rw [e1, next_ok, f1, next_ok, f3, next_ok, f5]
    rfl
  · unfold Net.step
    unfold trainingSources at f2
    rw [← hg, d1, next_ok, f2, next_ok, f4, next_ok, f6]
    rfl

end Layout

/-! ### Histories -/

variable {net : Net} {n : Nat}

theorem Shaped.chained (h : Shaped net n) : Chained (· ∈ net.graph.loss) (backwardArcs net.graph) :=
  (run_chained h.ok.backward h.lnodup).1

theorem KeptAs.step_same (hs : Shaped net n) (hn : NonRecurrent net) {m1 m2 : Net} (h1 : KeptAs net n m1) (h2 : KeptAs net n m2)
    (he : List.Forall₂ Ess m1.layers m2.layers) {x t : List ℝ} (hx : Suitable net n (.step x t)) :
    ∃ m1' m2', m1.step x t = .ok (m1', none) ∧ m2.step x t = .ok (m2', none) ∧ KeptAs net n m1' ∧ KeptAs net n m2' ∧
      List.Forall₂ Ess m1'.layers m2'.layers := by
  obtain ⟨x1, x2⟩ := suits_scores hx
  obtain ⟨a, b, e1, e2, e3⟩ := Layout.step_same' (p := layoutOf net n) (nonrec_layout hn) (h1.graph.trans h2.graph.symm)
    (h1.length.trans h2.length.symm) (by rw [h1.length, h1.graph]; exact hs.steppable)
    (by rw [h1.graph]; exact hs.chained) h1.holds h2.holds he x1 x2
  obtain ⟨a', e4, k1⟩ := h1.step hs hx
  obtain ⟨b', e5, k2⟩ := h2.step hs hx
  rw [e1] at e4
  rw [e2] at e5
  cases e4
  cases e5
  exact ⟨a, b, e1, e2, k1, k2, e3⟩

theorem session_same (hs : Shaped net n) (hn : NonRecurrent net) {σ : Type} (opt : σ → ℝ → ℝ → σ × ℝ) : ∀ (cs : List UserCall) (s : σ)
    (m1 m2 : Net), KeptAs net n m1 → KeptAs net n m2 → List.Forall₂ Ess m1.layers m2.layers →
    (∀ c ∈ cs, Suitable net n c) →
    ∃ s' m1' m2' es, session opt cs (s, m1) = .ok ((s', m1'), es) ∧
      session opt (cs.filter UserCall.learns) (s, m2) = .ok ((s', m2'), es) ∧
      List.Forall₂ Ess m1'.layers m2'.layers
  | [], s, m1, m2, _, _, he, _ => ⟨s, m1, m2, [], rfl, rfl, he⟩
  | c :: cs, s, m1, m2, h1, h2, he, hc => by
    have ih := fun s' m1' m2' h1' h2' he' => session_same hs hn opt cs s' m1' m2' h1' h2' he' fun d hd => hc d (by simp [hd])
    have hc0 := hc c (by simp)
    cases c with
    | predict x =>
      obtain ⟨m', y, e, k⟩ := h1.predict hs hc0
      obtain ⟨s', a, b, es, f1, f2, f3⟩ := ih s m' m2 k h2
        (ess_trans ((predict_ess e).2.flip.imp fun a b e => Ess.symm e) he)
      refine ⟨s', a, b, es, ?_, f2, f3⟩
      show (m1.predict x >>= _) = _
      rw [e, Exec.bind_ok]
      exact f1
    | resetScore =>
      obtain ⟨s', a, b, es, f1, f2, f3⟩ := ih s m1.resetScore m2 h1.resetScore h2
        (ess_trans ((resetScore_ess m1).2.flip.imp fun a b e => Ess.symm e) he)
      exact ⟨s', a, b, es, f1, f2, f3⟩
    | step x t =>
      obtain ⟨m1', m2', e1, e2, k1, k2, k3⟩ := h1.step_same hs hn h2 he hc0
      obtain ⟨s', a, b, es, f1, f2, f3⟩ := ih s m1' m2' k1 k2 k3
      refine ⟨s', a, b, none :: es, ?_, ?_, f3⟩
      · show (m1.step x t >>= _) = _
        rw [e1, Exec.bind_ok]
        dsimp only
        rw [f1]
        rfl
      · show (m2.step x t >>= _) = _
        rw [e2, Exec.bind_ok]
        dsimp only
        rw [f2]
        rfl
    | train =>
      obtain ⟨s1, m1', e1, k1⟩ := h1.train opt s
      obtain ⟨s2, m2', e2, k2⟩ := h2.train opt s
      obtain ⟨g1, g2, g3⟩ := trainLayers_rel opt he s
      have q1 : (m1.train opt s).1.1 = (m2.train opt s).1.1 := g1
      have q2 : List.Forall₂ Ess (m1.train opt s).1.2.layers (m2.train opt s).1.2.layers := g3
      rw [e1, e2] at q1 q2
      dsimp only at q1 q2
      subst q1
      obtain ⟨s', a, b, es, f1, f2, f3⟩ := ih s1 m1' m2' k1 k2 q2
      refine ⟨s', a, b, none :: es, ?_, ?_, f3⟩
      · show session opt (.train :: cs) (s, m1) = _
        unfold session
        dsimp only
        rw [e1]
        dsimp only
        rw [f1]
        rfl
      · show session opt (.train :: cs.filter _) (s, m2) = _
        unfold session
        dsimp only
        rw [e2]
        dsimp only
        rw [f2]
        rfl

end

end Verif.Net
