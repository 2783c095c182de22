import Verif.Proofs.Session

/-! What training does to the gradient buffers: their sizes stay, and an update clears them. -/

namespace Verif

namespace Dense

theorem dense1_lengths {s s' : Grads ℝ} {g x w : List ℝ} {n m : Nat}
    (h : dense1 s g x w n m = .ok s') :
    s'.weight.length = s.weight.length ∧ s'.bias.length = s.bias.length := by
  unfold dense1 at h
  obtain ⟨ig, h1, h⟩ := Exec.bind_eq_ok h
  refine forUp_inv (fun d => d.weight.length = s.weight.length ∧ d.bias.length = s.bias.length) ?_ ⟨rfl, rfl⟩ h
  intro i d d' hd h
  obtain ⟨_, _, h⟩ := Exec.bind_eq_ok h
  obtain ⟨_, _, h⟩ := Exec.bind_eq_ok h
  obtain ⟨_, h1, h⟩ := Exec.bind_eq_ok h
  refine forUp_inv (fun d => d.weight.length = s.weight.length ∧ d.bias.length = s.bias.length) ?_
    ⟨hd.1, (wr_length h1).trans hd.2⟩ h
  intro j d d' hd h
  obtain ⟨_, _, h⟩ := Exec.bind_eq_ok h
  obtain ⟨_, _, h⟩ := Exec.bind_eq_ok h
  obtain ⟨_, _, h⟩ := Exec.bind_eq_ok h
  obtain ⟨_, h1, h⟩ := Exec.bind_eq_ok h
  obtain ⟨_, _, h⟩ := Exec.bind_eq_ok h
  obtain ⟨_, _, h⟩ := Exec.bind_eq_ok h
  obtain ⟨_, _, h⟩ := Exec.bind_eq_ok h
  cases h
  exact ⟨(wr_length h1).trans hd.1, hd.2⟩

end Dense

namespace Slide

theorem convBiasGrads_length {g b b' : List ℝ} {o : Shape3} {n : Nat} (h : convBiasGrads g b o n = .ok b') :
    b'.length = b.length := by
  unfold convBiasGrads at h
  refine forUp_inv (fun d => d.length = b.length) ?_ rfl h
  intro i d d' hd h
  obtain ⟨_, _, h⟩ := Exec.bind_eq_ok h
  exact (wr_length h).trans hd

theorem convGradOp_lengths {g src k : List ℝ} {ss : Shape3} {ks : Shape2} {n a b c d : Nat} {e f : Int}
    {s s' : List ℝ × List ℝ} (h : convGradOp g src ss k ks n a b c d e f s = .ok s') :
    s'.1.length = s.1.length ∧ s'.2.length = s.2.length := by
  unfold convGradOp at h
  refine forUp_inv (fun t => t.1.length = s.1.length ∧ t.2.length = s.2.length) ?_ ⟨rfl, rfl⟩ h
  intro i t t' ht h
  obtain ⟨_, _, h⟩ := Exec.bind_eq_ok h
  refine forUp_inv (fun t => t.1.length = s.1.length ∧ t.2.length = s.2.length) ?_ ht h
  intro j t t' ht h
  dsimp only at h
  split at h
  · cases h; exact ht
  · obtain ⟨_, _, h⟩ := Exec.bind_eq_ok h
    obtain ⟨_, _, h⟩ := Exec.bind_eq_ok h
    obtain ⟨_, h1, h⟩ := Exec.bind_eq_ok h
    obtain ⟨_, _, h⟩ := Exec.bind_eq_ok h
    obtain ⟨_, _, h⟩ := Exec.bind_eq_ok h
    obtain ⟨_, h2, h⟩ := Exec.bind_eq_ok h
    cases h
    exact ⟨(wr_length h1).trans ht.1, (wr_length h2).trans ht.2⟩

theorem kernelSlide_inv {σ : Type} {op : Nat → Nat → Nat → Nat → Int → Int → σ → Exec σ} (P : σ → Prop)
    (hop : ∀ a b c d e f s s', P s → op a b c d e f s = .ok s' → P s')
    {ss : Shape3} {k st p : Shape2} {s s' : σ} (h0 : P s)
    (h : kernelSlide op ss k st p s = .ok s') : P s' := by
  unfold kernelSlide at h
  refine forUp_inv P ?_ h0 h
  intro i s s' hs h
  refine forUp_inv P ?_ hs h
  intro j t t' ht h
  exact hop _ _ _ _ _ _ _ _ ht h

theorem maxGradOp_length {g src : List ℝ} {ss : Shape3} {k : Shape2} {a b c d : Nat} {e f : Int} {s s' : List ℝ}
    (h : maxGradOp g src ss k a b c d e f s = .ok s') : s'.length = s.length := by
  unfold maxGradOp at h
  refine forUp_inv (fun t => t.length = s.length) ?_ rfl h
  intro i t t' ht h
  obtain ⟨_, _, h⟩ := Exec.bind_eq_ok h
  obtain ⟨_, _, h⟩ := Exec.bind_eq_ok h
  obtain ⟨_, _, h⟩ := Exec.bind_eq_ok h
  obtain ⟨_, _, h⟩ := Exec.bind_eq_ok h
  exact (wr_length h).trans ht

theorem avgGradOp_length {g : List ℝ} {ss : Shape3} {k : Shape2} {a b c d : Nat} {e f : Int} {s s' : List ℝ}
    (h : avgGradOp g ss k a b c d e f s = .ok s') : s'.length = s.length := by
  unfold avgGradOp at h
  refine forUp_inv (fun t => t.length = s.length) ?_ rfl h
  intro i t t' ht h
  obtain ⟨_, _, h⟩ := Exec.bind_eq_ok h
  refine forFrom_inv (fun t : List ℝ => t.length = s.length) ?_ _ _ _ _ ht h
  intro j u u' hu h
  obtain ⟨_, _, h⟩ := Exec.bind_eq_ok h
  exact (wr_length h).trans hu

end Slide

namespace Loss

theorem mse1_length {d y yh d' : List ℝ} {norm : ℝ} {n : Nat} (h : meanSquaredError1 d y yh norm n = .ok d') :
    d'.length = d.length := by
  unfold meanSquaredError1 at h
  refine forUp_inv (fun t => t.length = d.length) ?_ rfl h
  intro i t t' ht h
  obtain ⟨_, _, h⟩ := Exec.bind_eq_ok h
  obtain ⟨_, _, h⟩ := Exec.bind_eq_ok h
  exact (wr_length h).trans ht

theorem crossEntropy1_length {d y yh d' : List ℝ} {norm : ℝ} {n : Nat} (h : crossEntropy1 d y yh norm n = .ok d') :
    d'.length = d.length := by
  unfold crossEntropy1 at h
  refine forUp_inv (fun t => t.length = d.length) ?_ rfl h
  intro i t t' ht h
  obtain ⟨_, _, h⟩ := Exec.bind_eq_ok h
  obtain ⟨_, _, h⟩ := Exec.bind_eq_ok h
  exact (wr_length h).trans ht

end Loss

namespace Net

open Verif.Spec Verif.Graph

noncomputable section

/-- Sizes of the gradient buffers, and the settings of a loss layer. -/
def frame : AnyLayer → Option (List Nat × Nat × Option (Nat × ℝ))
  | .dropout _ _ _ => none
  | .rnn _ _ _ => none
  | a => some ((extra a).1.map List.length, (extra a).2)

theorem frame_of {a b : AnyLayer} (h : core a = core b) (h' : extra a = extra b) : frame a = frame b := by
  cases a <;> cases b <;> simp only [core, reduceCtorEq] at h <;> first | rfl | simp only [frame, h']

theorem frame_backward {a a' : AnyLayer} {g : List ℝ} {e : Option String} (h : a.backward g = .ok (a', e)) :
    frame a' = frame a := by
  cases a with
  | dense l =>
    rcases keep_ok h with rfl | ⟨l', h1, rfl, _⟩
    · rfl
    · obtain ⟨o, h2, h3⟩ := Exec.bind_eq_ok h1
      cases h3
      have e1 := Dense.dense1_lengths h2
      have e2 := Dense.dense1_input_length h2
      simp [frame, extra, AnyLayer.paramGrads, AnyLayer.lastInputGradient, e1, e2]
  | conv l =>
    rcases keep_ok h with rfl | ⟨l', h1, rfl, _⟩
    · rfl
    · obtain ⟨bg, h2, h1⟩ := Exec.bind_eq_ok h1
      obtain ⟨r, h3, h1⟩ := Exec.bind_eq_ok h1
      cases h1
      have e1 := Slide.convBiasGrads_length h2
      have e2 := Slide.kernelSlide_inv (fun t : List ℝ × List ℝ => t.1.length = l.inputGrads.length ∧
        t.2.length = l.weightGrads.length)
        (fun _ _ _ _ _ _ s s' hs h => ⟨(Slide.convGradOp_lengths h).1.trans hs.1,
          (Slide.convGradOp_lengths h).2.trans hs.2⟩) ⟨by simp, rfl⟩ h3
      simp [frame, extra, AnyLayer.paramGrads, AnyLayer.lastInputGradient, e1, e2]
  | maxPool l =>
    rcases keep_ok h with rfl | ⟨l', h1, rfl, _⟩
    · rfl
    · obtain ⟨r, h3, h1⟩ := Exec.bind_eq_ok h1
      cases h1
      have e2 := kernelSlide_length (fun _ _ _ _ _ _ _ _ h => Slide.maxGradOp_length h) h3
      simp [frame, extra, AnyLayer.paramGrads, AnyLayer.lastInputGradient, e2]
  | avgPool l =>
    rcases keep_ok h with rfl | ⟨l', h1, rfl, _⟩
    · rfl
    · obtain ⟨r, h3, h1⟩ := Exec.bind_eq_ok h1
      cases h1
      have e2 := kernelSlide_length (fun _ _ _ _ _ _ _ _ h => Slide.avgGradOp_length h) h3
      simp [frame, extra, AnyLayer.paramGrads, AnyLayer.lastInputGradient, e2]
  | act f l =>
    have hc := core_backward h
    rcases keep_ok h with rfl | ⟨l', h1, rfl, _⟩
    · rfl
    · cases l; cases l'
      simp [core] at hc
      simp [frame, extra, AnyLayer.paramGrads, AnyLayer.lastInputGradient, hc]
  | dropout mx raw l => rcases keep_ok h with rfl | ⟨l', h1, rfl, _⟩ <;> rfl
  | rnn f f1 l => rcases keep_ok h with rfl | ⟨l', h1, rfl, _⟩ <;> rfl
  | loss f l =>
    rcases keep_ok h with rfl | ⟨l', h1, rfl, _⟩
    · rfl
    · cases f with
      | mse =>
        obtain ⟨r, h3, h1⟩ := Exec.bind_eq_ok h1
        cases h1
        simp [frame, extra, AnyLayer.paramGrads, AnyLayer.lastInputGradient, Loss.mse1_length h3]
      | cce =>
        obtain ⟨r, h3, h1⟩ := Exec.bind_eq_ok h1
        cases h1
        simp [frame, extra, AnyLayer.paramGrads, AnyLayer.lastInputGradient, Loss.crossEntropy1_length h3]

theorem map_set_eq {β : Type} {φ : AnyLayer → β} {ls : List AnyLayer} {i : Nat} {l l' : AnyLayer}
    (h : ls[i]? = some l) (hc : φ l' = φ l) : (ls.set i l').map φ = ls.map φ := by
  rw [List.map_set, hc]
  apply List.ext_getElem?
  intro j
  rw [List.getElem?_set]
  split
  · rename_i hj
    subst hj
    split
    · rw [List.getElem?_map, h]; rfl
    · rename_i hlt
      rw [List.length_map] at hlt
      rw [List.getElem?_eq_none (by rw [List.length_map]; omega)]
  · rfl

theorem frame_setLastInput (a : AnyLayer) (v : List ℝ) : frame (a.setLastInput v) = frame a :=
  frame_of (core_setLastInput _ _) (extra_setLastInput _ _)

theorem frame_forward {a a' : AnyLayer} {v : List ℝ} {e : Option String} (h : a.forward v = .ok (a', e)) :
    frame a' = frame a := frame_of (core_forward h) (extra_forward h)

theorem frame_trainingForward {a a' : AnyLayer} {v : List ℝ} {e : Option String}
    (h : a.trainingForward v = .ok (a', e)) : frame a' = frame a := by
  rcases trainingForward_cases a v with ⟨mx, raw, l, rfl⟩ | h1
  · have hc := core_trainingForward h
    cases a' <;> simp only [core, reduceCtorEq] at hc
    rfl
  · rw [h1] at h
    exact (frame_forward h).trans (frame_setLastInput _ _)

theorem trainAt_frame {x : List ℝ} {st st' : Steps} {s : Source × Nat} {e : Option String}
    (h : trainAt x st s = .ok (st', e)) : st'.layers.map frame = st.layers.map frame := by
  unfold trainAt at h
  split at h
  · obtain ⟨l, h1, h⟩ := Exec.bind_eq_ok h
    obtain ⟨r, h2, h⟩ := Exec.bind_eq_ok h
    cases h
    exact map_set_eq (rd_eq_ok h1) (frame_trainingForward h2)
  · cases h; rfl
  · cases h

theorem backwardAt_frame {x : List ℝ} {st st' : Steps} {i : Nat} {g : List ℝ} {e : Option String}
    (h : backwardAt x st i g = .ok (st', e)) : st'.layers.map frame = st.layers.map frame := by
  unfold backwardAt at h
  obtain ⟨l, h1, h⟩ := Exec.bind_eq_ok h
  obtain ⟨l', h2, h⟩ := Exec.bind_eq_ok h
  obtain ⟨r, h3, h⟩ := Exec.bind_eq_ok h
  cases h
  refine map_set_eq (rd_eq_ok h1) ((frame_backward h3).trans ?_)
  unfold follow at h2
  split at h2
  · obtain ⟨v, _, h2⟩ := Exec.bind_eq_ok h2
    cases h2
    exact frame_setLastInput _ _
  · cases h2; rfl

theorem backArcAt_frame {x : List ℝ} {st st' : Steps} {a : Nat × Nat} {e : Option String}
    (h : backArcAt x st a = .ok (st', e)) : st'.layers.map frame = st.layers.map frame := by
  obtain ⟨l, _, h⟩ := Exec.bind_eq_ok h
  exact backwardAt_frame h

theorem targetAt_frame {t : List ℝ} {ls ls' : List AnyLayer} {i : Nat} {e : Option String}
    (h : targetAt t ls i = .ok (ls', e)) : ls'.map frame = ls.map frame := by
  unfold targetAt at h
  obtain ⟨l, h1, h⟩ := Exec.bind_eq_ok h
  cases l with
  | loss f l =>
    cases h
    exact map_set_eq (rd_eq_ok h1) rfl
  | _ => cases h; rfl

theorem step_frame {n n' : Net} {x t : List ℝ} {e : Option String}
    (h : n.step x t = .ok (n', e)) : n'.layers.map frame = n.layers.map frame := by
  unfold Net.step at h
  obtain ⟨⟨st, e1⟩, h1, h⟩ := Exec.bind_eq_ok h
  cases h
  show st.layers.map frame = _
  obtain ⟨ls, _, h2, h3⟩ := next_inv h1
  have k1 : ls.map frame = n.layers.map frame :=
    each_inv (fun s => s.map frame = n.layers.map frame)
      (fun s b s' e hs h => (targetAt_frame h).trans hs) _ _ _ _ rfl h2
  rcases h3 with rfl | h3
  · exact k1
  obtain ⟨s1, _, h2, h3⟩ := next_inv h3
  have k2 : s1.layers.map frame = n.layers.map frame :=
    each_inv (fun s : Steps => s.layers.map frame = n.layers.map frame)
      (fun s b s' e hs h => (trainAt_frame h).trans hs) _ _ _ _ k1 h2
  rcases h3 with rfl | h3
  · exact k2
  obtain ⟨s2, _, h2, h3⟩ := next_inv h3
  have k3 : s2.layers.map frame = n.layers.map frame :=
    each_inv (fun s : Steps => s.layers.map frame = n.layers.map frame)
      (fun s b s' e hs h => (backwardAt_frame h).trans hs) _ _ _ _ k2 h2
  rcases h3 with rfl | h3
  · exact k3
  exact each_inv (fun s : Steps => s.layers.map frame = n.layers.map frame)
      (fun s b s' e hs h => (backArcAt_frame h).trans hs) _ _ _ _ k3 h3

/-! ### Updates -/

theorem trainLoop_grads {σ : Type} (opt : σ → ℝ → ℝ → σ × ℝ) (kf kt : Opt.Kind) : ∀ (n i : Nat)
    (s : Opt.TState σ ℝ), ((Opt.trainLoop opt kf kt n i s).state.grads.map List.length)
      = s.grads.map List.length := by
  intro n
  induction n with
  | zero => intro i s; rfl
  | succ n ih =>
    intro i s
    unfold Opt.trainLoop
    cases h : Opt.trainOne opt kf kt i s with
    | ok s' =>
      dsimp only
      rw [ih]
      unfold Opt.trainOne at h
      obtain ⟨p, _, h⟩ := Exec.bind_eq_ok h
      obtain ⟨g, _, h⟩ := Exec.bind_eq_ok h
      obtain ⟨ps, _, h⟩ := Exec.bind_eq_ok h
      obtain ⟨gs, h1, h⟩ := Exec.bind_eq_ok h
      cases h
      exact writeAt_lengths h1
    | throw m => rfl
    | ub => rfl

theorem paramGrads_setParams (a : AnyLayer) (ps : List (List ℝ)) : (a.setParams ps).paramGrads = a.paramGrads :=
  congrArg Prod.fst (extra_setParams a ps)

theorem frame_setParams (a : AnyLayer) (ps : List (List ℝ)) : frame (a.setParams ps) = frame a := by
  have h := extra_setParams a ps
  cases a with
  | dense l => unfold AnyLayer.setParams at h ⊢; split <;> simp_all [frame]
  | conv l => unfold AnyLayer.setParams at h ⊢; split <;> simp_all [frame]
  | rnn f f1 l => unfold AnyLayer.setParams; split <;> simp_all [frame]
  | _ => rfl

theorem frame_setParamGrads {a : AnyLayer} {gs : List (List ℝ)}
    (h : gs.map List.length = a.paramGrads.map List.length) : frame (a.setParamGrads gs) = frame a ∧
      (a.setParamGrads gs).paramGrads = gs := by
  cases a with
  | dense l =>
    obtain ⟨w, b, rfl⟩ := two_of_length (ps := gs) (by simpa [AnyLayer.paramGrads] using congrArg List.length h)
    simp [AnyLayer.paramGrads] at h
    simp [frame, extra, AnyLayer.paramGrads, AnyLayer.lastInputGradient, AnyLayer.setParamGrads, h]
  | conv l =>
    obtain ⟨w, b, rfl⟩ := two_of_length (ps := gs) (by simpa [AnyLayer.paramGrads] using congrArg List.length h)
    simp [AnyLayer.paramGrads] at h
    simp [frame, extra, AnyLayer.paramGrads, AnyLayer.lastInputGradient, AnyLayer.setParamGrads, h]
  | rnn f f1 l =>
    have := congrArg List.length h
    simp [AnyLayer.paramGrads] at this
    match gs, this with
    | [_, _, _, _, _], _ => exact ⟨rfl, rfl⟩
  | _ =>
    have := congrArg List.length h
    simp [AnyLayer.paramGrads] at this
    rw [this]
    exact ⟨rfl, rfl⟩

theorem frame_train {σ : Type} (opt : σ → ℝ → ℝ → σ × ℝ) (s : σ) (a : AnyLayer) :
    frame (a.train opt s).1.2 = frame a := by
  unfold AnyLayer.train
  dsimp only
  rw [(frame_setParamGrads (by rw [paramGrads_setParams]; exact trainLoop_grads _ _ _ _ _ _)).1, frame_setParams]

/-- The blocks of gradients are filled with zeros. -/
def Zeroed (a : AnyLayer) : Prop := ∀ b ∈ a.paramGrads, ∀ v ∈ b, v = 0

/-- The blocks of parameters and of gradients have the declared sizes. -/
def Blocks (a : AnyLayer) : Prop :=
  a.params.map List.length = a.kind.blockSizes ∧ a.paramGrads.map List.length = a.kind.blockSizes

theorem zeroed_train {σ : Type} (opt : σ → ℝ → ℝ → σ × ℝ) (s : σ) {a : AnyLayer} (h : Blocks a) :
    Zeroed (a.train opt s).1.2 := by
  obtain ⟨l', h1, h2, h3, h4, h5, h6⟩ := Opt.trainSelf_spec opt ⟨a.kind, a.params, a.paramGrads⟩ h.1 h.2 s
  unfold AnyLayer.train
  dsimp only
  rw [h1]
  dsimp only
  unfold Zeroed
  rw [(frame_setParamGrads (a := a.setParams l'.params) (gs := l'.grads) (by
    rw [paramGrads_setParams, h.2]
    exact h4)).2]
  intro b hb v hv
  have hm : v ∈ l'.grads.flatten := List.mem_flatten.mpr ⟨b, hb, hv⟩
  obtain ⟨j, hj⟩ := List.getElem?_of_mem hm
  have hlt := (List.getElem?_eq_some_iff.mp hj).1
  have hlen : l'.grads.flatten.length = a.kind.paramCount := Opt.fits_length h4
  have := h6 j (by rw [← hlen]; exact hlt)
  unfold vec at this
  rw [List.getD_eq_getElem?_getD, hj] at this
  exact this

theorem trainLayers_zeroed {σ : Type} (opt : σ → ℝ → ℝ → σ × ℝ) : ∀ (ls : List AnyLayer) (s : σ),
    (∀ a ∈ ls, Blocks a) → (trainLayers opt s ls).2 = .ok () → ∀ a ∈ (trainLayers opt s ls).1.2, Zeroed a := by
  intro ls
  induction ls with
  | nil => intro s _ _ a ha; cases ha
  | cons b bs ih =>
    intro s h hok a ha
    have hb := zeroed_train opt s (h b (by simp))
    unfold trainLayers at ha hok
    split at ha
    · rename_i s' b' e
      rw [e] at hb hok
      rcases List.mem_cons.mp ha with rfl | ha
      · exact hb
      · exact ih s' (fun c hc => h c (by simp [hc])) hok a ha
    · rename_i s' b' e1 e3 e2
      rw [e2] at hok
      dsimp only at hok
      split at hok
      · rename_i e4
        cases e4
        exact absurd rfl (e3)
      · rename_i e4
        cases e4
        exact absurd hok e3

theorem trainLayers_frame {σ : Type} (opt : σ → ℝ → ℝ → σ × ℝ) : ∀ (ls : List AnyLayer) (s : σ),
    (trainLayers opt s ls).1.2.map frame = ls.map frame := by
  intro ls
  induction ls with
  | nil => intro s; rfl
  | cons a as ih =>
    intro s
    have h := frame_train opt s a
    unfold trainLayers
    split
    · rename_i s' a' e
      rw [e] at h
      rw [List.map_cons, List.map_cons, ih, h]
    · rename_i s' a' e1 _ e2
      rw [e2] at h
      rw [List.map_cons, List.map_cons, h]

/-- Layers whose gradient buffers are clear differ in their parameters and buffers only. -/
theorem extra_of_frame {a b : AnyLayer} (hs : shape a = shape b) (hS : Simple a) (hf : frame a = frame b)
    (ha : Zeroed a) (hb : Zeroed b) : extra a = extra b := by
  have key : ∀ {u v : List (List ℝ)}, u.map List.length = v.map List.length → (∀ b ∈ u, ∀ x ∈ b, x = 0) →
      (∀ b ∈ v, ∀ x ∈ b, x = 0) → u = v := by
    intro u v h hu hv
    have e : ∀ {w : List (List ℝ)}, (∀ b ∈ w, ∀ x ∈ b, x = 0) → w = (w.map List.length).map fun n =>
        List.replicate n 0 := by
      intro w hw
      rw [List.map_map]
      conv_lhs => rw [← List.map_id w]
      refine List.map_congr_left fun b hb => ?_
      exact List.eq_replicate_iff.mpr ⟨rfl, fun x hx => hw b hb x hx⟩
    rw [e hu, e hv, h]
  have hSb := simple_of_shape hs hS
  have hx : ∀ c, Simple c → frame c = some ((extra c).1.map List.length, (extra c).2) := by
    intro c hc
    cases c <;> first | exact hc.elim | rfl
  rw [hx a hS, hx b hSb] at hf
  simp only [Option.some.injEq, Prod.mk.injEq] at hf
  exact Prod.ext (key hf.1 ha hb) hf.2

end

end Net

end Verif
