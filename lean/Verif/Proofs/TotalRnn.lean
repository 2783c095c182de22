import Verif.Proofs.TotalNet
import Verif.Proofs.RecurrentBack

/-! Calls on recurrent layers whose buffers have the right sizes return normally. -/

namespace Verif.Rnn

/-! ### Lengths -/

section lengths

variable {α : Type _}

theorem matarrMulAt_length [Zero α] [Add α] [Mul α] {dst dst' m src : List α} {dOff sOff rows cols : Nat}
    (h : matarrMulAt dst dOff m src sOff rows cols = .ok dst') : dst'.length = dst.length := by
  refine forUp_inv (fun s => s.length = dst.length) ?_ rfl h
  intro i s s' hs h
  obtain ⟨s1, h1, h⟩ := Exec.bind_eq_ok h
  refine forUp_inv (fun s => s.length = dst.length) ?_ ((wr_length h1).trans hs) h
  intro j s s' hs h
  obtain ⟨_, _, h⟩ := Exec.bind_eq_ok h
  obtain ⟨_, _, h⟩ := Exec.bind_eq_ok h
  obtain ⟨_, _, h⟩ := Exec.bind_eq_ok h
  exact (wr_length h).trans hs

theorem arrSumAt_length [Add α] {dst dst' src : List α} {dOff sOff n : Nat}
    (h : arrSumAt dst dOff src sOff n = .ok dst') : dst'.length = dst.length := by
  refine forUp_inv (fun s => s.length = dst.length) ?_ rfl h
  intro i s s' hs h
  obtain ⟨_, _, h⟩ := Exec.bind_eq_ok h
  obtain ⟨_, _, h⟩ := Exec.bind_eq_ok h
  exact (wr_length h).trans hs

theorem mapAt_length {f : α → α} {dst dst' : List α} {dOff n : Nat} (h : mapAt f dst dOff n = .ok dst') :
    dst'.length = dst.length := by
  refine forUp_inv (fun s => s.length = dst.length) ?_ rfl h
  intro i s s' hs h
  obtain ⟨_, _, h⟩ := Exec.bind_eq_ok h
  exact (wr_length h).trans hs

theorem outerAcc_length [Add α] [Mul α] {m m' a b : List α} {aOff bOff rows cols : Nat}
    (h : outerAcc m a aOff b bOff rows cols = .ok m') : m'.length = m.length := by
  refine forUp_inv (fun s => s.length = m.length) ?_ rfl h
  intro i s s' hs h
  refine forUp_inv (fun s => s.length = m.length) ?_ hs h
  intro j s s' hs h
  obtain ⟨_, _, h⟩ := Exec.bind_eq_ok h
  obtain ⟨_, _, h⟩ := Exec.bind_eq_ok h
  obtain ⟨_, _, h⟩ := Exec.bind_eq_ok h
  exact (wr_length h).trans hs

theorem inputGradAt_length [Zero α] [Add α] [Mul α] {ig ig' a w : List α} {off rows cols : Nat}
    (h : inputGradAt ig off a w rows cols = .ok ig') : ig'.length = ig.length := by
  obtain ⟨ig1, h1, h⟩ := Exec.bind_eq_ok h
  have e1 : ig1.length = ig.length := by
    refine forUp_inv (fun s => s.length = ig.length) ?_ rfl h1
    intro i s s' hs h
    exact (wr_length h).trans hs
  refine forUp_inv (fun s => s.length = ig.length) ?_ e1 h
  intro i s s' hs h
  refine forUp_inv (fun s => s.length = ig.length) ?_ hs h
  intro j s s' hs h
  obtain ⟨_, _, h⟩ := Exec.bind_eq_ok h
  obtain ⟨_, _, h⟩ := Exec.bind_eq_ok h
  obtain ⟨_, _, h⟩ := Exec.bind_eq_ok h
  exact (wr_length h).trans hs

theorem forward_lengths [Zero α] [Add α] [Mul α] {act : α → α} {l l' : Layer α} {x : List α}
    (h : l.forward act x = .ok l') : ∃ hid out, l' = { l with hidden := hid, output := out } ∧
      hid.length = l.hidden.length ∧ out.length = l.output.length := by
  obtain ⟨s, h1, h⟩ := Exec.bind_eq_ok h
  cases h
  have := forUp_inv (fun s : List α × List α => s.1.length = l.hidden.length ∧ s.2.length = l.output.length) (by
    rintro t s s' ⟨e1, e2⟩ h
    obtain ⟨a1, h1, h⟩ := Exec.bind_eq_ok h
    obtain ⟨a2, h2, h⟩ := Exec.bind_eq_ok h
    obtain ⟨a3, h3, h⟩ := Exec.bind_eq_ok h
    obtain ⟨a4, h4, h⟩ := Exec.bind_eq_ok h
    obtain ⟨a5, h5, h⟩ := Exec.bind_eq_ok h
    obtain ⟨a6, h6, h⟩ := Exec.bind_eq_ok h
    obtain ⟨a7, h7, h⟩ := Exec.bind_eq_ok h
    cases h
    exact ⟨by rw [mapAt_length h5, arrSumAt_length h4, arrSumAt_length h3, matarrMulAt_length h1, e1],
      by rw [arrSumAt_length h7, matarrMulAt_length h6, e2]⟩) ⟨rfl, rfl⟩ h1
  exact ⟨_, _, rfl, this⟩

theorem backward_lengths [Zero α] [Add α] [Mul α] {act : α → α} {l l' : Layer α} {g : List α}
    (h : l.backward act g = .ok l') : ∃ gih ghh gho gbh gbo ig,
      l' = { l with gih := gih, ghh := ghh, gho := gho, gbh := gbh, gbo := gbo, inputGrads := ig } ∧
      gih.length = l.gih.length ∧ ghh.length = l.ghh.length ∧ gho.length = l.gho.length ∧
      gbh.length = l.gbh.length ∧ gbo.length = l.gbo.length ∧ ig.length = l.inputGrads.length := by
  obtain ⟨s, h1, h⟩ := Exec.bind_eq_ok h
  cases h
  have := forUp_inv (fun s : BState α => s.gih.length = l.gih.length ∧ s.ghh.length = l.ghh.length ∧
      s.gho.length = l.gho.length ∧ s.gbh.length = l.gbh.length ∧ s.gbo.length = l.gbo.length ∧
      s.ig.length = l.inputGrads.length) (by
    rintro t s s' ⟨e1, e2, e3, e4, e5, e6⟩ h
    obtain ⟨a1, h1, h⟩ := Exec.bind_eq_ok h
    obtain ⟨a2, h2, h⟩ := Exec.bind_eq_ok h
    obtain ⟨a3, h3, h⟩ := Exec.bind_eq_ok h
    obtain ⟨a4, h4, h⟩ := Exec.bind_eq_ok h
    obtain ⟨a5, h5, h⟩ := Exec.bind_eq_ok h
    obtain ⟨a6, h6, h⟩ := Exec.bind_eq_ok h
    obtain ⟨a7, h7, h⟩ := Exec.bind_eq_ok h
    obtain ⟨a8, h8, h⟩ := Exec.bind_eq_ok h
    obtain ⟨a9, h9, h⟩ := Exec.bind_eq_ok h
    obtain ⟨a10, h10, h⟩ := Exec.bind_eq_ok h
    obtain ⟨a11, h11, h⟩ := Exec.bind_eq_ok h
    cases h
    exact ⟨(outerAcc_length h8).trans e1, (outerAcc_length h9).trans e2, (outerAcc_length h2).trans e3,
      (arrSumAt_length h7).trans e4, (arrSumAt_length h1).trans e5, (inputGradAt_length h10).trans e6⟩)
    ⟨rfl, rfl, rfl, rfl, rfl, rfl⟩ h1
  exact ⟨_, _, _, _, _, _, rfl, this⟩

/-- All buffers have the lengths the constructor gives them. -/
structure Fit (l : Layer α) : Prop extends Sized l where
  gih : l.gih.length = l.hiddenSize * l.inputSize
  ghh : l.ghh.length = l.hiddenSize * l.hiddenSize
  gho : l.gho.length = l.outputSize * l.hiddenSize
  gbh : l.gbh.length = l.hiddenSize
  gbo : l.gbo.length = l.outputSize
  ig : l.inputGrads.length = l.timeSteps * l.inputSize

theorem new_fit [Zero α] (n o h T : Nat) : Fit (Layer.new (α := α) n o h T) := by
  refine ⟨⟨?_, ?_, ?_, ?_, ?_, ?_, ?_⟩, ?_, ?_, ?_, ?_, ?_, ?_⟩ <;> simp [Layer.new, Nat.mul_comm]

theorem Fit.last {l : Layer α} (h : Fit l) (x : List α) : Fit { l with lastInput := x } :=
  ⟨⟨h.wih, h.whh, h.who, h.bh, h.bo, h.output, h.hidden⟩, h.gih, h.ghh, h.gho, h.gbh, h.gbo, h.ig⟩

theorem Fit.forward [Zero α] [Add α] [Mul α] {l l' : Layer α} (h : Fit l) {act : α → α} {x : List α}
    (e : l.forward act x = .ok l') : Fit l' := by
  obtain ⟨hid, out, rfl, e1, e2⟩ := forward_lengths e
  exact ⟨⟨h.wih, h.whh, h.who, h.bh, h.bo, e2.trans h.output, e1.trans h.hidden⟩, h.gih, h.ghh, h.gho, h.gbh, h.gbo, h.ig⟩

theorem Fit.backward [Zero α] [Add α] [Mul α] {l l' : Layer α} (h : Fit l) {act : α → α} {g : List α}
    (e : l.backward act g = .ok l') : Fit l' := by
  obtain ⟨_, _, _, _, _, _, rfl, e1, e2, e3, e4, e5, e6⟩ := backward_lengths e
  exact ⟨⟨h.wih, h.whh, h.who, h.bh, h.bo, h.output, h.hidden⟩, e1.trans h.gih, e2.trans h.ghh, e3.trans h.gho,
    e4.trans h.gbh, e5.trans h.gbo, e6.trans h.ig⟩

theorem forward_sizes [Zero α] [Add α] [Mul α] {l l' : Layer α} {act : α → α} {x : List α}
    (e : l.forward act x = .ok l') :
    l'.inputSize = l.inputSize ∧ l'.outputSize = l.outputSize ∧ l'.timeSteps = l.timeSteps ∧ l'.output.length = l.output.length := by
  obtain ⟨hid, out, rfl, e1, e2⟩ := forward_lengths e
  exact ⟨rfl, rfl, rfl, e2⟩

theorem backward_sizes [Zero α] [Add α] [Mul α] {l l' : Layer α} {act : α → α} {g : List α}
    (e : l.backward act g = .ok l') :
    l'.inputSize = l.inputSize ∧ l'.outputSize = l.outputSize ∧ l'.timeSteps = l.timeSteps ∧ l'.output = l.output := by
  obtain ⟨_, _, _, _, _, _, rfl, _⟩ := backward_lengths e
  exact ⟨rfl, rfl, rfl, rfl⟩

theorem forward_returns [CommSemiring α] (act : α → α) {l : Layer α} (h : Sized l) {x : List α}
    (hx : x.length = l.timeSteps * l.inputSize) : ∃ l', l.forward act x = .ok l' := by
  by_cases hT : l.timeSteps = 1
  · exact ⟨_, forward_eq_one act h hT (by rw [hx, hT, Nat.one_mul])⟩
  · exact ⟨_, forward_eq act h hT hx⟩

end lengths

end Verif.Rnn

namespace Verif.Net

open Verif.Spec Verif.Graph

noncomputable section

/-- A recurrent layer that takes `n` values and gives `m`. -/
def RnnFit (n m : Nat) (a : AnyLayer) : Prop :=
  ∃ f f1 l, a = .rnn f f1 l ∧ Rnn.Fit l ∧ l.timeSteps * l.inputSize = n ∧ l.timeSteps * l.outputSize = m

/-- A layer with buffers of the right lengths; a recurrent one only if `r`. -/
def Servable (r : Bool) (n m : Nat) (a : AnyLayer) : Prop := Sized n m a ∨ (r = true ∧ RnnFit n m a)

variable {r : Bool} {n m : Nat} {a a' : AnyLayer}

theorem RnnFit.forward' (h : RnnFit n m a) {x : List ℝ} {e : Option String} (hx : a.forward x = .ok (a', e)) :
    RnnFit n m a' := by
  obtain ⟨f, f1, l, rfl, h1, h2, h3⟩ := h
  rcases keep_ok hx with rfl | ⟨l', e1, rfl, _⟩
  · exact ⟨f, f1, l, rfl, h1, h2, h3⟩
  · obtain ⟨s1, s2, s3, _⟩ := Rnn.forward_sizes e1
    exact ⟨f, f1, l', rfl, h1.forward e1, by rw [s1, s3, h2], by rw [s2, s3, h3]⟩

theorem RnnFit.last (h : RnnFit n m a) (x : List ℝ) : RnnFit n m (a.setLastInput x) := by
  obtain ⟨f, f1, l, rfl, h1, h2, h3⟩ := h
  exact ⟨f, f1, _, rfl, h1.last x, h2, h3⟩

theorem RnnFit.backward' (h : RnnFit n m a) {g : List ℝ} {e : Option String} (hx : a.backward g = .ok (a', e)) :
    RnnFit n m a' := by
  obtain ⟨f, f1, l, rfl, h1, h2, h3⟩ := h
  rcases keep_ok hx with rfl | ⟨l', e1, rfl, _⟩
  · exact ⟨f, f1, l, rfl, h1, h2, h3⟩
  · obtain ⟨s1, s2, s3, _⟩ := Rnn.backward_sizes e1
    exact ⟨f, f1, l', rfl, h1.backward e1, by rw [s1, s3, h2], by rw [s2, s3, h3]⟩

theorem rnnFit_kept (n m : Nat) : Stable (RnnFit n m) where
  last _ x h := h.last x
  forward _ _ _ _ h e := h.forward' e
  training a x a' e h hx := by
    refine RnnFit.forward' (h.last x) (x := x) (e := e) ?_
    obtain ⟨f, f1, l, rfl, _⟩ := h
    exact hx
  backward _ _ _ _ h e := h.backward' e
  target _ _ _ h := by obtain ⟨f, f1, l, e, _⟩ := h; cases e
  reset _ _ h := by obtain ⟨f, f1, l, e, _⟩ := h; cases e

theorem servable_kept (r : Bool) (n m : Nat) : Stable (Servable r n m) where
  last _ x h := h.imp (fun h => h.setLastInput x) fun h => ⟨h.1, h.2.last x⟩
  forward _ _ _ _ h e := h.imp (fun h => h.forward' e) fun h => ⟨h.1, h.2.forward' e⟩
  training _ _ _ _ h e := h.imp (fun h => h.trainingForward' e) fun h => ⟨h.1, (rnnFit_kept n m).training _ _ _ _ h.2 e⟩
  backward _ _ _ _ h e := h.imp (fun h => h.backward' e) fun h => ⟨h.1, h.2.backward' e⟩
  target _ _ t h := h.imp (fun h => h.1.elim) fun h => ⟨h.1, (rnnFit_kept n m).target _ _ t h.2⟩
  reset _ _ h := h.imp (fun h => h.1.elim) fun h => ⟨h.1, (rnnFit_kept n m).reset _ _ h.2⟩

theorem RnnFit.forward (h : RnnFit n m a) {x : List ℝ} (hx : x.length = n) :
    ∃ a', a.forward x = .ok (a', none) ∧ Filled m a' := by
  obtain ⟨f, f1, l, rfl, h1, h2, h3⟩ := h
  obtain ⟨l', e⟩ := Rnn.forward_returns f h1.toSized (hx.trans h2.symm)
  refine keep_returns e ⟨_, rfl, ?_⟩
  rw [(Rnn.forward_sizes e).2.2.2, h1.output, h3]

theorem RnnFit.trainingForward (h : RnnFit n m a) {x : List ℝ} (hx : x.length = n) :
    ∃ a', a.trainingForward x = .ok (a', none) ∧ Filled m a' := by
  have := (h.last x).forward hx
  obtain ⟨f, f1, l, rfl, _⟩ := h
  exact this

theorem RnnFit.back (h : RnnFit n m a) {x g : List ℝ} (hx : x.length = n) (hg : g.length = m) :
    ∃ a', (a.setLastInput x).backward g = .ok (a', none) ∧ a'.lastOutput = a.lastOutput := by
  obtain ⟨f, f1, l, rfl, h1, h2, h3⟩ := h
  have hl := h1.last x
  have e := Rnn.backward_eq f1 (l := { l with lastInput := x }) (gradients := g)
    { hl with lastInput := hx.trans h2.symm, gradients := hg.trans h3.symm }
  refine keep_returns (P := fun a' => a'.lastOutput = _) e ?_
  rfl

theorem RnnFit.grad (h : RnnFit n m a) : a.lastInputGradient.length = n := by
  obtain ⟨f, f1, l, rfl, h1, h2, h3⟩ := h
  exact h1.ig.trans h2

theorem RnnFit.blocks (h : RnnFit n m a) : Blocks a := by
  obtain ⟨f, f1, l, rfl, h1, h2, h3⟩ := h
  constructor
  · simp [AnyLayer.params, AnyLayer.kind, Opt.Kind.blockSizes, h1.wih, h1.whh, h1.bh, h1.who, h1.bo, Nat.mul_comm]
  · simp [AnyLayer.paramGrads, AnyLayer.kind, Opt.Kind.blockSizes, h1.gih, h1.ghh, h1.gbh, h1.gho, h1.gbo, Nat.mul_comm]

theorem five_of_lengths {v : List (List ℝ)} {a b c d e : List ℝ}
    (h : v.map List.length = [a, b, c, d, e].map List.length) : ∃ a' b' c' d' e', v = [a', b', c', d', e'] ∧
      a'.length = a.length ∧ b'.length = b.length ∧ c'.length = c.length ∧ d'.length = d.length ∧ e'.length = e.length := by
  match v, h with
  | [a', b', c', d', e'], h => 
    simp only [List.map_cons, List.map_nil, List.cons.injEq] at h
    exact ⟨a', b', c', d', e', rfl, h.1, h.2.1, h.2.2.1, h.2.2.2.1, h.2.2.2.2.1⟩
  | [], h => simp at h
  | [_], h => simp at h
  | [_, _], h => simp at h
  | [_, _, _], h => simp at h
  | [_, _, _, _], h => simp at h
  | _ :: _ :: _ :: _ :: _ :: _ :: _, h => simp at h

theorem RnnFit.setParams (h : RnnFit n m a) {ps : List (List ℝ)}
    (hl : ps.map List.length = a.params.map List.length) : RnnFit n m (a.setParams ps) := by
  obtain ⟨f, f1, l, rfl, h1, h2, h3⟩ := h
  obtain ⟨p1, p2, p3, p4, p5, rfl, e1, e2, e3, e4, e5⟩ := five_of_lengths hl
  exact ⟨f, f1, _, rfl, ⟨⟨e1.trans h1.wih, e2.trans h1.whh, e4.trans h1.who, e3.trans h1.bh, e5.trans h1.bo, h1.output,
    h1.hidden⟩, h1.gih, h1.ghh, h1.gho, h1.gbh, h1.gbo, h1.ig⟩, h2, h3⟩

theorem RnnFit.setParamGrads (h : RnnFit n m a) {gs : List (List ℝ)}
    (hl : gs.map List.length = a.paramGrads.map List.length) : RnnFit n m (a.setParamGrads gs) := by
  obtain ⟨f, f1, l, rfl, h1, h2, h3⟩ := h
  obtain ⟨p1, p2, p3, p4, p5, rfl, e1, e2, e3, e4, e5⟩ := five_of_lengths hl
  exact ⟨f, f1, _, rfl, ⟨⟨h1.wih, h1.whh, h1.who, h1.bh, h1.bo, h1.output, h1.hidden⟩, e1.trans h1.gih, e2.trans h1.ghh, e4.trans h1.gho, e3.trans h1.gbh,
    e5.trans h1.gbo, h1.ig⟩, h2, h3⟩

/-! ### Any layer -/

theorem Servable.forward (h : Servable r n m a) {x : List ℝ} (hx : x.length = n) :
    ∃ a', a.forward x = .ok (a', none) ∧ Filled m a' := h.elim (fun h => h.forward hx) fun h => h.2.forward hx

theorem Servable.trainingForward (h : Servable r n m a) {x : List ℝ} (hx : x.length = n) :
    ∃ a', a.trainingForward x = .ok (a', none) ∧ Filled m a' :=
  h.elim (fun h => h.trainingForward hx) fun h => h.2.trainingForward hx

theorem Servable.back (h : Servable r n m a) {x g : List ℝ} (hx : x.length = n) (hg : g.length = m) :
    ∃ a', (a.setLastInput x).backward g = .ok (a', none) ∧ a'.lastOutput = a.lastOutput :=
  h.elim (fun h => backward_returns h hx hg) fun h => h.2.back hx hg

theorem Servable.grad (h : Servable r n m a) : a.lastInputGradient.length = n := h.elim (·.grad) (·.2.grad)

theorem Servable.blocks (h : Servable r n m a) : Blocks a := h.elim (·.blocks) (·.2.blocks)

theorem Servable.setParams (h : Servable r n m a) {ps : List (List ℝ)}
    (hl : ps.map List.length = a.params.map List.length) : Servable r n m (a.setParams ps) :=
  h.imp (·.setParams hl) fun h => ⟨h.1, h.2.setParams hl⟩

theorem Servable.train {σ : Type} (opt : σ → ℝ → ℝ → σ × ℝ) (s : σ) (h : Servable r n m a) :
    ∃ s' a', a.train opt s = ((s', a'), .ok ()) ∧ Servable r n m a' := by
  obtain ⟨s', P, G, h1, h2, h3⟩ := train_returns opt s h.blocks
  refine ⟨s', _, h1, (h.setParams h2).imp (·.setParamGrads ?_) fun h => ⟨h.1, h.2.setParamGrads ?_⟩⟩
  all_goals rw [paramGrads_setParams]; exact h3

/-- Without recurrent layers. -/
theorem Servable.sized (h : Servable r n m a) (hr : r = true → NonRec a) : Sized n m a := by
  rcases h with h | ⟨h, f, f1, l, rfl, _⟩
  · exact h
  · exact (hr h).elim

end

end Verif.Net
